import Verif.Refine.ConformPiece
import Verif.Refine.HCubeProps
import Batteries.Data.Nat.Lemmas

/-! Property C73: the elements of a refined simplex, and of a triangulated cube, prism or pyramid, form a conforming
triangulation.  The specification is `Conforming` in `ConformPiece.lean`. -/

namespace Verif.Refine

open Function Finset
open Equiv (Perm)

variable {K : Type} [Field K] [LinearOrder K] [IsStrictOrderedRing K]

/-! ### the simplex -/

omit [LinearOrder K] [IsStrictOrderedRing K] in
theorem r2k_one (d : Nat) (y : Nat → K) (i : Nat) : diff d (referenceToKuhn d y (1 : Perm Nat)) i = y i := by
  have h := congrFun (C59_inverse d 0 (fun i => i) (Nat.factorial_pos d) (C39_identity d) y).1 i
  rw [kuhnToReference_id] at h
  exact h

theorem pieceS (d n k : Nat) (hd : 0 < d) (hk : k < nElements d n) (it : ElementIterator) (hi : eAt d n k = some it)
    (corners : List (Nat → K)) (hc : it.geometry d = some corners) (c : Nat → Nat → K)
    (hcc : ∀ i, i ≤ d → corners[i]? = some (c i)) :
    ∃ q : Perm Nat, it.kuhnIndex < d.factorial ∧ getPermutation d it.kuhnIndex = some ⇑q ∧ Piece d n (diff d) c 0 1 q it.origin := by
  obtain ⟨it', q, h1, h2, h3, h4, h5, h6, h7⟩ := elem d n hd k hk
  obtain rfl := Option.some.inj (hi.symm.trans h1)
  obtain ⟨it', corners', c', g1, g2, g3, g4, g5⟩ := global_interp (K := K) d n k hd hk
  obtain rfl := Option.some.inj (hi.symm.trans g1)
  obtain rfl := Option.some.inj (hc.symm.trans g2)
  have hcc' : ∀ i, i ≤ d → c i = c' i := fun i hi => Option.some.inj ((hcc i hi).symm.trans (g4 i hi))
  refine ⟨q, h5, h6, fun _ _ => rfl, h4, Nat.factorial_pos d, C39_identity d, fun z hz => ?_, fun z i hi => ?_⟩
  · obtain ⟨it', y, e1, e2, e3⟩ := C60_inside d n k hd hk z hz
    obtain rfl := Option.some.inj (hi.symm.trans e1)
    rw [global_eq d it q h6, h2] at e2
    rw [Option.some.inj e2]
    exact e3
  · obtain ⟨y, e1, e2⟩ := g5 z
    rw [global_eq d it q h6, h2] at e1
    rw [interp_congr (fun l hl => congrFun (hcc' l hl) i), ← e2 i hi, ← Option.some.inj e1, r2k_one d _ i]

/-- C73: the elements of the refined simplex meet in common faces -/
theorem C73_simplex (d n k k' : Nat) (hd : 0 < d) (hk : k < nElements d n) (hk' : k' < nElements d n) (it it' : ElementIterator)
    (hi : eAt d n k = some it) (hi' : eAt d n k' = some it') (corners corners' : List (Nat → K))
    (hc : it.geometry d = some corners) (hc' : it'.geometry d = some corners') (c c' : Nat → Nat → K)
    (hcc : ∀ i, i ≤ d → corners[i]? = some (c i)) (hcc' : ∀ i, i ≤ d → corners'[i]? = some (c' i)) : Conforming d c c' := by
  obtain ⟨q, -, -, P⟩ := pieceS d n k hd hk it hi corners hc c hcc
  obtain ⟨q', -, -, P'⟩ := pieceS d n k' hd hk' it' hi' corners' hc' c' hcc'
  refine P.conforming P' hd (Nat.pos_of_ne_zero fun h => ?_) (.inr rfl) (fun x y h => diff_congr h) (fun x y h => diff_inj d x y h)
  rw [nElements, h, zero_pow (by omega)] at hk
  omega

/-- C73: `vertexIndices()` of two elements of the refined simplex list the same index exactly for the corners they have in
common -/
theorem C73_simplex_index (d n k k' : Nat) (hd : 0 < d) (hk : k < nElements d n) (hk' : k' < nElements d n) :
    ∃ it it' idx idx', ∃ c c' : Nat → Nat → K, ∃ f f' : Fin (d + 1) → Fin (d + 1),
      eAt d n k = some it ∧ eAt d n k' = some it' ∧ it.vertexIndices d = some idx ∧ it'.vertexIndices d = some idx' ∧
      (∃ l, it.geometry d = some l ∧ ∀ i, i ≤ d → l[i]? = some (c i)) ∧ (∃ l, it'.geometry d = some l ∧ ∀ i, i ≤ d → l[i]? = some (c' i)) ∧
      Bijective f ∧ Bijective f' ∧ ∀ r r' : Fin (d + 1), idx r = idx' r' ↔ ∀ l, l < d → c (f r) l = c' (f' r') l := by
  have hn : 0 < n := Nat.pos_of_ne_zero fun h => by
    rw [nElements, h, zero_pow (by omega)] at hk
    omega
  have hn' : (n : K) ≠ 0 := Nat.cast_ne_zero.2 (by omega)
  obtain ⟨it, idx, corners, h1, h2, h3, h4, f, h5, h6⟩ := C42_set_partial (K := K) d n k hd hk
  obtain ⟨it', idx', corners', g1, g2, g3, g4, f', g5, g6⟩ := C42_set_partial (K := K) d n k' hd hk'
  have key : ∀ l : List (Nat → K), l.length = d + 1 → ∀ i, i ≤ d → l[i]? = some (l[i]?.getD fun _ => 0) := fun l hl i hi => by
    rw [List.getElem?_eq_getElem (by omega)]
    rfl
  refine ⟨it, it', idx, idx', fun i => corners[i]?.getD fun _ => 0, fun i => corners'[i]?.getD fun _ => 0, f, f', h1, g1, h2, g2,
    ⟨corners, h3, key corners h4⟩, ⟨corners', g3, key corners' g4⟩, h5, g5, fun r r' => ?_⟩
  obtain ⟨a1, v, x, e, a2, a3, a4, a5⟩ := h6 r
  obtain ⟨b1, v', x', e', b2, b3, b4, b5⟩ := g6 r'
  simp only [a4, b4, Option.getD_some]
  constructor
  · intro h l hl
    rw [h] at a2
    obtain rfl := Option.some.inj (a2.symm.trans b2)
    obtain rfl := Option.some.inj (a3.symm.trans b3)
    rw [← a5 l hl, ← b5 l hl]
  · intro h
    obtain ⟨w, y, q, c1, c2, c3, c4⟩ := C40_inside (K := K) d n hd (idx r) a1
    obtain rfl := Option.some.inj (a2.symm.trans c1)
    obtain rfl := Option.some.inj (a3.symm.trans c2)
    refine (C40_lattice (K := K) d n hd hn q c3).unique ⟨a1, v, x, a2, a3, c4⟩ ⟨b1, v', x', b2, b3, fun i hi => ?_⟩
    rw [b5 i hi, ← h i hi, ← a5 i hi, c4 i hi]

/-! ### the triangulations -/

namespace Triang

variable {s : Scheme K} {dom : (Nat → K) → Prop}

theorem pieceT (h : Fits s dom) (n k : Nat) (hk : k < nElements s n) (it : EIterator) (hi : eAt s n k = some it)
    (corners : List (Nat → K)) (hc : it.geometry s = some corners) (c : Nat → Nat → K)
    (hcc : ∀ i, i ≤ s.dimension → corners[i]? = some (c i)) :
    ∃ p q : Perm Nat, ∃ b, Refine.eAt s.dimension n (k % Refine.nElements s.dimension n) = some b ∧
      getPermutation s.dimension b.kuhnIndex = some ⇑q ∧
      Piece s.dimension n s.transform c (s.permutation (k / Refine.nElements s.dimension n)) p q b.origin := by
  obtain ⟨it1, corners1, c1, p, b, h1, h2, h3, h4, h5, h6, h7, h8⟩ := elemT h n k hk
  obtain rfl := Option.some.inj (h1.symm.trans hi)
  obtain rfl := Option.some.inj (h2.symm.trans hc)
  obtain ⟨hN, a1, a2⟩ := kuhn_lt hk
  obtain ⟨b', q, g1, g2, g3, g4, g5, g6, g7⟩ := elem s.dimension n h.pos _ a2
  obtain rfl := Option.some.inj (h7.symm.trans g1)
  have hcc' : ∀ i, i ≤ s.dimension → c i = c1 i := fun i hi => Option.some.inj ((hcc i hi).symm.trans (h4 i hi))
  refine ⟨p, q, b, h7, g6, h5, g4, h.perm_lt _ a1, h6, fun z hz => ?_, fun z i hi => ?_⟩
  · obtain ⟨it', y, e1, e2, e3⟩ := C60_inside s.dimension n _ h.pos a2 z hz
    obtain rfl := Option.some.inj (h7.symm.trans e1)
    rw [global_eq s.dimension b q g6, g2] at e2
    rw [Option.some.inj e2]
    exact e3
  · obtain ⟨y, e1, e2⟩ := h8 z
    rw [global_eq s.dimension b q g6, g2] at e1
    rw [interp_congr (fun l hl => congrFun (hcc' l hl) i), e2 i hi, ← Option.some.inj e1]

/-- the elements of the refinement `s` with `n` intervals meet in common faces -/
def AllConform (s : Scheme K) (n : Nat) : Prop :=
  ∀ k k', k < nElements s n → k' < nElements s n → ∀ it it', eAt s n k = some it → eAt s n k' = some it' →
    ∀ corners corners', it.geometry s = some corners → it'.geometry s = some corners' → ∀ c c' : Nat → Nat → K,
      (∀ i, i ≤ s.dimension → corners[i]? = some (c i)) → (∀ i, i ≤ s.dimension → corners'[i]? = some (c' i)) →
        Conforming s.dimension c c'

theorem conforming (h : Fits s dom) (n k k' : Nat) (hk : k < nElements s n) (hk' : k' < nElements s n)
    (hdim : s.dimension ≤ 3 ∨ k / Refine.nElements s.dimension n = k' / Refine.nElements s.dimension n) (it it' : EIterator)
    (hi : eAt s n k = some it) (hi' : eAt s n k' = some it') (corners corners' : List (Nat → K))
    (hc : it.geometry s = some corners) (hc' : it'.geometry s = some corners') (c c' : Nat → Nat → K)
    (hcc : ∀ i, i ≤ s.dimension → corners[i]? = some (c i)) (hcc' : ∀ i, i ≤ s.dimension → corners'[i]? = some (c' i)) :
    Conforming s.dimension c c' := by
  obtain ⟨p, q, b, -, -, P⟩ := pieceT h n k hk it hi corners hc c hcc
  obtain ⟨p', q', b', -, -, P'⟩ := pieceT h n k' hk' it' hi' corners' hc' c' hcc'
  obtain ⟨hN, -⟩ := kuhn_lt hk
  exact P.conforming P' h.pos (intervals_pos h.pos hN) (hdim.imp_right fun e => by rw [e]) h.congr h.inj

/-- C73 as stated for triangulated cubes: the elements meet in common faces -/
def C73_cube_full (K : Type) [Field K] [LinearOrder K] : Prop := ∀ d, 0 < d → ∀ n, AllConform (hcube d : Scheme K) n

/-- C73: they do up to dimension three.  (Missing: higher dimensions, see `C73_cube_counterexample`.) -/
theorem C73_cube_partial (d : Nat) (hd : 0 < d) (h3 : d ≤ 3) (n : Nat) : AllConform (hcube d : Scheme K) n :=
  fun k k' hk hk' it it' hi hi' l l' hl hl' c c' hc hc' =>
    conforming (C44_cube_scheme d hd) n k k' hk hk' (.inl h3) it it' hi hi' l l' hl hl' c c' hc hc'

/-- C73: the elements of a refined prism meet in common faces -/
theorem C73_prism (n : Nat) : AllConform (prism : Scheme K) n :=
  fun k k' hk hk' it it' hi hi' l l' hl hl' c c' hc hc' =>
    conforming C44_prism_scheme n k k' hk hk' (.inl le_rfl) it it' hi hi' l l' hl hl' c c' hc hc'

/-- C73: the elements of a refined pyramid meet in common faces -/
theorem C73_pyramid (n : Nat) : AllConform (pyramid : Scheme K) n :=
  fun k k' hk hk' it it' hi hi' l l' hl hl' c c' hc hc' =>
    conforming C44_pyramid_scheme n k k' hk hk' (.inl le_rfl) it it' hi hi' l l' hl hl' c c' hc hc'

/-- C73: in every dimension the elements of the same Kuhn simplex meet in common faces -/
theorem C73_same_kuhn (d : Nat) (hd : 0 < d) (n k k' : Nat) (hk : k < nElements (hcube d : Scheme K) n)
    (hk' : k' < nElements (hcube d : Scheme K) n) (he : k / n ^ d = k' / n ^ d) (it it' : EIterator)
    (hi : eAt (hcube d : Scheme K) n k = some it) (hi' : eAt (hcube d : Scheme K) n k' = some it') (l l' : List (Nat → K))
    (hl : it.geometry (hcube d) = some l) (hl' : it'.geometry (hcube d) = some l') (c c' : Nat → Nat → K)
    (hc : ∀ i, i ≤ d → l[i]? = some (c i)) (hc' : ∀ i, i ≤ d → l'[i]? = some (c' i)) : Conforming d c c' :=
  conforming (C44_cube_scheme d hd) n k k' hk hk' (.inr he) it it' hi hi' l l' hl hl' c c' hc hc'

/-- C73: the vertices are numbered for each Kuhn simplex on its own: elements of different Kuhn simplices list no common index,
not even where they have common corners -/
theorem C73_index_split (h : Fits s dom) (n k k' : Nat) (hk : k < nElements s n) (hk' : k' < nElements s n)
    (he : k / Refine.nElements s.dimension n ≠ k' / Refine.nElements s.dimension n) (it it' : EIterator) (hi : eAt s n k = some it)
    (hi' : eAt s n k' = some it') (idx idx' : Nat → Nat) (hx : it.vertexIndices s = some idx) (hx' : it'.vertexIndices s = some idx')
    (r r' : Nat) (hr : r ≤ s.dimension) (hr' : r' ≤ s.dimension) : idx r ≠ idx' r' := by
  have key : ∀ k, k < nElements s n → ∀ it, eAt s n k = some it → ∀ idx, it.vertexIndices s = some idx → ∀ r, r ≤ s.dimension →
      idx r / Refine.nVertices s.dimension n = k / Refine.nElements s.dimension n := by
    intro k hk it hi idx hx r hr
    obtain ⟨hN, a1, a2⟩ := kuhn_lt hk
    obtain ⟨b, e1, e2⟩ := eAt_eq s h.pos n (intervals_pos h.pos hN) k
    obtain rfl := Option.some.inj (hi.symm.trans e2)
    obtain ⟨b', bidx, l, f1, f2, f3, f4, f, f5, f6⟩ := C42_set_partial (K := K) s.dimension n _ h.pos a2
    obtain rfl := Option.some.inj (e1.symm.trans f1)
    rw [EIterator.vertexIndices, f2, Option.map_some] at hx
    obtain rfl := Option.some.inj hx
    have := (f6 ⟨r, by omega⟩).1
    simp only at this
    show (bidx r + _ * _) / _ = _
    rw [Nat.add_mul_div_right _ _ (Nat.zero_lt_of_lt this), Nat.div_eq_of_lt this, Nat.zero_add]
  intro hcon
  rw [← key k hk it hi idx hx r hr, ← key k' hk' it' hi' idx' hx' r' hr', hcon] at he
  exact he rfl

/-! #### dimension four -/

omit [LinearOrder K] [IsStrictOrderedRing K] in
theorem r2k_perm {d : Nat} {p p' : Nat → Nat} (h : ∀ i, i < d → p i = p' i) (x : Nat → K) : referenceToKuhn d x p = referenceToKuhn d x p' := by
  have key : ∀ i (x : Nat → K), i < d → r2kLoop p i x = r2kLoop p' i x := by
    intro i
    induction i with
    | zero => intro x _; rfl
    | succ i ih => intro x hi; rw [r2kLoop, r2kLoop, ih _ (by omega), h i (by omega), h (i + 1) hi]
  rcases Nat.eq_zero_or_pos d with rfl | hd
  · rfl
  · exact key _ x (by omega)

/-- every lattice Kuhn simplex is an element -/
theorem exists_piece (d n : Nat) (hd : 0 < d) (hn : 0 < n) (σ τ : Perm (Fin d)) (f g o : Nat → Nat) (hf : ∀ i : Fin d, f i = σ i)
    (hg : ∀ i : Fin d, g i = τ i) (h : SubSimplex d n o g) :
    ∃ k it corners, ∃ c : Nat → Nat → K, k < nElements (hcube d : Scheme K) n ∧ eAt (hcube d : Scheme K) n k = some it ∧
      it.geometry (hcube d) = some corners ∧ (∀ i, i ≤ d → corners[i]? = some (c i)) ∧
      ∀ z i, i < d → interp d c z i = referenceToKuhn d (diff d fun j => (referenceToKuhn d z g j + o j) / (n : K)) f i := by
  obtain ⟨κ, hκ, p, hp, hp'⟩ := exists_index d σ
  obtain ⟨e, ⟨he, b, q, hb, hq, ho, hq'⟩, -⟩ := C41_once d n hd o g τ hg h
  have hN : 0 < Refine.nElements d n := pow_pos hn d
  have hk : e + κ * Refine.nElements d n < nElements (hcube d : Scheme K) n := by
    have : (κ + 1) * Refine.nElements d n ≤ d.factorial * Refine.nElements d n := Nat.mul_le_mul_right _ hκ
    show _ < Refine.nElements d n * d.factorial
    rw [Nat.mul_comm _ d.factorial]
    rw [Nat.add_mul, Nat.one_mul] at this
    omega
  obtain ⟨it, corners, c, P, B, h1, h2, h3, h4, h5, h6, h7, h8⟩ := elemT (C44_cube_scheme (K := K) d hd) n _ hk
  obtain ⟨p', q', b', g1, g2, Q⟩ := pieceT (C44_cube_scheme d hd) n _ hk it h1 corners h2 c h4
  have e1 : (e + κ * Refine.nElements d n) % Refine.nElements d n = e := by rw [Nat.add_mul_mod_self_right, Nat.mod_eq_of_lt he]
  have e2 : (e + κ * Refine.nElements d n) / Refine.nElements d n = κ := by
    rw [Nat.add_mul_div_right _ _ hN, Nat.div_eq_of_lt he, Nat.zero_add]
  have g1' : Refine.eAt d n e = some b' := by rw [← g1]; exact congrArg _ e1.symm
  obtain rfl := Option.some.inj (hb.symm.trans g1')
  have hqq : (⇑q' : Nat → Nat) = q := Option.some.inj (g2.symm.trans hq)
  have hpp : (⇑p' : Nat → Nat) = p := Option.some.inj (Q.hg.symm.trans (by rw [← hp]; exact congrArg _ e2))
  refine ⟨_, it, corners, c, hk, h1, h2, h4, fun z i hi => ?_⟩
  refine Eq.trans (b := referenceToKuhn d (diff d fun j => (referenceToKuhn d z q' j + b.origin j) / (n : K)) p' i) (Q.map z i hi)
    ((r2k_congr Q.hp (diff_congr (d := d) (z := fun j => (referenceToKuhn d z g j + o j) / (n : K)) fun j hj => ?_) i hi).trans ?_)
  · rw [ho j hj, hqq]
    exact congrArg (fun x : Nat → K => (x j + o j) / (n : K)) (r2k_perm hq' z)
  · show referenceToKuhn d _ p' i = _
    rw [hpp]
    exact congrFun (r2k_perm (fun i hi => (hp' ⟨i, hi⟩).trans (hf ⟨i, hi⟩).symm) _) i

theorem subSimplex_four (o p : Nat → Nat)
    (h : ∀ i, i < 5 → (∀ j, j < 3 → pathCorner o p i (j + 1) ≤ pathCorner o p i j) ∧ pathCorner o p i 0 ≤ 2) : SubSimplex 4 2 o p :=
  fun i hi => ⟨fun j hj => (h i (by omega)).1 j (by omega), (h i (by omega)).2⟩

/-- For four-dimensional cubes and two intervals there are elements of different Kuhn simplices that do not meet in a common
face: the point `(3/4, 1/2, 3/4, 1/4)` is the midpoint of an edge of each of them, and the edges have no common end. -/
theorem C73_cube_counterexample : ¬ C73_cube_full K ∧ ¬ AllConform (hcube 4 : Scheme K) 2 := by
  have key : ¬ AllConform (hcube 4 : Scheme K) 2 := by
    intro h
    obtain ⟨k, it, l, c, h1, h2, h3, h4, h5⟩ := exists_piece (K := K) 4 2 (by omega) (by omega) ⟨![0, 2, 1, 3], ![0, 2, 1, 3], by decide, by decide⟩
      ⟨![0, 1, 3, 2], ![0, 1, 3, 2], by decide, by decide⟩ (fun i => if i = 1 then 2 else if i = 2 then 1 else i)
      (fun i => if i = 2 then 3 else if i = 3 then 2 else i) (fun i => if i < 3 then 1 else 0) (by decide) (by decide)
      (subSimplex_four _ _ (by decide))
    obtain ⟨k', it', l', c', g1, g2, g3, g4, g5⟩ := exists_piece (K := K) 4 2 (by omega) (by omega) ⟨![2, 0, 1, 3], ![1, 2, 0, 3], by decide, by decide⟩
      ⟨![0, 2, 3, 1], ![0, 3, 1, 2], by decide, by decide⟩ (fun i => if i = 0 then 2 else if i = 1 then 0 else if i = 2 then 1 else i)
      (fun i => if i = 1 then 2 else if i = 2 then 3 else if i = 3 then 1 else i) (fun i => if i < 2 then 1 else 0) (by decide) (by decide)
      (subSimplex_four _ _ (by decide))
    have hcon := h k k' h1 g1 it it' h2 g2 l l' h3 g3 c c' h4 g4
    have hz : InSimplex 4 (fun i => if i = 3 then (1 / 2 : K) else 0) := by
      constructor
      · intro i _
        dsimp only
        split <;> norm_num
      · simp
        norm_num
    obtain ⟨a1, -⟩ := hcon _ _ hz hz (by
      intro i hi
      have hi : i < 4 := hi
      refine (h5 _ i hi).trans (Eq.trans ?_ (g5 _ i hi).symm)
      interval_cases i <;> norm_num [referenceToKuhn, r2kLoop, diff, update])
    obtain ⟨j, hj, a2⟩ := a1 0 (Nat.zero_le _) (by
      show 0 < bary 4 _ 0
      simp [bary]
      norm_num)
    have hj : j ≤ 4 := hj
    have a3 : ∀ l, l < 4 → interp 4 c (unit 0) l = interp 4 c' (unit j) l := fun l hl => by
      rw [interp_corner c (by omega) l, interp_corner c' hj l]
      exact a2 l hl
    have a4 := a3 1 (by omega)
    have a5 := a3 2 (by omega)
    rw [h5 _ _ (by omega), g5 _ _ (by omega)] at a4 a5
    interval_cases j <;> simp [referenceToKuhn, r2kLoop, diff, update, unit] at a4 a5
  exact ⟨fun h => key (h 4 (by omega) 2), key⟩

end Triang

/-! ### continuity -/

/-- value at `z` of the affine function on the simplex with corners `c` that has the value `u (c i)` at corner `i` -/
def nodal (d : Nat) (c : Nat → Nat → K) (u : (Nat → K) → K) (z : Nat → K) : K := ∑ i ∈ range (d + 1), bary d z i * u (c i)

theorem Conforming.distinct {d : Nat} {c : Nat → Nat → K} (h : Conforming d c c) {i j : Nat} (hi : i ≤ d) (hj : j ≤ d)
    (he : ∀ l, l < d → c i l = c j l) : i = j := by
  have h1 := (h _ _ (unit_simplex hi) (unit_simplex hi) fun _ _ => rfl).2 i j hi hj he
  by_contra hne
  have e : ∀ i j, i ≤ d → j ≤ d → bary d (unit (K := K) i) j = if i = j then 1 else 0 := by
    intro i j hi hj
    rw [bary]
    rcases j with _ | j
    · rw [if_pos rfl]
      rcases i with _ | i
      · simp [unit]
      · rw [sum_eq_single i]
        · simp [unit]
        · intro b _ hb
          simp [unit, hb]
        · intro h
          exact absurd (mem_range.2 (by omega)) h
    · rw [if_neg (by omega), unit, Nat.add_sub_cancel]
      exact if_congr eq_comm rfl rfl
  rw [e i i hi hi, e i j hi hj, if_pos rfl, if_neg hne] at h1
  exact one_ne_zero h1

/-- in a conforming triangulation piecewise linear interpolation of nodal values is continuous: both elements give the same
value at a common point -/
theorem Conforming.nodal_eq {d : Nat} {c c' : Nat → Nat → K} (h : Conforming d c c') (h' : Conforming d c' c) (hs : Conforming d c c)
    (hs' : Conforming d c' c') (u : (Nat → K) → K) (hu : ∀ x y, (∀ l, l < d → x l = y l) → u x = u y) {z z' : Nat → K} (hz : InSimplex d z)
    (hz' : InSimplex d z') (he : ∀ i, i < d → interp d c z i = interp d c' z' i) : nodal d c u z = nodal d c' u z' := by
  obtain ⟨h1, h2⟩ := h z z' hz hz' he
  obtain ⟨h3, -⟩ := h' z' z hz' hz fun i hi => (he i hi).symm
  have h1' : ∀ i, ∃ j, i ≤ d → bary d z i ≠ 0 → j ≤ d ∧ ∀ l, l < d → c i l = c' j l := by
    intro i
    by_cases hi : i ≤ d
    · by_cases h0 : bary d z i = 0
      · exact ⟨0, fun _ h => absurd h0 h⟩
      · obtain ⟨j, hj⟩ := h1 i hi (lt_of_le_of_ne (bary_nonneg hz i hi) (Ne.symm h0))
        exact ⟨j, fun _ _ => hj⟩
    · exact ⟨0, fun h => absurd h hi⟩
  choose g hg using h1'
  rw [nodal, nodal]
  refine sum_bij_ne_zero (fun i _ _ => g i) ?_ ?_ ?_ ?_
  · intro i hi h0
    have hi := Nat.lt_succ_iff.1 (mem_range.1 hi)
    exact mem_range.2 (Nat.lt_succ_of_le (hg i hi (left_ne_zero_of_mul h0)).1)
  · intro i hi h0 j hj h0' e
    have hi := Nat.lt_succ_iff.1 (mem_range.1 hi)
    have hj := Nat.lt_succ_iff.1 (mem_range.1 hj)
    refine hs.distinct hi hj fun l hl => ?_
    rw [(hg i hi (left_ne_zero_of_mul h0)).2 l hl, (hg j hj (left_ne_zero_of_mul h0')).2 l hl, e]
  · intro j hj h0
    have hj := Nat.lt_succ_iff.1 (mem_range.1 hj)
    obtain ⟨i, hi, e⟩ := h3 j hj (lt_of_le_of_ne (bary_nonneg hz' j hj) (Ne.symm (left_ne_zero_of_mul h0)))
    have hb := h2 i j hi hj fun l hl => (e l hl).symm
    have hb0 : bary d z i ≠ 0 := by rw [hb]; exact left_ne_zero_of_mul h0
    have hv : u (c i) = u (c' j) := hu _ _ fun l hl => (e l hl).symm
    refine ⟨i, mem_range.2 (by omega), mul_ne_zero hb0 (by rw [hv]; exact right_ne_zero_of_mul h0), ?_⟩
    exact hs'.distinct (hg i hi hb0).1 hj fun l hl => ((hg i hi hb0).2 l hl).symm.trans (e l hl).symm
  · intro i hi h0
    have hi := Nat.lt_succ_iff.1 (mem_range.1 hi)
    obtain ⟨hj, e⟩ := hg i hi (left_ne_zero_of_mul h0)
    rw [h2 i _ hi hj e, hu _ _ e]

/-- C73: piecewise linear interpolation on the refined simplex is continuous: the elements that meet in a point give the same
value there -/
theorem C73_simplex_continuous (d n k k' : Nat) (hd : 0 < d) (hk : k < nElements d n) (hk' : k' < nElements d n)
    (it it' : ElementIterator) (hi : eAt d n k = some it) (hi' : eAt d n k' = some it') (corners corners' : List (Nat → K))
    (hc : it.geometry d = some corners) (hc' : it'.geometry d = some corners') (c c' : Nat → Nat → K)
    (hcc : ∀ i, i ≤ d → corners[i]? = some (c i)) (hcc' : ∀ i, i ≤ d → corners'[i]? = some (c' i)) (u : (Nat → K) → K)
    (hu : ∀ x y, (∀ l, l < d → x l = y l) → u x = u y) (z z' : Nat → K) (hz : InSimplex d z) (hz' : InSimplex d z')
    (he : ∀ i, i < d → interp d c z i = interp d c' z' i) : nodal d c u z = nodal d c' u z' :=
  (C73_simplex d n k k' hd hk hk' it it' hi hi' corners corners' hc hc' c c' hcc hcc').nodal_eq
    (C73_simplex d n k' k hd hk' hk it' it hi' hi corners' corners hc' hc c' c hcc' hcc)
    (C73_simplex d n k k hd hk hk it it hi hi corners corners hc hc c c hcc hcc)
    (C73_simplex d n k' k' hd hk' hk' it' it' hi' hi' corners' corners' hc' hc' c' c' hcc' hcc') u hu hz hz' he

namespace Triang

/-- C73: so it is on every conforming triangulation, in particular (`C73_cube_partial`, `C73_prism`, `C73_pyramid`) on
triangulated squares, cubes, prisms and pyramids -/
theorem C73_triang_continuous (s : Scheme K) (n : Nat) (h : AllConform s n) (k k' : Nat) (hk : k < nElements s n) (hk' : k' < nElements s n)
    (it it' : EIterator) (hi : eAt s n k = some it) (hi' : eAt s n k' = some it') (corners corners' : List (Nat → K))
    (hc : it.geometry s = some corners) (hc' : it'.geometry s = some corners') (c c' : Nat → Nat → K)
    (hcc : ∀ i, i ≤ s.dimension → corners[i]? = some (c i)) (hcc' : ∀ i, i ≤ s.dimension → corners'[i]? = some (c' i))
    (u : (Nat → K) → K) (hu : ∀ x y, (∀ l, l < s.dimension → x l = y l) → u x = u y) (z z' : Nat → K) (hz : InSimplex s.dimension z)
    (hz' : InSimplex s.dimension z') (he : ∀ i, i < s.dimension → interp s.dimension c z i = interp s.dimension c' z' i) :
    nodal s.dimension c u z = nodal s.dimension c' u z' :=
  (h k k' hk hk' it it' hi hi' corners corners' hc hc' c c' hcc hcc').nodal_eq
    (h k' k hk' hk it' it hi' hi corners' corners hc' hc c' c hcc' hcc) (h k k hk hk it it hi hi corners corners hc hc c c hcc hcc)
    (h k' k' hk' hk' it' it' hi' hi' corners' corners' hc' hc' c' c' hcc' hcc') u hu hz hz' he

/-- the triangulated cube with two intervals has 48 elements that meet in common faces -/
example : AllConform (hcube 3 : Scheme ℚ) 2 ∧ nElements (hcube 3 : Scheme ℚ) 2 = 48 := ⟨C73_cube_partial 3 (by omega) le_rfl 2, by decide⟩

end Triang

/-- elements 0 and 2 of the triangle with two intervals have corners, and the middle of the edge they have in common lies in both -/
example : ∃ it it' l l', ∃ c c' : Nat → Nat → ℚ, ∃ z z', 2 < nElements 2 2 ∧ eAt 2 2 0 = some it ∧ eAt 2 2 2 = some it' ∧
    it.geometry 2 = some l ∧ it'.geometry 2 = some l' ∧ (∀ i, i ≤ 2 → l[i]? = some (c i)) ∧ (∀ i, i ≤ 2 → l'[i]? = some (c' i)) ∧
    InSimplex 2 z ∧ InSimplex 2 z' ∧ ∀ i, i < 2 → interp 2 c z i = interp 2 c' z' i := by
  obtain ⟨it, l, c, h1, h2, h3, h4, h5⟩ := global_interp (K := ℚ) 2 2 0 (by omega) (by decide)
  obtain ⟨it', l', c', g1, g2, g3, g4, g5⟩ := global_interp (K := ℚ) 2 2 2 (by omega) (by decide)
  refine ⟨it, it', l, l', c, c', fun _ => 1 / 2, fun i => if i = 1 then 1 / 2 else 0, by decide, h1, g1, h2, g2, h4, g4, ?_, ?_, ?_⟩
  · exact ⟨fun i _ => by norm_num, by norm_num [sum_range_succ]⟩
  · exact ⟨fun i _ => by dsimp only; split <;> norm_num, by norm_num [sum_range_succ]⟩
  · obtain ⟨y, e1, e2⟩ := h5 fun _ => 1 / 2
    obtain ⟨y', e1', e2'⟩ := g5 fun i => if i = 1 then 1 / 2 else 0
    have a : ((eAt 2 2 0).bind fun it => (it.global 2 fun _ => (1 / 2 : ℚ)).map fun y => (y 0, y 1)) = some (1 / 4, 1 / 4) := by decide +kernel
    have b : ((eAt 2 2 2).bind fun it => (it.global 2 fun i => if i = 1 then (1 / 2 : ℚ) else 0).map fun y => (y 0, y 1)) =
      some (1 / 4, 1 / 4) := by decide +kernel
    rw [h1, Option.bind_some, e1, Option.map_some, Option.some.injEq, Prod.mk.injEq] at a
    rw [g1, Option.bind_some, e1', Option.map_some, Option.some.injEq, Prod.mk.injEq] at b
    intro i hi
    rw [← e2 i hi, ← e2' i hi]
    interval_cases i
    · rw [a.1, b.1]
    · rw [a.2, b.2]

/-! ### cubes -/

namespace HCube

open Verif.Cube

/-- weight of corner `a` in multilinear interpolation on the box `g` -/
noncomputable def weight (d : Nat) (g : AxisAlignedCubeGeometry) (a : Nat) (x : Nat → ℝ) : ℝ :=
  ∏ j ∈ range d, if a.testBit j then (x j - g.lower j) / (g.upper j - g.lower j) else (g.upper j - x j) / (g.upper j - g.lower j)

theorem weight_eq (d n : Nat) (hn : 0 < n) (g : AxisAlignedCubeGeometry) (c : Nat → Nat)
    (hg : ∀ i, i < d → g.lower i = (c i : ℝ) / n ∧ g.upper i = (c i + 1 : ℝ) / n) (x : Nat → ℝ)
    (hx : ∀ i, i < d → g.lower i ≤ x i ∧ x i ≤ g.upper i) (a : Nat) :
    weight d g a x = ∏ j ∈ range d, (1 - |n * x j - ((if a.testBit j then 1 else 0) + c j : Nat)|) := by
  have hn' : (0 : ℝ) < n := Nat.cast_pos.2 hn
  refine prod_congr rfl fun j hj => ?_
  obtain ⟨h1, h2⟩ := hg j (mem_range.1 hj)
  obtain ⟨h3, h4⟩ := hx j (mem_range.1 hj)
  rw [h1, div_le_iff₀ hn'] at h3
  rw [h2, le_div_iff₀ hn'] at h4
  rw [h1, h2]
  have e : ((c j + 1 : ℝ) / n - c j / n) = 1 / n := by ring
  rw [e]
  split
  · rw [abs_of_nonpos (by push_cast; linarith)]
    push_cast
    field_simp
    ring
  · rw [abs_of_nonneg (by push_cast; linarith)]
    push_cast
    field_simp
    ring

/-- C73: elements of the refined cube that have a point in common list the same vertex index for every corner that carries the
point, and the weights of multilinear interpolation at corners with the same index agree -/
theorem C73_cubes (d n k k' : Nat) (hn : 0 < n) (g g' : AxisAlignedCubeGeometry)
    (hg : (at' (eBegin n) k).eGeometry d = some g) (hg' : (at' (eBegin n) k').eGeometry d = some g') (idx idx' : List Nat)
    (hi : (at' (eBegin n) k).vertexIndices d = some idx) (hi' : (at' (eBegin n) k').vertexIndices d = some idx') (x : Nat → ℝ)
    (hx : ∀ i, i < d → g.lower i ≤ x i ∧ x i ≤ g.upper i) (hx' : ∀ i, i < d → g'.lower i ≤ x i ∧ x i ≤ g'.upper i) :
    (∀ a, a < 2 ^ d → 0 < weight d g a x → ∃ b, b < 2 ^ d ∧ idx[a]? = idx'[b]?) ∧
    ∀ a b, a < 2 ^ d → b < 2 ^ d → idx[a]? = idx'[b]? → weight d g a x = weight d g' b x := by
  have cell : ∀ k g idx, (at' (eBegin n) k).eGeometry d = some g → (at' (eBegin n) k).vertexIndices d = some idx → ∃ c, Grid d n c ∧
      (∀ i, i < d → g.lower i = (c i : ℝ) / n ∧ g.upper i = (c i + 1 : ℝ) / n) ∧
      ∀ a, a < 2 ^ d → idx[a]? = some (∑ j ∈ range d, ((if a.testBit j then 1 else 0) + c j) * (n + 1) ^ j) := by
    intro k g idx hg hi
    obtain ⟨v, h1, h2⟩ := idx2coord_eq d k n hn
    rw [at_eq, Iterator.eGeometry] at hg
    rw [at_eq, Iterator.vertexIndices, Iterator.cellCoord] at hi
    simp only [eBegin, Nat.zero_add, h1, Option.map_some] at hg hi
    obtain rfl := Option.some.inj hg
    obtain rfl := Option.some.inj hi
    refine ⟨v, fun i hi => by rw [h2 i hi]; exact Nat.mod_lt _ hn, fun i hi => ⟨rfl, by simp [ofCorners]⟩, fun a ha => ?_⟩
    rw [List.getElem?_map, List.getElem?_range (by rw [Nat.one_shiftLeft]; exact ha), Option.map_some, vertexIndex_eq]
  obtain ⟨c, hc, h1, h2⟩ := cell k g idx hg hi
  obtain ⟨c', hc', h1', h2'⟩ := cell k' g' idx' hg' hi'
  have hn' : (0 : ℝ) < n := Nat.cast_pos.2 hn
  have grid : ∀ (c : Nat → Nat) (a : Nat), Grid d n c → Grid d (n + 1) fun j => (if a.testBit j then 1 else 0) + c j := by
    intro c a hc j hj
    have := hc j hj
    show (if a.testBit j then 1 else 0) + c j < n + 1
    split <;> omega
  have same : ∀ a b : Nat, a < 2 ^ d → b < 2 ^ d → (idx[a]? = idx'[b]? ↔
      ∀ j, j < d → (if a.testBit j then 1 else 0) + c j = (if b.testBit j then 1 else 0) + c' j) := by
    intro a b ha hb
    rw [h2 a ha, h2' b hb, Option.some.injEq]
    constructor
    · intro e j hj
      have e1 := ((digits d (n + 1) _ _ (grid c a hc)).2 rfl).2 j hj
      have e2 := ((digits d (n + 1) _ _ (grid c' b hc')).2 rfl).2 j hj
      rw [e] at e1
      exact e1.trans e2.symm
    · intro e
      exact sum_congr rfl fun j hj => by rw [e j (mem_range.1 hj)]
  refine ⟨fun a ha hw => ?_, fun a b ha hb e => ?_⟩
  · rw [weight_eq d n hn g c h1 x hx] at hw
    have hne : ∀ j, j < d → |n * x j - ((if a.testBit j then 1 else 0) + c j : Nat)| < 1 := by
      intro j hj
      have h0 := prod_ne_zero_iff.1 hw.ne' j (mem_range.2 hj)
      have hle : |n * x j - ((if a.testBit j then 1 else 0) + c j : Nat)| ≤ 1 := by
        obtain ⟨h3, h4⟩ := hx j hj
        rw [(h1 j hj).1, div_le_iff₀ hn'] at h3
        rw [(h1 j hj).2, le_div_iff₀ hn'] at h4
        rw [abs_le]
        split <;> push_cast <;> constructor <;> linarith
      exact lt_of_le_of_ne hle fun h => h0 (by rw [h, sub_self])
    refine ⟨Nat.ofBits fun j : Fin d => decide ((if a.testBit j then 1 else 0) + c j = 1 + c' j), Nat.ofBits_lt_two_pow _,
      (same a _ ha (Nat.ofBits_lt_two_pow _)).2 fun j hj => ?_⟩
    rw [Nat.testBit_ofBits_lt _ j hj]
    have h5 := abs_lt.1 (hne j hj)
    obtain ⟨h3, h4⟩ := hx' j hj
    rw [(h1' j hj).1, div_le_iff₀ hn'] at h3
    rw [(h1' j hj).2, le_div_iff₀ hn'] at h4
    set v := (if a.testBit j then 1 else 0) + c j with hv
    have b1 : v < c' j + 2 := by
      have : (v : ℝ) < c' j + 2 := by linarith
      exact_mod_cast this
    have b2 : c' j < v + 1 := by
      have : (c' j : ℝ) < v + 1 := by linarith
      exact_mod_cast this
    by_cases hcase : v = 1 + c' j
    · simp [hcase]
    · simp only [hcase, decide_false, Bool.false_eq_true, if_false]
      omega
  · rw [weight_eq d n hn g c h1 x hx, weight_eq d n hn g' c' h1' x hx']
    exact prod_congr rfl fun j hj => by rw [(same a b ha hb).1 e j (mem_range.1 hj)]

/-- two neighbouring elements of the refined square and a point of their common edge -/
example : ∃ k k' g g' idx idx', (at' (eBegin 2) k).eGeometry 2 = some g ∧ (at' (eBegin 2) k').eGeometry 2 = some g' ∧
    (at' (eBegin 2) k).vertexIndices 2 = some idx ∧ (at' (eBegin 2) k').vertexIndices 2 = some idx' ∧
    ∃ x : Nat → ℝ, (∀ i, i < 2 → g.lower i ≤ x i ∧ x i ≤ g.upper i) ∧ (∀ i, i < 2 → g'.lower i ≤ x i ∧ x i ≤ g'.upper i) ∧
      g.lower 0 ≠ g'.lower 0 := by
  obtain ⟨k, ⟨hk, g, h1, h2⟩, -⟩ := C43_elements 2 2 (by omega) (fun _ => 0) fun _ _ => by show 0 < 2; omega
  obtain ⟨k', ⟨hk', g', h1', h2'⟩, -⟩ := C43_elements 2 2 (by omega) (fun i => 1 - i) fun i _ => by show 1 - i < 2; omega
  obtain ⟨-, idx, -, h3, -⟩ := C43_vertexIndices 2 2 k (by omega) hk
  obtain ⟨-, idx', -, h3', -⟩ := C43_vertexIndices 2 2 k' (by omega) hk'
  refine ⟨k, k', g, g', idx, idx', h1, h1', h3, h3', fun i => if i = 0 then 1 / 2 else 1 / 4, fun i hi => ?_, fun i hi => ?_, ?_⟩
  · rw [(h2 i hi).1, (h2 i hi).2]
    interval_cases i <;> norm_num
  · rw [(h2' i hi).1, (h2' i hi).2]
    interval_cases i <;> norm_num
  · rw [(h2 0 (by omega)).1, (h2' 0 (by omega)).1]
    norm_num

end HCube

end Verif.Refine
