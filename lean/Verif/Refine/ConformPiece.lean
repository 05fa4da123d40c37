import Verif.Refine.ConformMacro

/-! What it means that two simplices meet in a common face, and why lattice Kuhn simplices do.  The theorems about the
refinements are in `ConformProps.lean`. -/

namespace Verif.Refine

open Function Finset
open Equiv (Perm)

variable {K : Type} [Field K] [LinearOrder K] [IsStrictOrderedRing K]

/-! ### specification -/

/-- The simplices with corners `c` and `c'` meet in a common face: wherever they have a point in common, with local
coordinates `z` and `z'`, the corners that carry the point are corners of both, and the barycentric coordinates at
common corners agree. -/
def Conforming (d : Nat) (c c' : Nat → Nat → K) : Prop :=
  ∀ z z', InSimplex d z → InSimplex d z' → (∀ i, i < d → interp d c z i = interp d c' z' i) →
    (∀ i, i ≤ d → 0 < bary d z i → ∃ j, j ≤ d ∧ ∀ l, l < d → c i l = c' j l) ∧
    ∀ i j, i ≤ d → j ≤ d → (∀ l, l < d → c i l = c' j l) → bary d z i = bary d z' j

/-! ### elements as pieces of Kuhn simplices -/

/-- the simplex with corners `c` is a lattice Kuhn simplex (origin `o`, order `q`) in the Kuhn simplex of order `p` -/
structure Piece (d n : Nat) (Φ : (Nat → K) → Nat → K) (c : Nat → Nat → K) (κ : Nat) (p q : Perm Nat) (o : Nat → Nat) : Prop where
  hp : ∀ k, d ≤ k → p k = k
  hq : ∀ k, d ≤ k → q k = k
  hκ : κ < d.factorial
  hg : getPermutation d κ = some ⇑p
  inside : ∀ z, InSimplex d z → InSimplex d (diff d fun j => (referenceToKuhn d z q j + o j) / (n : K))
  map : ∀ z i, i < d → interp d c z i = Φ (referenceToKuhn d (diff d fun j => (referenceToKuhn d z q j + o j) / (n : K)) p) i

omit [LinearOrder K] [IsStrictOrderedRing K] in
theorem interp_corner {d : Nat} (c : Nat → Nat → K) {i : Nat} (hi : i ≤ d) (l : Nat) : interp d c (unit i) l = c i l := by
  rw [interp]
  rcases i with _ | i
  · simp [unit]
  · rw [sum_eq_single i]
    · simp [unit]
    · intro b _ hb
      simp [unit, hb]
    · intro h
      exact absurd (mem_range.2 (by omega)) h

omit [LinearOrder K] [IsStrictOrderedRing K] in
theorem r2k_inj {d κ : Nat} {p : Perm Nat} (hp : ∀ k, d ≤ k → p k = k) (hκ : κ < d.factorial) (hg : getPermutation d κ = some ⇑p)
    {y y' : Nat → K} (h : ∀ i, i < d → referenceToKuhn d y p i = referenceToKuhn d y' p i) (i : Nat) (hi : i < d) : y i = y' i := by
  have i1 := (C59_inverse d κ p hκ hg y).1
  have i2 := (C59_inverse d κ p hκ hg y').1
  rw [← i1, ← i2, ← Equiv.apply_symm_apply p i, kuhnToReference_eq, kuhnToReference_eq, Equiv.apply_symm_apply, h i hi]
  split
  · rw [h _ (perm_lt hp (by assumption))]
  · rfl

omit [LinearOrder K] [IsStrictOrderedRing K] in
theorem bary_congr {d : Nat} {z z' : Nat → K} (h : ∀ i, i < d → z i = z' i) (i : Nat) (hi : i ≤ d) : bary d z i = bary d z' i := by
  rw [bary, bary]
  split
  · rw [sum_congr rfl fun j hj => h j (mem_range.1 hj)]
  · exact h _ (by omega)

theorem unit_simplex {d i : Nat} (hi : i ≤ d) : InSimplex d (unit (K := K) i) := by
  constructor
  · intro j _
    rw [unit]
    split
    · exact zero_le_one
    · exact le_rfl
  · rcases i with _ | i
    · simp [unit]
    · rw [sum_eq_single i]
      · simp [unit]
      · intro b _ hb
        simp [unit, hb]
      · intro h
        exact absurd (mem_range.2 (by omega)) h

section
variable {d n : Nat} {Φ : (Nat → K) → Nat → K} {c c' : Nat → Nat → K} {κ κ' : Nat} {p p' q q' : Perm Nat} {o o' : Nat → Nat}

/-- corner number `k` on the path, in terms of its lattice coordinates -/
theorem Piece.corner (P : Piece d n Φ c κ p q o)
    (hΦ : ∀ x y : Nat → K, (∀ i, i < d → x i = y i) → ∀ i, i < d → Φ x i = Φ y i) {k : Nat} (hk : k ≤ d) (l : Nat) (hl : l < d) :
    c (pathOrder q k) l = Φ (referenceToKuhn d (diff d fun j => (lcorner q o k j : K) / (n : K)) p) l := by
  rw [← interp_corner c (show pathOrder q k ≤ d by have := pathOrder_le P.hq hk; omega) l, P.map _ l hl]
  refine hΦ _ _ (fun i hi => r2k_congr P.hp (fun i hi => ?_) i hi) l hl
  exact diff_congr (fun j hj => by rw [corner_lattice P.hq o hk j hj]) i hi

theorem Piece.corner_inj (P : Piece d n Φ c κ p q o) (hn : 0 < n)
    (hΦ : ∀ x y : Nat → K, (∀ i, i < d → x i = y i) → ∀ i, i < d → Φ x i = Φ y i)
    (hΦ' : ∀ x y : Nat → K, (∀ i, i < d → Φ x i = Φ y i) → ∀ i, i < d → x i = y i) {i j : Nat} (hi : i ≤ d) (hj : j ≤ d)
    (h : ∀ l, l < d → c i l = c j l) : i = j := by
  have hn' : (n : K) ≠ 0 := Nat.cast_ne_zero.2 (by omega)
  obtain ⟨k, hk, rfl⟩ := pathOrder_surj P.hq hi
  obtain ⟨k', hk', rfl⟩ := pathOrder_surj P.hq hj
  have h1 := hΦ' _ _ fun l hl => (P.corner hΦ hk l hl).symm.trans ((h l hl).trans (P.corner hΦ hk' l hl))
  have h2 := diff_inj d _ _ (r2k_inj P.hp P.hκ P.hg h1)
  have h3 : ∀ i, i < d → lcorner q o k i = lcorner q o k' i := fun i hi => by
    have := h2 i hi
    rw [div_left_inj' hn'] at this
    exact_mod_cast this
  rw [lcorner_inj P.hq hk hk' h3]

omit [LinearOrder K] [IsStrictOrderedRing K] in
theorem chain_nat (d n : Nat) (V : Nat → Nat) (a : Nat) : ∃ m : Nat, chain d (n : K) (fun i => (V i : K)) a = m := by
  rw [chain]
  split
  · exact ⟨n, rfl⟩
  · split
    · exact ⟨_, rfl⟩
    · exact ⟨0, by simp⟩

/-- two pieces with a common point: a corner carrying the point is a corner of the other one, with at least the same weight -/
theorem Piece.meet (P : Piece d n Φ c κ p q o) (P' : Piece d n Φ c' κ' p' q' o') (hd : 0 < d) (hn : 0 < n) (hdim : d ≤ 3 ∨ κ = κ')
    (hΦ : ∀ x y : Nat → K, (∀ i, i < d → x i = y i) → ∀ i, i < d → Φ x i = Φ y i)
    (hΦ' : ∀ x y : Nat → K, (∀ i, i < d → Φ x i = Φ y i) → ∀ i, i < d → x i = y i) {z z' : Nat → K} (hz : InSimplex d z)
    (hz' : InSimplex d z') (he : ∀ i, i < d → interp d c z i = interp d c' z' i) {i : Nat} (hi : i ≤ d) (hw : 0 < bary d z i) :
    ∃ j, j ≤ d ∧ (∀ l, l < d → c i l = c' j l) ∧ bary d z i ≤ bary d z' j := by
  have hn' : (n : K) ≠ 0 := Nat.cast_ne_zero.2 (by omega)
  have hn0 : (0 : K) < n := Nat.cast_pos.2 hn
  have hx := hΦ' _ _ fun i hi => (P.map z i hi).symm.trans ((he i hi).trans (P'.map z' i hi))
  obtain ⟨k, hk, rfl⟩ := pathOrder_surj P.hq hi
  by_cases hκκ : κ = κ'
  · subst hκκ
    have hpp : p = p' := DFunLike.coe_injective (Option.some.inj (P.hg.symm.trans P'.hg))
    subst hpp
    have h1 := diff_inj d _ _ (r2k_inj P.hp P.hκ P.hg hx)
    have h2 : ∀ i, i < d → referenceToKuhn d z q i + o i = referenceToKuhn d z' q' i + o' i := fun i hi => by
      have := h1 i hi
      rwa [div_left_inj' hn'] at this
    obtain ⟨a1, a2⟩ := kuhn_conform P.hq P'.hq hz hz' h2
    obtain ⟨j, hj, e⟩ := a1 _ hi hw
    refine ⟨j, hj, fun l hl => ?_, (a2 _ j hi hj e).le⟩
    rw [← interp_corner c hi l, ← interp_corner c' hj l, P.map _ l hl, P'.map _ l hl]
    refine hΦ _ _ (fun i hi => r2k_congr P.hp (fun i hi => ?_) i hi) l hl
    exact diff_congr (fun j hj => by rw [e j hj]) i hi
  · have hd3 : d ≤ 3 := hdim.resolve_right hκκ
    have hf := (inKuhn_iff d q P.hq z).2 hz
    have hf' := (inKuhn_iff d q' P'.hq z').2 hz'
    set y := diff d fun j => (referenceToKuhn d z q j + o j) / (n : K) with hy
    set y' := diff d fun j => (referenceToKuhn d z' q' j + o' j) / (n : K) with hy'
    set u := diff d fun j => (lcorner q o k j : K) / (n : K) with hu
    have hyS := P.inside z hz
    have hyS' := P'.inside z' hz'
    have huS : InSimplex d u := by
      have := P.inside _ (unit_simplex (K := K) hi)
      have e : ∀ i, i < d → (diff d fun j => (referenceToKuhn d (unit (K := K) (pathOrder q k)) q j + o j) / (n : K)) i = u i :=
        diff_congr fun j hj => by rw [corner_lattice P.hq o hk j hj]
      exact ⟨fun i hi => e i hi ▸ this.1 i hi, by rw [← sum_congr rfl fun i hi => e i (mem_range.1 hi)]; exact this.2⟩
    have hw' : 0 < level d q (referenceToKuhn d z q) k - level d q (referenceToKuhn d z q) (k + 1) := by rw [bary_path P.hq z k hk]; exact hw
    have hsupp := support hd hn P.hq hf o hw'
    -- the point is on the boundary of both Kuhn simplices
    have hbd : ∃ a, a ≤ d ∧ bary d y a = 0 := by
      by_contra hcon
      push Not at hcon
      refine hκκ (kuhn_disjoint d κ κ' P.hκ P'.hκ p p' P.hg P'.hg y _ ⟨fun a ha => ?_, ?_⟩ ((inKuhn_iff d p' P'.hp y').2 hyS') hx)
      · exact lt_of_le_of_ne (hyS.1 a ha) (Ne.symm (hcon (a + 1) ha))
      · have := lt_of_le_of_ne (bary_nonneg hyS 0 (by omega)) (Ne.symm (hcon 0 (by omega)))
        rw [bary, if_pos rfl] at this
        linarith
    have hbd' : ∃ a, a ≤ d ∧ bary d y' a = 0 := by
      by_contra hcon
      push Not at hcon
      refine hκκ (kuhn_disjoint d κ' κ P'.hκ P.hκ p' p P'.hg P.hg y' _ ⟨fun a ha => ?_, ?_⟩ ((inKuhn_iff d p P.hp y).2 hyS)
        fun i hi => (hx i hi).symm).symm
      · exact lt_of_le_of_ne (hyS'.1 a ha) (Ne.symm (hcon (a + 1) ha))
      · have := lt_of_le_of_ne (bary_nonneg hyS' 0 (by omega)) (Ne.symm (hcon 0 (by omega)))
        rw [bary, if_pos rfl] at this
        linarith
    obtain ⟨u', hu1, hu2, hu3, hu4, hu5⟩ := transfer P.hp P'.hp P'.hκ P'.hg hyS hyS' huS hx hsupp
    -- the lattice coordinates in the other Kuhn simplex
    have hnat : ∀ a, a ≤ d → ∃ m : Nat, (n : K) * bary d u a = m := by
      intro a ha
      have h1 := bary_chain hd hn' (fun i => (lcorner q o k i : K)) a ha
      obtain ⟨m1, e1⟩ := chain_nat (K := K) d n (lcorner q o k) a
      obtain ⟨m2, e2⟩ := chain_nat (K := K) d n (lcorner q o k) (a + 1)
      rw [e1, e2] at h1
      have h2 : (0 : K) ≤ n * bary d u a := mul_nonneg hn0.le (bary_nonneg huS a ha)
      have h3 : m2 ≤ m1 := by
        have : (m2 : K) ≤ m1 := by rw [← sub_nonneg, ← h1]; exact h2
        exact_mod_cast this
      exact ⟨m1 - m2, by rw [Nat.cast_sub h3]; exact h1⟩
    have hnat' : ∀ a, ∃ m : Nat, a ≤ d → (n : K) * bary d u' a = m := by
      intro a
      by_cases ha : a ≤ d
      · rcases hu4 a ha with h0 | ⟨b, hb, e⟩
        · exact ⟨0, fun _ => by rw [h0]; simp⟩
        · obtain ⟨m, hm⟩ := hnat b hb
          exact ⟨m, fun _ => by rw [e, hm]⟩
      · exact ⟨0, fun h => absurd h ha⟩
    choose m hm using hnat'
    let V' : Nat → Nat := fun j => ∑ a ∈ Ico j d, m (a + 1)
    have hV' : ∀ a, a < d → diff d (fun j => (V' j : K) / n) a = u' a := by
      intro a ha
      have h1 := hm (a + 1) ha
      rw [bary, if_neg (by omega), Nat.add_sub_cancel] at h1
      have h2 : u' a = m (a + 1) / (n : K) := by rw [← h1]; field_simp
      have h3 : V' a = m (a + 1) + V' (a + 1) := sum_eq_sum_Ico_succ_bot ha _
      rw [h2, diff]
      split
      · rw [h3]; push_cast; ring
      · rw [h3, show V' (a + 1) = 0 from sum_eq_zero fun b hb => by rw [mem_Ico] at hb; omega]
        simp
    have hbV : ∀ a, a ≤ d → bary d (diff d fun j => (V' j : K) / n) a = bary d u' a := bary_congr hV'
    set r := 1 - bary d z (pathOrder q k) with hr
    have s1 := (weight_spread P.hq hf o hk r).2 (by rw [bary_path P.hq z k hk])
    have s2 := (spread_symm hd hd3 hn' _ _ (by
      obtain ⟨a, ha, e⟩ := hbd
      exact ⟨a, ha, e.trans (hsupp a ha e).symm⟩) r).1 s1
    have s3 := hu5 n r s2
    have s4 := (spread_symm hd hd3 hn' (fun j => referenceToKuhn d z' q' j + o' j) (fun j => (V' j : K)) (by
      obtain ⟨a, ha, e⟩ := hbd'
      exact ⟨a, ha, by rw [hbV a ha, hu3 a ha e]; exact e⟩) r).2 fun a ha => by rw [hbV a ha]; exact s3 a ha
    obtain ⟨k', hk', hcor⟩ := corner_of_spread P'.hq hf' o' V' (by linarith) s4
    have hj : pathOrder q' k' ≤ d := by have := pathOrder_le P'.hq hk'; omega
    refine ⟨pathOrder q' k', hj, fun l hl => ?_, ?_⟩
    · rw [P.corner hΦ hk l hl, P'.corner hΦ hk' l hl]
      refine hΦ _ _ (fun i hi => ?_) l hl
      rw [← hu2 i hi]
      refine r2k_congr P'.hp (fun a ha => ?_) i hi
      rw [← hV' a ha]
      exact diff_congr (fun j hj => by rw [hcor j hj]) a ha
    · have hext : ∀ i, ext d (fun j => referenceToKuhn d z' q' j + o' j) (fun j => (V' j : K)) i =
          ext d (fun j => referenceToKuhn d z' q' j + o' j) (fun j => (lcorner q' o' k' j : K)) i := by
        intro i
        rw [ext, ext]
        split
        · rw [hcor i (by assumption)]
        · rfl
      have s5 := (weight_spread P'.hq hf' o' hk' r).1 fun i j hi hj => by rw [← hext, ← hext]; exact s4 i j hi hj
      rw [bary_path P'.hq z' k' hk'] at s5
      linarith

theorem Piece.conforming (P : Piece d n Φ c κ p q o) (P' : Piece d n Φ c' κ' p' q' o') (hd : 0 < d) (hn : 0 < n) (hdim : d ≤ 3 ∨ κ = κ')
    (hΦ : ∀ x y : Nat → K, (∀ i, i < d → x i = y i) → ∀ i, i < d → Φ x i = Φ y i)
    (hΦ' : ∀ x y : Nat → K, (∀ i, i < d → Φ x i = Φ y i) → ∀ i, i < d → x i = y i) : Conforming d c c' := by
  intro z z' hz hz' he
  have le : ∀ i j, i ≤ d → j ≤ d → (∀ l, l < d → c i l = c' j l) → bary d z i ≤ bary d z' j := by
    intro i j hi hj e
    rcases (bary_nonneg hz i hi).lt_or_eq with h | h
    · obtain ⟨j', hj', e', w⟩ := P.meet P' hd hn hdim hΦ hΦ' hz hz' he hi h
      rwa [P'.corner_inj hn hΦ hΦ' hj' hj fun l hl => (e' l hl).symm.trans (e l hl)] at w
    · rw [← h]
      exact bary_nonneg hz' j hj
  have ge : ∀ i j, i ≤ d → j ≤ d → (∀ l, l < d → c i l = c' j l) → bary d z' j ≤ bary d z i := by
    intro i j hi hj e
    rcases (bary_nonneg hz' j hj).lt_or_eq with h | h
    · obtain ⟨i', hi', e', w⟩ := P'.meet P hd hn (hdim.imp_right Eq.symm) hΦ hΦ' hz' hz (fun i hi => (he i hi).symm) hj h
      rwa [P.corner_inj hn hΦ hΦ' hi' hi fun l hl => (e' l hl).symm.trans (e l hl).symm] at w
    · rw [← h]
      exact bary_nonneg hz i hi
  refine ⟨fun i hi h => ?_, fun i j hi hj e => le_antisymm (le i j hi hj e) (ge i j hi hj e)⟩
  obtain ⟨j, hj, e, _⟩ := P.meet P' hd hn hdim hΦ hΦ' hz hz' he hi h
  exact ⟨j, hj, e⟩

end

end Verif.Refine
