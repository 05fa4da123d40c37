import Verif.Numbering.Closed

/-!
C105: the numbering of sub-entities.

/repo/doc/appl/refelements/referenceelementspage.txt (lines 41-65, 138-197, 252-305) documents the numbering of
the sub-entities of a reference element and the list of the corners of each of them by a recursion over the prism
and pyramid constructions; the pictures on that page show the result for the elements of dimension at most three.
Meshes, shape functions and file formats rely on these numbers, for simplices and cubes in closed form.
-/

namespace Verif.Numbering

open Verif.RefTopo Verif.RefGeom Verif.Typ

/-! ### the documented recursion (specification) -/

/-- "Size" (referenceelementspage.txt:146-156) -/
def docSize : Topo → Nat → Nat
  | _, 0 => 1
  | .pt, _ + 1 => 0
  | .prism t, c + 1 => if c = t.dim then 2 * docSize t c else docSize t (c + 1) + 2 * docSize t c
  | .pyr t, c + 1 => if c = t.dim then docSize t c + 1 else docSize t c + docSize t (c + 1)

/-- "Subtopology" (referenceelementspage.txt:157-180), numbers counted from 0 -/
def docS : Topo → Nat → Nat → Topo
  | .pt, _, _ => .pt
  | .prism t, c, i =>
    if c = 0 then .prism t else if c = t.dim + 1 then .pt else
      let p := docSize t c
      let q := docSize t (c - 1)
      if i < p then .prism (docS t c i) else if i < p + q then docS t (c - 1) (i - p) else docS t (c - 1) (i - p - q)
  | .pyr t, c, i =>
    if c = 0 then .pyr t else if c = t.dim + 1 then .pt else
      let q := docSize t (c - 1)
      if i < q then docS t (c - 1) i else .pyr (docS t c (i - q))

/-- the numbers `K_{c,i}(T)` of the corners of a sub-entity (referenceelementspage.txt:252-294), counted from 0.
(The page writes `T` for the base `t` on the right hand sides; the ranges of `i` are those of "Subtopology".) -/
def docK : Topo → Nat → Nat → List Nat
  | .pt, _, _ => [0]
  | .prism t, c, i =>
    if c = 0 then List.range (docSize (.prism t) (t.dim + 1)) else if c = t.dim + 1 then [i] else
      let p := docSize t c
      let q := docSize t (c - 1)
      let n := docSize t t.dim
      if i < p then docK t c i ++ (docK t c i).map (· + n)
      else if i < p + q then docK t (c - 1) (i - p) else (docK t (c - 1) (i - p - q)).map (· + n)
  | .pyr t, c, i =>
    if c = 0 then List.range (docSize (.pyr t) (t.dim + 1)) else if c = t.dim + 1 then [i] else
      let q := docSize t (c - 1)
      if i < q then docK t (c - 1) i else docK t c (i - q) ++ [docSize t t.dim]

/-! ### the recursion and the faces -/

theorem docSize_eq (t : Topo) : ∀ c, docSize t c = t.sz c := by
  induction t with
  | pt => intro c; cases c <;> rfl
  | prism t ih =>
    intro c
    cases c with
    | zero => rfl
    | succ c =>
      rw [docSize, Topo.sz, ih, ih]
      split
      · rename_i h
        rw [Topo.sz_eq_zero t (c + 1) (by omega), zero_add]
      · rfl
  | pyr t ih =>
    intro c
    cases c with
    | zero => rfl
    | succ c =>
      rw [docSize, Topo.sz, ih, ih]
      split
      · rename_i h
        rw [Topo.sz_eq_zero t (c + 1) (by omega), zero_add]
      · rfl

theorem docK_face {t : Topo} (f : Face t) : docK t f.codim f.idx = vlist f ∧ docS t f.codim f.idx = f.shape := by
  have hv : ∀ {t : Topo} (f : Face t), f.codim = t.dim → f.shape = .pt := by
    intro t f h
    have := Face.codim_add_dim f
    have h0 : f.shape.dim = 0 := by omega
    cases hs : f.shape with
    | pt => rfl
    | prism s => rw [hs] at h0; simp [Topo.dim] at h0
    | pyr s => rw [hs] at h0; simp [Topo.dim] at h0
  induction f with
  | pt => exact ⟨rfl, rfl⟩
  | @edge t f ih =>
    have hc : (Face.edge f).codim = f.codim := rfl
    have hi : (Face.edge f).idx = f.idx := rfl
    have hle := Face.codim_le f
    have hlt := Face.idx_lt f
    have h1 : ¬ f.codim = t.dim + 1 := by omega
    by_cases h0 : f.codim = 0
    · rw [vlist_whole _ (hc.trans h0), Face.shape_of_codim_zero _ (hc.trans h0), docK, docS, hc, if_pos h0, if_pos h0, docSize_eq]
      exact ⟨rfl, rfl⟩
    · rw [vlist_edge, docK, docS, hc, hi]
      have h5 : ∀ x, x + t.sz t.dim = t.sz t.dim + x := fun x => Nat.add_comm ..
      simp only [docSize_eq, if_neg h0, if_neg h1, if_pos hlt, ih.1, ih.2, h5]
      exact ⟨trivial, rfl⟩
  | @bot t f ih =>
    have hc : (Face.bot f).codim = f.codim + 1 := rfl
    have hi : (Face.bot f).idx = t.sz (f.codim + 1) + f.idx := rfl
    have hlt := Face.idx_lt f
    have h0 : ¬ f.codim + 1 = 0 := by omega
    by_cases h1 : f.codim + 1 = t.dim + 1
    · rw [vlist_vertex _ (hc.trans h1), hv _ (hc.trans h1), docK, docS, hc]
      simp only [if_neg h0, if_pos h1, and_self]
    · have h2 : ¬ t.sz (f.codim + 1) + f.idx < t.sz (f.codim + 1) := by omega
      have h3 : t.sz (f.codim + 1) + f.idx < t.sz (f.codim + 1) + t.sz f.codim := by omega
      rw [vlist_bot, docK, docS, hc, hi]
      simp only [docSize_eq, Nat.add_sub_cancel, Nat.add_sub_cancel_left, if_neg h0, if_neg h1, if_neg h2, if_pos h3, ih.1, ih.2]
      exact ⟨trivial, rfl⟩
  | @top t f ih =>
    have hc : (Face.top f).codim = f.codim + 1 := rfl
    have hi : (Face.top f).idx = t.sz (f.codim + 1) + t.sz f.codim + f.idx := rfl
    have h0 : ¬ f.codim + 1 = 0 := by omega
    by_cases h1 : f.codim + 1 = t.dim + 1
    · rw [vlist_vertex _ (hc.trans h1), hv _ (hc.trans h1), docK, docS, hc]
      simp only [if_neg h0, if_pos h1, and_self]
    · have h2 : ¬ t.sz (f.codim + 1) + t.sz f.codim + f.idx < t.sz (f.codim + 1) := by omega
      have h3 : ¬ t.sz (f.codim + 1) + t.sz f.codim + f.idx < t.sz (f.codim + 1) + t.sz f.codim := by omega
      have h4 : t.sz (f.codim + 1) + t.sz f.codim + f.idx - t.sz (f.codim + 1) - t.sz f.codim = f.idx := by omega
      have h5 : ∀ x, x + t.sz t.dim = t.sz t.dim + x := fun x => Nat.add_comm ..
      rw [vlist_top, docK, docS, hc, hi]
      simp only [docSize_eq, Nat.add_sub_cancel, if_neg h0, if_neg h1, if_neg h2, if_neg h3, h4, ih.1, ih.2, h5]
      exact ⟨trivial, rfl⟩
  | @base t f ih =>
    have hc : (Face.base f).codim = f.codim + 1 := rfl
    have hi : (Face.base f).idx = f.idx := rfl
    have hlt := Face.idx_lt f
    have h0 : ¬ f.codim + 1 = 0 := by omega
    by_cases h1 : f.codim + 1 = t.dim + 1
    · rw [vlist_vertex _ (hc.trans h1), hv _ (hc.trans h1), docK, docS, hc]
      simp only [if_neg h0, if_pos h1, and_self]
    · rw [vlist_base, docK, docS, hc, hi]
      simp only [docSize_eq, Nat.add_sub_cancel, if_neg h0, if_neg h1, if_pos hlt, ih.1, ih.2]
      exact ⟨trivial, rfl⟩
  | @cone t f ih =>
    have hc : (Face.cone f).codim = f.codim := rfl
    have hle := Face.codim_le f
    by_cases h0 : f.codim = 0
    · rw [vlist_whole _ (hc.trans h0), Face.shape_of_codim_zero _ (hc.trans h0), docK, docS, hc, if_pos h0, if_pos h0, docSize_eq]
      exact ⟨rfl, rfl⟩
    · obtain ⟨c, hcc⟩ : ∃ c, f.codim = c + 1 := ⟨f.codim - 1, by omega⟩
      have hi : (Face.cone f).idx = t.sz c + f.idx := by simp only [Face.idx, hcc]
      have h1 : ¬ c + 1 = t.dim + 1 := by omega
      have h0 : ¬ c + 1 = 0 := by omega
      have h2 : ¬ t.sz c + f.idx < t.sz c := by omega
      rw [hcc] at ih
      rw [vlist_cone, docK, docS, hc, hi, hcc]
      simp only [docSize_eq, Nat.add_sub_cancel, Nat.add_sub_cancel_left, if_neg h0, if_neg h1, if_neg h2, ih.1, ih.2]
      exact ⟨trivial, rfl⟩
  | @apex t =>
    have h1 : (Face.apex : Face (.pyr t)).codim = t.dim + 1 := rfl
    have h0 : ¬ t.dim + 1 = 0 := by omega
    rw [vlist_vertex _ h1, hv _ h1, docK, docS, h1]
    simp only [if_neg h0, if_true, and_self]

/-! ### C105 -/

/-- C105: counts, types and corner numbers of all sub-entities follow the documented recursion. -/
theorem C105_documented (d id : Nat) (t : Topo) (ht : Rep d id t) (hd : d ≤ 31) (hid : id < 2 ^ d) (i c : Nat) (hc : c ≤ d)
    (hi : i < refSize d id c) :
    refSize d id c = docSize t c ∧ subEntities d id i c d = docK t c i ∧
      (refType d id i c).dim = d - c ∧ Rep (d - c) (refType d id i c).id (docS t c i) := by
  refine ⟨by rw [refSize, size_eq ht c hc, docSize_eq], ?_⟩
  rw [refType_eq d id i c hd hid hc]
  obtain ⟨f, rfl, rfl⟩ := exists_face ht hc hi
  rw [subEntities_vlist ht hid, (docK_face f).1, (docK_face f).2]
  exact ⟨rfl, rfl, rep_sub ht hid f⟩

-- face 3 of the prism is the triangle at the bottom, edge 7 the second one at the top
example : subEntities 3 5 3 1 3 = [0, 1, 2] ∧ subEntities 3 5 7 2 3 = [3, 5] := by decide
example : Rep 3 5 (.prism (.pyr (.prism .pt))) ∧ docK (.prism (.pyr (.prism .pt))) 2 7 = [3, 5] := by
  exact ⟨rep_topoOf 3 5, by decide⟩

/-- C105: the sub-entities of a sub-entity are listed in the order of their numbers in the element. -/
theorem C105_ascending (d id i c cc : Nat) (hid : id < 2 ^ d) (hcc : cc ≤ d) (hc : c ≤ d) (hi : i < refSize d id c) :
    (subEntities d id i c cc).Pairwise (· < ·) := by
  have h := rep_topoOf d id
  obtain ⟨f, rfl, rfl⟩ := exists_face h hc hi
  by_cases hle : f.codim ≤ cc
  · rw [List.pairwise_iff_getElem]
    intro j k hj hk hjk
    have hl := subEntities_length h hid f hle hcc
    have hfd := Face.codim_add_dim f
    obtain ⟨g, hg, rfl⟩ := Face.idx_surj f.shape (cc - f.codim) j (by omega)
    obtain ⟨g', hg', rfl⟩ := Face.idx_surj f.shape (cc - f.codim) k (by omega)
    have e := subEntities_getElem h hid f g
    have e' := subEntities_getElem h hid f g'
    rw [show f.codim + g.codim = cc by omega] at e
    rw [show f.codim + g'.codim = cc by omega] at e'
    rw [List.getElem?_eq_getElem hj, Option.some.injEq] at e
    rw [List.getElem?_eq_getElem hk, Option.some.injEq] at e'
    rw [e, e']
    exact comp_lt f g g' (by omega) hjk
  · have := (numbers_lt d id f.idx f.codim cc (by omega)).1
    rw [this]
    exact List.Pairwise.nil

example : (0 : Nat) < refSize 3 3 1 ∧ subEntities 3 3 0 1 2 = [0, 1, 2, 3] := by decide

/-- C105: a sub-entity of a simplex has the number `Σⱼ binomial(vⱼ, j+1)` where `v₀ < v₁ < …` are its vertices. -/
theorem C105_simplex (d id i c : Nat) (hid : id < 2 ^ d) (hs : IsSimplexId d id) (hc : c ≤ d) (hi : i < refSize d id c) :
    let v := subEntities d id i c d
    v.length = d - c + 1 ∧ v.Pairwise (· < ·) ∧ (∀ x ∈ v, x ≤ d) ∧
      i = ∑ j ∈ Finset.range v.length, (v.getD j 0).choose (j + 1) := by
  intro v
  have h := rep_of_isSimplexId hid hs
  have ha := C105_ascending d id i c d hid (le_refl _) hc hi
  have hr := C15_range d id i c d hid hc (le_refl _) hi
  have hsz : refSize d id d = d + 1 := by rw [C10_simplex d id d hid hs (le_refl _), Nat.choose_succ_self_right]
  obtain ⟨f, rfl, rfl⟩ := exists_face h hc hi
  have hv : v = vlist f := subEntities_vlist h hid f
  obtain ⟨h1, h2⟩ := vlist_simplex d f
  refine ⟨by rw [hv]; omega, ha, ?_, by rw [hv]; exact h2⟩
  intro x hx
  have := (mem_subEntities h hid f (le_refl d) x).1 hx
  obtain ⟨w, hw, rfl, _⟩ := this
  have := face_lt h w
  rw [hw, hsz] at this
  omega

/-- C105: conversely every non-empty set of vertices of a simplex is the set of vertices of the sub-entity with that number. -/
theorem C105_simplex_inverse (d id : Nat) (hid : id < 2 ^ d) (hs : IsSimplexId d id) (v : List Nat) (hne : v ≠ [])
    (hv : v.Pairwise (· < ·)) (hle : ∀ x ∈ v, x ≤ d) :
    let i := ∑ j ∈ Finset.range v.length, (v.getD j 0).choose (j + 1)
    i < refSize d id (d + 1 - v.length) ∧ subEntities d id i (d + 1 - v.length) d = v := by
  intro i
  have h := rep_of_isSimplexId hid hs
  obtain ⟨f, hf⟩ := exists_simplex_face d v hne hv hle
  obtain ⟨h1, h2⟩ := vlist_simplex d f
  rw [hf] at h1 h2
  have hi : i = f.idx := h2.symm
  rw [hi, show d + 1 - v.length = f.codim by omega]
  exact ⟨face_lt h f, (subEntities_vlist h hid f).trans hf⟩

-- the edges of the tetrahedron: 0-1, 0-2, 1-2, 0-3, 1-3, 2-3
example : IsSimplexId 3 0 ∧ (List.range 6).map (fun i => subEntities 3 0 i 2 3) = [[0, 1], [0, 2], [1, 2], [0, 3], [1, 3], [2, 3]] :=
  ⟨fun k _ _ => by simp, by decide⟩

/-- C105: facet `i` of a simplex is the one opposite to vertex `d - i`; its normal is `-e_(d-1-i)`, and `(1,…,1)` for the last. -/
theorem C105_simplex_facet {K : Type} [Field K] [LinearOrder K] [IsStrictOrderedRing K] (d id i : Nat) (hid : id < 2 ^ d)
    (hs : IsSimplexId d id) (hd : 0 < d) (hi : i ≤ d) :
    subEntities d id i 1 d = (List.range (d + 1)).filter (fun v => v ≠ d - i) ∧
    ∃ n, (referenceIntegrationOuterNormals (K := K) d d id)[i]? = some n ∧
      (i = d → ∀ k, k < d → n k = 1) ∧ (i < d → ∀ k, k < d → n k = if k = d - 1 - i then -1 else 0) := by
  have h := rep_of_isSimplexId hid hs
  obtain ⟨f, hf, rfl⟩ := exists_face h hd (i := i) (by
    rw [C10_simplex d id 1 hid hs hd, Nat.choose_one_right]; omega)
  have hv := subEntities_vlist h hid f
  rw [hf] at hv
  refine ⟨by rw [hv, vlist_simplex_facet d f hf], nrm f, normal_face h f hf, ?_, ?_⟩
  · intro he k hk
    rw [(simplex_facet_normal d f hf).2]
    simp only
    rw [if_pos he, if_pos hk]
  · intro hlt k hk
    rw [(simplex_facet_normal d f hf).2]
    simp only
    rw [if_neg (by omega)]
    by_cases he : k = d - 1 - f.idx
    · rw [if_pos (by omega), if_pos he]
    · rw [if_neg (by omega), if_neg he]

example : subEntities 3 0 1 1 3 = [0, 1, 3] := by decide

/-- Specification: the number of the sub-entity of the cube on which coordinate `k` has the value `b` for `a k = some b`
and is free for `a k = none`.  With `cₖ` fixed coordinates below `k`, the value 0 skips `binomial(k, cₖ+1)·2^(cₖ+1)`
numbers, the value 1 another `binomial(k, cₖ)·2^cₖ`. -/
def cubeIndex (d : Nat) (a : Nat → Option Bool) : Nat :=
  ∑ k ∈ Finset.range d,
    let c := ((Finset.range k).filter fun j => (a j).isSome).card
    match a k with
    | none => 0
    | some false => k.choose (c + 1) * 2 ^ (c + 1)
    | some true => k.choose (c + 1) * 2 ^ (c + 1) + k.choose c * 2 ^ c

theorem cubeIndex_eq (d : Nat) (a : Nat → Option Bool) : cubeIndex d a = cubeNumber a d := by
  refine Finset.sum_congr rfl fun k _ => ?_
  change (match a k with
    | none => 0
    | some false => k.choose (fixedBelow a k + 1) * 2 ^ (fixedBelow a k + 1)
    | some true => k.choose (fixedBelow a k + 1) * 2 ^ (fixedBelow a k + 1) + k.choose (fixedBelow a k) * 2 ^ fixedBelow a k) = _
  rcases a k with _ | _ | _ <;> simp

/-- C105: fixing some coordinates of the cube to 0 or 1 gives the sub-entity with that number; its vertices are those with
these coordinates, and every sub-entity arises in this way. -/
theorem C105_cube (d id : Nat) (hid : id < 2 ^ d) (hs : IsCubeId d id) :
    (∀ a : Nat → Option Bool, let c := ((Finset.range d).filter fun j => (a j).isSome).card
      cubeIndex d a < refSize d id c ∧
      subEntities d id (cubeIndex d a) c d =
        (List.range (2 ^ d)).filter fun v => decide (∀ k < d, ∀ b, a k = some b → v.testBit k = b)) ∧
    (∀ i c, c ≤ d → i < refSize d id c → ∃ a : Nat → Option Bool,
      ((Finset.range d).filter fun j => (a j).isSome).card = c ∧ cubeIndex d a = i) := by
  have h := rep_of_isCubeId hid hs
  refine ⟨?_, fun i c hc hi => ?_⟩
  · intro a c
    have hcc : c = (ofDig a d).codim := (ofDig_codim a d).symm
    rw [cubeIndex_eq, ← ofDig_idx, hcc, subEntities_vlist h hid, ofDig_vlist]
    refine ⟨face_lt h _, List.filter_congr fun v _ => ?_⟩
    rw [Bool.eq_iff_iff, matchesDig, List.all_eq_true, decide_eq_true_eq]
    refine ⟨fun H k hk b hb => ?_, fun H k hk => ?_⟩
    · have := H k (List.mem_range.2 hk)
      rw [hb] at this
      simp only [Option.isNone_some, Bool.false_or, beq_iff_eq, Option.some.injEq] at this
      exact this.symm
    · rcases hb : a k with _ | b
      · rfl
      · rw [H k (List.mem_range.1 hk) b hb]; simp
  · obtain ⟨f, rfl, rfl⟩ := exists_face h hc hi
    obtain ⟨a, rfl⟩ := ofDig_surj d f
    exact ⟨a, (ofDig_codim a d).symm, by rw [cubeIndex_eq, ofDig_idx]⟩

-- the edges of the hexahedron, the first four parallel to the third axis
example : IsCubeId 3 7 ∧ (List.range 12).map (fun i => subEntities 3 7 i 2 3) =
    [[0, 4], [1, 5], [2, 6], [3, 7], [0, 2], [1, 3], [0, 1], [2, 3], [4, 6], [5, 7], [4, 5], [6, 7]] :=
  ⟨fun k _ hk => by interval_cases k <;> decide, by decide⟩
example : cubeIndex 3 (fun k => if k = 1 then some true else if k = 2 then some false else none) = 7 := by decide

/-- C105: facet `i` of a cube consists of the points whose coordinate `i / 2` is `i % 2`; its normal is the unit vector of
that direction, negative for `i % 2 = 0`. -/
theorem C105_cube_facet {K : Type} [Field K] [LinearOrder K] [IsStrictOrderedRing K] (d id i : Nat) (hid : id < 2 ^ d)
    (hs : IsCubeId d id) (hi : i < 2 * d) :
    subEntities d id i 1 d = (List.range (2 ^ d)).filter (fun v => v.testBit (i / 2) = decide (i % 2 = 1)) ∧
    ∃ n, (referenceIntegrationOuterNormals (K := K) d d id)[i]? = some n ∧
      ∀ k, n k = if k = i / 2 then (if i % 2 = 1 then 1 else -1) else 0 := by
  have h := rep_of_isCubeId hid hs
  have hm : i / 2 < d := by omega
  obtain ⟨a, ha, hn⟩ : ∃ a : Nat → Option Bool, a (i / 2) = some (decide (i % 2 = 1)) ∧ ∀ k, k ≠ i / 2 → a k = none :=
    ⟨fun k => if k = i / 2 then some (decide (i % 2 = 1)) else none, if_pos rfl, fun k hk => if_neg hk⟩
  have hc : (ofDig a d).codim = 1 := by rw [ofDig_codim, fixedBelow_single ha hn, if_pos hm]
  have hidx : (ofDig a d).idx = i := by
    rw [ofDig_idx, cubeNumber_single hm ha hn]
    by_cases h2 : i % 2 = 1
    · simp only [h2, decide_true, if_true]; omega
    · simp only [h2, decide_false, Bool.false_eq_true, if_false]; omega
  have hv := subEntities_vlist h hid (ofDig a d)
  have hnf := normal_face (K := K) h (ofDig a d) hc
  rw [hc, hidx, ofDig_vlist] at hv
  rw [hidx] at hnf
  refine ⟨?_, _, hnf, fun k => ?_⟩
  · rw [hv]
    refine List.filter_congr fun v _ => ?_
    rw [matchesDig_single hm ha hn, Bool.eq_iff_iff]
    simp
  · rw [ofDig_normal a d (i / 2) _ hm ha fun k _ hk => hn k hk]
    simp

example : subEntities 3 7 3 1 3 = [2, 3, 6, 7] := by decide

/-- C105: "the number of vertices of a topology does not uniquely identify the topology" (referenceelementspage.txt:183-189):
the documented pair has ten vertices each. -/
theorem C105_vertices_not_unique :
    Rep 5 7 (.pyr (.pyr (.prism (.prism (.prism .pt))))) ∧ Rep 5 16 (.prism (.pyr (.pyr (.pyr (.pyr .pt))))) ∧
      refSize 5 7 5 = 10 ∧ refSize 5 16 5 = 10 ∧ refSize 5 7 1 ≠ refSize 5 16 1 := by
  refine ⟨?_, ?_, by decide, by decide, by decide⟩
  · exact rep_topoOf 5 7
  · refine .prism (Or.inr (by decide)) (.pyr (Or.inr (by decide)) (.pyr (Or.inr (by decide)) (.pyr (Or.inr (by decide))
      (.pyr (Or.inl rfl) (.pt _)))))

end Verif.Numbering
