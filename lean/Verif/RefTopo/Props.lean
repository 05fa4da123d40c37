import Verif.RefTopo.Counts
import Verif.Type.Props
import Mathlib.Tactic.IntervalCases

/-!
Properties C09 – C16, C55, C56: topology of the reference elements.

Throughout `d` is the dimension and `id < 2 ^ d` a valid topology id.  `size`, `subTopologyId` and
`subTopologyNumbering` are the functions of referenceelementimplementation.cc, `refSize`, `refSize3`,
`subEntity`, `subEntities`, `subEntitiesContains`, `refType` the query methods of the reference
element.  The specifications use only these, natural numbers and binomial coefficients.
-/

namespace Verif.RefTopo

open Verif.Typ Finset

/-- Specification: in every step but the first a cone is taken. -/
def IsSimplexId (d id : Nat) : Prop := ∀ k, 1 ≤ k → k < d → id.testBit k = false

/-- Specification: in every step but the first the product with an interval is taken. -/
def IsCubeId (d id : Nat) : Prop := ∀ k, 1 ≤ k → k < d → id.testBit k = true

theorem rep_of_isSimplexId {d id : Nat} (hid : id < 2 ^ d) (h : IsSimplexId d id) : Rep d id (Topo.simplex d) := by
  refine (rep_simplex d).congr ((half_eq_iff _ _).2 fun k hk => ?_)
  by_cases hkd : k < d
  · rw [h k hk hkd]; simp
  · have e1 : 2 ^ d ≤ 2 ^ k := Nat.pow_le_pow_right (by omega) (by omega)
    rw [Nat.testBit_lt_two_pow (by omega), Nat.testBit_lt_two_pow (by omega)]

theorem rep_of_isCubeId {d id : Nat} (hid : id < 2 ^ d) (h : IsCubeId d id) : Rep d id (Topo.cube d) := by
  refine (rep_cube d).congr ((half_eq_iff _ _).2 fun k hk => ?_)
  rw [Nat.testBit_two_pow_sub_one]
  by_cases hkd : k < d
  · rw [h k hk hkd]; simp [hkd]
  · have e1 : 2 ^ d ≤ 2 ^ k := Nat.pow_le_pow_right (by omega) (by omega)
    rw [Nat.testBit_lt_two_pow (by omega)]; simp [hkd]

theorem isSimplexId_of_rep {d id : Nat} (hid : id < 2 ^ d) (h : Rep d id (Topo.simplex d)) : IsSimplexId d id := by
  have := (half_eq_iff _ _).1 (h.id_unique (rep_simplex d) hid (Nat.two_pow_pos d))
  intro k hk _
  rw [this k hk]; simp

theorem isCubeId_of_rep {d id : Nat} (hid : id < 2 ^ d) (h : Rep d id (Topo.cube d)) : IsCubeId d id := by
  have := (half_eq_iff _ _).1 (h.id_unique (rep_cube d) hid (by have := Nat.two_pow_pos d; omega))
  intro k hk hkd
  rw [this k hk, Nat.testBit_two_pow_sub_one]; simp [hkd]

/-! ### C10 -/

/-- C10: the number of sub-entities of a simplex. -/
theorem C10_simplex (d id c : Nat) (hid : id < 2 ^ d) (hs : IsSimplexId d id) (hc : c ≤ d) :
    refSize d id c = (d + 1).choose c := by
  rw [refSize, size_eq (rep_of_isSimplexId hid hs) c hc, Topo.sz_simplex d c hc]

/-- C10: the number of sub-entities of a cube. -/
theorem C10_cube (d id c : Nat) (hid : id < 2 ^ d) (hs : IsCubeId d id) (hc : c ≤ d) :
    refSize d id c = d.choose c * 2 ^ c := by
  rw [refSize, size_eq (rep_of_isCubeId hid hs) c hc, Topo.sz_cube d c]

example : IsSimplexId 5 1 ∧ (1 : Nat) < 2 ^ 5 ∧ refSize 5 1 2 = 15 := by
  refine ⟨?_, by omega, by decide⟩
  intro k h1 h2
  interval_cases k <;> decide
example : IsCubeId 4 14 ∧ (14 : Nat) < 2 ^ 4 ∧ refSize 4 14 3 = 32 := by
  refine ⟨?_, by omega, by decide⟩
  intro k h1 h2
  interval_cases k <;> decide

/-- C10: for every type the count is positive and at most that of the cube. -/
theorem C10_bounds (d id c : Nat) (hc : c ≤ d) :
    0 < refSize d id c ∧ refSize d id c ≤ d.choose c * 2 ^ c := by
  have h := rep_topoOf d id
  have e : refSize d id c = (topoOf d id).sz c := size_eq h c hc
  rw [e]
  refine ⟨Topo.sz_pos _ _ (by rw [h.dim_eq]; exact hc), ?_⟩
  have := Topo.sz_le_cube (topoOf d id) c
  rwa [h.dim_eq, Topo.sz_cube] at this

example : (1 : Nat) ≤ 3 ∧ refSize 3 4 1 = 5 := by decide

theorem foldl_max_le (l : List Nat) (f : Nat → Nat) : ∀ a, a ≤ l.foldl (fun mx x => max mx (f x)) a ∧
    ∀ x ∈ l, f x ≤ l.foldl (fun mx x => max mx (f x)) a := by
  induction l with
  | nil => intro a; simp
  | cons y l ih =>
    intro a
    obtain ⟨h1, h2⟩ := ih (max a (f y))
    refine ⟨le_trans (le_max_left _ _) h1, ?_⟩
    intro x hx
    rcases List.mem_cons.1 hx with rfl | hx
    · exact le_trans (le_max_right _ _) h1
    · exact h2 x hx

/-- C10: the capacity of the containment bitset suffices for every codimension of every element. -/
theorem C10_capacity (d id c : Nat) (hc : c ≤ d) : refSize d id c ≤ maxSubEntityCount Nat.choose d := by
  refine le_trans (C10_bounds d id c hc).2 ?_
  have := (foldl_max_le (List.range (d + 1)) (fun codim => d.choose codim * (1 <<< codim)) 0).2 c
    (List.mem_range.2 (by omega))
  rwa [Nat.one_shiftLeft] at this

example : maxSubEntityCount Nat.choose 3 = 12 := by decide

/-! ### C11 -/

/-- C11: Euler–Poincaré relation. -/
theorem C11_euler (d id : Nat) :
    ∑ c ∈ range (d + 1), (-1 : ℤ) ^ (d - c) * (refSize d id c : ℤ) = 1 := by
  have h := rep_topoOf d id
  have e := Topo.euler (topoOf d id)
  rw [h.dim_eq] at e
  refine Eq.trans (sum_congr rfl fun c hc => ?_) e
  rw [refSize, size_eq h c (by rw [mem_range] at hc; omega)]

-- prism: -1 + 5 - 9 + 6 … with signs: 6 - 9 + 5 - 1 = 1
example : (List.range 4).map (refSize 3 5) = [1, 5, 9, 6] := by decide

/-! ### C12 -/

theorem exists_face {d id c i : Nat} {t : Topo} (h : Rep d id t) (hc : c ≤ d) (hi : i < refSize d id c) :
    ∃ f : Face t, f.codim = c ∧ f.idx = i := by
  rw [refSize, size_eq h c hc] at hi
  exact Face.idx_surj t c i hi

theorem face_lt {d id : Nat} {t : Topo} (h : Rep d id t) (f : Face t) : f.idx < refSize d id f.codim := by
  have := Face.codim_le f
  rw [h.dim_eq] at this
  rw [refSize, size_eq h _ this]
  exact Face.idx_lt f

theorem refType_eq (d id i c : Nat) (hd : d ≤ 31) (hid : id < 2 ^ d) (hc : c ≤ d) :
    refType d id i c = ⟨d - c, false, subTopologyId d id c i⟩ := by
  have h := subTopologyId_lt d id c i hid hc
  have h2 : 2 ^ (d - c) ≤ 2 ^ 31 := Nat.pow_le_pow_right (by omega) (by omega)
  simp only [refType, SubEntityInfo.initialize, mk2]
  exact mk3_eq (by omega) (by omega)

/-- C12: the type of a sub-entity is a regular type of the right dimension. -/
theorem C12_regular (d id i c : Nat) (hd : d ≤ 31) (hid : id < 2 ^ d) (hc : c ≤ d) :
    (refType d id i c).isNone = false ∧ (refType d id i c).dim = d - c ∧
      (refType d id i c).id < 2 ^ (d - c) := by
  rw [refType_eq d id i c hd hid hc]
  exact ⟨rfl, rfl, subTopologyId_lt d id c i hid hc⟩

/-- C12: the only sub-entity of codimension 0 has the type of the element. -/
theorem C12_whole (d id : Nat) (hd : d ≤ 31) (hid : id < 2 ^ d) : refType d id 0 0 = ⟨d, false, id⟩ := by
  rw [refType_eq d id 0 0 hd hid (by omega), subTopologyId_zero, Nat.sub_zero]

/-- C12: sub-entities of simplices are simplices, sub-entities of cubes are cubes. -/
theorem C12_simplex_cube (d id i c : Nat) (hd : d ≤ 30) (hid : id < 2 ^ d) (hc : c ≤ d)
    (hi : i < refSize d id c) :
    (IsSimplexId d id → isSimplex (refType d id i c) = true) ∧
    (IsCubeId d id → isCube (refType d id i c) = some true) := by
  have hr := C12_regular d id i c (by omega) hid hc
  have hlt := subTopologyId_lt d id c i hid hc
  rw [refType_eq d id i c (by omega) hid hc] at hr ⊢
  have hreg : Regular (⟨d - c, false, subTopologyId d id c i⟩ : GeometryType) := ⟨hr.1, hr.2.2⟩
  constructor
  · intro hs
    have h := rep_of_isSimplexId hid hs
    obtain ⟨f, rfl, rfl⟩ := exists_face h hc hi
    have hsub := rep_sub h hid f
    rw [Face.shape_simplex] at hsub
    rw [C03_isSimplex_spec _ hreg]
    exact isSimplexId_of_rep hlt hsub
  · intro hs
    have h := rep_of_isCubeId hid hs
    obtain ⟨f, rfl, rfl⟩ := exists_face h hc hi
    have hsub := rep_sub h hid f
    rw [Face.shape_cube] at hsub
    obtain ⟨b, hb, hb'⟩ := C03_isCube_spec _ hreg (by change d - f.codim ≤ 30; omega)
    rw [hb, Option.some.injEq, hb']
    exact isCubeId_of_rep hlt hsub

/-- C12: the sub-entity has as many sub-entities as the reference element of its type. -/
theorem C12_sizes (d id i c cc : Nat) (hd : d ≤ 31) (hid : id < 2 ^ d) (hc : c ≤ d) (hcc : cc ≤ d)
    (hi : i < refSize d id c) :
    refSize3 d id i c cc =
      if cc < c then 0 else refSize (refType d id i c).dim (refType d id i c).id (cc - c) := by
  split
  · rename_i h; exact (numbers_lt d id i c cc h).2
  · rename_i h
    have hr := rep_topoOf d id
    rw [refType_eq d id i c hd hid hc]
    obtain ⟨f, rfl, rfl⟩ := exists_face hr hc hi
    rw [(numbers_eq hr hid f (by omega) hcc).2.1]
    exact (size_eq (rep_sub hr hid f) _ (by omega)).symm

-- the bottom facet (number 3) of the prism is a triangle, the others are quadrilaterals
example : isSimplex (refType 3 5 3 1) = true ∧ isCube (refType 3 5 0 1) = some true ∧ 3 < refSize 3 5 1 := by
  decide

/-! ### C13 -/

/-- C13: the numbers of the sub-entities of a sub-entity are valid. -/
theorem C13_valid (d id i c ii cc : Nat) (hid : id < 2 ^ d) (hc : c ≤ d) (hcc : cc ≤ d)
    (hi : i < refSize d id c) (hii : ii < refSize3 d id i c cc) :
    ∃ k, subEntity d id i c ii cc = some k ∧ k < refSize d id cc := by
  have hr := rep_topoOf d id
  obtain ⟨f, rfl, rfl⟩ := exists_face hr hc hi
  have hle : f.codim ≤ cc := by
    by_contra h
    rw [(numbers_lt d id f.idx f.codim cc (by omega)).2] at hii; omega
  rw [(numbers_eq hr hid f hle hcc).2.1] at hii
  obtain ⟨g, hg, rfl⟩ := Face.idx_surj _ _ _ hii
  obtain rfl : cc = f.codim + g.codim := by omega
  refine ⟨_, subEntity_eq hr hid f g, ?_⟩
  have := face_lt hr (Face.comp f g)
  rwa [Face.codim_comp] at this

/-- C13: they are pairwise different. -/
theorem C13_injective (d id i c cc a b : Nat) (hid : id < 2 ^ d) (hc : c ≤ d) (hcc : cc ≤ d)
    (hi : i < refSize d id c) (ha : a < refSize3 d id i c cc) (hb : b < refSize3 d id i c cc)
    (h : subEntity d id i c a cc = subEntity d id i c b cc) : a = b := by
  have hr := rep_topoOf d id
  obtain ⟨f, rfl, rfl⟩ := exists_face hr hc hi
  have hle : f.codim ≤ cc := by
    by_contra h
    rw [(numbers_lt d id f.idx f.codim cc (by omega)).2] at ha; omega
  rw [(numbers_eq hr hid f hle hcc).2.1] at ha hb
  obtain ⟨g, hg, rfl⟩ := Face.idx_surj _ _ _ ha
  obtain ⟨g', hg', rfl⟩ := Face.idx_surj _ _ _ hb
  have e := subEntity_eq hr hid f g
  have e' := subEntity_eq hr hid f g'
  rw [show f.codim + g.codim = cc by omega] at e
  rw [show f.codim + g'.codim = cc by omega] at e'
  rw [e, e', Option.some.injEq] at h
  have := Face.idx_inj _ _ (by rw [Face.codim_comp, Face.codim_comp]; omega) h
  rw [Face.comp_inj f g g' this]

/-- C13: a sub-entity is its own sub-entity 0. -/
theorem C13_self (d id i c : Nat) (hid : id < 2 ^ d) (hc : c ≤ d) (hi : i < refSize d id c) :
    subEntity d id i c 0 c = some i := by
  have hr := rep_topoOf d id
  obtain ⟨f, rfl, rfl⟩ := exists_face hr hc hi
  have e := subEntity_eq hr hid f (Face.whole _)
  rw [Face.codim_whole, Face.idx_of_codim_zero _ (Face.codim_whole _),
    Face.comp_of_codim_zero _ _ (Face.codim_whole _)] at e
  exact e

/-- C13: within the whole element the sub-entities keep their numbers. -/
theorem C13_whole (d id ii cc : Nat) (hid : id < 2 ^ d) (hcc : cc ≤ d) (hii : ii < refSize d id cc) :
    subEntity d id 0 0 ii cc = some ii ∧ refSize3 d id 0 0 cc = refSize d id cc := by
  have hr := rep_topoOf d id
  have hw := Face.codim_whole (topoOf d id)
  have hs := Face.shape_of_codim_zero _ hw
  have hi := Face.idx_of_codim_zero _ hw
  have hsz : refSize3 d id 0 0 cc = refSize d id cc := by
    have := (numbers_eq hr hid (Face.whole _) (cc := cc) (by omega) hcc).2.1
    rw [hi, hw, hs] at this
    rw [this, refSize, size_eq hr cc hcc]; rfl
  refine ⟨?_, hsz⟩
  have hlt : ii < ((Face.whole (topoOf d id)).shape).sz cc := by
    rw [hs, ← size_eq hr cc hcc]; exact hii
  obtain ⟨g, hg, rfl⟩ := Face.idx_surj _ _ _ hlt
  have e := subEntity_eq hr hid _ g
  rw [hw, hi, hg, Face.idx_comp_of_codim_zero _ _ hw, Nat.zero_add] at e
  exact e

-- facet 2 of the pyramid (id 3 in dim 3) has the vertices 1, 3, 4
example : (List.range 3).map (fun ii => subEntity 3 3 2 1 ii 3) = [some 1, some 3, some 4] := by decide

/-! ### C14 -/

/-- C14: numbering is transitive.  `k` is the `ii`-th sub-entity of codimension `cc` of `(i,c)`; `T` is
the type of `(i,c)`. -/
theorem C14_transitive (d id i c ii cc : Nat) (hd : d ≤ 31) (hid : id < 2 ^ d) (hc : c ≤ cc) (hcc : cc ≤ d)
    (hi : i < refSize d id c) (hii : ii < refSize3 d id i c cc) :
    let T := refType d id i c
    ∃ k, subEntity d id i c ii cc = some k ∧
      Typ.eq (refType d id k cc) (refType T.dim T.id ii (cc - c)) = true ∧
      ∀ ccc, cc ≤ ccc → ccc ≤ d →
        refSize3 d id k cc ccc = refSize3 T.dim T.id ii (cc - c) (ccc - c) ∧
        ∀ j, j < refSize3 d id k cc ccc →
          ∃ s m, subEntity T.dim T.id ii (cc - c) j (ccc - c) = some s ∧
            s < refSize3 d id i c ccc ∧
            subEntity d id i c s ccc = some m ∧ subEntity d id k cc j ccc = some m := by
  intro T
  have hr := rep_topoOf d id
  obtain ⟨f, rfl, rfl⟩ := exists_face hr (by omega) hi
  rw [(numbers_eq hr hid f hc hcc).2.1] at hii
  obtain ⟨g, hg, rfl⟩ := Face.idx_surj _ _ _ hii
  obtain rfl : cc = f.codim + g.codim := by omega
  have hT : T = ⟨d - f.codim, false, subTopologyId d id f.codim f.idx⟩ := refType_eq d id _ _ hd hid (by omega)
  have hTr : Rep T.dim T.id f.shape := by rw [hT]; exact rep_sub hr hid f
  have hTid : T.id < 2 ^ T.dim := by rw [hT]; exact subTopologyId_lt d id _ _ hid (by omega)
  have hTd : T.dim = d - f.codim := by rw [hT]
  have hfd := Face.codim_add_dim f
  rw [hr.dim_eq] at hfd
  have hgd := Face.codim_add_dim g
  refine ⟨(Face.comp f g).idx, subEntity_eq hr hid f g, ?_, ?_⟩
  · rw [refType_eq d id _ _ hd hid hcc, refType_eq T.dim T.id _ _ (by omega) hTid (by omega)]
    have r1 := rep_sub hr hid (Face.comp f g)
    rw [Face.shape_comp, Face.codim_comp] at r1
    have r2 := rep_sub hTr hTid g
    have ed : d - (f.codim + g.codim) = T.dim - g.codim := by omega
    have e := r1.id_unique (by rw [ed]; exact r2) (subTopologyId_lt d id _ _ hid hcc)
      (by rw [ed]; exact subTopologyId_lt T.dim T.id _ _ hTid (by omega))
    simp only [Typ.eq, shr_one, Nat.add_sub_cancel_left]
    simp [e, ed]
  · intro ccc h1 h2
    have s1 := (numbers_eq hr hid (Face.comp f g) (cc := ccc) (by rw [Face.codim_comp]; exact h1) h2).2.1
    rw [Face.codim_comp, Face.shape_comp] at s1
    have s2 := (numbers_eq hTr hTid g (cc := ccc - f.codim) (by omega) (by omega)).2.1
    have ee : ccc - (f.codim + g.codim) = ccc - f.codim - g.codim := by omega
    refine ⟨?_, ?_⟩
    · rw [s1, Nat.add_sub_cancel_left, s2, ee]
    · intro j hj
      rw [s1] at hj
      obtain ⟨h, hh, rfl⟩ := Face.idx_surj _ _ _ hj
      -- the same face as a face of `comp f g`
      obtain ⟨h', hh'⟩ : ∃ h' : Face (Face.comp f g).shape, HEq h' h :=
        ⟨cast (congrArg Face (Face.shape_comp f g).symm) h, cast_heq _ _⟩
      have hcd : h'.codim = h.codim ∧ h'.idx = h.idx := by
        have : ∀ {a b : Topo} (_ : a = b) (x : Face a) (y : Face b), HEq x y → x.codim = y.codim ∧ x.idx = y.idx := by
          rintro a b rfl x y e; cases eq_of_heq e; exact ⟨rfl, rfl⟩
        exact this (Face.shape_comp f g) h' h hh'
      have ea := Face.comp_assoc f g h' h hh'
      refine ⟨(Face.comp g h).idx, (Face.comp f (Face.comp g h)).idx, ?_, ?_, ?_, ?_⟩
      · have := subEntity_eq hTr hTid g h
        rw [Nat.add_sub_cancel_left]
        rwa [show g.codim + h.codim = ccc - f.codim by omega] at this
      · have := Face.idx_lt (Face.comp g h)
        rw [Face.codim_comp, show g.codim + h.codim = ccc - f.codim by omega] at this
        rwa [(numbers_eq hr hid f (by omega) h2).2.1]
      · have := subEntity_eq hr hid f (Face.comp g h)
        rwa [Face.codim_comp, show f.codim + (g.codim + h.codim) = ccc by omega] at this
      · have := subEntity_eq hr hid (Face.comp f g) h'
        rwa [Face.codim_comp, hcd.1, hcd.2, ea, show f.codim + g.codim + h.codim = ccc by omega] at this

example : (1 : Nat) ≤ 2 ∧ 2 < refSize 3 3 1 ∧ 1 < refSize3 3 3 2 1 2 ∧
    subEntity 3 3 2 1 1 2 = some 5 := by decide

/-! ### C15 -/

/-- C15: the range enumerates the sub-entities in order. -/
theorem C15_range (d id i c cc : Nat) (hid : id < 2 ^ d) (hc : c ≤ d) (hcc : cc ≤ d) (hi : i < refSize d id c) :
    (subEntities d id i c cc).length = refSize3 d id i c cc ∧
    ∀ ii, ii < refSize3 d id i c cc → (subEntities d id i c cc)[ii]? = subEntity d id i c ii cc := by
  refine ⟨?_, fun ii h => (number_eq d id i c cc ii h).symm⟩
  by_cases h : c ≤ cc
  · have hr := rep_topoOf d id
    obtain ⟨f, rfl, rfl⟩ := exists_face hr hc hi
    rw [subEntities_length hr hid f h hcc, (numbers_eq hr hid f h hcc).2.1]
  · obtain ⟨h1, h2⟩ := numbers_lt d id i c cc (by omega)
    rw [h1, h2]; rfl

/-- C15: `contains` is membership in the enumerated range. -/
theorem C15_contains (d id i c cc k : Nat) (hid : id < 2 ^ d) (hc : c ≤ d) (hcc : cc ≤ d)
    (hi : i < refSize d id c) :
    subEntitiesContains d id i c cc k = true ↔ k ∈ subEntities d id i c cc := by
  have hrng := C15_range d id i c cc hid hc hcc hi
  have hs : ∀ ii, ii < refSize3 d id i c cc →
      (SubEntityInfo.initialize d id c i).numbering[offsets d c (subTopologyId d id c i) cc + ii]? =
        (subEntities d id i c cc)[ii]? := fun ii h => (number_eq d id i c cc ii h)
  have hsz : refSize3 d id i c cc = offsets d c (subTopologyId d id c i) (cc + 1) -
    offsets d c (subTopologyId d id c i) cc := rfl
  simp only [subEntitiesContains, SubEntityInfo.initialize, List.any_eq_true, List.mem_range, beq_iff_eq]
  rw [← hsz, List.mem_iff_getElem?]
  constructor
  · rintro ⟨ii, h1, h2⟩
    exact ⟨ii, by rw [← hs ii h1]; exact h2⟩
  · rintro ⟨ii, h⟩
    have hlt : ii < refSize3 d id i c cc := by
      rw [← hrng.1]; exact (List.getElem?_eq_some_iff.1 h).1
    exact ⟨ii, hlt, by rw [← hs ii hlt] at h; exact h⟩

/-- C15: copies answer every query as the original does. -/
theorem C15_copy (d id i c : Nat) (hid : id < 2 ^ d) (hc : c ≤ d) (hi : i < refSize d id c)
    (other : SubEntityInfo) :
    (SubEntityInfo.initialize d id c i).copy d = SubEntityInfo.initialize d id c i ∧
    other.assign (SubEntityInfo.initialize d id c i) false d = some (SubEntityInfo.initialize d id c i) := by
  have hcopy : (SubEntityInfo.initialize d id c i).copy d = SubEntityInfo.initialize d id c i := by
    have hr := rep_topoOf d id
    obtain ⟨f, rfl, rfl⟩ := exists_face hr hc hi
    have h := (numbers_eq hr hid f (le_refl _) hc).2.2
    unfold SubEntityInfo.copy
    rw [← h, List.take_length]
  exact ⟨hcopy, by simp [SubEntityInfo.assign, hcopy]⟩

/-- C15, self-assignment: the copy assignment operator is not safe for `x = x`, whatever the
element: the stored array is reallocated before it is copied from itself. -/
theorem C15_selfAssign_counterexample (d id i c : Nat) (hid : id < 2 ^ d) (hc : c ≤ d)
    (hi : i < refSize d id c) :
    (SubEntityInfo.initialize d id c i).assign (SubEntityInfo.initialize d id c i) true d = none := by
  have hpos : 0 < (SubEntityInfo.initialize d id c i).capacity d := by
    have hr := rep_topoOf d id
    obtain ⟨f, rfl, rfl⟩ := exists_face hr hc hi
    have h := (numbers_eq hr hid f (le_refl _) hc).2.1
    have m := offsets_mono d f.codim (subTopologyId d id f.codim f.idx) (show f.codim + 1 ≤ d + 1 by omega)
    simp only [refSize3, SubEntityInfo.size, SubEntityInfo.initialize, Nat.sub_self, Topo.sz_zero] at h
    simp only [SubEntityInfo.capacity, SubEntityInfo.initialize]
    omega
  have : (SubEntityInfo.initialize d id c i).capacity d ≠ 0 := by omega
  simp [SubEntityInfo.assign, this]

example : subEntitiesContains 3 5 3 1 3 2 = true ∧ subEntitiesContains 3 5 3 1 3 4 = false ∧
    subEntities 3 5 3 1 3 = [0, 1, 2] ∧ 3 < refSize 3 5 1 := by decide

/-! ### C16 -/

/-- C16: sub-entities of the same codimension with the same vertices are equal. -/
theorem C16_vertices_determine (d id c i j : Nat) (hid : id < 2 ^ d) (hc : c ≤ d)
    (hi : i < refSize d id c) (hj : j < refSize d id c)
    (h : ∀ v, v ∈ subEntities d id i c d ↔ v ∈ subEntities d id j c d) : i = j := by
  have hr := rep_topoOf d id
  obtain ⟨f, hf, rfl⟩ := exists_face hr hc hi
  obtain ⟨g, hg, rfl⟩ := exists_face hr hc hj
  have key : ∀ a b : Face (topoOf d id), a.codim = c → b.codim = c →
      (∀ v, v ∈ subEntities d id a.idx c d → v ∈ subEntities d id b.idx c d) → Face.le a b = true := by
    intro a b ha hb hv
    rw [Face.le_iff_vertices]
    intro v hvv hva
    have hvd : v.codim = d := by rw [hvv, hr.dim_eq]
    have := hv v.idx (by
      have := (mem_subEntities hr hid a (le_refl d) v.idx).2 ⟨v, hvd, rfl, hva⟩
      rwa [ha] at this)
    rw [← hb] at this
    obtain ⟨w, hw1, hw2, hw3⟩ := (mem_subEntities hr hid b (le_refl d) v.idx).1 this
    rw [Face.idx_inj v w (by omega) hw2.symm]; exact hw3
  have h1 := key f g hf hg (fun v => (h v).1)
  have h2 := key g f hg hf (fun v => (h v).2)
  rw [Face.le_antisymm' h1 h2]

/-- C16: being a sub-entity is inclusion of the vertex sets. -/
theorem C16_subset (d id i c k cc : Nat) (hid : id < 2 ^ d) (hc : c ≤ d) (hcc : cc ≤ d)
    (hi : i < refSize d id c) (hk : k < refSize d id cc) :
    k ∈ subEntities d id i c cc ↔ ∀ v, v ∈ subEntities d id k cc d → v ∈ subEntities d id i c d := by
  have hr := rep_topoOf d id
  obtain ⟨f, rfl, rfl⟩ := exists_face hr hc hi
  obtain ⟨g, rfl, rfl⟩ := exists_face hr hcc hk
  rw [mem_subEntities hr hid f hcc]
  have e1 : (∃ g' : Face (topoOf d id), g'.codim = g.codim ∧ g'.idx = g.idx ∧ Face.le g' f = true) ↔
      Face.le g f = true := by
    constructor
    · rintro ⟨g', h1, h2, h3⟩; rwa [← Face.idx_inj g' g h1 h2]
    · intro h; exact ⟨g, rfl, rfl, h⟩
  rw [e1, Face.le_iff_vertices]
  constructor
  · intro h v hv
    rw [mem_subEntities hr hid g (le_refl d)] at hv
    rw [mem_subEntities hr hid f (le_refl d)]
    obtain ⟨w, h1, h2, h3⟩ := hv
    exact ⟨w, h1, h2, h w (by rw [Face.IsVertex, h1, hr.dim_eq]) h3⟩
  · intro h v hvv hle
    have hvd : v.codim = d := by rw [hvv, hr.dim_eq]
    have := h v.idx ((mem_subEntities hr hid g (le_refl d) _).2 ⟨v, hvd, rfl, hle⟩)
    obtain ⟨w, h1, h2, h3⟩ := (mem_subEntities hr hid f (le_refl d) _).1 this
    rw [Face.idx_inj v w (by omega) h2.symm]; exact h3

-- edge 5 of the pyramid joins vertices 1 and 4 and lies in facet 2 with vertices 1, 3, 4
example : 5 ∈ subEntities 3 3 2 1 2 ∧ subEntities 3 3 5 2 3 = [1, 4] ∧
    subEntities 3 3 2 1 3 = [1, 3, 4] ∧ 5 < refSize 3 3 2 := by decide

/-! ### C09 -/

/-- C09: the vertex count of a regular type of dimension at most 3 gives back that type. -/
theorem C09_inverts (g : GeometryType) (h : Regular g) (hd : g.dim ≤ 3) :
    ∃ t, geometryTypeFromVertexCount g.dim (refSize g.dim g.id g.dim) = .ok t ∧ Typ.eq t g = true := by
  have key : ∀ d, d ≤ 3 → ∀ id, id < 2 ^ d →
      ∃ t, geometryTypeFromVertexCount d (refSize d id d) = .ok t ∧ Typ.eq t ⟨d, false, id⟩ = true := by
    intro d hd
    interval_cases d
    · intro id hid; obtain rfl : id = 0 := by omega
      exact ⟨vertex, rfl, by decide⟩
    · intro id hid
      exact ⟨line, rfl, by interval_cases id <;> decide⟩
    · intro id hid
      have : id < 4 := hid
      interval_cases id
      · exact ⟨triangle, by decide, by decide⟩
      · exact ⟨triangle, by decide, by decide⟩
      · exact ⟨⟨2, false, 3⟩, by decide, by decide⟩
      · exact ⟨⟨2, false, 3⟩, by decide, by decide⟩
    · intro id hid
      have : id < 8 := hid
      interval_cases id
      · exact ⟨tetrahedron, by decide, by decide⟩
      · exact ⟨tetrahedron, by decide, by decide⟩
      · exact ⟨pyramid, by decide, by decide⟩
      · exact ⟨pyramid, by decide, by decide⟩
      · exact ⟨prism, by decide, by decide⟩
      · exact ⟨prism, by decide, by decide⟩
      · exact ⟨⟨3, false, 7⟩, by decide, by decide⟩
      · exact ⟨⟨3, false, 7⟩, by decide, by decide⟩
  obtain ⟨hn, hid⟩ := h
  obtain ⟨d, n, id⟩ := g
  obtain rfl : n = false := hn
  exact key d hd id hid

/-- C09: a returned type of dimension 2 or 3 has the requested number of vertices. -/
theorem C09_sound (d v : Nat) (hd : d = 2 ∨ d = 3) (t : GeometryType)
    (h : geometryTypeFromVertexCount d v = .ok t) :
    Regular t ∧ t.dim = d ∧ refSize t.dim t.id t.dim = v := by
  have e2 : quadrilateral = some ⟨2, false, 3⟩ := by decide
  have e3 : hexahedron = some ⟨3, false, 7⟩ := by decide
  rcases hd with rfl | rfl
  · simp only [geometryTypeFromVertexCount, e2] at h
    split at h
    · cases h; exact ⟨⟨by decide, by decide⟩, by decide, by decide⟩
    · cases h; exact ⟨⟨by decide, by decide⟩, by decide, by decide⟩
    · cases h
  · simp only [geometryTypeFromVertexCount, e3] at h
    split at h
    · cases h; exact ⟨⟨by decide, by decide⟩, by decide, by decide⟩
    · cases h; exact ⟨⟨by decide, by decide⟩, by decide, by decide⟩
    · cases h; exact ⟨⟨by decide, by decide⟩, by decide, by decide⟩
    · cases h; exact ⟨⟨by decide, by decide⟩, by decide, by decide⟩
    · cases h

/-- C09: what is not supported is reported. -/
theorem C09_unsupported (d v : Nat) :
    geometryTypeFromVertexCount d v = .notImplemented ↔
      3 < d ∨ (d = 2 ∧ v ≠ 3 ∧ v ≠ 4) ∨ (d = 3 ∧ v ≠ 4 ∧ v ≠ 5 ∧ v ≠ 6 ∧ v ≠ 8) := by
  have e2 : quadrilateral = some ⟨2, false, 3⟩ := by decide
  have e3 : hexahedron = some ⟨3, false, 7⟩ := by decide
  match d with
  | 0 => simp [geometryTypeFromVertexCount]
  | 1 => simp [geometryTypeFromVertexCount]
  | 2 =>
    simp only [geometryTypeFromVertexCount, e2]
    split <;> simp_all
  | 3 =>
    simp only [geometryTypeFromVertexCount, e3]
    split <;> simp_all
  | d + 4 => simp [geometryTypeFromVertexCount]

example : geometryTypeFromVertexCount 3 6 = .ok prism ∧ refSize 3 5 3 = 6 := by decide

/-! ### C55 -/

/-- C55: two regular types that compare equal (`operator==`) have reference elements with the same
sub-entity counts, the same numbering and equal sub-entity types. -/
theorem C55_equal_types (a b : GeometryType) (ha : Regular a) (hb : Regular b) (hd : a.dim ≤ 31)
    (h : Typ.eq a b = true) (i c : Nat) (hc : c ≤ a.dim) :
    refSize a.dim a.id c = refSize b.dim b.id c ∧
    (i < refSize a.dim a.id c →
      Typ.eq (refType a.dim a.id i c) (refType b.dim b.id i c) = true ∧
      ∀ cc, cc ≤ a.dim →
        refSize3 a.dim a.id i c cc = refSize3 b.dim b.id i c cc ∧
        subEntities a.dim a.id i c cc = subEntities b.dim b.id i c cc) := by
  obtain ⟨hdim, hsh⟩ := (C02_eq_spec a b ha.notNone hb.notNone).1 h
  have hh : a.id / 2 = b.id / 2 := (half_eq_iff _ _).2 hsh
  have hai := ha.2
  have hbi := hb.2
  obtain ⟨d, n1, x⟩ := a
  obtain ⟨d', n2, y⟩ := b
  simp only at hdim hh hai hbi hd hc ⊢
  subst hdim
  have hx := rep_topoOf d x
  have hy := hx.congr hh
  have hs : refSize d x c = refSize d y c := by rw [refSize, refSize, size_eq hx c hc, size_eq hy c hc]
  refine ⟨hs, fun hi => ?_⟩
  obtain ⟨f, rfl, rfl⟩ := exists_face hx hc hi
  refine ⟨?_, fun cc hcc => ?_⟩
  · rw [refType_eq d x _ _ hd hai hc, refType_eq d y _ _ hd hbi hc]
    have e := (rep_sub hx hai f).id_unique (rep_sub hy hbi f) (subTopologyId_lt _ _ _ _ hai hc)
      (subTopologyId_lt _ _ _ _ hbi hc)
    simp [Typ.eq, shr_one, e]
  · by_cases hle : f.codim ≤ cc
    · refine ⟨by rw [(numbers_eq hx hai f hle hcc).2.1, (numbers_eq hy hbi f hle hcc).2.1], ?_⟩
      apply List.ext_getElem?
      intro n
      by_cases hn : n < f.shape.sz (cc - f.codim)
      · obtain ⟨g, hg, rfl⟩ := Face.idx_surj _ _ _ hn
        have e1 := subEntities_getElem hx hai f g
        have e2 := subEntities_getElem hy hbi f g
        rw [show f.codim + g.codim = cc by omega] at e1 e2
        rw [e1, e2]
      · rw [List.getElem?_eq_none (by rw [subEntities_length hx hai f hle hcc]; omega),
          List.getElem?_eq_none (by rw [subEntities_length hy hbi f hle hcc]; omega)]
    · rw [(numbers_lt _ _ _ _ _ (by omega)).1, (numbers_lt _ _ _ _ _ (by omega)).1,
        (numbers_lt _ _ _ _ _ (by omega)).2, (numbers_lt _ _ _ _ _ (by omega)).2]
      exact ⟨rfl, rfl⟩

example : Typ.eq ⟨3, false, 4⟩ ⟨3, false, 5⟩ = true ∧ subEntities 3 4 3 1 3 = subEntities 3 5 3 1 3 := by decide

/-! ### C56 -/

/-- C56: every sub-entity of codimension 2 lies in exactly two facets. -/
theorem C56_diamond (d id k : Nat) (hid : id < 2 ^ d) (hd : 2 ≤ d) (hk : k < refSize d id 2) :
    ((List.range (refSize d id 1)).filter (fun i => subEntitiesContains d id i 1 2 k)).length = 2 := by
  have hr := rep_topoOf d id
  obtain ⟨f, hf, rfl⟩ := exists_face hr hd hk
  obtain ⟨g1, g2, hne, c1, c2, l1, l2, hall⟩ := Face.diamond f hf
  have hmem : ∀ i, i < refSize d id 1 →
      (subEntitiesContains d id i 1 2 f.idx = true ↔ i = g1.idx ∨ i = g2.idx) := by
    intro i hi
    rw [C15_contains d id i 1 2 _ hid (by omega) hd hi]
    obtain ⟨g, hg, rfl⟩ := exists_face hr (by omega) hi
    have := mem_subEntities hr hid g hd f.idx
    rw [hg] at this
    rw [this]
    constructor
    · rintro ⟨f', h1, h2, h3⟩
      rw [Face.idx_inj f' f (by omega) h2] at h3
      rcases hall g hg h3 with rfl | rfl <;> simp
    · rintro (e | e)
      · rw [Face.idx_inj g g1 (by omega) e]; exact ⟨f, hf, rfl, l1⟩
      · rw [Face.idx_inj g g2 (by omega) e]; exact ⟨f, hf, rfl, l2⟩
  have hidx : g1.idx ≠ g2.idx := fun e => hne (Face.idx_inj g1 g2 (by omega) e)
  have hg1 : g1.idx < refSize d id 1 := by have := face_lt hr g1; rwa [c1] at this
  have hg2 : g2.idx < refSize d id 1 := by have := face_lt hr g2; rwa [c2] at this
  have hfs : (List.range (refSize d id 1)).filter (fun i => subEntitiesContains d id i 1 2 f.idx) =
      (List.range (refSize d id 1)).filter (fun i => decide (i = g1.idx ∨ i = g2.idx)) := by
    apply List.filter_congr
    intro i hi
    rw [Bool.eq_iff_iff, hmem i (List.mem_range.1 hi), decide_eq_true_iff]
  rw [hfs]
  have hnd : ((List.range (refSize d id 1)).filter (fun i => decide (i = g1.idx ∨ i = g2.idx))).Nodup :=
    List.nodup_range.filter _
  rw [← List.toFinset_card_of_nodup hnd]
  have : ((List.range (refSize d id 1)).filter (fun i => decide (i = g1.idx ∨ i = g2.idx))).toFinset =
      {g1.idx, g2.idx} := by
    ext i
    simp only [List.mem_toFinset, List.mem_filter, List.mem_range, decide_eq_true_iff, mem_insert, mem_singleton]
    constructor
    · exact fun h => h.2
    · intro h; refine ⟨?_, h⟩
      rcases h with rfl | rfl
      · exact hg1
      · exact hg2
  rw [this, card_pair hidx]

example : (2 : Nat) ≤ 3 ∧ 7 < refSize 3 3 2 ∧
    (List.range (refSize 3 3 1)).filter (fun i => subEntitiesContains 3 3 i 1 2 7) = [2, 4] := by decide

end Verif.RefTopo
