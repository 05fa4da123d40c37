import Verif.RefGeom.Strata

/-! Property theorems: the sub-entities stratify the reference element (C70). -/

namespace Verif.RefGeom

open Verif.Typ Verif.RefTopo Finset

variable {K : Type} [Field K] [LinearOrder K] [IsStrictOrderedRing K]

/-- the closed sub-entity `(i,c)`: the convex hull of its corners -/
def closedPiece (K : Type) [Field K] [LinearOrder K] [IsStrictOrderedRing K] (d id i c : Nat) : Set (Vec K) :=
  convexHull K {y | ∃ k ∈ subEntities d id i c d, y = corner d id k}

/-- the relative interior of the sub-entity `(i,c)`: the image, under its embedding, of the points that pass the inside test
of the reference element of its type with tolerance zero (the interior, C18) -/
def openPiece (K : Type) [Field K] [LinearOrder K] [IsStrictOrderedRing K] (d id i c : Nat) : Set (Vec K) :=
  {x | ∃ e y, (referenceEmbeddings (K := K) d id c)[i]? = some e ∧
    checkInside (refType d id i c).dim (refType d id i c).id y 0 1 = true ∧ embed (d - c) e y = x}

theorem domain_zero {d id : Nat} {x : Vec K} (hx : x ∈ domain K d id) (k : Nat) (hk : d ≤ k) : x k = 0 := by
  have : domain K d id ⊆ {x | x k = 0} := by
    refine convexHull_min (fun c hc => ?_) ?_
    · have hr := rep_topoOf d id
      have hc : c ∈ referenceCorners (K := K) d id := hc
      rw [cornersOf_eq hr] at hc
      exact cornersOf_zero hc (by rw [hr.dim_eq]; exact hk)
    · intro x hx y hy a b _ _ _
      have hx : x k = 0 := hx
      have hy : y k = 0 := hy
      change a * x k + b * y k = 0
      rw [hx, hy]
      ring
  exact this hx

theorem mem_openPiece {d id : Nat} (hd : d ≤ 31) (hid : id < 2 ^ d) (f : Face (topoOf d id)) (x : Vec K) :
    x ∈ openPiece K d id f.idx f.codim ↔ ∃ y, Inside 0 f.shape 1 y ∧ emb f y = x := by
  have hr := rep_topoOf d id
  have hfd := Face.codim_add_dim f
  rw [hr.dim_eq] at hfd
  have hT : refType d id f.idx f.codim = ⟨d - f.codim, false, subTopologyId d id f.codim f.idx⟩ :=
    refType_eq d id _ _ hd hid (by omega)
  have hTr : Rep (refType d id f.idx f.codim).dim (refType d id f.idx f.codim).id f.shape := by rw [hT]; exact rep_sub hr hid f
  have e : d - f.codim = f.shape.dim := by omega
  constructor
  · rintro ⟨e', y, he, hy, rfl⟩
    rw [embedding_face hr f] at he
    obtain rfl := Option.some.inj he
    exact ⟨y, (checkInside_iff hTr y 0 1).1 hy, by rw [e]; rfl⟩
  · rintro ⟨y, hy, rfl⟩
    exact ⟨_, y, embedding_face hr f, (checkInside_iff hTr y 0 1).2 hy, by rw [e]; rfl⟩

theorem mem_closedPiece {d id : Nat} (hd : d ≤ 31) (hid : id < 2 ^ d) (f : Face (topoOf d id)) (x : Vec K) :
    x ∈ closedPiece K d id f.idx f.codim ↔ ∃ y, Dom f.shape 1 y ∧ emb f y = x := by
  have hr := rep_topoOf d id
  have hfd := Face.codim_add_dim f
  rw [hr.dim_eq] at hfd
  have hT : refType d id f.idx f.codim = ⟨d - f.codim, false, subTopologyId d id f.codim f.idx⟩ :=
    refType_eq d id _ _ hd hid (by omega)
  have hTr : Rep (refType d id f.idx f.codim).dim (refType d id f.idx f.codim).id f.shape := by rw [hT]; exact rep_sub hr hid f
  have e : d - f.codim = f.shape.dim := by omega
  have := C20_onto (K := K) d id f.idx f.codim hd hid (by omega) (face_lt hr f) _ (embedding_face hr f)
  rw [closedPiece, ← this]
  rw [e]
  constructor
  · rintro ⟨y, hy, rfl⟩
    exact ⟨y, (mem_domain hTr y (domain_zero hy)).1 hy, rfl⟩
  · rintro ⟨y, hy, rfl⟩
    refine ⟨fun k => if k < f.shape.dim then y k else 0, ?_, ?_⟩
    · rw [mem_domain hTr _ fun k hk => if_neg (by rw [hTr.dim_eq]; omega)]
      exact dom_congr _ _ (fun k hk => by rw [if_pos hk]) hy
    · exact emb_congr f fun k hk => by rw [if_pos hk]

/-- the faces that contain a point of the relative interior of a face are those above it -/
theorem emb_le {d id : Nat} (f g : Face (topoOf d id)) (y z : Vec K) (hy : Inside 0 f.shape 1 y) (hz : Dom g.shape 1 z)
    (h : emb g z = emb f y) : Face.le f g = true := by
  obtain ⟨g', z', h1, h2⟩ := strat_exists g.shape z hz
  have e : emb (Face.comp g g') z' = emb f y := by
    rw [emb_comp, ← h]
    exact emb_congr g h2
  rw [strat_unique f (Face.comp g g') y z' hy (by rw [Face.shape_comp]; exact h1) fun k _ => by rw [e]]
  exact Face.comp_le g g'

/-! ### C70 -/

/-- C70: every point of the reference element lies in the relative interior of exactly one sub-entity. -/
theorem C70_partition (d id : Nat) (hd : d ≤ 31) (hid : id < 2 ^ d) (x : Vec K) (hx : x ∈ domain K d id) :
    ∃! p : Nat × Nat, p.2 ≤ d ∧ p.1 < refSize d id p.2 ∧ x ∈ openPiece K d id p.1 p.2 := by
  have hr := rep_topoOf d id
  obtain ⟨f, y, hy, he⟩ := strat_exists _ x ((mem_domain hr x (domain_zero hx)).1 hx)
  have he : emb f y = x := by
    funext k
    by_cases hk : k < d
    · exact he k (by rw [hr.dim_eq]; exact hk)
    · rw [domain_zero hx k (by omega), emb_zero f _ k (by rw [hr.dim_eq]; omega)]
  have hfd := Face.codim_le f
  rw [hr.dim_eq] at hfd
  refine ⟨(f.idx, f.codim), ⟨hfd, face_lt hr f, (mem_openPiece hd hid f x).2 ⟨y, hy, he⟩⟩, ?_⟩
  rintro ⟨i, c⟩ ⟨h1, h2, h3⟩
  obtain ⟨g, rfl, rfl⟩ := exists_face hr h1 h2
  obtain ⟨z, hz, hz'⟩ := (mem_openPiece hd hid g x).1 h3
  rw [strat_unique f g y z hy hz fun k _ => by rw [he, hz']]

/-- C70: relative interiors are part of the closed sub-entities and these of the element. -/
theorem C70_subset (d id i c : Nat) (hd : d ≤ 31) (hid : id < 2 ^ d) (hc : c ≤ d) (hi : i < refSize d id c) :
    openPiece K d id i c ⊆ closedPiece K d id i c ∧ closedPiece K d id i c ⊆ domain K d id := by
  have hr := rep_topoOf d id
  obtain ⟨f, rfl, rfl⟩ := exists_face hr hc hi
  constructor
  · intro x hx
    obtain ⟨y, hy, rfl⟩ := (mem_openPiece hd hid f x).1 hx
    exact (mem_closedPiece hd hid f _).2 ⟨y, inside_dom _ _ _ hy, rfl⟩
  · intro x hx
    obtain ⟨y, hy, rfl⟩ := (mem_closedPiece hd hid f x).1 hx
    rw [mem_domain hr _ fun k hk => emb_zero f _ k (by rw [hr.dim_eq]; omega)]
    have := dom_emb f 1 y zero_le_one hy
    exact dom_congr _ _ (fun k _ => by simp) this

/-- C70: a point in the relative interior of the sub-entity `(k,cc)` lies in the closed sub-entity `(i,c)` exactly if `k` is
listed in `subEntities(i,c,cc)`. -/
theorem C70_incidence (d id i c k cc : Nat) (hd : d ≤ 31) (hid : id < 2 ^ d) (hc : c ≤ d) (hi : i < refSize d id c)
    (hcc : cc ≤ d) (hk : k < refSize d id cc) (x : Vec K) (hx : x ∈ openPiece K d id k cc) :
    x ∈ closedPiece K d id i c ↔ k ∈ subEntities d id i c cc := by
  have hr := rep_topoOf d id
  obtain ⟨f, rfl, rfl⟩ := exists_face hr hcc hk
  obtain ⟨g, rfl, rfl⟩ := exists_face hr hc hi
  obtain ⟨y, hy, rfl⟩ := (mem_openPiece hd hid f x).1 hx
  rw [mem_closedPiece hd hid g, mem_subEntities hr hid g hcc]
  constructor
  · rintro ⟨z, hz, h⟩
    exact ⟨f, rfl, rfl, emb_le f g y z hy hz h⟩
  · rintro ⟨f', h1, h2, hle⟩
    rw [Face.idx_inj f' f h1 h2] at hle
    obtain ⟨g', rfl⟩ := Face.exists_comp_of_le hle
    rw [Face.shape_comp] at hy
    refine ⟨emb g' y, ?_, by rw [emb_comp]⟩
    have := dom_emb g' 1 y zero_le_one (inside_dom _ _ _ hy)
    exact dom_congr _ _ (fun k _ => by simp) this

/-- C70: two sub-entities meet exactly in their common sub-entities. -/
theorem C70_intersection (d id i c j b : Nat) (hd : d ≤ 31) (hid : id < 2 ^ d) (hc : c ≤ d) (hi : i < refSize d id c) (hb : b ≤ d)
    (hj : j < refSize d id b) (x : Vec K) :
    x ∈ closedPiece K d id i c ∩ closedPiece K d id j b ↔
      ∃ k cc, cc ≤ d ∧ k ∈ subEntities d id i c cc ∧ k ∈ subEntities d id j b cc ∧ x ∈ closedPiece K d id k cc := by
  have hr := rep_topoOf d id
  constructor
  · rintro ⟨h1, h2⟩
    obtain ⟨⟨k, cc⟩, ⟨h3, h4, h5⟩, -⟩ := C70_partition d id hd hid x ((C70_subset d id i c hd hid hc hi).2 h1)
    exact ⟨k, cc, h3, (C70_incidence d id i c k cc hd hid hc hi h3 h4 x h5).1 h1,
      (C70_incidence d id j b k cc hd hid hb hj h3 h4 x h5).1 h2, (C70_subset d id k cc hd hid h3 h4).1 h5⟩
  · rintro ⟨k, cc, h3, h1, h2, h4⟩
    have sub : ∀ i c, c ≤ d → i < refSize d id c → k ∈ subEntities d id i c cc → x ∈ closedPiece K d id i c := by
      intro i c hc hi h1
      obtain ⟨f, rfl, rfl⟩ := exists_face hr hc hi
      obtain ⟨g, rfl, rfl, hle⟩ := (mem_subEntities hr hid f h3 k).1 h1
      obtain ⟨z, hz, rfl⟩ := (mem_closedPiece hd hid g x).1 h4
      obtain ⟨g', rfl⟩ := Face.exists_comp_of_le hle
      rw [Face.shape_comp] at hz
      refine (mem_closedPiece hd hid f _).2 ⟨emb g' z, ?_, by rw [emb_comp]⟩
      exact dom_congr _ _ (fun k _ => by simp) (dom_emb g' 1 z zero_le_one hz)
    exact ⟨sub i c hc hi h1, sub j b hb hj h2⟩

/-- C70: the boundary (the points of the element that are not in its interior) is the union of the facets. -/
theorem C70_boundary (d id : Nat) (hd : d ≤ 31) (hid : id < 2 ^ d) (h0 : 0 < d) (x : Vec K) :
    (x ∈ domain K d id ∧ checkInside d id x 0 1 = false) ↔ ∃ i, i < refSize d id 1 ∧ x ∈ closedPiece K d id i 1 := by
  have hr := rep_topoOf d id
  have hw : (Face.whole (topoOf d id)).codim = 0 := Face.codim_whole _
  have hsh := Face.shape_of_codim_zero _ hw
  have embw : ∀ (y : Vec K), (∀ k, d ≤ k → y k = 0) → emb (Face.whole (topoOf d id)) y = y := by
    intro y hy
    funext j
    simp only [emb, embed, orig_whole, jac_whole, hsh, hr.dim_eq, zero_add]
    by_cases hj : j < d
    · rw [Finset.sum_eq_single_of_mem j (mem_range.2 hj)]
      · simp [hj]
      · intro r _ hrj; simp [hrj]
    · rw [hy j (by omega)]
      apply sum_eq_zero
      intro r hrr
      have := mem_range.1 hrr
      rw [if_neg (by omega), zero_mul]
  constructor
  · rintro ⟨h1, h2⟩
    obtain ⟨⟨k, cc⟩, ⟨h3, h4, h5⟩, -⟩ := C70_partition d id hd hid x h1
    obtain ⟨f, rfl, rfl⟩ := exists_face hr h3 h4
    obtain ⟨y, hy, rfl⟩ := (mem_openPiece hd hid f x).1 h5
    have hf : 1 ≤ f.codim := by
      by_contra hc
      have hz := Face.eq_whole f (by omega)
      subst hz
      rw [hsh] at hy
      have hz' := (emb_congr (Face.whole (topoOf d id)) (x := y) (y := fun k => if k < d then y k else 0)
        fun k hk => by rw [hsh, hr.dim_eq] at hk; rw [if_pos hk])
      rw [hz', embw _ fun k hk => if_neg (by omega)] at h2
      rw [(checkInside_iff hr _ 0 1).2 (inside_congr _ _ (fun k hk => by rw [hr.dim_eq] at hk; rw [if_pos hk]) hy)] at h2
      exact nomatch h2
    obtain ⟨g, hg, hle⟩ := exists_facet_ge f hf
    refine ⟨g.idx, by rw [← hg]; exact face_lt hr g, ?_⟩
    have := (C70_incidence d id g.idx g.codim f.idx f.codim hd hid (by omega) (face_lt hr g) h3 h4 _ h5).2
      ((mem_subEntities hr hid g h3 _).2 ⟨f, rfl, rfl, hle⟩)
    rwa [hg] at this
  · rintro ⟨i, hi, hx⟩
    have hdom := (C70_subset d id i 1 hd hid h0 hi).2 hx
    refine ⟨hdom, ?_⟩
    by_contra hin
    rw [Bool.not_eq_false] at hin
    obtain ⟨g, hg, rfl⟩ := exists_face (c := 1) hr h0 hi
    rw [← hg] at hx
    obtain ⟨z, hz, he⟩ := (mem_closedPiece hd hid g x).1 hx
    have := emb_le (Face.whole (topoOf d id)) g x z (by rw [hsh]; exact (checkInside_iff hr x 0 1).1 hin) hz
      (by rw [he, embw x (domain_zero hdom)])
    have := Face.le_codim this
    omega

/-- the center of the corners is an interior point -/
theorem center_inside : ∀ t : Topo, Inside 0 t 1 fun k => ((cornersOf (K := K) t).map fun c => c k).sum / ((cornersOf (K := K) t).length : K)
  | .pt => trivial
  | .prism t => by
    have ih := center_inside t
    have hn : (0 : K) < ((cornersOf (K := K) t).length : K) := by
      rw [cornersOf, List.length_map, length_faces]
      exact_mod_cast Topo.sz_pos t _ (le_refl _)
    have h0 : ((cornersOf (K := K) t).map fun c => c t.dim).sum = 0 :=
      map_sum_zero _ _ fun c hc => cornersOf_zero hc (le_refl _)
    have h1 : (((cornersOf (K := K) t).map fun c => setV c t.dim 1).map fun c => c t.dim).sum = ((cornersOf (K := K) t).length : K) := by
      rw [List.map_map]
      have : ((fun c : Vec K => c t.dim) ∘ fun c => setV c t.dim 1) = fun _ => (1 : K) := by funext c; simp [setV]
      rw [this]
      simp
    simp only [cornersOf_prism, List.map_append, List.sum_append, List.length_append, List.length_map, Inside, neg_zero]
    rw [h0, h1]
    push_cast
    refine ⟨by positivity, ?_, inside_congr t 1 (fun k hk => ?_) ih⟩
    · field_simp; linarith
    · have : (((cornersOf (K := K) t).map fun c => setV c t.dim 1).map fun c => c k).sum = ((cornersOf (K := K) t).map fun c => c k).sum := by
        rw [List.map_map]
        congr 1
        exact List.map_congr_left fun c _ => setV_ne c (by omega) 1
      rw [this]
      field_simp
  | .pyr t => by
    have ih := center_inside t
    have hn : (0 : K) < ((cornersOf (K := K) t).length : K) := by
      rw [cornersOf, List.length_map, length_faces]
      exact_mod_cast Topo.sz_pos t _ (le_refl _)
    have h0 : ((cornersOf (K := K) t).map fun c => c t.dim).sum = 0 :=
      map_sum_zero _ _ fun c hc => cornersOf_zero hc (le_refl _)
    simp only [cornersOf_pyr, List.map_append, List.sum_append, List.length_append, Inside, neg_zero, List.map_cons,
      List.map_nil, List.sum_cons, List.sum_nil, List.length_cons, List.length_nil]
    rw [h0, setV_same]
    push_cast
    have e : (1 : K) - (0 + (1 + 0)) / (((cornersOf (K := K) t).length : K) + 1) =
        ((cornersOf (K := K) t).length : K) / (((cornersOf (K := K) t).length : K) + 1) * 1 := by
      field_simp
      ring
    refine ⟨by positivity, by rw [e]; positivity, ?_⟩
    rw [e]
    refine inside_congr t _ (fun k hk => ?_) (inside_smul (by positivity) t _ _ ih)
    rw [setV_ne _ (by omega)]
    field_simp
    ring

/-- C70: `position(i,c)` lies in the relative interior of the sub-entity. -/
theorem C70_position (d id i c : Nat) (hd : d ≤ 31) (hid : id < 2 ^ d) (hc : c ≤ d) (hi : i < refSize d id c) :
    ∃ p, position (K := K) d id i c = some p ∧ p ∈ openPiece K d id i c := by
  obtain ⟨e, b, h1, h2, h3⟩ := C21_embedding (K := K) d id i c hd hid hc hi
  refine ⟨_, h3, e, b, h1, ?_, rfl⟩
  have hTid : (refType d id i c).id < 2 ^ (refType d id i c).dim := by
    rw [refType_eq d id i c hd hid hc]; exact subTopologyId_lt d id _ _ hid (by omega)
  generalize refType d id i c = T at h2 hTid
  have hr := rep_topoOf T.dim T.id
  rw [checkInside_iff hr]
  have hs0 : 0 < refSize T.dim T.id 0 := by rw [refSize, size_zero]; exact one_pos
  obtain ⟨p, hp, hm⟩ := C21_mean (K := K) T.dim T.id 0 0 hTid (Nat.zero_le _) hs0
  rw [h2] at hp
  obtain rfl := Option.some.inj hp
  have hlen : (cornersOf (K := K) (topoOf T.dim T.id)).length = refSize T.dim T.id T.dim := by
    rw [← cornersOf_eq hr, C17_count]
  have hnpos : 0 < refSize T.dim T.id T.dim := by
    rw [refSize, size_eq hr _ (le_refl _)]
    exact Topo.sz_pos _ _ (by rw [hr.dim_eq])
  have h4 : refSize3 T.dim T.id 0 0 T.dim = refSize T.dim T.id T.dim := (C13_whole T.dim T.id 0 T.dim hTid (le_refl _) hnpos).2
  have hsub : subEntities T.dim T.id 0 0 T.dim = List.range (refSize T.dim T.id T.dim) := by
    have h3 : (subEntities T.dim T.id 0 0 T.dim).length = refSize3 T.dim T.id 0 0 T.dim :=
      (C15_range T.dim T.id 0 0 T.dim hTid (Nat.zero_le _) (le_refl _) hs0).1
    apply List.ext_getElem?
    intro j
    by_cases hj : j < refSize T.dim T.id T.dim
    · rw [List.getElem?_range hj, ← number_eq _ _ _ _ _ _ (by rw [h4]; exact hj)]
      exact (C13_whole T.dim T.id j T.dim hTid (le_refl _) hj).1
    · rw [List.getElem?_eq_none (by omega), List.getElem?_eq_none (by rw [List.length_range]; omega)]
  rw [h4, hsub] at hm
  refine inside_congr _ 1 (fun k _ => ?_) (center_inside (K := K) _)
  have hpos : (0 : K) < (refSize T.dim T.id T.dim : K) := by exact_mod_cast hnpos
  rw [hlen, div_eq_iff hpos.ne', mul_comm, hm k]
  congr 1
  apply List.ext_getElem
  · simp [hlen]
  · intro j h1 h2
    simp only [List.getElem_map, List.getElem_range, corner, cornersOf_eq hr]
    rw [List.getD_eq_getElem _ _ (by simpa using h1)]

example : ∃ x : Vec ℚ, x ∈ domain ℚ 3 2 := by
  obtain ⟨p, -, hp⟩ := C70_position (K := ℚ) 3 2 0 1 (by norm_num) (by norm_num) (by norm_num) (by decide)
  exact ⟨p, (C70_subset 3 2 0 1 (by norm_num) (by norm_num) (by norm_num) (by decide)).2
    ((C70_subset 3 2 0 1 (by norm_num) (by norm_num) (by norm_num) (by decide)).1 hp)⟩

end Verif.RefGeom
