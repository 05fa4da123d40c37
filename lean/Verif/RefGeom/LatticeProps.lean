import Verif.RefGeom.StrataProps
import Verif.RefTopo.Lattice

/-! Property theorems: the sub-entities of a reference element have the incidence structure of the faces of a polytope (C91). -/

namespace Verif.RefGeom

open Verif.Typ Verif.RefTopo Finset

variable {K : Type} [Field K] [LinearOrder K] [IsStrictOrderedRing K]

/-- incidence of two faces, read off the reference element -/
theorem le_iff_mem {d id : Nat} {t : Topo} (hr : Rep d id t) (hid : id < 2 ^ d) (f g : Face t) :
    Face.le g f = true ↔ g.idx ∈ subEntities d id f.idx f.codim g.codim := by
  have hg := Face.codim_le g
  rw [hr.dim_eq] at hg
  rw [mem_subEntities hr hid f hg]
  constructor
  · exact fun h => ⟨g, rfl, rfl, h⟩
  · rintro ⟨g', h1, h2, h3⟩
    rwa [← Face.idx_inj g' g h1 h2]

theorem codim_le_dim {d id : Nat} {t : Topo} (hr : Rep d id t) (f : Face t) : f.codim ≤ d := by
  have := Face.codim_le f
  rwa [hr.dim_eq] at this

/-- the vertices of a sub-entity -/
theorem mem_vertices {d id : Nat} {t : Topo} (hr : Rep d id t) (hid : id < 2 ^ d) (f v : Face t) (hv : v.codim = d) :
    v.idx ∈ subEntities d id f.idx f.codim d ↔ Face.le v f = true := by
  have := le_iff_mem hr hid f v
  rw [hv] at this
  exact this.symm

theorem exists_vertex {d id : Nat} {t : Topo} (hr : Rep d id t) (hid : id < 2 ^ d) (f : Face t) (v : Nat)
    (hv : v ∈ subEntities d id f.idx f.codim d) : ∃ w : Face t, w.codim = d ∧ w.idx = v := by
  obtain ⟨w, h1, h2, -⟩ := (mem_subEntities hr hid f (le_refl d) v).1 hv
  exact ⟨w, h1, h2⟩

/-- sums over all faces as sums over the numbers of sub-entities -/
theorem total_eq {d id : Nat} {t : Topo} (hr : Rep d id t) (F : Nat → Nat → ℤ) :
    Face.total (fun f : Face t => F f.codim f.idx) = ∑ c ∈ range (d + 1), ∑ k ∈ range (refSize d id c), F c k := by
  have e : Face.total (fun f : Face t => F f.codim f.idx) = ∑ f ∈ (Face.all t).toFinset, F f.codim f.idx := by
    rw [List.sum_toFinset _ (Face.nodup_all t)]
    rfl
  rw [e, Finset.sum_sigma']
  refine Finset.sum_bij (fun f _ => ⟨f.codim, f.idx⟩) ?_ ?_ ?_ ?_
  · intro f _
    have := codim_le_dim hr f
    simp only [mem_sigma, mem_range]
    exact ⟨by omega, face_lt hr f⟩
  · intro f _ g _ h
    simp only [Sigma.mk.injEq] at h
    exact Face.idx_inj f g h.1 (eq_of_heq h.2)
  · rintro ⟨c, k⟩ h
    simp only [mem_sigma, mem_range] at h
    obtain ⟨f, h1, h2⟩ := exists_face hr (by omega) h.2
    exact ⟨f, List.mem_toFinset.2 (Face.mem_all f), by rw [h1, h2]⟩
  · intro f _
    rfl

/-! ### C91 -/

/-- C91: if two sub-entities have a common vertex then their common vertices are the vertices of exactly one sub-entity. -/
theorem C91_meet (d id i c j b v : Nat) (hid : id < 2 ^ d) (hc : c ≤ d) (hi : i < refSize d id c) (hb : b ≤ d)
    (hj : j < refSize d id b) (h1 : v ∈ subEntities d id i c d) (h2 : v ∈ subEntities d id j b d) :
    ∃! p : Nat × Nat, p.2 ≤ d ∧ p.1 < refSize d id p.2 ∧
      ∀ w, w ∈ subEntities d id p.1 p.2 d ↔ w ∈ subEntities d id i c d ∧ w ∈ subEntities d id j b d := by
  have hr := rep_topoOf d id
  obtain ⟨f, rfl, rfl⟩ := exists_face hr hc hi
  obtain ⟨g, rfl, rfl⟩ := exists_face hr hb hj
  obtain ⟨w, hw, rfl⟩ := exists_vertex hr hid f v h1
  rw [mem_vertices hr hid _ _ hw] at h1 h2
  obtain ⟨m, hm, -⟩ := (Face.le_meet f g w).1 ⟨h1, h2⟩
  have key : ∀ x : Nat, x ∈ subEntities d id m.idx m.codim d ↔
      x ∈ subEntities d id f.idx f.codim d ∧ x ∈ subEntities d id g.idx g.codim d := by
    intro x
    constructor
    · intro hx
      obtain ⟨y, hy, rfl⟩ := exists_vertex hr hid m x hx
      rw [mem_vertices hr hid _ _ hy] at hx ⊢
      rw [mem_vertices hr hid _ _ hy]
      exact (Face.le_meet f g y).2 ⟨m, hm, hx⟩
    · rintro ⟨hx1, hx2⟩
      obtain ⟨y, hy, rfl⟩ := exists_vertex hr hid f x hx1
      rw [mem_vertices hr hid _ _ hy] at hx1 hx2 ⊢
      obtain ⟨m', hm', hle⟩ := (Face.le_meet f g y).1 ⟨hx1, hx2⟩
      rw [hm] at hm'
      obtain rfl := Option.some.inj hm'
      exact hle
  refine ⟨(m.idx, m.codim), ⟨codim_le_dim hr m, face_lt hr m, key⟩, ?_⟩
  rintro ⟨k, cc⟩ ⟨h3, h4, h5⟩
  obtain ⟨n, rfl, rfl⟩ := exists_face hr h3 h4
  have hle : ∀ a b : Face (topoOf d id), (∀ x, x ∈ subEntities d id a.idx a.codim d → x ∈ subEntities d id b.idx b.codim d) →
      Face.le a b = true := by
    intro a b H
    rw [Face.le_iff_vertices]
    intro y hy hya
    have hyd : y.codim = d := by rw [hy, hr.dim_eq]
    have := H y.idx ((mem_vertices hr hid a y hyd).2 hya)
    exact (mem_vertices hr hid b y hyd).1 this
  have := Face.le_antisymm' (hle n m fun x hx => (key x).2 ((h5 x).1 hx)) (hle m n fun x hx => (h5 x).2 ((key x).1 hx))
  rw [this]

/-- C91: this sub-entity is the intersection of the two as sets of points. -/
theorem C91_intersection (d id i c j b k cc : Nat) (hd : d ≤ 31) (hid : id < 2 ^ d) (hc : c ≤ d) (hi : i < refSize d id c) (hb : b ≤ d)
    (hj : j < refSize d id b) (hcc : cc ≤ d) (hk : k < refSize d id cc)
    (h : ∀ w, w ∈ subEntities d id k cc d ↔ w ∈ subEntities d id i c d ∧ w ∈ subEntities d id j b d) :
    closedPiece K d id i c ∩ closedPiece K d id j b = closedPiece K d id k cc := by
  apply Set.Subset.antisymm
  · intro x hx
    obtain ⟨l, e, he, hl1, hl2, hl3⟩ := (C70_intersection d id i c j b hd hid hc hi hb hj x).1 hx
    refine convexHull_mono ?_ hl3
    rintro y ⟨w, hw, rfl⟩
    have hr := rep_topoOf d id
    obtain ⟨f, rfl, rfl⟩ := exists_face hr hc hi
    obtain ⟨g, rfl, rfl⟩ := exists_face hr hb hj
    obtain ⟨n, rfl, rfl, hn⟩ := (mem_subEntities hr hid f he l).1 hl1
    have hl2 := (le_iff_mem hr hid g n).2 hl2
    obtain ⟨u, hu, rfl⟩ := exists_vertex hr hid n w hw
    rw [mem_vertices hr hid _ _ hu] at hw
    exact ⟨u.idx, (h u.idx).2 ⟨(mem_vertices hr hid _ _ hu).2 (Face.le_trans' hw hn),
      (mem_vertices hr hid _ _ hu).2 (Face.le_trans' hw hl2)⟩, rfl⟩
  · refine Set.subset_inter (convexHull_mono ?_) (convexHull_mono ?_)
    · rintro y ⟨w, hw, rfl⟩
      exact ⟨w, ((h w).1 hw).1, rfl⟩
    · rintro y ⟨w, hw, rfl⟩
      exact ⟨w, ((h w).1 hw).2, rfl⟩

/-- C91: sub-entities without a common vertex have no common point. -/
theorem C91_disjoint (d id i c j b : Nat) (hd : d ≤ 31) (hid : id < 2 ^ d) (hc : c ≤ d) (hi : i < refSize d id c) (hb : b ≤ d)
    (hj : j < refSize d id b) (h : ∀ w, w ∈ subEntities d id i c d → w ∉ subEntities d id j b d) :
    closedPiece K d id i c ∩ closedPiece K d id j b = ∅ := by
  rw [Set.eq_empty_iff_forall_notMem]
  intro x hx
  obtain ⟨l, e, he, hl1, hl2, -⟩ := (C70_intersection d id i c j b hd hid hc hi hb hj x).1 hx
  have hr := rep_topoOf d id
  obtain ⟨f, rfl, rfl⟩ := exists_face hr hc hi
  obtain ⟨g, rfl, rfl⟩ := exists_face hr hb hj
  obtain ⟨n, rfl, rfl, hn⟩ := (mem_subEntities hr hid f he l).1 hl1
  have hl2 := (le_iff_mem hr hid g n).2 hl2
  obtain ⟨u, hu, hun⟩ := Face.exists_vertex_le n
  have hud : u.codim = d := by rw [hu, hr.dim_eq]
  exact h u.idx ((mem_vertices hr hid _ _ hud).2 (Face.le_trans' hun hn)) ((mem_vertices hr hid _ _ hud).2 (Face.le_trans' hun hl2))

/-- C91: a sub-entity is the intersection of the facets that contain it. -/
theorem C91_facets (d id i c k cc : Nat) (hid : id < 2 ^ d) (hc : c ≤ d) (hi : i < refSize d id c) (hcc : cc ≤ d) (hk : k < refSize d id cc) :
    k ∈ subEntities d id i c cc ↔
      ∀ g, g < refSize d id 1 → i ∈ subEntities d id g 1 c → k ∈ subEntities d id g 1 cc := by
  have hr := rep_topoOf d id
  obtain ⟨f, rfl, rfl⟩ := exists_face hr hc hi
  obtain ⟨h, rfl, rfl⟩ := exists_face hr hcc hk
  rw [← le_iff_mem hr hid]
  by_cases h1 : 1 ≤ d
  · constructor
    · intro hle g hg hfg
      obtain ⟨g, hg1, rfl⟩ := exists_face hr h1 hg
      rw [← hg1, ← le_iff_mem hr hid] at hfg ⊢
      exact Face.le_trans' hle hfg
    · intro H
      refine Face.le_of_facets f h fun g hg hle => ?_
      rw [le_iff_mem hr hid, hg] at hle ⊢
      exact H g.idx (by rw [← hg]; exact face_lt hr g) hle
  · obtain rfl : d = 0 := by omega
    constructor
    · intro _ g hg hm
      have hf0 : f.codim = 0 := by omega
      have hh0 : h.codim = 0 := by omega
      rw [hf0] at hm
      rw [(numbers_lt 0 id g 1 0 (by omega)).1] at hm
      simp at hm
    · intro _
      exact (Face.eq_whole f (by omega)) ▸ Face.le_whole h

/-- C91: between a sub-entity and another one that contains it there are as many sub-entities of even codimension as there are of
odd codimension. -/
theorem C91_interval (d id i c j b : Nat) (hid : id < 2 ^ d) (hc : c ≤ d) (hi : i < refSize d id c) (hb : b ≤ d)
    (hj : j < refSize d id b) (hne : (i, c) ≠ (j, b)) :
    ∑ e ∈ range (d + 1), (-1 : ℤ) ^ e *
      ((range (refSize d id e)).filter fun k => j ∈ subEntities d id k e b ∧ k ∈ subEntities d id i c e).card = 0 := by
  have hr := rep_topoOf d id
  obtain ⟨f, rfl, rfl⟩ := exists_face hr hc hi
  obtain ⟨g, rfl, rfl⟩ := exists_face hr hb hj
  have h := Face.total_interval g f
  rw [if_neg (by rintro rfl; exact hne rfl)] at h
  rw [← h]
  have e : (fun k : Face (topoOf d id) => if Face.le g k && Face.le k f then Face.sign k else 0) = fun k =>
      (fun e k => if g.idx ∈ subEntities d id k e g.codim ∧ k ∈ subEntities d id f.idx f.codim e then (-1 : ℤ) ^ e else 0)
        k.codim k.idx := by
    funext k
    simp only [Bool.and_eq_true, le_iff_mem hr hid, Face.sign]
  rw [e, total_eq hr fun e k => if g.idx ∈ subEntities d id k e g.codim ∧ k ∈ subEntities d id f.idx f.codim e then (-1 : ℤ) ^ e else 0]
  refine sum_congr rfl fun c _ => ?_
  rw [← sum_filter, sum_const, nsmul_eq_mul, mul_comm]

theorem card_above {d id : Nat} {t : Topo} (hr : Rep d id t) (hid : id < 2 ^ d) (h1 : 1 ≤ d) (f : Face t) :
    (((range (refSize d id 1)).filter fun g => f.idx ∈ subEntities d id g 1 f.codim).card : ℤ) = Face.above f := by
  have e : (fun g : Face t => if g.codim = 1 ∧ Face.le f g = true then (1 : ℤ) else 0) = fun g =>
      (fun e k => if e = 1 ∧ f.idx ∈ subEntities d id k e f.codim then (1 : ℤ) else 0) g.codim g.idx := by
    funext g
    simp only [le_iff_mem hr hid]
  rw [Face.above, e, total_eq hr fun e k => if e = 1 ∧ f.idx ∈ subEntities d id k e f.codim then (1 : ℤ) else 0, sum_eq_single_of_mem 1 (mem_range.2 (by omega))]
  · rw [card_filter]
    push_cast
    refine sum_congr rfl fun g _ => ?_
    simp
  · intro c _ hc
    exact sum_eq_zero fun k _ => if_neg fun h => hc h.1

/-- C91: a sub-entity of codimension `c` lies in at least `c` facets. -/
theorem C91_many (d id i c : Nat) (hid : id < 2 ^ d) (hc : c ≤ d) (hi : i < refSize d id c) :
    c ≤ ((range (refSize d id 1)).filter fun g => i ∈ subEntities d id g 1 c).card := by
  have hr := rep_topoOf d id
  by_cases h1 : 1 ≤ d
  · obtain ⟨f, rfl, rfl⟩ := exists_face hr hc hi
    have h := Face.codim_le_above f
    rw [← card_above hr hid h1] at h
    exact_mod_cast h
  · omega

/-- Specification: cones are taken first and products afterwards (simplices, cubes and products of a simplex and a cube). -/
def ConesFirst (d id : Nat) : Prop := ∃ m, ∀ k, 1 ≤ k → k < d → (id.testBit k = true ↔ m ≤ k)

theorem rep_simple : ∀ (d id : Nat), id < 2 ^ d → ConesFirst d id → ∃ t, Rep d id t ∧ Face.Simple t
  | 0, id, _, _ => ⟨.pt, .pt id, .simplex 0⟩
  | d + 1, id, hid, ⟨m, h⟩ => by
    by_cases hd : d = 0 ∨ id.testBit d = true
    · obtain ⟨t, h1, h2⟩ := rep_simple d (id % 2 ^ d) (Nat.mod_lt _ (by positivity)) ⟨m, fun k hk1 hk2 => by
        rw [← h k hk1 (by omega), Nat.testBit_mod_two_pow]
        simp [hk2]⟩
      exact ⟨_, .prism hd h1, .prism h2⟩
    · rw [not_or] at hd
      have hm : ¬ m ≤ d := fun hm => hd.2 ((h d (by omega) (by omega)).2 hm)
      exact ⟨_, rep_of_isSimplexId hid fun k hk1 hk2 => by
        rw [Bool.eq_false_iff, ne_eq, h k hk1 hk2]
        omega, .simplex _⟩

/-- C91: in simplices, cubes and products of a simplex and a cube it lies in exactly `c` facets. -/
theorem C91_simple (d id i c : Nat) (hid : id < 2 ^ d) (hs : ConesFirst d id) (hd : 1 ≤ d) (hc : c ≤ d) (hi : i < refSize d id c) :
    ((range (refSize d id 1)).filter fun g => i ∈ subEntities d id g 1 c).card = c := by
  obtain ⟨t, hr, ht⟩ := rep_simple d id hid hs
  obtain ⟨f, rfl, rfl⟩ := exists_face hr hc hi
  have h := card_above hr hid hd f
  rw [Face.above_simple ht] at h
  exact_mod_cast h

/-- two facets of the pyramid meet in edge 4, others only in the apex, which lies in four facets -/
example : subEntities 3 3 1 1 3 = [0, 2, 4] ∧ subEntities 3 3 3 1 3 = [0, 1, 4] ∧ subEntities 3 3 4 2 3 = [0, 4] ∧
    subEntities 3 3 2 1 3 = [1, 3, 4] ∧ subEntities 3 3 4 3 3 = [4] ∧
    ((range (refSize 3 3 1)).filter fun g => 4 ∈ subEntities 3 3 g 1 3).card = 4 := by decide

/-- prisms are products of a simplex and a cube, pyramids are not -/
example : ConesFirst 3 4 ∧ ¬ ConesFirst 3 3 := by
  refine ⟨⟨2, fun k h1 h2 => ?_⟩, ?_⟩
  · interval_cases k <;> decide
  · rintro ⟨m, h⟩
    have h1 := (h 1 (by omega) (by omega)).1 (by decide)
    have h2 := (h 2 (by omega) (by omega)).2 (by omega)
    exact absurd h2 (by decide)

end Verif.RefGeom
