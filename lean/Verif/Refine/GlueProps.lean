import Verif.Refine.GlueFace
import Verif.Refine.VirtualProps
import Verif.Quad.Tiling

/-!
C110: refinements of neighbouring elements have the same vertices on a common face.

Specification: the lattice points of a reference element with `n` intervals per edge, and the part of a sub-entity in the
element (the convex hull of its corners).
-/

namespace Verif.Refine.Glue

open Verif.Typ Verif.RefTopo Verif.RefGeom Verif.Neighbour Verif.MultiLinear Verif.Quad Verif.Refine.Virtual
open Finset hiding ext

/-! ### specification -/

/-- the points of the reference element whose coordinates are multiples of `1/n` -/
def LatticePoint (d id n : Nat) (x : Vec ℝ) : Prop := x ∈ domain ℝ d id ∧ ∀ i, ∃ q : ℤ, x i = q / n

/-- the sub-entity `(i,c)` as a set of points of the reference element -/
def Part (d id i c : Nat) : Set (Vec ℝ) := convexHull ℝ {y | ∃ k ∈ subEntities d id i c d, y = corner d id k}

/-- `x` is the position of a vertex of the refinement with `n` intervals: it is among the coordinates that the vertex iterator
of the implementation passes through (dimension `d`) -/
def IsVertex (d n : Nat) (x : Vec ℝ) : Imp → Prop
  | .simplex => ∃ k, k < Refine.nVertices d n ∧ ∃ it x', Refine.vAt d n k = some it ∧ it.coords (K := ℝ) d = some x' ∧
      ∀ i, i < d → x' i = x i
  | .hcube => ∃ k, k < HCube.nVertices d n ∧ ∃ x', (HCube.at' (HCube.vBegin n) k).vCoords d = some x' ∧ ∀ i, i < d → x' i = x i
  | .hcubeTriangulation => ∃ k, k < Triang.nVertices (Triang.hcube d : Triang.Scheme ℝ) n ∧ ∃ it x',
      Triang.vAt (Triang.hcube d : Triang.Scheme ℝ) n k = some it ∧ it.coords (Triang.hcube d) = some x' ∧ ∀ i, i < d → x' i = x i
  | .prismTriangulation => ∃ k, k < Triang.nVertices (Triang.prism : Triang.Scheme ℝ) n ∧ ∃ it x',
      Triang.vAt (Triang.prism : Triang.Scheme ℝ) n k = some it ∧ it.coords Triang.prism = some x' ∧ ∀ i, i < d → x' i = x i
  | .pyramidTriangulation => ∃ k, k < Triang.nVertices (Triang.pyramid : Triang.Scheme ℝ) n ∧ ∃ it x',
      Triang.vAt (Triang.pyramid : Triang.Scheme ℝ) n k = some it ∧ it.coords Triang.pyramid = some x' ∧ ∀ i, i < d → x' i = x i

/-! ### helper lemmas -/

theorem lattice_iff {d id n : Nat} {x : Vec ℝ} (hx : ∀ k, d ≤ k → x k = 0) :
    LatticePoint d id n x ↔ x ∈ domain ℝ d id ∧ ∀ i, i < d → Gr n (x i) :=
  and_congr_right fun _ => ⟨fun h i _ => h i, fun h i => by
    by_cases hi : i < d
    · exact h i hi
    · rw [hx i (by omega)]; exact Gr.zero n⟩

theorem LatticePoint.gr {d id n : Nat} {x : Vec ℝ} (h : LatticePoint d id n x) (i : Nat) : Gr n (x i) := h.2 i

theorem domain_simplex {d id : Nat} (hs : IsSimplexId d id) {x : Vec ℝ} (hx : ∀ k, d ≤ k → x k = 0) :
    x ∈ domain ℝ d id ↔ InSimplex d x := by
  have hr : Rep d id (Topo.simplex d) := rep_id (id := 0) (fun k h1 h2 => by rw [Nat.zero_testBit, hs k h1 h2]) (rep_simplex d)
  rw [mem_domain hr x hx, dom_simplex d 1 x zero_le_one]
  rfl

theorem domain_cube {d id : Nat} (hc : IsCubeId d id) {x : Vec ℝ} (hx : ∀ k, d ≤ k → x k = 0) :
    x ∈ domain ℝ d id ↔ Triang.InCube d x := by
  rw [mem_domain (rep_topoOf d id) x hx, topoOf_cube d id hc]
  have : ∀ n, Dom (Topo.cube n) (1:ℝ) x ↔ ∀ i, i < n → 0 ≤ x i ∧ x i ≤ 1 := by
    intro n
    induction n with
    | zero => simp [Topo.cube, Dom]
    | succ n ih =>
      rw [Topo.cube, Dom, Topo.dim_cube, ih]
      exact ⟨fun h i hi => by
        by_cases he : i = n
        · rw [he]; exact ⟨h.1, h.2.1⟩
        · exact h.2.2 i (by omega), fun h => ⟨(h n (by omega)).1, (h n (by omega)).2, fun i hi => h i (by omega)⟩⟩
  exact this d

theorem domain_prism {id : Nat} (h1 : id.testBit 1 = false) (h2 : id.testBit 2 = true) {x : Vec ℝ} (hx : ∀ k, 3 ≤ k → x k = 0) :
    x ∈ domain ℝ 3 id ↔ Triang.InPrism x := by
  have hr : Rep 3 id (.prism (.pyr (.prism .pt))) := by
    refine rep_id (id := 5) (fun k a b => ?_) ?_
    · interval_cases k
      · rw [h1]; rfl
      · rw [h2]; rfl
    · exact .prism (Or.inr rfl) (.pyr (Or.inr rfl) (.prism (Or.inl rfl) (.pt _)))
  rw [mem_domain hr x hx]
  simp only [Dom, Topo.dim, Triang.InPrism, and_true]
  constructor
  · rintro ⟨a, b, c, e, f, g⟩
    exact ⟨f, c, by linarith, a, b⟩
  · rintro ⟨a, b, c, e, f⟩
    exact ⟨e, f, b, by linarith, a, by linarith⟩

theorem domain_pyramid {id : Nat} (h1 : id.testBit 1 = true) (h2 : id.testBit 2 = false) {x : Vec ℝ} (hx : ∀ k, 3 ≤ k → x k = 0) :
    x ∈ domain ℝ 3 id ↔ Triang.InPyramid x := by
  have hr : Rep 3 id (.pyr (.prism (.prism .pt))) := by
    refine rep_id (id := 3) (fun k a b => ?_) ?_
    · interval_cases k
      · rw [h1]; rfl
      · rw [h2]; rfl
    · exact .pyr (Or.inr rfl) (.prism (Or.inr rfl) (.prism (Or.inl rfl) (.pt _)))
  rw [mem_domain hr x hx]
  simp only [Dom, Topo.dim, Triang.InPyramid, and_true]
  constructor
  · rintro ⟨a, b, c, e, f, g⟩
    exact ⟨f, c, a, by linarith, by linarith⟩
  · rintro ⟨a, b, c, e, f⟩
    exact ⟨c, by linarith, b, by linarith, a, by linarith⟩

/-! ### C110 -/

/-- C110: whatever implementation is selected, the vertices of the refinement are the lattice points of the reference
element: each of them is one, and none is left out. -/
theorem C110_vertices (g c : GeometryType) (imp : Imp) (hs : Supported g c imp) (hd : 1 ≤ g.dim) (n : Nat) (hn : 0 < n) (x : Vec ℝ)
    (hx : ∀ k, g.dim ≤ k → x k = 0) : IsVertex g.dim n x imp ↔ LatticePoint g.dim g.id n x := by
  rw [lattice_iff hx]
  cases imp with
  | simplex => rw [domain_simplex (fun k h1 _ => hs.1 k h1) hx]; exact simplex_vertices _ n hd hn x
  | hcube => rw [domain_cube (fun k h1 h2 => hs.2.1 k h1 h2) hx]; exact cube_vertices _ n hn x
  | hcubeTriangulation =>
    rw [domain_cube (fun k h1 h2 => hs.2.1 k h1 h2) hx]
    exact triang_vertices (Triang.C44_cube_scheme g.dim hd) n hn (fun y => Iff.rfl)
      (fun x y h hx i hi => by rw [← h i hi]; exact hx i hi) x
  | prismTriangulation =>
    obtain ⟨h3, h1, h2⟩ := hs.1
    rw [h3] at hx ⊢
    rw [domain_prism h1 h2 hx]
    exact triang_vertices Triang.C44_prism_scheme n hn (gr_prism hn) Triang.prism_congr x
  | pyramidTriangulation =>
    obtain ⟨h3, h1, h2⟩ := hs.1
    rw [h3] at hx ⊢
    rw [domain_pyramid h1 h2 hx]
    exact triang_vertices Triang.C44_pyramid_scheme n hn (gr_pyramid hn) Triang.pyramid_congr x

/-- the midpoint of the square is a vertex of the refinement with two intervals -/
example : Supported ⟨2, false, 3⟩ ⟨2, false, 0⟩ .hcubeTriangulation ∧
    LatticePoint 2 3 2 (fun i => if i < 2 then 1 / 2 else 0) := by
  refine ⟨⟨by decide, ?_, fun k _ => Nat.zero_testBit k⟩, (domain_cube square_cube fun k hk => if_neg (by omega)).2 fun i hi => ?_, fun i => ?_⟩
  · intro k h1 h2
    have : k = 1 := by change k < 2 at h2; omega
    subst this
    rfl
  · simp only [if_pos hi]; norm_num
  · by_cases hi : i < 2
    · exact ⟨1, by simp [hi]⟩
    · exact ⟨0, by simp [hi]⟩

/-- C110: the lattice points on a sub-entity are the lattice points of the sub-entity's own reference element. -/
theorem C110_trace (d id i c n : Nat) (hd : d ≤ 31) (hid : id < 2 ^ d) (hc : c ≤ d) (hi : i < refSize d id c) (hn : 0 < n)
    (e : Vec ℝ × Mat ℝ) (he : (referenceEmbeddings (K := ℝ) d id c)[i]? = some e) (x : Vec ℝ) :
    (LatticePoint d id n x ∧ x ∈ Part d id i c) ↔
      ∃ y, LatticePoint (d - c) (refType d id i c).id n y ∧ embed (d - c) e y = x := by
  have honto := C20_onto d id i c hd hid hc hi e he
  have hr := rep_topoOf d id
  have hTd : (refType d id i c).dim = d - c := (C12_regular d id i c hd hid hc).2.1
  have hTi : Rep (d - c) (refType d id i c).id (topoOf (d - c) (refType d id i c).id) := rep_topoOf _ _
  change embed (d - c) e '' domain ℝ (refType d id i c).dim (refType d id i c).id = Part d id i c at honto
  rw [hTd] at honto
  obtain ⟨f, rfl, rfl⟩ := exists_face hr hc hi
  have hfd := Face.codim_add_dim f
  rw [hr.dim_eq] at hfd
  rw [embedding_face hr f] at he
  obtain rfl := Option.some.inj he
  have hdc : d - f.codim = f.shape.dim := by omega
  have hemb : ∀ y, embed (d - f.codim) (orig (K := ℝ) f, RefGeom.jac f) y = emb f y := fun y => by rw [hdc]; rfl
  constructor
  · rintro ⟨h1, h2⟩
    rw [← honto] at h2
    obtain ⟨y, hy, rfl⟩ := h2
    refine ⟨y, ⟨hy, fun r => ?_⟩, rfl⟩
    by_cases hr' : r < d - f.codim
    · exact (gr_emb hn f y).1 (fun j => by rw [← hemb]; exact h1.2 j) r (by omega)
    · rw [domain_zero hy r (by omega)]; exact Gr.zero n
  · rintro ⟨y, hy, rfl⟩
    have hmem : embed (d - f.codim) (orig f, RefGeom.jac f) y ∈ Part d id f.idx f.codim := by
      rw [← honto]; exact ⟨y, hy.1, rfl⟩
    refine ⟨⟨?_, fun j => ?_⟩, hmem⟩
    · refine convexHull_mono ?_ hmem
      rintro z ⟨k, hk, rfl⟩
      obtain ⟨v, hv, rfl, -⟩ := (mem_subEntities hr hid f le_rfl k).1 hk
      change corner d id v.idx ∈ referenceCorners (K := ℝ) d id
      exact List.mem_of_getElem? (by rw [corner_eq_face hr v hv]; exact corner_face hr v hv)
    · rw [hemb]
      exact (gr_emb hn f y).2 (fun r _ => hy.2 r) j

/-- C110: the vertices of the refined element that lie on a sub-entity are the vertices of the refined sub-entity. -/
theorem C110_restriction (g cg cs : GeometryType) (imp imp' : Imp) (hg : Regular g) (hd : g.dim ≤ 31) (hs : Supported g cg imp)
    (i c n : Nat) (hc : c + 1 ≤ g.dim) (hi : i < refSize g.dim g.id c) (hs' : Supported (refType g.dim g.id i c) cs imp') (hn : 0 < n)
    (e : Vec ℝ × Mat ℝ) (he : (referenceEmbeddings (K := ℝ) g.dim g.id c)[i]? = some e) (x : Vec ℝ) (hx : ∀ k, g.dim ≤ k → x k = 0) :
    (IsVertex g.dim n x imp ∧ x ∈ Part g.dim g.id i c) ↔
      ∃ y, (∀ k, g.dim - c ≤ k → y k = 0) ∧ IsVertex (g.dim - c) n y imp' ∧ embed (g.dim - c) e y = x := by
  have hT := C12_regular g.dim g.id i c hd hg.2 (by omega)
  rw [C110_vertices g cg imp hs (by omega) n hn x hx, C110_trace g.dim g.id i c n hd hg.2 (by omega) hi hn e he]
  have key := C110_vertices (refType g.dim g.id i c) cs imp' hs' (by rw [hT.2.1]; omega) n hn
  rw [hT.2.1] at key
  constructor
  · rintro ⟨y, h1, h2⟩
    have hz := domain_zero h1.1
    exact ⟨y, hz, (key y hz).2 h1, h2⟩
  · rintro ⟨y, hz, h1, h2⟩
    exact ⟨y, (key y hz).1 h1, h2⟩

/-- C110: a symmetry of a reference element maps lattice points to lattice points. -/
theorem C110_symmetric (d id n : Nat) (hn : 0 < n) (σ : Nat → Nat) (a : Vec ℝ) (M : Mat ℝ) (h : Symmetry d id σ a M) (x : Vec ℝ)
    (hx : LatticePoint d id n x) : LatticePoint d id n (fun i => if i < d then affMap d a M x i else 0) := by
  refine ⟨C97_domain d id σ a M h x hx.1, fun i => ?_⟩
  by_cases hi : i < d
  · simp only [if_pos hi]
    exact gr_affMap hn h (fun r _ => hx.2 r) hi
  · simp only [if_neg hi]
    exact Gr.zero n

/-- one inclusion of `C110_neighbours` -/
theorem neighbours_subset (g₁ g₂ : MultiLinearGeometry) (h₁ : Legal g₁) (h₂ : Legal g₂) (hd₁ : g₁.mydim ≤ 31)
    (hd₂ : g₂.mydim ≤ 31) (htol : g₂.tol = g₁.tol) {i₁ c₁ i₂ c₂ : Nat} (hc₁ : c₁ ≤ g₁.mydim) (hc₂ : c₂ ≤ g₂.mydim)
    (hi₁ : i₁ < refSize g₁.mydim g₁.id c₁) (hi₂ : i₂ < refSize g₂.mydim g₂.id c₂) {m id : Nat} (hm₁ : g₁.mydim - c₁ = m)
    (hm₂ : g₂.mydim - c₂ = m)
    (hid₁ : ∀ k, 1 ≤ k → k < m → (refType g₁.mydim g₁.id i₁ c₁).id.testBit k = id.testBit k)
    (hid₂ : ∀ k, 1 ≤ k → k < m → (refType g₂.mydim g₂.id i₂ c₂).id.testBit k = id.testBit k)
    (hsc : IsSimplexId m id ∨ IsCubeId m id) {σ : Nat → Nat} {a : Vec ℝ} {M : Mat ℝ} (hsym : Symmetry m id σ a M)
    (hcor : ∀ v, v < refSize m id m → ∃ k₁ k₂, subEntity g₁.mydim g₁.id i₁ c₁ (σ v) g₁.mydim = some k₁ ∧
      subEntity g₂.mydim g₂.id i₂ c₂ v g₂.mydim = some k₂ ∧ g₂.corners_ k₂ = g₁.corners_ k₁)
    {n : Nat} (hn : 0 < n) (hnt : n * g₁.tol < 1) (x : Vec ℝ) (hx : LatticePoint g₂.mydim g₂.id n x)
    (hxp : x ∈ Part g₂.mydim g₂.id i₂ c₂) :
    ∃ x', LatticePoint g₁.mydim g₁.id n x' ∧ x' ∈ Part g₁.mydim g₁.id i₁ c₁ ∧ g₁.global x' = g₂.global x := by
  obtain ⟨e₁, he₁⟩ : ∃ e₁, (referenceEmbeddings (K := ℝ) g₁.mydim g₁.id c₁)[i₁]? = some e₁ :=
    ⟨_, List.getElem?_eq_getElem (by rw [(C20_basic g₁.mydim g₁.id h₁.id_lt).1 c₁ hc₁]; exact hi₁)⟩
  obtain ⟨e₂, he₂⟩ : ∃ e₂, (referenceEmbeddings (K := ℝ) g₂.mydim g₂.id c₂)[i₂]? = some e₂ :=
    ⟨_, List.getElem?_eq_getElem (by rw [(C20_basic g₂.mydim g₂.id h₂.id_lt).1 c₂ hc₂]; exact hi₂)⟩
  obtain ⟨y, hy, rfl⟩ := (C110_trace g₂.mydim g₂.id i₂ c₂ n hd₂ h₂.id_lt hc₂ hi₂ hn e₂ he₂ x).1 ⟨hx, hxp⟩
  rw [hm₂] at hy ⊢
  have hy' : LatticePoint m id n y := ⟨by rw [← domain_id hid₂]; exact hy.1, hy.2⟩
  have hz := C110_symmetric m id n hn σ a M hsym y hy'
  set z : Vec ℝ := fun i => if i < m then affMap m a M y i else 0 with hzdef
  have hz1 : LatticePoint m (refType g₁.mydim g₁.id i₁ c₁).id n z := ⟨by rw [domain_id hid₁]; exact hz.1, hz.2⟩
  obtain ⟨p1, p2⟩ := (C110_trace g₁.mydim g₁.id i₁ c₁ n hd₁ h₁.id_lt hc₁ hi₁ hn e₁ he₁ _).2 ⟨z, by rw [hm₁]; exact hz1, rfl⟩
  refine ⟨_, p1, p2, ?_⟩
  rw [hm₁]
  funext j
  rw [face_global g₁ h₁ hd₁ hc₁ hi₁ he₁ hm₁ hid₁ hn hnt hz.1 (fun r _ => hz.2 r) j,
    face_global g₂ h₂ hd₂ hc₂ hi₂ he₂ hm₂ hid₂ hn (by rw [htol]; exact hnt) hy'.1 (fun r _ => hy'.2 r) j, htol]
  have hr := rep_topoOf m id
  have ezr : ∀ r, r < (topoOf m id).dim → z r = affMap m a M y r := fun r hr' => by
    rw [hr.dim_eq] at hr'
    exact if_pos hr'
  have t1 : Tidy g₁.tol (topoOf m id) y := tidy_point hn hnt hr hy'.1 fun r _ => hy'.2 r
  have t2 : Tidy g₁.tol (topoOf m id) (affMap m a M y) := tidy_congr _ ezr (tidy_point hn hnt hr hz.1 fun r _ => hz.2 r)
  rw [ML_congr (topoOf m id) (fun _ _ => rfl) ezr, ← respects_tidy h₁.tol_pos.le h₁.tol_lt hsc hsym _ y t1 t2]
  refine ML_congr (topoOf m id) (fun v hv => ?_) fun _ _ => rfl
  obtain ⟨k₁, k₂, hk₁, hk₂, he⟩ := hcor v (by rw [nv_topo] at hv; exact hv)
  rw [hk₁, hk₂]
  exact (congrFun he j).symm

/-- C110: two elements share a face that is a simplex or a cube, with the corners of the face numbered in different order.  Both
are refined with `n` intervals: the vertices of the two refinements on the face are the same points of space.  (`n` times the
tolerance of the geometry is below one; the default tolerance is 16 units in the last place.) -/
theorem C110_neighbours (g₁ g₂ : MultiLinearGeometry) (h₁ : Legal g₁) (h₂ : Legal g₂) (hd₁ : g₁.mydim ≤ 31)
    (hd₂ : g₂.mydim ≤ 31) (htol : g₂.tol = g₁.tol) (i₁ c₁ i₂ c₂ : Nat) (hc₁ : c₁ ≤ g₁.mydim) (hc₂ : c₂ ≤ g₂.mydim)
    (hi₁ : i₁ < refSize g₁.mydim g₁.id c₁) (hi₂ : i₂ < refSize g₂.mydim g₂.id c₂) (m id : Nat) (hm₁ : g₁.mydim - c₁ = m)
    (hm₂ : g₂.mydim - c₂ = m)
    (hid₁ : ∀ k, 1 ≤ k → k < m → (refType g₁.mydim g₁.id i₁ c₁).id.testBit k = id.testBit k)
    (hid₂ : ∀ k, 1 ≤ k → k < m → (refType g₂.mydim g₂.id i₂ c₂).id.testBit k = id.testBit k)
    (hsc : IsSimplexId m id ∨ IsCubeId m id) (σ : Nat → Nat) (a : Vec ℝ) (M : Mat ℝ) (hsym : Symmetry m id σ a M)
    (hcor : ∀ v, v < refSize m id m → ∃ k₁ k₂, subEntity g₁.mydim g₁.id i₁ c₁ (σ v) g₁.mydim = some k₁ ∧
      subEntity g₂.mydim g₂.id i₂ c₂ v g₂.mydim = some k₂ ∧ g₂.corners_ k₂ = g₁.corners_ k₁)
    (n : Nat) (hn : 0 < n) (hnt : n * g₁.tol < 1) :
    {p | ∃ x, LatticePoint g₁.mydim g₁.id n x ∧ x ∈ Part g₁.mydim g₁.id i₁ c₁ ∧ g₁.global x = p} =
      {p | ∃ x, LatticePoint g₂.mydim g₂.id n x ∧ x ∈ Part g₂.mydim g₂.id i₂ c₂ ∧ g₂.global x = p} := by
  obtain ⟨τ, b, N, hinv, -, hτ⟩ := symmetry_inverse hsym
  apply Set.Subset.antisymm
  · rintro p ⟨x, hx, hxp, rfl⟩
    refine neighbours_subset g₂ g₁ h₂ h₁ hd₂ hd₁ htol.symm hc₂ hc₁ hi₂ hi₁ hm₂ hm₁ hid₂ hid₁ hsc hinv (fun v hv => ?_) hn
      (by rw [htol]; exact hnt) x hx hxp
    obtain ⟨k₁, k₂, e1, e2, e3⟩ := hcor (τ v) (hτ v hv).1
    rw [(hτ v hv).2] at e1
    exact ⟨k₂, k₁, e2, e1, e3.symm⟩
  · rintro p ⟨x, hx, hxp, rfl⟩
    exact neighbours_subset g₁ g₂ h₁ h₂ hd₁ hd₂ htol hc₁ hc₂ hi₁ hi₂ hm₁ hm₂ hid₁ hid₂ hsc hsym hcor hn hnt x hx hxp

/-- C110: if the face is a simplex (a line or a triangle in a grid of dimension 3), every order of the corners is allowed. -/
theorem C110_simplex_face (g₁ g₂ : MultiLinearGeometry) (h₁ : Legal g₁) (h₂ : Legal g₂) (hd₁ : g₁.mydim ≤ 31)
    (hd₂ : g₂.mydim ≤ 31) (htol : g₂.tol = g₁.tol) (i₁ c₁ i₂ c₂ : Nat) (hc₁ : c₁ ≤ g₁.mydim) (hc₂ : c₂ ≤ g₂.mydim)
    (hi₁ : i₁ < refSize g₁.mydim g₁.id c₁) (hi₂ : i₂ < refSize g₂.mydim g₂.id c₂) (m : Nat) (hm₁ : g₁.mydim - c₁ = m)
    (hm₂ : g₂.mydim - c₂ = m) (hid₁ : IsSimplexId m (refType g₁.mydim g₁.id i₁ c₁).id)
    (hid₂ : IsSimplexId m (refType g₂.mydim g₂.id i₂ c₂).id) (σ : Nat → Nat) (hlt : ∀ v, v ≤ m → σ v ≤ m)
    (hinj : ∀ v w, v ≤ m → w ≤ m → σ v = σ w → v = w)
    (hcor : ∀ v, v ≤ m → ∃ k₁ k₂, subEntity g₁.mydim g₁.id i₁ c₁ (σ v) g₁.mydim = some k₁ ∧
      subEntity g₂.mydim g₂.id i₂ c₂ v g₂.mydim = some k₂ ∧ g₂.corners_ k₂ = g₁.corners_ k₁)
    (n : Nat) (hn : 0 < n) (hnt : n * g₁.tol < 1) :
    {p | ∃ x, LatticePoint g₁.mydim g₁.id n x ∧ x ∈ Part g₁.mydim g₁.id i₁ c₁ ∧ g₁.global x = p} =
      {p | ∃ x, LatticePoint g₂.mydim g₂.id n x ∧ x ∈ Part g₂.mydim g₂.id i₂ c₂ ∧ g₂.global x = p} := by
  have h0 : IsSimplexId m 0 := fun k _ _ => Nat.zero_testBit k
  obtain ⟨a, M, hsym⟩ := C97_simplex_any m 0 h0 σ hlt hinj
  refine C110_neighbours g₁ g₂ h₁ h₂ hd₁ hd₂ htol i₁ c₁ i₂ c₂ hc₁ hc₂ hi₁ hi₂ m 0 hm₁ hm₂ (fun k a b => ?_) (fun k a b => ?_)
    (Or.inl h0) σ a M hsym (fun v hv => hcor v ?_) n hn hnt
  · rw [hid₁ k a b, Nat.zero_testBit]
  · rw [hid₂ k a b, Nat.zero_testBit]
  · rw [simplex_size h0] at hv
    omega

/-- a triangle, and a square at its left edge -/
noncomputable def tri : MultiLinearGeometry := ⟨2, 2, 0, fun k j => if k = j + 1 then 1 else 0, 1 / 1000⟩
noncomputable def sq : MultiLinearGeometry :=
  ⟨2, 2, 3, fun k j => if j = 0 then (if k.testBit 0 then 0 else -1) else if k.testBit j then 1 else 0, 1 / 1000⟩

/-- the hypotheses of `C110_simplex_face` for the common edge: edge 1 of the triangle, edge 1 of the square -/
example : Legal tri ∧ Legal sq ∧ refSize tri.mydim tri.id 1 = 3 ∧ refSize sq.mydim sq.id 1 = 4 ∧
    IsSimplexId 1 (refType tri.mydim tri.id 1 1).id ∧ IsSimplexId 1 (refType sq.mydim sq.id 1 1).id ∧
    (∀ v, v ≤ 1 → ∃ k₁ k₂, subEntity tri.mydim tri.id 1 1 v tri.mydim = some k₁ ∧
      subEntity sq.mydim sq.id 1 1 v sq.mydim = some k₂ ∧ sq.corners_ k₂ = tri.corners_ k₁) ∧ (4 : Nat) * tri.tol < 1 := by
  refine ⟨⟨by decide, by norm_num [tri], by norm_num [tri]⟩, ⟨by decide, by norm_num [sq], by norm_num [sq]⟩, by decide, by decide,
    fun k _ _ => by omega, fun k _ _ => by omega, fun v hv => ?_, by norm_num [tri]⟩
  interval_cases v
  · refine ⟨0, 1, by decide, by decide, ?_⟩
    funext j
    rcases j with _ | _ | j
    · simp [tri, sq]
    · simp [tri, sq]
      decide
    · simp [tri, sq]
      rw [Nat.testBit, Nat.shiftRight_eq_div_pow, Nat.div_eq_of_lt (Nat.one_lt_two_pow (by omega))]
      rfl
  · refine ⟨2, 3, by decide, by decide, ?_⟩
    funext j
    rcases j with _ | _ | j
    · rfl
    · simp [tri, sq]
      rfl
    · simp [tri, sq]
      have : 3 < 2 ^ (j + 1 + 1) := lt_of_lt_of_le (by norm_num) (Nat.pow_le_pow_right (n := 2) (by norm_num) (show 2 ≤ j + 1 + 1 by omega))
      rw [Nat.testBit, Nat.shiftRight_eq_div_pow, Nat.div_eq_of_lt this]
      rfl

/-! #### what does not work: the elements -/

/-- the corners `v` and `w` of the hexahedron belong to a common element of its triangulation with one interval -/
def Joined (v w : Nat) : Prop := ∃ k it cs p q, k < Triang.nElements (Triang.hcube 3 : Triang.Scheme ℚ) 1 ∧
  Triang.eAt (Triang.hcube 3 : Triang.Scheme ℚ) 1 k = some it ∧ it.geometry (Triang.hcube 3) = some cs ∧ p ∈ cs ∧ q ∈ cs ∧
  (∀ i, i < 3 → p i = corner (K := ℚ) 3 7 v i) ∧ ∀ i, i < 3 → q i = corner (K := ℚ) 3 7 w i

/-- that the triangulations match on a common quadrilateral: on the bottom face of the hexahedron (corners 0..3), renumbering
the face by a symmetry of the square keeps the edges -/
def C110_elements_full : Prop := ∀ σ : Nat → Nat, (∃ a M, Symmetry 2 3 σ a M) → ∀ v w, v < 4 → w < 4 → Joined v w → Joined (σ v) (σ w)

/-- quarter turn of the square -/
def quarterTurn (k : Nat) : Nat := [1, 3, 0, 2].getD k 0

def sameAs (v : Nat) (p : Nat → ℚ) : Bool := (List.range 3).all fun i => p i == corner (K := ℚ) 3 7 v i

theorem sameAs_of {v : Nat} {p : Nat → ℚ} (h : ∀ i, i < 3 → p i = corner (K := ℚ) 3 7 v i) : sameAs v p = true := by
  rw [sameAs, List.all_eq_true]
  intro i hi
  rw [h i (List.mem_range.1 hi)]
  exact beq_self_eq_true _

theorem of_sameAs {v : Nat} {p : Nat → ℚ} (h : sameAs v p = true) : ∀ i, i < 3 → p i = corner (K := ℚ) 3 7 v i := by
  rw [sameAs, List.all_eq_true] at h
  intro i hi
  exact eq_of_beq (h i (List.mem_range.2 hi))

/-- what is found in element `k` -/
def found (k v w : Nat) : Option Bool :=
  ((Triang.eAt (Triang.hcube 3 : Triang.Scheme ℚ) 1 k).bind fun it => it.geometry (Triang.hcube 3)).map fun cs =>
    cs.any (sameAs v) && cs.any (sameAs w)

theorem found_table : (∀ k : Fin 6, found k 1 2 = some false) ∧ found 0 0 3 = some true := by
  constructor
  · decide +kernel
  · decide +kernel

/-- C110: the elements do not match on quadrilaterals: the triangulation of a hexahedron splits its bottom face by the diagonal
from corner 0 to corner 3, and no element contains the corners 1 and 2.  In a neighbour that numbers the face after a quarter turn
the split is the other diagonal. -/
theorem C110_elements_counterexample : ¬ C110_elements_full := by
  intro h
  have hsym : ∃ a M, Symmetry 2 3 quarterTurn a M := (C97_quadrilateral 3 square_cube quarterTurn (by decide) (fun k k' hk hk' => by
    interval_cases k <;> interval_cases k' <;> simp [quarterTurn])).2 (by decide)
  have hj : Joined 0 3 := by
    have := found_table.2
    rw [found] at this
    obtain ⟨cs, h1, h2⟩ := Option.map_eq_some_iff.1 this
    obtain ⟨it, h3, h4⟩ := Option.bind_eq_some_iff.1 h1
    rw [Bool.and_eq_true, List.any_eq_true, List.any_eq_true] at h2
    obtain ⟨⟨p, p1, p2⟩, q, q1, q2⟩ := h2
    exact ⟨0, it, cs, p, q, by decide, h3, h4, p1, q1, of_sameAs p2, of_sameAs q2⟩
  obtain ⟨k, it, cs, p, q, hk, h1, h2, h3, h4, h5, h6⟩ := h quarterTurn hsym 0 3 (by norm_num) (by norm_num) hj
  have hk6 : k < 6 := hk
  change ∀ i, i < 3 → p i = corner (K := ℚ) 3 7 1 i at h5
  change ∀ i, i < 3 → q i = corner (K := ℚ) 3 7 2 i at h6
  have := found_table.1 ⟨k, hk6⟩
  rw [found] at this
  change ((Triang.eAt (Triang.hcube 3 : Triang.Scheme ℚ) 1 k).bind fun it => it.geometry (Triang.hcube 3)).map _ = _ at this
  rw [h1, Option.bind_some, h2, Option.map_some, Option.some.injEq] at this
  rw [List.any_eq_true.2 ⟨p, h3, sameAs_of h5⟩, List.any_eq_true.2 ⟨q, h4, sameAs_of h6⟩] at this
  exact absurd this (by decide)

end Verif.Refine.Glue
