import Verif.Image.Lemmas
import Verif.Hull.CornerLemmas

/-!
C113: the geometries of a refinement mapped to the world.

Specification: `Restriction`, `TipsClear` (C99), convex combinations (C111).
-/

namespace Verif.Image

open Verif.Typ Verif.RefGeom Verif.MatHelp Verif.RefTopo Verif.MultiLinear Verif.Neighbour Verif.Hull Verif.Quad Verif.Refine
open Verif.Refine.Mesh Verif.Refine.Glue Verif.Refine.Virtual
open Finset hiding ext
open Matrix hiding vec

/-! ### specification -/

/-- at `x` the geometry of the mapped element is the geometry of the whole element after the position of the element in it, and the
Jacobians obey the chain rule -/
def Restriction (g : MultiLinearGeometry) (cid : Nat) (M : Mesh) (idx : List Nat) (x : Vec ℝ) : Prop :=
  (∀ j, j < g.cdim → (mapped g cid M idx).global x j = g.global ((part g.mydim cid g.tol M idx).global x) j) ∧
  ∀ r j, r < g.mydim → j < g.cdim → (mapped g cid M idx).jacobianTransposed x r j =
    ∑ s ∈ range g.mydim, (part g.mydim cid g.tol M idx).jacobianTransposed x r s *
      g.jacobianTransposed ((part g.mydim cid g.tol M idx).global x) s j

/-! ### cubes -/

/-- the vertices of a cell of the refinement of a cube -/
theorem cell_corners {t c : GeometryType} (ht : Regular t) (hc : Regular c) (hcd : c.dim = t.dim) (h1 : 1 ≤ t.dim) (h30 : t.dim ≤ 30)
    (hs : Supported t c .hcube) {n : Nat} (hn : 0 < n) {fuel : Nat} (hV : nVertices t.dim n .hcube < fuel)
    (hE : nElements t.dim n .hcube < fuel) {M : Mesh} (hM : writeMesh t c n fuel = some M) {e : Nat × List Nat} (he : e ∈ M.elements) :
    ∃ lo : Vec ℝ, ∀ a, a < 2 ^ t.dim → ∀ i, i < t.dim →
      point M (e.2.getD a 0) i = lo i + 1 / n * (if a.testBit i then 1 else 0) := by
  rw [writeMesh_eq ht hc hcd h1 h30 hs, hcube_traverse hn fuel hV hE] at hM
  obtain rfl := Option.some.inj hM
  obtain ⟨k, hk, rfl⟩ := mk_element.1 he
  obtain ⟨g, -, -, h⟩ := hcube_cell hn hk
  refine ⟨g.lower, fun a ha i hi => ?_⟩
  have e1 : ((List.range (2 ^ t.dim)).map (hI t.dim n k)).getD a 0 = hI t.dim n k a := by simp [ha]
  change (mk _ _ _ _ _).at _ i = _
  rw [e1, mk_at _ _ (h a ha).1, (h a ha).2 i hi, one_div_mul_eq_div]

/-- C113, cubes refined into cubes: all geometries, all points, inside or outside. -/
theorem C113_cube (t c : GeometryType) (ht : Regular t) (hc : Regular c) (hcd : c.dim = t.dim) (h1 : 1 ≤ t.dim) (h30 : t.dim ≤ 30)
    (hs : Supported t c .hcube) (n : Nat) (hn : 0 < n) (fuel : Nat) (hV : nVertices t.dim n .hcube < fuel)
    (hE : nElements t.dim n .hcube < fuel) (M : Mesh) (hM : writeMesh t c n fuel = some M) (g : MultiLinearGeometry) (hg : Legal g)
    (hd : g.mydim = t.dim) (hi : g.id = t.id) (e : Nat × List Nat) (he : e ∈ M.elements) (x : Vec ℝ) : Restriction g c.id M e.2 x := by
  obtain ⟨lo, hlo⟩ := cell_corners ht hc hcd h1 h30 hs hn hV hE hM he
  have hn' : (1 / n : ℝ) ≠ 0 := one_div_ne_zero (Nat.cast_ne_zero.2 (by omega))
  have hcid : c.id < 2 ^ g.mydim := by rw [hd, ← hcd]; exact hc.valid
  have hcc : IsCubeId g.mydim c.id := fun k a b => hs.2.2 k a (by omega)
  have hgc : IsCubeId g.mydim g.id := fun k a b => by rw [hi]; exact hs.2.1 k a (by omega)
  rw [← hd] at hlo
  have hm : ∀ j, (fun k => (mapped g c.id M e.2).corners_ k j) =
      fun a => ML g.tol (Topo.cube g.mydim) (fun k => g.corners_ k j) (point M (e.2.getD a 0)) := fun j => by
    funext a
    change g.global _ j = _
    rw [MultiLinear.global_eq g hg.id_lt, topoOf_cube _ _ hgc]
  have hpg : ∀ s, s < g.mydim → (part g.mydim c.id g.tol M e.2).global x s = lo s + 1 / n * x s := fun s hs => by
    rw [MultiLinear.global_eq _ hcid]
    change ML g.tol (topoOf g.mydim c.id) _ x = _
    rw [topoOf_cube _ _ hcc]
    exact ML_coord g.mydim lo _ _ hlo x s hs
  refine ⟨fun j _ => ?_, fun r j hr _ => ?_⟩
  · rw [MultiLinear.global_eq _ hcid, MultiLinear.global_eq g hg.id_lt, topoOf_cube _ _ hgc, hm]
    change ML g.tol (topoOf g.mydim c.id) _ x = _
    rw [topoOf_cube _ _ hcc, ML_box g.mydim _ lo _ _ hlo]
    refine ML_congr _ (fun _ _ => rfl) fun s hs => ?_
    rw [dim_cube] at hs
    rw [hpg s hs]
  · rw [jt_eq (mapped g c.id M e.2) hcid _ _ _ hr, hm]
    change MLd g.tol (topoOf g.mydim c.id) _ x r = _
    rw [topoOf_cube _ _ hcc, MLd_box g.mydim _ lo _ hn' _ hlo x r hr, sum_eq_single_of_mem r (mem_range.2 hr)]
    · rw [jt_eq g hg.id_lt _ _ _ hr, topoOf_cube _ _ hgc, jt_eq (part g.mydim c.id g.tol M e.2) hcid _ _ _ hr]
      change _ = MLd g.tol (topoOf g.mydim c.id) (fun k => point M (e.2.getD k 0) r) x r * _
      rw [topoOf_cube _ _ hcc, MLd_coord g.mydim lo _ _ hlo x r r hr hr, if_pos rfl]
      congr 1
      rw [MLd_diff _ _ _ r hr 1 one_ne_zero, MLd_diff _ _ _ r hr 1 one_ne_zero]
      congr 2
      · refine ML_congr _ (fun _ _ => rfl) fun s hs => ?_
        rw [dim_cube] at hs
        rw [hpg s hs]
      · refine ML_congr _ (fun _ _ => rfl) fun s hs => ?_
        rw [dim_cube] at hs
        simp only [hpg s hs, hpg r hr]
    · intro s hs hne
      rw [mem_range] at hs
      rw [jt_eq (part g.mydim c.id g.tol M e.2) hcid _ _ _ hr]
      change MLd g.tol (topoOf g.mydim c.id) (fun k => point M (e.2.getD k 0) s) x r * _ = _
      rw [topoOf_cube _ _ hcc, MLd_coord g.mydim lo _ _ hlo x r s hr hs, if_neg hne, zero_mul]

/-! ### simplices -/

/-- vertices of the mesh are mapped exactly by geometries with affine corners -/
theorem vertex_exact {t c : GeometryType} {n : Nat} (hn : 0 < n) {M : Mesh} (hv : Valid t.dim t.id c.id n M) {g : MultiLinearGeometry} (hg : Legal g)
    (hd : g.mydim = t.dim) (hi : g.id = t.id) (htol : g.tol * n < 1) {a : Vec ℝ} {A : Mat ℝ} (h : ImageOf g a A) {v : Nat}
    (hlt : v < M.points.length) (j : Nat) (hj : j < g.cdim) :
    g.global (point M v) j = a j + ∑ r ∈ range g.mydim, A j r * point M v r := by
  have hp := hv.point_lattice _ (List.getElem_mem hlt)
  have hat : point M v = (M.points[v]).2 := by rw [point, List.getD_eq_getElem _ _ hlt]
  rw [← hat, ← hd, ← hi] at hp
  obtain ⟨h1, h2⟩ := hp
  have hz : ∀ k, g.mydim ≤ k → (fun i => if i < g.mydim then point M v i else 0) k = 0 := fun k hk => if_neg (by omega)
  have hdom := (mem_domain (rep_topoOf _ _) _ hz).1 h1
  have hdim := (rep_topoOf g.mydim g.id).dim_eq
  rw [MultiLinear.global_eq g hg.id_lt]
  rw [ML_congr (c' := fun k => g.corners_ k j) (z' := fun i => if i < g.mydim then point M v i else 0) _ (fun _ _ => rfl) fun r hr => by
      rw [hdim] at hr; rw [if_pos hr],
    ML_lattice hg.tol_pos.le _ n _ _ _ _ htol hn (exact_of_imageOf h j hj) hdom fun r hr => h2 r, hdim]
  congr 1
  exact sum_congr rfl fun r hr => by rw [if_pos (mem_range.1 hr)]

theorem restriction_simplices {t c : GeometryType} (hc : Regular c) (hcd : c.dim = t.dim) {n : Nat} (hn : 0 < n) {M : Mesh}
    (hv : Valid t.dim t.id c.id n M) (hsc : SimplexShape c) {g : MultiLinearGeometry} (hg : Legal g) (hd : g.mydim = t.dim) (hi : g.id = t.id)
    (htol : g.tol * n < 1) {a : Vec ℝ} {A : Mat ℝ} (h : ImageOf g a A) {e : Nat × List Nat} (he : e ∈ M.elements) {x : Vec ℝ}
    (hx : TipsClear g.tol g.mydim c.id x) (hx' : TipsClear g.tol g.mydim g.id ((part g.mydim c.id g.tol M e.2).global x)) :
    Restriction g c.id M e.2 x := by
  have hcid : c.id < 2 ^ g.mydim := by rw [hd, ← hcd]; exact hc.valid
  have hss : IsSimplexId g.mydim c.id := fun k a _ => hsc k a
  obtain ⟨hl, hlt⟩ := hv.corners e he
  have hsize : refSize t.dim c.id t.dim = t.dim + 1 := simplex_size fun k h1 _ => hsc k h1
  rw [hsize] at hl
  have hidx : ∀ k, k ≤ g.mydim → e.2.getD k 0 < M.points.length := fun k hk => by
    have hk' : k < e.2.length := by omega
    rw [List.getD_eq_getElem _ _ hk']
    exact hlt _ (List.getElem_mem hk')
  have hm1 : Legal (mapped g c.id M e.2) := ⟨hcid, hg.tol_pos, hg.tol_lt⟩
  have hp1 : Legal (part g.mydim c.id g.tol M e.2) := ⟨hcid, hg.tol_pos, hg.tol_lt⟩
  have ha := away_of_clear _ _ _ hx
  have ha' := away_of_clear _ _ _ hx'
  have hdim := (rep_topoOf g.mydim g.id).dim_eq
  have hdimc := (rep_topoOf g.mydim c.id).dim_eq
  have im := imageOf_simplex (mapped g c.id M e.2) hss
  have ip := imageOf_simplex (part g.mydim c.id g.tol M e.2) hss
  have hc0 : ∀ k, k ≤ g.mydim → ∀ j, j < g.cdim → (mapped g c.id M e.2).corners_ k j =
      a j + ∑ r ∈ range g.mydim, A j r * point M (e.2.getD k 0) r := fun k hk j hj =>
    vertex_exact hn hv hg hd hi htol h (hidx k hk) j hj
  have hdiff : ∀ r, r < g.mydim → ∀ j, j < g.cdim → (mapped g c.id M e.2).corners_ (r + 1) j - (mapped g c.id M e.2).corners_ 0 j =
      ∑ s ∈ range g.mydim, A j s * (point M (e.2.getD (r + 1) 0) s - point M (e.2.getD 0 0) s) := fun r hr j hj => by
    rw [hc0 _ hr j hj, hc0 0 (Nat.zero_le _) j hj, add_sub_add_left_eq_sub, ← sum_sub_distrib]
    exact sum_congr rfl fun s _ => by ring
  have hpg : ∀ s, s < g.mydim → (part g.mydim c.id g.tol M e.2).global x s = point M (e.2.getD 0 0) s +
      ∑ r ∈ range g.mydim, (point M (e.2.getD (r + 1) 0) s - point M (e.2.getD 0 0) s) * x r := fun s hs => by
    rw [MultiLinear.global_eq _ hcid]
    exact (ML_affine hg.tol_pos.le _ _ _ _ x (exact_of_imageOf ip s hs) ha).trans (by
      change _ + ∑ r ∈ range (topoOf g.mydim c.id).dim, _ = _
      rw [hdimc]; rfl)
  refine ⟨fun j hj => ?_, fun r j hr hj => ?_⟩
  · rw [MultiLinear.global_eq _ hcid, MultiLinear.global_eq g hg.id_lt,
      ML_affine hg.tol_pos.le _ _ _ _ _ (exact_of_imageOf h j hj) ha', hdim]
    refine (ML_affine hg.tol_pos.le _ _ _ _ x (exact_of_imageOf im j hj) ha).trans ?_
    change _ + ∑ r ∈ range (topoOf g.mydim c.id).dim, _ = _
    rw [hdimc]
    change (mapped g c.id M e.2).corners_ 0 j +
      ∑ r ∈ range g.mydim, ((mapped g c.id M e.2).corners_ (r + 1) j - (mapped g c.id M e.2).corners_ 0 j) * x r = _
    have e1 : ∑ r ∈ range g.mydim, ((mapped g c.id M e.2).corners_ (r + 1) j - (mapped g c.id M e.2).corners_ 0 j) * x r =
        ∑ s ∈ range g.mydim, ∑ r ∈ range g.mydim, A j s * ((point M (e.2.getD (r + 1) 0) s - point M (e.2.getD 0 0) s) * x r) := by
      rw [sum_comm]
      refine sum_congr rfl fun r hr => ?_
      rw [hdiff r (mem_range.1 hr) j hj, sum_mul]
      exact sum_congr rfl fun s _ => by ring
    have e2 : ∑ s ∈ range g.mydim, A j s * (part g.mydim c.id g.tol M e.2).global x s = ∑ s ∈ range g.mydim, A j s * point M (e.2.getD 0 0) s +
        ∑ s ∈ range g.mydim, ∑ r ∈ range g.mydim, A j s * ((point M (e.2.getD (r + 1) 0) s - point M (e.2.getD 0 0) s) * x r) := by
      rw [← sum_add_distrib]
      exact sum_congr rfl fun s hs => by rw [hpg s (mem_range.1 hs), mul_add, mul_sum]
    rw [e1, hc0 0 (Nat.zero_le _) j hj, e2, add_assoc]
  · rw [jt_eq (mapped g c.id M e.2) hcid _ _ _ hr]
    refine (MLd_exact hg.tol_pos.le _ _ _ _ x (exact_of_imageOf im j hj) ha r (hr.trans_eq hdimc.symm)).trans ?_
    change (mapped g c.id M e.2).corners_ (r + 1) j - (mapped g c.id M e.2).corners_ 0 j = _
    rw [hdiff r hr j hj]
    refine sum_congr rfl fun s hs => ?_
    rw [mem_range] at hs
    rw [jt_eq g hg.id_lt _ _ _ hs, MLd_exact hg.tol_pos.le _ _ _ _ _ (exact_of_imageOf h j hj) ha' s (by rw [hdim]; exact hs),
      jt_eq (part g.mydim c.id g.tol M e.2) hcid _ _ _ hr, mul_comm]
    congr 1
    exact (MLd_exact hg.tol_pos.le _ _ _ _ x (exact_of_imageOf ip s hs) ha r (hr.trans_eq hdimc.symm)).symm

/-- C113, simplices refined into simplices: all geometries. -/
theorem C113_simplex (t c : GeometryType) (ht : Regular t) (hc : Regular c) (hcd : c.dim = t.dim) (h1 : 1 ≤ t.dim) (h30 : t.dim ≤ 30)
    (hs : Supported t c .simplex) (n : Nat) (hn : 0 < n) (fuel : Nat) (hV : nVertices t.dim n .simplex < fuel)
    (hE : nElements t.dim n .simplex < fuel) (M : Mesh) (hM : writeMesh t c n fuel = some M) (g : MultiLinearGeometry) (hg : Legal g)
    (hd : g.mydim = t.dim) (hi : g.id = t.id) (htol : g.tol * n < 1) (e : Nat × List Nat) (he : e ∈ M.elements) (x : Vec ℝ)
    (hx : TipsClear g.tol g.mydim c.id x) (hx' : TipsClear g.tol g.mydim g.id ((part g.mydim c.id g.tol M e.2).global x)) :
    Restriction g c.id M e.2 x := by
  obtain ⟨M', h2, -, -, h3⟩ := C111_mesh t c ht hc hcd h1 h30 _ hs n hn
  obtain rfl := Option.some.inj (hM.symm.trans (h2 fuel hV hE))
  exact restriction_simplices hc hcd hn h3 hs.2 hg hd hi htol (imageOf_simplex g fun k a _ => by rw [hi]; exact hs.1 k a) he hx hx'

/-- what the property demands -/
def C113_full : Prop := ∀ (t c : GeometryType), Regular t → Regular c → c.dim = t.dim → 1 ≤ t.dim → t.dim ≤ 30 →
  ∀ imp, Supported t c imp → ∀ (n : Nat), 0 < n → ∀ (fuel : Nat), nVertices t.dim n imp < fuel → nElements t.dim n imp < fuel →
  ∀ (M : Mesh), writeMesh t c n fuel = some M → ∀ (g : MultiLinearGeometry), Legal g → g.mydim = t.dim → g.id = t.id → g.tol * n < 1 →
  ∀ e ∈ M.elements, ∀ (x : Vec ℝ), TipsClear g.tol g.mydim c.id x →
  TipsClear g.tol g.mydim g.id ((part g.mydim c.id g.tol M e.2).global x) → Restriction g c.id M e.2 x

/-- C113: all implementations, if the corners of the geometry are affine images of those of the reference element.  Missing: geometries
that are not affine, for cubes, prisms and pyramids split into simplices (`C113_counterexample`). -/
theorem C113_affine_partial (t c : GeometryType) (ht : Regular t) (hc : Regular c) (hcd : c.dim = t.dim) (h1 : 1 ≤ t.dim) (h30 : t.dim ≤ 30)
    (imp : Imp) (hs : Supported t c imp) (n : Nat) (hn : 0 < n) (fuel : Nat) (hV : nVertices t.dim n imp < fuel)
    (hE : nElements t.dim n imp < fuel) (M : Mesh) (hM : writeMesh t c n fuel = some M) (g : MultiLinearGeometry) (hg : Legal g)
    (hd : g.mydim = t.dim) (hi : g.id = t.id) (a : Vec ℝ) (A : Mat ℝ) (h : ImageOf g a A) (htol : g.tol * n < 1)
    (e : Nat × List Nat) (he : e ∈ M.elements) (x : Vec ℝ) (hx : TipsClear g.tol g.mydim c.id x)
    (hx' : TipsClear g.tol g.mydim g.id ((part g.mydim c.id g.tol M e.2).global x)) : Restriction g c.id M e.2 x := by
  obtain ⟨M', h2, -, -, h3⟩ := C111_mesh t c ht hc hcd h1 h30 _ hs n hn
  obtain rfl := Option.some.inj (hM.symm.trans (h2 fuel hV hE))
  cases imp with
  | hcube => exact C113_cube t c ht hc hcd h1 h30 hs n hn fuel hV hE M hM g hg hd hi e he x
  | simplex => exact restriction_simplices hc hcd hn h3 hs.2 hg hd hi htol h he hx hx'
  | hcubeTriangulation => exact restriction_simplices hc hcd hn h3 hs.2.2 hg hd hi htol h he hx hx'
  | prismTriangulation => exact restriction_simplices hc hcd hn h3 hs.2 hg hd hi htol h he hx hx'
  | pyramidTriangulation => exact restriction_simplices hc hcd hn h3 hs.2 hg hd hi htol h he hx hx'

/-! ### consequences -/

/-- C113: integration elements multiply. -/
theorem C113_integrationElement (g : MultiLinearGeometry) (cid : Nat) (M : Mesh) (idx : List Nat) (x : Vec ℝ) (h : Restriction g cid M idx x)
    (hr : LinearIndependent ℝ (mat g.mydim g.cdim (g.jacobianTransposed ((part g.mydim cid g.tol M idx).global x))).row)
    (hp : (mat g.mydim g.mydim ((part g.mydim cid g.tol M idx).jacobianTransposed x)).det ≠ 0) :
    ∃ v, g.integrationElement ((part g.mydim cid g.tol M idx).global x) = some v ∧ (mapped g cid M idx).integrationElement x =
      some (|(mat g.mydim g.mydim ((part g.mydim cid g.tol M idx).jacobianTransposed x)).det| * v) := by
  have hj : mat g.mydim g.cdim ((mapped g cid M idx).jacobianTransposed x) =
      mat g.mydim g.mydim ((part g.mydim cid g.tol M idx).jacobianTransposed x) *
        mat g.mydim g.cdim (g.jacobianTransposed ((part g.mydim cid g.tol M idx).global x)) := by
    ext r j
    rw [Matrix.mul_apply]
    refine (h.2 r j r.2 j.2).trans ?_
    exact (Fin.sum_univ_eq_sum_range (fun s => (part g.mydim cid g.tol M idx).jacobianTransposed x r s *
      g.jacobianTransposed ((part g.mydim cid g.tol M idx).global x) s j) g.mydim).symm
  have hl := (li_mul (isUnit_iff_ne_zero.2 hp) _).2 hr
  rw [← hj] at hl
  refine ⟨_, C27_sqrtDetAAT_partial _ _ _ (Or.inl hr), (C27_sqrtDetAAT_partial _ _ _ (Or.inl hl)).trans ?_⟩
  rw [hj, transpose_mul, ← Matrix.mul_assoc, Matrix.mul_assoc (mat g.mydim g.mydim _), Matrix.det_mul, Matrix.det_mul, det_transpose,
    ← Real.sqrt_sq_eq_abs, ← Real.sqrt_mul (sq_nonneg _)]
  congr 2
  ring

/-- C113, cubes refined into cubes: integration elements are `n` to the power `-dim` times those of the element. -/
theorem C113_cube_integrationElement (t c : GeometryType) (ht : Regular t) (hc : Regular c) (hcd : c.dim = t.dim) (h1 : 1 ≤ t.dim)
    (h30 : t.dim ≤ 30) (hs : Supported t c .hcube) (n : Nat) (hn : 0 < n) (fuel : Nat) (hV : nVertices t.dim n .hcube < fuel)
    (hE : nElements t.dim n .hcube < fuel) (M : Mesh) (hM : writeMesh t c n fuel = some M) (g : MultiLinearGeometry) (hg : Legal g)
    (hd : g.mydim = t.dim) (hi : g.id = t.id) (e : Nat × List Nat) (he : e ∈ M.elements) (x : Vec ℝ)
    (hr : LinearIndependent ℝ (mat g.mydim g.cdim (g.jacobianTransposed ((part g.mydim c.id g.tol M e.2).global x))).row) :
    ∃ v, g.integrationElement ((part g.mydim c.id g.tol M e.2).global x) = some v ∧
      (mapped g c.id M e.2).integrationElement x = some ((1 / n) ^ t.dim * v) := by
  have hn' : (0 : ℝ) < 1 / n := by positivity
  have hcc : IsCubeId g.mydim c.id := fun k a b => hs.2.2 k a (by omega)
  have hcid : c.id < 2 ^ g.mydim := by rw [hd, ← hcd]; exact hc.valid
  obtain ⟨lo, hlo⟩ := cell_corners ht hc hcd h1 h30 hs hn hV hE hM he
  rw [← hd] at hlo
  have hdet : (mat g.mydim g.mydim ((part g.mydim c.id g.tol M e.2).jacobianTransposed x)).det = (1 / n) ^ t.dim := by
    have : mat g.mydim g.mydim ((part g.mydim c.id g.tol M e.2).jacobianTransposed x) = diagonal fun _ => (1 / n : ℝ) := by
      ext r s
      change (part g.mydim c.id g.tol M e.2).jacobianTransposed x r s = _
      rw [jt_eq (part g.mydim c.id g.tol M e.2) hcid _ _ _ r.2]
      change MLd g.tol (topoOf g.mydim c.id) (fun k => point M (e.2.getD k 0) s) x r = _
      rw [topoOf_cube _ _ hcc, MLd_coord g.mydim lo _ _ hlo x r s r.2 s.2, diagonal_apply]
      simp only [Fin.ext_iff, eq_comm]
    rw [this, det_diagonal, prod_const, card_univ, Fintype.card_fin, hd]
  obtain ⟨v, hv1, hv2⟩ := C113_integrationElement g c.id M e.2 x
    (C113_cube t c ht hc hcd h1 h30 hs n hn fuel hV hE M hM g hg hd hi e he x) hr (by rw [hdet]; exact (pow_pos hn' _).ne')
  exact ⟨v, hv1, by rw [hv2, hdet, abs_of_pos (pow_pos hn' _)]⟩

/-- C113, cubes refined into cubes: the mapped elements together are the image of the whole element. -/
theorem C113_image_cube (t c : GeometryType) (ht : Regular t) (hc : Regular c) (hcd : c.dim = t.dim) (h1 : 1 ≤ t.dim) (h30 : t.dim ≤ 30)
    (hs : Supported t c .hcube) (n : Nat) (hn : 0 < n) (fuel : Nat) (hV : nVertices t.dim n .hcube < fuel)
    (hE : nElements t.dim n .hcube < fuel) (M : Mesh) (hM : writeMesh t c n fuel = some M) (g : MultiLinearGeometry) (hg : Legal g)
    (hd : g.mydim = t.dim) (hi : g.id = t.id) :
    {y | ∃ x ∈ domain ℝ t.dim t.id, y = vec g.cdim (g.global x)} =
      {y | ∃ e ∈ M.elements, ∃ x ∈ domain ℝ t.dim c.id, y = vec g.cdim ((mapped g c.id M e.2).global x)} := by
  obtain ⟨M', h2, -, -, hv⟩ := C111_mesh t c ht hc hcd h1 h30 _ hs n hn
  obtain rfl := Option.some.inj (hM.symm.trans (h2 fuel hV hE))
  have hn' : (0 : ℝ) < n := Nat.cast_pos.2 hn
  have hcc : IsCubeId t.dim c.id := fun k a b => hs.2.2 k a (by omega)
  have hcid : c.id < 2 ^ g.mydim := by rw [hd, ← hcd]; exact hc.valid
  have hsize : refSize t.dim c.id t.dim = 2 ^ t.dim := cube_size _ _ hcc
  have hlen : ∀ e ∈ M.elements, e.2.length = 2 ^ t.dim := fun e he => (hv.corners e he).1.trans hsize
  have hpart : ∀ e ∈ M.elements, ∃ lo : Vec ℝ, (∀ a, a < 2 ^ t.dim → ∀ i, i < t.dim →
      point M (e.2.getD a 0) i = lo i + 1 / n * (if a.testBit i then 1 else 0)) ∧ ∀ z s, s < t.dim →
      (part g.mydim c.id g.tol M e.2).global z s = lo s + 1 / n * z s := by
    intro e he
    obtain ⟨lo, hlo⟩ := cell_corners ht hc hcd h1 h30 hs hn hV hE hM he
    refine ⟨lo, hlo, fun z s hs' => ?_⟩
    rw [MultiLinear.global_eq _ hcid]
    change ML g.tol (topoOf g.mydim c.id) _ z = _
    rw [hd, topoOf_cube _ _ hcc]
    exact ML_coord t.dim lo _ _ hlo z s hs'
  have hcongr : ∀ x x' : Vec ℝ, (∀ i, i < t.dim → x i = x' i) → g.global x = g.global x' := fun x x' h => by
    funext j
    rw [MultiLinear.global_eq g hg.id_lt, MultiLinear.global_eq g hg.id_lt]
    exact ML_congr _ (fun _ _ => rfl) fun r hr => h r (by rwa [topo_dim, hd] at hr)
  ext y
  constructor
  · rintro ⟨x, hx, rfl⟩
    obtain ⟨e, he, w, hw, hw1, hwx⟩ := hv.cover x hx
    rw [hlen e he] at hw hw1 hwx
    obtain ⟨lo, hlo, hp⟩ := hpart e he
    refine ⟨e, he, fun i => if i < t.dim then ∑ a ∈ range (2 ^ t.dim), w a * (if a.testBit i then 1 else 0) else 0, ?_, ?_⟩
    · refine (domain_cube hcc fun k hk => if_neg (by omega)).2 fun i hi => ?_
      simp only [if_pos hi]
      exact cube_outer _ w hw hw1 i
    · funext j
      refine Eq.trans ?_ ((C113_cube t c ht hc hcd h1 h30 hs n hn fuel hV hE M hM g hg hd hi e he _).1 j j.2).symm
      change g.global x j = _
      rw [hcongr x _ fun i hi => ?_]
      rw [hp _ i hi, if_pos hi, hwx i hi, mul_sum]
      have e1 : ∀ a ∈ range (2 ^ t.dim), w a * M.at (e.2.getD a 0) i = w a * lo i + 1 / n * (w a * (if a.testBit i then 1 else 0)) :=
        fun a ha => by
          change w a * point M (e.2.getD a 0) i = _
          rw [hlo a (mem_range.1 ha) i hi]; ring
      rw [sum_congr rfl e1, sum_add_distrib, ← sum_mul, hw1, one_mul]
  · rintro ⟨e, he, z, hz, rfl⟩
    obtain ⟨lo, hlo, hp⟩ := hpart e he
    have hz' := (domain_cube hcc (domain_zero hz)).1 hz
    obtain ⟨w, w1, w2, w3⟩ := cube_weights t.dim z hz'
    refine ⟨fun i => if i < t.dim then (part g.mydim c.id g.tol M e.2).global z i else 0, ?_, ?_⟩
    · refine hv.inside e he _ (fun k hk => if_neg (by omega)) ⟨w, fun j _ => w1 j, ?_⟩
      rw [Combination, hlen e he]
      refine ⟨w2, fun i hi => ?_⟩
      rw [if_pos hi, hp z i hi, ← w3 i hi, mul_sum]
      have e1 : ∀ a ∈ range (2 ^ t.dim), w a * M.at (e.2.getD a 0) i = w a * lo i + 1 / n * (w a * (if a.testBit i then 1 else 0)) :=
        fun a ha => by
          change w a * point M (e.2.getD a 0) i = _
          rw [hlo a (mem_range.1 ha) i hi]; ring
      rw [sum_congr rfl e1, sum_add_distrib, ← sum_mul, w2, one_mul]
    · funext j
      refine ((C113_cube t c ht hc hcd h1 h30 hs n hn fuel hV hE M hM g hg hd hi e he z).1 j j.2).trans ?_
      change _ = g.global _ j
      rw [hcongr _ _ fun i hi => (if_pos hi).symm]

/-! ### the counterexample -/

/-- the function `x y` on the unit square -/
noncomputable def saddle : MultiLinearGeometry := ⟨2, 1, 3, fun k _ => if k = 3 then 1 else 0, 1 / 4⟩

theorem saddle_global (x : Vec ℝ) : saddle.global x 0 = x 0 * x 1 := by
  have hg : Legal saddle := ⟨by decide, by norm_num [saddle], by norm_num [saddle]⟩
  have hc : IsCubeId saddle.mydim saddle.id := square_cube
  rw [C31_cube_formula saddle hg hc]
  change ∑ k ∈ range 4, _ * (if k = 3 then (1 : ℝ) else 0) = _
  simp [sum_range_succ, Nat.testBit, saddle, prod_range_succ]

/-- the hypotheses of `C113_cube`: the surface `x y`, split into nine squares -/
example : Regular ⟨2, false, 3⟩ ∧ Supported ⟨2, false, 3⟩ ⟨2, false, 3⟩ .hcube ∧ nVertices 2 3 .hcube = 16 ∧ nElements 2 3 .hcube = 9 ∧
    Legal saddle ∧ saddle.mydim = 2 ∧ saddle.id = 3 := by
  have h : CubeShape ⟨2, false, 3⟩ := fun k h1 h2 => by
    obtain rfl : k = 1 := by change k < 2 at h2; omega
    rfl
  exact ⟨by constructor <;> decide, ⟨le_rfl, h, h⟩, by decide, by decide, ⟨by decide, by norm_num [saddle], by norm_num [saddle]⟩, rfl, rfl⟩

/-- a parallelogram in space -/
noncomputable def plane : MultiLinearGeometry := ⟨2, 3, 3, fun k j => if j = 0 then (if k.testBit 0 then 2 else 0) else
  if j = 1 then (if k.testBit 1 then 3 else 0) else 5, 1 / 4⟩

/-- the hypotheses of `C113_affine_partial`: the parallelogram split into 18 triangles, a point of a triangle -/
example : ImageOf plane (fun j => if j = 2 then 5 else 0) (fun j r => if j = 0 ∧ r = 0 then 2 else if j = 1 ∧ r = 1 then 3 else 0) ∧
    Legal plane ∧ plane.tol * (3 : Nat) < 1 ∧ Supported ⟨2, false, 3⟩ ⟨2, false, 0⟩ .hcubeTriangulation ∧
    nElements 2 3 .hcubeTriangulation = 18 ∧ TipsClear plane.tol plane.mydim 0 (fun _ => 1 / 4) ∧
    ∀ y, TipsClear plane.tol plane.mydim plane.id y := by
  refine ⟨?_, ⟨by decide, by norm_num [plane], by norm_num [plane]⟩, by norm_num [plane], square_supported, by decide, ?_,
    fun y => clear_cube _ _ _ _ square_cube⟩
  · intro k p hp j hj
    have hj : j < 3 := hj
    rw [cornersOf_eq (rep_topoOf _ _)] at hp
    have ht : topoOf plane.mydim plane.id = .prism (.prism .pt) := by decide
    rw [ht, cornersOf_prism, cornersOf_prism] at hp
    have hk : k < 4 := by
      have := (List.getElem?_eq_some_iff.1 hp).1
      simpa [cornersOf, length_faces, Topo.sz, Topo.dim] using this
    have h0 : cornersOf (K := ℝ) .pt = [fun _ => 0] := rfl
    rw [h0] at hp
    have hp' : p = [fun _ => 0, setV (fun _ => 0) 0 1, setV (fun _ => 0) 1 1, setV (setV (fun _ => (0 : ℝ)) 0 1) 1 1].getD k 0 := by
      interval_cases k <;> exact (Option.some.inj hp).symm
    rw [hp']
    interval_cases k <;> interval_cases j <;> simp [plane, sum_range_succ, setV, Nat.testBit]
  · change TipsClear (1 / 4) 2 0 _
    norm_num [TipsClear]

/-- the hypothesis of the theorems on integration elements: the parallelogram is regular everywhere -/
example (x : Vec ℝ) : LinearIndependent ℝ (mat plane.mydim plane.cdim (plane.jacobianTransposed x)).row := by
  have hg : Legal plane := ⟨by decide, by norm_num [plane], by norm_num [plane]⟩
  have e : ∀ r j, r < 2 → plane.jacobianTransposed x r j = if r = 0 then (if j = 0 then 2 else 0) else (if j = 1 then 3 else 0) := by
    intro r j hr
    rw [jt_eq plane hg.id_lt _ _ _ hr, show topoOf plane.mydim plane.id = .prism (.prism .pt) by decide]
    have h2 : nv (.prism .pt) = 2 := rfl
    have h3 : nv .pt = 1 := rfl
    by_cases h0 : j = 0
    · subst h0
      interval_cases r <;> simp [MLd, ML, Topo.dim, h2, h3, plane, Nat.testBit] <;> ring
    · by_cases h1 : j = 1
      · subst h1
        interval_cases r <;> simp [MLd, ML, Topo.dim, h2, h3, plane, Nat.testBit] <;> ring
      · interval_cases r <;> simp [MLd, ML, Topo.dim, h2, h3, plane, Nat.testBit, h0, h1]
  rw [Fintype.linearIndependent_iff]
  intro w hw
  change Fin 2 → ℝ at w
  have h0 := congrFun hw (0 : Fin 3)
  have h1 := congrFun hw (1 : Fin 3)
  change (∑ r : Fin 2, w r • (fun j : Fin 3 => plane.jacobianTransposed x r j)) 0 = 0 at h0
  change (∑ r : Fin 2, w r • (fun j : Fin 3 => plane.jacobianTransposed x r j)) 1 = 0 at h1
  simp [Fin.sum_univ_two, e] at h0 h1
  intro r
  change Fin 2 at r
  fin_cases r
  · exact h0
  · exact h1

/-- C113: a square with a geometry that is bilinear, but not affine, split into two triangles: the mapped triangles are not part of the
surface. -/
theorem C113_counterexample : ¬ C113_full := by
  intro h
  have ht : Regular ⟨2, false, 3⟩ := by constructor <;> decide
  have hc : Regular ⟨2, false, 0⟩ := by constructor <;> decide
  have hs := square_supported
  obtain ⟨M, h1, h2, h3, hv⟩ := C111_mesh _ _ ht hc rfl (by decide) (by decide) _ hs 1 one_pos
  have hg : Legal saddle := ⟨by decide, by norm_num [saddle], by norm_num [saddle]⟩
  have key := h _ _ ht hc rfl (by decide) (by decide) _ hs 1 one_pos 7 (by decide) (by decide) M (h1 7 (by decide) (by decide)) saddle hg
    rfl rfl (by norm_num [saddle])
  have hx : (fun i => if i < 2 then (1 / 2 : ℝ) else 0) ∈ domain ℝ 2 3 :=
    (domain_cube square_cube fun k hk => if_neg (by omega)).2 fun i hi => by simp only [if_pos hi]; norm_num
  obtain ⟨e, he, w, hw, hw1, hwx⟩ := hv.cover _ hx
  have hsize : refSize 2 0 2 = 3 := by decide
  obtain ⟨hl, hlt⟩ := hv.corners e he
  have hl3 : e.2.length = 3 := hl.trans hsize
  rw [hl3] at hw hw1 hwx
  have hcoord : ∀ k, k < 3 → ∀ i, i < 2 → point M (e.2.getD k 0) i = 0 ∨ point M (e.2.getD k 0) i = 1 := by
    intro k hk i hi
    have hk' : e.2.getD k 0 < M.points.length := by
      rw [List.getD_eq_getElem _ _ (by omega)]
      exact hlt _ (List.getElem_mem _)
    obtain ⟨hdom, hlat⟩ := hv.point_lattice _ (List.getElem_mem hk')
    have hat : point M (e.2.getD k 0) = (M.points[e.2.getD k 0]).2 := by rw [point, List.getD_eq_getElem _ _ hk']
    have h01 := (domain_cube (d := 2) (id := 3) square_cube (x := fun i => if i < 2 then (M.points[e.2.getD k 0]).2 i else 0)
      fun k hk => if_neg (by omega)).1 hdom i hi
    obtain ⟨z, hz⟩ := hlat i
    simp only [if_pos hi, ← hat] at h01
    simp only [if_pos (show i < (⟨2, false, 3⟩ : GeometryType).dim from hi), ← hat, Nat.cast_one, div_one] at hz
    rw [hz] at h01 ⊢
    have hz0 : 0 ≤ z := by exact_mod_cast h01.1
    have hz1 : z ≤ 1 := by exact_mod_cast h01.2
    rcases (show z = 0 ∨ z = 1 by omega) with rfl | rfl <;> simp
  have e0 := hwx 0 (by decide)
  have e1 := hwx 1 (by decide)
  simp only [sum_range_succ, sum_range_zero, zero_add] at hw1 e0 e1
  norm_num at e0 e1
  change (1 / 2 : ℝ) = w 0 * point M (e.2.getD 0 0) 0 + w 1 * point M (e.2.getD 1 0) 0 + w 2 * point M (e.2.getD 2 0) 0 at e0
  change (1 / 2 : ℝ) = w 0 * point M (e.2.getD 0 0) 1 + w 1 * point M (e.2.getD 1 0) 1 + w 2 * point M (e.2.getD 2 0) 1 at e1
  have hw0 := hw 0 (by decide)
  have hw1' := hw 1 (by decide)
  have hw2 := hw 2 (by decide)
  have b := fun k hk => hcoord k hk 1 (by decide)
  have a := fun k hk => hcoord k hk 0 (by decide)
  have htopo : topoOf 2 0 = .pyr (.prism .pt) := by decide
  -- a vertex of the element lies on either side of the line `y = 1 / 2`, hence the point is not at the tip of the triangle
  have hw2' : w 2 ≤ 1 / 2 := by
    rcases b 2 (by decide) with h | h <;> rcases b 0 (by decide) with h0 | h0 <;> rcases b 1 (by decide) with h1 | h1 <;>
      rw [h, h0, h1] at e1 <;> linarith
  have hML : ∀ c : Nat → ℝ, ML (1 / 4) (topoOf 2 0) c (fun i => if i = 0 then w 1 else w 2) = c 0 + (c 1 - c 0) * w 1 + (c 2 - c 0) * w 2 :=
    fun c => by rw [htopo, tri_ML (by norm_num) c _ (Or.inl (by norm_num; linarith))]; simp
  have hr := (key e he (fun i => if i = 0 then w 1 else w 2) (by
    change TipsClear (1 / 4) 2 0 _
    norm_num [TipsClear]
    linarith) (clear_cube _ _ _ _ square_cube)).1 0 one_pos
  change (mapped saddle 0 M e.2).global _ 0 = saddle.global ((part 2 0 (1 / 4) M e.2).global _) 0 at hr
  rw [saddle_global, MultiLinear.global_eq (mapped saddle 0 M e.2) (show 0 < 2 ^ 2 by decide),
    MultiLinear.global_eq (part 2 0 (1 / 4) M e.2) (show 0 < 2 ^ 2 by decide), MultiLinear.global_eq (part 2 0 (1 / 4) M e.2) (show 0 < 2 ^ 2 by decide)] at hr
  change ML (1 / 4) (topoOf 2 0) _ _ = ML (1 / 4) (topoOf 2 0) _ _ * ML (1 / 4) (topoOf 2 0) _ _ at hr
  rw [hML, hML, hML] at hr
  simp only [mapped, part, saddle_global] at hr
  have q0 : point M (e.2.getD 0 0) 0 + (point M (e.2.getD 1 0) 0 - point M (e.2.getD 0 0) 0) * w 1 +
      (point M (e.2.getD 2 0) 0 - point M (e.2.getD 0 0) 0) * w 2 = 1 / 2 := by
    rw [e0, show w 0 = 1 - w 1 - w 2 by linarith]; ring
  have q1 : point M (e.2.getD 0 0) 1 + (point M (e.2.getD 1 0) 1 - point M (e.2.getD 0 0) 1) * w 1 +
      (point M (e.2.getD 2 0) 1 - point M (e.2.getD 0 0) 1) * w 2 = 1 / 2 := by
    rw [e1, show w 0 = 1 - w 1 - w 2 by linarith]; ring
  rw [q0, q1] at hr
  rcases a 0 (by decide) with a0 | a0 <;> rcases a 1 (by decide) with a1 | a1 <;> rcases a 2 (by decide) with a2 | a2 <;>
    rcases b 0 (by decide) with b0 | b0 <;> rcases b 1 (by decide) with b1 | b1 <;> rcases b 2 (by decide) with b2 | b2 <;>
    rw [a0, a1, a2, b0, b1, b2] at hr <;> rw [a0, a1, a2] at q0 <;> rw [b0, b1, b2] at q1 <;> linarith

end Verif.Image
