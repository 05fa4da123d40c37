import Verif.Image.Integral
import Verif.Quad.VolumeProps

/-!
C114: volumes and integrals over the sub-elements of a refinement add up to those of the element.

Specification: Lebesgue integrals over the reference element (`refSet`), `volume()` of the whole element.
-/

namespace Verif.Image

open Verif.Typ Verif.RefGeom Verif.MatHelp Verif.RefTopo Verif.MultiLinear Verif.Neighbour Verif.Hull Verif.Quad Verif.Refine
open Verif.Refine.Mesh Verif.Refine.Glue Verif.Refine.Virtual
open Finset hiding ext
open Matrix hiding vec
open MeasureTheory

/-! ### helper lemmas -/

theorem foldlM_some {α : Type} {F : α → Option ℝ} {v : α → ℝ} : ∀ (L : List α) (s : ℝ), (∀ e ∈ L, F e = some (v e)) →
    L.foldlM (fun s e => do let x ← F e; return s + x) s = some (s + (L.map v).sum)
  | [], s, _ => by simp
  | e :: L, s, h => by
    rw [List.foldlM_cons, h e (by simp)]
    change List.foldlM (fun s e => do let x ← F e; return s + x) (s + v e) L = _
    rw [foldlM_some L _ fun e' he => h e' (List.mem_cons_of_mem _ he), List.map_cons, List.sum_cons, add_assoc]

theorem subVolume_eq {g : MultiLinearGeometry} {cid : Nat} {M : Mesh} {v : Nat × List Nat → ℝ}
    (h : ∀ e ∈ M.elements, (mapped g cid M e.2).volume = some (v e)) : subVolume g cid M = some (M.elements.map v).sum := by
  rw [subVolume, foldlM_some M.elements 0 h, zero_add]

/-- `volume()` of a geometry with affine corners -/
theorem volume_exact {g : MultiLinearGeometry} (hg : Legal g) {a : Vec ℝ} {A : Mat ℝ} (h : ImageOf g a A) (hr : FullRank g A) {p : Vec ℝ}
    (hp : position g.mydim g.id 0 0 = some p) (hin : Inner g p) :
    g.volume = some (Real.sqrt ((mat g.cdim g.mydim A)ᵀ * mat g.cdim g.mydim A).det * referenceVolume g.mydim g.id) := by
  have e := jt_mat_exact hg h hin
  rw [MultiLinearGeometry.volume, hp]
  change ((g.integrationElement p).bind fun ie => some (ie * referenceVolume g.mydim g.id)) = _
  rw [MultiLinearGeometry.integrationElement, C27_sqrtDetAAT_partial _ _ _ (Or.inl (by rw [e]; exact hr)), e, transpose_transpose]
  rfl

theorem refSet_pos (d id : Nat) : 0 < volume.real (refSet d id) := by
  have h : 0 < exactVolume ℝ d id := by rw [exactVolume_eq (rep_topoOf d id)]; exact vol_pos _
  have e := C19_exact d id
  change volume (refSet d id) = _ at e
  rw [Measure.real, e, ENNReal.toReal_ofReal h.le]
  exact h

theorem sum_close {α : Type} {f g h : α → ℝ} : ∀ L : List α, (∀ e ∈ L, |f e - g e| ≤ h e) → |(L.map f).sum - (L.map g).sum| ≤ (L.map h).sum
  | [], _ => by simp
  | e :: L, hL => by
    have h1 := hL e (by simp)
    have h2 := sum_close L fun e' he => hL e' (List.mem_cons_of_mem _ he)
    simp only [List.map_cons, List.sum_cons]
    rw [add_sub_add_comm]
    exact (abs_add_le _ _).trans (add_le_add h1 h2)

theorem continuous_ML (tol : ℝ) : ∀ (d : Nat) (c : Nat → ℝ), Continuous fun z : Nat → ℝ => ML tol (Topo.cube d) c z
  | 0, c => continuous_const
  | d + 1, c => by
    have h1 := continuous_ML tol d c
    have h2 := continuous_ML tol d fun k => c (nv (Topo.cube d) + k)
    change Continuous fun z : Nat → ℝ => (1 - z (Topo.cube d).dim) * ML tol (Topo.cube d) c z +
      z (Topo.cube d).dim * ML tol (Topo.cube d) (fun k => c (nv (Topo.cube d) + k)) z
    exact ((continuous_const.sub (continuous_apply _)).mul h1).add ((continuous_apply _).mul h2)

theorem continuous_ext {d : Nat} : Continuous (RefGeom.ext : (Fin d → ℝ) → Nat → ℝ) := by
  refine continuous_pi fun k => ?_
  by_cases hk : k < d
  · simp only [RefGeom.ext, dif_pos hk]; exact continuous_apply _
  · simp only [RefGeom.ext, dif_neg hk]; exact continuous_const

theorem continuous_jt {g : MultiLinearGeometry} (hg : Legal g) (hc : IsCubeId g.mydim g.id) (r j : Nat) (hr : r < g.mydim) :
    Continuous fun x : Fin g.mydim → ℝ => g.jacobianTransposed (RefGeom.ext x) r j := by
  have e : (fun x : Fin g.mydim → ℝ => g.jacobianTransposed (RefGeom.ext x) r j) = fun x : Fin g.mydim → ℝ =>
      (ML g.tol (Topo.cube g.mydim) (fun k => g.corners_ k j) (RefGeom.ext x) -
        ML g.tol (Topo.cube g.mydim) (fun k => g.corners_ k j) (fun i => if i = r then RefGeom.ext x r - 1 else RefGeom.ext x i)) / 1 := by
    funext x
    rw [jt_eq g hg.id_lt _ _ _ hr, topoOf_cube _ _ hc, MLd_diff _ _ _ r hr 1 one_ne_zero]
  rw [e]
  refine (((continuous_ML _ _ _).comp continuous_ext).sub ((continuous_ML _ _ _).comp (continuous_pi fun i => ?_))).div_const 1
  by_cases hi : i = r
  · simp only [if_pos hi]; exact ((continuous_apply r).comp continuous_ext).sub continuous_const
  · simp only [if_neg hi]; exact (continuous_apply i).comp continuous_ext

/-- the integration element as a function -/
noncomputable def density (g : MultiLinearGeometry) (x : Fin g.mydim → ℝ) : ℝ :=
  Real.sqrt (mat g.mydim g.cdim (g.jacobianTransposed (RefGeom.ext x)) * (mat g.mydim g.cdim (g.jacobianTransposed (RefGeom.ext x)))ᵀ).det

theorem continuous_density {g : MultiLinearGeometry} (hg : Legal g) (hc : IsCubeId g.mydim g.id) : Continuous (density g) := by
  have h : Continuous fun x : Fin g.mydim → ℝ => mat g.mydim g.cdim (g.jacobianTransposed (RefGeom.ext x)) :=
    continuous_matrix fun r j => continuous_jt hg hc r j r.2
  exact Real.continuous_sqrt.comp (h.matrix_mul h.matrix_transpose).matrix_det

theorem density_eq {g : MultiLinearGeometry} (hg : Legal g) {z : Vec ℝ}
    (hr : LinearIndependent ℝ (mat g.mydim g.cdim (g.jacobianTransposed (RefGeom.ext (vec g.mydim z)))).row) :
    g.integrationElement z = some (density g (vec g.mydim z)) := by
  rw [← jt_ext hg.id_lt z] at hr
  rw [MultiLinearGeometry.integrationElement, C27_sqrtDetAAT_partial _ _ _ (Or.inl hr), density, jt_ext hg.id_lt z]

theorem cube_refSet {d id : Nat} (hc : IsCubeId d id) (x : Fin d → ℝ) : x ∈ refSet d id ↔ ∀ i, 0 ≤ x i ∧ x i ≤ 1 := by
  rw [refSet, Set.mem_ofPred_eq, domain_cube hc fun k hk => dif_neg (by omega)]
  constructor
  · intro h i
    have := h i i.2
    rwa [ext_apply x i i.2] at this
  · intro h i hi
    rw [ext_apply x i hi]
    exact h ⟨i, hi⟩

theorem cube_volume {d id : Nat} (hc : IsCubeId d id) : volume.real (refSet d id) = 1 := by
  have e := C19_exact d id
  change volume (refSet d id) = _ at e
  rw [Measure.real, e, (C19_simplex_cube d id).2 hc]
  simp

/-! ### C114 -/

/-- C114: the integral of any integrable function over the reference element is the sum of the integrals over the elements of the mesh,
each computed on the reference element of the sub-elements with the integration element of its position. -/
theorem C114_integral (t c : GeometryType) (ht : Regular t) (hc : Regular c) (hcd : c.dim = t.dim) (h1 : 1 ≤ t.dim) (h30 : t.dim ≤ 30)
    (imp : Imp) (hs : Supported t c imp) (n : Nat) (hn : 0 < n) (fuel : Nat) (hV : nVertices t.dim n imp < fuel)
    (hE : nElements t.dim n imp < fuel) (M : Mesh) (hM : writeMesh t c n fuel = some M) (tol : ℝ) :
    ∃ (b : Nat × List Nat → Vec ℝ) (B : Nat × List Nat → Mat ℝ),
      (∀ e ∈ M.elements, ImageOf (part t.dim c.id tol M e.2) (b e) (B e) ∧ (mat t.dim t.dim (B e)).det ≠ 0) ∧
      ∀ f : (Fin t.dim → ℝ) → ℝ, IntegrableOn f (refSet t.dim t.id) → ∫ x in refSet t.dim t.id, f x =
        (M.elements.map fun e => |(mat t.dim t.dim (B e)).det| *
          ∫ x in refSet t.dim c.id, f (vec t.dim (b e) + mat t.dim t.dim (B e) *ᵥ x)).sum := by
  obtain ⟨M', h2, -, -, hv⟩ := C111_mesh t c ht hc hcd h1 h30 _ hs n hn
  obtain rfl := Option.some.inj (hM.symm.trans (h2 fuel hV hE))
  have hcid : c.id < 2 ^ t.dim := by rw [← hcd]; exact hc.valid
  have h0 := Glue.size_pos t.dim c.id
  have hex : ∀ e, e ∈ M.elements → ∃ b B, ImageOf (part t.dim c.id tol M e.2) b B := fun e he =>
    imageOf_part ht hc hcd h1 h30 hs hn hV hE hM he tol
  choose! b B hbB using hex
  have hdet : ∀ e ∈ M.elements, (mat t.dim t.dim (B e)).det ≠ 0 := fun e he => elem_det hv h0 (refSet_pos _ _) he (hbB e he)
  refine ⟨b, B, fun e he => ⟨hbB e he, hdet e he⟩, fun f hf => ?_⟩
  rw [integral_mesh hv h0 hf]
  congr 1
  exact List.map_congr_left fun e he => elem_integral (hbB e he) (hv.corners e he).1 (hdet e he) f

/-- C114, geometries whose corners are affine images of those of the reference element, all implementations: the volumes of the
sub-elements add up to the volume of the element. -/
theorem C114_affine (t c : GeometryType) (ht : Regular t) (hc : Regular c) (hcd : c.dim = t.dim) (h1 : 1 ≤ t.dim) (h13 : t.dim ≤ 13)
    (imp : Imp) (hs : Supported t c imp) (n : Nat) (hn : 0 < n) (fuel : Nat) (hV : nVertices t.dim n imp < fuel)
    (hE : nElements t.dim n imp < fuel) (M : Mesh) (hM : writeMesh t c n fuel = some M) (g : MultiLinearGeometry) (hg : Legal g)
    (hd : g.mydim = t.dim) (hi : g.id = t.id) (htol : g.tol * n < 1) (a : Vec ℝ) (A : Mat ℝ) (h : ImageOf g a A) (hr : FullRank g A)
    (p q : Vec ℝ) (hp : position t.dim t.id 0 0 = some p) (hq : position t.dim c.id 0 0 = some q)
    (hpin : checkInside t.dim t.id p (-g.tol) 1 = true) (hqin : checkInside t.dim c.id q (-g.tol) 1 = true) :
    (subVolume g c.id M).isSome ∧ subVolume g c.id M = g.volume := by
  obtain ⟨M', h2, -, -, hv⟩ := C111_mesh t c ht hc hcd h1 (by omega) _ hs n hn
  obtain rfl := Option.some.inj (hM.symm.trans (h2 fuel hV hE))
  obtain ⟨b, B, hbB, hint⟩ := C114_integral t c ht hc hcd h1 (by omega) imp hs n hn fuel hV hE M hM g.tol
  have hcid : c.id < 2 ^ g.mydim := by rw [hd, ← hcd]; exact hc.valid
  obtain ⟨gd, gc, gi, gcor, gtol⟩ := g
  obtain rfl : gd = t.dim := hd
  obtain rfl : gi = t.id := hi
  set g : MultiLinearGeometry := ⟨t.dim, gc, t.id, gcor, gtol⟩ with hgdef
  set S := Real.sqrt ((mat gc t.dim A)ᵀ * mat gc t.dim A).det with hS
  have hvol : g.volume = some (S * referenceVolume t.dim t.id) := volume_exact hg h hr hp hpin
  have hm : ∀ e ∈ M.elements, (mapped g c.id M e.2).volume = some (|(mat t.dim t.dim (B e)).det| * (S * referenceVolume t.dim c.id)) := by
    intro e he
    obtain ⟨hb, hdet⟩ := hbB e he
    have hl := hv.corners e he
    -- the corners of the mapped element are affine images
    have him : ImageOf (mapped g c.id M e.2) (fun j => a j + ∑ s ∈ range t.dim, A j s * b e s)
        (fun j r => ∑ s ∈ range t.dim, A j s * B e s r) := by
      intro k x hk j hj
      have hk' : k < e.2.length := by
        have := (List.getElem?_eq_some_iff.1 hk).1
        rw [C17_count] at this
        rw [hl.1]; exact this
      have hlt : e.2.getD k 0 < M.points.length := by
        rw [List.getD_eq_getElem _ _ hk']
        exact hl.2 _ (List.getElem_mem hk')
      refine (vertex_exact hn hv hg rfl rfl htol h hlt j hj).trans ?_
      change a j + ∑ s ∈ range t.dim, A j s * point M (e.2.getD k 0) s = _
      have : ∀ s ∈ range t.dim, A j s * point M (e.2.getD k 0) s = A j s * b e s + ∑ r ∈ range t.dim, A j s * B e s r * x r := fun s hs => by
        have := hb k x hk s (mem_range.1 hs)
        change point M (e.2.getD k 0) s = b e s + ∑ r ∈ range t.dim, B e s r * x r at this
        rw [this, mul_add, mul_sum]
        simp only [mul_assoc]
      rw [sum_congr rfl this, sum_add_distrib, sum_comm, ← add_assoc]
      congr 1
      exact sum_congr rfl fun r _ => by rw [sum_mul]
    have hmat : mat gc t.dim (fun j r => ∑ s ∈ range t.dim, A j s * B e s r) = mat gc t.dim A * mat t.dim t.dim (B e) := by
      funext j r
      rw [Matrix.mul_apply]
      exact (Fin.sum_univ_eq_sum_range (fun s => A j s * B e s r) t.dim).symm
    have hfr : FullRank (mapped g c.id M e.2) (fun j r => ∑ s ∈ range t.dim, A j s * B e s r) := by
      change LinearIndependent ℝ (mat gc t.dim (fun j r => ∑ s ∈ range t.dim, A j s * B e s r))ᵀ.row
      rw [hmat, transpose_mul]
      exact (li_mul (by rw [det_transpose]; exact isUnit_iff_ne_zero.2 hdet) _).2 hr
    have := volume_exact (g := mapped g c.id M e.2) ⟨hcid, hg.tol_pos, hg.tol_lt⟩ him hfr hq hqin
    rw [this]
    change some (Real.sqrt ((mat gc t.dim _)ᵀ * mat gc t.dim _).det * referenceVolume t.dim c.id) = _
    rw [hmat, transpose_mul, ← Matrix.mul_assoc, Matrix.mul_assoc (mat t.dim t.dim (B e))ᵀ, det_mul, det_mul, det_transpose,
      show (mat t.dim t.dim (B e)).det * ((mat gc t.dim A)ᵀ * mat gc t.dim A).det * (mat t.dim t.dim (B e)).det =
        (mat t.dim t.dim (B e)).det ^ 2 * ((mat gc t.dim A)ᵀ * mat gc t.dim A).det by ring,
      Real.sqrt_mul (sq_nonneg _), Real.sqrt_sq_eq_abs, mul_assoc]
  have hsum := hint (fun _ => 1) (integrableOn_refSet continuous_const)
  rw [refSet_volume _ _ h13, refSet_volume _ _ h13] at hsum
  have : subVolume g c.id M = g.volume := by
    rw [subVolume_eq hm, hvol, hsum]
    congr 1
    rw [← List.sum_map_mul_left]
    congr 1
    exact List.map_congr_left fun e _ => by ring
  rw [this, hvol]
  exact ⟨rfl, rfl⟩

/-! ### cubes -/

/-- the sub-elements of a cube: the volumes are those of the midpoint rule on the cells, integrals are sums over the cells -/
theorem cube_sum (t c : GeometryType) (ht : Regular t) (hc : Regular c) (hcd : c.dim = t.dim) (h1 : 1 ≤ t.dim) (h13 : t.dim ≤ 13)
    (hs : Supported t c .hcube) (n : Nat) (hn : 0 < n) (fuel : Nat) (hV : nVertices t.dim n .hcube < fuel)
    (hE : nElements t.dim n .hcube < fuel) (M : Mesh) (hM : writeMesh t c n fuel = some M) (g : MultiLinearGeometry) (hg : Legal g)
    (hd : g.mydim = t.dim) (hi : g.id = t.id)
    (hr : ∀ x ∈ refSet g.mydim g.id, LinearIndependent ℝ (mat g.mydim g.cdim (g.jacobianTransposed (RefGeom.ext x))).row) :
    ∃ (lo : Nat × List Nat → Fin g.mydim → ℝ) (q : Fin g.mydim → ℝ), position g.mydim c.id 0 0 = some (RefGeom.ext q) ∧
      q ∈ refSet g.mydim g.id ∧
      (∀ e ∈ M.elements, ∀ x ∈ refSet g.mydim g.id, lo e + (1 / n : ℝ) • x ∈ refSet g.mydim g.id) ∧
      (∀ e ∈ M.elements, ∀ z, vec g.mydim ((part g.mydim c.id g.tol M e.2).global z) = lo e + (1 / n : ℝ) • vec g.mydim z) ∧
      subVolume g c.id M = some (M.elements.map fun e => (1 / n) ^ g.mydim * density g (lo e + (1 / n : ℝ) • q)).sum ∧
      ∀ f : (Fin g.mydim → ℝ) → ℝ, IntegrableOn f (refSet g.mydim g.id) → ∫ x in refSet g.mydim g.id, f x =
        (M.elements.map fun e => (1 / n) ^ g.mydim * ∫ x in refSet g.mydim g.id, f (lo e + (1 / n : ℝ) • x)).sum := by
  obtain ⟨M', h2, -, -, hv⟩ := C111_mesh t c ht hc hcd h1 (by omega) _ hs n hn
  obtain rfl := Option.some.inj (hM.symm.trans (h2 fuel hV hE))
  obtain ⟨gd, gc, gi, gcor, gtol⟩ := g
  obtain rfl : gd = t.dim := hd
  obtain rfl : gi = t.id := hi
  set g : MultiLinearGeometry := ⟨t.dim, gc, t.id, gcor, gtol⟩ with hgdef
  change ∃ (lo : Nat × List Nat → Fin t.dim → ℝ) (q : Fin t.dim → ℝ), position t.dim c.id 0 0 = some (RefGeom.ext q) ∧ q ∈ refSet t.dim t.id ∧
      (∀ e ∈ M.elements, ∀ x ∈ refSet t.dim t.id, lo e + (1 / n : ℝ) • x ∈ refSet t.dim t.id) ∧
      (∀ e ∈ M.elements, ∀ z, vec t.dim ((part t.dim c.id gtol M e.2).global z) = lo e + (1 / n : ℝ) • vec t.dim z) ∧
      subVolume g c.id M = some (M.elements.map fun e => (1 / n) ^ t.dim * density g (lo e + (1 / n : ℝ) • q)).sum ∧
      ∀ f : (Fin t.dim → ℝ) → ℝ, IntegrableOn f (refSet t.dim t.id) → ∫ x in refSet t.dim t.id, f x =
        (M.elements.map fun e => (1 / n) ^ t.dim * ∫ x in refSet t.dim t.id, f (lo e + (1 / n : ℝ) • x)).sum
  have hn' : (0 : ℝ) < 1 / n := by positivity
  have hcc : IsCubeId t.dim c.id := fun k a b => hs.2.2 k a (by omega)
  have htc : IsCubeId t.dim t.id := fun k a b => hs.2.1 k a (by omega)
  have hcid : c.id < 2 ^ t.dim := by rw [← hcd]; exact hc.valid
  have hset : refSet t.dim c.id = refSet t.dim t.id := by
    ext x
    rw [cube_refSet hcc, cube_refSet htc]
  have hex : ∀ e, e ∈ M.elements → ∃ lo : Vec ℝ, ImageOf (part t.dim c.id gtol M e.2) lo (fun j r => if j = r then 1 / n else 0) ∧
      ∀ z s, s < t.dim → (part t.dim c.id gtol M e.2).global z s = lo s + 1 / n * z s := fun e he =>
    cell_placed ht hc hcd h1 (by omega) hs hn hV hE hM he gtol
  choose! lo him hglob using hex
  have hdiag : mat t.dim t.dim (fun j r => if j = r then 1 / (n : ℝ) else 0) = diagonal fun _ => (1 / n : ℝ) := by
    ext r s
    rw [diagonal_apply]
    change (if (r : Nat) = s then 1 / (n : ℝ) else 0) = _
    simp only [Fin.ext_iff]
  have hmv : ∀ x : Fin t.dim → ℝ, mat t.dim t.dim (fun j r => if j = r then 1 / (n : ℝ) else 0) *ᵥ x = (1 / n : ℝ) • x := fun x => by
    rw [hdiag]
    funext i
    rw [mulVec_diagonal]
    rfl
  have hdet : (mat t.dim t.dim (fun j r => if j = r then 1 / (n : ℝ) else 0)).det = (1 / n) ^ t.dim := by
    rw [hdiag, det_diagonal, prod_const, card_univ, Fintype.card_fin]
  have hin : ∀ e ∈ M.elements, ∀ x ∈ refSet t.dim t.id, vec t.dim (lo e) + (1 / n : ℝ) • x ∈ refSet t.dim t.id := by
    intro e he x hx
    obtain ⟨i, hi, rfl⟩ := List.getElem_of_mem he
    rw [refSet_mesh hv, Set.mem_iUnion]
    refine ⟨⟨i, hi⟩, ?_⟩
    rw [← hset] at hx
    change _ ∈ elemSet t.dim M M.elements[i].2
    rw [elem_image (him _ he) (hv.corners _ he).1]
    exact ⟨x, hx, congrArg (vec t.dim (lo _) + ·) (hmv x)⟩
  -- the centre
  have h0 : 0 < refSize t.dim c.id 0 := by rw [refSize, size_zero]; exact one_pos
  obtain ⟨q, hq, -⟩ := C21_mean (K := ℝ) t.dim c.id 0 0 hcid (Nat.zero_le _) h0
  have hqd := (C21_inside t.dim c.id 0 0 hcid (Nat.zero_le _) h0 q hq).2.1
  have hqe : RefGeom.ext (vec t.dim q) = q := by
    funext k
    by_cases hk : k < t.dim
    · exact ext_apply _ k hk
    · rw [RefGeom.ext, dif_neg hk, domain_zero hqd k (by omega)]
  have hqs : vec t.dim q ∈ refSet t.dim t.id := by
    rw [← hset, refSet, Set.mem_ofPred_eq, hqe]
    exact hqd
  have hvol : ∀ e ∈ M.elements, (mapped g c.id M e.2).volume =
      some ((1 / n) ^ t.dim * density g (vec t.dim (lo e) + (1 / n : ℝ) • vec t.dim q)) := by
    intro e he
    have hpt : vec t.dim ((part t.dim c.id gtol M e.2).global q) = vec t.dim (lo e) + (1 / n : ℝ) • vec t.dim q := by
      funext i
      exact hglob e he q i i.2
    have hli := hr _ (hin e he _ hqs)
    rw [← hpt] at hli
    obtain ⟨v, hv1, hv2⟩ := C113_cube_integrationElement t c ht hc hcd h1 (by omega) hs n hn fuel hV hE M hM g hg rfl rfl e he q
      (by rw [jt_ext hg.id_lt]; exact hli)
    have hd := density_eq hg hli
    rw [show (part g.mydim c.id g.tol M e.2).global q = (part t.dim c.id gtol M e.2).global q from rfl, hd] at hv1
    have hv1 := Option.some.inj hv1
    rw [MultiLinearGeometry.volume]
    change ((position t.dim c.id 0 0).bind fun p => ((mapped g c.id M e.2).integrationElement p).bind fun ie =>
      some (ie * referenceVolume t.dim c.id)) = _
    rw [hq, Option.bind_some, hv2, Option.bind_some, C19_volume_partial _ _ h13, (C19_simplex_cube _ _).2 hcc, mul_one, ← hv1]
    exact congrArg (fun y => some ((1 / (n : ℝ)) ^ t.dim * density g y)) hpt
  refine ⟨fun e => vec t.dim (lo e), vec t.dim q, by rw [hq, hqe], hqs, hin, fun e he z => funext fun i => hglob e he z i i.2, subVolume_eq hvol, fun f hf => ?_⟩
  rw [integral_mesh hv (Glue.size_pos t.dim c.id) hf]
  congr 1
  refine List.map_congr_left fun e he => ?_
  rw [elem_integral (him e he) (hv.corners e he).1 (by rw [hdet]; exact (pow_pos hn' _).ne') f, hdet, abs_of_pos (pow_pos hn' _), hset]
  simp only [hmv]

/-- C114, cubes refined into cubes: the volumes of the sub-elements converge to the integral of the integration element, for all corner
positions for which the geometry is regular. -/
theorem C114_cube_converges (t c : GeometryType) (ht : Regular t) (hc : Regular c) (hcd : c.dim = t.dim) (h1 : 1 ≤ t.dim) (h13 : t.dim ≤ 13)
    (hs : Supported t c .hcube) (g : MultiLinearGeometry) (hg : Legal g) (hd : g.mydim = t.dim) (hi : g.id = t.id)
    (hr : ∀ x ∈ refSet g.mydim g.id, LinearIndependent ℝ (mat g.mydim g.cdim (g.jacobianTransposed (RefGeom.ext x))).row)
    (ie : (Fin g.mydim → ℝ) → ℝ) (hie : ∀ x ∈ refSet g.mydim g.id, g.integrationElement (RefGeom.ext x) = some (ie x))
    (ε : ℝ) (hε : 0 < ε) : ∃ N, ∀ n, N ≤ n → ∀ fuel, nVertices t.dim n .hcube < fuel → nElements t.dim n .hcube < fuel →
      ∃ M V, writeMesh t c n fuel = some M ∧ subVolume g c.id M = some V ∧ |V - ∫ x in refSet g.mydim g.id, ie x| ≤ ε := by
  have htc : IsCubeId g.mydim g.id := fun k a b => by rw [hi]; exact hs.2.1 k a (by omega)
  have hcont := continuous_density hg htc
  have hiex : ∀ x ∈ refSet g.mydim g.id, ie x = density g x := fun x hx => by
    have e : vec g.mydim (RefGeom.ext x) = x := funext fun i => ext_apply x i i.2
    have := density_eq (z := RefGeom.ext x) hg (by rw [e]; exact hr x hx)
    rw [hie x hx, e] at this
    exact Option.some.inj this
  rw [setIntegral_congr_fun (measurableSet_refSet _ _) hiex]
  have huc := (isCompact_Icc (a := (0 : Fin g.mydim → ℝ)) (b := 1)).uniformContinuousOn_of_continuous hcont.continuousOn
  obtain ⟨δ, hδ, hδ'⟩ := Metric.uniformContinuousOn_iff_le.1 huc ε hε
  obtain ⟨N, hN⟩ := exists_nat_one_div_lt hδ
  have hIcc : ∀ x ∈ refSet g.mydim g.id, x ∈ Set.Icc (0 : Fin g.mydim → ℝ) 1 := fun x hx =>
    ⟨fun i => ((cube_refSet htc x).1 hx i).1, fun i => ((cube_refSet htc x).1 hx i).2⟩
  refine ⟨N + 1, fun n hn fuel hV hE => ?_⟩
  have hn0 : 0 < n := by omega
  have hn' : (0 : ℝ) < 1 / n := by positivity
  obtain ⟨M, h2, -, -, hv⟩ := C111_mesh t c ht hc hcd h1 (by omega) _ hs n hn0
  have hM := h2 fuel hV hE
  obtain ⟨lo, q, -, hq, hin, -, hsub, hint⟩ := cube_sum t c ht hc hcd h1 h13 hs n hn0 fuel hV hE M hM g hg hd hi hr
  refine ⟨M, _, hM, hsub, ?_⟩
  rw [hint _ (integrableOn_refSet hcont)]
  have hone := hint (fun _ => 1) (integrableOn_refSet continuous_const)
  have hvol : ∫ _ in refSet g.mydim g.id, (1 : ℝ) = 1 := by rw [← real_volume_eq, cube_volume htc]
  rw [hvol, mul_one] at hone
  have hclose := sum_close (h := fun _ => (1 / (n : ℝ)) ^ g.mydim * ε) M.elements (f := fun e => (1 / n) ^ g.mydim * density g (lo e + (1 / n : ℝ) • q))
    (g := fun e => (1 / n) ^ g.mydim * ∫ x in refSet g.mydim g.id, density g (lo e + (1 / n : ℝ) • x)) fun e he => by
      rw [← mul_sub, abs_mul, abs_of_pos (pow_pos hn' _)]
      refine mul_le_mul_of_nonneg_left ?_ (pow_pos hn' _).le
      have hc' : Continuous fun x => density g (lo e + (1 / n : ℝ) • x) := hcont.comp (by fun_prop)
      have e1 : density g (lo e + (1 / n : ℝ) • q) = ∫ _ in refSet g.mydim g.id, density g (lo e + (1 / n : ℝ) • q) := by
        rw [setIntegral_const, cube_volume htc, one_smul]
      rw [e1, ← integral_sub (integrableOn_refSet continuous_const) (integrableOn_refSet hc'), ← Real.norm_eq_abs]
      have hb := norm_setIntegral_le_of_norm_le_const (μ := volume) (s := refSet g.mydim g.id) (C := ε)
        (f := fun x => density g (lo e + (1 / n : ℝ) • q) - density g (lo e + (1 / n : ℝ) • x)) (by
          have e := C19_exact g.mydim g.id
          change volume (refSet g.mydim g.id) = _ at e
          rw [e]; exact ENNReal.ofReal_lt_top) fun x hx => by
          rw [← dist_eq_norm]
          refine hδ' _ (hIcc _ (hin e he q hq)) _ (hIcc _ (hin e he x hx)) ?_
          rw [dist_pi_le_iff hδ.le]
          intro i
          have hxi := (cube_refSet htc x).1 hx i
          have hqi := (cube_refSet htc q).1 hq i
          have : |q i - x i| ≤ 1 := abs_le.2 ⟨by linarith [hxi.2, hqi.1], by linarith [hxi.1, hqi.2]⟩
          rw [Real.dist_eq]
          change |lo e i + 1 / (n : ℝ) * q i - (lo e i + 1 / n * x i)| ≤ δ
          rw [add_sub_add_left_eq_sub, ← mul_sub, abs_mul, abs_of_pos hn']
          have h3 : (1 : ℝ) / n ≤ 1 / (N + 1) := one_div_le_one_div_of_le (by positivity) (by exact_mod_cast hn)
          nlinarith
      rw [cube_volume htc, mul_one] at hb
      exact hb
  refine hclose.trans (le_of_eq ?_)
  rw [List.sum_map_mul_right]
  have e2 : (List.map (fun _ => (1 / (n : ℝ)) ^ g.mydim) M.elements).sum = 1 := by
    exact hone.symm
  rw [e2, one_mul]

/-- C114, cubes refined into cubes, same dimension: the volumes converge to the measure of the image. -/
theorem C114_cube_measure (t c : GeometryType) (ht : Regular t) (hc : Regular c) (hcd : c.dim = t.dim) (h1 : 1 ≤ t.dim) (h13 : t.dim ≤ 13)
    (hs : Supported t c .hcube) (g : MultiLinearGeometry) (hg : Legal g) (hd : g.mydim = t.dim) (hi : g.id = t.id) (hcg : g.cdim = g.mydim)
    (hinj : Set.InjOn (multiLinearMap g) (refSet g.mydim g.id))
    (hjit : ∀ x ∈ refSet g.mydim g.id, (g.jacobianInverseTransposed (RefGeom.ext x)).isSome) (ε : ℝ) (hε : 0 < ε) :
    ∃ N, ∀ n, N ≤ n → ∀ fuel, nVertices t.dim n .hcube < fuel → nElements t.dim n .hcube < fuel → ∃ M V, writeMesh t c n fuel = some M ∧
      subVolume g c.id M = some V ∧ |V - volume.real (multiLinearMap g '' refSet g.mydim g.id)| ≤ ε := by
  have htc : IsCubeId g.mydim g.id := fun k a b => by rw [hi]; exact hs.2.1 k a (by omega)
  have hli := fun x hx => li_of_jit hcg (hjit x hx)
  have hie := fun x hx => ie_of_li hcg (hli x hx)
  have := C114_cube_converges t c ht hc hcd h1 h13 hs g hg hd hi (fun x hx => by rw [hcg]; exact hli x hx) _ hie ε hε
  rw [real_volume_eq, C72_multilinear_integral g hg htc hcg hinj hjit _ hie]
  simpa only [one_mul] using this

/-! ### quadrilaterals in the plane -/

theorem plane_ie {g : MultiLinearGeometry} (hg : Legal g) (h2 : g.mydim = 2) (hcd : g.cdim = 2) (z : Vec ℝ) :
    g.integrationElement z = some (density g (vec g.mydim z)) := by
  rw [MultiLinearGeometry.integrationElement, C27_sqrtDetAAT_partial _ _ _ (Or.inr (Or.inr (Or.inl ⟨hcd, h2⟩))), density, jt_ext hg.id_lt z]

theorem plane_volume (g : MultiLinearGeometry) (hg : Legal g) (h2 : g.mydim = 2) (hc : IsCubeId g.mydim g.id) (hcd : g.cdim = g.mydim)
    (hne : ∀ x ∈ refSet g.mydim g.id, density g x ≠ 0) : g.volume = some (∫ x in refSet g.mydim g.id, density g x) := by
  have hder := multiLinearMap_hasFDerivAt hg hc hcd
  have hdl := det_linear g h2
  have hdet := fun x => eval_jacPoly (mlPoly_eval hg hc) (hder x)
  have hden : ∀ x, density g x = |((mat g.mydim g.mydim (g.jacobianTransposed (RefGeom.ext x)))ᵀ).det| := fun x => by
    rw [density, hcd, sqrt_det_square]
  have hne' : ∀ x ∈ refSet g.mydim g.id, ((mat g.mydim g.mydim (g.jacobianTransposed (RefGeom.ext x)))ᵀ).det ≠ 0 := fun x hx => by
    have := hne x hx
    rw [hden] at this
    exact abs_ne_zero.1 this
  obtain ⟨s, hs⟩ : ∃ s : ℝ, ∀ x ∈ refSet g.mydim g.id, density g x = s * (jacPoly (mlPoly g)).det.eval x := by
    simp only [hden]
    simp only [← hdet] at hne' ⊢
    have hcont : Continuous fun x => (jacPoly (mlPoly g)).det.eval x :=
      continuous_iff_continuousAt.2 fun x => (hasFDerivAt_eval _ x).continuousAt
    rcases sign_const hcont hne' with hs | hs
    · exact ⟨1, fun x hx => by rw [hs x hx, one_mul]⟩
    · exact ⟨-1, fun x hx => by rw [hs x hx, neg_one_mul]⟩
  have hcen : position (K := ℝ) g.mydim g.id 0 0 = some (RefGeom.ext fun _ : Fin g.mydim => (1 / 2 : ℝ)) ∧
      (fun _ : Fin g.mydim => (1 / 2 : ℝ)) ∈ refSet g.mydim g.id ∧ referenceVolume (K := ℝ) g.mydim g.id = 1 ∧
      ∫ x in refSet g.mydim g.id, (jacPoly (mlPoly g)).det.eval x = (jacPoly (mlPoly g)).det.eval fun _ => 1 / 2 := by
    have hid := hg.id_lt
    generalize (jacPoly (mlPoly g)).det = Q at hdl
    clear hne hne' hden hdet hder hs hg hcd
    obtain ⟨m, cd, id, cs, tol⟩ := g
    obtain rfl : m = 2 := h2
    simp only at hc hid hdl Q ⊢
    refine ⟨square_center hid hc, (cube_refSet hc _).2 fun i => by norm_num, ?_, midpoint_square hc Q hdl⟩
    rw [C19_volume_partial 2 id (by norm_num), (C19_simplex_cube 2 id).2 hc]
  obtain ⟨h3, h4, h5, h6⟩ := hcen
  have e : vec g.mydim (RefGeom.ext fun _ : Fin g.mydim => (1 / 2 : ℝ)) = fun _ => 1 / 2 := funext fun i => ext_apply _ i i.2
  rw [MultiLinearGeometry.volume, h3]
  change (g.integrationElement _).bind _ = _
  rw [plane_ie hg h2 (hcd.trans h2), Option.bind_some, h5, mul_one, e, hs _ h4, setIntegral_congr_fun (measurableSet_refSet _ _) hs,
    integral_const_mul, h6]
  rfl

/-- C114, quadrilaterals in the plane refined into quadrilaterals: the volumes add up although the geometry is not affine. -/
theorem C114_quadrilateral (t c : GeometryType) (ht : Regular t) (hc : Regular c) (hcd : c.dim = t.dim) (h2 : t.dim = 2)
    (hs : Supported t c .hcube) (n : Nat) (hn : 0 < n) (fuel : Nat) (hV : nVertices t.dim n .hcube < fuel)
    (hE : nElements t.dim n .hcube < fuel) (M : Mesh) (hM : writeMesh t c n fuel = some M) (g : MultiLinearGeometry) (hg : Legal g)
    (hd : g.mydim = t.dim) (hi : g.id = t.id) (hcg : g.cdim = g.mydim)
    (hr : ∀ x ∈ refSet g.mydim g.id, LinearIndependent ℝ (mat g.mydim g.cdim (g.jacobianTransposed (RefGeom.ext x))).row) :
    (subVolume g c.id M).isSome ∧ subVolume g c.id M = g.volume := by
  have h1 : 1 ≤ t.dim := by omega
  have hn' : (0 : ℝ) < 1 / n := by positivity
  have htc : IsCubeId g.mydim g.id := fun k a b => by rw [hi]; exact hs.2.1 k a (by omega)
  have hcc : IsCubeId g.mydim c.id := fun k a b => hs.2.2 k a (by omega)
  have hcid : c.id < 2 ^ g.mydim := by rw [hd, ← hcd]; exact hc.valid
  have hset : refSet g.mydim c.id = refSet g.mydim g.id := by
    ext x
    rw [cube_refSet hcc, cube_refSet htc]
  have hne : ∀ x ∈ refSet g.mydim g.id, density g x ≠ 0 := fun x hx => by
    have h3 := hr x hx
    rw [hcg] at h3
    rw [density, hcg, sqrt_det_square]
    exact abs_ne_zero.2 (det_ne_of_li h3)
  obtain ⟨lo, q, -, hq, hin, hpart, -, hint⟩ := cube_sum t c ht hc hcd h1 (by omega) hs n hn fuel hV hE M hM g hg hd hi hr
  have hden : ∀ e ∈ M.elements, ∀ x ∈ refSet g.mydim g.id, density (mapped g c.id M e.2) x =
      (1 / n) ^ g.mydim * density g (lo e + (1 / n : ℝ) • x) := by
    intro e he x hx
    have ev : vec g.mydim (RefGeom.ext x) = x := funext fun i => ext_apply x i i.2
    have hp := hpart e he (RefGeom.ext x)
    rw [ev] at hp
    have hli := hr _ (hin e he x hx)
    rw [← hp] at hli
    obtain ⟨v, hv1, hv2⟩ := C113_cube_integrationElement t c ht hc hcd h1 (by omega) hs n hn fuel hV hE M hM g hg hd hi e he (RefGeom.ext x)
      (by rw [jt_ext hg.id_lt]; exact hli)
    rw [density_eq hg hli] at hv1
    rw [plane_ie (g := mapped g c.id M e.2) ⟨hcid, hg.tol_pos, hg.tol_lt⟩ (hd.trans h2) (hcg.trans (hd.trans h2))] at hv2
    have h4 := Option.some.inj hv2
    rw [← Option.some.inj hv1, hp, ← hd] at h4
    rw [← h4]
    exact congrArg (density (mapped g c.id M e.2)) ev.symm
  have hvol : ∀ e ∈ M.elements, (mapped g c.id M e.2).volume = some ((1 / n) ^ g.mydim * ∫ x in refSet g.mydim g.id, density g (lo e + (1 / n : ℝ) • x)) := by
    intro e he
    have h5 := plane_volume (mapped g c.id M e.2) ⟨hcid, hg.tol_pos, hg.tol_lt⟩ (hd.trans h2) hcc hcg (fun x hx => by
      have hx' : x ∈ refSet g.mydim g.id := hset ▸ hx
      rw [hden e he x hx']
      exact mul_ne_zero (pow_pos hn' _).ne' (hne _ (hin e he x hx')))
    rw [h5]
    congr 1
    rw [← integral_const_mul]
    change ∫ x in refSet g.mydim c.id, _ = _
    rw [hset]
    exact setIntegral_congr_fun (measurableSet_refSet _ _) fun x hx => hden e he x hx
  have : subVolume g c.id M = g.volume := by
    rw [subVolume_eq hvol, plane_volume g hg (hd.trans h2) htc hcg hne, hint _ (integrableOn_refSet (continuous_density hg htc))]
  rw [this, plane_volume g hg (hd.trans h2) htc hcg hne]
  exact ⟨rfl, rfl⟩

/-- the hypotheses of `C114_affine`: a square of edge length 2 split into 18 triangles -/
example : ∃ (g : MultiLinearGeometry) (A : Mat ℝ), g.mydim = 2 ∧ g.id = 3 ∧ Legal g ∧ ImageOf g 0 A ∧ FullRank g A ∧ g.tol * (3 : Nat) < 1 ∧
    Supported ⟨2, false, 3⟩ ⟨2, false, 0⟩ .hcubeTriangulation ∧ nElements 2 3 .hcubeTriangulation = 18 ∧
    ∃ p q, position 2 3 0 0 = some p ∧ position 2 0 0 0 = some q ∧ checkInside 2 3 p (-g.tol) 1 = true ∧ checkInside 2 0 q (-g.tol) 1 = true := by
  obtain ⟨q, hq, hm⟩ := C21_mean (K := ℝ) 2 0 0 0 (by norm_num) (by norm_num) (by rw [refSize, size_zero]; exact one_pos)
  have hqv : ∀ k < 2, 3 * q k = 1 := by
    intro k hk
    have := hm k
    rw [show refSize3 2 0 0 0 2 = 3 by decide, show subEntities 2 0 0 0 2 = [0, 1, 2] by decide] at this
    have hc := C17_simplex (K := ℝ) 2 0 (by intro k h1 h2; interval_cases k; rfl)
    interval_cases k <;> simp [RefGeom.corner, hc, List.range_succ] at this <;> linarith
  refine ⟨⟨2, 2, 3, fun k j => 2 * (referenceCorners (K := ℝ) 2 3).getD k 0 j, 1 / 10⟩, fun i j => if i = j then 2 else 0, rfl, rfl,
    ⟨by decide, by norm_num, by norm_num⟩, ?_, ?_, by norm_num, square_supported, by decide, _, q, square_center (by decide) square_cube, hq, ?_, ?_⟩
  · intro k x hk j hj
    have hj : j < 2 := hj
    change 2 * ((referenceCorners (K := ℝ) 2 3).getD k 0) j = 0 + ∑ r ∈ range 2, (if j = r then (2 : ℝ) else 0) * x r
    have hk : (referenceCorners (K := ℝ) 2 3)[k]? = some x := hk
    rw [List.getD_eq_getElem?_getD, hk, Option.getD_some]
    interval_cases j <;> simp [sum_range_succ]
  · have : (mat 2 2 fun i j => if i = j then (2 : ℝ) else 0)ᵀ.det ≠ 0 := by
      rw [det_fin_two]
      simp [mat]
    exact Matrix.linearIndependent_rows_iff_isUnit.2 ((Matrix.isUnit_iff_isUnit_det _).2 (isUnit_iff_ne_zero.2 this))
  · rw [RefGeom.checkInside_iff (rep_topoOf _ _), show topoOf 2 3 = .prism (.prism .pt) by decide]
    refine ⟨?_, ?_, ?_, ?_, trivial⟩ <;> norm_num [RefGeom.ext, Topo.dim]
  · rw [RefGeom.checkInside_iff (rep_topoOf _ _), show topoOf 2 0 = .pyr (.prism .pt) by decide]
    have h0 := hqv 0 (by norm_num)
    have h1 := hqv 1 (by norm_num)
    refine ⟨?_, ?_, ?_, ?_, trivial⟩ <;> simp only [Topo.dim] <;> linarith

/-- the hypotheses of `C114_quadrilateral` and `C114_cube_measure`: a trapezoid that is not a parallelogram, 9 sub-elements -/
example : ∃ g : MultiLinearGeometry, g.mydim = 2 ∧ g.id = 3 ∧ g.cdim = g.mydim ∧ Legal g ∧
    Supported ⟨2, false, 3⟩ ⟨2, false, 3⟩ .hcube ∧ nElements 2 3 .hcube = 9 ∧ Set.InjOn (multiLinearMap g) (refSet g.mydim g.id) ∧
    (∀ x ∈ refSet g.mydim g.id, (g.jacobianInverseTransposed (RefGeom.ext x)).isSome) ∧
    ∀ x ∈ refSet g.mydim g.id, LinearIndependent ℝ (mat g.mydim g.cdim (g.jacobianTransposed (RefGeom.ext x))).row := by
  obtain ⟨jit, ie, h1, h2, h3, h4, h5, h6, h7, h8⟩ := trapezoid_hyps
  have h : CubeShape ⟨2, false, 3⟩ := fun k h1 h2 => by
    obtain rfl : k = 1 := by change k < 2 at h2; omega
    rfl
  exact ⟨trapezoid, rfl, rfl, rfl, h1, ⟨le_rfl, h, h⟩, by decide, h6, fun x hx => by rw [h7 x hx]; rfl,
    fun x hx => li_of_jit rfl (by rw [h7 x hx]; rfl)⟩

/-! ### the counterexample -/

/-- what the property demands: the volumes of the sub-elements add up to the volume of the element -/
def C114_full : Prop := ∀ (t c : GeometryType), Regular t → Regular c → c.dim = t.dim → 1 ≤ t.dim → t.dim ≤ 13 →
  ∀ imp, Supported t c imp → ∀ (n : Nat), 0 < n → ∀ (fuel : Nat), nVertices t.dim n imp < fuel → nElements t.dim n imp < fuel →
  ∀ (M : Mesh), writeMesh t c n fuel = some M → ∀ (g : MultiLinearGeometry), Legal g → g.mydim = t.dim → g.id = t.id →
  (imp ≠ .hcube → g.tol * n < 1) →
  (∀ x ∈ refSet g.mydim g.id, LinearIndependent ℝ (mat g.mydim g.cdim (g.jacobianTransposed (RefGeom.ext x))).row) →
  subVolume g c.id M = g.volume

/-- C114: the frustum of C75.  Its `volume()` is 9/4, the volumes of its sub-elements converge to 7/3. -/
theorem C114_counterexample : ¬ C114_full := by
  intro h
  have ht : Regular ⟨3, false, 7⟩ := by constructor <;> decide
  have hcs : CubeShape ⟨3, false, 7⟩ := fun k h1 h2 => by
    change k < 3 at h2
    interval_cases k <;> rfl
  have hs : Supported ⟨3, false, 7⟩ ⟨3, false, 7⟩ .hcube := ⟨by decide, hcs, hcs⟩
  obtain ⟨-, hv, hm⟩ := C75_multilinear_counterexample
  obtain ⟨N, hN⟩ := C114_cube_measure _ _ ht ht rfl (by decide) (by decide) hs frustum frustum_legal rfl rfl rfl frustum_inj (fun x hx => by
    obtain ⟨R, h, _⟩ := C26_rightInvA 3 3 _ (le_refl _) (frustum_li hx)
    have : frustum.jacobianInverseTransposed (RefGeom.ext x) = _ := h
    rw [this]; rfl) (1 / 100) (by norm_num)
  obtain ⟨M, V, h1, h2, h3⟩ := hN (N + 1) (by omega) (nVertices 3 (N + 1) .hcube + nElements 3 (N + 1) .hcube + 1) (by change nVertices 3 _ _ < _; omega)
    (by change nElements 3 _ _ < _; omega)
  have h4 := h _ _ ht ht rfl (by decide) (by decide) _ hs (N + 1) (by omega) _ (by change nVertices 3 _ _ < _; omega)
    (by change nElements 3 _ _ < _; omega) M h1 frustum frustum_legal rfl rfl (fun h => absurd rfl h) fun x hx => frustum_li hx
  rw [h2, hv] at h4
  rw [hm, Option.some.inj h4] at h3
  norm_num [abs_le] at h3

end Verif.Image
