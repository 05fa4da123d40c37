import Verif.MultiLinear.FaceLemmas
import Verif.MultiLinear.AffineLemmas
import Verif.MultiLinear.Deriv

/-! Properties C31, C32, C33 and C57: the map, its derivative, `affine()`, restriction to sub-entities. -/

namespace Verif.MultiLinear

open Verif.RefGeom Verif.MatHelp Verif.RefTopo Verif.Typ Finset
open MultiLinearGeometry

noncomputable section

/-- the point passes the inside test of the reference element with the tolerance of the class as safety margin.  The
map treats points closer than that to the apex of a pyramid in a different way. -/
def Inner (g : MultiLinearGeometry) (x : Vec ℝ) : Prop := checkInside g.mydim g.id x (-g.tol) 1 = true

/-- the corners are the images of the reference corners under `x ↦ a + M x` -/
def ImageOf (g : MultiLinearGeometry) (a : Vec ℝ) (M : Mat ℝ) : Prop :=
  ∀ k p, (referenceCorners (K := ℝ) g.mydim g.id)[k]? = some p →
    ∀ j, j < g.cdim → g.corners_ k j = a j + ∑ r ∈ range g.mydim, M j r * p r

/-- legal arguments: topology id of the dimension, tolerance as in the traits class -/
structure Legal (g : MultiLinearGeometry) : Prop where
  id_lt : g.id < 2 ^ g.mydim
  tol_pos : 0 < g.tol
  tol_lt : g.tol < 1

theorem away_of_inner {g : MultiLinearGeometry} (hg : Legal g) {x : Vec ℝ} (hx : Inner g x) :
    Away g.tol (topoOf g.mydim g.id) x := away_of_checkInside hg.tol_pos.le (rep_topoOf _ _) hx

theorem topo_dim (g : MultiLinearGeometry) : (topoOf g.mydim g.id).dim = g.mydim := (rep_topoOf _ _).dim_eq

theorem exact_of_imageOf {g : MultiLinearGeometry} {a : Vec ℝ} {M : Mat ℝ} (h : ImageOf g a M) (j : Nat)
    (hj : j < g.cdim) : Exact (topoOf g.mydim g.id) (fun k => g.corners_ k j) (a j) (fun r => M j r) := by
  intro k p hp
  rw [← cornersOf_eq (rep_topoOf _ _)] at hp
  rw [topo_dim]
  exact h k p hp j hj

theorem imageOf_of_exact {g : MultiLinearGeometry} {a : Vec ℝ} {M : Mat ℝ}
    (h : ∀ j, j < g.cdim → Exact (topoOf g.mydim g.id) (fun k => g.corners_ k j) (a j) (fun r => M j r)) :
    ImageOf g a M := by
  intro k p hp j hj
  rw [cornersOf_eq (rep_topoOf _ _)] at hp
  have := h j hj k p hp
  rw [topo_dim] at this
  exact this

/-! ### C31 -/

/-- C31: `global` of the reference corner `i` is `corner(i)`, for every topology. -/
theorem C31_interpolation (g : MultiLinearGeometry) (hg : Legal g) (i : Nat) (hi : i < g.corners) :
    ∃ p, (referenceCorners (K := ℝ) g.mydim g.id)[i]? = some p ∧ g.corner i = some (g.global p) := by
  have hl := C17_count (K := ℝ) g.mydim g.id
  have hi' : i < (referenceCorners (K := ℝ) g.mydim g.id).length := by rw [hl]; exact hi
  refine ⟨_, List.getElem?_eq_getElem hi', ?_⟩
  rw [MultiLinearGeometry.corner, if_pos hi]
  congr 1
  funext j
  rw [global_eq g hg.id_lt]
  refine (ML_corner hg.tol_pos.le hg.tol_lt _ (fun k => g.corners_ k j) i _ ?_).symm
  rw [← cornersOf_eq (rep_topoOf _ _)]
  exact List.getElem?_eq_getElem hi'

/-- C31: if the corners are images under an affine map then `global` is that map at all points of the element that
keep the margin. -/
theorem C31_affine (g : MultiLinearGeometry) (hg : Legal g) (a : Vec ℝ) (M : Mat ℝ) (h : ImageOf g a M) (x : Vec ℝ)
    (hx : Inner g x) (j : Nat) (hj : j < g.cdim) : g.global x j = a j + ∑ r ∈ range g.mydim, M j r * x r := by
  rw [global_eq g hg.id_lt, ML_affine hg.tol_pos.le _ _ _ _ x (exact_of_imageOf h j hj) (away_of_inner hg hx), topo_dim]

/-- C31: at the other points of the closed element the error is at most the tolerance times the largest coordinate. -/
theorem C31_affine_closed (g : MultiLinearGeometry) (hg : Legal g) (a : Vec ℝ) (M : Mat ℝ) (h : ImageOf g a M) (C : ℝ)
    (hC : ∀ k j, k < g.corners → j < g.cdim → |g.corners_ k j| ≤ C) (x : Vec ℝ) (hx : x ∈ domain ℝ g.mydim g.id)
    (hx0 : ∀ k, g.mydim ≤ k → x k = 0) (j : Nat) (hj : j < g.cdim) :
    |g.global x j - (a j + ∑ r ∈ range g.mydim, M j r * x r)| ≤ g.tol * C := by
  have hsz : g.corners = nv (topoOf g.mydim g.id) := by
    rw [corners, refSize, size_eq (rep_topoOf _ _) _ (le_refl _), nv, topo_dim]
  have hdom := (mem_domain (rep_topoOf _ _) x hx0).1 hx
  have hC0 : 0 ≤ C := by
    refine (abs_nonneg _).trans (hC 0 j ?_ hj)
    rw [hsz]; exact Topo.sz_pos _ _ (le_refl _)
  have := ML_affine_error hg.tol_pos.le _ (fun k => g.corners_ k j) (a j) C (fun r => M j r) x
    (exact_of_imageOf h j hj) (fun k hk => hC k j (by rw [hsz]; exact hk) hj) hC0 hdom
  rw [topo_dim] at this
  rwa [global_eq g hg.id_lt]

theorem topoOf_cube : ∀ (d id : Nat), IsCubeId d id → topoOf d id = Topo.cube d
  | 0, _, _ => rfl
  | d + 1, i, h => by
    have hc : d = 0 ∨ i.testBit d = true := by
      rcases Nat.eq_zero_or_pos d with h0 | h0
      · exact Or.inl h0
      · exact Or.inr (h d h0 (by omega))
    rw [topoOf, if_pos hc, topoOf_cube d _ ?_, Topo.cube]
    intro k h1 h2
    rw [Nat.testBit_mod_two_pow, h k h1 (by omega)]; simp [h2]

theorem away_cube {tol : ℝ} : ∀ (d : Nat) (z : Vec ℝ), Away tol (Topo.cube d) z
  | 0, _ => trivial
  | d + 1, z => away_cube d z

theorem dim_cube : ∀ d, (Topo.cube d).dim = d
  | 0 => rfl
  | d + 1 => by rw [Topo.cube, Topo.dim, dim_cube d]

theorem nv_cube : ∀ d, nv (Topo.cube d) = 2 ^ d
  | 0 => rfl
  | d + 1 => by rw [Topo.cube, nv_prism, nv_cube d]; ring

/-- C31: on cubes this holds at every point, inside or outside -/
theorem C31_affine_cube (g : MultiLinearGeometry) (hg : Legal g) (hc : IsCubeId g.mydim g.id) (a : Vec ℝ) (M : Mat ℝ)
    (h : ImageOf g a M) (x : Vec ℝ) (j : Nat) (hj : j < g.cdim) :
    g.global x j = a j + ∑ r ∈ range g.mydim, M j r * x r := by
  rw [global_eq g hg.id_lt, ML_affine hg.tol_pos.le _ _ _ _ x (exact_of_imageOf h j hj)
    (by rw [topoOf_cube _ _ hc]; exact away_cube _ _), topo_dim]

theorem ML_cube {tol : ℝ} : ∀ (d : Nat) (c : Nat → ℝ) (z : Vec ℝ), ML tol (Topo.cube d) c z =
    ∑ k ∈ range (2 ^ d), (∏ r ∈ range d, if k.testBit r then z r else 1 - z r) * c k
  | 0, c, z => by simp [Topo.cube, ML]
  | d + 1, c, z => by
    rw [Topo.cube, ML, ML_cube d, ML_cube d, dim_cube, nv_cube, pow_succ, mul_two, sum_range_add, mul_sum, mul_sum]
    congr 1
    · refine sum_congr rfl fun k hk => ?_
      have hb : k.testBit d = false := Nat.testBit_lt_two_pow (mem_range.1 hk)
      rw [prod_range_succ, hb]
      simp only [Bool.false_eq_true, if_false]; ring
    · refine sum_congr rfl fun k hk => ?_
      have hb : (2 ^ d + k).testBit d = true := by
        rw [Nat.testBit_two_pow_add_eq, Nat.testBit_lt_two_pow (mem_range.1 hk)]; rfl
      have hb2 : ∀ r ∈ range d, (if (2 ^ d + k).testBit r then z r else 1 - z r) = if k.testBit r then z r else 1 - z r := by
        intro r hr
        rw [Nat.testBit_two_pow_add_gt (mem_range.1 hr)]
      rw [prod_range_succ, hb, prod_congr rfl hb2]
      simp only [if_true]; ring

/-- C31: on cubes `global` is the tensor product interpolation, with the bits of the corner number selecting the
factors -/
theorem C31_cube_formula (g : MultiLinearGeometry) (hg : Legal g) (hc : IsCubeId g.mydim g.id) (x : Vec ℝ) (j : Nat) :
    g.global x j = ∑ k ∈ range (2 ^ g.mydim), (∏ r ∈ range g.mydim, if k.testBit r then x r else 1 - x r) * g.corners_ k j := by
  rw [global_eq g hg.id_lt, topoOf_cube _ _ hc, ML_cube]

/-- every choice of simplex corners is an affine image -/
theorem imageOf_simplex (g : MultiLinearGeometry) (hs : IsSimplexId g.mydim g.id) :
    ImageOf g (g.corners_ 0) (fun j r => g.corners_ (r + 1) j - g.corners_ 0 j) := by
  intro k p hp j _
  rw [C17_simplex _ _ hs] at hp
  cases k with
  | zero =>
    have : p = fun _ => 0 := by simpa using hp.symm
    subst this
    simp
  | succ i =>
    rw [List.getElem?_cons_succ, List.getElem?_map] at hp
    obtain ⟨r, hr, rfl⟩ := Option.map_eq_some_iff.1 hp
    have hi : i < g.mydim := by
      have := (List.getElem?_eq_some_iff.1 hr).1
      simpa using this
    rw [List.getElem?_range hi] at hr
    obtain rfl := Option.some.inj hr
    rw [sum_eq_single_of_mem i (mem_range.2 hi) (fun b _ hb => by simp [hb])]
    simp

/-- C31: on simplices `global` is the barycentric combination of the corners -/
theorem C31_simplex_formula (g : MultiLinearGeometry) (hg : Legal g) (hs : IsSimplexId g.mydim g.id) (x : Vec ℝ)
    (hx : Inner g x) (j : Nat) (hj : j < g.cdim) :
    g.global x j = (1 - ∑ r ∈ range g.mydim, x r) * g.corners_ 0 j + ∑ r ∈ range g.mydim, x r * g.corners_ (r + 1) j := by
  rw [C31_affine g hg _ _ (imageOf_simplex g hs) x hx j hj]
  have : ∑ r ∈ range g.mydim, (g.corners_ (r + 1) j - g.corners_ 0 j) * x r =
      ∑ r ∈ range g.mydim, x r * g.corners_ (r + 1) j - g.corners_ 0 j * ∑ r ∈ range g.mydim, x r := by
    rw [mul_sum, ← sum_sub_distrib]; exact sum_congr rfl fun r _ => by ring
  rw [this]; ring

/-- a skew pyramid in space: apex above a corner of the square -/
def samplePyramid : MultiLinearGeometry where
  mydim := 3
  cdim := 3
  id := 3
  corners_ := fun k j =>
    if k = 1 then (if j = 0 then 2 else 0) else if k = 2 then (if j = 1 then 1 else 0)
    else if k = 3 then (if j = 0 then 2 else if j = 1 then 1 else 0) else if k = 4 then (if j = 2 then 3 else 0) else 0
  tol := 1 / 1000

theorem samplePyramid_legal : Legal samplePyramid := by
  constructor <;> norm_num [samplePyramid]

example : Legal samplePyramid ∧ 4 < samplePyramid.corners := by
  exact ⟨samplePyramid_legal, by decide⟩

example : Inner samplePyramid (fun k => if k < 3 then 1 / 4 else 0) := by
  rw [Inner, checkInside_iff (rep_topoOf _ _)]
  have : topoOf samplePyramid.mydim samplePyramid.id = .pyr (.prism (.prism .pt)) := by decide
  rw [this]
  refine ⟨?_, ?_, ?_, ?_, ?_, ?_, trivial⟩ <;> norm_num [samplePyramid, Topo.dim]

example : ImageOf samplePyramid (fun _ => 0) (fun j r => if j = 0 ∧ r = 0 then 2 else if j = 1 ∧ r = 1 then 1
    else if j = 2 ∧ r = 2 then 3 else 0) := by
  intro k p hp j hj
  have hj : j < 3 := hj
  have hr : cornersOf (K := ℝ) (topoOf 3 3) = _ := rfl
  rw [cornersOf_eq (rep_topoOf _ _)] at hp
  have ht : topoOf samplePyramid.mydim samplePyramid.id = .pyr (.prism (.prism .pt)) := by decide
  rw [ht, cornersOf_pyr, cornersOf_prism, cornersOf_prism] at hp
  have hk : k < 5 := by
    have := (List.getElem?_eq_some_iff.1 hp).1
    simpa [cornersOf, length_faces, Topo.sz, Topo.dim] using this
  have h0 : cornersOf (K := ℝ) .pt = [fun _ => 0] := rfl
  rw [h0] at hp
  have hp' : p = [fun _ => 0, setV (fun _ => 0) 0 1, setV (fun _ => 0) 1 1, setV (setV (fun _ => 0) 0 1) 1 1,
      setV (fun _ => (0 : ℝ)) 2 1].getD k 0 := by
    interval_cases k <;> exact (Option.some.inj hp).symm
  rw [hp']
  interval_cases k <;> interval_cases j <;> simp [samplePyramid, sum_range_succ, setV]

/-! ### C57 -/

/-- C57: restricted to the sub-entity `(i,c)`, through the embedding of the reference element, the map is the
multilinear map of the sub-entity's own type and corners. -/
theorem C57_restriction (g : MultiLinearGeometry) (hg : Legal g) (hd : g.mydim ≤ 31) (i c : Nat) (hc : c ≤ g.mydim)
    (hi : i < refSize g.mydim g.id c) (e : Vec ℝ × Mat ℝ)
    (he : (referenceEmbeddings (K := ℝ) g.mydim g.id c)[i]? = some e) (g' : MultiLinearGeometry)
    (hdim : g'.mydim = g.mydim - c) (hid : g'.id = (refType g.mydim g.id i c).id) (htol : g'.tol = g.tol)
    (hcor : ∀ v k, v < g'.corners → subEntity g.mydim g.id i c v g.mydim = some k → g'.corners_ v = g.corners_ k)
    (x : Vec ℝ) (hx : Inner g' x) : g.global (embed (g.mydim - c) e x) = g'.global x := by
  have hr := rep_topoOf g.mydim g.id
  obtain ⟨f, rfl, rfl⟩ := exists_face hr hc hi
  have hfd := Face.codim_add_dim f
  rw [hr.dim_eq] at hfd
  rw [embedding_face hr f] at he
  obtain rfl := Option.some.inj he
  have hrs := rep_sub hr hg.id_lt f
  have hT := refType_eq g.mydim g.id f.idx f.codim hd hg.id_lt hc
  have hid' : g'.id = subTopologyId g.mydim g.id f.codim f.idx := by rw [hid, hT]
  have hlt : g'.id < 2 ^ g'.mydim := by
    rw [hid', hdim]; exact subTopologyId_lt g.mydim g.id f.codim f.idx hg.id_lt hc
  rw [← hdim, ← hid'] at hrs
  have hx1 : Away g'.tol f.shape x := away_of_checkInside (by rw [htol]; exact hg.tol_pos.le) hrs hx
  have hx2 : Away g'.tol (topoOf g'.mydim g'.id) x :=
    away_of_checkInside (by rw [htol]; exact hg.tol_pos.le) (rep_topoOf _ _) hx
  funext j
  rw [global_eq g hg.id_lt, global_eq g' hlt, ← (ML_rep hrs (rep_topoOf _ _) hx1 hx2).2, htol]
  have hdc : g.mydim - f.codim = f.shape.dim := by omega
  rw [hdc]
  refine ML_face hg.tol_pos.le hg.tol_lt f _ _ x fun w hw => ?_
  have hsub := subEntity_eq hr hg.id_lt f w
  rw [show f.codim + w.codim = g.mydim by omega] at hsub
  rw [hcor w.idx _ ?_ hsub]
  rw [corners, refSize, size_eq hrs _ (le_refl _), hdim, hdc, ← hw]
  exact Face.idx_lt w

/-- the triangle over the first edge of the square, a face of the sample pyramid -/
def sampleFace : MultiLinearGeometry where
  mydim := 2
  cdim := 3
  id := (refType 3 3 3 1).id
  corners_ := fun v => samplePyramid.corners_ ([0, 1, 4].getD v 0)
  tol := 1 / 1000

example : ∃ k, subEntity 3 3 3 1 2 3 = some k ∧ sampleFace.corners_ 2 = samplePyramid.corners_ k ∧ 2 < sampleFace.corners :=
  ⟨4, by decide, rfl, by decide⟩

example : ∀ v k, v < sampleFace.corners → subEntity 3 3 3 1 v 3 = some k →
    sampleFace.corners_ v = samplePyramid.corners_ k := by
  intro v k hv hk
  have hv : v < 3 := hv
  have e : ∀ v < 3, subEntity 3 3 3 1 v 3 = some ([0, 1, 4].getD v 0) := by decide
  rw [e v hv] at hk
  obtain rfl := Option.some.inj hk
  rfl

/-! ### C32 -/

theorem ext_apply {d : Nat} (x : Fin d → ℝ) (r : Nat) (h : r < d) : ext x r = x ⟨r, h⟩ := dif_pos h

/-- C32, all points at which the map does not use its special case near an apex -/
theorem hasFDerivAt_of_away (g : MultiLinearGeometry) (hid : g.id < 2 ^ g.mydim) (ht : 0 ≤ g.tol)
    (x : Fin g.mydim → ℝ) (hx : Away g.tol (topoOf g.mydim g.id) (ext x)) :
    HasFDerivAt (fun y : Fin g.mydim → ℝ => vec g.cdim (g.global (ext y)))
      (Matrix.toLin' (mat g.cdim g.mydim (g.jacobian (ext x)))).toContinuousLinearMap x := by
  rw [hasFDerivAt_pi']
  intro j
  have h := ML_hasFDerivAt ht (topoOf g.mydim g.id) (fun k => g.corners_ k j)
    (fun r (y : Fin g.mydim → ℝ) => ext y r)
    (fun r => if hr : r < g.mydim then ContinuousLinearMap.proj (R := ℝ) (φ := fun _ : Fin g.mydim => ℝ) ⟨r, hr⟩ else 0) x
    (fun r hr => by
      rw [topo_dim] at hr
      simp only [RefGeom.ext, dif_pos hr]
      exact hasFDerivAt_apply (𝕜 := ℝ) (F' := fun _ : Fin g.mydim => ℝ) ⟨r, hr⟩ x) hx
  refine (h.congr_fderiv ?_).congr_of_eventuallyEq (Filter.Eventually.of_forall fun y => ?_)
  · ext v
    rw [topo_dim]
    simp only [_root_.sum_apply, smul_apply, smul_eq_mul, ContinuousLinearMap.comp_apply,
      ContinuousLinearMap.proj_apply, LinearMap.coe_toContinuousLinearMap', Matrix.toLin'_apply, Matrix.mulVec, dotProduct]
    rw [← Fin.sum_univ_eq_sum_range (fun r => MLd g.tol (topoOf g.mydim g.id) (fun k => g.corners_ k ↑j) (ext x) r *
      (if hr : r < g.mydim then ContinuousLinearMap.proj (R := ℝ) (φ := fun _ : Fin g.mydim => ℝ) ⟨r, hr⟩ else 0) v)]
    refine sum_congr rfl fun r _ => ?_
    rw [dif_pos r.2]
    have : mat g.cdim g.mydim (g.jacobian (ext x)) j r = g.jacobianTransposed (ext x) r j := rfl
    rw [this, jt_eq g hid _ _ _ r.2]
    rfl
  · exact global_eq g hid _ _

/-- C32: the Jacobian is the Fréchet derivative of `global` at every point of the element that keeps the margin;
`jacobianTransposed` is its transpose. -/
theorem C32_derivative (g : MultiLinearGeometry) (hg : Legal g) (x : Fin g.mydim → ℝ) (hx : Inner g (ext x)) :
    HasFDerivAt (fun y : Fin g.mydim → ℝ => vec g.cdim (g.global (ext y)))
      (Matrix.toLin' (mat g.cdim g.mydim (g.jacobian (ext x)))).toContinuousLinearMap x ∧
    mat g.mydim g.cdim (g.jacobianTransposed (ext x)) = (mat g.cdim g.mydim (g.jacobian (ext x))).transpose :=
  ⟨hasFDerivAt_of_away g hg.id_lt hg.tol_pos.le x (away_of_inner hg hx), rfl⟩

/-- C32: on cubes at every point -/
theorem C32_derivative_cube (g : MultiLinearGeometry) (hg : Legal g) (hc : IsCubeId g.mydim g.id)
    (x : Fin g.mydim → ℝ) :
    HasFDerivAt (fun y : Fin g.mydim → ℝ => vec g.cdim (g.global (ext y)))
      (Matrix.toLin' (mat g.cdim g.mydim (g.jacobian (ext x)))).toContinuousLinearMap x :=
  hasFDerivAt_of_away g hg.id_lt hg.tol_pos.le x (by rw [topoOf_cube _ _ hc]; exact away_cube _ _)

/-- C32: for affine maps the Jacobian is the matrix of the map -/
theorem C32_affine (g : MultiLinearGeometry) (hg : Legal g) (a : Vec ℝ) (M : Mat ℝ) (h : ImageOf g a M) (x : Vec ℝ)
    (hx : Inner g x) (j r : Nat) (hj : j < g.cdim) (hr : r < g.mydim) : g.jacobian x j r = M j r := by
  rw [jacobian, jt_eq g hg.id_lt _ _ _ hr]
  exact MLd_exact hg.tol_pos.le _ _ _ _ x (exact_of_imageOf h j hj) (away_of_inner hg hx) r (by rw [topo_dim]; exact hr)

example : Inner samplePyramid (ext (fun _ : Fin samplePyramid.mydim => 1 / 8)) := by
  rw [Inner, checkInside_iff (rep_topoOf _ _)]
  have : topoOf samplePyramid.mydim samplePyramid.id = .pyr (.prism (.prism .pt)) := by decide
  rw [this]
  refine ⟨?_, ?_, ?_, ?_, ?_, ?_, trivial⟩ <;> norm_num [samplePyramid, Topo.dim, RefGeom.ext]

/-! ### C33 -/

/-- what the property demands: a geometry that reports affine has an affine map, with the reported matrix as Jacobian -/
def C33_affine_full : Prop := ∀ g : MultiLinearGeometry, Legal g → g.affine = true →
  ∃ a : Vec ℝ, ∀ x, Inner g x → ∀ j, j < g.cdim →
    g.global x j = a j + ∑ r ∈ range g.mydim, (g.affineJ garbage).2 r j * x r

/-- C33: affine images of the reference element report affine, and the matrix is the Jacobian of the map -/
theorem C33_complete (g : MultiLinearGeometry) (hg : Legal g) (a : Vec ℝ) (M : Mat ℝ) (h : ImageOf g a M) :
    g.affine = true ∧ ∀ jt r j, r < g.mydim → j < g.cdim → (g.affineJ jt).2 r j = M j r := by
  have ha : g.affine = true :=
    (affine_iff g hg.id_lt).2 (isAff_exact hg.tol_pos g.cdim _ _ a (fun r j => M j r) fun j hj => exact_of_imageOf h j hj)
  refine ⟨ha, fun jt r j hr hj => ?_⟩
  rw [(affineJ_jt g hg.id_lt ha jt).2 r j hr]
  exact ajt_exact _ _ _ _ (exact_of_imageOf h j hj) r (by rw [topo_dim]; exact hr)

/-- C33: simplices are always affine, and the map is the affine map through the corners -/
theorem C33_simplex (g : MultiLinearGeometry) (hg : Legal g) (hs : IsSimplexId g.mydim g.id) :
    g.affine = true ∧ ∀ x, Inner g x → ∀ j, j < g.cdim →
      g.global x j = g.corners_ 0 j + ∑ r ∈ range g.mydim, (g.corners_ (r + 1) j - g.corners_ 0 j) * x r ∧
      ∀ r, r < g.mydim → g.jacobian x j r = g.corners_ (r + 1) j - g.corners_ 0 j ∧
        (g.affineJ garbage).2 r j = g.jacobian x j r := by
  have h := imageOf_simplex g hs
  have hc := C33_complete g hg _ _ h
  refine ⟨hc.1, fun x hx j hj => ⟨C31_affine g hg _ _ h x hx j hj, fun r hr => ?_⟩⟩
  have := C32_affine g hg _ _ h x hx j r hj hr
  exact ⟨this, by rw [this]; exact hc.2 garbage r j hr hj⟩

/-- C33: a geometry that reports affine deviates from the affine map through its corners, and its Jacobian from the
reported constant matrix, by at most a constant times the root of the tolerance.  The constants depend on the
dimension only.  Missing for the full claim: equality. -/
theorem C33_affine_partial (g : MultiLinearGeometry) (hg : Legal g) (ha : g.affine = true) (x : Vec ℝ)
    (hx : Inner g x) (hd : x ∈ domain ℝ g.mydim g.id) (hx0 : ∀ k, g.mydim ≤ k → x k = 0) (j : Nat) (hj : j < g.cdim) :
    |g.global x j - (g.corners_ 0 j + ∑ r ∈ range g.mydim, (g.affineJ garbage).2 r j * x r)| ≤
      (g.mydim * (g.mydim - 1) / 2 : ℝ) * Real.sqrt g.tol ∧
    ∀ r, r < g.mydim → |g.jacobian x j r - (g.affineJ garbage).2 r j| ≤ devC g.mydim * Real.sqrt g.tol := by
  have hA := (affine_iff g hg.id_lt).1 ha
  have hdom := (mem_domain (rep_topoOf _ _) x hx0).1 hd
  have haw := away_of_inner hg hx
  have hj' := (affineJ_jt g hg.id_lt ha garbage).2
  constructor
  · have := ML_dev hg.tol_pos.le g.cdim _ g.corners_ x j hj hA hdom haw
    rw [topo_dim] at this
    rw [global_eq g hg.id_lt, sum_congr rfl fun r hr => by rw [hj' r j (mem_range.1 hr)]]
    exact this
  · intro r hr
    have := MLd_dev hg.tol_pos.le g.cdim _ g.corners_ x j hj hA hdom haw r (by rw [topo_dim]; exact hr)
    rw [topo_dim] at this
    rw [jacobian, jt_eq g hg.id_lt _ _ _ hr, hj' r j hr]
    exact this

/-- C33: with the tolerance out of the way, that is if the geometry reports affine for every smaller tolerance too, the
map is exactly affine and the reported matrix its Jacobian. -/
theorem C33_affine_exact (g : MultiLinearGeometry) (hg : Legal g)
    (ha : ∀ ε, 0 < ε → ε ≤ g.tol → ({ g with tol := ε } : MultiLinearGeometry).affine = true) (x : Vec ℝ)
    (hx : Inner g x) (hd : x ∈ domain ℝ g.mydim g.id) (hx0 : ∀ k, g.mydim ≤ k → x k = 0) (j : Nat) (hj : j < g.cdim) :
    g.global x j = g.corners_ 0 j + ∑ r ∈ range g.mydim, (g.affineJ garbage).2 r j * x r ∧
    ∀ r, r < g.mydim → g.jacobian x j r = (g.affineJ garbage).2 r j := by
  have haw := away_of_inner hg hx
  have hdom := (mem_domain (rep_topoOf _ _) x hx0).1 hd
  have ha1 : g.affine = true := ha g.tol hg.tol_pos (le_refl _)
  have hj' := (affineJ_jt g hg.id_lt ha1 garbage).2
  have key : ∀ (δ C : ℝ), (∀ ε, 0 < ε → ε ≤ g.tol → |δ| ≤ C * Real.sqrt ε) → δ = 0 := by
    intro δ C h
    by_contra hne
    have hpos : 0 < |δ| := abs_pos.2 hne
    have hC : 0 < C := by
      have h1 := h g.tol hg.tol_pos (le_refl _)
      have h2 := Real.sqrt_pos.2 hg.tol_pos
      by_contra hc
      have : C * Real.sqrt g.tol ≤ 0 := mul_nonpos_of_nonpos_of_nonneg (not_lt.1 hc) h2.le
      linarith
    have hq : 0 < |δ| / (2 * C) := by positivity
    have hε : 0 < min g.tol ((|δ| / (2 * C)) ^ 2) := lt_min hg.tol_pos (by positivity)
    have h1 := h _ hε (min_le_left _ _)
    have h2 : Real.sqrt (min g.tol ((|δ| / (2 * C)) ^ 2)) ≤ |δ| / (2 * C) := by
      refine (Real.sqrt_le_sqrt (min_le_right _ _)).trans ?_
      rw [Real.sqrt_sq hq.le]
    have h3 := mul_le_mul_of_nonneg_left h2 hC.le
    have h4 : C * (|δ| / (2 * C)) = |δ| / 2 := by field_simp
    linarith
  have hεA : ∀ ε, 0 < ε → ε ≤ g.tol → IsAff ε g.cdim (topoOf g.mydim g.id) g.corners_ := by
    intro ε h1 h2
    exact (affine_iff { g with tol := ε } hg.id_lt).1 (ha ε h1 h2)
  constructor
  · rw [sum_congr rfl fun r hr => by rw [hj' r j (mem_range.1 hr)], global_eq g hg.id_lt, ← sub_eq_zero]
    refine key _ (g.mydim * (g.mydim - 1) / 2 : ℝ) fun ε h1 h2 => ?_
    have hawε := away_mono h2 _ x haw
    have := ML_dev h1.le g.cdim _ g.corners_ x j hj (hεA ε h1 h2) hdom hawε
    rw [topo_dim, ML_tol _ _ x hawε haw] at this
    exact this
  · intro r hr
    rw [hj' r j hr, jacobian, jt_eq g hg.id_lt _ _ _ hr, ← sub_eq_zero]
    refine key _ (devC g.mydim) fun ε h1 h2 => ?_
    have hawε := away_mono h2 _ x haw
    have := MLd_dev h1.le g.cdim _ g.corners_ x j hj (hεA ε h1 h2) hdom hawε r (by rw [topo_dim]; exact hr)
    rw [topo_dim, MLd_tol _ _ x r hawε haw] at this
    exact this

/-- a quadrilateral whose last corner is moved by half the root of the tolerance -/
def bentSquare (tol : ℝ) : MultiLinearGeometry where
  mydim := 2
  cdim := 2
  id := 3
  corners_ := fun k j => if j = 0 then (if k = 1 then 1 else if k = 3 then 1 + Real.sqrt tol / 2 else 0)
    else if k = 2 ∨ k = 3 then 1 else 0
  tol := tol

theorem bentSquare_topo (tol : ℝ) : topoOf (bentSquare tol).mydim (bentSquare tol).id = .prism (.prism .pt) := by
  change topoOf 2 3 = _
  decide

theorem bentSquare_affine (tol : ℝ) (ht : 0 < tol) : (bentSquare tol).affine = true := by
  rw [affine_iff _ (by change 3 < 2 ^ 2; norm_num), bentSquare_topo]
  refine ⟨⟨trivial, trivial, ?_⟩, ⟨trivial, trivial, ?_⟩, ?_⟩
  · simpa [gap, Topo.dim, bentSquare] using ht
  · simpa [gap, Topo.dim, bentSquare] using ht
  · change gap 2 _ _ _ < tol
    have e : Real.sqrt tol ^ 2 = tol := Real.sq_sqrt ht.le
    have h1 : nv (.prism .pt) = 2 := rfl
    have h2 : nv .pt = 1 := rfl
    simp only [gap, Topo.dim, zero_add, range_one, sum_singleton, sum_range_succ, ajt, if_true, h1, h2,
      bentSquare]
    norm_num
    nlinarith

/-- C33: for every positive tolerance there is a geometry that reports affine and is not. -/
theorem C33_affine_counterexample : ¬ C33_affine_full ∧ ∀ tol : ℝ, 0 < tol → tol < 1 / 4 →
    ∃ g : MultiLinearGeometry, Legal g ∧ g.tol = tol ∧ g.affine = true ∧
      ¬ ∃ (a : Vec ℝ) (M : Mat ℝ), ∀ x, Inner g x → ∀ j, j < g.cdim →
        g.global x j = a j + ∑ r ∈ range g.mydim, M j r * x r := by
  have key : ∀ tol : ℝ, 0 < tol → tol < 1 / 4 → ¬ ∃ (a : Vec ℝ) (M : Mat ℝ), ∀ x, Inner (bentSquare tol) x → ∀ j,
      j < (bentSquare tol).cdim → (bentSquare tol).global x j = a j + ∑ r ∈ range (bentSquare tol).mydim, M j r * x r := by
    rintro tol ht ht2 ⟨a, M, h⟩
    have hin : ∀ u v : ℝ, 1 / 4 ≤ u → u ≤ 3 / 4 → 1 / 4 ≤ v → v ≤ 3 / 4 →
        Inner (bentSquare tol) (fun r => if r = 0 then u else v) := by
      intro u v h1 h2 h3 h4
      rw [Inner, checkInside_iff (rep_topoOf _ _), bentSquare_topo]
      refine ⟨?_, ?_, ?_, ?_, trivial⟩ <;> simp [bentSquare, Topo.dim] <;> linarith
    have hval : ∀ u v : ℝ, 1 / 4 ≤ u → u ≤ 3 / 4 → 1 / 4 ≤ v → v ≤ 3 / 4 →
        (1 - v) * u + v * (u * (1 + Real.sqrt tol / 2)) = a 0 + (M 0 0 * u + M 0 1 * v) := by
      intro u v h1 h2 h3 h4
      have := h _ (hin u v h1 h2 h3 h4) 0 (by change 0 < 2; norm_num)
      rw [global_eq _ (by change 3 < 2 ^ 2; norm_num), bentSquare_topo] at this
      have hm : (bentSquare tol).mydim = 2 := rfl
      have h1 : nv (.prism .pt) = 2 := rfl
      have h2 : nv .pt = 1 := rfl
      rw [hm, sum_range_succ, sum_range_one] at this
      simp [ML, Topo.dim, h1, h2, bentSquare] at this
      linarith
    have hs := Real.sqrt_pos.2 ht
    have e1 := hval (1/4) (1/4) (by norm_num) (by norm_num) (by norm_num) (by norm_num)
    have e2 := hval (3/4) (1/4) (by norm_num) (by norm_num) (by norm_num) (by norm_num)
    have e3 := hval (1/4) (3/4) (by norm_num) (by norm_num) (by norm_num) (by norm_num)
    have e4 := hval (3/4) (3/4) (by norm_num) (by norm_num) (by norm_num) (by norm_num)
    linarith
  have hl : ∀ tol : ℝ, 0 < tol → tol < 1 / 4 → Legal (bentSquare tol) := by
    intro tol h1 h2
    exact ⟨by change 3 < 2 ^ 2; norm_num, h1, by change tol < 1; linarith⟩
  constructor
  · intro h
    have ht : (0 : ℝ) < 1 / 16 := by norm_num
    obtain ⟨a, ha⟩ := h (bentSquare (1 / 16)) (hl _ ht (by norm_num)) (bentSquare_affine _ ht)
    exact key _ ht (by norm_num) ⟨a, fun j r => ((bentSquare (1 / 16)).affineJ garbage).2 r j, ha⟩
  · intro tol h1 h2
    exact ⟨bentSquare tol, hl tol h1 h2, rfl, bentSquare_affine tol h1, key tol h1 h2⟩

example : Legal (bentSquare (1 / 16)) ∧ (bentSquare (1 / 16)).affine = true :=
  ⟨⟨by change 3 < 2 ^ 2; norm_num, by norm_num [bentSquare], by norm_num [bentSquare]⟩,
    bentSquare_affine _ (by norm_num)⟩

end

end Verif.MultiLinear
