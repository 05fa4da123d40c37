import Verif.Neighbour.Lemmas
import Verif.Motion.Props
import Verif.Compare.Lemmas

/-!
Property C97: the numbering of the corners.  If the corners of an element are numbered differently, by a symmetry of the
reference element, the geometry describes the same element with other local coordinates.  In particular two elements that
share a face describe the same points of the face whatever their local numberings.
-/

namespace Verif.Neighbour

open Verif.RefGeom Verif.RefTopo Verif.MatHelp Verif.MultiLinear Verif.MultiLinear.MultiLinearGeometry Finset
open Matrix hiding vec

noncomputable section

/-- where the multilinear map is the interpolation of the corners: everywhere for cubes, away from the tips of the pyramids
otherwise -/
def Clear (tol : ℝ) (d id : Nat) (x : Vec ℝ) : Prop := IsCubeId d id ∨ checkInside d id x (-tol) 1 = true

/-! ### helper lemmas -/

theorem clear_away {tol : ℝ} (h0 : 0 ≤ tol) {d id : Nat} {x : Vec ℝ} (h : Clear tol d id x) : Away tol (topoOf d id) x := by
  rcases h with h | h
  · rw [topoOf_cube _ _ h]; exact away_cube _ _
  · exact away_of_checkInside h0 (rep_topoOf _ _) h

theorem renumbered_legal {g : MultiLinearGeometry} (hg : Legal g) (σ : Nat → Nat) : Legal (renumbered g σ) :=
  ⟨hg.id_lt, hg.tol_pos, hg.tol_lt⟩

theorem global_away (g : MultiLinearGeometry) (hg : Legal g) (hc : Covered g.mydim g.id) {σ : Nat → Nat} {a : Vec ℝ}
    {M : Mat ℝ} (h : Symmetry g.mydim g.id σ a M) (x : Vec ℝ) (hx : Away g.tol (topoOf g.mydim g.id) x)
    (hx' : Away g.tol (topoOf g.mydim g.id) (affMap g.mydim a M x)) :
    (renumbered g σ).global x = g.global (affMap g.mydim a M x) := by
  funext j
  rw [global_eq (renumbered g σ) hg.id_lt, global_eq g hg.id_lt]
  have := respects_covered hg.tol_pos.le hg.tol_lt hg.id_lt hc h (fun k => g.corners_ k j) x hx
  rw [topo_dim] at this
  exact this hx'

theorem affMap_vec (m : Nat) (a : Vec ℝ) (M : Mat ℝ) (y : Fin m → ℝ) :
    vec m (affMap m a M (ext y)) = vec m a + mat m m M *ᵥ y := by
  funext i
  change affMap m a M (ext y) i = a i + ∑ r : Fin m, M i r * y r
  rw [affMap, Finset.sum_range]
  congr 1
  exact sum_congr rfl fun r _ => by simp [RefGeom.ext]

theorem affMap_congr {d : Nat} {a : Vec ℝ} {M : Mat ℝ} {x y : Vec ℝ} (h : ∀ r, r < d → x r = y r) :
    affMap d a M x = affMap d a M y := by
  funext i
  rw [affMap, affMap]
  congr 1
  exact sum_congr rfl fun r hr => by rw [h r (mem_range.1 hr)]

theorem away_congr {tol : ℝ} : ∀ (t : Topo) {z z' : Vec ℝ}, (∀ r, r < t.dim → z r = z' r) → Away tol t z → Away tol t z'
  | .pt, _, _, _, _ => trivial
  | .prism t, _, _, h, hz => away_congr t (fun r hr => h r (by simp only [Topo.dim]; omega)) hz
  | .pyr t, z, z', h, hz => by
    have e := h t.dim (by simp [Topo.dim])
    refine ⟨by rw [← e]; exact hz.1, away_congr t (fun r hr => ?_) hz.2⟩
    rw [h r (by simp only [Topo.dim]; omega), e]

theorem jt_renumbered (g : MultiLinearGeometry) (hg : Legal g) (hc : Covered g.mydim g.id) {σ : Nat → Nat} {a : Vec ℝ}
    {M : Mat ℝ} (h : Symmetry g.mydim g.id σ a M) (x : Vec ℝ) (hx : Away g.tol (topoOf g.mydim g.id) x)
    (hx' : Away g.tol (topoOf g.mydim g.id) (affMap g.mydim a M x)) :
    mat g.cdim g.mydim ((renumbered g σ).jacobian x) =
      mat g.cdim g.mydim (g.jacobian (affMap g.mydim a M x)) * mat g.mydim g.mydim M := by
  have hd : (topoOf g.mydim g.id).dim = g.mydim := topo_dim g
  let m := g.mydim
  let u : Fin m → ℝ := vec m x
  let L : (Fin m → ℝ) → (Fin m → ℝ) := fun y => vec m a + mat m m M *ᵥ y
  have hu : ∀ r, r < m → ext u r = x r := fun r hr => Quad.ext_vec_apply x hr
  have hAu : affMap m a M (ext u) = affMap m a M x := affMap_congr hu
  have hLu : ∀ (y : Fin m → ℝ) r, r < m → ext (L y) r = affMap m a M (ext y) r := by
    intro y r hr
    rw [← Quad.ext_vec_apply (affMap m a M (ext y)) hr, affMap_vec]
  have a1 : Away g.tol (topoOf g.mydim g.id) (ext u) := away_congr _ (fun r hr => (hu r (by rwa [hd] at hr)).symm) hx
  have a2 : Away g.tol (topoOf g.mydim g.id) (ext (L u)) := by
    refine away_congr _ (fun r hr => ?_) hx'
    rw [hLu u r (by rwa [hd] at hr), hAu]
  have hL : HasFDerivAt L (Matrix.toLin' (mat m m M)).toContinuousLinearMap u := by
    have := ((Matrix.toLin' (mat m m M)).toContinuousLinearMap.hasFDerivAt (x := u)).const_add (vec m a)
    exact this
  have d1 := hasFDerivAt_of_away (renumbered g σ) hg.id_lt hg.tol_pos.le u a1
  have d2 := hasFDerivAt_of_away g hg.id_lt hg.tol_pos.le (L u) a2
  have d3 := d2.comp u hL
  -- near `u` the two functions agree
  have ev : ∀ᶠ y in nhds u, vec g.cdim ((renumbered g σ).global (ext y)) = vec g.cdim (g.global (ext (L y))) := by
    have c1 : ∀ r, r < (topoOf g.mydim g.id).dim → ContinuousAt (fun y : Fin m → ℝ => ext y r) u := by
      intro r hr
      rw [hd] at hr
      have : (fun y : Fin m → ℝ => ext y r) = fun y => y ⟨r, hr⟩ := by
        funext y
        rw [RefGeom.ext, dif_pos hr]
      rw [this]
      exact (continuous_apply (⟨r, hr⟩ : Fin m)).continuousAt
    have c2 : ∀ r, r < (topoOf g.mydim g.id).dim → ContinuousAt (fun y : Fin m → ℝ => ext (L y) r) u := by
      intro r hr
      rw [hd] at hr
      have : (fun y : Fin m → ℝ => ext (L y) r) = fun y => L y ⟨r, hr⟩ := by
        funext y
        rw [RefGeom.ext, dif_pos hr]
      rw [this]
      exact (continuous_apply (⟨r, hr⟩ : Fin m)).continuousAt.comp hL.continuousAt
    have e1 := away_eventually hg.tol_pos.le (topoOf g.mydim g.id) (fun r y => ext y r) u c1 a1
    have e2 := away_eventually hg.tol_pos.le (topoOf g.mydim g.id) (fun r y => ext (L y) r) u c2 a2
    refine (e1.and e2).mono fun y hy => ?_
    have hy2 : Away g.tol (topoOf g.mydim g.id) (affMap m a M (ext y)) :=
      away_congr _ (fun r hr => hLu y r (by rwa [hd] at hr)) hy.2
    rw [global_away g hg hc h (ext y) hy.1 hy2]
    congr 1
    exact Motion.global_congr hg.id_lt fun i hi => (hLu y i hi).symm
  have d4 := d3.congr_of_eventuallyEq ev
  have huniq := d1.unique d4
  have hm : Matrix.toLin' (mat g.cdim m ((renumbered g σ).jacobian (ext u))) =
      Matrix.toLin' (mat g.cdim m (g.jacobian (ext (L u))) * mat m m M) := by
    rw [Matrix.toLin'_mul]
    ext1 v
    exact congrArg (fun f => f (LinearMap.single ℝ (fun _ : Fin m => ℝ) v 1)) huniq |> fun e => by
      ext1
      exact e
  have hmat := Matrix.toLin'.injective hm
  have j1 : mat g.cdim m ((renumbered g σ).jacobian (ext u)) = mat g.cdim m ((renumbered g σ).jacobian x) := by
    have := congrArg transpose (Motion.jt_congr (g := renumbered g σ) hg.id_lt hu)
    exact this
  have j2 : mat g.cdim m (g.jacobian (ext (L u))) = mat g.cdim m (g.jacobian (affMap m a M x)) := by
    have := congrArg transpose (Motion.jt_congr (g := g) (x := ext (L u)) (x' := affMap m a M x) hg.id_lt
      fun i hi => by rw [hLu u i hi, hAu])
    exact this
  rw [j1, j2] at hmat
  exact hmat

theorem li_mul {m n : Nat} {N : Matrix (Fin m) (Fin m) ℝ} (hN : IsUnit N.det) (A : Matrix (Fin m) (Fin n) ℝ) :
    LinearIndependent ℝ (N * A).row ↔ LinearIndependent ℝ A.row := by
  have key : ∀ (N : Matrix (Fin m) (Fin m) ℝ), IsUnit N.det → ∀ A : Matrix (Fin m) (Fin n) ℝ,
      LinearIndependent ℝ A.row → LinearIndependent ℝ (N * A).row := by
    intro N hN A hA
    rw [← Matrix.vecMul_injective_iff] at hA ⊢
    intro v w hvw
    simp only [← vecMul_vecMul] at hvw
    have h1 := hA hvw
    have hu : Function.Injective N.vecMul := Matrix.vecMul_injective_iff.2
      (linearIndependent_rows_of_isUnit ((isUnit_iff_isUnit_det N).2 hN))
    exact hu h1
  refine ⟨fun h => ?_, key N hN A⟩
  have := key N⁻¹ (isUnit_nonsing_inv_det N hN) _ h
  rwa [← Matrix.mul_assoc, nonsing_inv_mul _ hN, Matrix.one_mul] at this

theorem det_mul' {m n : Nat} {N : Matrix (Fin m) (Fin m) ℝ} (hN : |N.det| = 1) (A : Matrix (Fin m) (Fin n) ℝ) :
    ((N * A) * (N * A)ᵀ).det = (A * Aᵀ).det := by
  have h2 : N.det * N.det = 1 := by rw [← abs_mul_abs_self, hN, one_mul]
  rw [transpose_mul, ← Matrix.mul_assoc, Matrix.mul_assoc N, Matrix.det_mul, Matrix.det_mul, det_transpose]
  linear_combination (A * Aᵀ).det * h2

theorem pinv_mul {m n : Nat} {N : Matrix (Fin m) (Fin m) ℝ} (hN : IsUnit N.det) {A : Matrix (Fin m) (Fin n) ℝ}
    (hA : LinearIndependent ℝ A.row) : pinv (N * A) * N = pinv A := by
  have hu : IsUnit (A * Aᵀ).det := isUnit_iff_ne_zero.2 (det_ne_zero_of_posDef ((aat_posDef_iff A).2 hA))
  have hT : IsUnit Nᵀ.det := by rwa [det_transpose]
  have e : (N * A) * (N * A)ᵀ = N * (A * Aᵀ) * Nᵀ := by
    rw [transpose_mul, ← Matrix.mul_assoc, Matrix.mul_assoc N]
  have hinv : (N * (A * Aᵀ) * Nᵀ)⁻¹ = Nᵀ⁻¹ * (A * Aᵀ)⁻¹ * N⁻¹ := by
    rw [Matrix.mul_inv_rev, Matrix.mul_inv_rev, Matrix.mul_assoc]
  rw [pinv, pinv, e, hinv, transpose_mul]
  calc Aᵀ * Nᵀ * (Nᵀ⁻¹ * (A * Aᵀ)⁻¹ * N⁻¹) * N
      = Aᵀ * (Nᵀ * Nᵀ⁻¹) * (A * Aᵀ)⁻¹ * (N⁻¹ * N) := by simp only [Matrix.mul_assoc]
    _ = Aᵀ * (A * Aᵀ)⁻¹ := by rw [mul_nonsing_inv _ hT, nonsing_inv_mul _ hN, Matrix.mul_one, Matrix.mul_one]

theorem jtT (g : MultiLinearGeometry) (hg : Legal g) (hc : Covered g.mydim g.id) {σ : Nat → Nat} {a : Vec ℝ}
    {M : Mat ℝ} (h : Symmetry g.mydim g.id σ a M) (x : Vec ℝ) (hx : Away g.tol (topoOf g.mydim g.id) x)
    (hx' : Away g.tol (topoOf g.mydim g.id) (affMap g.mydim a M x)) :
    mat g.mydim g.cdim ((renumbered g σ).jacobianTransposed x) =
      (mat g.mydim g.mydim M)ᵀ * mat g.mydim g.cdim (g.jacobianTransposed (affMap g.mydim a M x)) := by
  have := congrArg transpose (jt_renumbered g hg hc h x hx hx')
  rw [transpose_mul] at this
  exact this

theorem sqrtDet_eq {m n : Nat} (hmn : m ≤ n) {A A' : Mat ℝ}
    (hl : LinearIndependent ℝ (mat m n A').row ↔ LinearIndependent ℝ (mat m n A).row)
    (hd : (mat m n A' * (mat m n A')ᵀ).det = (mat m n A * (mat m n A)ᵀ).det) :
    sqrtDetAAT m n A' = sqrtDetAAT m n A := by
  by_cases hcs : LinearIndependent ℝ (mat m n A).row ∨ n < m ∨ (n = 2 ∧ m = 2) ∨ (n = 3 ∧ m = 3) ∨ (n = 3 ∧ m = 2)
  · rw [C27_sqrtDetAAT_partial _ _ A hcs, C27_sqrtDetAAT_partial _ _ A' (hcs.imp hl.2 id), hd]
  · push Not at hcs
    obtain ⟨h1, _, h3, h4, h5⟩ := hcs
    have h3' : ¬ (n = 2 ∧ m = 2) := fun h => h3 h.1 h.2
    have h4' : ¬ (n = 3 ∧ m = 3) := fun h => h4 h.1 h.2
    have h5' : ¬ (n = 3 ∧ m = 2) := fun h => h5 h.1 h.2
    rw [C27_sqrtDetAAT_singular _ _ A hmn h3' h4' h5' h1, C27_sqrtDetAAT_singular _ _ A' hmn h3' h4' h5' (hl.not.2 h1)]

theorem ie_away (g : MultiLinearGeometry) (hg : Legal g) (hmn : g.mydim ≤ g.cdim)
    (hc : Covered g.mydim g.id) {σ : Nat → Nat} {a : Vec ℝ} {M : Mat ℝ} (h : Symmetry g.mydim g.id σ a M) (x : Vec ℝ)
    (hx : Away g.tol (topoOf g.mydim g.id) x) (hx' : Away g.tol (topoOf g.mydim g.id) (affMap g.mydim a M x)) :
    (renumbered g σ).integrationElement x = g.integrationElement (affMap g.mydim a M x) := by
  have hj := jtT g hg hc h x hx hx'
  have habs : |(mat g.mydim g.mydim M)ᵀ.det| = 1 := by rw [det_transpose]; exact symmetry_det h
  have hu : IsUnit (mat g.mydim g.mydim M)ᵀ.det := by
    rw [isUnit_iff_ne_zero]; intro e; rw [e, abs_zero] at habs; exact zero_ne_one habs
  have hl := li_mul hu (mat g.mydim g.cdim (g.jacobianTransposed (affMap g.mydim a M x)))
  rw [← hj] at hl
  have hd := det_mul' habs (mat g.mydim g.cdim (g.jacobianTransposed (affMap g.mydim a M x)))
  rw [← hj] at hd
  exact sqrtDet_eq hmn hl hd

/-! ### C97 -/

/-- C97: `global` of the renumbered geometry is `global` after the symmetry. -/
theorem C97_global (g : MultiLinearGeometry) (hg : Legal g) (hc : Covered g.mydim g.id) (σ : Nat → Nat) (a : Vec ℝ)
    (M : Mat ℝ) (h : Symmetry g.mydim g.id σ a M) (x : Vec ℝ) (hx : Clear g.tol g.mydim g.id x)
    (hx' : Clear g.tol g.mydim g.id (affMap g.mydim a M x)) :
    (renumbered g σ).global x = g.global (affMap g.mydim a M x) :=
  global_away g hg hc h x (clear_away hg.tol_pos.le hx) (clear_away hg.tol_pos.le hx')

/-- C97: the corners are mapped to each other. -/
theorem C97_corner (g : MultiLinearGeometry) (hg : Legal g) (σ : Nat → Nat) (a : Vec ℝ) (M : Mat ℝ)
    (h : Symmetry g.mydim g.id σ a M) (k : Nat) (hk : k < g.corners) : (renumbered g σ).corner k = g.corner (σ k) := by
  have hl := h.lt k hk
  have hk' : k < (renumbered g σ).corners := hk
  have hl' : σ k < g.corners := hl
  rw [MultiLinearGeometry.corner, MultiLinearGeometry.corner, if_pos hk', if_pos hl']
  rfl

/-- C97: the symmetry maps the reference element to itself. -/
theorem C97_domain (d id : Nat) (σ : Nat → Nat) (a : Vec ℝ) (M : Mat ℝ) (h : Symmetry d id σ a M) (x : Vec ℝ)
    (hx : x ∈ domain ℝ d id) : (fun i => if i < d then affMap d a M x i else 0) ∈ domain ℝ d id := by
  have hr := rep_topoOf d id
  have hsub : convexHull ℝ {c | c ∈ referenceCorners (K := ℝ) d id} ⊆
      {x | (fun i => if i < d then affMap d a M x i else 0) ∈ domain ℝ d id} := by
    apply convexHull_min
    · intro c hcm
      obtain ⟨k, hk⟩ := List.mem_iff_getElem?.1 hcm
      rw [cornersOf_eq hr] at hk
      have hkl := get_lt hk
      have hck : c = corner d id k := by
        rw [corner_get d id k hkl] at hk
        exact (Option.some.inj hk).symm
      have e : (fun i => if i < d then affMap d a M c i else 0) = corner (K := ℝ) d id (σ k) := by
        funext i
        by_cases hi : i < d
        · rw [if_pos hi, hck, h.corner k hkl i hi]
        · rw [if_neg hi]
          have hm : corner (K := ℝ) d id (σ k) ∈ cornersOf (K := ℝ) (topoOf d id) :=
            List.mem_of_getElem? (corner_get d id _ (h.lt k hkl))
          exact (cornersOf_zero hm (by rw [hr.dim_eq]; omega)).symm
      change (fun i => if i < d then affMap d a M c i else 0) ∈ domain ℝ d id
      rw [e]
      refine subset_convexHull ℝ _ ?_
      change corner (K := ℝ) d id (σ k) ∈ referenceCorners (K := ℝ) d id
      rw [cornersOf_eq hr]
      exact List.mem_of_getElem? (corner_get d id _ (h.lt k hkl))
    · intro y hy z hz s t hs ht hst
      have := (convex_convexHull ℝ {c | c ∈ referenceCorners (K := ℝ) d id}) hy hz hs ht hst
      have e : (fun i => if i < d then affMap d a M (s • y + t • z) i else 0) =
          s • (fun i => if i < d then affMap d a M y i else 0) + t • (fun i => if i < d then affMap d a M z i else 0) := by
        funext i
        simp only [Pi.add_apply, Pi.smul_apply, smul_eq_mul]
        by_cases hi : i < d
        · simp only [if_pos hi, affMap, Pi.add_apply, Pi.smul_apply, smul_eq_mul, mul_add, sum_add_distrib, mul_sum]
          have e1 : ∑ r ∈ range d, M i r * (s * y r) = ∑ r ∈ range d, s * (M i r * y r) :=
            sum_congr rfl fun _ _ => by ring
          have e2 : ∑ r ∈ range d, M i r * (t * z r) = ∑ r ∈ range d, t * (M i r * z r) :=
            sum_congr rfl fun _ _ => by ring
          rw [e1, e2]
          linear_combination (-a i) * hst
        · simp [hi]
      change (fun i => if i < d then affMap d a M (s • y + t • z) i else 0) ∈ domain ℝ d id
      rw [e]
      exact this
  exact hsub hx

/-- C97: symmetries preserve volumes. -/
theorem C97_det (d id : Nat) (σ : Nat → Nat) (a : Vec ℝ) (M : Mat ℝ) (h : Symmetry d id σ a M) :
    |(mat d d M).det| = 1 := symmetry_det h

/-- C97: chain rule for the Jacobian. -/
theorem C97_jacobian (g : MultiLinearGeometry) (hg : Legal g) (hc : Covered g.mydim g.id) (σ : Nat → Nat) (a : Vec ℝ)
    (M : Mat ℝ) (h : Symmetry g.mydim g.id σ a M) (x : Vec ℝ) (hx : Clear g.tol g.mydim g.id x)
    (hx' : Clear g.tol g.mydim g.id (affMap g.mydim a M x)) :
    mat g.cdim g.mydim ((renumbered g σ).jacobian x) =
      mat g.cdim g.mydim (g.jacobian (affMap g.mydim a M x)) * mat g.mydim g.mydim M :=
  jt_renumbered g hg hc h x (clear_away hg.tol_pos.le hx) (clear_away hg.tol_pos.le hx')

/-- C97: the integration element is the same, and available at the same points. -/
theorem C97_integrationElement (g : MultiLinearGeometry) (hg : Legal g) (hmn : g.mydim ≤ g.cdim)
    (hc : Covered g.mydim g.id) (σ : Nat → Nat) (a : Vec ℝ) (M : Mat ℝ) (h : Symmetry g.mydim g.id σ a M) (x : Vec ℝ)
    (hx : Clear g.tol g.mydim g.id x) (hx' : Clear g.tol g.mydim g.id (affMap g.mydim a M x)) :
    (renumbered g σ).integrationElement x = g.integrationElement (affMap g.mydim a M x) :=
  ie_away g hg hmn hc h x (clear_away hg.tol_pos.le hx) (clear_away hg.tol_pos.le hx')

/-- C97: the transposed inverse of the Jacobian, that is, gradients: the gradient of `f ∘ A` is the same vector. -/
theorem C97_jacobianInverseTransposed (g : MultiLinearGeometry) (hg : Legal g) (hmn : g.mydim ≤ g.cdim)
    (hc : Covered g.mydim g.id) (σ : Nat → Nat) (a : Vec ℝ) (M : Mat ℝ) (h : Symmetry g.mydim g.id σ a M) (x : Vec ℝ)
    (hx : Clear g.tol g.mydim g.id x) (hx' : Clear g.tol g.mydim g.id (affMap g.mydim a M x)) :
    ((renumbered g σ).jacobianInverseTransposed x = none ↔
      g.jacobianInverseTransposed (affMap g.mydim a M x) = none) ∧
    ∀ d B d' B', g.jacobianInverseTransposed (affMap g.mydim a M x) = some (d, B) →
      (renumbered g σ).jacobianInverseTransposed x = some (d', B') →
      d' = d ∧ mat g.cdim g.mydim B' * (mat g.mydim g.mydim M)ᵀ = mat g.cdim g.mydim B := by
  have hj := jtT g hg hc h x (clear_away hg.tol_pos.le hx) (clear_away hg.tol_pos.le hx')
  have habs : |(mat g.mydim g.mydim M)ᵀ.det| = 1 := by rw [det_transpose]; exact symmetry_det h
  have hu : IsUnit (mat g.mydim g.mydim M)ᵀ.det := by
    rw [isUnit_iff_ne_zero]; intro e; rw [e, abs_zero] at habs; exact zero_ne_one habs
  have hl := li_mul hu (mat g.mydim g.cdim (g.jacobianTransposed (affMap g.mydim a M x)))
  rw [← hj] at hl
  have hd := det_mul' habs (mat g.mydim g.cdim (g.jacobianTransposed (affMap g.mydim a M x)))
  rw [← hj] at hd
  change (rightInvA g.mydim g.cdim ((renumbered g σ).jacobianTransposed x) = none ↔
    rightInvA g.mydim g.cdim (g.jacobianTransposed (affMap g.mydim a M x)) = none) ∧ ∀ d B d' B',
    rightInvA g.mydim g.cdim (g.jacobianTransposed (affMap g.mydim a M x)) = some (d, B) →
    rightInvA g.mydim g.cdim ((renumbered g σ).jacobianTransposed x) = some (d', B') → _
  by_cases hcs : LinearIndependent ℝ (mat g.mydim g.cdim (g.jacobianTransposed (affMap g.mydim a M x))).row
  · obtain ⟨R, e1, e2⟩ := rightInvA_pinv hmn hcs
    obtain ⟨R', e1', e2'⟩ := rightInvA_pinv hmn (hl.2 hcs)
    rw [e1, e1']
    refine ⟨by simp, fun d B d' B' h1 h2 => ?_⟩
    injection h1 with h1
    injection h2 with h2
    obtain ⟨rfl, rfl⟩ := Prod.mk.inj h1
    obtain ⟨rfl, rfl⟩ := Prod.mk.inj h2
    refine ⟨by rw [hd], ?_⟩
    rw [e2, e2', hj, pinv_mul hu hcs]
  · rw [rightInvA_none hmn hcs, rightInvA_none hmn (hl.not.2 hcs)]
    simp

theorem subEntities_whole (d id : Nat) (hid : id < 2 ^ d) : subEntities d id 0 0 d = List.range (refSize d id d) ∧
    refSize3 d id 0 0 d = refSize d id d ∧ 0 < refSize d id d := by
  have hr := rep_topoOf d id
  have hs0 : 0 < refSize d id 0 := by rw [refSize, size_zero]; exact one_pos
  have hnpos : 0 < refSize d id d := by
    rw [refSize, size_eq hr _ (le_refl _)]
    exact Topo.sz_pos _ _ (by rw [hr.dim_eq])
  have h4 : refSize3 d id 0 0 d = refSize d id d := (C13_whole d id 0 d hid (le_refl _) hnpos).2
  refine ⟨?_, h4, hnpos⟩
  have h3 : (subEntities d id 0 0 d).length = refSize3 d id 0 0 d :=
    (C15_range d id 0 0 d hid (Nat.zero_le _) (le_refl _) hs0).1
  apply List.ext_getElem?
  intro j
  by_cases hj : j < refSize d id d
  · rw [List.getElem?_range hj, ← number_eq _ _ _ _ _ _ (by rw [h4]; exact hj)]
    exact (C13_whole d id j d hid (le_refl _) hj).1
  · rw [List.getElem?_eq_none (by omega), List.getElem?_eq_none (by rw [List.length_range]; omega)]

/-- C97: the centre of the reference element stays where it is. -/
theorem C97_center (d id : Nat) (hid : id < 2 ^ d) (σ : Nat → Nat) (a : Vec ℝ) (M : Mat ℝ) (h : Symmetry d id σ a M) :
    ∃ p : Vec ℝ, position d id 0 0 = some p ∧ ∀ i, i < d → affMap d a M p i = p i := by
  have hs0 : 0 < refSize d id 0 := by rw [refSize, size_zero]; exact one_pos
  obtain ⟨p, hp, hm⟩ := C21_mean (K := ℝ) d id 0 0 hid (Nat.zero_le _) hs0
  obtain ⟨e1, e2, e3⟩ := subEntities_whole d id hid
  refine ⟨p, hp, fun i hi => ?_⟩
  rw [e1, e2] at hm
  have hsum : ∀ r, (refSize d id d : ℝ) * p r = ∑ k ∈ range (refSize d id d), corner (K := ℝ) d id k r := by
    intro r
    rw [hm r, Finset.sum_range, ← List.sum_ofFn]
    congr 1
    apply List.ext_getElem <;> simp
  have hpos : (0 : ℝ) < refSize d id d := by exact_mod_cast e3
  have hperm : ∑ k ∈ range (refSize d id d), corner (K := ℝ) d id (σ k) i =
      ∑ k ∈ range (refSize d id d), corner (K := ℝ) d id k i := by
    refine Finset.sum_bij (fun k _ => σ k) (fun k hk => mem_range.2 (h.lt k (mem_range.1 hk)))
      (fun k hk k' hk' e => h.inj k k' (mem_range.1 hk) (mem_range.1 hk') e) (fun k hk => ?_) (fun _ _ => rfl)
    obtain ⟨k', hk', e⟩ := h.surj k (mem_range.1 hk)
    exact ⟨k', mem_range.2 hk', e⟩
  have hA : ∑ k ∈ range (refSize d id d), corner (K := ℝ) d id (σ k) i = (refSize d id d : ℝ) * affMap d a M p i := by
    rw [sum_congr rfl fun k hk => h.corner k (mem_range.1 hk) i hi]
    simp only [affMap, sum_add_distrib, sum_const, card_range, nsmul_eq_mul, mul_add, mul_sum]
    congr 1
    rw [sum_comm]
    refine sum_congr rfl fun r _ => ?_
    rw [← mul_sum, ← hsum r]
    ring
  rw [hperm, ← hsum i] at hA
  exact (mul_left_cancel₀ hpos.ne' hA).symm

/-- C97: the volume does not depend on the numbering. -/
theorem C97_volume (g : MultiLinearGeometry) (hg : Legal g) (hmn : g.mydim ≤ g.cdim) (hc : Covered g.mydim g.id)
    (htol : g.tol * g.corners < 1) (σ : Nat → Nat) (a : Vec ℝ) (M : Mat ℝ) (h : Symmetry g.mydim g.id σ a M) :
    (renumbered g σ).volume = g.volume ∧ (renumbered g σ).center = g.center := by
  obtain ⟨p, hp, hAp⟩ := C97_center g.mydim g.id hg.id_lt σ a M h
  obtain ⟨p', hp', hin⟩ := Compare.center_inner g.mydim g.id hg.id_lt
  rw [hp] at hp'
  obtain rfl := Option.some.inj hp'
  have hx : Away g.tol (topoOf g.mydim g.id) p :=
    clear_away hg.tol_pos.le (Or.inr (hin g.tol hg.tol_pos.le htol))
  have hx' : Away g.tol (topoOf g.mydim g.id) (affMap g.mydim a M p) :=
    away_congr _ (fun r hr => (hAp r (by rwa [topo_dim] at hr)).symm) hx
  have hie := ie_away g hg hmn hc h p hx hx'
  have hgl := global_away g hg hc h p hx hx'
  have hie' : g.integrationElement (affMap g.mydim a M p) = g.integrationElement p := by
    have hj := Motion.jt_congr (g := g) hg.id_lt hAp
    exact sqrtDet_eq hmn (by rw [hj]) (by rw [hj])
  rw [hie'] at hie
  rw [Motion.global_congr hg.id_lt hAp] at hgl
  constructor
  · change (do let p ← position (K := ℝ) g.mydim g.id 0 0
               let ie ← (renumbered g σ).integrationElement p
               return ie * referenceVolume g.mydim g.id) = _
    rw [volume, hp]
    simp only [Option.bind_eq_bind, Option.bind_some, hie]
  · change (position (K := ℝ) g.mydim g.id 0 0).map (renumbered g σ).global = (position (K := ℝ) g.mydim g.id 0 0).map g.global
    rw [hp, Option.map_some, Option.map_some, hgl]

/-! #### which numberings are allowed -/

/-- C97: for simplices every numbering is allowed. -/
theorem C97_simplex_any (d id : Nat) (hs : IsSimplexId d id) (σ : Nat → Nat) (hlt : ∀ k, k ≤ d → σ k ≤ d)
    (hinj : ∀ k k', k ≤ d → k' ≤ d → σ k = σ k' → k = k') : ∃ a M, Symmetry d id σ a M := by
  have hn : refSize d id d = d + 1 := by rw [← C17_count (K := ℝ), C17_simplex _ _ hs]; simp
  have him := imageOf_simplex ⟨d, d, id, fun k => corner (K := ℝ) d id (σ k), 0⟩ hs
  refine ⟨corner d id (σ 0), fun j r => corner d id (σ (r + 1)) j - corner d id (σ 0) j, ⟨fun k hk => ?_,
    fun k k' hk hk' => ?_, fun k hk i hi => ?_⟩⟩
  · rw [hn] at hk ⊢
    have := hlt k (by omega)
    omega
  · rw [hn] at hk hk'
    exact hinj k k' (by omega) (by omega)
  · have hk' := corner_get d id k hk
    rw [← cornersOf_eq (rep_topoOf d id)] at hk'
    exact him k _ hk' i hi

theorem square_table : ∀ s0 s1 s2 s3 : Fin 4, s0 ≠ s1 → s0 ≠ s2 → s0 ≠ s3 → s1 ≠ s2 → s1 ≠ s3 → s2 ≠ s3 →
    ((∀ i : Fin 2, (if s3.1.testBit i then (1 : Int) else 0) = (if s1.1.testBit i then (1 : Int) else 0) +
      (if s2.1.testBit i then (1 : Int) else 0) - (if s0.1.testBit i then (1 : Int) else 0)) ↔
      s0.1 + s3.1 = 3 ∧ s1.1 + s2.1 = 3) := by
  decide +kernel

/-- C97: a numbering of a quadrilateral is allowed exactly if opposite corners stay opposite. -/
theorem C97_quadrilateral (id : Nat) (hc : IsCubeId 2 id) (σ : Nat → Nat) (hlt : ∀ k, k < 4 → σ k < 4)
    (hinj : ∀ k k', k < 4 → k' < 4 → σ k = σ k' → k = k') :
    (∃ a M, Symmetry 2 id σ a M) ↔ (σ 0 + σ 3 = 3 ∧ σ 1 + σ 2 = 3) := by
  have hn : refSize 2 id 2 = 4 := cube_size 2 id hc
  have hne : ∀ k k', k < 4 → k' < 4 → k ≠ k' → ∀ (hk : σ k < 4) (hk' : σ k' < 4),
      (⟨σ k, hk⟩ : Fin 4) ≠ ⟨σ k', hk'⟩ := by
    intro k k' hk hk' hkk _ _ he
    exact hkk (hinj k k' hk hk' (Fin.mk.inj_iff.1 he))
  have ht := square_table ⟨σ 0, hlt 0 (by norm_num)⟩ ⟨σ 1, hlt 1 (by norm_num)⟩ ⟨σ 2, hlt 2 (by norm_num)⟩
    ⟨σ 3, hlt 3 (by norm_num)⟩ (hne 0 1 (by norm_num) (by norm_num) (by norm_num) _ _)
    (hne 0 2 (by norm_num) (by norm_num) (by norm_num) _ _) (hne 0 3 (by norm_num) (by norm_num) (by norm_num) _ _)
    (hne 1 2 (by norm_num) (by norm_num) (by norm_num) _ _) (hne 1 3 (by norm_num) (by norm_num) (by norm_num) _ _)
    (hne 2 3 (by norm_num) (by norm_num) (by norm_num) _ _)
  have cor : ∀ k, k < 4 → ∀ i, corner (K := ℝ) 2 id k i = if k.testBit i then 1 else 0 :=
    fun k hk i => cube_corner 2 id hc k hk i
  have cast : ∀ (k i : Nat), (if k.testBit i then (1 : ℝ) else 0) = ((if k.testBit i then (1 : Int) else 0 : Int) : ℝ) := by
    intro k i
    split_ifs <;> simp
  constructor
  · rintro ⟨a, M, h⟩
    refine ht.1 fun i => ?_
    have h0 := h.corner 0 (by rw [hn]; norm_num) i i.2
    have h1 := h.corner 1 (by rw [hn]; norm_num) i i.2
    have h2 := h.corner 2 (by rw [hn]; norm_num) i i.2
    have h3 := h.corner 3 (by rw [hn]; norm_num) i i.2
    simp only [affMap, sum_range_succ, sum_range_zero, _root_.zero_add] at h0 h1 h2 h3
    rw [cor 0 (by norm_num), cor 0 (by norm_num), cor _ (hlt 0 (by norm_num))] at h0
    rw [cor 1 (by norm_num), cor 1 (by norm_num), cor _ (hlt 1 (by norm_num))] at h1
    rw [cor 2 (by norm_num), cor 2 (by norm_num), cor _ (hlt 2 (by norm_num))] at h2
    rw [cor 3 (by norm_num), cor 3 (by norm_num), cor _ (hlt 3 (by norm_num))] at h3
    have b : Nat.testBit 1 0 = true ∧ Nat.testBit 1 1 = false ∧ Nat.testBit 2 0 = false ∧ Nat.testBit 2 1 = true ∧
      Nat.testBit 3 0 = true ∧ Nat.testBit 3 1 = true := by decide
    obtain ⟨b1, b2, b3, b4, b5, b6⟩ := b
    rw [cast (σ 0), Nat.zero_testBit, Nat.zero_testBit] at h0
    rw [cast (σ 1), b1, b2] at h1
    rw [cast (σ 2), b3, b4] at h2
    rw [cast (σ 3), b5, b6] at h3
    have : (((if (σ 3).testBit i then (1 : Int) else 0 : Int)) : ℝ) = ((if (σ 1).testBit i then (1 : Int) else 0 : Int) : ℝ) +
        ((if (σ 2).testBit i then (1 : Int) else 0 : Int) : ℝ) - ((if (σ 0).testBit i then (1 : Int) else 0 : Int) : ℝ) := by
      rw [h0, h1, h2, h3]
      norm_num
      ring
    exact_mod_cast this
  · intro hopp
    have hr := ht.2 hopp
    refine ⟨corner 2 id (σ 0), fun i r => corner 2 id (σ (r + 1)) i - corner 2 id (σ 0) i, ⟨fun k hk => ?_,
      fun k k' hk hk' => ?_, fun k hk i hi => ?_⟩⟩
    · rw [hn] at hk ⊢
      exact hlt k hk
    · rw [hn] at hk hk'
      exact hinj k k' hk hk'
    · rw [hn] at hk
      have hri := hr ⟨i, hi⟩
      have hrR : corner (K := ℝ) 2 id (σ 3) i =
          corner 2 id (σ 1) i + corner 2 id (σ 2) i - corner 2 id (σ 0) i := by
        rw [cor _ (hlt 0 (by norm_num)), cor _ (hlt 1 (by norm_num)), cor _ (hlt 2 (by norm_num)),
          cor _ (hlt 3 (by norm_num)), cast, cast, cast, cast]
        exact_mod_cast hri
      simp only [affMap, sum_range_succ, sum_range_zero, _root_.zero_add, cor k hk]
      interval_cases k
      · simp
      · simp [show Nat.testBit 1 1 = false from rfl]
      · simp [show Nat.testBit 2 0 = false from rfl, show Nat.testBit 2 1 = true from rfl]
      · simp only [show Nat.testBit 3 0 = true from rfl, show Nat.testBit 3 1 = true from rfl, if_true]
        rw [hrR]
        ring

/-! #### neighbouring elements -/

/-- C97: two elements that share a face (with corners numbered in different order) describe the same points of the face. -/
theorem C97_neighbours (g₁ g₂ : MultiLinearGeometry) (h₁ : Legal g₁) (h₂ : Legal g₂) (hd₁ : g₁.mydim ≤ 31)
    (hd₂ : g₂.mydim ≤ 31) (htol : g₂.tol = g₁.tol) (i₁ c₁ i₂ c₂ : Nat) (hc₁ : c₁ ≤ g₁.mydim) (hc₂ : c₂ ≤ g₂.mydim)
    (hi₁ : i₁ < refSize g₁.mydim g₁.id c₁) (hi₂ : i₂ < refSize g₂.mydim g₂.id c₂) (e₁ e₂ : Vec ℝ × Mat ℝ)
    (he₁ : (referenceEmbeddings (K := ℝ) g₁.mydim g₁.id c₁)[i₁]? = some e₁)
    (he₂ : (referenceEmbeddings (K := ℝ) g₂.mydim g₂.id c₂)[i₂]? = some e₂) (m id : Nat) (hm₁ : g₁.mydim - c₁ = m)
    (hm₂ : g₂.mydim - c₂ = m) (hid₁ : (refType g₁.mydim g₁.id i₁ c₁).id = id) (hid₂ : (refType g₂.mydim g₂.id i₂ c₂).id = id)
    (hidm : id < 2 ^ m) (hcov : Covered m id) (σ : Nat → Nat) (a : Vec ℝ) (M : Mat ℝ) (hsym : Symmetry m id σ a M)
    (hcor : ∀ v, v < refSize m id m → ∃ k₁ k₂, subEntity g₁.mydim g₁.id i₁ c₁ (σ v) g₁.mydim = some k₁ ∧
      subEntity g₂.mydim g₂.id i₂ c₂ v g₂.mydim = some k₂ ∧ g₂.corners_ k₂ = g₁.corners_ k₁)
    (x : Vec ℝ) (hx : checkInside m id x (-g₁.tol) 1 = true) (hx' : checkInside m id (affMap m a M x) (-g₁.tol) 1 = true) :
    g₂.global (embed m e₂ x) = g₁.global (embed m e₁ (affMap m a M x)) := by
  let gf : MultiLinearGeometry := ⟨m, g₁.cdim, id,
    fun v => g₁.corners_ ((subEntity g₁.mydim g₁.id i₁ c₁ v g₁.mydim).getD 0), g₁.tol⟩
  have hgf : Legal gf := ⟨hidm, h₁.tol_pos, h₁.tol_lt⟩
  have r1 := C57_restriction g₁ h₁ hd₁ i₁ c₁ hc₁ hi₁ e₁ he₁ gf hm₁.symm hid₁.symm rfl
    (fun v k _ hk => by change g₁.corners_ _ = _; rw [hk]; rfl) (affMap m a M x) hx'
  have r2 := C57_restriction g₂ h₂ hd₂ i₂ c₂ hc₂ hi₂ e₂ he₂ (renumbered gf σ) hm₂.symm hid₂.symm htol.symm
    (fun v k hv hk => by
      obtain ⟨k₁, k₂, hk₁, hk₂, he⟩ := hcor v hv
      rw [hk] at hk₂
      obtain rfl := Option.some.inj hk₂
      change g₁.corners_ ((subEntity g₁.mydim g₁.id i₁ c₁ (σ v) g₁.mydim).getD 0) = _
      rw [hk₁, he]
      rfl) x hx
  rw [hm₁] at r1
  rw [hm₂] at r2
  rw [r1, r2]
  exact C97_global gf hgf hcov σ a M hsym x (Or.inr hx) (Or.inr hx')

/-! #### what does not work -/

/-- the unit square -/
def unitSquare : MultiLinearGeometry :=
  ⟨2, 2, 3, fun k j => if j < 2 then (if k.testBit j then 1 else 0) else 0, 1 / 10⟩

theorem square_cube : IsCubeId 2 3 := by
  intro k h1 h2
  have : k = 1 := by omega
  subst this
  rfl

theorem square_legal : Legal unitSquare := ⟨by change 3 < 2 ^ 2; norm_num, by change (0 : ℝ) < 1 / 10; norm_num, by change (1 / 10 : ℝ) < 1; norm_num⟩

/-- exchange of the corners 2 and 3 -/
def twist (k : Nat) : Nat := if k = 2 then 3 else if k = 3 then 2 else k

theorem twist_global (x : Vec ℝ) : (renumbered unitSquare twist).global x 0 = x 0 * (1 - x 1) + (1 - x 0) * x 1 ∧
    (renumbered unitSquare twist).global x 1 = x 1 := by
  have h : ∀ j, (renumbered unitSquare twist).global x j = _ := fun j =>
    C31_cube_formula (renumbered unitSquare twist) (renumbered_legal square_legal _) square_cube x j
  constructor <;> rw [h] <;>
    simp [renumbered, unitSquare, twist, sum_range_succ, prod_range_succ, Nat.testBit, Nat.shiftRight_eq_div_pow] <;> ring

/-- C97 needs the symmetry: with two corners of a square exchanged the geometry is a different set of points (a butterfly):
the midpoint of an edge of the square is not in its image. -/
theorem C97_twist_counterexample : ¬ (∃ a M, Symmetry 2 3 twist a M) ∧
    ∃ x, unitSquare.global x 0 = 1 ∧ unitSquare.global x 1 = 1 / 2 ∧ Clear unitSquare.tol 2 3 x ∧
      ∀ z, ¬ ((renumbered unitSquare twist).global z 0 = 1 ∧ (renumbered unitSquare twist).global z 1 = 1 / 2) := by
  constructor
  · intro h
    have := (C97_quadrilateral 3 square_cube twist (by decide) (fun k k' hk hk' => by
      interval_cases k <;> interval_cases k' <;> simp [twist])).1 h
    simp [twist] at this
  · refine ⟨fun r => if r = 0 then 1 else 1 / 2, ?_, ?_, Or.inl square_cube, ?_⟩
    · rw [C31_cube_formula unitSquare square_legal square_cube]
      simp [unitSquare, sum_range_succ, prod_range_succ, Nat.testBit, Nat.shiftRight_eq_div_pow]
    · rw [C31_cube_formula unitSquare square_legal square_cube]
      simp [unitSquare, sum_range_succ, prod_range_succ, Nat.testBit, Nat.shiftRight_eq_div_pow]
    · intro z hz
      obtain ⟨e0, e1⟩ := twist_global z
      rw [e0, e1] at hz
      obtain ⟨z0, z1⟩ := hz
      rw [z1] at z0
      norm_num at z0
      linarith

/-- the unit cube with one corner moved by `δ` in the first direction -/
def dent (tol δ : ℝ) : MultiLinearGeometry :=
  ⟨3, 3, 7, fun k j => if j < 3 then (if k.testBit j then 1 else 0) + (if k = 7 ∧ j = 0 then δ else 0) else 0, tol⟩

/-- rotation of the cube by half a turn about the third axis -/
def halfTurn (k : Nat) : Nat := k ^^^ 3

theorem hex_cube : IsCubeId 3 7 := by
  intro k h1 h2
  have : k = 1 ∨ k = 2 := by omega
  rcases this with rfl | rfl <;> rfl

theorem halfTurn_symmetry : Symmetry 3 7 halfTurn (fun i => if i < 2 then 1 else 0)
    (fun i r => if i = r then (if i < 2 then -1 else 1) else 0) := by
  have hn : refSize 3 7 3 = 8 := cube_size 3 7 hex_cube
  have hl : ∀ k, k < 8 → halfTurn k < 8 := by decide
  refine ⟨fun k hk => ?_, fun k k' hk hk' => ?_, fun k hk i hi => ?_⟩
  · rw [hn] at hk ⊢
    exact hl k hk
  · intro h
    exact Nat.xor_left_injective h
  · rw [hn] at hk
    rw [cube_corner 3 7 hex_cube _ (hl k hk), affMap, sum_eq_single_of_mem i (mem_range.2 hi)
      (fun b _ hb => by rw [if_neg (Ne.symm hb), MulZeroClass.zero_mul]), cube_corner 3 7 hex_cube k hk, if_pos rfl,
      halfTurn, Nat.testBit_xor]
    interval_cases i
    · rw [show Nat.testBit 3 0 = true from rfl]
      cases k.testBit 0 <;> simp
    · rw [show Nat.testBit 3 1 = true from rfl]
      cases k.testBit 1 <;> simp
    · rw [show Nat.testBit 3 2 = false from rfl]
      cases k.testBit 2 <;> simp

/-- C97 does not extend to `affine`: a hexahedron that is nearly a cube is reported as affine with one numbering of the
corners and as not affine with another.  (The test compares sums of squares over different edges with the tolerance.) -/
theorem C97_affine_counterexample (tol δ : ℝ) (h0 : 0 < tol) (h1 : tol < 1) (hδ : δ ^ 2 < tol) (hδ' : tol ≤ 2 * δ ^ 2) :
    Legal (dent tol δ) ∧ Symmetry 3 7 halfTurn (fun i => if i < 2 then 1 else 0)
      (fun i r => if i = r then (if i < 2 then -1 else 1) else 0) ∧
    (dent tol δ).affine = true ∧ (renumbered (dent tol δ) halfTurn).affine = false := by
  have hg : Legal (dent tol δ) := ⟨by change 7 < 2 ^ 3; norm_num, h0, h1⟩
  have ht : topoOf 3 7 = .prism (.prism (.prism .pt)) := rfl
  refine ⟨hg, halfTurn_symmetry, ?_, ?_⟩
  · refine (affine_iff _ hg.id_lt).2 ?_
    change IsAff tol 3 (topoOf 3 7) _
    rw [ht]
    simp [IsAff, gap, ajt, nv, Topo.dim, Topo.sz, sum_range_succ, dent, Nat.testBit, Nat.shiftRight_eq_div_pow, h0]
    linarith
  · rw [Bool.eq_false_iff]
    intro h
    have h := (affine_iff _ (renumbered_legal hg halfTurn).id_lt).1 h
    change IsAff tol 3 (topoOf 3 7) _ at h
    rw [ht] at h
    simp [IsAff, gap, ajt, nv, Topo.dim, Topo.sz, sum_range_succ, dent, renumbered, halfTurn, Nat.testBit,
      Nat.shiftRight_eq_div_pow] at h
    linarith [h.2.2]

/-! ### examples -/

/-- a triangle next to a triangle: the common edge is run through in opposite directions -/
example : ∃ a M, Symmetry 1 0 (fun k => 1 - k) a M :=
  C97_simplex_any 1 0 (fun k h1 h2 => by omega) _ (fun k hk => by omega) (fun k k' hk hk' h => by omega)

/-- the quarter turn of the square -/
example : ∃ a M, Symmetry 2 3 (fun k => [1, 3, 0, 2].getD k k) a M :=
  (C97_quadrilateral 3 square_cube _ (by decide) (fun k k' hk hk' => by
    interval_cases k <;> interval_cases k' <;> simp)).2 (by simp)

/-- a hexahedron with bent faces, turned by half a turn -/
example (x : Vec ℝ) : (renumbered (dent (1 / 10) 2) halfTurn).global x = (dent (1 / 10) 2).global
    (affMap 3 (fun i => if i < 2 then 1 else 0) (fun i r => if i = r then (if i < 2 then -1 else 1) else 0) x) :=
  C97_global (dent (1 / 10) 2) ⟨by change 7 < 2 ^ 3; norm_num, by change (0 : ℝ) < 1 / 10; norm_num,
    by change (1 / 10 : ℝ) < 1; norm_num⟩ (Or.inr (Or.inl hex_cube)) halfTurn _ _ halfTurn_symmetry x (Or.inl hex_cube)
    (Or.inl hex_cube)

example : (renumbered (dent (1 / 10) 2) halfTurn).volume = (dent (1 / 10) 2).volume :=
  (C97_volume (dent (1 / 10) 2) ⟨by change 7 < 2 ^ 3; norm_num, by change (0 : ℝ) < 1 / 10; norm_num,
    by change (1 / 10 : ℝ) < 1; norm_num⟩ (le_refl 3) (Or.inr (Or.inl hex_cube)) (by
      have : (dent (1 / 10) 2).corners = 8 := cube_size 3 7 hex_cube
      rw [this]
      change (1 / 10 : ℝ) * ((8 : Nat) : ℝ) < 1
      norm_num) halfTurn _ _ halfTurn_symmetry).1

/-- a prism and a pyramid have non-trivial symmetries -/
example : Symmetry 3 3 (fun k => [1, 0, 3, 2, 4].getD k k) (fun i => if i = 0 then 1 else 0)
    (fun i r => if i = r then (if i = 0 then -1 else 1) else if i = 0 ∧ r = 2 then -1 else 0) := by
  have hn : refSize 3 3 3 = 5 := pyr_size (Or.inr rfl)
  refine ⟨fun k hk => ?_, fun k k' hk hk' => ?_, fun k hk i hi => ?_⟩
  · rw [hn] at hk ⊢
    interval_cases k <;> simp
  · rw [hn] at hk hk'
    interval_cases k <;> interval_cases k' <;> simp
  · rw [hn] at hk
    have c : ∀ (k : Fin 5) (i : Fin 3), corner (K := ℝ) 3 3 k i = (pyrCorner k i : ℝ) := pyr_corner (Or.inr rfl)
    have c' : ∀ k i, k < 5 → i < 3 → corner (K := ℝ) 3 3 k i = (pyrCorner k i : ℝ) :=
      fun k i hk hi => c ⟨k, hk⟩ ⟨i, hi⟩
    rw [affMap, sum_range_succ, sum_range_succ, sum_range_succ, sum_range_zero, c' k 0 hk (by norm_num),
      c' k 1 hk (by norm_num), c' k 2 hk (by norm_num), c' _ i (by interval_cases k <;> simp) hi]
    interval_cases k <;> interval_cases i <;> simp [pyrCorner]

/-- the square to the right of the unit square, numbered from the top -/
def rightSquare : MultiLinearGeometry :=
  ⟨2, 2, 3, fun k j => if j = 0 then 1 + (if k.testBit 0 then 1 else 0) else if j = 1 then (if k.testBit 1 then 0 else 1) else 0,
    1 / 10⟩

/-- the two squares agree on the common edge -/
example : ∃ e₁ e₂ a M, (referenceEmbeddings (K := ℝ) 2 3 1)[1]? = some e₁ ∧ (referenceEmbeddings (K := ℝ) 2 3 1)[0]? = some e₂ ∧
    ∀ x, checkInside 1 (refType 2 3 1 1).id x (-(1 / 10)) 1 = true →
      checkInside 1 (refType 2 3 1 1).id (affMap 1 a M x) (-(1 / 10)) 1 = true →
      rightSquare.global (embed 1 e₂ x) = unitSquare.global (embed 1 e₁ (affMap 1 a M x)) := by
  have hr : rightSquare.mydim = 2 := rfl
  have hlen : (referenceEmbeddings (K := ℝ) 2 3 1).length = 4 := by
    rw [(C20_basic (K := ℝ) 2 3 (by norm_num)).1 1 (by norm_num)]
    decide
  obtain ⟨a, M, hsym⟩ := C97_simplex_any 1 (refType 2 3 1 1).id (fun k h1 h2 => by omega) (fun k => 1 - k)
    (fun k hk => by omega) (fun k k' hk hk' h => by omega)
  refine ⟨_, _, a, M, List.getElem?_eq_getElem (by rw [hlen]; norm_num), List.getElem?_eq_getElem (by rw [hlen]; norm_num),
    fun x hx hx' => ?_⟩
  refine C97_neighbours unitSquare rightSquare square_legal ⟨by change 3 < 2 ^ 2; norm_num, by change (0 : ℝ) < 1 / 10; norm_num,
    by change (1 / 10 : ℝ) < 1; norm_num⟩ (by change 2 ≤ 31; norm_num) (by change 2 ≤ 31; norm_num) rfl 1 1 0 1
    (by change 1 ≤ 2; norm_num) (by change 1 ≤ 2; norm_num) (by decide) (by decide) _ _
    (List.getElem?_eq_getElem _) (List.getElem?_eq_getElem _) 1 (refType 2 3 1 1).id rfl rfl rfl (by decide) (by decide)
    (Or.inr (Or.inr (by norm_num))) (fun k => 1 - k) a M hsym ?_ x hx hx'
  intro v hv
  have hv2 : v < 2 := by
    have e : refSize 1 (refType 2 3 1 1).id 1 = 2 := by decide
    rwa [e] at hv
  interval_cases v
  · refine ⟨3, 0, by decide, by decide, ?_⟩
    funext j
    simp [rightSquare, unitSquare, Nat.testBit, Nat.shiftRight_eq_div_pow]
    split_ifs <;> first | rfl | omega | (interval_cases j <;> simp_all)
  · refine ⟨1, 2, by decide, by decide, ?_⟩
    funext j
    simp [rightSquare, unitSquare, Nat.testBit, Nat.shiftRight_eq_div_pow]
    split_ifs <;> first | rfl | omega | (interval_cases j <;> simp_all)

end

end Verif.Neighbour
