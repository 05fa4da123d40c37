import Verif.Piola.Props

/-! Property theorems: divergences of contravariant fields and gradients on mapped elements (C121). -/

namespace Verif.Piola

open Verif.Typ Verif.RefTopo Verif.RefGeom Verif.MatHelp Verif.MultiLinear Verif.Affine
open Verif.Quad (partialDeriv partialDeriv_comp contDiff_adj piola multiLinearMap multiLinearMap_contDiff multiLinearMap_hasFDerivAt)
open Finset hiding ext
open Matrix hiding vec
open Filter Topology

/-! ### helper lemmas -/

variable {m : Nat}

/-- divergence of a field that is pulled back with the adjugate -/
theorem divergence_adjugate {w : (Fin m → ℝ) → Fin m → ℝ} (hw : ∀ k, ContDiff ℝ 1 fun y => w y k) {Φ : (Fin m → ℝ) → Fin m → ℝ}
    (hΦ : ContDiff ℝ 2 Φ) (x : Fin m → ℝ) :
    ∑ j, partialDeriv (fun y => (adjugate (Quad.jac Φ y) *ᵥ w (Φ y)) j) j x = (Quad.jac Φ x).det * ∑ k, partialDeriv (fun y => w y k) k (Φ x) := by
  have hwΦ : ∀ k, ContDiff ℝ 1 fun x => w (Φ x) k := fun k => (hw k).comp (hΦ.of_le (by norm_num))
  have hp : ∀ j, partialDeriv (fun y => (adjugate (Quad.jac Φ y) *ᵥ w (Φ y)) j) j x =
      ∑ k, (w (Φ x) k * partialDeriv (fun y => adjugate (Quad.jac Φ y) j k) j x +
        adjugate (Quad.jac Φ x) j k * ∑ i, partialDeriv (fun y => w y k) i (Φ x) * Quad.jac Φ x i j) := by
    intro j
    have hd : ∀ k, DifferentiableAt ℝ (fun y => w (Φ y) k * adjugate (Quad.jac Φ y) j k) x := fun k =>
      (((hwΦ k).mul (contDiff_adj hΦ j k)).differentiable (by norm_num)) x
    have e : (fun y => (adjugate (Quad.jac Φ y) *ᵥ w (Φ y)) j) = fun y => ∑ k, w (Φ y) k * adjugate (Quad.jac Φ y) j k := by
      funext y
      change ∑ k, adjugate (Quad.jac Φ y) j k * w (Φ y) k = _
      exact sum_congr rfl fun k _ => mul_comm _ _
    rw [partialDeriv, e, fderiv_fun_sum fun k _ => hd k, _root_.sum_apply]
    refine sum_congr rfl fun k _ => ?_
    rw [← partialDeriv_comp (hw k) hΦ,
      fderiv_fun_mul (((hwΦ k).differentiable (by norm_num)) x) (((contDiff_adj hΦ j k).differentiable (by norm_num)) x)]
    simp only [_root_.add_apply, _root_.smul_apply, smul_eq_mul]
    rfl
  simp only [hp]
  rw [sum_comm, mul_sum]
  refine sum_congr rfl fun k _ => ?_
  rw [sum_add_distrib, ← mul_sum, piola hΦ, mul_zero, zero_add]
  simp only [mul_sum]
  rw [sum_comm]
  have : ∀ i, ∑ j, adjugate (Quad.jac Φ x) j k * (partialDeriv (fun y => w y k) i (Φ x) * Quad.jac Φ x i j) =
      partialDeriv (fun y => w y k) i (Φ x) * ((Quad.jac Φ x).det * (1 : Matrix (Fin m) (Fin m) ℝ) i k) := by
    intro i
    have h := congrFun (congrFun (mul_adjugate (Quad.jac Φ x)) i) k
    rw [Matrix.smul_apply, smul_eq_mul, mul_apply] at h
    rw [← h, mul_sum]
    exact sum_congr rfl fun j _ => by ring
  simp only [this]
  rw [sum_eq_single k (fun i _ hi => by rw [one_apply_ne hi]; ring) (by simp), one_apply_eq]
  ring

/-- the sign of a determinant does not change nearby -/
theorem abs_det_near {A : (Fin m → ℝ) → Matrix (Fin m) (Fin m) ℝ} {x : Fin m → ℝ} (hA : ContinuousAt (fun y => (A y).det) x)
    (hd : (A x).det ≠ 0) : ∃ s : ℝ, |(A x).det| = s * (A x).det ∧ ∀ᶠ y in 𝓝 x, |(A y).det| = s * (A y).det ∧ (A y).det ≠ 0 := by
  rcases lt_or_gt_of_ne hd with h | h
  · exact ⟨-1, by rw [abs_of_neg h]; ring, (hA.eventually (gt_mem_nhds h)).mono fun y hy => ⟨by rw [abs_of_neg hy]; ring, hy.ne⟩⟩
  · exact ⟨1, by rw [abs_of_pos h]; ring, (hA.eventually (lt_mem_nhds h)).mono fun y hy => ⟨by rw [abs_of_pos hy]; ring, hy.ne'⟩⟩

theorem jac_multiLinear {g : MultiLinearGeometry} (hg : Legal g) (hc : IsCubeId g.mydim g.id) (hd : g.cdim = g.mydim) (x : Fin g.mydim → ℝ) :
    Quad.jac (multiLinearMap g) x = (mat g.mydim g.mydim (g.jacobianTransposed (RefGeom.ext x)))ᵀ := by
  have h := multiLinearMap_hasFDerivAt hg hc hd x
  funext i l
  have hi := (hasFDerivAt_pi'.1 h i).fderiv
  change fderiv ℝ (fun y => multiLinearMap g y i) x (Pi.single l 1) = _
  rw [hi]
  simp [Matrix.toLin'_apply]

/-! ### C121 -/

/-- C121: gradients.  The covariant transformation of the gradient on the reference element of `u(global(x))` is the gradient of `u`. -/
theorem C121_gradient (g : MultiLinearGeometry) (hg : Legal g) (hc : IsCubeId g.mydim g.id) (hd : g.cdim = g.mydim)
    (u : (Fin g.mydim → ℝ) → ℝ) (hu : ContDiff ℝ 1 u) (x : Fin g.mydim → ℝ) (r : ℝ × Mat ℝ)
    (hr : g.jacobianInverseTransposed (RefGeom.ext x) = some r) :
    (covariant r (fun j => partialDeriv (fun y => u (multiLinearMap g y)) j x) : Fin g.mydim → ℝ) =
      fun k => partialDeriv u k (multiLinearMap g x) := by
  rw [MultiLinearGeometry.jacobianInverseTransposed, hd] at hr
  have h1 := (right_inverse le_rfl hr).1
  have e : (fun j => partialDeriv (fun y => u (multiLinearMap g y)) j x) =
      mat g.mydim g.mydim (g.jacobianTransposed (RefGeom.ext x)) *ᵥ fun k => partialDeriv u k (multiLinearMap g x) := by
    funext j
    rw [partialDeriv_comp hu (multiLinearMap_contDiff hg hc), jac_multiLinear hg hc hd]
    exact sum_congr rfl fun i _ => mul_comm _ _
  rw [e, covariant, mulVec_mulVec, mul_eq_one_comm.1 h1, one_mulVec]

/-- C121: divergences.  If the field `w` in the world is the contravariant image of the field `v` on the reference element, then the
divergence of `v` is the divergence of `w` times the integration element.  For multilinear elements on cubes that need not be affine, of
either orientation. -/
theorem C121_divergence (g : MultiLinearGeometry) (hg : Legal g) (hc : IsCubeId g.mydim g.id) (hd : g.cdim = g.mydim)
    (v w : (Fin g.mydim → ℝ) → Fin g.mydim → ℝ) (hw : ∀ k, ContDiff ℝ 1 fun y => w y k) (x : Fin g.mydim → ℝ) (r : ℝ × Mat ℝ)
    (hr : g.jacobianInverseTransposed (RefGeom.ext x) = some r)
    (hv : ∀ᶠ y in 𝓝 x, ∀ r', g.jacobianInverseTransposed (RefGeom.ext y) = some r' →
      contravariant (g.jacobianTransposed (RefGeom.ext y)) r' (v y) = w (multiLinearMap g y)) :
    ∃ ie, g.integrationElement (RefGeom.ext x) = some ie ∧ 0 < ie ∧
      ∑ j, partialDeriv (fun y => v y j) j x = ie * ∑ k, partialDeriv (fun y => w y k) k (multiLinearMap g x) := by
  have hΦ := multiLinearMap_contDiff hg hc
  have hJ := jac_multiLinear hg hc hd
  set J : (Fin g.mydim → ℝ) → Matrix (Fin g.mydim) (Fin g.mydim) ℝ := fun y => mat g.mydim g.mydim (g.jacobianTransposed (RefGeom.ext y)) with hJd
  rw [MultiLinearGeometry.jacobianInverseTransposed, hd] at hr
  obtain ⟨h1, h2, h3⟩ := right_inverse le_rfl hr
  have hdet : (J x).det ≠ 0 := fun h => by
    have := congrArg det h1
    rw [det_mul, det_one] at this
    rw [show (mat g.mydim g.mydim (g.jacobianTransposed (RefGeom.ext x))).det = 0 from h, zero_mul] at this
    exact zero_ne_one this
  have hli : ∀ y, (J y).det ≠ 0 → LinearIndependent ℝ (J y).row := fun y h =>
    linearIndependent_rows_of_isUnit ((isUnit_iff_isUnit_det _).2 (isUnit_iff_ne_zero.2 h))
  have hcont : ContinuousAt (fun y => (J y).det) x := by
    have e : (fun y => (J y).det) = fun y => (Quad.jac (multiLinearMap g) y).det := by
      funext y; rw [hJ, det_transpose]
    rw [e]
    exact (Quad.contDiff_det (Quad.contDiff_jac hΦ)).continuous.continuousAt
  obtain ⟨s, hs, hnear⟩ := abs_det_near hcont hdet
  have hie : g.integrationElement (RefGeom.ext x) = some |(J x).det| := by
    rw [MultiLinearGeometry.integrationElement, hd, C27_sqrtDetAAT_partial _ _ _ (Or.inl (hli x hdet)), Quad.sqrt_det_square, det_transpose]
  refine ⟨|(J x).det|, hie, abs_pos.2 hdet, ?_⟩
  -- nearby the field is the pull-back with the adjugate, up to the sign
  have hev : ∀ᶠ y in 𝓝 x, v y = s • (adjugate (Quad.jac (multiLinearMap g) y) *ᵥ w (multiLinearMap g y)) := by
    filter_upwards [hnear, hv] with y hy hvy
    obtain ⟨R, p1, p2, _⟩ := C26_rightInvA g.mydim g.mydim _ le_rfl (hli y hy.2)
    have p1' : g.jacobianInverseTransposed (RefGeom.ext y) = some (Real.sqrt (J y * (J y)ᵀ).det, R) := by
      rw [MultiLinearGeometry.jacobianInverseTransposed, hd]; exact p1
    have hdy : Real.sqrt (J y * (J y)ᵀ).det = |(J y).det| := by rw [Quad.sqrt_det_square, det_transpose]
    rw [← hvy _ p1', contravariant, hJ, mulVec_smul, smul_smul, mulVec_mulVec, adjugate_mul, det_transpose, smul_mulVec, one_mulVec, smul_smul]
    have : s * (Real.sqrt (J y * (J y)ᵀ).det)⁻¹ * (J y).det = 1 := by
      rw [hdy, mul_right_comm, ← hy.1, mul_inv_cancel₀ (abs_ne_zero.2 hy.2)]
    exact (congrArg (· • v y) this).trans (one_smul _ _) |>.symm
  have hpd : ∀ j, partialDeriv (fun y => v y j) j x =
      s * partialDeriv (fun y => (adjugate (Quad.jac (multiLinearMap g) y) *ᵥ w (multiLinearMap g y)) j) j x := by
    intro j
    have e : (fun y => v y j) =ᶠ[𝓝 x] fun y => s * (adjugate (Quad.jac (multiLinearMap g) y) *ᵥ w (multiLinearMap g y)) j :=
      hev.mono fun y hy => by change v y j = _; rw [hy]; rfl
    have hdiff : DifferentiableAt ℝ (fun y => (adjugate (Quad.jac (multiLinearMap g) y) *ᵥ w (multiLinearMap g y)) j) x := by
      have : ContDiff ℝ 1 fun y => ∑ k, adjugate (Quad.jac (multiLinearMap g) y) j k * w (multiLinearMap g y) k :=
        ContDiff.sum fun k _ => (contDiff_adj hΦ j k).mul ((hw k).comp (hΦ.of_le (by norm_num)))
      exact (this.differentiable (by norm_num)) x
    rw [partialDeriv, e.fderiv_eq, fderiv_const_mul hdiff]
    rfl
  rw [sum_congr rfl fun j _ => hpd j, ← mul_sum, divergence_adjugate hw hΦ, hJ, det_transpose, ← mul_assoc, ← hs]

/-- every field `w` is the contravariant image of a field `v`, wherever the element is regular -/
theorem contravariant_exists (g : MultiLinearGeometry) (hd : g.cdim = g.mydim) (w : (Fin g.mydim → ℝ) → Fin g.mydim → ℝ) :
    ∃ v : (Fin g.mydim → ℝ) → Fin g.mydim → ℝ, ∀ y r, g.jacobianInverseTransposed (RefGeom.ext y) = some r →
      contravariant (g.jacobianTransposed (RefGeom.ext y)) r (v y) = w (multiLinearMap g y) := by
  refine ⟨fun y => match g.jacobianInverseTransposed (RefGeom.ext y) with
    | some r => r.1 • ((mat g.mydim g.mydim r.2)ᵀ *ᵥ w (multiLinearMap g y))
    | none => 0, fun y r hr => ?_⟩
  dsimp only
  rw [hr]
  rw [MultiLinearGeometry.jacobianInverseTransposed, hd] at hr
  obtain ⟨h1, -, h3⟩ := right_inverse le_rfl hr
  rw [contravariant, mulVec_smul, smul_smul, inv_mul_cancel₀ h3.ne', one_smul, mulVec_mulVec, ← transpose_mul, mul_eq_one_comm.1 h1,
    transpose_one, one_mulVec]

/-- the hypotheses hold at the centre of a trapezoid, which is not affine, for every field in the world -/
example (w : (Fin 2 → ℝ) → Fin 2 → ℝ) : Legal Patch.trapezoid ∧ IsCubeId Patch.trapezoid.mydim Patch.trapezoid.id ∧
    (∃ r, Patch.trapezoid.jacobianInverseTransposed (fun _ => 1 / 2) = some r) ∧
    ∃ v : (Fin 2 → ℝ) → Fin 2 → ℝ, ∀ y r, Patch.trapezoid.jacobianInverseTransposed (RefGeom.ext y) = some r →
      contravariant (Patch.trapezoid.jacobianTransposed (RefGeom.ext y)) r (v y) = w (multiLinearMap Patch.trapezoid y) := by
  obtain ⟨R, h, _⟩ := C26_rightInvA 2 2 _ le_rfl Patch.trapezoid_regular
  exact ⟨Patch.trapezoid_legal, Patch.trapezoid_cube, ⟨_, h⟩, contravariant_exists Patch.trapezoid rfl w⟩

end Verif.Piola
