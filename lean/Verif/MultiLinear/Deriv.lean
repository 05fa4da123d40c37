import Verif.MultiLinear.Lemmas
import Mathlib.Analysis.Calculus.FDeriv.Mul
import Mathlib.Analysis.Calculus.Deriv.Inv
import Mathlib.Analysis.Calculus.Deriv.Comp

/-! The Jacobian of the code is the Fréchet derivative of the map. -/

namespace Verif.MultiLinear

open Verif.RefGeom Verif.MatHelp Verif.RefTopo Verif.Typ Finset

variable {E : Type*} [NormedAddCommGroup E] [NormedSpace ℝ E]

theorem far_eventually {tol : ℝ} {f : E → ℝ} {e : E} (hf : ContinuousAt f e) (h : far tol (f e)) :
    ∀ᶠ e' in nhds e, far tol (f e') := by
  rcases h with h | h
  · exact (hf.eventually (isOpen_Ioi.mem_nhds h)).mono fun _ h => Or.inl h
  · exact (hf.eventually (isOpen_Iio.mem_nhds h)).mono fun _ h => Or.inr h

theorem ML_hasFDerivAt {tol : ℝ} (h0 : 0 ≤ tol) : ∀ (t : Topo) (c : Nat → ℝ) (z : Nat → E → ℝ) (z' : Nat → E →L[ℝ] ℝ)
    (e : E), (∀ r, r < t.dim → HasFDerivAt (z r) (z' r) e) → Away tol t (fun r => z r e) →
    HasFDerivAt (fun e => ML tol t c (fun r => z r e)) (∑ r ∈ range t.dim, MLd tol t c (fun r => z r e) r • z' r) e
  | .pt, c, z, z', e, _, _ => by
    simp only [ML, Topo.dim, range_zero, sum_empty]
    exact hasFDerivAt_const _ _
  | .prism t, c, z, z', e, hz, ha => by
    have hz' : ∀ r, r < t.dim → HasFDerivAt (z r) (z' r) e := fun r hr => hz r (by simp only [Topo.dim]; omega)
    have hd := hz t.dim (by simp [Topo.dim])
    have h1 := ML_hasFDerivAt h0 t c z z' e hz' ha
    have h2 := ML_hasFDerivAt h0 t (fun k => c (nv t + k)) z z' e hz' ha
    have h := ((hd.const_sub 1).mul h1).add (hd.mul h2)
    refine HasFDerivAt.congr_fderiv h ?_
    ext v
    simp only [Topo.dim]
    rw [sum_range_succ]
    have e1 : ∀ r ∈ range t.dim, MLd tol (.prism t) c (fun r => z r e) r • z' r =
        (1 - z t.dim e) • (MLd tol t c (fun r => z r e) r • z' r) +
          z t.dim e • (MLd tol t (fun k => c (nv t + k)) (fun r => z r e) r • z' r) := by
      intro r hr
      have : r ≠ t.dim := by have := mem_range.1 hr; omega
      rw [MLd, if_neg this, add_smul, mul_smul, mul_smul]
    rw [sum_congr rfl e1, sum_add_distrib, ← smul_sum, ← smul_sum]
    have e2 : MLd tol (.prism t) c (fun r => z r e) t.dim =
        ML tol t (fun k => c (nv t + k)) (fun r => z r e) - ML tol t c (fun r => z r e) := by
      rw [MLd, if_pos rfl]
    rw [e2]
    simp only [add_apply, smul_apply, neg_apply,
      smul_eq_mul]
    ring
  | .pyr t, c, z, z', e, hz, ⟨hf, ha⟩ => by
    have hz' : ∀ r, r < t.dim → HasFDerivAt (z r) (z' r) e := fun r hr => hz r (by simp only [Topo.dim]; omega)
    have hd := hz t.dim (by simp [Topo.dim])
    have hne : 1 - z t.dim e ≠ 0 := far_ne h0 hf
    have hs := hd.const_sub 1
    have hi := (hasDerivAt_inv hne).hasFDerivAt.comp e hs
    have hq : ∀ r, r < t.dim → HasFDerivAt (fun e => z r e / (1 - z t.dim e))
        ((1 - z t.dim e)⁻¹ • z' r + (z r e * ((1 - z t.dim e)⁻¹ * (1 - z t.dim e)⁻¹)) • z' t.dim) e := by
      intro r hr
      have := (hz' r hr).mul hi
      refine (this.congr_fderiv ?_).congr_of_eventuallyEq (Filter.Eventually.of_forall fun e => ?_)
      · ext v
        simp only [add_apply, smul_apply, neg_apply,
          ContinuousLinearMap.comp_apply, smul_eq_mul, ContinuousLinearMap.toSpanSingleton_apply, Function.comp_apply]
        field_simp
        ring
      · simp [div_eq_mul_inv]
    have h1 := ML_hasFDerivAt h0 t c _ _ e hq ha
    have h := ((hs.mul h1).add (hd.mul_const (c (nv t))))
    have hev : (fun e => ML tol (.pyr t) c (fun r => z r e)) =ᶠ[nhds e] fun e =>
        (1 - z t.dim e) * ML tol t c (fun r => z r e / (1 - z t.dim e)) + z t.dim e * c (nv t) :=
      (far_eventually (hs.continuousAt) hf).mono fun e' h' => ML_pyr_far h'
    refine (HasFDerivAt.congr_fderiv h ?_).congr_of_eventuallyEq hev
    have hsc : scale tol (z t.dim e) = (1 - z t.dim e)⁻¹ := by rw [scale, if_pos hf, one_div]
    have hzz : (fun r => scale tol (z t.dim e) * z r e) = fun r => z r e / (1 - z t.dim e) := by
      funext r; rw [hsc, div_eq_inv_mul]
    have e2 : MLd tol (.pyr t) c (fun r => z r e) t.dim = -ML tol t c (fun r => z r e / (1 - z t.dim e)) + c (nv t) +
        ∑ j ∈ range t.dim, (1 - z t.dim e)⁻¹ * z j e * MLd tol t c (fun r => z r e / (1 - z t.dim e)) j := by
      rw [MLd, if_pos rfl, hzz, hsc]
    have e1 : ∀ r ∈ range t.dim, MLd tol (.pyr t) c (fun r => z r e) r • z' r =
        MLd tol t c (fun r => z r e / (1 - z t.dim e)) r • z' r := by
      intro r hr
      have : r ≠ t.dim := by have := mem_range.1 hr; omega
      rw [MLd, if_neg this, hzz]
    ext v
    simp only [Topo.dim]
    rw [sum_range_succ, sum_congr rfl e1, e2]
    simp only [add_apply, smul_apply, neg_apply,
      smul_eq_mul, _root_.sum_apply, mul_add, sum_add_distrib]
    generalize hD : MLd tol t c (fun r => z r e / (1 - z t.dim e)) = D
    rw [mul_sum, mul_sum, add_mul, sum_mul]
    have e3 : ∀ r ∈ range t.dim, (1 - z t.dim e) * (D r * ((1 - z t.dim e)⁻¹ * z' r v)) = D r * z' r v := by
      intro r _; field_simp
    have e4 : ∀ r ∈ range t.dim, (1 - z t.dim e) * (D r * (z r e * ((1 - z t.dim e)⁻¹ * (1 - z t.dim e)⁻¹) * z' t.dim v)) =
        (1 - z t.dim e)⁻¹ * z r e * D r * z' t.dim v := by
      intro r _; field_simp
    rw [sum_congr rfl e3, sum_congr rfl e4]
    ring

end Verif.MultiLinear
