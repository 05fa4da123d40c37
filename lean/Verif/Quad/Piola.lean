import Verif.Quad.DivergenceProps
import Mathlib.LinearAlgebra.Matrix.Adjugate
import Mathlib.Analysis.Calculus.FDeriv.Symmetric
import Mathlib.Analysis.Calculus.Deriv.Mul
import Mathlib.MeasureTheory.Function.Jacobian

/-! The divergence theorem under twice continuously differentiable maps: Piola's identity. -/

namespace Verif.Quad

open Verif.Typ Verif.RefTopo Verif.RefGeom MeasureTheory Matrix
open Finset hiding ext

variable {m : Nat}

/-- the Jacobian matrix of `Φ` -/
noncomputable def jac (Φ : (Fin m → ℝ) → Fin m → ℝ) (x : Fin m → ℝ) : Matrix (Fin m) (Fin m) ℝ :=
  Matrix.of fun i l => partialDeriv (fun y => Φ y i) l x

theorem hasLineDeriv {u : (Fin m → ℝ) → ℝ} {x : Fin m → ℝ} (hu : DifferentiableAt ℝ u x) (l : Fin m) :
    HasDerivAt (fun s : ℝ => u (x + s • Pi.single l 1)) (partialDeriv u l x) 0 := by
  have h1 : HasDerivAt (fun s : ℝ => x + s • (Pi.single l 1 : Fin m → ℝ)) (Pi.single l 1) 0 := by
    simpa using ((hasDerivAt_id (0:ℝ)).smul_const (Pi.single l 1 : Fin m → ℝ)).const_add x
  have h2 : HasFDerivAt u (fderiv ℝ u x) (x + (0:ℝ) • (Pi.single l 1 : Fin m → ℝ)) := by
    simpa using hu.hasFDerivAt
  exact h2.comp_hasDerivAt 0 h1

theorem partialDeriv_eq {u : (Fin m → ℝ) → ℝ} {x : Fin m → ℝ} (hu : DifferentiableAt ℝ u x) {l : Fin m} {a : ℝ}
    (h : HasDerivAt (fun s : ℝ => u (x + s • Pi.single l 1)) a 0) : partialDeriv u l x = a :=
  (hasLineDeriv hu l).unique h

/-- derivative of a determinant, row by row -/
theorem hasDerivAt_det {A : ℝ → Matrix (Fin m) (Fin m) ℝ} {A' : Matrix (Fin m) (Fin m) ℝ} {s : ℝ}
    (h : ∀ i j, HasDerivAt (fun r => A r i j) (A' i j) s) :
    HasDerivAt (fun r => (A r).det) (∑ i, ((A s).updateRow i (A' i)).det) s := by
  have e : (fun r => (A r).det) = fun r => ∑ σ : Equiv.Perm (Fin m), (Equiv.Perm.sign σ : ℝ) * ∏ i, A r i (σ i) := by
    funext r
    rw [← det_transpose, det_apply']
    rfl
  rw [e]
  have h1 : ∀ σ : Equiv.Perm (Fin m), HasDerivAt (fun r => (Equiv.Perm.sign σ : ℝ) * ∏ i, A r i (σ i))
      ((Equiv.Perm.sign σ : ℝ) * ∑ i, (∏ j ∈ univ.erase i, A s j (σ j)) • A' i (σ i)) s := fun σ =>
    (HasDerivAt.fun_finsetProd fun i _ => h i (σ i)).const_mul _
  refine (HasDerivAt.fun_sum fun σ _ => h1 σ).congr_deriv ?_
  simp only [mul_sum]
  rw [sum_comm]
  refine sum_congr rfl fun i _ => ?_
  rw [← det_transpose, det_apply']
  refine sum_congr rfl fun σ _ => ?_
  congr 1
  rw [← mul_prod_erase univ _ (mem_univ i), smul_eq_mul, mul_comm]
  congr 1
  · simp
  · refine prod_congr rfl fun j hj => ?_
    rw [transpose_apply, updateRow_ne (ne_of_mem_erase hj)]

theorem contDiff_partialDeriv {u : (Fin m → ℝ) → ℝ} (hu : ContDiff ℝ 2 u) (l : Fin m) :
    ContDiff ℝ 1 (partialDeriv u l) :=
  (hu.fderiv_right (m := 1) (by norm_num)).clm_apply contDiff_const

theorem partialDeriv_symm {u : (Fin m → ℝ) → ℝ} (hu : ContDiff ℝ 2 u) (j l : Fin m) (x : Fin m → ℝ) :
    partialDeriv (partialDeriv u l) j x = partialDeriv (partialDeriv u j) l x := by
  have hd : DifferentiableAt ℝ (fderiv ℝ u) x :=
    ((hu.fderiv_right (m := 1) (by norm_num)).differentiable (by norm_num)) x
  have key : ∀ j l : Fin m, partialDeriv (partialDeriv u l) j x = fderiv ℝ (fderiv ℝ u) x (Pi.single j 1) (Pi.single l 1) := by
    intro j l
    have : partialDeriv u l = fun y => fderiv ℝ u y (Pi.single l 1) := rfl
    rw [this, partialDeriv, fderiv_clm_apply hd (differentiableAt_const _)]
    simp
  rw [key, key]
  exact (hu.contDiffAt.isSymmSndFDerivAt (by simp)) _ _

theorem contDiff_det {A : (Fin m → ℝ) → Matrix (Fin m) (Fin m) ℝ} (h : ∀ i j, ContDiff ℝ 1 fun x => A x i j) :
    ContDiff ℝ 1 fun x => (A x).det := by
  simp only [det_apply']
  exact ContDiff.sum fun σ _ => contDiff_const.mul (contDiff_prod fun i _ => h _ _)

variable {Φ : (Fin m → ℝ) → Fin m → ℝ}

theorem contDiff_jac (hΦ : ContDiff ℝ 2 Φ) (i l : Fin m) : ContDiff ℝ 1 fun x => jac Φ x i l :=
  contDiff_partialDeriv (contDiff_pi.1 hΦ i) l

theorem contDiff_upd (hΦ : ContDiff ℝ 2 Φ) (j k i l : Fin m) :
    ContDiff ℝ 1 fun x => (jac Φ x).updateRow k (Pi.single j 1) i l := by
  by_cases hi : i = k
  · subst hi; simp only [updateRow_self]; exact contDiff_const
  · simp only [updateRow_ne hi]; exact contDiff_jac hΦ i l

theorem contDiff_adj (hΦ : ContDiff ℝ 2 Φ) (j k : Fin m) : ContDiff ℝ 1 fun x => adjugate (jac Φ x) j k := by
  simp only [adjugate_apply]
  exact contDiff_det (contDiff_upd hΦ j k)

theorem det_row_expand (A : Matrix (Fin m) (Fin m) ℝ) (i : Fin m) (v : Fin m → ℝ) :
    (A.updateRow i v).det = ∑ c, v c * (A.updateRow i (Pi.single c 1)).det := by
  have hv : v = ∑ c, v c • (Pi.single c 1 : Fin m → ℝ) := by
    funext j; simp [Finset.sum_apply, Pi.single_apply]
  have h := (detRowAlternating (n := Fin m) (R := ℝ)).toMultilinearMap.map_update_sum univ i
    (fun c => v c • (Pi.single c 1 : Fin m → ℝ)) A
  conv_lhs => rw [hv]
  refine h.trans (sum_congr rfl fun c _ => ?_)
  exact (detRowAlternating (n := Fin m) (R := ℝ)).toMultilinearMap.map_update_smul A i (v c) (Pi.single c 1)

theorem det_swap_rows (A : Matrix (Fin m) (Fin m) ℝ) {i k : Fin m} (h : i ≠ k) (v w : Fin m → ℝ) :
    ((A.updateRow k v).updateRow i w).det = - ((A.updateRow k w).updateRow i v).det := by
  have e : (A.updateRow k v).updateRow i w = ((A.updateRow k w).updateRow i v).submatrix (Equiv.swap i k) id := by
    ext a b
    rw [submatrix_apply]
    by_cases ha : a = i
    · subst ha; simp [updateRow_ne h.symm]
    · by_cases hb : a = k
      · subst hb; simp [updateRow_ne h.symm]
      · rw [Equiv.swap_apply_of_ne_of_ne ha hb]; simp [updateRow_ne, ha, hb]
  rw [e, det_permute]
  simp [Equiv.Perm.sign_swap h]

/-- Piola's identity: the columns of the adjugate are divergence free -/
theorem piola (hΦ : ContDiff ℝ 2 Φ) (k : Fin m) (x : Fin m → ℝ) :
    ∑ j, partialDeriv (fun y => adjugate (jac Φ y) j k) j x = 0 := by
  have hd : ∀ j, partialDeriv (fun y => adjugate (jac Φ y) j k) j x =
      ∑ i ∈ univ.erase k, ∑ c, partialDeriv (partialDeriv (fun y => Φ y i) c) j x *
        (((jac Φ x).updateRow k (Pi.single j 1)).updateRow i (Pi.single c 1)).det := by
    intro j
    have h1 : ∀ i l, HasDerivAt (fun s : ℝ => (jac Φ (x + s • Pi.single j 1)).updateRow k (Pi.single j 1) i l)
        ((Matrix.of fun i l => if i = k then 0 else partialDeriv (partialDeriv (fun y => Φ y i) l) j x) i l) 0 := by
      intro i l
      by_cases hi : i = k
      · subst hi; simp only [updateRow_self, of_apply, if_pos]; exact hasDerivAt_const _ _
      · simp only [updateRow_ne hi, of_apply, if_neg hi]
        exact hasLineDeriv (u := fun y => jac Φ y i l) (((contDiff_jac hΦ i l).differentiable (by norm_num)) x) j
    have h2 := hasDerivAt_det h1
    rw [zero_smul, add_zero] at h2
    rw [partialDeriv_eq (((contDiff_adj hΦ j k).differentiable (by norm_num)) x)
      (by simp only [adjugate_apply]; exact h2)]
    rw [← add_sum_erase univ _ (mem_univ k)]
    rw [show (((jac Φ x).updateRow k (Pi.single j 1)).updateRow k ((Matrix.of fun i l => if i = k then (0:ℝ) else
      partialDeriv (partialDeriv (fun y => Φ y i) l) j x) k)).det = 0 from
        det_eq_zero_of_row_eq_zero k fun l => by simp, zero_add]
    refine sum_congr rfl fun i hi => ?_
    rw [det_row_expand]
    refine sum_congr rfl fun c _ => ?_
    rw [of_apply, if_neg (ne_of_mem_erase hi)]
  simp only [hd]
  rw [sum_comm]
  refine sum_eq_zero fun i hi => ?_
  have hik := ne_of_mem_erase hi
  have hanti : ∑ j, ∑ c, partialDeriv (partialDeriv (fun y => Φ y i) c) j x *
        (((jac Φ x).updateRow k (Pi.single j 1)).updateRow i (Pi.single c 1)).det =
      - ∑ j, ∑ c, partialDeriv (partialDeriv (fun y => Φ y i) c) j x *
        (((jac Φ x).updateRow k (Pi.single j 1)).updateRow i (Pi.single c 1)).det := by
    conv_lhs => rw [sum_comm]
    rw [← sum_neg_distrib]
    refine sum_congr rfl fun j _ => ?_
    rw [← sum_neg_distrib]
    refine sum_congr rfl fun c _ => ?_
    rw [partialDeriv_symm (contDiff_pi.1 hΦ i), det_swap_rows _ hik, mul_neg]
  linarith

theorem partialDeriv_comp {u : (Fin m → ℝ) → ℝ} (hu : ContDiff ℝ 1 u) (hΦ : ContDiff ℝ 2 Φ) (j : Fin m) (x : Fin m → ℝ) :
    partialDeriv (fun y => u (Φ y)) j x = ∑ i, partialDeriv u i (Φ x) * jac Φ x i j := by
  have hΦd : DifferentiableAt ℝ Φ x := (hΦ.differentiable (by norm_num)) x
  have hud : DifferentiableAt ℝ u (Φ x) := (hu.differentiable (by norm_num)) _
  rw [partialDeriv]
  have e : (fun y => u (Φ y)) = u ∘ Φ := rfl
  rw [e, fderiv_comp x hud hΦd]
  change fderiv ℝ u (Φ x) (fderiv ℝ Φ x (Pi.single j 1)) = _
  refine (LinearMap.pi_apply_eq_sum_univ (fderiv ℝ u (Φ x)).toLinearMap _).trans ?_
  refine sum_congr rfl fun i _ => ?_
  rw [smul_eq_mul, mul_comm]
  congr 1
  · change fderiv ℝ u (Φ x) _ = fderiv ℝ u (Φ x) _
    congr 1
    funext l; rw [Pi.single_apply]; simp only [eq_comm]
  · change _ = fderiv ℝ (fun y => Φ y i) x (Pi.single j 1)
    rw [fderiv_apply hΦd]; rfl

/-- the divergence theorem for `u ∘ Φ` -/
theorem divergence_mapped {d id : Nat} (h0 : 0 < d) (hd : d ≤ 31) (hid : id < 2 ^ d) {u : (Fin d → ℝ) → ℝ}
    (hu : ContDiff ℝ 1 u) {Φ : (Fin d → ℝ) → Fin d → ℝ} (hΦ : ContDiff ℝ 2 Φ) (k : Fin d) :
    ∫ x in refSet d id, (jac Φ x).det * partialDeriv u k (Φ x) =
      ((List.range (refSize d id 1)).map fun i => facetIntegral d id i fun x =>
        ∑ j : Fin d, normal d id i j * (u (Φ x) * adjugate (jac Φ x) j k)).sum := by
  have huΦ : ContDiff ℝ 1 fun x => u (Φ x) := hu.comp (hΦ.of_le (by norm_num))
  rw [← C71_field d id h0 hd hid (fun x j => u (Φ x) * adjugate (jac Φ x) j k)
    (contDiff_pi.2 fun j => huΦ.mul (contDiff_adj hΦ j k))]
  congr 1
  funext x
  have hp : ∀ j, partialDeriv (fun y => u (Φ y) * adjugate (jac Φ y) j k) j x =
      u (Φ x) * partialDeriv (fun y => adjugate (jac Φ y) j k) j x +
      adjugate (jac Φ x) j k * ∑ i, partialDeriv u i (Φ x) * jac Φ x i j := by
    intro j
    rw [← partialDeriv_comp hu hΦ, partialDeriv,
      fderiv_fun_mul ((huΦ.differentiable (by norm_num)) x) (((contDiff_adj hΦ j k).differentiable (by norm_num)) x)]
    simp only [_root_.add_apply, _root_.smul_apply, smul_eq_mul]
    rfl
  simp only [hp]
  rw [sum_add_distrib, ← mul_sum, piola hΦ, mul_zero, zero_add]
  simp only [mul_sum]
  rw [sum_comm]
  have hm := fun i => congrFun (congrFun (mul_adjugate (jac Φ x)) i) k
  have : ∀ i, ∑ j, adjugate (jac Φ x) j k * (partialDeriv u i (Φ x) * jac Φ x i j) =
      partialDeriv u i (Φ x) * ((jac Φ x).det * (1 : Matrix (Fin d) (Fin d) ℝ) i k) := by
    intro i
    have h := hm i
    rw [Matrix.smul_apply, smul_eq_mul, mul_apply] at h
    rw [← h, mul_sum]
    exact sum_congr rfl fun j _ => by ring
  simp only [this]
  rw [sum_eq_single k (fun i _ hi => by rw [one_apply_ne hi]; ring) (by simp), one_apply_eq]
  ring

end Verif.Quad
