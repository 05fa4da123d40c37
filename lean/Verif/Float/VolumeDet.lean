import Verif.Float.VolumeFactor
import Mathlib.Analysis.Matrix.Spectrum
import Mathlib.LinearAlgebra.Matrix.NonsingularInverse
import Mathlib.LinearAlgebra.Matrix.Block
import Mathlib.Algebra.Order.Chebyshev

/-! Determinants of nearby positive definite matrices. -/

namespace Verif.FloatVol

open Finset hiding ext
open Matrix hiding ext

/-- if the quadratic form of `L Lᵀ` is close to that of `A`, then so is the determinant -/
theorem det_sandwich {m : ℕ} (A L : Matrix (Fin m) (Fin m) ℝ) (hA : Aᵀ = A) (hL : L.det ≠ 0) {ε : ℝ} (h1 : ε < 1) (h0 : 0 ≤ ε)
    (h : ∀ w : Fin m → ℝ, (1 - ε) * (w ⬝ᵥ A *ᵥ w) ≤ (Lᵀ *ᵥ w) ⬝ᵥ (Lᵀ *ᵥ w) ∧ (Lᵀ *ᵥ w) ⬝ᵥ (Lᵀ *ᵥ w) ≤ (1 + ε) * (w ⬝ᵥ A *ᵥ w)) :
    (1 - ε) ^ m * A.det ≤ L.det ^ 2 ∧ L.det ^ 2 ≤ (1 + ε) ^ m * A.det := by
  have hLu : IsUnit L.det := isUnit_iff_ne_zero.mpr hL
  set N := L⁻¹ * A * (L⁻¹)ᵀ with hN
  have hNs : Nᵀ = N := by rw [hN, transpose_mul, transpose_mul, transpose_transpose, hA, mul_assoc]
  have hNh : N.IsHermitian := by rw [IsHermitian, conjTranspose_eq_transpose_of_trivial, hNs]
  have hdet : A.det = L.det ^ 2 * N.det := by
    rw [hN, det_mul, det_mul, det_transpose, det_nonsing_inv, Ring.inverse_eq_inv']
    field_simp
  have hq : ∀ y : Fin m → ℝ, y ⬝ᵥ N *ᵥ y = ((L⁻¹)ᵀ *ᵥ y) ⬝ᵥ A *ᵥ ((L⁻¹)ᵀ *ᵥ y) := fun y => by
    rw [hN, ← mulVec_mulVec, ← mulVec_mulVec, dotProduct_mulVec y L⁻¹, ← mulVec_transpose]
  have hy : ∀ y : Fin m → ℝ, Lᵀ *ᵥ ((L⁻¹)ᵀ *ᵥ y) = y := fun y => by
    rw [mulVec_mulVec, ← transpose_mul, nonsing_inv_mul _ hLu, transpose_one, one_mulVec]
  have hμ : ∀ i, (1 - ε) * hNh.eigenvalues i ≤ 1 ∧ 1 ≤ (1 + ε) * hNh.eigenvalues i := fun i => by
    set v : Fin m → ℝ := (hNh.eigenvectorBasis i).ofLp with hv
    have e1 : N *ᵥ v = hNh.eigenvalues i • v := hNh.mulVec_eigenvectorBasis i
    have e2 : v ⬝ᵥ v = 1 := by
      have := hNh.eigenvectorBasis.orthonormal.1 i
      have h3 := EuclideanSpace.real_norm_sq_eq (hNh.eigenvectorBasis i)
      rw [this] at h3
      rw [dotProduct]
      rw [one_pow] at h3
      rw [h3]
      exact sum_congr rfl fun k _ => by rw [sq]
    have e3 := h ((L⁻¹)ᵀ *ᵥ v)
    rw [hy, e2, ← hq, e1, dotProduct_smul, e2, smul_eq_mul, mul_one] at e3
    exact e3
  have hpos : ∀ i, 0 < hNh.eigenvalues i := fun i => by
    by_contra hc
    have := (hμ i).2
    nlinarith
  have hd : N.det = ∏ i, hNh.eigenvalues i := by
    rw [hNh.det_eq_prod_eigenvalues]
    rfl
  have hl : (1 - ε) ^ m * N.det ≤ 1 := by
    rw [hd, ← Fin.prod_const, ← prod_mul_distrib]
    exact prod_le_one (fun i _ => mul_nonneg (by linarith) (hpos i).le) fun i _ => (hμ i).1
  have hr : 1 ≤ (1 + ε) ^ m * N.det := by
    rw [hd, ← Fin.prod_const, ← prod_mul_distrib]
    exact one_le_prod fun i _ => (hμ i).2
  rw [hdet]
  have : 0 ≤ L.det ^ 2 := sq_nonneg _
  constructor
  · nlinarith
  · nlinarith

/-- the lower triangle as a matrix -/
def lowerMat (m : ℕ) (l : ℕ → ℕ → ℝ) : Matrix (Fin m) (Fin m) ℝ := Matrix.of fun k j => if j ≤ k then l k j else 0

/-- a symmetric function as a matrix -/
def fullMat (m : ℕ) (S : ℕ → ℕ → ℝ) : Matrix (Fin m) (Fin m) ℝ := Matrix.of fun k j => S k j

theorem lowerMat_det (m : ℕ) (l : ℕ → ℕ → ℝ) : (lowerMat m l).det = ∏ j ∈ range m, l j j := by
  rw [det_of_lowerTriangular (lowerMat m l) (fun i j (h : i < j) => if_neg (not_le.mpr h)), prod_range]
  exact prod_congr rfl fun i _ => if_pos le_rfl

theorem lowerMat_mul (m : ℕ) (l : ℕ → ℕ → ℝ) (k j : Fin m) (h : j ≤ k) :
    ∑ a, lowerMat m l k a * lowerMat m l j a = ∑ a ∈ range (j + 1), l k a * l j a := by
  have e1 : ∀ a : Fin m, lowerMat m l k a * lowerMat m l j a = (fun a : ℕ => if a < (j : ℕ) + 1 then l k a * l j a else 0) a := fun a => by
    simp only [lowerMat, of_apply]
    by_cases h1 : a ≤ j
    · rw [if_pos (h1.trans h), if_pos h1, if_pos (Nat.lt_succ_of_le h1)]
    · rw [if_neg h1, mul_zero, if_neg]
      intro h2
      exact h1 (Fin.le_def.mpr (by omega))
  rw [sum_congr rfl fun a _ => e1 a, ← sum_range (fun a : ℕ => if a < (j : ℕ) + 1 then l k a * l j a else 0), ← sum_filter]
  congr 1
  ext a
  simp only [mem_filter, mem_range]
  omega

theorem quad_eq (m : ℕ) (S : ℕ → ℕ → ℝ) (w : Fin m → ℝ) : w ⬝ᵥ fullMat m S *ᵥ w = ∑ k : Fin m, ∑ j : Fin m, w k * w j * S k j := by
  rw [dotProduct]
  refine sum_congr rfl fun k _ => ?_
  rw [mulVec, dotProduct, mul_sum]
  exact sum_congr rfl fun j _ => by rw [fullMat, of_apply]; ring

theorem sq_eq (m : ℕ) (L : Matrix (Fin m) (Fin m) ℝ) (w : Fin m → ℝ) :
    (Lᵀ *ᵥ w) ⬝ᵥ (Lᵀ *ᵥ w) = ∑ k : Fin m, ∑ j : Fin m, w k * w j * ∑ a, L k a * L j a := by
  rw [dotProduct]
  have : ∀ a, (Lᵀ *ᵥ w) a * (Lᵀ *ᵥ w) a = ∑ k : Fin m, ∑ j : Fin m, w k * w j * (L k a * L j a) := fun a => by
    rw [mulVec, dotProduct, sum_mul_sum]
    refine sum_congr rfl fun k _ => sum_congr rfl fun j _ => ?_
    rw [transpose_apply, transpose_apply]
    ring
  rw [sum_congr rfl fun a _ => this a, sum_comm]
  refine sum_congr rfl fun k _ => ?_
  rw [sum_comm]
  exact sum_congr rfl fun j _ => by rw [mul_sum]

theorem form_close (m : ℕ) (S T : Fin m → Fin m → ℝ) {E : ℝ} (h : ∀ k j, |S k j - T k j| ≤ E) (w : Fin m → ℝ) :
    |(∑ k, ∑ j, w k * w j * S k j) - ∑ k, ∑ j, w k * w j * T k j| ≤ m * E * ∑ k, w k ^ 2 := by
  rcases Nat.eq_zero_or_pos m with rfl | hm
  · simp
  have hE : 0 ≤ E := (abs_nonneg _).trans (h ⟨0, hm⟩ ⟨0, hm⟩)
  rw [← sum_sub_distrib]
  have h1 : ∀ k, |(∑ j, w k * w j * S k j) - ∑ j, w k * w j * T k j| ≤ ∑ j, |w k| * |w j| * E := fun k => by
    rw [← sum_sub_distrib]
    refine (abs_sum_le_sum_abs _ _).trans (sum_le_sum fun j _ => ?_)
    rw [← mul_sub, abs_mul, abs_mul]
    exact mul_le_mul_of_nonneg_left (h k j) (by positivity)
  refine (abs_sum_le_sum_abs _ _).trans ((sum_le_sum fun k _ => h1 k).trans ?_)
  have h2 : ∑ k, ∑ j, |w k| * |w j| * E = (∑ k, |w k|) ^ 2 * E := by
    rw [sq, sum_mul_sum, sum_mul]
    exact sum_congr rfl fun k _ => by rw [sum_mul]
  have h3 := sq_sum_le_card_mul_sum_sq (s := (univ : Finset (Fin m))) (f := fun k => |w k|)
  rw [card_univ, Fintype.card_fin] at h3
  simp only [sq_abs] at h3
  rw [h2]
  nlinarith

/-- the product of the diagonal of an approximate factor -/
theorem factor_det (m : ℕ) (S l : ℕ → ℕ → ℝ) (hS : ∀ k j, S k j = S j k) {E lam : ℝ} (hlam : 0 < lam)
    (hq : ∀ w : Fin m → ℝ, lam * ∑ k, w k ^ 2 ≤ ∑ k : Fin m, ∑ j : Fin m, w k * w j * S k j)
    (hb : ∀ k j, j ≤ k → k < m → |S k j - ∑ a ∈ range (j + 1), l k a * l j a| ≤ E) (hd : ∀ j < m, 0 < l j j) (hE0 : 0 ≤ E) (hE : m * E < lam) :
    (1 - m * E / lam) ^ m * (fullMat m S).det ≤ (∏ j ∈ range m, l j j) ^ 2 ∧ (∏ j ∈ range m, l j j) ^ 2 ≤ (1 + m * E / lam) ^ m * (fullMat m S).det := by
  rw [← lowerMat_det]
  have hm0 : (0:ℝ) ≤ m := Nat.cast_nonneg m
  refine det_sandwich _ _ ?_ ?_ ((div_lt_one hlam).mpr hE) (by positivity) fun w => ?_
  · ext k j
    rw [transpose_apply, fullMat, of_apply, of_apply, hS]
  · rw [lowerMat_det]
    exact (prod_pos fun j hj => hd j (mem_range.mp hj)).ne'
  · have h1 : ∀ k j : Fin m, |S k j - ∑ a, lowerMat m l k a * lowerMat m l j a| ≤ E := fun k j => by
      rcases le_total j k with h | h
      · rw [lowerMat_mul m l k j h]
        exact hb k j h k.2
      · rw [sum_congr rfl fun a _ => mul_comm _ _, lowerMat_mul m l j k h, hS]
        exact hb j k h j.2
    have h2 := form_close m (fun k j => S k j) (fun k j => ∑ a, lowerMat m l k a * lowerMat m l j a) h1 w
    rw [quad_eq, sq_eq]
    have h3 : m * E * ∑ k, w k ^ 2 ≤ m * E / lam * ∑ k : Fin m, ∑ j : Fin m, w k * w j * S k j := by
      have := mul_le_mul_of_nonneg_left (hq w) (show 0 ≤ m * E / lam by positivity)
      refine le_trans (le_of_eq ?_) this
      field_simp
    have h4 := abs_le.mp h2
    constructor <;> linarith

end Verif.FloatVol
