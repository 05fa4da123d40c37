import Verif.MatHelp.Lemmas
import Mathlib.LinearAlgebra.Matrix.ToLinearEquiv
import Mathlib.LinearAlgebra.Matrix.ToLin

/-! The drivers built from the Cholesky factorisation. -/

namespace Verif.MatHelp

open Verif.RefGeom Finset Matrix

theorem aat_posDef_iff {m n : Nat} (A : Matrix (Fin m) (Fin n) ℝ) :
    (A * Aᵀ).PosDef ↔ LinearIndependent ℝ A.row := by
  rw [← Matrix.vecMul_injective_iff]
  constructor
  · intro h v w hvw
    have hu := h.isUnit
    have h1 : Function.Injective (A * Aᵀ).vecMul := Matrix.vecMul_injective_iff_isUnit.2 hu
    apply h1
    have hvw' : v ᵥ* A = w ᵥ* A := hvw
    change v ᵥ* (A * Aᵀ) = w ᵥ* (A * Aᵀ)
    rw [← vecMul_vecMul, ← vecMul_vecMul, hvw']
  · intro h
    have := PosDef.mul_conjTranspose_self A h
    rwa [conjTranspose_eq_transpose_of_trivial] at this

theorem ata_posDef_iff {m n : Nat} (A : Matrix (Fin m) (Fin n) ℝ) :
    (Aᵀ * A).PosDef ↔ LinearIndependent ℝ A.col := by
  have := aat_posDef_iff Aᵀ
  rw [transpose_transpose] at this
  exact this

theorem symm_eq {n : Nat} {A : Mat ℝ} (h : (mat n n A).PosDef) : symm n A = mat n n A := by
  apply symm_of_symmetric
  have := h.isHermitian
  rwa [IsHermitian, conjTranspose_eq_transpose_of_trivial] at this

theorem det_of_cholInv {n : Nat} {A L : Mat ℝ} (h : CholInv n A n L) :
    (lower n L).det = Real.sqrt (symm n A).det := by
  rw [← cholInv_mul h, det_mul, det_transpose, Real.sqrt_mul_self]
  rw [det_lower]
  exact prod_nonneg fun i hi => (h i (mem_range.1 hi)).1.le

theorem spdDetA_eq {n : Nat} {A : Mat ℝ} (hA : (symm n A).PosDef) :
    spdDetA n A = some (Real.sqrt (symm n A).det) := by
  obtain ⟨L, h1, h2, _⟩ := (cholesky_spec n A garbage false).1 hA
  simp [spdDetA, h1, detL_eq, det_of_cholInv h2]

theorem spdDetA_none {n : Nat} {A : Mat ℝ} (hA : ¬ (symm n A).PosDef) : spdDetA n A = none := by
  have := (cholesky_spec n A garbage false).2 hA
  rw [if_neg (by simp)] at this
  simp [spdDetA, this]

theorem spdInvA_eq {n : Nat} {A : Mat ℝ} (hA : (symm n A).PosDef) :
    ∃ B, spdInvA n A = some (Real.sqrt (symm n A).det, B) ∧ mat n n B = (symm n A)⁻¹ := by
  obtain ⟨L, h1, h2, _⟩ := (cholesky_spec n A garbage false).1 hA
  have hd : ∀ i, i < n → L i i ≠ 0 := fun i hi => (h2 i hi).1.ne'
  refine ⟨LTL n (invL n L).2, ?_, ?_⟩
  · have : (invL n L).1 = Real.sqrt (symm n A).det := by
      rw [← det_of_cholInv h2, (invL_spec L n hd).1, det_lower]
    simp [spdInvA, h1, this]
  · rw [LTL_eq]
    symm
    apply inv_eq_left_inv
    have hm := lower_mul_invL hd
    have hm2 : lower n (invL n L).2 * lower n L = 1 := mul_eq_one_comm.1 hm
    rw [← cholInv_mul h2, Matrix.mul_assoc, ← Matrix.mul_assoc (lower n (invL n L).2), hm2, Matrix.one_mul,
      ← transpose_mul, hm, transpose_one]

theorem spdInvA_none {n : Nat} {A : Mat ℝ} (hA : ¬ (symm n A).PosDef) : spdInvA n A = none := by
  have := (cholesky_spec n A garbage false).2 hA
  rw [if_neg (by simp)] at this
  simp [spdInvA, this]

theorem spdInvAx_eq {n : Nat} {A : Mat ℝ} (x : Vec ℝ) (cs : Bool) (hA : (symm n A).PosDef) :
    ∃ y, spdInvAx n A x cs = some (true, y) ∧ vec n y = (symm n A)⁻¹.mulVec (vec n x) := by
  obtain ⟨L, h1, h2, _⟩ := (cholesky_spec n A garbage cs).1 hA
  have hd : ∀ i, i < n → L i i ≠ 0 := fun i hi => (h2 i hi).1.ne'
  refine ⟨invLTx n L (invLx n L x), by simp [spdInvAx, h1], ?_⟩
  have e : (symm n A).mulVec (vec n (invLTx n L (invLx n L x))) = vec n x := by
    rw [← cholInv_mul h2, ← mulVec_mulVec, invLTx_mulVec hd, invLx_mulVec hd]
  rw [← e, mulVec_mulVec, nonsing_inv_mul, one_mulVec]
  exact (isUnit_iff_isUnit_det _).1 hA.isUnit

theorem spdInvAx_singular {n : Nat} {A : Mat ℝ} (x : Vec ℝ) (hA : ¬ (symm n A).PosDef) :
    spdInvAx n A x true = some (false, x) := by
  obtain ⟨L, hL⟩ := (cholesky_spec n A garbage true).2 hA
  simp [spdInvAx, hL]

theorem mat_2 (A : Mat ℝ) : (mat 2 2 A).det = A 0 0 * A 1 1 - A 1 0 * A 0 1 := by
  rw [det_fin_two]; simp [mat]; ring

theorem inv22_eq {A : Mat ℝ} (h : (mat 2 2 A).det ≠ 0) :
    ∃ B, inv22 A = some (|(mat 2 2 A).det|, B) ∧ mat 2 2 A * mat 2 2 B = 1 := by
  rw [mat_2] at h ⊢
  have e : inv22 A = some (|A 0 0 * A 1 1 - A 1 0 * A 0 1|, fun i j =>
      if i = 0 ∧ j = 0 then A 1 1 * (1 / (A 0 0 * A 1 1 - A 1 0 * A 0 1))
      else if i = 1 ∧ j = 1 then A 0 0 * (1 / (A 0 0 * A 1 1 - A 1 0 * A 0 1))
      else if i = 1 ∧ j = 0 then -A 1 0 * (1 / (A 0 0 * A 1 1 - A 1 0 * A 0 1))
      else -A 0 1 * (1 / (A 0 0 * A 1 1 - A 1 0 * A 0 1))) := by
    simp only [inv22]; rw [if_neg h]
  refine ⟨_, e, ?_⟩
  ext i j
  rw [mul_apply, Fin.sum_univ_two]
  fin_cases i <;> fin_cases j <;> simp [mat] <;> field_simp <;> ring

theorem inv22_none {A : Mat ℝ} (h : (mat 2 2 A).det = 0) : inv22 A = none := by
  rw [mat_2] at h
  simp only [inv22]; rw [if_pos h]

theorem sqrt_det_self (A : Matrix (Fin 2) (Fin 2) ℝ) : |A.det| = Real.sqrt (A * Aᵀ).det := by
  rw [det_mul, det_transpose, Real.sqrt_mul_self_eq_abs]

theorem det_ne_zero_of_posDef {n : Nat} {M : Matrix (Fin n) (Fin n) ℝ} (h : M.PosDef) : M.det ≠ 0 := h.det_pos.ne'

/-- the right pseudo-inverse -/
theorem rightInvA_eq {m n : Nat} {A : Mat ℝ} (hmn : m ≤ n) (hA : LinearIndependent ℝ (mat m n A).row) :
    ∃ R, rightInvA m n A = some (Real.sqrt (mat m n A * (mat m n A)ᵀ).det, R) ∧
      mat n m R = (mat m n A)ᵀ * (mat m n A * (mat m n A)ᵀ)⁻¹ := by
  have hp := (aat_posDef_iff _).2 hA
  by_cases h2 : n = 2 ∧ m = 2
  · obtain ⟨rfl, rfl⟩ := h2
    have hd : (mat 2 2 A).det ≠ 0 := by
      intro h0
      have := det_ne_zero_of_posDef hp
      rw [det_mul, h0, zero_mul] at this
      exact this rfl
    obtain ⟨B, h1, h2⟩ := inv22_eq hd
    refine ⟨B, by rw [rightInvA, if_pos ⟨rfl, rfl⟩, h1, sqrt_det_self], ?_⟩
    have hB : mat 2 2 B = (mat 2 2 A)⁻¹ := (inv_eq_right_inv h2).symm
    have hu : IsUnit (mat 2 2 A)ᵀ.det := by rw [det_transpose]; exact isUnit_iff_ne_zero.2 hd
    rw [Matrix.mul_inv_rev, ← Matrix.mul_assoc, mul_nonsing_inv _ hu, Matrix.one_mul, hB]
  · have hs : symm m (AAT_L n A garbage) = mat m n A * (mat m n A)ᵀ := AAT_L_eq m n A garbage hmn
    obtain ⟨B, h1, h2'⟩ := spdInvA_eq (A := AAT_L n A garbage) (by rw [hs]; exact hp)
    refine ⟨ATBT m A B, ?_, ?_⟩
    · rw [rightInvA, if_neg h2]
      simp [h1, hs]
    · rw [ATBT_eq m n m, h2', hs, transpose_nonsing_inv, transpose_mul, transpose_transpose]

theorem rightInvA_none {m n : Nat} {A : Mat ℝ} (hmn : m ≤ n) (hA : ¬ LinearIndependent ℝ (mat m n A).row) :
    rightInvA m n A = none := by
  by_cases h2 : n = 2 ∧ m = 2
  · obtain ⟨rfl, rfl⟩ := h2
    rw [rightInvA, if_pos ⟨rfl, rfl⟩]
    apply inv22_none
    by_contra h0
    apply hA
    rw [← aat_posDef_iff]
    have hu : IsUnit (mat 2 2 A) := (isUnit_iff_isUnit_det _).2 (isUnit_iff_ne_zero.2 h0)
    have := PosDef.mul_conjTranspose_self (mat 2 2 A) (Matrix.vecMul_injective_iff_isUnit.2 hu)
    rwa [conjTranspose_eq_transpose_of_trivial] at this
  · have hs : symm m (AAT_L n A garbage) = mat m n A * (mat m n A)ᵀ := AAT_L_eq m n A garbage hmn
    rw [rightInvA, if_neg h2]
    rw [← aat_posDef_iff, ← hs] at hA
    simp [spdInvA_none hA]

theorem leftInvA_eq {m n : Nat} {A : Mat ℝ} (hA : LinearIndependent ℝ (mat m n A).col) :
    ∃ B, leftInvA m n A = some (Real.sqrt ((mat m n A)ᵀ * mat m n A).det, B) ∧
      mat n m B = ((mat m n A)ᵀ * mat m n A)⁻¹ * (mat m n A)ᵀ := by
  have hp := (ata_posDef_iff _).2 hA
  by_cases h2 : n = 2 ∧ m = 2
  · obtain ⟨rfl, rfl⟩ := h2
    have hd : (mat 2 2 A).det ≠ 0 := by
      intro h0
      have := det_ne_zero_of_posDef hp
      rw [det_mul, h0, mul_zero] at this
      exact this rfl
    obtain ⟨B, h1, h2⟩ := inv22_eq hd
    refine ⟨B, by rw [leftInvA, if_pos ⟨rfl, rfl⟩, h1, sqrt_det_self, det_mul, det_mul, mul_comm], ?_⟩
    have hB : mat 2 2 B = (mat 2 2 A)⁻¹ := (inv_eq_right_inv h2).symm
    have hu : IsUnit (mat 2 2 A)ᵀ.det := by rw [det_transpose]; exact isUnit_iff_ne_zero.2 hd
    rw [Matrix.mul_inv_rev, Matrix.mul_assoc, nonsing_inv_mul _ hu, Matrix.mul_one, hB]
  · have hs : symm n (ATA_L m A garbage) = (mat m n A)ᵀ * mat m n A := ATA_L_eq m n A garbage
    obtain ⟨B, h1, h2'⟩ := spdInvA_eq (A := ATA_L m A garbage) (by rw [hs]; exact hp)
    refine ⟨ATBT n B A, ?_, ?_⟩
    · rw [leftInvA, if_neg h2]
      simp [h1, hs]
    · rw [ATBT_eq n n m, h2', hs, transpose_nonsing_inv, transpose_mul, transpose_transpose]

theorem det_aat_of_lt {m n : Nat} (A : Matrix (Fin m) (Fin n) ℝ) (h : n < m) : (A * Aᵀ).det = 0 := by
  have hni : ¬ LinearIndependent ℝ A.row := by
    intro hli
    have := hli.fintype_card_le_finrank
    simp at this
    omega
  rw [← Matrix.exists_vecMul_eq_zero_iff]
  rw [← Matrix.vecMul_injective_iff] at hni
  have : ∃ v : Fin m → ℝ, v ≠ 0 ∧ v ᵥ* A = 0 := by
    by_contra hcon
    apply hni
    intro v w hvw
    by_contra hne
    apply hcon
    refine ⟨v - w, sub_ne_zero.2 hne, ?_⟩
    rw [sub_vecMul, sub_eq_zero]; exact hvw
  obtain ⟨v, hv, h0⟩ := this
  exact ⟨v, hv, by rw [← vecMul_vecMul, h0, zero_vecMul]⟩

/-! ### Least squares -/

theorem dot_self_add {n : Nat} (a b : Fin n → ℝ) (h : a ⬝ᵥ b = 0) : (a + b) ⬝ᵥ (a + b) = a ⬝ᵥ a + b ⬝ᵥ b := by
  rw [add_dotProduct, dotProduct_add, dotProduct_add, dotProduct_comm b a, h]; ring

theorem dot_self_nonneg {n : Nat} (a : Fin n → ℝ) : 0 ≤ a ⬝ᵥ a := sum_nonneg fun _ _ => mul_self_nonneg _

/-- a residual orthogonal to the range is minimal -/
theorem least_squares {m n : Nat} (A : Matrix (Fin m) (Fin n) ℝ) (b : Fin m → ℝ) (y : Fin n → ℝ)
    (h : Aᵀ *ᵥ (A *ᵥ y - b) = 0) (z : Fin n → ℝ) :
    (A *ᵥ y - b) ⬝ᵥ (A *ᵥ y - b) ≤ (A *ᵥ z - b) ⬝ᵥ (A *ᵥ z - b) := by
  have e : A *ᵥ z - b = (A *ᵥ y - b) + A *ᵥ (z - y) := by rw [mulVec_sub]; abel
  have ho : (A *ᵥ y - b) ⬝ᵥ (A *ᵥ (z - y)) = 0 := by
    rw [dotProduct_mulVec, ← mulVec_transpose, h, zero_dotProduct]
  rw [e, dot_self_add _ _ ho]
  linarith [dot_self_nonneg (A *ᵥ (z - y))]

/-- a solution in the row space has minimal norm -/
theorem min_norm {m n : Nat} (A : Matrix (Fin m) (Fin n) ℝ) (w : Fin m → ℝ) (z : Fin n → ℝ)
    (h : A *ᵥ (Aᵀ *ᵥ w) = A *ᵥ z) : (Aᵀ *ᵥ w) ⬝ᵥ (Aᵀ *ᵥ w) ≤ z ⬝ᵥ z := by
  have e : z = Aᵀ *ᵥ w + (z - Aᵀ *ᵥ w) := by abel
  have ho : (Aᵀ *ᵥ w) ⬝ᵥ (z - Aᵀ *ᵥ w) = 0 := by
    rw [mulVec_transpose, ← dotProduct_mulVec, mulVec_sub, ← mulVec_transpose, h, sub_self, dotProduct_zero]
  rw [e, dot_self_add _ _ ho]
  linarith [dot_self_nonneg (z - Aᵀ *ᵥ w)]

end Verif.MatHelp
