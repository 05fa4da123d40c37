import Verif.MatHelp.Inverse

/-!
Properties C24–C27 of the matrix helpers.

Vocabulary (`Spec.lean`): `mat m n A`, `vec n x` are Mathlib's matrix and vector stored in the C++ arrays,
`lower n L` is the lower triangular matrix stored in the lower triangle of `L`, `symm n A` the symmetric matrix
stored in the lower triangle of `A`.
-/

namespace Verif.MatHelp

open Verif.RefGeom Finset Matrix

/-! ### C24 -/

/-- `cholesky_L` succeeds on every symmetric positive definite matrix, whatever the output matrix held before and
whether or not singularity is checked; the factor has positive diagonal, the strict upper part is not written -/
theorem C24_cholesky_succeeds (n : Nat) (A ret : Mat ℝ) (checkSingular : Bool) (hA : (mat n n A).PosDef) :
    ∃ L, cholesky_L n A ret checkSingular = some (true, L) ∧
      lower n L * (lower n L)ᵀ = mat n n A ∧
      (∀ i, i < n → 0 < L i i) ∧
      (∀ r c, r < c → L r c = ret r c) := by
  have hs := symm_eq hA
  rw [← hs] at hA
  obtain ⟨L, h1, h2, h3⟩ := (cholesky_spec n A ret checkSingular).1 hA
  exact ⟨L, h1, by rw [cholInv_mul h2, hs], fun i hi => (h2 i hi).1, h3⟩

/-- only the lower triangle of the argument is read -/
theorem C24_cholesky_lower_triangle (n : Nat) (A ret : Mat ℝ) (checkSingular : Bool) (hA : (symm n A).PosDef) :
    ∃ L, cholesky_L n A ret checkSingular = some (true, L) ∧ lower n L * (lower n L)ᵀ = symm n A := by
  obtain ⟨L, h1, h2, _⟩ := (cholesky_spec n A ret checkSingular).1 hA
  exact ⟨L, h1, cholInv_mul h2⟩

/-- whenever success is reported the factorisation identity holds (and the matrix is positive definite) -/
theorem C24_cholesky_sound (n : Nat) (A ret L : Mat ℝ) (checkSingular : Bool) (hA : (mat n n A).IsSymm)
    (h : cholesky_L n A ret checkSingular = some (true, L)) :
    lower n L * (lower n L)ᵀ = mat n n A ∧ (∀ i, i < n → 0 < L i i) ∧ (mat n n A).PosDef := by
  rw [← symm_of_symmetric n A hA]
  by_cases hp : (symm n A).PosDef
  · obtain ⟨L', h1, h2, _⟩ := (cholesky_spec n A ret checkSingular).1 hp
    rw [h] at h1
    obtain rfl : L = L' := by simpa using h1
    exact ⟨cholInv_mul h2, fun i hi => (h2 i hi).1, hp⟩
  · have := (cholesky_spec n A ret checkSingular).2 hp
    cases checkSingular
    · simp [h] at this
    · simp [h] at this

/-- a symmetric matrix that is not positive definite is reported when the check is on; it trips the assertion when
the check is off -/
theorem C24_cholesky_rejects (n : Nat) (A ret : Mat ℝ) (hA : (mat n n A).IsSymm) (hn : ¬ (mat n n A).PosDef) :
    (∃ L, cholesky_L n A ret true = some (false, L)) ∧ cholesky_L n A ret false = none := by
  rw [← symm_of_symmetric n A hA] at hn
  exact ⟨(cholesky_spec n A ret true).2 hn, (cholesky_spec n A ret false).2 hn⟩

/-- the matrix `(4 2; 2 5)` used in the examples -/
def sampleSpd : Mat ℝ := fun i j => if i = 0 ∧ j = 0 then 4 else if i = 1 ∧ j = 1 then 5 else 2

theorem sampleSpd_posDef : (mat 2 2 sampleSpd).PosDef := by
  have : mat 2 2 sampleSpd = (!![2, 1; 0, 2] : Matrix (Fin 2) (Fin 2) ℝ)ᵀ * !![2, 1; 0, 2] := by
    ext i j
    fin_cases i <;> fin_cases j <;> simp [mat, sampleSpd, Matrix.mul_apply, Fin.sum_univ_two] <;> norm_num
  rw [this, ata_posDef_iff]
  have hu : IsUnit (!![2, 1; 0, 2] : Matrix (Fin 2) (Fin 2) ℝ) := by
    rw [isUnit_iff_isUnit_det, det_fin_two, isUnit_iff_ne_zero]; simp
  rw [← Matrix.mulVec_injective_iff]
  exact Matrix.mulVec_injective_iff_isUnit.2 hu

example : ∃ L, cholesky_L 2 sampleSpd garbage = some (true, L) ∧ lower 2 L * (lower 2 L)ᵀ = mat 2 2 sampleSpd := by
  obtain ⟨L, h1, h2, _⟩ := C24_cholesky_succeeds 2 sampleSpd garbage false sampleSpd_posDef
  exact ⟨L, h1, h2⟩

theorem zero_not_posDef : ¬ (mat 1 1 (fun _ _ => 0)).PosDef := by
  intro h
  have := h.diag_pos (i := 0)
  simp [mat] at this

example : cholesky_L 1 (fun _ _ => 0) garbage = none :=
  (C24_cholesky_rejects 1 _ garbage (by ext i j; simp [mat]) zero_not_posDef).2

/-! ### C25 -/

/-- `invL` inverts in place, returns the determinant, and leaves the strict upper part alone -/
theorem C25_invL (n : Nat) (L : Mat ℝ) (hd : ∀ i, i < n → L i i ≠ 0) :
    lower n L * lower n (invL n L).2 = 1 ∧ lower n (invL n L).2 * lower n L = 1 ∧
    (invL n L).1 = (lower n L).det ∧ ∀ r c, r < c → (invL n L).2 r c = L r c := by
  obtain ⟨h1, h2, _⟩ := invL_spec L n hd
  exact ⟨lower_mul_invL hd, mul_eq_one_comm.1 (lower_mul_invL hd), by rw [h1, det_lower],
    fun r c h => h2 r c (Or.inr h)⟩

/-- `detL` is the determinant of the triangular matrix -/
theorem C25_detL (n : Nat) (L : Mat ℝ) : detL n L = (lower n L).det := detL_eq n L

/-- `invLx` and `invLTx` solve the triangular systems, `Lx` and `LTx` multiply -/
theorem C25_triangular_solve (n : Nat) (L : Mat ℝ) (x : Vec ℝ) (hd : ∀ i, i < n → L i i ≠ 0) :
    lower n L *ᵥ vec n (invLx n L x) = vec n x ∧ (lower n L)ᵀ *ᵥ vec n (invLTx n L x) = vec n x :=
  ⟨invLx_mulVec hd x, invLTx_mulVec hd x⟩

theorem C25_triangular_mul (n : Nat) (L : Mat ℝ) (x : Vec ℝ) :
    vec n (Lx L x) = lower n L *ᵥ vec n x ∧ vec n (LTx n L x) = (lower n L)ᵀ *ᵥ vec n x ∧
    mat n n (LTL n L) = (lower n L)ᵀ * lower n L ∧ mat n n (LLT L) = lower n L * (lower n L)ᵀ := by
  refine ⟨?_, ?_, LTL_eq n L, LLT_eq n L⟩
  · funext i
    rw [lower_mulVec, vec, Lx, addLoop_eq, zero_add, range_eq_Ico]
  · funext i
    rw [lowerT_mulVec, vec, LTx, addLoop_eq, zero_add]

/-- solving undoes multiplying -/
theorem C25_solve_mul (n : Nat) (L : Mat ℝ) (x : Vec ℝ) (hd : ∀ i, i < n → L i i ≠ 0) :
    vec n (invLx n L (Lx L x)) = vec n x ∧ vec n (invLTx n L (LTx n L x)) = vec n x := by
  have hu := isUnit_lower hd
  constructor
  · apply Matrix.mulVec_injective_iff_isUnit.2 hu
    change lower n L *ᵥ _ = lower n L *ᵥ _
    rw [(C25_triangular_solve n L _ hd).1, (C25_triangular_mul n L x).1]
  · apply Matrix.mulVec_injective_iff_isUnit.2 ((isUnit_transpose (lower n L)).2 hu)
    change (lower n L)ᵀ *ᵥ _ = (lower n L)ᵀ *ᵥ _
    rw [(C25_triangular_solve n L _ hd).2, (C25_triangular_mul n L x).2.1]

/-- what the documentation says: `spdDetA` ("calculate det(A)" of a symmetric positive definite matrix) -/
def C25_spdDetA_full : Prop := ∀ n A, (mat n n A).PosDef → spdDetA n A = some (mat n n A).det

/-- what the documentation says: `detATA` ("calculate det(A^T A)") for matrices of full column rank -/
def C25_detATA_full : Prop := ∀ m n A, LinearIndependent ℝ (mat m n A).col →
  detATA m n A = some ((mat m n A)ᵀ * mat m n A).det

/-- `spdDetA` returns the square root of the determinant -/
theorem C25_spdDetA_partial (n : Nat) (A : Mat ℝ) (hA : (mat n n A).PosDef) :
    spdDetA n A = some (Real.sqrt (mat n n A).det) := by
  have hs := symm_eq hA
  rw [← hs] at hA ⊢
  exact spdDetA_eq hA

/-- `spdInvA` replaces `A` by its inverse and returns the square root of the determinant -/
theorem C25_spdInvA_partial (n : Nat) (A : Mat ℝ) (hA : (mat n n A).PosDef) :
    ∃ B, spdInvA n A = some (Real.sqrt (mat n n A).det, B) ∧ mat n n A * mat n n B = 1 := by
  have hs := symm_eq hA
  rw [← hs] at hA ⊢
  obtain ⟨B, h1, h2⟩ := spdInvA_eq hA
  exact ⟨B, h1, by rw [h2, mul_nonsing_inv _ ((isUnit_iff_isUnit_det _).1 hA.isUnit)]⟩

/-- `spdInvAx` solves the system; with the check on, it reports exactly the matrices that are not positive definite
and leaves `x` alone -/
theorem C25_spdInvAx (n : Nat) (A : Mat ℝ) (x : Vec ℝ) (checkSingular : Bool) (hA : (mat n n A).PosDef) :
    ∃ y, spdInvAx n A x checkSingular = some (true, y) ∧ mat n n A *ᵥ vec n y = vec n x := by
  have hs := symm_eq hA
  rw [← hs] at hA ⊢
  obtain ⟨y, h1, h2⟩ := spdInvAx_eq x checkSingular hA
  exact ⟨y, h1, by rw [h2, mulVec_mulVec, mul_nonsing_inv _ ((isUnit_iff_isUnit_det _).1 hA.isUnit), one_mulVec]⟩

theorem C25_spdInvAx_singular (n : Nat) (A : Mat ℝ) (x : Vec ℝ) (hA : (mat n n A).IsSymm)
    (hn : ¬ (mat n n A).PosDef) : spdInvAx n A x true = some (false, x) := by
  rw [← symm_of_symmetric n A hA] at hn
  exact spdInvAx_singular x hn

/-- `detATA` returns the square root of the determinant (and the determinant 0 when there are more columns than
rows) -/
theorem C25_detATA_partial (m n : Nat) (A : Mat ℝ) :
    (LinearIndependent ℝ (mat m n A).col → detATA m n A = some (Real.sqrt ((mat m n A)ᵀ * mat m n A).det)) ∧
    (m < n → detATA m n A = some ((mat m n A)ᵀ * mat m n A).det) := by
  constructor
  · intro hA
    have hp := (ata_posDef_iff _).2 hA
    have hs : symm n (ATA_L m A garbage) = (mat m n A)ᵀ * mat m n A := ATA_L_eq m n A garbage
    have hmn : n ≤ m := by
      have := hA.fintype_card_le_finrank
      simpa using this
    rw [detATA, if_pos hmn, ← hs]
    rw [← hs] at hp
    exact spdDetA_eq hp
  · intro h
    rw [detATA, if_neg (by omega)]
    have := det_aat_of_lt (mat m n A)ᵀ h
    rw [transpose_transpose] at this
    rw [this]

/-- `spdDetA` of the 1×1 matrix `4` is 2 -/
theorem C25_spdDetA_counterexample : ¬ C25_spdDetA_full := by
  intro h
  have hp : (mat 1 1 (fun _ _ => (4 : ℝ))).PosDef := by
    have : mat 1 1 (fun _ _ => (4 : ℝ)) = diagonal fun _ => 4 := by
      ext i j
      have hi : i = 0 := Subsingleton.elim _ _
      have hj : j = 0 := Subsingleton.elim _ _
      subst hi; subst hj
      simp [mat]
    rw [this, posDef_diagonal_iff]
    intro i; norm_num
  have h1 := h 1 (fun _ _ => 4) hp
  rw [C25_spdDetA_partial 1 _ hp] at h1
  have hd : (mat 1 1 (fun _ _ => (4 : ℝ))).det = 4 := by rw [det_fin_one]; rfl
  rw [hd] at h1
  have h2 : Real.sqrt 4 = 4 := Option.some.inj h1
  have h3 := Real.mul_self_sqrt (show (0 : ℝ) ≤ 4 by norm_num)
  rw [h2] at h3
  norm_num at h3

/-- `detATA` of the 1×1 matrix `2` is 2, not 4 -/
theorem C25_detATA_counterexample : ¬ C25_detATA_full := by
  intro h
  have hm : (mat 1 1 (fun _ _ => (2 : ℝ)))ᵀ * mat 1 1 (fun _ _ => (2 : ℝ)) = diagonal fun _ => 4 := by
    ext i j
    have hi : i = 0 := Subsingleton.elim _ _
    have hj : j = 0 := Subsingleton.elim _ _
    subst hi; subst hj
    simp [mat, Matrix.mul_apply]; norm_num
  have hli : LinearIndependent ℝ (mat 1 1 (fun _ _ => (2 : ℝ))).col := by
    rw [← ata_posDef_iff, hm, posDef_diagonal_iff]
    intro i; norm_num
  have h1 := h 1 1 (fun _ _ => 2) hli
  rw [(C25_detATA_partial 1 1 _).1 hli, hm] at h1
  rw [det_diagonal, Fin.prod_univ_one] at h1
  have h2 : Real.sqrt 4 = 4 := Option.some.inj h1
  have h3 := Real.mul_self_sqrt (show (0 : ℝ) ≤ 4 by norm_num)
  rw [h2] at h3
  norm_num at h3

example : lower 2 sampleSpd * lower 2 (invL 2 sampleSpd).2 = 1 ∧ (invL 2 sampleSpd).1 = 20 := by
  obtain ⟨h1, _, h3, _⟩ := C25_invL 2 sampleSpd (by
    intro i hi
    have : i = 0 ∨ i = 1 := by omega
    rcases this with rfl | rfl <;> simp [sampleSpd])
  refine ⟨h1, h3.trans ?_⟩
  rw [det_fin_two]; simp [lower, sampleSpd]; norm_num

example : spdDetA 2 sampleSpd = some 4 := by
  rw [C25_spdDetA_partial 2 _ sampleSpd_posDef]
  have : (mat 2 2 sampleSpd).det = 4 * 4 := by rw [det_fin_two]; simp [mat, sampleSpd]; norm_num
  rw [this, Real.sqrt_mul_self (by norm_num)]

/-! ### C26 -/

/-- `rightInvA` computes a right inverse of every matrix of full row rank; applied to a right hand side it gives the
solution of minimal norm; the returned number is `sqrt(det(A Aᵀ))` -/
theorem C26_rightInvA (m n : Nat) (A : Mat ℝ) (hmn : m ≤ n) (hA : LinearIndependent ℝ (mat m n A).row) :
    ∃ R, rightInvA m n A = some (Real.sqrt (mat m n A * (mat m n A)ᵀ).det, R) ∧
      mat m n A * mat n m R = 1 ∧
      ∀ (b : Fin m → ℝ) (z : Fin n → ℝ), mat m n A *ᵥ z = b →
        (mat n m R *ᵥ b) ⬝ᵥ (mat n m R *ᵥ b) ≤ z ⬝ᵥ z := by
  obtain ⟨R, h1, h2⟩ := rightInvA_eq hmn hA
  have hp := (aat_posDef_iff _).2 hA
  have hr : mat m n A * mat n m R = 1 := by
    rw [h2, ← Matrix.mul_assoc, mul_nonsing_inv _ ((isUnit_iff_isUnit_det _).1 hp.isUnit)]
  refine ⟨R, h1, hr, fun b z hz => ?_⟩
  rw [h2, ← mulVec_mulVec]
  apply min_norm
  rw [hz, mulVec_mulVec, mulVec_mulVec, mul_nonsing_inv _ ((isUnit_iff_isUnit_det _).1 hp.isUnit), one_mulVec]

/-- a matrix without full row rank trips the assertion (or divides by zero in the 2×2 case) -/
theorem C26_rightInvA_singular (m n : Nat) (A : Mat ℝ) (hmn : m ≤ n)
    (hA : ¬ LinearIndependent ℝ (mat m n A).row) : rightInvA m n A = none := rightInvA_none hmn hA

/-- `leftInvA` computes a left inverse of every matrix of full column rank; applied to a right hand side it gives the
least squares solution -/
theorem C26_leftInvA (m n : Nat) (A : Mat ℝ) (hA : LinearIndependent ℝ (mat m n A).col) :
    ∃ B, leftInvA m n A = some (Real.sqrt ((mat m n A)ᵀ * mat m n A).det, B) ∧
      mat n m B * mat m n A = 1 ∧
      ∀ (b : Fin m → ℝ) (z : Fin n → ℝ),
        (mat m n A *ᵥ (mat n m B *ᵥ b) - b) ⬝ᵥ (mat m n A *ᵥ (mat n m B *ᵥ b) - b) ≤
          (mat m n A *ᵥ z - b) ⬝ᵥ (mat m n A *ᵥ z - b) := by
  obtain ⟨B, h1, h2⟩ := leftInvA_eq hA
  have hp := (ata_posDef_iff _).2 hA
  have hu := (isUnit_iff_isUnit_det _).1 hp.isUnit
  refine ⟨B, h1, by rw [h2, Matrix.mul_assoc, nonsing_inv_mul _ hu], fun b z => ?_⟩
  apply least_squares
  rw [mulVec_sub, mulVec_mulVec, mulVec_mulVec, h2, ← Matrix.mul_assoc, mul_nonsing_inv _ hu, Matrix.one_mul,
    sub_self]

/-- `xTRightInvA` succeeds exactly for full row rank, and multiplies by the matrix `rightInvA` computes -/
theorem C26_xTRightInvA (m n : Nat) (A : Mat ℝ) (x : Vec ℝ) (hmn : m ≤ n)
    (hA : LinearIndependent ℝ (mat m n A).row) :
    ∃ y R d, xTRightInvA m n A x = some (true, y) ∧ rightInvA m n A = some (d, R) ∧
      vec m y = vec n x ᵥ* mat n m R ∧
      ∀ z : Fin m → ℝ, ((mat m n A)ᵀ *ᵥ vec m y - vec n x) ⬝ᵥ ((mat m n A)ᵀ *ᵥ vec m y - vec n x) ≤
        ((mat m n A)ᵀ *ᵥ z - vec n x) ⬝ᵥ ((mat m n A)ᵀ *ᵥ z - vec n x) := by
  obtain ⟨R, h1, h2⟩ := rightInvA_eq hmn hA
  have hp := (aat_posDef_iff _).2 hA
  have hu := (isUnit_iff_isUnit_det _).1 hp.isUnit
  have hs : symm m (AAT_L n A garbage) = mat m n A * (mat m n A)ᵀ := AAT_L_eq m n A garbage hmn
  obtain ⟨y, h3, h4⟩ := spdInvAx_eq (A := AAT_L n A garbage) (mv m n A x) true (by rw [hs]; exact hp)
  rw [hs, mv_eq] at h4
  refine ⟨y, R, _, h3, h1, ?_, fun z => ?_⟩
  · rw [h4, h2, ← mulVec_transpose, transpose_mul, transpose_transpose, transpose_nonsing_inv, transpose_mul,
      transpose_transpose, mulVec_mulVec]
  · apply least_squares
    rw [transpose_transpose, mulVec_sub, h4, mulVec_mulVec, mulVec_mulVec, ← mulVec_mulVec, mulVec_mulVec,
      mul_nonsing_inv _ hu, one_mulVec, sub_self]

theorem C26_xTRightInvA_singular (m n : Nat) (A : Mat ℝ) (x : Vec ℝ) (hmn : m ≤ n)
    (hA : ¬ LinearIndependent ℝ (mat m n A).row) :
    ∃ y, xTRightInvA m n A x = some (false, y) := by
  rw [← aat_posDef_iff, ← AAT_L_eq m n A garbage hmn] at hA
  exact ⟨_, spdInvAx_singular _ hA⟩

/-- `leftInvAx` succeeds exactly for full column rank, and multiplies by the matrix `leftInvA` computes -/
theorem C26_leftInvAx (m n : Nat) (A : Mat ℝ) (x : Vec ℝ) (hA : LinearIndependent ℝ (mat m n A).col) :
    ∃ y B d, leftInvAx m n A x = some (true, y) ∧ leftInvA m n A = some (d, B) ∧ vec n y = mat n m B *ᵥ vec m x := by
  obtain ⟨B, h1, h2⟩ := leftInvA_eq hA
  have hp := (ata_posDef_iff _).2 hA
  have hs : symm n (ATA_L m A garbage) = (mat m n A)ᵀ * mat m n A := ATA_L_eq m n A garbage
  obtain ⟨y, h3, h4⟩ := spdInvAx_eq (A := ATA_L m A garbage) (mtv m n A x) true (by rw [hs]; exact hp)
  rw [hs, mtv_eq] at h4
  exact ⟨y, B, _, h3, h1, by rw [h4, h2, mulVec_mulVec]⟩

theorem C26_leftInvAx_singular (m n : Nat) (A : Mat ℝ) (x : Vec ℝ)
    (hA : ¬ LinearIndependent ℝ (mat m n A).col) : ∃ y, leftInvAx m n A x = some (false, y) := by
  rw [← ata_posDef_iff, ← ATA_L_eq m n A garbage] at hA
  exact ⟨_, spdInvAx_singular _ hA⟩

/-- a row vector `(3, 4)` -/
def sampleRow : Mat ℝ := fun _ j => if j = 0 then 3 else 4

theorem sampleRow_aat : mat 1 2 sampleRow * (mat 1 2 sampleRow)ᵀ = diagonal fun _ => 25 := by
  ext i j
  have hi : i = 0 := Subsingleton.elim _ _
  have hj : j = 0 := Subsingleton.elim _ _
  subst hi; subst hj
  simp [mat, sampleRow, Matrix.mul_apply]; norm_num

theorem sampleRow_li : LinearIndependent ℝ (mat 1 2 sampleRow).row := by
  rw [← aat_posDef_iff, sampleRow_aat, posDef_diagonal_iff]
  intro i; norm_num

example : ∃ R, rightInvA 1 2 sampleRow = some (5, R) ∧ mat 1 2 sampleRow * mat 2 1 R = 1 := by
  obtain ⟨R, h1, h2, _⟩ := C26_rightInvA 1 2 sampleRow (by norm_num) sampleRow_li
  refine ⟨R, ?_, h2⟩
  rw [h1, sampleRow_aat, det_diagonal, Fin.prod_univ_one]
  rw [show (25 : ℝ) = 5 * 5 by norm_num, Real.sqrt_mul_self (by norm_num)]

example : ∃ y R d, xTRightInvA 1 2 sampleRow (fun _ => 1) = some (true, y) ∧ rightInvA 1 2 sampleRow = some (d, R) ∧
    vec 1 y = vec 2 (fun _ => 1) ᵥ* mat 2 1 R := by
  obtain ⟨y, R, d, h1, h2, h3, _⟩ := C26_xTRightInvA 1 2 sampleRow (fun _ => 1) (by norm_num) sampleRow_li
  exact ⟨y, R, d, h1, h2, h3⟩

/-! ### C27 -/

/-- `sqrtDetAAT(A) = sqrt(det(A Aᵀ))` for every matrix -/
def C27_sqrtDetAAT_full : Prop := ∀ m n A, sqrtDetAAT m n A = some (Real.sqrt (mat m n A * (mat m n A)ᵀ).det)

/-- the hand-unrolled cases hold for every matrix, singular or not -/
theorem C27_special_cases (A : Mat ℝ) :
    sqrtDetAAT 2 2 A = some (Real.sqrt (mat 2 2 A * (mat 2 2 A)ᵀ).det) ∧
    sqrtDetAAT 3 3 A = some (Real.sqrt (mat 3 3 A * (mat 3 3 A)ᵀ).det) ∧
    sqrtDetAAT 2 3 A = some (Real.sqrt (mat 2 3 A * (mat 2 3 A)ᵀ).det) := by
  refine ⟨?_, ?_, ?_⟩
  · rw [det_mul, det_transpose, Real.sqrt_mul_self_eq_abs, mat_2]
    rfl
  · rw [det_mul, det_transpose, Real.sqrt_mul_self_eq_abs, det_fin_three]
    simp only [sqrtDetAAT]
    norm_num
    simp only [mat, of_apply]
    congr 1
    simp
    ring
  · simp only [sqrtDetAAT]
    norm_num
    rw [det_fin_two]
    congr 1
    simp only [Matrix.mul_apply, Fin.sum_univ_three, transpose_apply, mat, of_apply]
    simp
    ring

/-- the generic case holds for every matrix of full row rank, and for every matrix with more rows than columns -/
theorem C27_sqrtDetAAT_partial (m n : Nat) (A : Mat ℝ)
    (h : LinearIndependent ℝ (mat m n A).row ∨ n < m ∨ (n = 2 ∧ m = 2) ∨ (n = 3 ∧ m = 3) ∨ (n = 3 ∧ m = 2)) :
    sqrtDetAAT m n A = some (Real.sqrt (mat m n A * (mat m n A)ᵀ).det) := by
  by_cases h1 : n = 2 ∧ m = 2
  · obtain ⟨rfl, rfl⟩ := h1; exact (C27_special_cases A).1
  by_cases h2 : n = 3 ∧ m = 3
  · obtain ⟨rfl, rfl⟩ := h2; exact (C27_special_cases A).2.1
  by_cases h3 : n = 3 ∧ m = 2
  · obtain ⟨rfl, rfl⟩ := h3; exact (C27_special_cases A).2.2
  rw [sqrtDetAAT, if_neg h1, if_neg h2, if_neg h3]
  by_cases hmn : m ≤ n
  · have hs : symm m (AAT_L n A garbage) = mat m n A * (mat m n A)ᵀ := AAT_L_eq m n A garbage hmn
    have hli : LinearIndependent ℝ (mat m n A).row := by
      rcases h with h | h | h | h | h
      · exact h
      · omega
      · exact absurd h h1
      · exact absurd h h2
      · exact absurd h h3
    rw [if_pos hmn, ← hs]
    refine spdDetA_eq ?_
    rw [hs]; exact (aat_posDef_iff _).2 hli
  · rw [if_neg hmn, det_aat_of_lt _ (by omega), Real.sqrt_zero]

/-- what is missing: in the generic case a matrix without full row rank trips the assertion -/
theorem C27_sqrtDetAAT_singular (m n : Nat) (A : Mat ℝ) (hmn : m ≤ n) (h1 : ¬ (n = 2 ∧ m = 2))
    (h2 : ¬ (n = 3 ∧ m = 3)) (h3 : ¬ (n = 3 ∧ m = 2)) (hA : ¬ LinearIndependent ℝ (mat m n A).row) :
    sqrtDetAAT m n A = none := by
  rw [sqrtDetAAT, if_neg h1, if_neg h2, if_neg h3, if_pos hmn]
  rw [← aat_posDef_iff, ← AAT_L_eq m n A garbage hmn] at hA
  exact spdDetA_none hA

/-- a degenerate edge (1×2, zero) aborts instead of giving 0 -/
theorem C27_sqrtDetAAT_counterexample : ¬ C27_sqrtDetAAT_full := by
  intro h
  have h1 := h 1 2 (fun _ _ => 0)
  rw [C27_sqrtDetAAT_singular 1 2 _ (by norm_num) (by norm_num) (by norm_num) (by norm_num)] at h1
  · simp at h1
  · rw [← aat_posDef_iff]
    intro hp
    have := hp.diag_pos (i := 0)
    simp [mat, Matrix.mul_apply] at this

example : sqrtDetAAT 1 2 sampleRow = some 5 := by
  rw [C27_sqrtDetAAT_partial 1 2 _ (Or.inl sampleRow_li), sampleRow_aat, det_diagonal, Fin.prod_univ_one,
    show (25 : ℝ) = 5 * 5 by norm_num, Real.sqrt_mul_self (by norm_num)]

/-! ### C62 -/

/-- C62: matrix-vector products -/
theorem C62_vector (m n : Nat) (A : Mat ℝ) (x : Vec ℝ) :
    vec m (mv m n A x) = mat m n A *ᵥ vec n x ∧ vec n (mtv m n A x) = (mat m n A)ᵀ *ᵥ vec m x := by
  constructor
  · funext i
    simp only [vec, mv, mulVec, dotProduct, addLoop_eq, zero_add, mat, of_apply]
    rw [← range_eq_Ico, ← sum_fin n (fun k => A i k * x k)]
  · funext i
    simp only [vec, mtv, mulVec, dotProduct, addLoop_eq, zero_add, mat, of_apply, transpose_apply]
    rw [← range_eq_Ico, ← sum_fin m (fun k => A k i * x k)]

/-- C62: `ATBT` is the product of the transposed matrices -/
theorem C62_ATBT (m n p : Nat) (A B : Mat ℝ) : mat n p (ATBT m A B) = (mat m n A)ᵀ * (mat p m B)ᵀ := by
  ext i j
  simp only [mat, ATBT, of_apply, mul_apply, transpose_apply, addLoop_eq, zero_add]
  rw [← range_eq_Ico, ← sum_fin m (fun k => A k i * B j k)]

/-- C62: `AAT` is the whole product, both triangles -/
theorem C62_AAT (m n : Nat) (A : Mat ℝ) : mat m m (AAT n A) = mat m n A * (mat m n A)ᵀ := by
  ext i j
  simp only [mat, AAT, of_apply, mul_apply, transpose_apply, addLoop_eq, zero_add]
  rw [← range_eq_Ico, sum_fin n (fun k => A i k * A j k)]
  rcases lt_trichotomy i.1 j.1 with h | h | h
  · rw [if_neg (by omega), if_pos h]
    exact sum_congr rfl fun k _ => mul_comm _ _
  · rw [if_neg (by omega), if_neg (by omega), h]
  · rw [if_pos h]

/-- C62: `ATA_L` and `AAT_L` write the lower triangle of the product and leave the rest alone (`AAT_L` reads the first column, so
there has to be one) -/
theorem C62_triangles (m n : Nat) (A ret : Mat ℝ) :
    (∀ i j, i < n → j < n → ATA_L m A ret i j = if h : j ≤ i ∧ i < n then
      ((mat m n A)ᵀ * mat m n A) ⟨i, h.2⟩ ⟨j, by omega⟩ else ret i j) ∧
    (0 < n → ∀ i j, i < m → j < m → AAT_L n A ret i j = if h : j ≤ i ∧ i < m then
      (mat m n A * (mat m n A)ᵀ) ⟨i, h.2⟩ ⟨j, by omega⟩ else ret i j) := by
  refine ⟨fun i j hi hj => ?_, fun hn i j hi hj => ?_⟩
  · by_cases h : j ≤ i
    · rw [dif_pos ⟨h, hi⟩, ← ATA_L_eq m n A ret]
      simp only [symm, of_apply, Fin.mk_le_mk, if_pos h]
    · rw [dif_neg (fun c => h c.1), ATA_L, if_neg h]
  · by_cases h : j ≤ i
    · rw [dif_pos ⟨h, hi⟩, mul_apply]
      simp only [mat, of_apply, transpose_apply, AAT_L, if_pos h, addLoop_eq]
      rw [sum_fin n (fun k => A i k * A j k), range_eq_Ico, Finset.sum_eq_sum_Ico_succ_bot hn]
    · rw [dif_neg (fun c => h c.1), AAT_L, if_neg h]

-- a 2×3 matrix: upper right entry of the product
example : AAT 3 (fun i j => ((i + 1) * (j + 1) : ℕ)) 0 1 = 28 := by
  have := congrFun (congrFun (C62_AAT 2 3 fun i j => ((i + 1) * (j + 1) : ℕ)) 0) 1
  simp only [mat, of_apply] at this
  refine this.trans ?_
  simp [mul_apply, Fin.sum_univ_three]
  norm_num

end Verif.MatHelp
