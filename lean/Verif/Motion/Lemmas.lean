import Verif.Motion.Spec
import Verif.MultiLinear.NewtonProps
import Verif.GaussNewton.Props

/-! Lemmas for property C96: the multilinear map is linear in the corners; the matrix helpers under similarities. -/

namespace Verif.Motion

open Verif.RefGeom Verif.RefTopo Verif.MatHelp Verif.MultiLinear Finset
open Matrix hiding vec

noncomputable section

/-! ### the multilinear map is linear in the corner values -/

theorem ML_add (tol : ℝ) : ∀ (t : Topo) (c c' : Nat → ℝ) (z : Vec ℝ),
    ML tol t (fun k => c k + c' k) z = ML tol t c z + ML tol t c' z
  | .pt, _, _, _ => rfl
  | .prism t, c, c', z => by
    rw [ML, ML, ML, ML_add tol t, ML_add tol t (fun k => c (nv t + k))]
    ring
  | .pyr t, c, c', z => by
    by_cases h : far tol (1 - z t.dim)
    · rw [ML_pyr_far h, ML_pyr_far h, ML_pyr_far h, ML_add tol t]
      ring
    · rw [ML_pyr_near h, ML_pyr_near h, ML_pyr_near h]
      ring

theorem ML_smul (tol a : ℝ) : ∀ (t : Topo) (c : Nat → ℝ) (z : Vec ℝ),
    ML tol t (fun k => a * c k) z = a * ML tol t c z
  | .pt, _, _ => rfl
  | .prism t, c, z => by
    rw [ML, ML, ML_smul tol a t, ML_smul tol a t (fun k => c (nv t + k))]
    ring
  | .pyr t, c, z => by
    by_cases h : far tol (1 - z t.dim)
    · rw [ML_pyr_far h, ML_pyr_far h, ML_smul tol a t]
      ring
    · rw [ML_pyr_near h, ML_pyr_near h]
      ring

theorem ML_sum {ι : Type} (tol : ℝ) (t : Topo) (s : Finset ι) (a : ι → ℝ) (c : ι → Nat → ℝ) (z : Vec ℝ) :
    ML tol t (fun k => ∑ i ∈ s, a i * c i k) z = ∑ i ∈ s, a i * ML tol t (c i) z := by
  classical
  induction s using Finset.induction_on with
  | empty =>
    have := ML_smul tol 0 t (fun _ => 0) z
    simpa using this
  | insert i s hi ih =>
    simp only [sum_insert hi]
    rw [ML_add, ML_smul, ih]

theorem MLd_add (tol : ℝ) : ∀ (t : Topo) (c c' : Nat → ℝ) (z : Vec ℝ) (r : Nat),
    MLd tol t (fun k => c k + c' k) z r = MLd tol t c z r + MLd tol t c' z r
  | .pt, _, _, _, _ => by simp [MLd]
  | .prism t, c, c', z, r => by
    simp only [MLd]
    split_ifs
    · rw [ML_add, ML_add tol t c]
      ring
    · rw [MLd_add tol t, MLd_add tol t (fun k => c (nv t + k))]
      ring
  | .pyr t, c, c', z, r => by
    simp only [MLd]
    split_ifs
    · rw [ML_add, ← add_sub_cancel_right (∑ j ∈ range t.dim, _) (0 : ℝ)]
      simp only [MLd_add tol t, mul_add, sum_add_distrib]
      ring
    · rw [MLd_add tol t]

theorem MLd_smul (tol a : ℝ) : ∀ (t : Topo) (c : Nat → ℝ) (z : Vec ℝ) (r : Nat),
    MLd tol t (fun k => a * c k) z r = a * MLd tol t c z r
  | .pt, _, _, _ => by simp [MLd]
  | .prism t, c, z, r => by
    simp only [MLd]
    split_ifs
    · rw [ML_smul, ML_smul tol a t c]
      ring
    · rw [MLd_smul tol a t, MLd_smul tol a t (fun k => c (nv t + k))]
      ring
  | .pyr t, c, z, r => by
    simp only [MLd]
    split_ifs
    · rw [ML_smul]
      simp only [MLd_smul tol a t, mul_add, mul_sum]
      rw [mul_neg]
      congr 1
      exact sum_congr rfl fun _ _ => by ring
    · rw [MLd_smul tol a t]

theorem MLd_sum {ι : Type} (tol : ℝ) (t : Topo) (s : Finset ι) (a : ι → ℝ) (c : ι → Nat → ℝ) (z : Vec ℝ) (r : Nat) :
    MLd tol t (fun k => ∑ i ∈ s, a i * c i k) z r = ∑ i ∈ s, a i * MLd tol t (c i) z r := by
  classical
  induction s using Finset.induction_on with
  | empty =>
    have := MLd_smul tol 0 t (fun _ => 0) z r
    simpa using this
  | insert i s hi ih =>
    simp only [sum_insert hi]
    rw [MLd_add, MLd_smul, ih]

theorem ML_const {tol : ℝ} (h0 : 0 ≤ tol) (t : Topo) (b : ℝ) (z : Vec ℝ) (h : b = 0 ∨ Away tol t z) :
    ML tol t (fun _ => b) z = b := by
  rcases h with rfl | h
  · have := ML_smul tol 0 t (fun _ => 0) z
    simpa using this
  · have := ML_affine h0 t (fun _ => b) b (fun _ => 0) z (fun _ _ _ => by simp) h
    simpa using this

theorem MLd_const {tol : ℝ} (h0 : 0 ≤ tol) (t : Topo) (b : ℝ) (z : Vec ℝ) (h : b = 0 ∨ Away tol t z) (r : Nat)
    (hr : r < t.dim) : MLd tol t (fun _ => b) z r = 0 := by
  rcases h with rfl | h
  · have := MLd_smul tol 0 t (fun _ => 0) z r
    simpa using this
  · exact MLd_exact h0 t (fun _ => b) b (fun _ => 0) z (fun _ _ _ => by simp) h r hr

/-! ### the affinity test -/

theorem ajt_comb {n : Nat} (a : Fin n → ℝ) (b : ℝ) : ∀ (t : Topo) (c : Fin n → Nat → ℝ) (r : Nat), r < t.dim →
    ajt t (fun k => ∑ i, a i * c i k + b) r = ∑ i, a i * ajt t (c i) r
  | .pt, _, _, h => by exact absurd h (Nat.not_lt_zero _)
  | .prism t, c, r, h => by
    simp only [ajt]
    split_ifs with hr
    · simp only [mul_sub, sum_sub_distrib]
      ring
    · exact ajt_comb a b t c r (by simp only [Topo.dim] at h; omega)
  | .pyr t, c, r, h => by
    simp only [ajt]
    split_ifs with hr
    · simp only [mul_sub, sum_sub_distrib]
      ring
    · exact ajt_comb a b t c r (by simp only [Topo.dim] at h; omega)

/-! ### similarities -/

variable {n : Nat} (T : Similarity n)

theorem orth' : T.Q * T.Qᵀ = 1 := mul_eq_one_comm.1 T.orth

theorem linear_apply (i j : Fin n) : T.linear i j = T.s * T.Q i j := rfl

theorem apply_eq (y : Fin n → ℝ) : T.apply y = T.linear *ᵥ y + T.b := by
  rw [Similarity.apply, Similarity.linear, smul_mulVec]

theorem apply_sub (x y : Fin n → ℝ) : T.apply x - T.apply y = T.linear *ᵥ (x - y) := by
  rw [apply_eq, apply_eq, mulVec_sub]
  abel

theorem vec_move (y : Vec ℝ) : vec n (T.move y) = T.apply (vec n y) := GaussNewton.vec_ext _

theorem move_apply (y : Vec ℝ) (j : Fin n) : T.move y j = ∑ i : Fin n, T.linear j i * y i + T.b j := by
  have := congrFun (vec_move T y) j
  rw [apply_eq] at this
  exact this

theorem linear_mul : T.linearᵀ * T.linear = T.s ^ 2 • (1 : Matrix (Fin n) (Fin n) ℝ) := by
  rw [Similarity.linear, transpose_smul, smul_mul_smul_comm, T.orth, sq]

theorem dot_linear (x y : Fin n → ℝ) : (T.linear *ᵥ x) ⬝ᵥ (T.linear *ᵥ y) = T.s ^ 2 * (x ⬝ᵥ y) := by
  rw [← vecMul_transpose, ← dotProduct_mulVec, mulVec_mulVec, linear_mul, smul_mulVec, one_mulVec, dotProduct_smul,
    smul_eq_mul]

theorem aat_moved {m : Nat} (A : Matrix (Fin m) (Fin n) ℝ) :
    (A * T.linearᵀ) * (A * T.linearᵀ)ᵀ = T.s ^ 2 • (A * Aᵀ) := by
  rw [transpose_mul, transpose_transpose, Matrix.mul_assoc, ← Matrix.mul_assoc T.linearᵀ, linear_mul, smul_mul,
    Matrix.one_mul, Matrix.mul_smul]

theorem s_ne : T.s ^ 2 ≠ 0 := pow_ne_zero _ T.s_pos.ne'

theorem li_moved {m : Nat} (A : Matrix (Fin m) (Fin n) ℝ) :
    LinearIndependent ℝ (A * T.linearᵀ).row ↔ LinearIndependent ℝ A.row := by
  rw [← aat_posDef_iff, ← aat_posDef_iff, aat_moved]
  constructor
  · intro h
    have := h.smul (show (0 : ℝ) < (T.s ^ 2)⁻¹ by have := T.s_pos; positivity)
    rwa [smul_smul, inv_mul_cancel₀ (s_ne T), one_smul] at this
  · intro h
    exact h.smul (show (0 : ℝ) < T.s ^ 2 by have := T.s_pos; positivity)

theorem det_moved {m : Nat} (A : Matrix (Fin m) (Fin n) ℝ) :
    Real.sqrt ((A * T.linearᵀ) * (A * T.linearᵀ)ᵀ).det = T.s ^ m * Real.sqrt (A * Aᵀ).det := by
  rw [aat_moved, det_smul, Fintype.card_fin, Real.sqrt_mul (by have := T.s_pos; positivity), ← pow_mul, mul_comm 2 m,
    pow_mul, Real.sqrt_sq (by have := T.s_pos; positivity)]

theorem pinv_moved {m : Nat} {A : Matrix (Fin m) (Fin n) ℝ} (hA : LinearIndependent ℝ A.row) :
    pinv (A * T.linearᵀ) = T.s⁻¹ • (T.Q * pinv A) := by
  have hd := det_ne_zero_of_posDef ((aat_posDef_iff A).2 hA)
  have hs := T.s_pos.ne'
  have hu : IsUnit (A * Aᵀ).det := isUnit_iff_ne_zero.2 hd
  have hinv : (T.s ^ 2 • (A * Aᵀ))⁻¹ = (T.s ^ 2)⁻¹ • (A * Aᵀ)⁻¹ := by
    apply inv_eq_left_inv
    rw [smul_mul_smul_comm, inv_mul_cancel₀ (s_ne T), nonsing_inv_mul _ hu, one_smul]
  rw [pinv, pinv, aat_moved, hinv, transpose_mul, transpose_transpose, Similarity.linear, Matrix.smul_mul,
    Matrix.mul_smul, smul_mul, smul_smul, Matrix.mul_assoc]
  congr 1
  field_simp

/-- the correction is the same -/
theorem correction_moved {m : Nat} {A : Matrix (Fin m) (Fin n) ℝ} (hA : LinearIndependent ℝ A.row) (v : Fin n → ℝ) :
    (T.linear *ᵥ v) ᵥ* pinv (A * T.linearᵀ) = v ᵥ* pinv A := by
  rw [pinv_moved T hA, ← vecMul_transpose, vecMul_smul, vecMul_vecMul, ← Matrix.mul_assoc, Similarity.linear,
    transpose_smul, smul_mul, T.orth, smul_mul, Matrix.one_mul, vecMul_smul, smul_smul, inv_mul_cancel₀ T.s_pos.ne',
    one_smul]

end

end Verif.Motion
