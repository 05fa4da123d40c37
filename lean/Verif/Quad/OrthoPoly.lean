import Mathlib.Algebra.Group.ForwardDiff
import Mathlib.Algebra.Polynomial.Degree.Lemmas
import Mathlib.Algebra.Polynomial.BigOperators
import Mathlib.Analysis.SpecialFunctions.Integrals.Basic
import Mathlib.Topology.Algebra.Polynomial
import Mathlib.Tactic.FieldSimp
import Mathlib.Tactic.LinearCombination

/-!
Monic orthogonal polynomials on `[0,1]` with weight `s^α` (shifted Jacobi polynomials), their orthogonality and their
three term recurrence.  Used for the rules that come from an eigenvalue solver.
-/

namespace Verif.Quad.Ortho

open Polynomial Finset

/-- `∫₀¹ s^α p(s) ds` -/
noncomputable def L (α : ℕ) (p : ℝ[X]) : ℝ := ∫ s in (0 : ℝ)..1, s ^ α * p.eval s

theorem intble (α : ℕ) (p : ℝ[X]) : IntervalIntegrable (fun s : ℝ => s ^ α * p.eval s) MeasureTheory.volume 0 1 :=
  ((continuous_pow α).mul p.continuous).intervalIntegrable _ _

theorem L_add (α : ℕ) (p q : ℝ[X]) : L α (p + q) = L α p + L α q := by
  unfold L
  rw [← intervalIntegral.integral_add (intble α p) (intble α q)]
  congr 1
  ext s
  rw [eval_add]; ring

theorem L_smul (α : ℕ) (c : ℝ) (p : ℝ[X]) : L α (C c * p) = c * L α p := by
  unfold L
  rw [← intervalIntegral.integral_const_mul]
  congr 1
  ext s
  rw [eval_mul, eval_C]; ring

theorem L_zero (α : ℕ) : L α 0 = 0 := by simp [L]

theorem L_sub (α : ℕ) (p q : ℝ[X]) : L α (p - q) = L α p - L α q := by
  have : p - q = p + C (-1) * q := by simp [sub_eq_add_neg]
  rw [this, L_add, L_smul]; ring

theorem L_sum (α : ℕ) {ι : Type} (s : Finset ι) (f : ι → ℝ[X]) : L α (∑ i ∈ s, f i) = ∑ i ∈ s, L α (f i) := by
  classical
  induction s using Finset.induction_on with
  | empty => simp [L_zero]
  | insert a s h ih => rw [sum_insert h, sum_insert h, L_add, ih]

theorem L_X_pow (α k : ℕ) : L α (X ^ k) = 1 / (α + k + 1) := by
  unfold L
  have : (fun s : ℝ => s ^ α * (X ^ k : ℝ[X]).eval s) = fun s => s ^ (α + k) := by
    ext s; rw [eval_pow, eval_X, pow_add]
  rw [this, integral_pow]
  simp

/-- positivity -/
theorem L_pos (α : ℕ) (p : ℝ[X]) (hp : p ≠ 0) (h : ∀ s : ℝ, 0 < s → s < 1 → 0 ≤ p.eval s) : 0 < L α p := by
  unfold L
  refine intervalIntegral.integral_pos_iff_support_of_nonneg_ae' ?_ (intble α p) |>.2 ⟨one_pos, ?_⟩
  · rw [Filter.EventuallyLE, MeasureTheory.ae_restrict_iff' measurableSet_uIoc]
    have h1 : ∀ᵐ s : ℝ, s ≠ 1 := by
      rw [MeasureTheory.ae_iff]; simp
    filter_upwards [h1] with s hs hI
    rw [Set.uIoc_of_le zero_le_one] at hI
    exact mul_nonneg (pow_nonneg hI.1.le _) (h s hI.1 (lt_of_le_of_ne hI.2 hs))
  · have hsub : Set.Ioo (0 : ℝ) 1 \ (p.roots.toFinset : Set ℝ) ⊆
        Function.support (fun s : ℝ => s ^ α * p.eval s) ∩ Set.Ioc 0 1 := by
      rintro s ⟨⟨h0, h1⟩, hs⟩
      refine ⟨?_, h0, h1.le⟩
      rw [Function.mem_support]
      refine mul_ne_zero (pow_ne_zero _ h0.ne') fun he => hs ?_
      simp [hp, he]
    refine lt_of_lt_of_le ?_ (MeasureTheory.measure_mono hsub)
    rw [MeasureTheory.measure_sdiff_null (Finset.measure_zero _ _)]
    simp

/-- the coefficients of the monic orthogonal polynomials -/
noncomputable def coef (α j k : ℕ) : ℝ :=
  (-1) ^ (j - k) * (j.choose k : ℝ) * ((α + k + 1).ascFactorial j : ℝ) / ((α + j + 1).ascFactorial j : ℝ)

/-- the monic orthogonal polynomials -/
noncomputable def E (α j : ℕ) : ℝ[X] := ∑ k ∈ range (j + 1), C (coef α j k) * X ^ k

theorem asc_ne (n k : ℕ) : ((n + 1).ascFactorial k : ℝ) ≠ 0 := by
  exact_mod_cast (Nat.ascFactorial_pos n k).ne'

theorem coef_self (α j : ℕ) : coef α j j = 1 := by
  unfold coef
  simp [div_self (asc_ne (α + j) j)]

theorem coef_gt (α j k : ℕ) (h : j < k) : coef α j k = 0 := by
  unfold coef
  simp [Nat.choose_eq_zero_of_lt h]

theorem E_coeff (α j k : ℕ) : (E α j).coeff k = coef α j k := by
  unfold E
  rw [finsetSum_coeff]
  simp only [coeff_C_mul_X_pow]
  by_cases h : k < j + 1
  · rw [sum_ite_eq]
    simp [h]
  · rw [coef_gt _ _ _ (by omega)]
    refine sum_eq_zero fun i hi => ?_
    rw [mem_range] at hi
    rw [if_neg (by omega)]

theorem E_natDegree (α j : ℕ) : (E α j).natDegree = j := by
  refine natDegree_eq_of_le_of_coeff_ne_zero ?_ ?_
  · exact natDegree_le_iff_coeff_eq_zero.2 fun n hn => by rw [E_coeff, coef_gt _ _ _ hn]
  · rw [E_coeff, coef_self]; exact one_ne_zero

theorem E_monic (α j : ℕ) : (E α j).Monic := by
  rw [Monic, leadingCoeff, E_natDegree, E_coeff, coef_self]

theorem ascFactorial_cast (n k : ℕ) : ((n.ascFactorial k : ℕ) : ℝ) = ∏ i ∈ range k, ((n : ℝ) + i) := by
  rw [Nat.ascFactorial_eq_prod_range]
  push_cast
  rfl

/-- orthogonality to lower powers -/
theorem L_E_pow (α j m : ℕ) (h : m < j) : L α (E α j * X ^ m) = 0 := by
  unfold E
  rw [sum_mul, L_sum]
  -- the polynomial whose differences appear
  let P : ℝ[X] := ∏ i ∈ (range j).erase m, (X + C ((α : ℝ) + 1 + i))
  have hP : P.natDegree < j := by
    have : P.natDegree = ((range j).erase m).card := by
      rw [natDegree_prod_of_monic _ _ fun i _ => monic_X_add_C _]
      simp only [natDegree_X_add_C, sum_const, smul_eq_mul, mul_one]
    rw [this, card_erase_of_mem (mem_range.2 h), card_range]
    omega
  have h0 := congrFun (Polynomial.fwdDiff_iter_eq_zero_of_degree_lt hP) 0
  rw [fwdDiff_iter_eq_sum_shift] at h0
  have hterm : ∀ k ∈ range (j + 1), L α (C (coef α j k) * X ^ k * X ^ m) =
      (1 / ((α + j + 1).ascFactorial j : ℝ)) * (((-1 : ℤ) ^ (j - k) * (j.choose k : ℤ)) • P.eval (0 + k • (1 : ℝ))) := by
    intro k _
    rw [mul_assoc, ← pow_add, L_smul, L_X_pow]
    have hev : ((α + k + 1).ascFactorial j : ℝ) = P.eval (k : ℝ) * ((α : ℝ) + k + m + 1) := by
      rw [ascFactorial_cast, ← mul_prod_erase _ _ (mem_range.2 h)]
      simp only [P, eval_prod, eval_add, eval_X, eval_C]
      rw [mul_comm]
      congr 1
      · refine prod_congr rfl fun i _ => ?_
        push_cast; ring
      · push_cast; ring
    unfold coef
    rw [hev]
    simp only [zsmul_eq_mul, nsmul_eq_mul, zero_add, mul_one]
    push_cast
    have h1 : ((α : ℝ) + k + m + 1) ≠ 0 := by positivity
    have h2 := asc_ne (α + j) j
    field_simp
    ring
  rw [sum_congr rfl hterm, ← mul_sum, h0]
  simp

/-- orthogonality to all polynomials of lower degree -/
theorem L_E_mul (α j : ℕ) (q : ℝ[X]) (h : q.natDegree < j) : L α (E α j * q) = 0 := by
  rw [q.as_sum_range_C_mul_X_pow, mul_sum, L_sum]
  refine sum_eq_zero fun i hi => ?_
  rw [mem_range] at hi
  rw [show E α j * (C (q.coeff i) * X ^ i) = C (q.coeff i) * (E α j * X ^ i) by ring, L_smul, L_E_pow _ _ _ (by omega),
    mul_zero]

/-- recurrence coefficients -/
noncomputable def A (α j : ℕ) : ℝ :=
  if j = 0 then (α + 1) / (α + 2) else 1 / 2 + (α : ℝ) ^ 2 / (2 * (2 * j + α + 2) * (2 * j + α))

noncomputable def B (α j : ℕ) : ℝ :=
  (j : ℝ) ^ 2 * (j + α) ^ 2 / ((2 * j + α - 1) * (2 * j + α) ^ 2 * (2 * j + α + 1))

/-- the coefficients through factorials -/
theorem coef_eq (α k t : ℕ) : coef α (k + t) k =
    (-1) ^ t * ((k + t).factorial : ℝ) * ((α + 2 * k + t).factorial : ℝ) * ((α + k + t).factorial : ℝ) /
      ((k.factorial : ℝ) * (t.factorial : ℝ) * ((α + k).factorial : ℝ) * ((α + 2 * k + 2 * t).factorial : ℝ)) := by
  unfold coef
  have f : ∀ n : ℕ, ((n.factorial : ℕ) : ℝ) ≠ 0 := fun n => by exact_mod_cast Nat.factorial_ne_zero n
  have h1 : ((α + k + 1).ascFactorial (k + t) : ℝ) = ((α + 2 * k + t).factorial : ℝ) / ((α + k).factorial : ℝ) := by
    rw [eq_div_iff (f _), mul_comm]
    have := Nat.factorial_mul_ascFactorial (α + k) (k + t)
    rw [show α + k + (k + t) = α + 2 * k + t by ring] at this
    exact_mod_cast this
  have h2 : ((α + (k + t) + 1).ascFactorial (k + t) : ℝ) =
      ((α + 2 * k + 2 * t).factorial : ℝ) / ((α + k + t).factorial : ℝ) := by
    rw [eq_div_iff (f _), mul_comm]
    have := Nat.factorial_mul_ascFactorial (α + (k + t)) (k + t)
    rw [show α + (k + t) + (k + t) = α + 2 * k + 2 * t by ring, show α + (k + t) = α + k + t by ring] at this
    rw [show α + (k + t) + 1 = α + k + t + 1 by ring]
    exact_mod_cast this
  have h3 : ((k + t).choose k : ℝ) = ((k + t).factorial : ℝ) / ((k.factorial : ℝ) * (t.factorial : ℝ)) := by
    rw [eq_div_iff (mul_ne_zero (f _) (f _))]
    have := Nat.add_choose_mul_factorial_mul_factorial k t
    rw [← Nat.choose_symm_add] at this
    rw [← mul_assoc]
    exact_mod_cast this
  rw [h1, h2, h3, show k + t - k = t by omega]
  have a1 := f k
  have a2 := f t
  have a3 := f (α + k)
  have a4 := f (α + 2 * k + 2 * t)
  have a5 := f (α + k + t)
  field_simp

theorem fac_succ (n : ℕ) : ((n + 1).factorial : ℝ) = (n + 1) * (n.factorial : ℝ) := by
  rw [Nat.factorial_succ]; push_cast; ring

theorem fac_ne (n : ℕ) : ((n.factorial : ℕ) : ℝ) ≠ 0 := by exact_mod_cast Nat.factorial_ne_zero n

theorem rec_mid (α k t : ℕ) : coef α (k + 1 + (t + 2)) (k + 1) = coef α (k + (t + 2)) k -
    A α (k + t + 2) * coef α (k + 1 + (t + 1)) (k + 1) - B α (k + t + 2) * coef α (k + 1 + t) (k + 1) := by
  rw [coef_eq, coef_eq, coef_eq, coef_eq]
  rw [show k + 1 + (t + 2) = k + t + 1 + 1 + 1 by ring, show α + 2 * (k + 1) + (t + 2) = α + 2 * k + t + 2 + 1 + 1 by ring,
    show α + (k + 1) + (t + 2) = α + k + t + 1 + 1 + 1 by ring, show t + 2 = t + 1 + 1 by ring,
    show α + (k + 1) = α + k + 1 by ring,
    show α + 2 * (k + 1) + 2 * (t + 1 + 1) = α + 2 * k + 2 * t + 2 + 1 + 1 + 1 + 1 by ring,
    show k + (t + 1 + 1) = k + t + 1 + 1 by ring, show α + 2 * k + (t + 1 + 1) = α + 2 * k + t + 2 by ring,
    show α + k + (t + 1 + 1) = α + k + t + 1 + 1 by ring, show α + 2 * k + 2 * (t + 1 + 1) = α + 2 * k + 2 * t + 2 + 1 + 1 by ring,
    show k + 1 + (t + 1) = k + t + 1 + 1 by ring, show α + 2 * (k + 1) + (t + 1) = α + 2 * k + t + 2 + 1 by ring,
    show α + k + 1 + (t + 1) = α + k + t + 1 + 1 by ring,
    show α + 2 * (k + 1) + 2 * (t + 1) = α + 2 * k + 2 * t + 2 + 1 + 1 by ring,
    show k + 1 + t = k + t + 1 by ring, show α + 2 * (k + 1) + t = α + 2 * k + t + 2 by ring,
    show α + k + 1 + t = α + k + t + 1 by ring, show α + 2 * (k + 1) + 2 * t = α + 2 * k + 2 * t + 2 by ring]
  unfold A B
  rw [if_neg (by omega)]
  simp only [fac_succ, pow_succ]
  push_cast
  have f1 := fac_ne (k + t)
  have f2 := fac_ne (α + 2 * k + t + 1)
  have f3 := fac_ne (α + k + t)
  have g1 := fac_ne k
  have g2 := fac_ne t
  have g3 := fac_ne (α + k)
  have g4 := fac_ne (α + 2 * k + 2 * t + 1)
  generalize (((k + t).factorial : ℕ) : ℝ) = F1 at *
  generalize (((α + 2 * k + t + 1).factorial : ℕ) : ℝ) = F2 at *
  generalize (((α + k + t).factorial : ℕ) : ℝ) = F3 at *
  generalize ((k.factorial : ℕ) : ℝ) = G1 at *
  generalize ((t.factorial : ℕ) : ℝ) = G2 at *
  generalize (((α + k).factorial : ℕ) : ℝ) = G3 at *
  generalize (((α + 2 * k + 2 * t + 1).factorial : ℕ) : ℝ) = G4 at *
  have p1 : (0 : ℝ) ≤ α := Nat.cast_nonneg _
  have p2 : (0 : ℝ) ≤ k := Nat.cast_nonneg _
  have p3 : (0 : ℝ) ≤ t := Nat.cast_nonneg _
  generalize (α : ℝ) = a at *
  generalize (k : ℝ) = x at *
  generalize (t : ℝ) = y at *
  have e1 : (2 * (x + y + 2) + a - 1) = 2 * x + 2 * y + a + 3 := by ring
  rw [e1]
  field_simp
  ring

theorem rec_low (α t : ℕ) : coef α (0 + (t + 2)) 0 =
    - A α (t + 1) * coef α (0 + (t + 1)) 0 - B α (t + 1) * coef α (0 + t) 0 := by
  rw [coef_eq, coef_eq, coef_eq]
  simp only [Nat.mul_zero, Nat.add_zero, Nat.zero_add]
  rw [show α + (t + 2) = α + t + 1 + 1 by ring, show t + 2 = t + 1 + 1 by ring,
    show α + 2 * (t + 1 + 1) = α + 2 * t + 1 + 1 + 1 + 1 by ring,
    show α + (t + 1) = α + t + 1 by ring, show α + 2 * (t + 1) = α + 2 * t + 1 + 1 by ring]
  unfold A B
  rw [if_neg (by omega)]
  simp only [fac_succ, pow_succ]
  push_cast
  have f1 := fac_ne (α + t)
  have g1 := fac_ne 0
  have g2 := fac_ne t
  have g3 := fac_ne α
  have g4 := fac_ne (α + 2 * t)
  generalize (((α + t).factorial : ℕ) : ℝ) = F1 at *
  generalize ((Nat.factorial 0 : ℕ) : ℝ) = G1 at *
  generalize ((t.factorial : ℕ) : ℝ) = G2 at *
  generalize ((α.factorial : ℕ) : ℝ) = G3 at *
  generalize (((α + 2 * t).factorial : ℕ) : ℝ) = G4 at *
  have p1 : (0 : ℝ) ≤ α := Nat.cast_nonneg _
  have p3 : (0 : ℝ) ≤ t := Nat.cast_nonneg _
  generalize (α : ℝ) = a at *
  generalize (t : ℝ) = y at *
  have e1 : (2 * (y + 1) + a - 1) = 2 * y + a + 1 := by ring
  rw [e1]
  field_simp
  ring

theorem rec_high (α k : ℕ) : coef α (k + 1 + 1) (k + 1) = coef α (k + 1) k - A α (k + 1) := by
  rw [coef_eq, coef_eq]
  rw [show α + 2 * (k + 1) + 1 = α + 2 * k + 1 + 1 + 1 by ring, show α + (k + 1) + 1 = α + k + 1 + 1 by ring,
    show α + (k + 1) = α + k + 1 by ring,
    show α + 2 * (k + 1) + 2 * 1 = α + 2 * k + 1 + 1 + 1 + 1 by ring,
    show α + 2 * k + 2 * 1 = α + 2 * k + 1 + 1 by ring]
  unfold A
  rw [if_neg (by omega)]
  simp only [fac_succ]
  push_cast
  have f1 := fac_ne k
  have f2 := fac_ne (α + k)
  have f3 := fac_ne (α + 2 * k)
  generalize (((α + k).factorial : ℕ) : ℝ) = F1 at *
  generalize ((k.factorial : ℕ) : ℝ) = G1 at *
  generalize (((α + 2 * k).factorial : ℕ) : ℝ) = G4 at *
  have p1 : (0 : ℝ) ≤ α := Nat.cast_nonneg _
  have p3 : (0 : ℝ) ≤ k := Nat.cast_nonneg _
  generalize (α : ℝ) = a at *
  generalize (k : ℝ) = y at *
  field_simp
  ring

theorem E_zero (α : ℕ) : E α 0 = 1 := by
  ext k
  rw [E_coeff, coeff_one]
  by_cases h : k = 0
  · subst h; simp [coef_self]
  · rw [if_neg h, coef_gt _ _ _ (by omega)]

theorem E_one (α : ℕ) : E α 1 = X - C (A α 0) := by
  ext k
  rw [E_coeff, coeff_sub, coeff_X, coeff_C]
  match k with
  | 0 =>
    have := coef_eq α 0 1
    simp only [Nat.zero_add] at this
    rw [this]
    simp only [A, if_true]
    rw [show α + 2 * 0 + 1 = α + 1 by ring, show α + 0 + 1 = α + 1 by ring, show α + 2 * 0 + 2 * 1 = α + 1 + 1 by ring]
    simp only [fac_succ]
    have f1 := fac_ne α
    simp only [Nat.add_zero, Nat.factorial_zero, Nat.cast_one]
    have p1 : (0 : ℝ) ≤ α := Nat.cast_nonneg _
    push_cast
    field_simp
    ring
  | 1 => simp [coef_self]
  | k + 2 => rw [coef_gt _ _ _ (by omega)]; simp

/-- the three term recurrence -/
theorem E_rec (α j : ℕ) : E α (j + 2) = (X - C (A α (j + 1))) * E α (j + 1) - C (B α (j + 1)) * E α j := by
  ext k
  rw [sub_mul, coeff_sub, coeff_sub, coeff_C_mul, coeff_C_mul, E_coeff, E_coeff, E_coeff]
  match k with
  | 0 =>
    rw [coeff_X_mul_zero]
    have := rec_low α j
    simp only [Nat.zero_add] at this
    rw [this]; ring
  | k + 1 =>
    rw [coeff_X_mul, E_coeff]
    rcases lt_trichotomy k j with h | h | h
    · obtain ⟨t, rfl⟩ := Nat.exists_eq_add_of_lt h
      have := rec_mid α k t
      rw [show k + 1 + (t + 2) = k + t + 1 + 2 by ring, show k + (t + 2) = k + t + 1 + 1 by ring,
        show k + t + 2 = k + t + 1 + 1 by ring, show k + 1 + (t + 1) = k + t + 1 + 1 by ring,
        show k + 1 + t = k + t + 1 by ring] at this
      exact this
    · subst h
      have := rec_high α k
      rw [show k + 2 = k + 1 + 1 by ring, this, coef_self, coef_gt α k (k + 1) (by omega)]
      ring
    · rcases Nat.lt_or_ge (j + 1) k with h1 | h1
      · rw [coef_gt _ _ _ (by omega), coef_gt _ _ _ (by omega), coef_gt _ _ _ (by omega), coef_gt _ _ _ (by omega)]; ring
      · obtain rfl : k = j + 1 := by omega
        rw [show j + 2 = j + 1 + 1 by ring, coef_self, coef_self, coef_gt _ _ _ (by omega), coef_gt _ _ _ (by omega)]
        ring

theorem A_pos (α j : ℕ) : 0 < A α j := by
  unfold A
  split <;> positivity

theorem B_pos (α j : ℕ) (h : 1 ≤ j) : 0 < B α j := by
  unfold B
  have h1 : (1 : ℝ) ≤ j := by exact_mod_cast h
  have h2 : (0 : ℝ) ≤ α := Nat.cast_nonneg _
  have h3 : (0 : ℝ) < 2 * j + α - 1 := by linarith
  have h4 : (0 : ℝ) < j := by linarith
  positivity

/-- the squared norms -/
noncomputable def h (α j : ℕ) : ℝ := L α (E α j * E α j)

theorem h_pos (α j : ℕ) : 0 < h α j := by
  refine L_pos α _ (mul_ne_zero (E_monic α j).ne_zero (E_monic α j).ne_zero) fun s _ _ => ?_
  rw [eval_mul]; exact mul_self_nonneg _

theorem h_zero (α : ℕ) : h α 0 = 1 / (α + 1) := by
  unfold h
  rw [E_zero, mul_one]
  have := L_X_pow α 0
  rw [pow_zero] at this
  rw [this]; simp

theorem L_E_lt (α i j : ℕ) (hij : i < j) : L α (E α j * E α i) = 0 := L_E_mul α j _ (by rw [E_natDegree]; exact hij)

/-- `B_{j+1}` is the quotient of two squared norms -/
theorem h_succ (α j : ℕ) : h α (j + 1) = B α (j + 1) * h α j := by
  have h1 := L_E_lt α j (j + 2) (by omega)
  rw [E_rec, show ((X - C (A α (j + 1))) * E α (j + 1) - C (B α (j + 1)) * E α j) * E α j =
    E α (j + 1) * (X * E α j) - C (A α (j + 1)) * (E α (j + 1) * E α j) - C (B α (j + 1)) * (E α j * E α j) by ring,
    L_sub, L_sub, L_smul, L_smul, L_E_lt α j (j + 1) (by omega)] at h1
  have h2 : L α (E α (j + 1) * (X * E α j - E α (j + 1))) = 0 := by
    refine L_E_mul α (j + 1) _ ?_
    have hd : (X * E α j).Monic := monic_X.mul (E_monic α j)
    have hn : (X * E α j).natDegree = j + 1 := by rw [natDegree_X_mul (E_monic α j).ne_zero, E_natDegree]
    have := degree_sub_lt_left (p := X * E α j) (q := E α (j + 1)) (by
      rw [degree_eq_natDegree hd.ne_zero, degree_eq_natDegree (E_monic α _).ne_zero, hn, E_natDegree]) hd.ne_zero (by
      rw [hd.leadingCoeff, (E_monic α _).leadingCoeff])
    by_cases h0 : X * E α j - E α (j + 1) = 0
    · rw [h0]; simp
    · rw [degree_eq_natDegree h0, degree_eq_natDegree hd.ne_zero, hn] at this
      exact_mod_cast this
  rw [show E α (j + 1) * (X * E α j - E α (j + 1)) = E α (j + 1) * (X * E α j) - E α (j + 1) * E α (j + 1) by ring, L_sub] at h2
  unfold h
  linarith

end Verif.Quad.Ortho
