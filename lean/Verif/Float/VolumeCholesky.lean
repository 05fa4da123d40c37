import Verif.Float.VolumeLemmas
import Verif.Float.InsideProps

/-! The Cholesky factorisation in floating-point arithmetic succeeds for matrices that are positive definite by a margin. -/

namespace Verif.FloatVol

open Verif.Float Verif.RefGeom Finset HasSqrt HasAbs

/-! ### The residual after `i` columns -/

/-- the quadratic form of a matrix -/
def quad (m : Nat) (S : Nat → Nat → ℝ) (w : Nat → ℝ) : ℝ := ∑ k ∈ range m, ∑ l ∈ range m, w k * w l * S k l

/-- the quadratic form minus that of the first `i` columns of the factor -/
def resid (m : Nat) (S l : Nat → Nat → ℝ) (i : Nat) (w : Nat → ℝ) : ℝ := quad m S w - ∑ j ∈ range i, (∑ k ∈ range m, w k * l k j) ^ 2

/-- `w` plus `t` times a unit vector -/
def bump (w : Nat → ℝ) (i : Nat) (t : ℝ) (k : Nat) : ℝ := w k + t * if k = i then 1 else 0

theorem sum_bump (m i : Nat) (hi : i < m) (w : Nat → ℝ) (t : ℝ) (f : Nat → ℝ) :
    ∑ k ∈ range m, bump w i t k * f k = (∑ k ∈ range m, w k * f k) + t * f i := by
  have : ∀ k ∈ range m, bump w i t k * f k = w k * f k + if k = i then t * f k else 0 := fun k _ => by
    rw [bump]; split <;> ring
  rw [sum_congr rfl this, sum_add_distrib, sum_ite_eq' (range m) i, if_pos (mem_range.mpr hi)]

theorem quad_bump (m i : Nat) (hi : i < m) (S : Nat → Nat → ℝ) (hS : ∀ k l, S k l = S l k) (w : Nat → ℝ) (t : ℝ) :
    quad m S (bump w i t) = quad m S w + 2 * t * (∑ k ∈ range m, w k * S k i) + t ^ 2 * S i i := by
  have e : ∀ v : Nat → ℝ, quad m S v = ∑ k ∈ range m, v k * ∑ l ∈ range m, v l * S k l := fun v => by
    rw [quad]
    refine sum_congr rfl fun k _ => ?_
    rw [mul_sum]
    exact sum_congr rfl fun l _ => by ring
  rw [e (bump w i t), sum_bump m i hi, sum_bump m i hi, sum_congr rfl fun k _ => by rw [sum_bump m i hi], e w]
  have h1 : ∑ k ∈ range m, w k * ((∑ l ∈ range m, w l * S k l) + t * S k i) =
      (∑ k ∈ range m, w k * ∑ l ∈ range m, w l * S k l) + t * ∑ k ∈ range m, w k * S k i := by
    rw [mul_sum, ← sum_add_distrib]
    exact sum_congr rfl fun k _ => by ring
  rw [h1, show ∑ l ∈ range m, w l * S i l = ∑ l ∈ range m, w l * S l i from sum_congr rfl fun l _ => by rw [hS i l]]
  ring

theorem resid_bump (m i : Nat) (hi : i < m) (S l : Nat → Nat → ℝ) (hS : ∀ k l, S k l = S l k) (w : Nat → ℝ) (t : ℝ) :
    resid m S l i (bump w i t) = resid m S l i w + 2 * t * (∑ k ∈ range m, w k * (S k i - ∑ j ∈ range i, l k j * l i j)) +
      t ^ 2 * (S i i - ∑ j ∈ range i, l i j * l i j) := by
  rw [resid, resid, quad_bump m i hi S hS, show ∑ j ∈ range i, (∑ k ∈ range m, bump w i t k * l k j) ^ 2 =
    ∑ j ∈ range i, ((∑ k ∈ range m, w k * l k j) + t * l i j) ^ 2 from sum_congr rfl fun j _ => by rw [sum_bump m i hi]]
  have h1 : ∑ k ∈ range m, w k * (S k i - ∑ j ∈ range i, l k j * l i j) =
      (∑ k ∈ range m, w k * S k i) - ∑ j ∈ range i, (∑ k ∈ range m, w k * l k j) * l i j := by
    rw [sum_congr rfl fun k _ => by rw [mul_sub, mul_sum], sum_sub_distrib, sum_comm]
    congr 1
    refine sum_congr rfl fun j _ => ?_
    rw [sum_mul]
    exact sum_congr rfl fun k _ => by ring
  have h2 : ∑ j ∈ range i, ((∑ k ∈ range m, w k * l k j) + t * l i j) ^ 2 = (∑ j ∈ range i, (∑ k ∈ range m, w k * l k j) ^ 2) +
      2 * t * (∑ j ∈ range i, (∑ k ∈ range m, w k * l k j) * l i j) + t ^ 2 * ∑ j ∈ range i, l i j * l i j := by
    rw [mul_sum, mul_sum, ← sum_add_distrib, ← sum_add_distrib]
    exact sum_congr rfl fun j _ => by ring
  rw [h1, h2]
  ring

theorem sum_bump_sq (m i : Nat) (hi : i < m) (w : Nat → ℝ) (hw : w i = 0) (t : ℝ) :
    ∑ k ∈ range m, bump w i t k ^ 2 = (∑ k ∈ range m, w k ^ 2) + t ^ 2 := by
  have : ∀ k ∈ range m, bump w i t k ^ 2 = w k ^ 2 + if k = i then t ^ 2 else 0 := fun k _ => by
    rw [bump]
    split
    · rename_i h; subst h; rw [hw]; ring
    · ring
  rw [sum_congr rfl this, sum_add_distrib, sum_ite_eq' (range m) i, if_pos (mem_range.mpr hi)]

/-- one column of the factor, computed with errors at most `E`, takes at most `E` away from the margin -/
theorem resid_step (m i : Nat) (hi : i < m) (S l l' : Nat → Nat → ℝ) (hS : ∀ k l, S k l = S l k) {lam E : ℝ} (hE : 0 ≤ E) (hm : (m + 1) * E ≤ lam)
    (hinv : ∀ w : Nat → ℝ, (∀ k < i, w k = 0) → lam * ∑ k ∈ range m, w k ^ 2 ≤ resid m S l i w)
    (hl : ∀ k j, j < i → l' k j = l k j) (hr : 0 < l' i i)
    (hc : ∀ k, i ≤ k → k < m → |S k i - ∑ j ∈ range (i + 1), l' k j * l' i j| ≤ E)
    (w : Nat → ℝ) (hw : ∀ k < i + 1, w k = 0) : (lam - E) * ∑ k ∈ range m, w k ^ 2 ≤ resid m S l' (i + 1) w := by
  set r := l' i i with hrd
  set s := ∑ k ∈ range m, w k * l' k i with hsd
  set t := -s / r with htd
  have htr : t * r = -s := by rw [htd]; field_simp
  have h0 := hinv (bump w i t) (fun k hk => by rw [bump, hw k (by omega), if_neg (by omega)]; ring)
  rw [resid_bump m i hi S l hS, sum_bump_sq m i hi w (hw i (by omega))] at h0
  -- the residual of the new factor
  have h1 : resid m S l' (i + 1) w = resid m S l i w - s ^ 2 := by
    rw [resid, resid, sum_range_succ, sum_congr rfl fun j hj => by
      rw [sum_congr rfl fun k _ => by rw [hl k j (mem_range.mp hj)]]]
    ring
  -- the errors
  set e : Nat → ℝ := fun k => S k i - ∑ j ∈ range (i + 1), l' k j * l' i j with hed
  have he : ∀ k, S k i - ∑ j ∈ range i, l k j * l i j = e k + l' k i * r := fun k => by
    rw [hed]
    beta_reduce
    rw [sum_range_succ, show ∑ j ∈ range i, l' k j * l' i j = ∑ j ∈ range i, l k j * l i j from
      sum_congr rfl fun j hj => by rw [hl k j (mem_range.mp hj), hl i j (mem_range.mp hj)]]
    ring
  have h2 : ∑ k ∈ range m, w k * (S k i - ∑ j ∈ range i, l k j * l i j) = (∑ k ∈ range m, w k * e k) + s * r := by
    rw [hsd, sum_mul, ← sum_add_distrib]
    exact sum_congr rfl fun k _ => by rw [he k]; ring
  rw [h2, he i] at h0
  have h3 : |t * ∑ k ∈ range m, w k * e k| * 2 ≤ E * (∑ k ∈ range m, w k ^ 2) + m * E * t ^ 2 := by
    rw [mul_sum]
    have : ∀ k ∈ range m, |t * (w k * e k)| * 2 ≤ E * w k ^ 2 + E * t ^ 2 := fun k hk => by
      by_cases hk' : k < i + 1
      · rw [hw k hk']
        simp only [zero_mul, mul_zero, abs_zero]
        positivity
      · have h5 := hc k (by omega) (mem_range.mp hk)
        rw [show t * (w k * e k) = (t * w k) * e k by ring, abs_mul, abs_mul]
        have h6 : |t| * |w k| * |e k| ≤ |t| * |w k| * E := mul_le_mul_of_nonneg_left h5 (by positivity)
        have h7 : 2 * (|t| * |w k|) ≤ t ^ 2 + w k ^ 2 := by
          rw [← sq_abs t, ← sq_abs (w k)]
          nlinarith [sq_nonneg (|t| - |w k|)]
        nlinarith
    have h8 := sum_le_sum this
    rw [sum_add_distrib, ← mul_sum, sum_const, card_range, nsmul_eq_mul, ← sum_mul] at h8
    have h9 := abs_sum_le_sum_abs (fun k => t * (w k * e k)) (range m)
    linarith
  have h4 : |e i| ≤ E := hc i le_rfl hi
  have h5 := neg_abs_le (t * ∑ k ∈ range m, w k * e k)
  have h5' := le_abs_self (t * ∑ k ∈ range m, w k * e k)
  have h6 := abs_le.mp h4
  have h7 : t ^ 2 * e i ≤ t ^ 2 * E := mul_le_mul_of_nonneg_left h6.2 (sq_nonneg t)
  have h8 : 2 * t * (s * r) + t ^ 2 * (l' i i * r) = - s ^ 2 := by
    rw [← hrd]
    have : 2 * t * (s * r) + t ^ 2 * (r * r) = 2 * s * (t * r) + (t * r) ^ 2 := by ring
    rw [this, htr]; ring
  rw [h1]
  have h9 : ((m + 1) * E) * t ^ 2 ≤ lam * t ^ 2 := mul_le_mul_of_nonneg_right hm (sq_nonneg t)
  nlinarith

/-- the diagonal of the residual -/
theorem resid_unit (m i k : Nat) (hk : k < m) (S l : Nat → Nat → ℝ) :
    resid m S l i (fun j => if j = k then 1 else 0) = S k k - ∑ j ∈ range i, l k j * l k j := by
  have e : ∀ f : Nat → ℝ, ∑ j ∈ range m, (if j = k then 1 else 0) * f j = f k := fun f => by
    rw [sum_congr rfl fun j _ => show (if j = k then (1:ℝ) else 0) * f j = if j = k then f j else 0 by split <;> ring,
      sum_ite_eq' (range m) k, if_pos (mem_range.mpr hk)]
  rw [resid, quad, show ∑ j ∈ range i, (∑ a ∈ range m, (if a = k then 1 else 0) * l a j) ^ 2 = ∑ j ∈ range i, l k j * l k j from
    sum_congr rfl fun j _ => by rw [e]; exact sq _]
  rw [sum_congr rfl fun a _ => show ∑ b ∈ range m, (if a = k then (1:ℝ) else 0) * (if b = k then 1 else 0) * S a b = (if a = k then 1 else 0) * S a k by
    rw [sum_congr rfl fun b _ => mul_assoc _ _ _, ← mul_sum, e], e]

/-! ### Rounding errors of one column -/

theorem pow_sub_one_le {u : ℝ} (hu : 0 ≤ u) (hu' : u ≤ 1 / 2 ^ 24) (k m : ℕ) (hk : k ≤ m) (hm : m ≤ 31) : (1 + u) ^ k - 1 ≤ 1001 / 1000 * m * u := by
  have h1 : (1 + u) ^ k ≤ (1 + u) ^ m := pow_le_pow_right₀ (by linarith) hk
  have hm' : (m:ℝ) ≤ 31 := by exact_mod_cast hm
  have hm0 : (0:ℝ) ≤ m := Nat.cast_nonneg m
  have hmu : (m:ℝ) * u ≤ 31 * (1 / 2 ^ 24) := mul_le_mul hm' hu' hu (by norm_num)
  have h2 := one_add_pow_le hu m (hmu.trans (by norm_num))
  have h3 : (m:ℝ) ^ 2 * u ^ 2 ≤ 1 / 1000 * (m * u) := by
    have : (0:ℝ) ≤ m * u := by positivity
    have h4 : (m:ℝ) * u * (m * u) ≤ 1 / 1000 * (m * u) := mul_le_mul_of_nonneg_right (hmu.trans (by norm_num)) this
    linarith [show (m:ℝ) ^ 2 * u ^ 2 = m * u * (m * u) by ring]
  linarith

variable {φ : Format}

/-- sizes of the entries for which the exponent range of the format is no obstacle -/
structure InRange (φ : Format) (D : ℝ) : Prop where
  u_pos : 0 < φ.u
  u_le : φ.u ≤ 1 / 2 ^ 24
  η_le : φ.η ≤ φ.u
  low : φ.η ≤ φ.u ^ 2 * D
  high : 4 * φ.η ^ 2 * D ≤ φ.u ^ 2

theorem InRange.D_nonneg {D : ℝ} (h : InRange φ D) : 0 ≤ D := by
  by_contra hD
  have := h.low
  have := φ.η_nonneg
  have := h.u_pos
  nlinarith [sq_pos_of_pos h.u_pos]

/-- the error of a residual computed with a loop -/
theorem subLoop_bound {D : ℝ} (hR : InRange φ D) (a : Fl φ) (f g : Nat → Fl φ) (i m : Nat) (hi : i < m) (hm : m ≤ 30) (ha : |a.val| ≤ D)
    (hf : ∑ j ∈ range i, (f j).val * (f j).val ≤ D) (hg : ∑ j ∈ range i, (g j).val * (g j).val ≤ D) :
    |(subLoop a 0 i fun j => f j * g j).val - (a.val - ∑ j ∈ range i, (f j).val * (g j).val)| ≤ 21 / 10 * m * φ.u * D ∧
      |a.val - ∑ j ∈ range i, (f j).val * (g j).val| ≤ 2 * D := by
  have hu := hR.u_pos
  have hη := φ.η_nonneg
  have hD := hR.D_nonneg
  have h1 := (subLoop_near a f g i).bound
  have h2 : ∑ j ∈ range i, |(f j).val| * |(g j).val| ≤ D := by
    have : ∀ j ∈ range i, 2 * (|(f j).val| * |(g j).val|) ≤ (f j).val * (f j).val + (g j).val * (g j).val := fun j _ => by
      nlinarith [sq_nonneg (|(f j).val| - |(g j).val|), abs_mul_abs_self (f j).val, abs_mul_abs_self (g j).val]
    have h := sum_le_sum this
    rw [← mul_sum, sum_add_distrib] at h
    linarith
  have h2' : |∑ j ∈ range i, (f j).val * (g j).val| ≤ D := by
    refine (abs_sum_le_sum_abs _ _).trans (le_trans (le_of_eq (sum_congr rfl fun j _ => ?_)) h2)
    rw [abs_mul]
  refine ⟨h1.trans ?_, (abs_sub _ _).trans (by linarith)⟩
  have h3 := pow_sub_one_le hu.le hR.u_le (i + 1) m (by omega) (by omega)
  have h4 : 0 ≤ (1 + φ.u) ^ (i + 1) - 1 := by linarith [Near.one_le_pow φ (i + 1)]
  set G := (1 + φ.u) ^ (i + 1)
  set T := |a.val| + ∑ j ∈ range i, |(f j).val| * |(g j).val| with hT
  have hT0 : 0 ≤ T := add_nonneg (abs_nonneg _) (sum_nonneg fun j _ => by positivity)
  have hm0 : (1:ℝ) ≤ m := by exact_mod_cast (by omega : 1 ≤ m)
  have hm' : (m:ℝ) ≤ 30 := by exact_mod_cast hm
  have him : (i:ℝ) ≤ m := by exact_mod_cast hi.le
  have h5 : (G - 1) * T ≤ (1001 / 1000 * m * φ.u) * (2 * D) := mul_le_mul h3 (by linarith) hT0 (by positivity)
  have hmu : (m:ℝ) * φ.u ≤ 30 * (1 / 2 ^ 24) := mul_le_mul hm' hR.u_le hu.le (by norm_num)
  have hG : G ≤ 2 := by nlinarith
  have h6 : G * (i * φ.η) ≤ 2 * (m * (φ.u ^ 2 * D)) :=
    mul_le_mul hG (mul_le_mul him hR.low hη (by linarith)) (by positivity) (by norm_num)
  have h7 : 2 * (m * (φ.u ^ 2 * D)) ≤ 1 / 1000 * (m * φ.u * D) := by
    have : 0 ≤ m * φ.u * D := by positivity
    have h8 : φ.u * (m * φ.u * D) ≤ 1 / 2 ^ 24 * (m * φ.u * D) := mul_le_mul_of_nonneg_right hR.u_le this
    have h9 : (1 / 2 ^ 24 : ℝ) ≤ 1 / 2000 := by norm_num
    nlinarith
  have : 0 ≤ m * φ.u * D := by positivity
  linarith

theorem sqrt_err (a : Fl φ) : |(sqrt a).val - Real.sqrt a.val| ≤ φ.u * |Real.sqrt a.val| + φ.η := φ.err _

/-- the diagonal entry -/
theorem diag_bound {D : ℝ} (hR : InRange φ D) (x : Fl φ) (h1 : φ.u * D ≤ x.val) (h2 : x.val ≤ 101 / 100 * D) (hD : 0 < D) :
    0 < (sqrt x).val ∧ |(sqrt x).val * (sqrt x).val - x.val| ≤ 42 / 10 * φ.u * D ∧ φ.η * (sqrt x).val ≤ φ.u * D ∧ φ.η * (sqrt x).val ≤ φ.u := by
  have hu := hR.u_pos
  have hη := φ.η_nonneg
  have hx : 0 < x.val := lt_of_lt_of_le (by positivity) h1
  have hq := Real.sqrt_pos.mpr hx
  have hqq := Real.mul_self_sqrt hx.le
  have he := sqrt_err x
  set q := Real.sqrt x.val
  set r := (sqrt x).val
  rw [abs_of_pos hq] at he
  have h3 : φ.η ≤ φ.u * q := by
    refine abs_le_of_sq_le_sq' (a := φ.η) (b := φ.u * q) ?_ (by positivity) |>.2
    have h5 : φ.η * φ.η ≤ (φ.u ^ 2 * D) * φ.u := mul_le_mul hR.low hR.η_le hη (by positivity)
    have h6 : φ.u ^ 2 * (φ.u * D) ≤ φ.u ^ 2 * x.val := mul_le_mul_of_nonneg_left h1 (by positivity)
    calc φ.η ^ 2 = φ.η * φ.η := by ring
      _ ≤ (φ.u ^ 2 * D) * φ.u := h5
      _ = φ.u ^ 2 * (φ.u * D) := by ring
      _ ≤ φ.u ^ 2 * x.val := h6
      _ = (φ.u * q) ^ 2 := by rw [← hqq]; ring
  have h4 : |r - q| ≤ 2 * φ.u * q := by linarith
  have hu' := hR.u_le
  have hu2 : φ.u ≤ 1 / 1000 := hu'.trans (by norm_num)
  obtain ⟨h5, h6⟩ := abs_le.mp h4
  have hr : 0 < r := by nlinarith
  have hrq : r ≤ 1002 / 1000 * q := by nlinarith
  have hr2 : r * r ≤ 102 / 100 * D := by
    have : r * r ≤ (1002 / 1000 * q) * (1002 / 1000 * q) := mul_le_mul hrq hrq hr.le (by positivity)
    nlinarith
  refine ⟨hr, ?_, ?_, ?_⟩
  · rw [← hqq, show r * r - q * q = (r - q) * (r + q) by ring, abs_mul, abs_of_pos (show 0 < r + q by linarith)]
    have : |r - q| * (r + q) ≤ (2 * φ.u * q) * (2002 / 1000 * q) := mul_le_mul h4 (by linarith) (by linarith) (by positivity)
    refine this.trans ?_
    have : φ.u * (q * q) ≤ φ.u * (101 / 100 * D) := mul_le_mul_of_nonneg_left (by linarith) hu.le
    have : 0 ≤ φ.u * D := by positivity
    nlinarith
  · refine abs_le_of_sq_le_sq' (a := φ.η * r) (b := φ.u * D) ?_ (by positivity) |>.2
    have h7 : φ.η * φ.η ≤ (φ.u ^ 2 * D) * φ.u := mul_le_mul hR.low hR.η_le hη (by positivity)
    have h8 : (φ.η * φ.η) * (r * r) ≤ ((φ.u ^ 2 * D) * φ.u) * (102 / 100 * D) := mul_le_mul h7 hr2 (by positivity) (by positivity)
    have h9 : 0 ≤ (φ.u * D) ^ 2 := by positivity
    have h10 : φ.u * (φ.u * D) ^ 2 ≤ 1 / 1000 * (φ.u * D) ^ 2 := mul_le_mul_of_nonneg_right hu2 h9
    nlinarith
  · refine abs_le_of_sq_le_sq' (a := φ.η * r) (b := φ.u) ?_ hu.le |>.2
    have h8 : φ.η ^ 2 * (r * r) ≤ φ.η ^ 2 * (102 / 100 * D) := mul_le_mul_of_nonneg_left hr2 (by positivity)
    have h9 := hR.high
    have : 0 ≤ φ.η ^ 2 * D := by positivity
    nlinarith

/-- an entry below the diagonal -/
theorem below_bound {D : ℝ} (hR : InRange φ D) (r x : Fl φ) (hr : 0 < r.val) (h1 : φ.η * r.val ≤ φ.u * D) (h2 : φ.η * r.val ≤ φ.u) (hx : |x.val| ≤ 201 / 100 * D) :
    |((1 / r) * x).val * r.val - x.val| ≤ 92 / 10 * φ.u * D := by
  have hu := hR.u_pos
  have hη := φ.η_nonneg
  have hu2 : φ.u ≤ 1 / 1000 := hR.u_le.trans (by norm_num)
  have e1 := Fl.div_err (1 : Fl φ) r
  have e2 := Fl.mul_err (1 / r) x
  rw [Fl.one_val] at e1
  set v := (1 / r : Fl φ).val
  set y := ((1 / r) * x : Fl φ).val
  have h3 : |v * r.val - 1| ≤ 2 * φ.u := by
    have : v * r.val - 1 = (v - 1 / r.val) * r.val := by field_simp
    rw [this, abs_mul, abs_of_pos hr]
    have := mul_le_mul_of_nonneg_right e1 hr.le
    rw [abs_of_pos (by positivity : 0 < 1 / r.val)] at this
    have h4 : (φ.u * (1 / r.val) + φ.η) * r.val = φ.u + φ.η * r.val := by field_simp
    linarith
  have h4 : |y * r.val - v * x.val * r.val| ≤ φ.u * (|v * r.val| * |x.val|) + φ.η * r.val := by
    rw [← sub_mul, abs_mul, abs_of_pos hr]
    have := mul_le_mul_of_nonneg_right e2 hr.le
    rw [abs_mul] at this
    rw [abs_mul, abs_of_pos hr]
    nlinarith
  have h5 : |v * r.val| ≤ 1002 / 1000 := by
    have := abs_add_le (v * r.val - 1) 1
    rw [sub_add_cancel, abs_one] at this
    linarith
  have h6 : |v * x.val * r.val - x.val| ≤ 2 * φ.u * |x.val| := by
    rw [show v * x.val * r.val - x.val = (v * r.val - 1) * x.val by ring, abs_mul]
    exact mul_le_mul_of_nonneg_right h3 (abs_nonneg _)
  have h7 : |v * r.val| * |x.val| ≤ 1002 / 1000 * |x.val| := mul_le_mul_of_nonneg_right h5 (abs_nonneg _)
  have h8 : φ.u * (|v * r.val| * |x.val|) ≤ φ.u * (1002 / 1000 * |x.val|) := mul_le_mul_of_nonneg_left h7 hu.le
  have h9 : φ.u * |x.val| ≤ φ.u * (201 / 100 * D) := mul_le_mul_of_nonneg_left hx hu.le
  have h10 := abs_add_le (y * r.val - v * x.val * r.val) (v * x.val * r.val - x.val)
  rw [sub_add_sub_cancel] at h10
  have : 0 ≤ φ.u * D := mul_nonneg hu.le hR.D_nonneg
  nlinarith

end Verif.FloatVol
