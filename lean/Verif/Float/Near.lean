import Verif.Float.Format

/-! Forward error analysis: the number of roundings, the magnitude and the accumulated underflow of a computed value. -/

namespace Verif.Float

variable {φ : Format}

/-- `a` approximates `b`, whose magnitude is at most `m`, after `k` roundings; `s` is the sum of the underflow errors:
`|a - b| ≤ ((1 + u) ^ k - 1) * m + (1 + u) ^ k * s` -/
structure Near (φ : Format) (k : ℕ) (s a b m : ℝ) : Prop where
  le : |b| ≤ m
  s_nonneg : 0 ≤ s
  err : |a - b| + m ≤ (1 + φ.u) ^ k * (m + s)

namespace Near

theorem one_le_pow (φ : Format) (k : ℕ) : 1 ≤ (1 + φ.u) ^ k := one_le_pow₀ (by linarith [φ.u_nonneg])

theorem m_nonneg {k : ℕ} {s a b m : ℝ} (h : Near φ k s a b m) : 0 ≤ m := (abs_nonneg b).trans h.le

theorem exact (a : ℝ) : Near φ 0 0 a a |a| := ⟨le_refl _, le_refl _, by simp⟩

theorem mono {k l : ℕ} {s t a b m : ℝ} (h : Near φ k s a b m) (hk : k ≤ l) (hs : s ≤ t) : Near φ l t a b m := by
  refine ⟨h.le, h.s_nonneg.trans hs, h.err.trans ?_⟩
  have h1 : (1 + φ.u) ^ k ≤ (1 + φ.u) ^ l := pow_le_pow_right₀ (by linarith [φ.u_nonneg]) hk
  have := h.m_nonneg
  have := h.s_nonneg
  exact mul_le_mul h1 (by linarith) (by linarith) (zero_le_one.trans (one_le_pow φ l))

/-- larger magnitude -/
theorem mono_m {k : ℕ} {s a b m n : ℝ} (h : Near φ k s a b m) (hm : m ≤ n) : Near φ k s a b n := by
  refine ⟨h.le.trans hm, h.s_nonneg, ?_⟩
  have := h.err
  have := one_le_pow φ k
  nlinarith

/-- size of the computed value -/
theorem size {k : ℕ} {s a b m : ℝ} (h : Near φ k s a b m) : |a| ≤ (1 + φ.u) ^ k * (m + s) := by
  have h1 := abs_add_le (a - b) b
  rw [sub_add_cancel] at h1
  linarith [h.err, h.le]

theorem add {k : ℕ} {s t : ℝ} {a a' : Fl φ} {b b' m m' : ℝ} (h : Near φ k s a.val b m) (h' : Near φ k t a'.val b' m') :
    Near φ (k + 1) (s + t) (a + a').val (b + b') (m + m') := by
  refine ⟨(abs_add_le _ _).trans (add_le_add h.le h'.le), add_nonneg h.s_nonneg h'.s_nonneg, ?_⟩
  have h1 := Fl.add_err a a'
  have h2 : |a.val + a'.val| ≤ (1 + φ.u) ^ k * (m + s) + (1 + φ.u) ^ k * (m' + t) :=
    (abs_add_le _ _).trans (add_le_add h.size h'.size)
  have h3 := mul_le_mul_of_nonneg_left h2 φ.u_nonneg
  have h4 : |(a + a').val - (b + b')| ≤ |(a + a').val - (a.val + a'.val)| + (|a.val - b| + |a'.val - b'|) := by
    refine (abs_sub_le _ (a.val + a'.val) _).trans (add_le_add le_rfl ?_)
    rw [show a.val + a'.val - (b + b') = (a.val - b) + (a'.val - b') by ring]
    exact abs_add_le _ _
  rw [pow_succ]
  linarith [h.err, h'.err]

theorem neg {k : ℕ} {s : ℝ} {a : Fl φ} {b m : ℝ} (h : Near φ k s a.val b m) : Near φ k s (-a).val (-b) m := by
  refine ⟨by rw [abs_neg]; exact h.le, h.s_nonneg, ?_⟩
  rw [Fl.neg_val, show -a.val - -b = -(a.val - b) by ring, abs_neg]
  exact h.err

theorem sub_eq_add_neg (a b : Fl φ) : a - b = a + -b := Fl.ext (by rw [Fl.sub_val, Fl.add_val, Fl.neg_val, _root_.sub_eq_add_neg])

theorem sub {k : ℕ} {s t : ℝ} {a a' : Fl φ} {b b' m m' : ℝ} (h : Near φ k s a.val b m) (h' : Near φ k t a'.val b' m') :
    Near φ (k + 1) (s + t) (a - a').val (b - b') (m + m') := by
  rw [sub_eq_add_neg, _root_.sub_eq_add_neg]
  exact h.add h'.neg

/-- difference of numbers of the format -/
theorem sub_exact (a a' : Fl φ) : Near φ 1 0 (a - a').val (a.val - a'.val) |a.val - a'.val| := by
  refine ⟨le_refl _, le_refl _, ?_⟩
  have := Fl.sub_err a a'
  rw [pow_one]
  linarith

theorem mul {k l : ℕ} {s t : ℝ} {a a' : Fl φ} {b b' m m' : ℝ} (h : Near φ k s a.val b m) (h' : Near φ l t a'.val b' m') :
    Near φ (k + l + 1) (s * m' + t * m + s * t + φ.η) (a * a').val (b * b') (m * m') := by
  have hm := h.m_nonneg
  have hm' := h'.m_nonneg
  have hs := h.s_nonneg
  have ht := h'.s_nonneg
  have hη := φ.η_nonneg
  refine ⟨by rw [abs_mul]; exact mul_le_mul h.le h'.le (abs_nonneg _) hm, by positivity, ?_⟩
  have h1 := Fl.mul_err a a'
  have h2 : |a.val * a'.val| ≤ ((1 + φ.u) ^ k * (m + s)) * ((1 + φ.u) ^ l * (m' + t)) := by
    rw [abs_mul]
    exact mul_le_mul h.size h'.size (abs_nonneg _) ((abs_nonneg _).trans h.size)
  have h3 : |a.val * a'.val - b * b'| + m * m' ≤ ((1 + φ.u) ^ k * (m + s)) * ((1 + φ.u) ^ l * (m' + t)) := by
    have e : a.val * a'.val - b * b' = (a.val - b) * a'.val + b * (a'.val - b') := by ring
    have h4 : |a.val * a'.val - b * b'| ≤ |a.val - b| * |a'.val| + |b| * |a'.val - b'| := by
      rw [e]; refine (abs_add_le _ _).trans ?_; rw [abs_mul, abs_mul]
    have h5 : |a.val - b| * |a'.val| ≤ ((1 + φ.u) ^ k * (m + s) - m) * ((1 + φ.u) ^ l * (m' + t)) :=
      mul_le_mul (by linarith [h.err]) h'.size (abs_nonneg _) (by linarith [h.err, abs_nonneg (a.val - b)])
    have h6 : |b| * |a'.val - b'| ≤ m * ((1 + φ.u) ^ l * (m' + t) - m') :=
      mul_le_mul h.le (by linarith [h'.err]) (abs_nonneg _) hm
    linarith
  have h7 := mul_le_mul_of_nonneg_left h2 φ.u_nonneg
  have h8 := abs_sub_le (a * a').val (a.val * a'.val) (b * b')
  have h9 := one_le_pow φ (k + l + 1)
  have h10 : (1 + φ.u) ^ (k + l + 1) * (m * m' + (s * m' + t * m + s * t + φ.η)) =
      (1 + φ.u) * (((1 + φ.u) ^ k * (m + s)) * ((1 + φ.u) ^ l * (m' + t))) + (1 + φ.u) ^ (k + l + 1) * φ.η := by ring
  rw [h10]
  nlinarith

/-- quotient by a computed difference -/
theorem div {k : ℕ} {s : ℝ} {a c : Fl φ} {b m H : ℝ} (hu : φ.u ≤ 1 / 2) (h : Near φ k s a.val b m) (hH : H ≠ 0)
    (hc : |c.val - H| ≤ φ.u * |H|) : Near φ (k + 3) (s / |H| + φ.η) (a / c).val (b / H) (m / |H|) := by
  have hm := h.m_nonneg
  have hs := h.s_nonneg
  have hη := φ.η_nonneg
  have hu0 := φ.u_nonneg
  have hHpos : 0 < |H| := abs_pos.2 hH
  have hq : 0 ≤ φ.u * (1 - φ.u - φ.u ^ 2) := mul_nonneg hu0 (by nlinarith)
  have hclow : (1 - φ.u) * |H| ≤ |c.val| := by
    have := abs_sub_abs_le_abs_sub H c.val
    rw [abs_sub_comm] at this
    linarith
  have hcpos : 0 < |c.val| := lt_of_lt_of_le (mul_pos (by linarith) hHpos) hclow
  have hc0 : c.val ≠ 0 := abs_pos.1 hcpos
  have hinv : |H| / |c.val| ≤ (1 + φ.u) ^ 2 := by
    rw [div_le_iff₀ hcpos]
    have h1 : |H| ≤ (1 + φ.u) ^ 2 * ((1 - φ.u) * |H|) := by
      have : 1 ≤ (1 + φ.u) ^ 2 * (1 - φ.u) := by linarith
      nlinarith
    exact h1.trans (mul_le_mul_of_nonneg_left hclow (by positivity))
  refine ⟨by rw [abs_div]; exact div_le_div_of_nonneg_right h.le hHpos.le, by positivity, ?_⟩
  have h1 := Fl.div_err a c
  -- exact quotient of the computed values
  have h2 : |a.val / c.val| ≤ (1 + φ.u) ^ 2 * ((1 + φ.u) ^ k * (m / |H| + s / |H|)) := by
    rw [abs_div]
    calc |a.val| / |c.val| = |H| / |c.val| * (|a.val| / |H|) := by field_simp
      _ ≤ (1 + φ.u) ^ 2 * (((1 + φ.u) ^ k * (m + s)) / |H|) :=
        mul_le_mul hinv (div_le_div_of_nonneg_right h.size hHpos.le) (by positivity) (by positivity)
      _ = _ := by rw [← add_div, mul_div_assoc]
  have h3 : |a.val / c.val - b / H| + m / |H| ≤ (1 + φ.u) ^ 2 * ((1 + φ.u) ^ k * (m / |H| + s / |H|)) := by
    have e : a.val / c.val - b / H = (a.val - b) / c.val + b / H * ((H - c.val) / c.val) := by field_simp; ring
    have h4 : |(a.val - b) / c.val| ≤ (1 + φ.u) ^ 2 * (((1 + φ.u) ^ k * (m + s) - m) / |H|) := by
      rw [abs_div]
      calc |a.val - b| / |c.val| = |H| / |c.val| * (|a.val - b| / |H|) := by field_simp
        _ ≤ _ := mul_le_mul hinv (div_le_div_of_nonneg_right (by linarith [h.err]) hHpos.le) (by positivity) (by positivity)
    have h5 : |(H - c.val) / c.val| ≤ (1 + φ.u) ^ 2 - 1 := by
      rw [abs_div, div_le_iff₀ hcpos, abs_sub_comm]
      have h6 : ((1 + φ.u) ^ 2 - 1) * ((1 - φ.u) * |H|) ≤ ((1 + φ.u) ^ 2 - 1) * |c.val| :=
        mul_le_mul_of_nonneg_left hclow (by nlinarith)
      refine hc.trans (le_trans ?_ h6)
      have : φ.u ≤ ((1 + φ.u) ^ 2 - 1) * (1 - φ.u) := by linarith
      nlinarith
    have h6 : |b / H * ((H - c.val) / c.val)| ≤ m / |H| * ((1 + φ.u) ^ 2 - 1) := by
      rw [abs_mul]
      refine mul_le_mul ?_ h5 (abs_nonneg _) (by positivity)
      rw [abs_div]; exact div_le_div_of_nonneg_right h.le hHpos.le
    have h7 : |a.val / c.val - b / H| ≤ |(a.val - b) / c.val| + |b / H * ((H - c.val) / c.val)| := by
      rw [e]; exact abs_add_le _ _
    have e2 : (1 + φ.u) ^ 2 * (((1 + φ.u) ^ k * (m + s) - m) / |H|) =
        (1 + φ.u) ^ 2 * ((1 + φ.u) ^ k * (m / |H| + s / |H|)) - (1 + φ.u) ^ 2 * (m / |H|) := by ring
    rw [e2] at h4
    linarith
  have h7 := mul_le_mul_of_nonneg_left h2 hu0
  have h8 := abs_sub_le (a / c).val (a.val / c.val) (b / H)
  have h9 := one_le_pow φ (k + 3)
  have h10 : (1 + φ.u) ^ (k + 3) * (m / |H| + (s / |H| + φ.η)) =
      (1 + φ.u) * ((1 + φ.u) ^ 2 * ((1 + φ.u) ^ k * (m / |H| + s / |H|))) + (1 + φ.u) ^ (k + 3) * φ.η := by ring
  rw [h10]
  nlinarith

/-- the error bound -/
theorem bound {k : ℕ} {s a b m : ℝ} (h : Near φ k s a b m) : |a - b| ≤ ((1 + φ.u) ^ k - 1) * m + (1 + φ.u) ^ k * s := by
  linarith [h.err]

end Near

end Verif.Float
