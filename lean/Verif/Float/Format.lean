import Mathlib.Data.Real.Basic
import Mathlib.Data.Int.Log
import Mathlib.Algebra.Order.Round
import Mathlib.Algebra.Order.Archimedean.Real.Basic
import Mathlib.Tactic.Linarith
import Mathlib.Tactic.Ring
import Mathlib.Tactic.FieldSimp
import Mathlib.Tactic.Positivity
import Mathlib.Tactic.NormNum
import Mathlib.Data.Int.Order.Units

/-!
Floating-point arithmetic (IEEE 754): every operation returns the rounded exact result.

`Format` collects what the theorems use of a format: relative error at most `u` (the unit roundoff, half of
`std::numeric_limits< ct >::epsilon()`), plus an absolute error `η` for products and quotients that underflow; sums of
representable numbers have no such absolute error.  `binary p emin` is the binary format with `p` bits and gradual
underflow, rounding to nearest with ties to even; `binary 53 (-1074)` is `double`, `binary 24 (-149)` is `float`.

Simplifications: no overflow (exponents have no upper limit), no NaN, no infinities, no contraction of `a * b + c` to one
operation, no extended precision of intermediate results.
-/

namespace Verif.Float

structure Format where
  /-- rounding to the format -/
  rd : ℝ → ℝ
  /-- unit roundoff -/
  u : ℝ
  /-- absolute error if a product or quotient underflows -/
  η : ℝ
  u_nonneg : 0 ≤ u
  η_nonneg : 0 ≤ η
  rd_rd : ∀ x, rd (rd x) = rd x
  rd_zero : rd 0 = 0
  rd_one : rd 1 = 1
  rd_neg : ∀ x, rd x = x → rd (-x) = -x
  err : ∀ x, |rd x - x| ≤ u * |x| + η
  add_err : ∀ x y, rd x = x → rd y = y → |rd (x + y) - (x + y)| ≤ u * |x + y|

/-- the numbers of a format -/
structure Fl (φ : Format) where
  val : ℝ
  rep : φ.rd val = val

namespace Fl

variable {φ : Format}

@[ext] theorem ext {a b : Fl φ} (h : a.val = b.val) : a = b := by
  cases a; cases b; simp_all

/-- the number of the format next to `x` -/
def round (φ : Format) (x : ℝ) : Fl φ := ⟨φ.rd x, φ.rd_rd x⟩

noncomputable section

instance : Zero (Fl φ) := ⟨0, φ.rd_zero⟩
instance : One (Fl φ) := ⟨1, φ.rd_one⟩
instance : Neg (Fl φ) := ⟨fun a => ⟨-a.val, φ.rd_neg _ a.rep⟩⟩
instance : Add (Fl φ) := ⟨fun a b => round φ (a.val + b.val)⟩
instance : Sub (Fl φ) := ⟨fun a b => round φ (a.val - b.val)⟩
instance : Mul (Fl φ) := ⟨fun a b => round φ (a.val * b.val)⟩
instance : Div (Fl φ) := ⟨fun a b => round φ (a.val / b.val)⟩
instance : NatCast (Fl φ) := ⟨fun n => round φ n⟩
instance : LT (Fl φ) := ⟨fun a b => a.val < b.val⟩
instance : DecidableLT (Fl φ) := fun a b => Classical.propDecidable (a.val < b.val)

end

theorem zero_val : (0 : Fl φ).val = 0 := rfl
theorem one_val : (1 : Fl φ).val = 1 := rfl
theorem neg_val (a : Fl φ) : (-a).val = -a.val := rfl
theorem add_val (a b : Fl φ) : (a + b).val = φ.rd (a.val + b.val) := rfl
theorem sub_val (a b : Fl φ) : (a - b).val = φ.rd (a.val - b.val) := rfl
theorem mul_val (a b : Fl φ) : (a * b).val = φ.rd (a.val * b.val) := rfl
theorem div_val (a b : Fl φ) : (a / b).val = φ.rd (a.val / b.val) := rfl
theorem natCast_val (n : Nat) : (n : Fl φ).val = φ.rd n := rfl
theorem lt_iff {a b : Fl φ} : a < b ↔ a.val < b.val := Iff.rfl

theorem add_err (a b : Fl φ) : |(a + b).val - (a.val + b.val)| ≤ φ.u * |a.val + b.val| := φ.add_err _ _ a.rep b.rep

theorem sub_err (a b : Fl φ) : |(a - b).val - (a.val - b.val)| ≤ φ.u * |a.val - b.val| := by
  have := φ.add_err a.val (-b.val) a.rep (φ.rd_neg _ b.rep)
  rwa [← sub_eq_add_neg] at this

theorem mul_err (a b : Fl φ) : |(a * b).val - a.val * b.val| ≤ φ.u * |a.val * b.val| + φ.η := φ.err _

theorem div_err (a b : Fl φ) : |(a / b).val - a.val / b.val| ≤ φ.u * |a.val / b.val| + φ.η := φ.err _

/-! ### Exact operations -/

theorem add_zero (a : Fl φ) : a + 0 = a := ext (by rw [add_val, zero_val, _root_.add_zero, a.rep])
theorem zero_add (a : Fl φ) : 0 + a = a := ext (by rw [add_val, zero_val, _root_.zero_add, a.rep])
theorem sub_zero (a : Fl φ) : a - 0 = a := ext (by rw [sub_val, zero_val, _root_.sub_zero, a.rep])
theorem sub_self (a : Fl φ) : a - a = 0 := ext (by rw [sub_val, _root_.sub_self, φ.rd_zero, zero_val])
theorem mul_zero (a : Fl φ) : a * 0 = 0 := ext (by rw [mul_val, zero_val, MulZeroClass.mul_zero, φ.rd_zero])
theorem zero_mul (a : Fl φ) : 0 * a = 0 := ext (by rw [mul_val, zero_val, MulZeroClass.zero_mul, φ.rd_zero])
theorem mul_one (a : Fl φ) : a * 1 = a := ext (by rw [mul_val, one_val, _root_.mul_one, a.rep])
theorem one_mul (a : Fl φ) : 1 * a = a := ext (by rw [mul_val, one_val, _root_.one_mul, a.rep])
theorem div_one (a : Fl φ) : a / 1 = a := ext (by rw [div_val, one_val, _root_.div_one, a.rep])

end Fl

/-! ### Binary formats with gradual underflow -/

section binary

/-- rounding to the nearest integer, ties to even -/
noncomputable def roundEven (x : ℝ) : ℤ :=
  if Int.fract x = 1 / 2 then (if Even ⌊x⌋ then ⌊x⌋ else ⌊x⌋ + 1) else round x

theorem roundEven_err (x : ℝ) : |(roundEven x : ℝ) - x| ≤ 1 / 2 := by
  rw [roundEven]
  split_ifs with h h'
  · have := Int.self_sub_floor x
    rw [h] at this
    rw [abs_le]; constructor <;> linarith
  · have := Int.self_sub_floor x
    rw [h] at this
    push_cast
    rw [abs_le]; constructor <;> linarith
  · rw [abs_sub_comm]; exact abs_sub_round x

theorem roundEven_int (n : ℤ) : roundEven (n : ℝ) = n := by
  rw [roundEven, Int.fract_intCast, if_neg (by norm_num), round_intCast]

theorem two_zpow_pos (k : ℤ) : (0:ℝ) < 2 ^ k := zpow_pos (by norm_num) k

variable (p : ℕ) (emin : ℤ)

/-- exponent of the last bit -/
noncomputable def lastBit (x : ℝ) : ℤ := max (Int.log 2 |x| - (p - 1)) emin

/-- rounding to `p` bits -/
noncomputable def rdBinary (x : ℝ) : ℝ := roundEven (x / 2 ^ lastBit p emin x) * 2 ^ lastBit p emin x

variable {p emin}

theorem rdBinary_err (x : ℝ) : |rdBinary p emin x - x| ≤ 2 ^ lastBit p emin x / 2 := by
  have h2 : (0:ℝ) < 2 ^ lastBit p emin x := two_zpow_pos _
  have : rdBinary p emin x - x = (roundEven (x / 2 ^ lastBit p emin x) - x / 2 ^ lastBit p emin x) * 2 ^ lastBit p emin x := by
    rw [rdBinary, sub_mul, div_mul_cancel₀ _ h2.ne']
  rw [this, abs_mul, abs_of_pos h2]
  have := roundEven_err (x / 2 ^ lastBit p emin x)
  nlinarith

theorem rdBinary_of_int {x : ℝ} {n : ℤ} (h : x / 2 ^ lastBit p emin x = n) : rdBinary p emin x = x := by
  rw [rdBinary, h, roundEven_int, ← h, div_mul_cancel₀ _ (two_zpow_pos _).ne']

theorem rdBinary_zero : rdBinary p emin 0 = 0 := rdBinary_of_int (n := 0) (by rw [zero_div, Int.cast_zero])

/-- numbers with an integer mantissa of at most `p` bits are exact -/
theorem rdBinary_exact (hp : 1 ≤ p) {x : ℝ} {m k : ℤ} (hx : x = m * 2 ^ k) (hm : |m| ≤ 2 ^ p) (hk : emin ≤ k) :
    rdBinary p emin x = x := by
  rcases eq_or_ne x 0 with rfl | hx0
  · exact rdBinary_zero
  have hx0 : 0 < |x| := abs_pos.2 hx0
  rcases le_or_gt (lastBit p emin x) k with h | h
  · refine rdBinary_of_int (n := m * 2 ^ (k - lastBit p emin x).toNat) ?_
    rw [div_eq_iff (two_zpow_pos _).ne']
    push_cast
    rw [mul_assoc, ← zpow_natCast, ← zpow_add₀ (by norm_num), Int.toNat_of_nonneg (by omega), sub_add_cancel, ← hx]
  · have hl : lastBit p emin x = Int.log 2 |x| - (p - 1) := by
      rw [lastBit] at h ⊢
      rcases max_choice (Int.log 2 |x| - (p - 1)) emin with e | e
      · exact e
      · rw [e] at h; omega
    have h1 : (2:ℝ) ^ Int.log 2 |x| ≤ |x| := by exact_mod_cast Int.zpow_log_le_self (b := 2) (by norm_num) hx0
    have hmr : |(m:ℝ)| ≤ 2 ^ p := by exact_mod_cast hm
    have h2 : |x| ≤ 2 ^ Int.log 2 |x| := by
      calc |x| = |(m:ℝ)| * 2 ^ k := by rw [hx, abs_mul, abs_of_pos (two_zpow_pos k)]
        _ ≤ 2 ^ p * 2 ^ k := mul_le_mul_of_nonneg_right hmr (two_zpow_pos _).le
        _ = 2 ^ ((p:ℤ) + k) := by rw [zpow_add₀ (by norm_num), zpow_natCast]
        _ ≤ 2 ^ Int.log 2 |x| := zpow_le_zpow_right₀ (by norm_num) (by omega)
    have h3 : |x| = 2 ^ Int.log 2 |x| := le_antisymm h2 h1
    have h4 : |x| / 2 ^ lastBit p emin x = ((2 ^ (p - 1) : ℤ) : ℝ) := by
      have : (2:ℝ) ^ Int.log 2 |x| / 2 ^ lastBit p emin x = ((2 ^ (p - 1) : ℤ) : ℝ) := by
        push_cast
        rw [hl, ← zpow_natCast, ← zpow_sub₀ (by norm_num)]
        congr 1
        push_cast [hp]
        ring
      rwa [← h3] at this
    rcases abs_choice x with e | e
    · rw [e] at h4
      exact rdBinary_of_int h4
    · refine rdBinary_of_int (n := -2 ^ (p - 1)) ?_
      rw [Int.cast_neg, ← h4, e, neg_div, neg_neg]

theorem lt_two_zpow (x : ℝ) : |x| / 2 ^ lastBit p emin x < 2 ^ p := by
  rw [div_lt_iff₀ (two_zpow_pos _), ← zpow_natCast, ← zpow_add₀ (by norm_num)]
  have h1 : |x| < 2 ^ (Int.log 2 |x| + 1) := by exact_mod_cast Int.lt_zpow_succ_log_self (b := 2) (by norm_num) |x|
  refine h1.trans_le (zpow_le_zpow_right₀ (by norm_num) ?_)
  have := le_max_left (Int.log 2 |x| - (p - 1)) emin
  rw [lastBit]
  omega

theorem abs_roundEven_le {y : ℝ} {n : ℤ} (h : |y| < n) : |roundEven y| ≤ n := by
  have h1 := abs_le.1 (roundEven_err y)
  have h2 := abs_lt.1 h
  rw [abs_le]
  constructor
  · have : (-n - 1 : ℝ) < roundEven y := by linarith
    have : -n - 1 < roundEven y := by exact_mod_cast this
    omega
  · have : (roundEven y : ℝ) < n + 1 := by linarith
    have : roundEven y < n + 1 := by exact_mod_cast this
    omega

/-- what the rounding returns -/
theorem rdBinary_rep (x : ℝ) : ∃ m k : ℤ, rdBinary p emin x = m * 2 ^ k ∧ |m| ≤ 2 ^ p ∧ emin ≤ k := by
  refine ⟨_, _, rfl, ?_, le_max_right _ _⟩
  refine abs_roundEven_le ?_
  rw [abs_div, abs_of_pos (two_zpow_pos _)]
  push_cast
  exact lt_two_zpow x

theorem rdBinary_rel (x : ℝ) (h : lastBit p emin x ≠ emin) : |rdBinary p emin x - x| ≤ 2 ^ (-(p:ℤ)) * |x| := by
  rcases eq_or_ne x 0 with rfl | hx0
  · rw [rdBinary_zero, sub_zero, abs_zero, mul_zero]
  refine (rdBinary_err x).trans ?_
  have hl : lastBit p emin x = Int.log 2 |x| - (p - 1) := by
    rw [lastBit] at h ⊢
    rcases max_choice (Int.log 2 |x| - (p - 1)) emin with e | e
    · exact e
    · exact absurd e h
  have h1 : (2:ℝ) ^ Int.log 2 |x| ≤ |x| := by exact_mod_cast Int.zpow_log_le_self (b := 2) (by norm_num) (abs_pos.2 hx0)
  have : (2:ℝ) ^ lastBit p emin x / 2 = 2 ^ (-(p:ℤ)) * 2 ^ Int.log 2 |x| := by
    rw [hl, ← zpow_add₀ (by norm_num), div_eq_iff (by norm_num), ← zpow_add_one₀ (by norm_num)]
    congr 1
    ring
  rw [this]
  exact mul_le_mul_of_nonneg_left h1 (two_zpow_pos _).le

/-- binary format with `p` bits, smallest exponent `emin` -/
noncomputable def binary (p : ℕ) (emin : ℤ) (hp : 1 ≤ p) (he : emin ≤ 0) : Format where
  rd := rdBinary p emin
  u := 2 ^ (-(p:ℤ))
  η := 2 ^ emin / 2
  u_nonneg := (two_zpow_pos _).le
  η_nonneg := by have := two_zpow_pos emin; linarith
  rd_rd x := by
    obtain ⟨m, k, h1, h2, h3⟩ := rdBinary_rep (p := p) (emin := emin) x
    exact rdBinary_exact hp h1 h2 h3
  rd_zero := rdBinary_zero
  rd_one := rdBinary_exact hp (m := 1) (k := 0) (by norm_num) (by
    rw [abs_one]; exact_mod_cast Nat.one_le_two_pow) he
  rd_neg x hx := by
    obtain ⟨m, k, h1, h2, h3⟩ := rdBinary_rep (p := p) (emin := emin) x
    rw [hx] at h1
    exact rdBinary_exact hp (m := -m) (k := k) (by rw [h1]; push_cast; ring) (by rwa [abs_neg]) h3
  err x := by
    have hu := mul_nonneg (two_zpow_pos (-(p:ℤ))).le (abs_nonneg x)
    by_cases h : lastBit p emin x = emin
    · have := rdBinary_err (p := p) (emin := emin) x
      rw [h] at this
      linarith
    · have := rdBinary_rel x h
      have := two_zpow_pos emin
      linarith
  add_err x y hx hy := by
    by_cases h : lastBit p emin (x + y) = emin
    · have : rdBinary p emin (x + y) = x + y := by
        obtain ⟨m, k, h1, h2, h3⟩ := rdBinary_rep (p := p) (emin := emin) x
        obtain ⟨m', k', h1', h2', h3'⟩ := rdBinary_rep (p := p) (emin := emin) y
        rw [hx] at h1
        rw [hy] at h1'
        refine rdBinary_of_int (n := m * 2 ^ (k - emin).toNat + m' * 2 ^ (k' - emin).toNat) ?_
        rw [h, div_eq_iff (two_zpow_pos _).ne', h1, h1']
        push_cast
        rw [add_mul, mul_assoc, mul_assoc, ← zpow_natCast, ← zpow_natCast, ← zpow_add₀ (by norm_num), ← zpow_add₀ (by norm_num),
          Int.toNat_of_nonneg (by omega), Int.toNat_of_nonneg (by omega), sub_add_cancel, sub_add_cancel]
      rw [this, sub_self, abs_zero]
      exact mul_nonneg (two_zpow_pos _).le (abs_nonneg _)
    · exact rdBinary_rel _ h

/-- `double` -/
noncomputable def double : Format := binary 53 (-1074) (by norm_num) (by norm_num)

/-- `float` -/
noncomputable def single : Format := binary 24 (-149) (by norm_num) (by norm_num)

end binary

end Verif.Float
