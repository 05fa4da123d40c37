import Verif.Float.VolumeModel
import Mathlib.Data.Rat.Floor
import Mathlib.Data.Nat.Log
import Mathlib.Data.Rat.Cast.Order
import Mathlib.Data.Rat.Cast.CharZero

/-!
Floating-point numbers that can be computed with: rounding of rational numbers (and of their square roots) to binary formats,
by integer arithmetic only.  `Bin.toFl` shows that the results are those of the formats of `Verif.Float.Format`.  A `Hom` is a
map between number types that respects all operations; the models, which work for any number type, commute with it.
-/

namespace Verif.Float

/-! ### Rounding of rational numbers -/

/-- `2 ^ k` -/
def twoPow : ℤ → ℚ
  | .ofNat n => ((2 ^ n : ℕ) : ℚ)
  | .negSucc n => mkRat 1 (2 ^ (n + 1))

theorem twoPow_eq (k : ℤ) : twoPow k = 2 ^ k := by
  cases k with
  | ofNat n => simp [twoPow]
  | negSucc n =>
    simp only [twoPow, zpow_negSucc, Rat.mkRat_eq_div]
    push_cast
    rw [one_div]

theorem twoPow_cast (k : ℤ) : ((twoPow k : ℚ) : ℝ) = 2 ^ k := by rw [twoPow_eq]; push_cast; rfl

/-- the exponent of `q > 0` -/
def ratLog (q : ℚ) : ℤ :=
  let l : ℤ := Nat.log2 q.num.natAbs - Nat.log2 q.den
  if twoPow l ≤ q then l else l - 1

theorem ratLog_spec {q : ℚ} (hq : 0 < q) : (2 : ℚ) ^ ratLog q ≤ q ∧ q < 2 ^ (ratLog q + 1) := by
  have hn : 0 < q.num := Rat.num_pos.2 hq
  have hn' : q.num.natAbs ≠ 0 := by omega
  have hd : (0 : ℚ) < q.den := by exact_mod_cast q.den_pos
  have hqe : q = (q.num.natAbs : ℚ) / q.den := by
    conv_lhs => rw [← Rat.num_div_den q]
    congr 1
    rw [Nat.cast_natAbs, abs_of_pos hn]
  have a1 : ((2 : ℚ)) ^ (Nat.log2 q.num.natAbs) ≤ q.num.natAbs := by exact_mod_cast Nat.log2_self_le hn'
  have a2 : (q.num.natAbs : ℚ) < 2 ^ (Nat.log2 q.num.natAbs + 1) := by exact_mod_cast Nat.lt_log2_self
  have b1 : ((2 : ℚ)) ^ (Nat.log2 q.den) ≤ q.den := by exact_mod_cast Nat.log2_self_le q.den_nz
  have b2 : (q.den : ℚ) < 2 ^ (Nat.log2 q.den + 1) := by exact_mod_cast Nat.lt_log2_self
  have up : q < 2 ^ ((Nat.log2 q.num.natAbs : ℤ) - Nat.log2 q.den + 1) := by
    conv_lhs => rw [hqe]
    rw [div_lt_iff₀ hd, show ((Nat.log2 q.num.natAbs : ℤ) - Nat.log2 q.den + 1) =
      ((Nat.log2 q.num.natAbs + 1 : ℕ) : ℤ) - (Nat.log2 q.den : ℕ) by push_cast; ring, zpow_sub₀ (by norm_num), zpow_natCast, zpow_natCast]
    refine a2.trans_le ?_
    rw [div_mul_eq_mul_div, le_div_iff₀ (by positivity)]
    exact mul_le_mul_of_nonneg_left b1 (by positivity)
  have lo : (2:ℚ) ^ ((Nat.log2 q.num.natAbs : ℤ) - Nat.log2 q.den - 1) < q := by
    conv_rhs => rw [hqe]
    rw [lt_div_iff₀ hd, show ((Nat.log2 q.num.natAbs : ℤ) - Nat.log2 q.den - 1) =
      ((Nat.log2 q.num.natAbs : ℕ) : ℤ) - (Nat.log2 q.den + 1 : ℕ) by push_cast; ring, zpow_sub₀ (by norm_num), zpow_natCast, zpow_natCast]
    rw [div_mul_eq_mul_div, div_lt_iff₀ (by positivity)]
    calc (2:ℚ) ^ (Nat.log2 q.num.natAbs) * q.den < 2 ^ (Nat.log2 q.num.natAbs) * 2 ^ (Nat.log2 q.den + 1) :=
          mul_lt_mul_of_pos_left b2 (by positivity)
      _ ≤ _ := mul_le_mul_of_nonneg_right a1 (by positivity)
  rw [ratLog]
  simp only [twoPow_eq]
  split_ifs with h
  · exact ⟨h, up⟩
  · push Not at h
    exact ⟨lo.le, by rwa [sub_add_cancel]⟩

theorem log_unique {x : ℝ} {k : ℤ} (h1 : (2:ℝ) ^ k ≤ x) (h2 : x < 2 ^ (k + 1)) : Int.log 2 x = k := by
  have hx : 0 < x := (two_zpow_pos k).trans_le h1
  apply le_antisymm
  · have := (Int.lt_zpow_iff_log_lt (b := 2) (by norm_num) hx (x := k + 1)).1 (by exact_mod_cast h2)
    omega
  · exact (Int.zpow_le_iff_le_log (b := 2) (by norm_num) hx).1 (by exact_mod_cast h1)

theorem ratLog_spec' {q : ℚ} (hq : 0 < q) : (2 : ℝ) ^ ratLog q ≤ q ∧ (q : ℝ) < 2 ^ (ratLog q + 1) := by
  obtain ⟨h1, h2⟩ := ratLog_spec hq
  have h1 := (Rat.cast_le (K := ℝ)).2 h1
  have h2 := (Rat.cast_lt (K := ℝ)).2 h2
  push_cast at h1 h2
  exact ⟨h1, h2⟩

theorem ratLog_eq {q : ℚ} (hq : 0 < q) : Int.log 2 (q : ℝ) = ratLog q := by
  obtain ⟨h1, h2⟩ := ratLog_spec' hq
  exact log_unique h1 h2

/-- rounding of `f + r`, `0 ≤ r < 1`, to an integer, where `c` compares `r` with `1/2` -/
def roundBy (f : ℤ) (c : Ordering) : ℤ :=
  match c with
  | .lt => f
  | .gt => f + 1
  | .eq => if f % 2 = 0 then f else f + 1

theorem roundEven_lt {x : ℝ} {f : ℤ} (h1 : (f:ℝ) ≤ x) (h2 : x < f + 1 / 2) : roundEven x = f := by
  have e1 : ⌊x⌋ = f := Int.floor_eq_iff.2 ⟨h1, by linarith⟩
  have e2 : Int.fract x = x - f := by rw [Int.fract, e1]
  rw [roundEven, if_neg (by rw [e2]; linarith), round, e2, e1, if_pos (by linarith)]

theorem roundEven_gt {x : ℝ} {f : ℤ} (h1 : (f:ℝ) + 1 / 2 < x) (h2 : x < f + 1) : roundEven x = f + 1 := by
  have e1 : ⌊x⌋ = f := Int.floor_eq_iff.2 ⟨by linarith, h2⟩
  have e2 : Int.fract x = x - f := by rw [Int.fract, e1]
  have e3 : ⌈x⌉ = f + 1 := Int.ceil_eq_iff.2 ⟨by push_cast; linarith, by push_cast; linarith⟩
  rw [roundEven, if_neg (by rw [e2]; linarith), round, e2, if_neg (by linarith), e3]

theorem roundEven_tie (f : ℤ) : roundEven ((f:ℝ) + 1 / 2) = if f % 2 = 0 then f else f + 1 := by
  have e1 : ⌊(f:ℝ) + 1 / 2⌋ = f := Int.floor_eq_iff.2 ⟨by linarith, by linarith⟩
  have e2 : Int.fract ((f:ℝ) + 1 / 2) = 1 / 2 := by rw [Int.fract, e1]; ring
  rw [roundEven, if_pos e2, e1]
  simp only [Int.even_iff]

/-- rounding to an integer, ties to even -/
def ratRound (t : ℚ) : ℤ :=
  let f := t.num / t.den
  roundBy f (compare (2 * (t - f)) 1)

theorem ratRound_eq (t : ℚ) : roundEven (t : ℝ) = ratRound t := by
  have hf : t.num / t.den = ⌊t⌋ := by rw [Rat.floor_def']
  rw [ratRound]
  simp only [hf]
  have h1 : ((⌊t⌋ : ℤ) : ℝ) ≤ t := by exact_mod_cast Int.floor_le t
  have h2 : (t : ℝ) < ⌊t⌋ + 1 := by exact_mod_cast Int.lt_floor_add_one t
  rcases lt_trichotomy (2 * (t - ⌊t⌋)) 1 with h | h | h
  · rw [compare_lt_iff_lt.2 h]
    have h : (2 * ((t:ℝ) - ⌊t⌋)) < 1 := by exact_mod_cast h
    exact roundEven_lt (f := ⌊t⌋) h1 (by linarith)
  · rw [compare_eq_iff_eq.2 h]
    have h : (2 * ((t:ℝ) - ⌊t⌋)) = 1 := by exact_mod_cast h
    rw [show (t:ℝ) = ⌊t⌋ + 1 / 2 by linarith]
    have := roundEven_tie ⌊t⌋
    exact this
  · rw [compare_gt_iff_gt.2 h]
    have h : 1 < (2 * ((t:ℝ) - ⌊t⌋)) := by exact_mod_cast h
    exact roundEven_gt (f := ⌊t⌋) (by linarith) h2

/-- rounding to `p` bits -/
def rdRat (p : ℕ) (emin : ℤ) (q : ℚ) : ℚ :=
  if q = 0 then 0
  else
    let l := max (ratLog |q| - (p - 1)) emin
    ratRound (q / twoPow l) * twoPow l

theorem rdRat_eq (p : ℕ) (emin : ℤ) (q : ℚ) : rdBinary p emin (q : ℝ) = (rdRat p emin q : ℚ) := by
  rw [rdRat]
  split_ifs with h
  · rw [h]; push_cast; exact rdBinary_zero
  · have hl : lastBit p emin (q : ℝ) = max (ratLog |q| - (p - 1)) emin := by
      rw [lastBit, ← ratLog_eq (abs_pos.2 h)]
      push_cast
      rfl
    simp only
    rw [rdBinary, hl, ← twoPow_cast]
    push_cast
    rw [← ratRound_eq]
    push_cast
    rfl

/-! ### Square roots -/

/-- `⌊√n⌋`, bit by bit: the bits below `k` are still to be found -/
def natSqrt (n : ℕ) : (k : ℕ) → (r : ℕ) → ℕ
  | 0, r => r
  | k + 1, r => if (r + 2 ^ k) * (r + 2 ^ k) ≤ n then natSqrt n k (r + 2 ^ k) else natSqrt n k r

theorem natSqrt_spec (n : ℕ) : ∀ (k r : ℕ), r * r ≤ n → n < (r + 2 ^ k) * (r + 2 ^ k) →
    natSqrt n k r * natSqrt n k r ≤ n ∧ n < (natSqrt n k r + 1) * (natSqrt n k r + 1)
  | 0, r, h1, h2 => by simpa [natSqrt] using ⟨h1, h2⟩
  | k + 1, r, h1, h2 => by
    rw [natSqrt]
    split_ifs with h
    · refine natSqrt_spec n k _ h ?_
      rwa [show r + 2 ^ k + 2 ^ k = r + 2 ^ (k + 1) by rw [pow_succ]; ring]
    · exact natSqrt_spec n k _ h1 (by omega)

/-- rounding of `√t`, `t ≥ 0`, to an integer, ties to even -/
def sqrtRound (t : ℚ) : ℤ :=
  let n := (t.num / t.den).toNat
  let r := natSqrt n (Nat.log2 n + 1) 0
  roundBy r (compare (4 * t) (((2 * r + 1) * (2 * r + 1) : ℕ) : ℚ))

theorem sqrtRound_eq {t : ℚ} (ht : 0 ≤ t) : roundEven (Real.sqrt t) = sqrtRound t := by
  have hf : t.num / t.den = ⌊t⌋ := by rw [Rat.floor_def']
  rw [sqrtRound]
  simp only [hf]
  set n := ⌊t⌋.toNat with hn
  have hfl : 0 ≤ ⌊t⌋ := Int.floor_nonneg.2 ht
  have hnt : ((n : ℕ) : ℤ) = ⌊t⌋ := Int.toNat_of_nonneg hfl
  have hb : n < (0 + 2 ^ (Nat.log2 n + 1)) * (0 + 2 ^ (Nat.log2 n + 1)) := by
    have h1 : n < 2 ^ (Nat.log2 n + 1) := Nat.lt_log2_self
    have h2 : 1 ≤ 2 ^ (Nat.log2 n + 1) := Nat.one_le_two_pow
    nlinarith
  obtain ⟨s1, s2⟩ := natSqrt_spec n (Nat.log2 n + 1) 0 (by omega) hb
  set r := natSqrt n (Nat.log2 n + 1) 0 with hr
  clear_value r
  have ht0 : (0:ℝ) ≤ t := by exact_mod_cast ht
  have hnr : ((n:ℕ):ℝ) ≤ t := by
    have : ((⌊t⌋ : ℤ) : ℚ) ≤ t := Int.floor_le t
    rw [← hnt] at this
    exact_mod_cast this
  have hnr' : (t : ℝ) < n + 1 := by
    have : t < (⌊t⌋ : ℤ) + 1 := Int.lt_floor_add_one t
    rw [← hnt] at this
    exact_mod_cast this
  have b1 : ((r : ℕ) : ℝ) ≤ Real.sqrt t := Real.le_sqrt_of_sq_le (by
    have : ((r * r : ℕ) : ℝ) ≤ n := by exact_mod_cast s1
    push_cast at this
    nlinarith)
  have b2 : Real.sqrt t < r + 1 := (Real.sqrt_lt' (by positivity)).2 (by
    have : ((n + 1 : ℕ) : ℝ) ≤ ((r + 1) * (r + 1) : ℕ) := by exact_mod_cast s2
    push_cast at this
    nlinarith)
  have hs : Real.sqrt t * Real.sqrt t = t := Real.mul_self_sqrt ht0
  have hs0 := Real.sqrt_nonneg (t:ℝ)
  rcases lt_trichotomy (4 * t) (((2 * r + 1) * (2 * r + 1) : ℕ) : ℚ) with h | h | h
  · rw [compare_lt_iff_lt.2 h]
    have h : (4 * (t:ℝ)) < ((2 * r + 1) * (2 * r + 1) : ℕ) := by exact_mod_cast h
    push_cast at h
    exact roundEven_lt (f := r) (by exact_mod_cast b1) ((Real.sqrt_lt' (by push_cast; positivity)).2 (by push_cast; nlinarith))
  · rw [compare_eq_iff_eq.2 h]
    have h : (4 * (t:ℝ)) = ((2 * r + 1) * (2 * r + 1) : ℕ) := by exact_mod_cast h
    push_cast at h
    have e : Real.sqrt t = ((r : ℤ) : ℝ) + 1 / 2 := by
      rw [Real.sqrt_eq_iff_mul_self_eq ht0 (by push_cast; positivity)]
      push_cast
      nlinarith
    rw [e, roundEven_tie]
    rfl
  · rw [compare_gt_iff_gt.2 h]
    have h : (((2 * r + 1) * (2 * r + 1) : ℕ) : ℝ) < (4 * (t:ℝ)) := by exact_mod_cast h
    push_cast at h
    refine roundEven_gt (f := r) ?_ (by exact_mod_cast b2)
    rw [Real.lt_sqrt (by push_cast; positivity)]
    push_cast
    nlinarith

/-- the square root of `q`, rounded to `p` bits -/
def sqrtRat (p : ℕ) (emin : ℤ) (q : ℚ) : ℚ :=
  if q ≤ 0 then 0
  else
    let l := max (ratLog q / 2 - (p - 1)) emin
    sqrtRound (q / (twoPow l * twoPow l)) * twoPow l

theorem sqrtRat_eq (p : ℕ) (emin : ℤ) (q : ℚ) : rdBinary p emin (Real.sqrt q) = (sqrtRat p emin q : ℚ) := by
  rw [sqrtRat]
  split_ifs with h
  · rw [Real.sqrt_eq_zero_of_nonpos (by exact_mod_cast h), rdBinary_zero]; push_cast; rfl
  · push Not at h
    have hq : (0:ℝ) < q := by exact_mod_cast h
    obtain ⟨h1, h2⟩ := ratLog_spec' h
    have hlog : Int.log 2 (Real.sqrt q) = ratLog q / 2 := by
      apply log_unique
      · refine Real.le_sqrt_of_sq_le (le_trans ?_ h1)
        rw [← zpow_natCast, ← zpow_mul]
        exact zpow_le_zpow_right₀ (by norm_num) (by push_cast; omega)
      · refine (Real.sqrt_lt' (two_zpow_pos _)).2 (h2.trans_le ?_)
        rw [← zpow_natCast, ← zpow_mul]
        exact zpow_le_zpow_right₀ (by norm_num) (by push_cast; omega)
    have hl : lastBit p emin (Real.sqrt q) = max (ratLog q / 2 - (p - 1)) emin := by
      rw [lastBit, abs_of_nonneg (Real.sqrt_nonneg _), hlog]
    simp only
    rw [rdBinary, hl, ← twoPow_cast]
    set l := max (ratLog q / 2 - (p - 1)) emin
    have hp : (0:ℝ) < (twoPow l : ℚ) := by rw [twoPow_cast]; exact two_zpow_pos _
    have hpq : (0:ℚ) < twoPow l := by exact_mod_cast hp
    push_cast
    congr 2
    rw [← sqrtRound_eq (by positivity)]
    congr 1
    push_cast
    rw [Real.sqrt_div' _ (by positivity), Real.sqrt_mul_self hp.le]

/-! ### The numbers -/

/-- a binary format -/
structure BinFormat where
  p : ℕ
  emin : ℤ
  hp : 1 ≤ p
  he : emin ≤ 0

/-- the format as in `Verif.Float.Format` -/
noncomputable def BinFormat.toFormat (f : BinFormat) : Format := binary f.p f.emin f.hp f.he

/-- `double` -/
def binDouble : BinFormat := ⟨53, -1074, by norm_num, by norm_num⟩

/-- `float` -/
def binSingle : BinFormat := ⟨24, -149, by norm_num, by norm_num⟩

theorem binDouble_toFormat : binDouble.toFormat = double := rfl
theorem binSingle_toFormat : binSingle.toFormat = single := rfl

/-- the numbers of a binary format, as rational numbers -/
structure Bin (f : BinFormat) where
  val : ℚ
  rep : rdRat f.p f.emin val = val

namespace Bin

variable {f : BinFormat}

theorem rd_cast (q : ℚ) : f.toFormat.rd (q : ℝ) = (rdRat f.p f.emin q : ℚ) := rdRat_eq _ _ q

/-- a number of the format -/
def toFl (a : Bin f) : Fl f.toFormat := ⟨(a.val : ℝ), by rw [rd_cast, a.rep]⟩

theorem rep_of {q : ℚ} (h : f.toFormat.rd (q : ℝ) = q) : rdRat f.p f.emin q = q := by
  rw [rd_cast] at h
  exact_mod_cast h

/-- the number of the format next to `q` -/
def round (f : BinFormat) (q : ℚ) : Bin f := ⟨rdRat f.p f.emin q, rep_of (by rw [← rd_cast, f.toFormat.rd_rd])⟩

instance : Zero (Bin f) := ⟨0, rep_of (by push_cast; exact f.toFormat.rd_zero)⟩
instance : One (Bin f) := ⟨1, rep_of (by push_cast; exact f.toFormat.rd_one)⟩
instance : Neg (Bin f) := ⟨fun a => ⟨-a.val, rep_of (by push_cast; exact f.toFormat.rd_neg _ a.toFl.rep)⟩⟩
instance : Add (Bin f) := ⟨fun a b => round f (a.val + b.val)⟩
instance : Sub (Bin f) := ⟨fun a b => round f (a.val - b.val)⟩
instance : Mul (Bin f) := ⟨fun a b => round f (a.val * b.val)⟩
instance : Div (Bin f) := ⟨fun a b => round f (a.val / b.val)⟩
instance : NatCast (Bin f) := ⟨fun n => round f n⟩
instance : LT (Bin f) := ⟨fun a b => a.val < b.val⟩
instance : DecidableLT (Bin f) := fun a b => inferInstanceAs (Decidable (a.val < b.val))
instance : FloatVol.HasSqrt (Bin f) :=
  ⟨fun a => ⟨sqrtRat f.p f.emin a.val, rep_of (by
    have : f.toFormat.rd (Real.sqrt (a.val : ℝ)) = (sqrtRat f.p f.emin a.val : ℚ) := sqrtRat_eq _ _ _
    rw [← this, f.toFormat.rd_rd])⟩⟩
instance : FloatVol.HasAbs (Bin f) := ⟨fun a => if a.val < 0 then -a else a⟩

end Bin

/-! ### Maps that respect the operations -/

open FloatVol in
/-- a map of number types that respects all operations -/
structure Hom (K K' : Type) [Zero K] [One K] [Neg K] [Add K] [Sub K] [Mul K] [Div K] [NatCast K] [LT K] [HasSqrt K] [HasAbs K]
    [Zero K'] [One K'] [Neg K'] [Add K'] [Sub K'] [Mul K'] [Div K'] [NatCast K'] [LT K'] [HasSqrt K'] [HasAbs K'] where
  f : K → K'
  zero : f 0 = 0
  one : f 1 = 1
  neg : ∀ a, f (-a) = -f a
  add : ∀ a b, f (a + b) = f a + f b
  sub : ∀ a b, f (a - b) = f a - f b
  mul : ∀ a b, f (a * b) = f a * f b
  div : ∀ a b, f (a / b) = f a / f b
  natCast : ∀ n : ℕ, f n = n
  lt : ∀ a b, a < b ↔ f a < f b
  sqrt : ∀ a, f (HasSqrt.sqrt a) = HasSqrt.sqrt (f a)
  abs : ∀ a, f (HasAbs.abs a) = HasAbs.abs (f a)

/-- the computed results are those of the format -/
noncomputable def Bin.hom (f : BinFormat) : Hom (Bin f) (Fl f.toFormat) where
  f := Bin.toFl
  zero := Fl.ext (Rat.cast_zero)
  one := Fl.ext (Rat.cast_one)
  neg a := Fl.ext (Rat.cast_neg a.val)
  add a b := Fl.ext ((rd_cast _).symm.trans (congrArg f.toFormat.rd (Rat.cast_add a.val b.val)))
  sub a b := Fl.ext ((rd_cast _).symm.trans (congrArg f.toFormat.rd (Rat.cast_sub a.val b.val)))
  mul a b := Fl.ext ((rd_cast _).symm.trans (congrArg f.toFormat.rd (Rat.cast_mul a.val b.val)))
  div a b := Fl.ext ((rd_cast _).symm.trans (congrArg f.toFormat.rd (Rat.cast_div a.val b.val)))
  natCast n := Fl.ext ((rd_cast _).symm.trans (congrArg f.toFormat.rd (Rat.cast_natCast n)))
  lt a b := (Rat.cast_lt (K := ℝ)).symm
  sqrt a := Fl.ext (sqrtRat_eq f.p f.emin a.val).symm
  abs a := Fl.ext (by
    show (((if a.val < 0 then -a else a : Bin f)).val : ℝ) = |(a.val : ℝ)|
    split_ifs with h
    · rw [abs_of_neg (by exact_mod_cast h)]
      exact Rat.cast_neg a.val
    · rw [abs_of_nonneg (by exact_mod_cast not_lt.1 h)])

end Verif.Float
