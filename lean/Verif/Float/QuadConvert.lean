import Verif.Float.QuadWeights
import Verif.Float.InsideProps

/-! Conversion of the tabulated numbers to IEEE formats. -/

namespace Verif.FloatQuad

open Verif.Typ hiding Res
open Verif.RefTopo Verif.RefGeom Verif.Float
open Verif.Quad (Res Rule QPoint QType Row Node Lit Env)

variable {φ : Format}

/-- an entry of the arrays of `double`: the value of a C++ expression of literals with at most three roundings (a literal, the
quotient of two literals, a product with such a quotient) -/
def IsDouble (v x : ℝ) : Prop := double.rd v = v ∧ |v - x| ≤ ((1 + 2 ^ (-53 : ℤ)) ^ 3 - 1) * |x|

/-- How the numbers of the tables reach the number type: `lit` from a string, one rounding, or as a `double`, two roundings
(numberfromstring.hh:18-25); the arrays of the simplex and prism headers as `double`. -/
structure Converted (T : Tables (Fl φ)) : Prop where
  lit : (∀ l, T.lit l = Fl.round φ (double.rd l.val)) ∨ (∀ l, T.lit l = Fl.round φ l.val)
  block : ∀ row ∈ rows23, List.Forall₂ (fun (q : QPoint (Fl φ)) (n : Node) =>
    (∀ i, ∃ v, IsDouble v ((Node.point (K := ℝ) n).position i) ∧ q.position i = Fl.round φ v) ∧
    ∃ v, IsDouble v (Node.point (K := ℝ) n).weight ∧ q.weight = Fl.round φ v) (T.block row) row.pts

theorem rdBinary_rel' {p : ℕ} {emin : ℤ} {x : ℝ} (h : (2:ℝ) ^ (emin + p) ≤ |x|) : |rdBinary p emin x - x| ≤ 2 ^ (-(p:ℤ)) * |x| := by
  refine rdBinary_rel x ?_
  have h0 : 0 < |x| := lt_of_lt_of_le (two_zpow_pos _) h
  have h1 : emin + p ≤ Int.log 2 |x| := (Int.zpow_le_iff_le_log (b := 2) (by norm_num) h0).1 (by exact_mod_cast h)
  rw [lastBit]
  intro e
  have := le_max_left (Int.log 2 |x| - (p - 1)) emin
  omega

/-- rounding leaves the unit interval invariant -/
theorem rdBinary_unit {p : ℕ} {emin : ℤ} (hp : 1 ≤ p) (he : emin ≤ 0) {x : ℝ} (h0 : 0 ≤ x) (h1 : x ≤ 1) :
    0 ≤ rdBinary p emin x ∧ rdBinary p emin x ≤ 1 := by
  have hpos := two_zpow_pos (lastBit p emin x)
  constructor
  · rw [rdBinary]
    refine mul_nonneg ?_ hpos.le
    have h := abs_le.1 (roundEven_err (x / 2 ^ lastBit p emin x))
    have h2 : 0 ≤ x / 2 ^ lastBit p emin x := div_nonneg h0 hpos.le
    have : (-1 : ℝ) < roundEven (x / 2 ^ lastBit p emin x) := by linarith [h.1]
    have : (-1 : ℤ) < roundEven (x / 2 ^ lastBit p emin x) := by exact_mod_cast this
    exact_mod_cast (by omega : 0 ≤ roundEven (x / 2 ^ lastBit p emin x))
  · rcases eq_or_lt_of_le h1 with rfl | h1
    · exact (rdBinary_exact hp (m := 1) (k := 0) (by norm_num) (by rw [abs_one]; exact_mod_cast Nat.one_le_two_pow) he).le
    rcases eq_or_lt_of_le h0 with rfl | h0'
    · rw [rdBinary_zero]; exact zero_le_one
    have hl : lastBit p emin x ≤ 0 := by
      rw [lastBit]
      refine max_le ?_ he
      rw [abs_of_pos h0']
      have : Int.log 2 x < 0 := (Int.lt_zpow_iff_log_lt (b := 2) (by norm_num) h0').1 (by simpa using h1)
      omega
    have hi : (1:ℝ) / 2 ^ lastBit p emin x = ((2 ^ (-lastBit p emin x).toNat : ℤ) : ℝ) := by
      push_cast
      rw [← zpow_natCast, Int.toNat_of_nonneg (by omega), zpow_neg, one_div]
    have hy : |x / 2 ^ lastBit p emin x| < ((2 ^ (-lastBit p emin x).toNat : ℤ) : ℝ) := by
      rw [← hi, abs_of_nonneg (div_nonneg h0 hpos.le)]
      exact div_lt_div_of_pos_right h1 hpos
    have h2 := (abs_le.1 (abs_roundEven_le hy)).2
    have h3 : (roundEven (x / 2 ^ lastBit p emin x) : ℝ) ≤ 1 / 2 ^ lastBit p emin x := by rw [hi]; exact_mod_cast h2
    rw [rdBinary]
    rwa [le_div_iff₀ hpos] at h3

/-- the numbers of the arrays of `double` are zero or not tiny -/
def notTiny (r : Row) : Bool := r.pts.all fun n => (n.w :: n.x).all fun l =>
  decide (l.den ≠ 0) && (decide (l.num = 0) || decide ((l.den : Int) ≤ 2 ^ 50 * |l.num|))

theorem rows23_notTiny : rows23.all notTiny = true := by decide +kernel

theorem lit_notTiny {l : Lit} (h : (decide (l.den ≠ 0) && (decide (l.num = 0) || decide ((l.den : Int) ≤ 2 ^ 50 * |l.num|))) = true) :
    (l.val : ℝ) = 0 ∨ 1 / 2 ^ 50 ≤ |(l.val : ℝ)| := by
  simp only [Bool.and_eq_true, Bool.or_eq_true, decide_eq_true_eq] at h
  obtain ⟨h0, h | h⟩ := h
  · left; rw [Lit.val, h]; simp
  · right
    have hd : (0:ℝ) < l.den := by exact_mod_cast Nat.pos_of_ne_zero h0
    have h' : (l.den : ℝ) ≤ 2 ^ 50 * |(l.num : ℝ)| := by exact_mod_cast h
    rw [Lit.val, abs_div, abs_of_pos hd, div_le_div_iff₀ (by norm_num) hd]
    linarith

section ieee

variable (p : ℕ) (emin : ℤ) (hp : 24 ≤ p) (he : emin ≤ -(2 * p + 32 : ℤ))

/-- number of roundings in the format that cover the conversion by way of `double` -/
def conversions (p : ℕ) : ℕ := 3 * 2 ^ (p - 53) + 1

theorem one_add_double_le : (1:ℝ) + 2 ^ (-53 : ℤ) ≤ (1 + (ieee p emin hp he).u) ^ (2 ^ (p - 53)) := by
  have hu := ieee_u_pos p emin hp he
  have h1 := one_add_mul_le_pow (show (-2:ℝ) ≤ (ieee p emin hp he).u by linarith) (2 ^ (p - 53))
  refine le_trans ?_ h1
  have : (2:ℝ) ^ (-53 : ℤ) ≤ ((2 ^ (p - 53) : ℕ) : ℝ) * (ieee p emin hp he).u := by
    rw [ieee_u]
    push_cast
    rw [← zpow_natCast, ← zpow_add₀ (by norm_num)]
    exact zpow_le_zpow_right₀ (by norm_num) (by omega)
  linarith

theorem total_le : ((1:ℝ) + 2 ^ (-53 : ℤ)) ^ 3 * (1 + (ieee p emin hp he).u) ≤ (1 + (ieee p emin hp he).u) ^ conversions p := by
  have hu := ieee_u_pos p emin hp he
  have h := pow_le_pow_left₀ (by positivity) (one_add_double_le p emin hp he) 3
  rw [conversions, pow_succ (1 + (ieee p emin hp he).u), mul_comm 3, pow_mul]
  exact mul_le_mul_of_nonneg_right h (by linarith)

theorem rd_rel {x : ℝ} (h : 1 / 2 ^ 56 ≤ |x|) : |(ieee p emin hp he).rd x - x| ≤ (ieee p emin hp he).u * |x| := by
  refine rdBinary_rel' (le_trans ?_ h)
  rw [one_div, ← zpow_natCast, ← zpow_neg]
  exact zpow_le_zpow_right₀ (by norm_num) (by push_cast; omega)

/-- a number that reaches the format by way of `double` -/
theorem close_of_double {v x : ℝ} (hv : |v - x| ≤ ((1 + 2 ^ (-53 : ℤ)) ^ 3 - 1) * |x|) (hx : x = 0 ∨ 1 / 2 ^ 50 ≤ |x|) :
    Close (ieee p emin hp he) (conversions p) ((ieee p emin hp he).rd v) x := by
  have hu := ieee_u_pos p emin hp he
  rcases hx with rfl | hx
  · rw [abs_zero, mul_zero, sub_zero] at hv
    rw [abs_eq_zero.1 (le_antisymm hv (abs_nonneg _)), Format.rd_zero]
    exact Close.refl _ _
  · have hD : ((1:ℝ) + 2 ^ (-53 : ℤ)) ^ 3 ≤ 3 / 2 := by norm_num
    have h1 : |x| - |v - x| ≤ |v| := by
      have := abs_sub_abs_le_abs_sub x v
      rw [abs_sub_comm] at this
      linarith
    have h2 : |v| ≤ (1 + 2 ^ (-53 : ℤ)) ^ 3 * |x| := by
      have := abs_add_le (v - x) x
      rw [sub_add_cancel] at this
      linarith
    have h3 : 1 / 2 ^ 56 ≤ |v| := by
      have h4 : |v - x| ≤ 1 / 2 * |x| := hv.trans (mul_le_mul_of_nonneg_right (by linarith) (abs_nonneg _))
      have h5 : (1:ℝ) / 2 ^ 56 ≤ 1 / 2 * (1 / 2 ^ 50) := by norm_num
      have h6 : 1 / 2 * (1 / 2 ^ 50) ≤ 1 / 2 * |x| := mul_le_mul_of_nonneg_left hx (by norm_num)
      refine h5.trans (h6.trans ?_)
      clear h5 h6 hx hD hv h2
      linarith
    have h4 := rd_rel p emin hp he h3
    have h5 := abs_add_le ((ieee p emin hp he).rd v - v) (v - x)
    rw [sub_add_sub_cancel] at h5
    have h6 := mul_le_mul_of_nonneg_right (total_le p emin hp he) (abs_nonneg x)
    have h7 := mul_le_mul_of_nonneg_left h2 hu.le
    unfold Close
    nlinarith

/-- the tables of an IEEE format are accurate -/
theorem converted_accurate {T : Tables (Fl (ieee p emin hp he))} (hT : Converted T) : Accurate (conversions p) T := by
  have hu := ieee_u_pos p emin hp he
  have hη := (ieee p emin hp he).η_nonneg
  have hη' := ieee_η_le p emin hp he
  have hu' := ieee_u_le p emin hp he
  set D : ℝ := 2 ^ (-53 : ℤ) with hD
  have hDpos : 0 < D := two_zpow_pos _
  have htot := total_le p emin hp he
  have hdouble : double.u = D := rfl
  have hdη : double.η ≤ D / 2 := by
    change (2:ℝ) ^ (-1074 : ℤ) / 2 ≤ D / 2
    exact div_le_div_of_nonneg_right (zpow_le_zpow_right₀ (by norm_num) (by norm_num)) (by norm_num)
  refine ⟨fun row hrow n hn l hl => ?_, fun row hrow n hn => ?_, fun row hrow => ?_⟩
  · obtain ⟨l', hl', h0, h1, -⟩ := shape1_spec hrow hn
    rw [hl', List.mem_singleton] at hl
    subst hl
    have key : ∀ v : ℝ, 0 ≤ v → v ≤ 1 → |v - l.val| ≤ (1 + D) ^ 3 - 1 - D →
        |(ieee p emin hp he).rd v - l.val| ≤ (1 + (ieee p emin hp he).u) ^ conversions p - 1 ∧
        0 ≤ (ieee p emin hp he).rd v ∧ (ieee p emin hp he).rd v ≤ 1 := by
      intro v v0 v1 hv
      refine ⟨?_, rdBinary_unit (by omega) (by omega) v0 v1⟩
      have h2 := (ieee p emin hp he).err v
      rw [abs_of_nonneg v0] at h2
      have h3 := abs_add_le ((ieee p emin hp he).rd v - v) (v - l.val)
      rw [sub_add_sub_cancel] at h3
      have h4 : (ieee p emin hp he).u * v ≤ (ieee p emin hp he).u := mul_le_of_le_one_right hu.le v1
      have h5 : (ieee p emin hp he).η ≤ 2 * D * (ieee p emin hp he).u + D := by
        have e1 : (ieee p emin hp he).η = 2 ^ emin / 2 := rfl
        rw [e1]
        have e2 : (2:ℝ) ^ emin ≤ D := zpow_le_zpow_right₀ (by norm_num) (by omega)
        have e3 := mul_pos hDpos hu
        clear_value D
        linarith
      nlinarith [mul_pos hDpos hu, mul_pos (mul_pos hDpos hDpos) hu, mul_pos (mul_pos (mul_pos hDpos hDpos) hDpos) hu]
    have hD3 : D + double.η ≤ (1 + D) ^ 3 - 1 - D := by
      have e : (1 + D) ^ 3 - 1 - D = 2 * D + 3 * D ^ 2 + D ^ 3 := by ring
      have := pow_pos hDpos 2
      have := pow_pos hDpos 3
      clear_value D
      linarith
    rcases hT.lit with h | h
    · rw [h]
      have h2 := double.err l.val
      rw [abs_of_nonneg h0, hdouble] at h2
      have h3 : D * l.val ≤ D := mul_le_of_le_one_right hDpos.le h1
      have h4 := rdBinary_unit (p := 53) (emin := -1074) (by norm_num) (by norm_num) h0 h1
      exact key _ h4.1 h4.2 (by linarith)
    · rw [h]
      refine key _ h0 h1 ?_
      rw [sub_self, abs_zero]
      linarith [double.η_nonneg]
  · obtain ⟨l, -, -, -, h3, h4, -⟩ := shape1_spec hrow hn
    have hx : 1 / 2 ^ 50 ≤ |(n.w.val : ℝ)| := by
      rw [abs_of_pos h3]
      refine le_trans ?_ h4
      norm_num
    have hd3 : D ≤ (1 + D) ^ 3 - 1 := by nlinarith [sq_nonneg D]
    rcases hT.lit with h | h
    · rw [h]
      refine close_of_double p emin hp he ?_ (Or.inr hx)
      have h5 : |double.rd (n.w.val : ℝ) - n.w.val| ≤ D * |(n.w.val : ℝ)| := by
        refine rdBinary_rel' (p := 53) (emin := -1074) (le_trans ?_ hx)
        rw [one_div, ← zpow_natCast, ← zpow_neg]
        exact zpow_le_zpow_right₀ (by norm_num) (by norm_num)
      exact h5.trans (mul_le_mul_of_nonneg_right hd3 (abs_nonneg _))
    · rw [h]
      refine close_of_double p emin hp he ?_ (Or.inr hx)
      rw [sub_self, abs_zero]
      exact mul_nonneg (hDpos.le.trans hd3) (abs_nonneg _)
  · have hmem : ∀ n ∈ row.pts, (∀ l ∈ n.w :: n.x, (l.val : ℝ) = 0 ∨ 1 / 2 ^ 50 ≤ |(l.val : ℝ)|) := by
      intro n hn l hl
      have h1 := List.all_eq_true.mp (List.all_eq_true.mp rows23_notTiny row hrow) n hn
      exact lit_notTiny (List.all_eq_true.mp h1 l hl)
    have hb := hT.block row hrow
    generalize T.block row = B at hb
    generalize row.pts = ns at hb hmem
    induction hb with
    | nil => exact .nil
    | @cons q n B ns h _ ih =>
      refine .cons ⟨fun i => ?_, ?_⟩ (ih fun n hn => hmem n (by simp [hn]))
      · obtain ⟨v, h1, h2⟩ := h.1 i
        rw [h2]
        refine close_of_double p emin hp he h1.2 ?_
        simp only [Node.point]
        split
        · exact hmem n (by simp) _ (by simp)
        · exact Or.inl rfl
      · obtain ⟨v, h1, h2⟩ := h.2
        rw [h2]
        exact close_of_double p emin hp he h1.2 (hmem n (by simp) _ (by simp [Node.point]))

/-- the rounding errors of points and check stay below the tolerance -/
theorem budget_rule {u η : ℝ} (hu : 0 < u) (hu' : u ≤ 1 / 2 ^ 24) (hη : 0 ≤ η) (hη' : 2 ^ 33 * η ≤ u ^ 2) (d k : ℕ) (hd : d ≤ 30) (hk : k ≤ 30) :
    (1 + u) ^ d * (1 + 0 + ((1 + u) ^ (k + 2 * d) - 1) * 1 + d * ((1 + u) ^ (k + 2 * d) * (d * η))) - 1 < 128 * u := by
  have hd' : (d:ℝ) ≤ 30 := by exact_mod_cast hd
  have hd0 : (0:ℝ) ≤ d := Nat.cast_nonneg d
  have h1u : 1 ≤ 1 + u := by linarith
  have e : (1 + u) ^ d * (1 + 0 + ((1 + u) ^ (k + 2 * d) - 1) * 1 + d * ((1 + u) ^ (k + 2 * d) * (d * η))) =
      (1 + u) ^ (k + 3 * d) * (1 + d * d * η) := by
    rw [show k + 3 * d = d + (k + 2 * d) by ring, pow_add (1 + u) d (k + 2 * d)]
    ring
  rw [e]
  have h1 : (1 + u) ^ (k + 3 * d) ≤ (1 + u) ^ 120 := pow_le_pow_right₀ h1u (by omega)
  have h2 := one_add_pow_le hu.le 120 (by norm_num at hu' ⊢; linarith)
  have h3 : (d:ℝ) * d * η ≤ 900 * η := mul_le_mul_of_nonneg_right (by nlinarith) hη
  have h4 : u ^ 2 ≤ 1 / 2 ^ 24 * u := by rw [sq]; exact mul_le_mul_of_nonneg_right hu' hu.le
  have h5 : η ≤ u / 2 ^ 50 := by
    rw [le_div_iff₀ (by norm_num)]
    norm_num at h4 hη' ⊢
    linarith
  have h6 : (1 + u) ^ (k + 3 * d) * (1 + d * d * η) ≤ (1 + 120 * u + 120 ^ 2 * u ^ 2) * (1 + 900 * η) := by
    refine mul_le_mul (h1.trans (by push_cast at h2; exact h2)) (by linarith) (by positivity) (by positivity)
  have h7 : (1 + 120 * u + 120 ^ 2 * u ^ 2) * (1 + 900 * η) ≤ (1 + 121 * u) * (1 + u) := by
    refine mul_le_mul ?_ ?_ (by positivity) (by positivity)
    · norm_num at h4 ⊢; linarith
    · norm_num at h5 ⊢; linarith
  have h8 : (1 + 121 * u) * (1 + u) = 1 + 122 * u + 121 * u ^ 2 := by ring
  norm_num at h4
  linarith

end ieee

end Verif.FloatQuad
