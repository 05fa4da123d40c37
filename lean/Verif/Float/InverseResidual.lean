import Verif.Float.InverseSpec

/-! The residual of the inverse of a triangular matrix. -/

namespace Verif.FloatInv

open Verif.Float Verif.RefGeom Verif.FloatVol Verif.FloatNewton
open Finset hiding ext

variable {φ : Format}

theorem recip_near (l : Fl φ) (hl : 0 < l.val) : Near φ 1 φ.η (1 / l).val (1 / l.val) (1 / l.val) := by
  have hη := φ.η_nonneg
  have hu := φ.u_nonneg
  have h := Fl.div_err 1 l
  rw [Fl.one_val] at h
  have h0 : 0 < 1 / l.val := by positivity
  rw [abs_of_pos h0] at h
  refine ⟨by rw [abs_of_pos h0], hη, ?_⟩
  rw [pow_one]
  have : 0 ≤ φ.u * φ.η := by positivity
  linarith

/-- an entry below the diagonal -/
theorem entry_err (l a0 b0 : Fl φ) (f g : Nat → Fl φ) (lo c m : Nat) (hc : c + 2 ≤ m) (hm : m ≤ 29) (hu' : φ.u ≤ 1 / 2 ^ 24) (hη' : φ.η ≤ φ.u)
    (hl : 0 < l.val) (hηl : φ.η * l.val ≤ φ.u) :
    |l.val * (-(1 / l) * (List.range' lo c).foldl (fun x k => x + f k * g k) (a0 * b0)).val +
        (a0.val * b0.val + ∑ k ∈ range c, (f (lo + k)).val * (g (lo + k)).val)| ≤
      4 * m * φ.u * (|a0.val| * |b0.val| + ∑ k ∈ range c, |(f (lo + k)).val| * |(g (lo + k)).val|) + 3 * m * φ.u := by
  have hu := φ.u_nonneg
  have hη := φ.η_nonneg
  have h1 := addLoop_near (a0 * b0) f g le_rfl (prod_near a0 b0) c lo
  have h2 := ((recip_near l hl).neg).mul h1
  set S := a0.val * b0.val + ∑ k ∈ range c, (f (lo + k)).val * (g (lo + k)).val with hS
  set T := |a0.val| * |b0.val| + ∑ k ∈ range c, |(f (lo + k)).val| * |(g (lo + k)).val| with hT
  have hT0 : 0 ≤ T := add_nonneg (by positivity) (sum_nonneg fun k _ => by positivity)
  set x := (-(1 / l) * (List.range' lo c).foldl (fun x k => x + f k * g k) (a0 * b0)).val with hx
  have h3 := mul_le_mul_of_nonneg_left h2.bound hl.le
  rw [← abs_of_pos hl, ← abs_mul, abs_of_pos hl] at h3
  have e1 : l.val * (x - -(1 / l.val) * S) = l.val * x + S := by field_simp; ring
  rw [e1] at h3
  have h4 := pow_sub_one_le hu hu' (1 + (1 + c) + 1) (m + 1) (by omega) (by omega)
  set G := (1 + φ.u) ^ (1 + (1 + c) + 1) with hG
  have hm1 : (2:ℝ) ≤ m := by exact_mod_cast (by omega : 2 ≤ m)
  have hm' : (m:ℝ) ≤ 29 := by exact_mod_cast hm
  have hcm : (c:ℝ) + 1 ≤ m := by exact_mod_cast (by omega : c + 1 ≤ m)
  have hmu : (m:ℝ) * φ.u ≤ 29 * (1 / 2 ^ 24) := mul_le_mul hm' hu' hu (by norm_num)
  have hmu' : (m:ℝ) * φ.u ≤ 1 / 100000 := hmu.trans (by norm_num)
  have hu2 : φ.u ≤ 1 / 1000000 := hu'.trans (by norm_num)
  push_cast at h4
  have hG1 : G ≤ 101 / 100 := by linarith
  have hG0 : 0 ≤ G := by positivity
  have e2 : l.val * ((G - 1) * (1 / l.val * T) + G * (φ.η * T + (φ.η + c * φ.η) * (1 / l.val) + φ.η * (φ.η + c * φ.η) + φ.η)) =
      (G - 1) * T + G * (φ.η * l.val * T + (c + 1) * φ.η + φ.η * l.val * ((c + 1) * φ.η) + φ.η * l.val) := by
    field_simp
    ring
  rw [e2] at h3
  refine h3.trans ?_
  have a1 : (G - 1) * T ≤ 1001 / 1000 * (m + 1) * φ.u * T := mul_le_mul_of_nonneg_right h4 hT0
  have a2 : φ.η * l.val * T ≤ φ.u * T := mul_le_mul_of_nonneg_right hηl hT0
  have a3 : ((c:ℝ) + 1) * φ.η ≤ m * φ.u := mul_le_mul hcm hη' hη (by linarith)
  have a4 : φ.η * l.val * ((c + 1) * φ.η) ≤ φ.u * (m * φ.u) := mul_le_mul hηl a3 (by positivity) hu
  have a5 : φ.u * (m * φ.u) ≤ 1 / 1000000 * (m * φ.u) := mul_le_mul_of_nonneg_right hu2 (by positivity)
  have a6 : G * (φ.η * l.val * T + (c + 1) * φ.η + φ.η * l.val * ((c + 1) * φ.η) + φ.η * l.val) ≤
      101 / 100 * (φ.u * T + m * φ.u + 1 / 1000000 * (m * φ.u) + φ.u) :=
    mul_le_mul hG1 (by linarith) (by positivity) (by norm_num)
  have huT : 0 ≤ φ.u * T := by positivity
  have hmuT : 2 * (φ.u * T) ≤ m * φ.u * T := by
    have := mul_le_mul_of_nonneg_right hm1 huT
    linarith
  have hmu2 : 2 * φ.u ≤ m * φ.u := mul_le_mul_of_nonneg_right hm1 hu
  linarith

theorem tri_of_le (L : Mat (Fl φ)) {k a : Nat} (h : a ≤ k) : tri L k a = (L k a).val := if_pos h

theorem tri_of_lt (L : Mat (Fl φ)) {k a : Nat} (h : k < a) : tri L k a = 0 := if_neg (by omega)

/-- a sum over a row of one and a column of another lower triangular matrix -/
theorem tri_prod (F : ℝ → ℝ → ℝ) (hF : ∀ a b, a = 0 ∨ b = 0 → F a b = 0) (L X : Mat (Fl φ)) {i j m : Nat} (hj : j < i) (hi : i < m) :
    ∑ k ∈ range m, F (tri L i k) (tri X k j) =
      F (L i j).val (X j j).val + (∑ k ∈ range (i - (j + 1)), F (L i (j + 1 + k)).val (X (j + 1 + k) j).val) + F (L i i).val (X i j).val := by
  have h0 : ∑ k ∈ Ico 0 j, F (tri L i k) (tri X k j) = 0 := sum_eq_zero fun k hk => hF _ _ (Or.inr (tri_of_lt X (mem_Ico.1 hk).2))
  have h1 : ∑ k ∈ Ico (i + 1) m, F (tri L i k) (tri X k j) = 0 := sum_eq_zero fun k hk => hF _ _ (Or.inl (tri_of_lt L (by have := mem_Ico.1 hk; omega)))
  rw [range_eq_Ico, ← sum_Ico_consecutive _ (Nat.zero_le j) (by omega : j ≤ m), h0, _root_.zero_add,
    ← sum_Ico_consecutive _ (by omega : j ≤ i + 1) (by omega : i + 1 ≤ m), h1, _root_.add_zero, sum_Ico_succ_top hj.le,
    sum_eq_sum_Ico_succ_bot hj, sum_Ico_eq_sum_range, tri_of_le L hj.le, tri_of_le X le_rfl, tri_of_le L le_rfl, tri_of_le X hj.le]
  congr 2
  refine sum_congr rfl fun k hk => ?_
  have := mem_range.1 hk
  rw [tri_of_le L (by omega), tri_of_le X (by omega)]

/-- **The residual** of the inverse of a triangular matrix -/
theorem invL_residual (m : Nat) (hm : m ≤ 29) (hu' : φ.u ≤ 1 / 2 ^ 24) (hη' : φ.η ≤ φ.u) (L : Mat (Fl φ)) (hd : ∀ i < m, 0 < (L i i).val)
    (hηl : ∀ i < m, φ.η * (L i i).val ≤ φ.u) (i j : Nat) (hi : i < m) (hj : j < m) :
    |∑ k ∈ range m, tri L i k * tri (invL m L).2 k j - (if i = j then 1 else 0)| ≤
      4 * m * φ.u * ∑ k ∈ range m, |tri L i k| * |tri (invL m L).2 k j| + 3 * m * φ.u := by
  obtain ⟨_, h2, h3⟩ := invL_entries L m
  set X := (invL m L).2 with hX
  have hu := φ.u_nonneg
  have hη := φ.η_nonneg
  have hm1 : (1:ℝ) ≤ m := by exact_mod_cast (by omega : 1 ≤ m)
  have hS0 : 0 ≤ ∑ k ∈ range m, |tri L i k| * |tri X k j| := sum_nonneg fun k _ => by positivity
  rcases lt_trichotomy i j with h | h | h
  · have e : ∑ k ∈ range m, tri L i k * tri X k j = 0 := sum_eq_zero fun k hk => by
      rcases Nat.lt_or_ge k j with h4 | h4
      · rw [tri_of_lt X h4, MulZeroClass.mul_zero]
      · rw [tri_of_lt L (by omega), MulZeroClass.zero_mul]
    rw [e, if_neg (by omega), _root_.sub_self, abs_zero]
    positivity
  · subst h
    have e : ∑ k ∈ range m, tri L i k * tri X k i = (L i i).val * (X i i).val := by
      rw [sum_eq_single i]
      · rw [tri_of_le L le_rfl, tri_of_le X le_rfl]
      · intro k _ hk
        rcases Nat.lt_or_gt_of_ne hk with h4 | h4
        · rw [tri_of_lt X h4, MulZeroClass.mul_zero]
        · rw [tri_of_lt L h4, MulZeroClass.zero_mul]
      · intro h4; exact absurd (mem_range.2 hi) h4
    rw [e, if_pos rfl, h2 i hi]
    have hl := hd i hi
    have h4 := mul_le_mul_of_nonneg_left (recip_near (L i i) hl).bound hl.le
    rw [← abs_of_pos hl, ← abs_mul, abs_of_pos hl] at h4
    have e1 : (L i i).val * ((1 / L i i).val - 1 / (L i i).val) = (L i i).val * (1 / L i i).val - 1 := by field_simp
    rw [e1] at h4
    refine h4.trans ?_
    have e2 : (L i i).val * (((1 + φ.u) ^ 1 - 1) * (1 / (L i i).val) + (1 + φ.u) ^ 1 * φ.η) = φ.u + (1 + φ.u) * (φ.η * (L i i).val) := by field_simp; ring
    rw [e2]
    have h5 := hηl i hi
    have h6 : (1 + φ.u) * (φ.η * (L i i).val) ≤ 2 * φ.u := mul_le_mul (by linarith [hu'.trans (by norm_num : (1:ℝ) / 2 ^ 24 ≤ 1)]) h5 (by positivity) (by norm_num)
    have h7 : φ.u ≤ m * φ.u := le_mul_of_one_le_left hu hm1
    have : 0 ≤ 4 * m * φ.u * ∑ k ∈ range m, |tri L i k| * |tri X k i| := by positivity
    linarith
  · rw [if_neg (by omega), _root_.sub_zero]
    have e1 := tri_prod (fun a b => a * b) (fun a b h => by rcases h with h | h <;> simp [h]) L X h hi
    have e2 := tri_prod (fun a b => |a| * |b|) (fun a b h => by rcases h with h | h <;> simp [h]) L X h hi
    beta_reduce at e1 e2
    rw [e1, e2]
    have h4 := entry_err (L i i) (L i j) (X j j) (fun k => L i k) (fun k => X k j) (j + 1) (i - (j + 1)) m (by omega) hm hu' hη' (hd i hi) (hηl i hi)
    have e3 := h3 i j h hi
    rw [addLoop] at e3
    rw [← e3] at h4
    rw [_root_.add_comm]
    refine h4.trans (add_le_add_left (mul_le_mul_of_nonneg_left ?_ (by positivity)) _)
    have : 0 ≤ |(L i i).val| * |(X i j).val| := by positivity
    linarith

end Verif.FloatInv
