import Verif.Float.VolumeCholesky

/-! The Cholesky factorisation succeeds and is backward stable. -/

namespace Verif.FloatVol

open Verif.Float Verif.RefGeom Finset HasSqrt HasAbs

variable {φ : Format}

/-- the symmetric matrix whose lower triangle is given -/
def symVal (A : Mat (Fl φ)) (k l : Nat) : ℝ := (A (max k l) (min k l)).val

theorem symVal_comm (A : Mat (Fl φ)) (k l : Nat) : symVal A k l = symVal A l k := by rw [symVal, symVal, max_comm, min_comm]

theorem symVal_lower (A : Mat (Fl φ)) {k l : Nat} (h : l ≤ k) : symVal A k l = (A k l).val := by rw [symVal, max_eq_left h, min_eq_right h]

/-- the bound of the backward error -/
noncomputable def backErr (φ : Format) (m : Nat) (D : ℝ) : ℝ := (3 * m + 10) * φ.u * D

/-- the first `i` columns are computed -/
structure Columns (m : Nat) (A : Mat (Fl φ)) (D lam : ℝ) (i : Nat) (ret : Mat (Fl φ)) : Prop where
  margin : ∀ w : Nat → ℝ, (∀ k < i, w k = 0) → (lam - i * backErr φ m D) * ∑ k ∈ range m, w k ^ 2 ≤ resid m (symVal A) (fun k j => (ret k j).val) i w
  diag : ∀ j < i, 0 < (ret j j).val
  back : ∀ k j, j < i → j ≤ k → k < m → |(A k j).val - ∑ l ∈ range (j + 1), (ret k l).val * (ret j l).val| ≤ backErr φ m D

theorem Columns.row {m : Nat} {A : Mat (Fl φ)} {D lam : ℝ} {i : Nat} {ret : Mat (Fl φ)} (h : Columns m A D lam i ret) {k : Nat} (hik : i ≤ k) (hk : k < m) :
    (lam - i * backErr φ m D) ≤ (A k k).val - ∑ j ∈ range i, (ret k j).val * (ret k j).val := by
  have h1 := h.margin (fun j => if j = k then 1 else 0) (fun j hj => if_neg (by omega))
  rw [resid_unit m i k hk, symVal_lower A le_rfl] at h1
  have : ∑ j ∈ range m, (if j = k then (1:ℝ) else 0) ^ 2 = 1 := by
    rw [sum_congr rfl fun j _ => show (if j = k then (1:ℝ) else 0) ^ 2 = if j = k then 1 else 0 by split <;> ring,
      sum_ite_eq' (range m) k, if_pos (mem_range.mpr hk)]
  rw [this, mul_one] at h1
  exact h1

theorem columns_step (m : Nat) (hm : m ≤ 30) (A : Mat (Fl φ)) {D lam : ℝ} (hR : InRange φ D) (hA : ∀ k l, l ≤ k → k < m → |(A k l).val| ≤ D)
    (hlam : (2 * m + 1) * backErr φ m D ≤ lam) (hlam0 : 0 < lam) (i : Nat) (hi : i < m) (ret : Mat (Fl φ)) (h : Columns m A D lam i ret) :
    (subLoop (A i i) 0 i fun j => ret i j * ret i j) > 0 ∧
      Columns m A D lam (i + 1) (choleskyColumn m A i (1 / sqrt (subLoop (A i i) 0 i fun j => ret i j * ret i j))
        (setM ret i i (sqrt (subLoop (A i i) 0 i fun j => ret i j * ret i j)))) := by
  have hu := hR.u_pos
  have hu2 : φ.u ≤ 1 / 1000000 := hR.u_le.trans (by norm_num)
  have hD := hR.D_nonneg
  have hm1 : (1:ℝ) ≤ m := by exact_mod_cast (by omega : 1 ≤ m)
  have hm' : (m:ℝ) ≤ 30 := by exact_mod_cast hm
  have him : (i:ℝ) + 1 ≤ m := by exact_mod_cast hi
  have huD : 0 ≤ φ.u * D := mul_nonneg hu.le hD
  have hE : 0 ≤ backErr φ m D := by rw [backErr]; positivity
  have hrest : (m + 1) * backErr φ m D ≤ lam - i * backErr φ m D := by nlinarith
  have hrow := fun {k : Nat} (hik : i ≤ k) (hk : k < m) => h.row hik hk
  have hpos : 0 ≤ lam - i * backErr φ m D := le_trans (by positivity) hrest
  have hsum : ∀ k, i ≤ k → k < m → ∑ j ∈ range i, (ret k j).val * (ret k j).val ≤ D := fun k hik hk => by
    have := hrow hik hk
    have := (abs_le.mp (hA k k le_rfl hk)).2
    linarith
  have hmu : (m:ℝ) * φ.u ≤ 1 / 10000 := by nlinarith
  have hmuD : (m:ℝ) * φ.u * D ≤ 1 / 10000 * D := mul_le_mul_of_nonneg_right hmu hD
  have hmuD0 : φ.u * D ≤ m * φ.u * D := by nlinarith
  -- the pivot
  have hx := (subLoop_bound hR (A i i) (fun j => ret i j) (fun j => ret i j) i m hi hm (hA i i le_rfl hi) (hsum i le_rfl hi) (hsum i le_rfl hi)).1
  set x := subLoop (A i i) 0 i fun j => ret i j * ret i j with hxd
  have hri := hrow le_rfl hi
  have hD0 : 0 < D := by
    rcases hD.lt_or_eq with h0 | h0
    · exact h0
    · exfalso
      have h1 : backErr φ m D = 0 := by rw [backErr, ← h0]; ring
      rw [h1] at hri
      have := (abs_le.mp (hA i i le_rfl hi)).2
      have : 0 ≤ ∑ j ∈ range i, (ret i j).val * (ret i j).val := sum_nonneg fun j _ => mul_self_nonneg _
      linarith
  obtain ⟨hx1, hx2⟩ := abs_le.mp hx
  have hs0 : 0 ≤ ∑ j ∈ range i, (ret i j).val * (ret i j).val := sum_nonneg fun j _ => mul_self_nonneg _
  have hb : (m + 1) * backErr φ m D ≥ 10 * (m * φ.u * D) := by
    rw [backErr]
    have : (m + 1 : ℝ) * ((3 * m + 10) * φ.u * D) = (3 * m + 10) * (m * φ.u * D) + (3 * m + 10) * (φ.u * D) := by ring
    have h3 : 10 * (m * φ.u * D) ≤ (3 * m + 10) * (m * φ.u * D) := mul_le_mul_of_nonneg_right (by linarith) (by positivity)
    have h4 : (0:ℝ) ≤ (3 * m + 10) * (φ.u * D) := by positivity
    linarith
  have hxlo : φ.u * D ≤ x.val := by linarith
  have hxhi : x.val ≤ 101 / 100 * D := by
    have := (abs_le.mp (hA i i le_rfl hi)).2
    linarith
  obtain ⟨hr0, hr1, hr2, hr3⟩ := diag_bound hR x hxlo hxhi hD0
  refine ⟨show (0 : Fl φ).val < x.val by rw [Fl.zero_val]; exact lt_of_lt_of_le (by positivity) hxlo, ?_⟩
  set r := sqrt x with hrd
  set ret' := choleskyColumn m A i (1 / r) (setM ret i i r) with hret
  -- the entries of the new matrix
  have hold : ∀ k j, j < i → ret' k j = ret k j := fun k j hj => by
    rw [hret, column_eq, if_neg (by omega), setM, if_neg (by omega)]
  have hdiag : ret' i i = r := by rw [hret, column_eq, if_neg (by omega), setM, if_pos ⟨rfl, rfl⟩]
  have hbelow : ∀ k, i < k → k < m → ret' k i = 1 / r * subLoop (A k i) 0 i fun j => ret i j * ret k j := fun k h1 h2 => by
    rw [hret, column_eq, if_pos ⟨rfl, h1, h2⟩, colEntry]
    congr 1
    refine subLoop_congr _ _ _ _ fun j hj => ?_
    rw [setM, setM, if_neg (by omega), if_neg (by omega)]
  have hsplit : ∀ k, ∑ l ∈ range (i + 1), (ret' k l).val * (ret' i l).val = (∑ l ∈ range i, (ret k l).val * (ret i l).val) + (ret' k i).val * r.val := fun k => by
    rw [sum_range_succ, hdiag, sum_congr rfl fun l hl => by rw [hold k l (mem_range.mp hl), hold i l (mem_range.mp hl)]]
  have hcol : ∀ k, i ≤ k → k < m → |(A k i).val - ∑ l ∈ range (i + 1), (ret' k l).val * (ret' i l).val| ≤ backErr φ m D := fun k hik hk => by
    rw [hsplit k, backErr]
    rcases hik.eq_or_lt with rfl | hlt
    · rw [hdiag]
      have h1 := abs_le.mp hr1
      rw [abs_le]
      constructor <;> nlinarith
    · rw [hbelow k hlt hk]
      obtain ⟨h1, h2⟩ := subLoop_bound hR (A k i) (fun j => ret i j) (fun j => ret k j) i m hi hm (hA k i hik hk) (hsum i le_rfl hi) (hsum k hik hk)
      set y := subLoop (A k i) 0 i fun j => ret i j * ret k j
      have hy : |y.val| ≤ 201 / 100 * D := by
        have h3 := abs_add_le (y.val - ((A k i).val - ∑ j ∈ range i, (ret i j).val * (ret k j).val)) ((A k i).val - ∑ j ∈ range i, (ret i j).val * (ret k j).val)
        rw [sub_add_cancel] at h3
        linarith
      have h3 := below_bound hR r y hr0 (by linarith) (by linarith) hy
      have e : ∑ l ∈ range i, (ret k l).val * (ret i l).val = ∑ j ∈ range i, (ret i j).val * (ret k j).val := sum_congr rfl fun j _ => mul_comm _ _
      rw [e]
      have h1' := abs_le.mp h1
      have h3' := abs_le.mp h3
      rw [abs_le]
      constructor <;> nlinarith
  refine ⟨fun w hw => ?_, fun j hj => ?_, fun k j hj hjk hk => ?_⟩
  · have := resid_step m i hi (symVal A) (fun k j => (ret k j).val) (fun k j => (ret' k j).val) (symVal_comm A) hE hrest h.margin
      (fun k j hj => by beta_reduce; rw [hold k j hj]) (by beta_reduce; rw [hdiag]; exact hr0)
      (fun k hik hk => by rw [symVal_lower A hik]; exact hcol k hik hk) w hw
    refine le_trans (le_of_eq ?_) this
    push_cast
    ring
  · rcases (Nat.lt_succ_iff.mp hj).eq_or_lt with rfl | hlt
    · rw [hdiag]; exact hr0
    · rw [hold j j hlt]; exact h.diag j hlt
  · rcases (Nat.lt_succ_iff.mp hj).eq_or_lt with rfl | hlt
    · exact hcol k hjk hk
    · rw [sum_congr rfl fun l hl => by rw [hold k l (by have := mem_range.mp hl; omega), hold j l (by have := mem_range.mp hl; omega)]]
      exact h.back k j hlt hjk hk

/-- **The factorisation succeeds** for matrices that are positive definite by a margin, and is backward stable. -/
theorem choleskyFrom_ok (m : Nat) (hm : m ≤ 30) (A : Mat (Fl φ)) {D lam : ℝ} (hR : InRange φ D) (hA : ∀ k l, l ≤ k → k < m → |(A k l).val| ≤ D)
    (hlam : (2 * m + 1) * backErr φ m D ≤ lam) (hlam0 : 0 < lam) : ∀ (fuel i : Nat) (ret : Mat (Fl φ)), i + fuel = m → Columns m A D lam i ret →
    ∃ L, choleskyFrom m A fuel i ret = some L ∧ Columns m A D lam m L
  | 0, i, ret, hi, h => ⟨ret, rfl, by obtain rfl : i = m := hi; exact h⟩
  | fuel + 1, i, ret, hi, h => by
    obtain ⟨h1, h2⟩ := columns_step m hm A hR hA hlam hlam0 i (by omega) ret h
    obtain ⟨L, h3, h4⟩ := choleskyFrom_ok m hm A hR hA hlam hlam0 fuel (i + 1) _ (by omega) h2
    refine ⟨L, ?_, h4⟩
    rw [choleskyFrom]
    rw [if_neg (not_not.mpr h1)]
    exact h3

theorem cholesky_ok (m : Nat) (hm : m ≤ 30) (A : Mat (Fl φ)) {D lam : ℝ} (hR : InRange φ D) (hA : ∀ k l, l ≤ k → k < m → |(A k l).val| ≤ D)
    (hlam : (2 * m + 1) * backErr φ m D ≤ lam) (hlam0 : 0 < lam)
    (hq : ∀ w : Nat → ℝ, lam * ∑ k ∈ range m, w k ^ 2 ≤ quad m (symVal A) w) (ret : Mat (Fl φ)) :
    ∃ L, cholesky_L m A ret = some L ∧ Columns m A D lam m L :=
  choleskyFrom_ok m hm A hR hA hlam hlam0 m 0 ret (by omega)
    ⟨fun w _ => by simpa [resid] using hq w, fun j hj => by omega, fun k j hj => by omega⟩

end Verif.FloatVol
