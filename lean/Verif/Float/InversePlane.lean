import Verif.Float.InverseMatrix

/-! The pseudo-inverse of a Jacobian in floating-point arithmetic, including the special case of square matrices with two rows. -/

namespace Verif.FloatInv

open Verif.Float Verif.RefGeom Verif.FloatVol Verif.FloatNewton
open Finset hiding ext

variable {φ : Format}

/-- a matrix with `m` rows of length at most `R` and singular values at least `r`, within the limits of the format -/
structure Good (φ : Format) (m n : ℕ) (R r : ℝ) (e : ℕ → ℕ → ℝ) : Prop where
  fits : Fits φ m n (R ^ 2) (r ^ 2)
  R_pos : 0 < R
  r_pos : 0 < r
  high : φ.η * R ^ 2 ≤ φ.u
  row : RowsWithin m n e (R ^ 2)
  ind : IndependentBy m n e (r ^ 2)

namespace Good

variable {m n : ℕ} {R r : ℝ}

theorem rR {e : ℕ → ℕ → ℝ} (h : Good φ m n R r e) : r ≤ R := Fits.le h.fits h.R_pos h.row h.ind

theorem fac {J : Mat (Fl φ)} (h : Good φ m n R r (valM J)) (mem mem' : Mat (Fl φ)) :
    ∃ L, cholesky_L m (AAT_L n J mem) mem' = some L ∧ Fac φ m n R r J L := by
  obtain ⟨L, hL, hd, hb⟩ := factor_ok h.fits J mem mem' h.row h.ind
  refine ⟨L, hL, h.fits, h.R_pos, h.r_pos, h.rR, h.high, h.row, h.ind, hd, fun i hi k hk => ?_⟩
  have hLL : ∀ k j, j ≤ k → k < m → ∑ a ∈ range m, tri L k a * tri L j a = ∑ a ∈ range (j + 1), (L k a).val * (L j a).val := fun k j hjk hk => by
    rw [sum_congr rfl fun a _ => mul_comm (tri L k a) (tri L j a), tri_row L (fun a => tri L k a) (by omega : j < m), sum_range_succ]
    congr 1
    · exact sum_congr rfl fun a ha => by rw [tri, if_pos (by have := mem_range.mp ha; omega)]; ring
    · rw [tri, if_pos hjk]; ring
  rcases le_total k i with h | h
  · rw [hLL i k h hi]; exact hb i k h hi
  · have e1 : rowProd n J i k = rowProd n J k i := sum_congr rfl fun c _ => mul_comm _ _
    rw [e1, sum_congr rfl fun a _ => mul_comm (tri L i a) (tri L k a), hLL k i h hk]
    exact hb k i h hk

end Good

/-- the determinant is bounded from below by the square of the smallest singular value -/
theorem det_lower {r : ℝ} {e : ℕ → ℕ → ℝ} (h : IndependentBy 2 2 e (r ^ 2)) : r ^ 2 ≤ |e 0 0 * e 1 1 - e 1 0 * e 0 1| := by
  have h1 := h ![e 1 1, -e 0 1]
  have h2 := h ![-e 1 0, e 0 0]
  have h3 := h ![1, 0]
  have h4 := h ![0, 1]
  simp only [Fin.sum_univ_two, Matrix.cons_val_zero, Matrix.cons_val_one, Fin.val_zero, Fin.val_one] at h1 h2 h3 h4
  set a := e 0 0
  set b := e 0 1
  set c := e 1 0
  set d := e 1 1
  have h5 : (r ^ 2) ^ 2 ≤ (a * d - c * b) ^ 2 := by nlinarith [sq_nonneg r]
  have := abs_le_abs_of_sq_le h5
  rwa [abs_of_nonneg (sq_nonneg r)] at this
where
  abs_le_abs_of_sq_le {x y : ℝ} (h : x ^ 2 ≤ y ^ 2) : |x| ≤ |y| := sq_le_sq.1 h

/-- arithmetic of the scaled adjugate -/
theorem theta_bound {u κ D det inv : ℝ} (hu : 0 ≤ u) (hu' : u ≤ 1 / 1000) (hκ : 1 ≤ κ) (hD : D ≠ 0) (hs : u * κ ^ 2 ≤ 1 / 200)
    (h1 : |det - D| ≤ 22 / 10 * u * κ ^ 2 * |D|) (h2 : |inv * det - 1| ≤ 21 / 10 * u) : |inv * D - 1| ≤ 45 / 10 * u * κ ^ 2 := by
  have hD0 : 0 < |D| := abs_pos.2 hD
  have hk : 1 ≤ κ ^ 2 := one_le_pow₀ hκ
  have huk : u ≤ u * κ ^ 2 := le_mul_of_one_le_right hu hk
  set v := u * κ ^ 2 with hv
  have h1' : |det - D| ≤ 22 / 10 * v * |D| := by rw [hv]; linarith [h1]
  have h3 : |inv * det| ≤ 1 + 21 / 10 * u := by
    have := abs_add_le (inv * det - 1) 1
    rw [sub_add_cancel, abs_one] at this
    linarith
  have h4 : |det| ≥ (1 - 22 / 10 * v) * |D| := by
    have := abs_sub_abs_le_abs_sub D det
    rw [abs_sub_comm] at this
    linarith
  -- `|inv| |D|` is bounded
  have h5 : |inv| * |D| ≤ 1014 / 1000 := by
    rw [abs_mul] at h3
    have h6 := mul_le_mul_of_nonneg_left h4 (abs_nonneg inv)
    have h7 : 0 ≤ |inv| * |D| := by positivity
    have h8 : |inv| * |D| * (1 - 22 / 10 * v) ≤ 1 + 21 / 10 * u := by linarith
    have h9 : |inv| * |D| * (1 - 22 / 10 * (1 / 200)) ≤ |inv| * |D| * (1 - 22 / 10 * v) := mul_le_mul_of_nonneg_left (by linarith) h7
    linarith
  have e : inv * D - 1 = (inv * det - 1) - inv * (det - D) := by ring
  rw [e]
  refine (abs_sub _ _).trans ?_
  rw [abs_mul]
  have h6 := mul_le_mul_of_nonneg_left h1' (abs_nonneg inv)
  have h7 : |inv| * (22 / 10 * v * |D|) ≤ 22 / 10 * v * (1014 / 1000) := by
    have := mul_le_mul_of_nonneg_left h5 (by linarith : 0 ≤ 22 / 10 * v)
    linarith
  rw [show 45 / 10 * u * κ ^ 2 = 45 / 10 * v by rw [hv]; ring]
  linarith

set_option maxHeartbeats 1000000 in
/-- the special case of square matrices with two rows -/
theorem plane_inverts {R r : ℝ} {J : Mat (Fl φ)} (h : Good φ 2 2 R r (valM J)) : ∃ ie inv, inv22 J = some (ie, inv) ∧ Inverts 2 2 R r J inv := by
  have hR := h.R_pos
  have hr := h.r_pos
  have hu := h.fits.u_pos
  have hu' := h.fits.u_le
  have hη := φ.η_nonneg
  have hη' := h.fits.η_le
  have hlow := h.fits.low
  have hcond := h.fits.cond
  push_cast at hcond
  have hu2 : φ.u ≤ 1 / 1000000 := hu'.trans (by norm_num)
  have hκ : 1 ≤ R / r := (one_le_div hr).2 h.rR
  have hr0 := h.row 0
  have hr1 := h.row 1
  simp only [Fin.sum_univ_two, Fin.val_zero, Fin.val_one] at hr0 hr1
  have hdet := det_lower h.ind
  have hent : ∀ i < 2, ∀ j < 2, |(J i j).val| ≤ R := by
    intro i hi j hj
    refine abs_le_of_sq_le_sq ?_ hR.le
    have q00 := sq_nonneg (valM J 0 0)
    have q01 := sq_nonneg (valM J 0 1)
    have q10 := sq_nonneg (valM J 1 0)
    have q11 := sq_nonneg (valM J 1 1)
    interval_cases i <;> interval_cases j
    · change valM J 0 0 ^ 2 ≤ _; linarith
    · change valM J 0 1 ^ 2 ≤ _; linarith
    · change valM J 1 0 ^ 2 ≤ _; linarith
    · change valM J 1 1 ^ 2 ≤ _; linarith
  simp only [valM] at hr0 hr1 hdet
  -- the determinant
  set det := J 0 0 * J 1 1 - J 1 0 * J 0 1 with hdetd
  set D := (J 0 0).val * (J 1 1).val - (J 1 0).val * (J 0 1).val with hD
  have hn := (prod_near (J 0 0) (J 1 1)).sub (prod_near (J 1 0) (J 0 1))
  have hM : |(J 0 0).val| * |(J 1 1).val| + |(J 1 0).val| * |(J 0 1).val| ≤ R ^ 2 := by
    nlinarith [sq_abs (J 0 0).val, sq_abs (J 1 1).val, sq_abs (J 1 0).val, sq_abs (J 0 1).val, sq_nonneg (|(J 0 0).val| - |(J 1 1).val|),
      sq_nonneg (|(J 1 0).val| - |(J 0 1).val|)]
  have h1 := (hn.mono_m hM).bound
  rw [← hdetd, ← hD] at h1
  have hDR : |D| ≤ R ^ 2 := hn.le.trans hM
  have hD0 : 0 < |D| := lt_of_lt_of_le (by positivity) hdet
  have hDne : D ≠ 0 := abs_pos.1 hD0
  have huR : 0 ≤ φ.u * R ^ 2 := by positivity
  have h2 : |det.val - D| ≤ 22 / 10 * (φ.u * R ^ 2) := by
    refine h1.trans ?_
    have a1 : (1 + φ.u) ^ (1 + 1) - 1 ≤ 21 / 10 * φ.u := by nlinarith
    have a2 : (1 + φ.u) ^ (1 + 1) ≤ 11 / 10 := by nlinarith
    have a3 : φ.η ≤ 1 / 1000000 * (φ.u * R ^ 2) := by
      refine hlow.trans ?_
      have := mul_le_mul_of_nonneg_right hu2 huR
      nlinarith
    have a4 := mul_le_mul_of_nonneg_right a1 (sq_nonneg R)
    have a5 : (1 + φ.u) ^ (1 + 1) * (φ.η + φ.η) ≤ 11 / 10 * (φ.η + φ.η) := mul_le_mul_of_nonneg_right a2 (by linarith)
    linarith
  have h3 : 22 / 10 * (φ.u * R ^ 2) ≤ 11 / 1000 * |D| := by linarith
  have hdl : 989 / 1000 * |D| ≤ |det.val| := by
    have := abs_sub_abs_le_abs_sub D det.val
    rw [abs_sub_comm D det.val] at this
    linarith
  have hdu : |det.val| ≤ 1011 / 1000 * R ^ 2 := by
    have := abs_add_le (det.val - D) D
    rw [sub_add_cancel] at this
    linarith
  have hdet0 : 0 < |det.val| := lt_of_lt_of_le (by positivity) hdl
  have hdne : det.val ≠ 0 := abs_pos.1 hdet0
  have hdne' : det ≠ 0 := fun e => hdne (by rw [e, Fl.zero_val])
  -- its reciprocal
  set c := 1 / det with hc
  have h4 : |c.val * det.val - 1| ≤ 21 / 10 * φ.u := by
    have a1 := Fl.div_err 1 det
    rw [Fl.one_val, abs_div, abs_one] at a1
    have a2 := mul_le_mul_of_nonneg_right a1 (abs_nonneg det.val)
    rw [← abs_mul] at a2
    have e1 : ((1 / det).val - 1 / det.val) * det.val = c.val * det.val - 1 := by rw [hc]; field_simp
    have e2 : (φ.u * (1 / |det.val|) + φ.η) * |det.val| = φ.u + φ.η * |det.val| := by field_simp
    rw [e1, e2] at a2
    have a3 : φ.η * |det.val| ≤ 1011 / 1000 * φ.u := by
      have := mul_le_mul_of_nonneg_left hdu hη
      have := h.high
      linarith
    linarith
  set κ := R / r with hκd
  have hκ2 : κ ^ 2 = R ^ 2 / r ^ 2 := div_pow _ _ _
  have huκ : φ.u * κ ^ 2 ≤ 1 / 200 := by
    rw [hκ2, mul_div_assoc', div_le_iff₀ (by positivity)]
    linarith
  have h5 : |c.val * D - 1| ≤ 45 / 10 * φ.u * κ ^ 2 := by
    refine theta_bound hu.le (by linarith) hκ hDne huκ ?_ h4
    refine h2.trans ?_
    rw [hκ2]
    have a1 : φ.u * R ^ 2 = φ.u * (R ^ 2 / r ^ 2) * r ^ 2 := by field_simp
    have a2 := mul_le_mul_of_nonneg_left hdet (by positivity : 0 ≤ φ.u * (R ^ 2 / r ^ 2))
    linarith
  have hcs : |c.val| ≤ 103 / 100 / r ^ 2 := by
    have a1 : |c.val * D| ≤ 103 / 100 := by
      have := abs_add_le (c.val * D - 1) 1
      rw [sub_add_cancel, abs_one] at this
      linarith
    rw [abs_mul] at a1
    rw [le_div_iff₀ (by positivity)]
    exact (mul_le_mul_of_nonneg_left hdet (abs_nonneg _)).trans a1
  set P := R / r ^ 2 with hP
  have hP0 : 0 < P := by positivity
  have hηP : φ.η ≤ φ.u * P := by
    rw [hP, mul_div_assoc', le_div_iff₀ (by positivity)]
    have h0 : r ^ 2 ≤ R ^ 2 := pow_le_pow_left₀ hr.le h.rR 2
    have h1 : φ.η * r ^ 2 ≤ φ.η * R ^ 2 := mul_le_mul_of_nonneg_left h0 hη
    rcases le_total 1 R with hR1 | hR1
    · exact (h1.trans h.high).trans (le_mul_of_one_le_right hu.le hR1)
    · refine h1.trans ?_
      have := mul_le_mul_of_nonneg_right h.fits.η_le hR.le
      have h3 : φ.η * R ^ 2 ≤ φ.η * R := mul_le_mul_of_nonneg_left (by nlinarith) hη
      linarith
  -- the entries
  have hmul : ∀ a : Fl φ, |a.val| ≤ R → |(a * c).val - a.val * c.val| ≤ 21 / 10 * φ.u * P ∧ |(a * c).val| ≤ 11 / 10 * P := fun a ha => by
    have a1 := Fl.mul_err a c
    have a2 : |a.val * c.val| ≤ 103 / 100 * P := by
      rw [abs_mul]
      refine (mul_le_mul ha hcs (abs_nonneg _) hR.le).trans (le_of_eq ?_)
      rw [hP]; ring
    have a3 := mul_le_mul_of_nonneg_left a2 hu.le
    have huP : 0 ≤ φ.u * P := by positivity
    have a4 : |(a * c).val - a.val * c.val| ≤ 21 / 10 * φ.u * P := by linarith
    refine ⟨a4, ?_⟩
    have := abs_add_le ((a * c).val - a.val * c.val) (a.val * c.val)
    rw [sub_add_cancel] at this
    have a5 := mul_le_mul_of_nonneg_right hu2 hP0.le
    linarith
  refine ⟨HasAbs.abs det, _, if_neg hdne', ?_⟩
  set inv : Mat (Fl φ) := fun i j =>
      if i = 0 ∧ j = 0 then J 1 1 * c
      else if i = 1 ∧ j = 1 then J 0 0 * c
      else if i = 1 ∧ j = 0 then -J 1 0 * c
      else -J 0 1 * c with hinv
  have i00 : inv 0 0 = J 1 1 * c := rfl
  have i11 : inv 1 1 = J 0 0 * c := rfl
  have i10 : inv 1 0 = -J 1 0 * c := rfl
  have i01 : inv 0 1 = -J 0 1 * c := rfl
  have hneg : ∀ a : Fl φ, |a.val| ≤ R → |(-a).val| ≤ R := fun a ha => by rw [Fl.neg_val, abs_neg]; exact ha
  have m00 := hmul _ (hent 1 (by norm_num) 1 (by norm_num))
  have m11 := hmul _ (hent 0 (by norm_num) 0 (by norm_num))
  have m10 := hmul _ (hneg _ (hent 1 (by norm_num) 0 (by norm_num)))
  have m01 := hmul _ (hneg _ (hent 0 (by norm_num) 1 (by norm_num)))
  rw [Fl.neg_val] at m10 m01
  refine ⟨?_, ?_, fun h => absurd h (lt_irrefl _)⟩
  · intro x j hj
    set N := norm1 2 x with hN
    have hN0 : 0 ≤ N := norm1_nonneg _ _
    have hNe : N = |x 0| + |x 1| := by rw [hN, norm1, sum_range_succ, sum_range_one]
    have hd : ∀ i < 2, |∑ k ∈ range 2, (J k i).val * x k| ≤ R * N := fun i hi =>
      abs_sum_mul_le (range 2) (fun k => (J k i).val) x hR.le fun k hk => hent k (mem_range.1 hk) i hi
    have d0 := hd 0 (by norm_num)
    have d1 := hd 1 (by norm_num)
    have key : ∀ (a b : Fl φ) (p q y : ℝ), |a.val - p| ≤ 21 / 10 * φ.u * P → |b.val - q| ≤ 21 / 10 * φ.u * P →
        p * (∑ k ∈ range 2, (J k 0).val * x k) + q * (∑ k ∈ range 2, (J k 1).val * x k) = c.val * D * y → |y| ≤ N →
        |a.val * (∑ k ∈ range 2, (J k 0).val * x k) + b.val * (∑ k ∈ range 2, (J k 1).val * x k) - y| ≤ 72 * (2 : ℕ) ^ 4 * φ.u * κ ^ 3 * N := by
      intro a b p q y ha hb he hy
      set f := ∑ k ∈ range 2, (J k 0).val * x k
      set g := ∑ k ∈ range 2, (J k 1).val * x k
      have e : a.val * f + b.val * g - y = ((a.val - p) * f + (b.val - q) * g) + (c.val * D - 1) * y := by linear_combination he
      rw [e]
      refine (abs_add_le _ _).trans ((add_le_add_left (abs_add_le _ _) _).trans ?_)
      rw [abs_mul, abs_mul, abs_mul]
      have b1 := mul_le_mul ha d0 (abs_nonneg _) (by positivity)
      have b2 := mul_le_mul hb d1 (abs_nonneg _) (by positivity)
      have b3 := mul_le_mul h5 hy (abs_nonneg _) (by positivity)
      have b4 : 21 / 10 * φ.u * P * (R * N) = 21 / 10 * (φ.u * κ ^ 2 * N) := by rw [hP, hκ2]; ring
      rw [b4] at b1 b2
      have b5 : φ.u * κ ^ 2 * N ≤ φ.u * κ ^ 3 * N := by
        have : κ ^ 2 ≤ κ ^ 3 := pow_le_pow_right₀ hκ (by norm_num)
        gcongr
      have b6 : 0 ≤ φ.u * κ ^ 2 * N := by positivity
      push_cast
      linarith
    have hx0 : |x 0| ≤ N := by rw [hNe]; linarith [abs_nonneg (x 1)]
    have hx1 : |x 1| ≤ N := by rw [hNe]; linarith [abs_nonneg (x 0)]
    interval_cases j
    · rw [sum_range_succ, sum_range_one, i00, i10]
      refine key _ _ _ _ _ m00.1 m10.1 ?_ hx0
      simp only [sum_range_succ, sum_range_zero]
      rw [hD]; ring
    · rw [sum_range_succ, sum_range_one, i01, i11]
      refine key _ _ _ _ _ m01.1 m11.1 ?_ hx1
      simp only [sum_range_succ, sum_range_zero]
      rw [hD]; ring
  · intro i hi j hj
    have hsz : 11 / 10 * P ≤ 24 / 10 * ((2 : ℕ) : ℝ) * P := mul_le_mul_of_nonneg_right (by norm_num) hP0.le
    refine le_trans ?_ hsz
    interval_cases i <;> interval_cases j
    · exact m00.2
    · exact m01.2
    · exact m10.2
    · exact m11.2

/-- **The computed pseudo-inverse** -/
theorem rightInv_inverts {m n : ℕ} {R r : ℝ} {J : Mat (Fl φ)} (h : Good φ m n R r (valM J)) (ret ret' : Mat (Fl φ)) :
    ∃ ie inv, rightInvA m n J ret ret' = some (ie, inv) ∧ Inverts m n R r J inv := by
  rw [rightInvA]
  by_cases hs : n = 2 ∧ m = 2
  · obtain ⟨rfl, rfl⟩ := hs
    rw [if_pos ⟨rfl, rfl⟩]
    exact plane_inverts h
  · rw [if_neg hs]
    obtain ⟨L, hL, hf⟩ := h.fac ret ret'
    exact ⟨(invL m L).1, _, by rw [spdInvA, hL, Option.map_some, Option.map_some], hf.inverts⟩

end Verif.FloatInv
