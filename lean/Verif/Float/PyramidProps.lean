import Verif.Float.TetrahedronProps

/-! C79 for pyramids. -/

namespace Verif.Float

open Verif.Typ

variable {φ : Format}

section

variable {K : Type} [Zero K] [One K] [Add K] [Sub K] [Mul K] [Div K] [Neg K] [LT K] [DecidableLT K]

/-- the pyramid in `n` dimensions with the given corners (multilineargeometry.hh:476-477, the members) -/
def pyramidN (n : Nat) (c : Nat → Nat → K) (tol : K) : MultiLinearGeometry K := ⟨3, n, 3, c, tol⟩

/-- what `global` (multilineargeometry.hh:746-775) computes for the base of a pyramid -/
def baseN (c : Nat → Nat → K) (df rf : K) (x : Nat → K) (i : Nat) : K :=
  rf * (1 - df * x 1) * (1 - df * x 0) * c 0 i + rf * (1 - df * x 1) * (df * x 0) * c 1 i +
    rf * (df * x 1) * (1 - df * x 0) * c 2 i + rf * (df * x 1) * (df * x 0) * c 3 i

theorem pyramidN_global (n : Nat) (c : Nat → Nat → K) (tol : K) (y x : Nat → K) (i : Nat) :
    (pyramidN n c tol).global y x i = (if 1 - 1 * x 2 > tol ∨ 1 - 1 * x 2 < -tol then
      baseN c (1 / (1 - 1 * x 2)) (1 * (1 - 1 * x 2)) x i else baseN c 1 0 x i) + 1 * (1 * x 2) * c 4 i := by
  have h0 : implIsPrism 3 3 0 = false := by decide
  have h1 : implIsPrism 3 3 1 = true := by decide
  have h2 : implIsPrism 3 3 2 = true := by decide
  simp only [pyramidN, baseN, MultiLinearGeometry.global, MultiLinearGeometry.globalS, Nat.zero_add, Nat.reduceAdd, Nat.reduceSub, h0, h1,
    h2, if_true, Bool.false_eq_true, if_false]
  split_ifs <;> rfl

end

theorem baseN_zero (c : Nat → Nat → Fl φ) (df : Fl φ) (x : Nat → Fl φ) (i : Nat) : baseN c df 0 x i = 0 := by
  simp only [baseN, Fl.zero_mul, Fl.add_zero]

/-- the weight of a corner of the base -/
theorem weight_near (hη1 : φ.η ≤ 1 / 100) {H : ℝ} (hH1 : H ≤ 1) {rf a b c : Fl φ} {k l : ℕ} {α β m m' C : ℝ}
    (nr : Near φ 1 0 rf.val H H) (na : Near φ k (2 * φ.η) a.val α m) (hm : m ≤ 2) (nb : Near φ l (2 * φ.η) b.val β m') (hm' : m' ≤ 2)
    (hk : k ≤ 5) (hl : l ≤ 5) (hc : |c.val| ≤ C) :
    Near φ 14 (12 * φ.η * C + φ.η) (rf * a * b * c).val (H * α * β * c.val) (H * m * m' * |c.val|) := by
  have hη := φ.η_nonneg
  have hm0 := na.m_nonneg
  have hm0' := nb.m_nonneg
  have h1 : 0 * m + 2 * φ.η * H + 0 * (2 * φ.η) + φ.η ≤ 3 * φ.η := by
    have := mul_le_of_le_one_right hη hH1; linarith
  have hHm : H * m ≤ 2 := by have := mul_le_mul hH1 hm hm0 zero_le_one; linarith
  have h2 : 3 * φ.η * m' + 2 * φ.η * (H * m) + 3 * φ.η * (2 * φ.η) + φ.η ≤ 12 * φ.η := by
    have a1 := mul_le_mul_of_nonneg_left hm' hη
    have a2 := mul_le_mul_of_nonneg_left hHm hη
    have a3 := mul_le_mul_of_nonneg_left hη1 hη
    linarith
  have n1 := (nr.mul na).mono (le_refl _) h1
  have n2 := (n1.mul nb).mono (le_refl _) h2
  have n3 := n2.mul (Near.exact (φ := φ) c.val)
  refine n3.mono (by omega) ?_
  have := mul_le_mul_of_nonneg_left hc (by linarith : 0 ≤ 12 * φ.η)
  linarith

/-- C79: error of `MultiLinearGeometry::global` on pyramids, for points of the element; `C` bounds the coordinates of the corners. The
result is compared with the rational shape functions of the pyramid, where `h = 1 - x₂` is the size of the cross section. Within twice the
tolerance of the apex the corners of the base may be left out. -/
theorem C79_pyramid (hu : φ.u ≤ 1 / 2) (hη1 : φ.η ≤ 1 / 100) (n : Nat) (c : Nat → Nat → Fl φ) (tol : Fl φ) (ht : 0 ≤ tol.val)
    (y₀ x : Nat → Fl φ) (h : ℝ) (hh : h = 1 - (x 2).val) (hx0 : 0 ≤ (x 0).val) (hx1 : 0 ≤ (x 1).val) (hx2 : 0 ≤ (x 2).val)
    (hx0' : (x 0).val ≤ h) (hx1' : (x 1).val ≤ h) (j : Nat) (C : ℝ) (hC : ∀ k, k < 5 → |(c k j).val| ≤ C) :
    |((pyramidN n c tol).global y₀ x j).val -
        ((h - (x 0).val) * (h - (x 1).val) / h * (c 0 j).val + (x 0).val * (h - (x 1).val) / h * (c 1 j).val +
          (h - (x 0).val) * (x 1).val / h * (c 2 j).val + (x 0).val * (x 1).val / h * (c 3 j).val + (x 2).val * (c 4 j).val)| ≤
      ((1 + φ.u) ^ 18 - 1) * (9 * C) + (1 + φ.u) ^ 18 * ((48 * C + 5) * φ.η) + (if h ≤ 2 * tol.val then h * C else 0) := by
  have hη := φ.η_nonneg
  have hu0 := φ.u_nonneg
  have hC0 : 0 ≤ C := (abs_nonneg _).trans (hC 0 (by omega))
  have c0 := hC 0 (by omega)
  have c1 := hC 1 (by omega)
  have c2 := hC 2 (by omega)
  have c3 := hC 3 (by omega)
  have c4 := hC 4 (by omega)
  have hp := Near.one_le_pow φ 18
  have hH0 : 0 ≤ h := hx0.trans hx0'
  have hH1 : h ≤ 1 := by linarith
  have hsub := Fl.sub_err (1 : Fl φ) (x 2)
  rw [Fl.one_val, ← hh, abs_of_nonneg hH0] at hsub
  have hif : 0 ≤ (if h ≤ 2 * tol.val then h * C else 0) := by split_ifs <;> positivity
  have hηC : 0 ≤ C * φ.η := by positivity
  have ex2 : Near φ 0 0 (x 2).val (x 2).val (x 2).val := by
    have := Near.exact (φ := φ) (x 2).val; rwa [abs_of_nonneg hx2] at this
  have n4 := (ex2.mul (Near.exact (φ := φ) (c 4 j).val)).mono (t := φ.η) (le_refl _) (by simp)
  have hx2C := mul_le_mul_of_nonneg_left c4 hx2
  rw [pyramidN_global]
  simp only [Fl.one_mul]
  by_cases hbr : 1 - x 2 > tol ∨ 1 - x 2 < -tol
  · rw [if_pos hbr]
    refine le_trans ?_ (le_add_of_nonneg_right hif)
    have hH : 0 < h := by
      refine lt_of_le_of_ne hH0 fun h0 => ?_
      rw [← h0, mul_zero, sub_zero] at hsub
      have h1 : (1 - x 2 : Fl φ).val = 0 := abs_eq_zero.1 (le_antisymm hsub (abs_nonneg _))
      rcases hbr with h | h
      · have h2 : tol.val < (1 - x 2 : Fl φ).val := h
        linarith
      · have h2 : (1 - x 2 : Fl φ).val < -tol.val := h
        linarith
    have hone : Near φ 0 0 (1 : Fl φ).val 1 1 := by have := Near.exact (φ := φ) (1 : Fl φ).val; rwa [Fl.one_val, abs_one] at this
    have nc : Near φ 1 0 (1 - x 2 : Fl φ).val h h := by
      have := Near.sub_exact (1 : Fl φ) (x 2); rwa [Fl.one_val, ← hh, abs_of_pos hH] at this
    have nd := hone.div hu hH.ne' (c := 1 - x 2) (by rw [abs_of_pos hH]; exact hsub)
    rw [abs_of_pos hH] at nd
    -- the coordinates of the base
    have key : ∀ r, 0 ≤ (x r).val → (x r).val ≤ h →
        Near φ 4 (2 * φ.η) (1 / (1 - x 2) * x r : Fl φ).val ((x r).val / h) ((x r).val / h) ∧
        Near φ 5 (2 * φ.η) (1 - 1 / (1 - x 2) * x r : Fl φ).val (1 - (x r).val / h) (1 + (x r).val / h) := by
      intro r h0 h1
      have ex : Near φ 0 0 (x r).val (x r).val (x r).val := by
        have := Near.exact (φ := φ) (x r).val; rwa [abs_of_nonneg h0] at this
      have e : 1 / h * (x r).val = (x r).val / h := by ring
      have nx := nd.mul ex
      rw [e] at nx
      have nx := nx.mono (l := 4) (t := 2 * φ.η) (by omega) (by
        simp only [zero_div, zero_add, zero_mul, mul_zero, add_zero]
        have := mul_le_of_le_one_right hη (by linarith : (x r).val ≤ 1)
        linarith)
      exact ⟨nx, by simpa using (hone.mono (l := 4) (by omega) (le_refl _)).sub nx⟩
    obtain ⟨a0, b0⟩ := key 0 hx0 hx0'
    obtain ⟨a1, b1⟩ := key 1 hx1 hx1'
    have r0 : (x 0).val / h ≤ 1 := by rw [div_le_iff₀ hH]; linarith
    have r1 : (x 1).val / h ≤ 1 := by rw [div_le_iff₀ hH]; linarith
    have r0' : 0 ≤ (x 0).val / h := by positivity
    have r1' : 0 ≤ (x 1).val / h := by positivity
    have w0 := weight_near hη1 hH1 nc b1 (by linarith) b0 (by linarith) (by omega) (by omega) c0
    have w1 := weight_near hη1 hH1 nc b1 (by linarith) a0 (by linarith) (by omega) (by omega) c1
    have w2 := weight_near hη1 hH1 nc a1 (by linarith) b0 (by linarith) (by omega) (by omega) c2
    have w3 := weight_near hη1 hH1 nc a1 (by linarith) a0 (by linarith) (by omega) (by omega) c3
    have w := (((w0.add w1).add (w2.mono (l := 15) (by omega) (le_refl _))).add (w3.mono (l := 16) (by omega) (le_refl _))).add
      (n4.mono (l := 17) (by omega) (le_refl _))
    have hm : h * (1 + (x 1).val / h) * (1 + (x 0).val / h) * |(c 0 j).val| + h * (1 + (x 1).val / h) * ((x 0).val / h) * |(c 1 j).val| +
        h * ((x 1).val / h) * (1 + (x 0).val / h) * |(c 2 j).val| + h * ((x 1).val / h) * ((x 0).val / h) * |(c 3 j).val| +
        (x 2).val * |(c 4 j).val| ≤ 9 * C := by
      have q0 := mul_le_mul_of_nonneg_left c0 (by positivity : 0 ≤ h * (1 + (x 1).val / h) * (1 + (x 0).val / h))
      have q1 := mul_le_mul_of_nonneg_left c1 (by positivity : 0 ≤ h * (1 + (x 1).val / h) * ((x 0).val / h))
      have q2 := mul_le_mul_of_nonneg_left c2 (by positivity : 0 ≤ h * ((x 1).val / h) * (1 + (x 0).val / h))
      have q3 := mul_le_mul_of_nonneg_left c3 (by positivity : 0 ≤ h * ((x 1).val / h) * ((x 0).val / h))
      have q5 : (1 + 2 * ((x 1).val / h)) * (1 + 2 * ((x 0).val / h)) ≤ 3 * 3 :=
        mul_le_mul (by linarith) (by linarith) (by linarith) (by norm_num)
      have q6 := mul_le_mul_of_nonneg_left q5 hH0
      have q7 : h * (3 * 3) + (x 2).val ≤ 9 := by linarith
      have q8 := mul_le_mul_of_nonneg_right (by linarith : h * ((1 + 2 * ((x 1).val / h)) * (1 + 2 * ((x 0).val / h))) + (x 2).val ≤ 9) hC0
      linarith
    have hb := ((w.mono (t := (48 * C + 5) * φ.η) (le_refl _) (by linarith)).mono_m hm).bound
    refine le_trans (le_of_eq ?_) hb
    congr 2
    field_simp
  · rw [if_neg hbr, baseN_zero, Fl.zero_add]
    rw [not_or] at hbr
    have h1 : (1 - x 2 : Fl φ).val ≤ tol.val := not_lt.1 hbr.1
    have h2 := neg_le_of_abs_le hsub
    have h5 := mul_le_mul_of_nonneg_right hu hH0
    rw [if_pos (by linarith)]
    have hx2C' := mul_le_of_le_one_left hC0 (by linarith : (x 2).val ≤ 1)
    have hb := ((n4.mono (l := 18) (t := (48 * C + 5) * φ.η) (by omega) (by linarith)).mono_m (n := 9 * C) (by linarith)).bound
    have h4 : ∀ z a b : ℝ, |z - (a + b)| ≤ |z - b| + |a| := fun z a b => by
      have := abs_sub (z - b) a
      rwa [show z - b - a = z - (a + b) by ring] at this
    refine (h4 _ _ _).trans (add_le_add hb ?_)
    have k0 : 0 ≤ h - (x 0).val := by linarith
    have k1 : 0 ≤ h - (x 1).val := by linarith
    have q0 := mul_le_mul_of_nonneg_left c0 (by positivity : 0 ≤ (h - (x 0).val) * (h - (x 1).val) / h)
    have q1 := mul_le_mul_of_nonneg_left c1 (by positivity : 0 ≤ (x 0).val * (h - (x 1).val) / h)
    have q2 := mul_le_mul_of_nonneg_left c2 (by positivity : 0 ≤ (h - (x 0).val) * (x 1).val / h)
    have q3 := mul_le_mul_of_nonneg_left c3 (by positivity : 0 ≤ (x 0).val * (x 1).val / h)
    have hsum : (h - (x 0).val) * (h - (x 1).val) / h + (x 0).val * (h - (x 1).val) / h + (h - (x 0).val) * (x 1).val / h +
        (x 0).val * (x 1).val / h = h := by
      rcases eq_or_ne h 0 with h0 | h0
      · rw [h0]; simp
      · field_simp; ring
    have q4 := congrArg (· * C) hsum
    simp only [add_mul] at q4
    refine (abs_add_le _ _).trans ?_
    have t3 := abs_add_three ((h - (x 0).val) * (h - (x 1).val) / h * (c 0 j).val) ((x 0).val * (h - (x 1).val) / h * (c 1 j).val)
      ((h - (x 0).val) * (x 1).val / h * (c 2 j).val)
    have z0 : |(h - (x 0).val) * (h - (x 1).val) / h * (c 0 j).val| = (h - (x 0).val) * (h - (x 1).val) / h * |(c 0 j).val| := by
      rw [abs_mul, abs_of_nonneg (by positivity)]
    have z1 : |(x 0).val * (h - (x 1).val) / h * (c 1 j).val| = (x 0).val * (h - (x 1).val) / h * |(c 1 j).val| := by
      rw [abs_mul, abs_of_nonneg (by positivity)]
    have z2 : |(h - (x 0).val) * (x 1).val / h * (c 2 j).val| = (h - (x 0).val) * (x 1).val / h * |(c 2 j).val| := by
      rw [abs_mul, abs_of_nonneg (by positivity)]
    have z3 : |(x 0).val * (x 1).val / h * (c 3 j).val| = (x 0).val * (x 1).val / h * |(c 3 j).val| := by
      rw [abs_mul, abs_of_nonneg (by positivity)]
    linarith

/-- a pyramid in `double` with the default tolerance and coordinates up to 100: the error is below 3e-12 everywhere -/
example (c : Nat → Nat → Fl double) (y₀ x : Nat → Fl double) (h : ℝ) (hh : h = 1 - (x 2).val) (hx0 : 0 ≤ (x 0).val)
    (hx1 : 0 ≤ (x 1).val) (hx2 : 0 ≤ (x 2).val) (hx0' : (x 0).val ≤ h) (hx1' : (x 1).val ≤ h) (j : Nat)
    (hC : ∀ k, k < 5 → |(c k j).val| ≤ 100) :
    |((pyramidN 3 c defaultTol).global y₀ x j).val -
        ((h - (x 0).val) * (h - (x 1).val) / h * (c 0 j).val + (x 0).val * (h - (x 1).val) / h * (c 1 j).val +
          (h - (x 0).val) * (x 1).val / h * (c 2 j).val + (x 0).val * (x 1).val / h * (c 3 j).val + (x 2).val * (c 4 j).val)| ≤
      3 / 10 ^ 12 := by
  have hu : double.u = 2 ^ (-(53:ℤ)) := rfl
  have hη : double.η = 2 ^ (-1074 : ℤ) / 2 := rfl
  have htol : defaultTol.val = 2 ^ (-48 : ℤ) := rfl
  have hη' : double.η ≤ 2 ^ (-200 : ℤ) := by
    rw [hη]
    have h1 : (2:ℝ) ^ (-1074 : ℤ) ≤ 2 ^ (-200 : ℤ) := zpow_le_zpow_right₀ (by norm_num) (by norm_num)
    exact (half_le_self (two_zpow_pos _).le).trans h1
  have hη0 := double.η_nonneg
  have h1 := C79_pyramid (φ := double) (by rw [hu]; norm_num) (hη'.trans (by norm_num)) 3 c defaultTol
    (by rw [htol]; positivity) y₀ x h hh hx0 hx1 hx2 hx0' hx1' j 100 hC
  have h2 : (if h ≤ 2 * defaultTol.val then h * (100 : ℝ) else 0) ≤ 2 * 2 ^ (-48 : ℤ) * 100 := by
    rw [htol]; split_ifs with h3
    · exact mul_le_mul_of_nonneg_right h3 (by norm_num)
    · positivity
  refine (h1.trans (add_le_add (le_refl _) h2)).trans ?_
  rw [hu]
  norm_num at hη' ⊢
  nlinarith

end Verif.Float
