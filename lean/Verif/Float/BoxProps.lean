import Verif.Float.PrismProps

/-!
C79, consequence: the computed image of a point of the element lies in the bounding box of the corners, enlarged by the rounding error.
-/

namespace Verif.Float

variable {φ : Format}

theorem box_of {a b e lo hi : ℝ} (h : |a - b| ≤ e) (h1 : lo ≤ b) (h2 : b ≤ hi) : lo - e ≤ a ∧ a ≤ hi + e := by
  rw [abs_le] at h
  exact ⟨by linarith, by linarith⟩

theorem abs_le_box {c lo hi : ℝ} (h : lo ≤ c ∧ c ≤ hi) : |c| ≤ max |lo| |hi| := abs_le_max_abs_abs h.1 h.2

/-- C79: a triangle and its bounding box. -/
theorem C79_triangle_box (hu : φ.u ≤ 1 / 2) (n : Nat) (c : Nat → Nat → Fl φ) (tol : Fl φ) (ht : 0 ≤ tol.val) (y₀ x : Nat → Fl φ)
    (hx0 : 0 ≤ (x 0).val) (hx1 : 0 ≤ (x 1).val) (hx : (x 0).val + (x 1).val ≤ 1) (j : Nat) (lo hi : ℝ)
    (hc : ∀ k, k < 3 → lo ≤ (c k j).val ∧ (c k j).val ≤ hi) (C e : ℝ) (hC : C = max |lo| |hi|)
    (he : e = ((1 + φ.u) ^ 10 - 1) * (3 * C) + (1 + φ.u) ^ 10 * ((6 * C + 3) * φ.η) + 2 * tol.val * C) :
    lo - e ≤ ((triangleN n c tol).global y₀ x j).val ∧ ((triangleN n c tol).global y₀ x j).val ≤ hi + e := by
  have hC0 : 0 ≤ C := by rw [hC]; exact (abs_nonneg lo).trans (le_max_left _ _)
  have h := C79_triangle hu n c tol ht y₀ x hx0 hx1 hx j C fun k hk => by rw [hC]; exact abs_le_box (hc k hk)
  have hL : 0 ≤ 1 - (x 0).val - (x 1).val := by linarith
  obtain ⟨l0, u0⟩ := hc 0 (by omega)
  obtain ⟨l1, u1⟩ := hc 1 (by omega)
  obtain ⟨l2, u2⟩ := hc 2 (by omega)
  refine box_of (h.trans ?_) ?_ ?_
  · rw [he]
    refine add_le_add (le_refl _) ?_
    split_ifs with h1
    · exact mul_le_mul_of_nonneg_right h1 hC0
    · positivity
  · linarith [mul_le_mul_of_nonneg_left l0 hL, mul_le_mul_of_nonneg_left l1 hx0, mul_le_mul_of_nonneg_left l2 hx1]
  · linarith [mul_le_mul_of_nonneg_left u0 hL, mul_le_mul_of_nonneg_left u1 hx0, mul_le_mul_of_nonneg_left u2 hx1]

/-- C79: a tetrahedron and its bounding box. -/
theorem C79_tetrahedron_box (hu : φ.u ≤ 1 / 100) (hηu : φ.η ≤ φ.u) (n : Nat) (c : Nat → Nat → Fl φ) (tol : Fl φ)
    (ht : 16 * φ.u ≤ tol.val) (y₀ x : Nat → Fl φ) (hx0 : 0 ≤ (x 0).val) (hx1 : 0 ≤ (x 1).val) (hx2 : 0 ≤ (x 2).val)
    (hx : (x 0).val + (x 1).val + (x 2).val ≤ 1) (j : Nat) (lo hi : ℝ)
    (hc : ∀ k, k < 4 → lo ≤ (c k j).val ∧ (c k j).val ≤ hi) (C e : ℝ) (hC : C = max |lo| |hi|)
    (he : e = ((1 + φ.u) ^ 15 - 1) * (4 * C) + (1 + φ.u) ^ 15 * ((36 * C + 4) * φ.η) + 16 * φ.u * C + 2 * tol.val * C) :
    lo - e ≤ ((tetrahedronN n c tol).global y₀ x j).val ∧ ((tetrahedronN n c tol).global y₀ x j).val ≤ hi + e := by
  have hC0 : 0 ≤ C := by rw [hC]; exact (abs_nonneg lo).trans (le_max_left _ _)
  have ht0 : 0 ≤ tol.val := by linarith [φ.u_nonneg]
  have h := C79_tetrahedron hu hηu n c tol ht y₀ x hx0 hx1 hx2 hx j C fun k hk => by rw [hC]; exact abs_le_box (hc k hk)
  have hL : 0 ≤ 1 - (x 0).val - (x 1).val - (x 2).val := by linarith
  obtain ⟨l0, u0⟩ := hc 0 (by omega)
  obtain ⟨l1, u1⟩ := hc 1 (by omega)
  obtain ⟨l2, u2⟩ := hc 2 (by omega)
  obtain ⟨l3, u3⟩ := hc 3 (by omega)
  refine box_of (h.trans ?_) ?_ ?_
  · rw [he]
    refine add_le_add (le_refl _) ?_
    split_ifs with h1
    · exact le_refl _
    · positivity
  · linarith [mul_le_mul_of_nonneg_left l0 hL, mul_le_mul_of_nonneg_left l1 hx0, mul_le_mul_of_nonneg_left l2 hx1,
      mul_le_mul_of_nonneg_left l3 hx2]
  · linarith [mul_le_mul_of_nonneg_left u0 hL, mul_le_mul_of_nonneg_left u1 hx0, mul_le_mul_of_nonneg_left u2 hx1,
      mul_le_mul_of_nonneg_left u3 hx2]

/-- C79: a prism and its bounding box. -/
theorem C79_prism_box (hu : φ.u ≤ 1 / 2) (hη1 : φ.η ≤ 1 / 100) (n : Nat) (c : Nat → Nat → Fl φ) (tol : Fl φ) (ht : 0 ≤ tol.val)
    (y₀ x : Nat → Fl φ) (hx0 : 0 ≤ (x 0).val) (hx1 : 0 ≤ (x 1).val) (hx : (x 0).val + (x 1).val ≤ 1) (hx2 : 0 ≤ (x 2).val)
    (hx2' : (x 2).val ≤ 1) (j : Nat) (lo hi : ℝ) (hc : ∀ k, k < 6 → lo ≤ (c k j).val ∧ (c k j).val ≤ hi) (C e : ℝ)
    (hC : C = max |lo| |hi|)
    (he : e = ((1 + φ.u) ^ 15 - 1) * (3 * C) + (1 + φ.u) ^ 15 * ((26 * C + 6) * φ.η) + 2 * tol.val * C) :
    lo - e ≤ ((prismN n c tol).global y₀ x j).val ∧ ((prismN n c tol).global y₀ x j).val ≤ hi + e := by
  have hC0 : 0 ≤ C := by rw [hC]; exact (abs_nonneg lo).trans (le_max_left _ _)
  have h := C79_prism hu hη1 n c tol ht y₀ x hx0 hx1 hx hx2 hx2' j C fun k hk => by rw [hC]; exact abs_le_box (hc k hk)
  have hL : 0 ≤ 1 - (x 0).val - (x 1).val := by linarith
  have hz : 0 ≤ 1 - (x 2).val := by linarith
  obtain ⟨l0, u0⟩ := hc 0 (by omega)
  obtain ⟨l1, u1⟩ := hc 1 (by omega)
  obtain ⟨l2, u2⟩ := hc 2 (by omega)
  obtain ⟨l3, u3⟩ := hc 3 (by omega)
  obtain ⟨l4, u4⟩ := hc 4 (by omega)
  obtain ⟨l5, u5⟩ := hc 5 (by omega)
  refine box_of (h.trans ?_) ?_ ?_
  · rw [he]
    refine add_le_add (le_refl _) ?_
    split_ifs with h1
    · exact mul_le_mul_of_nonneg_right h1 hC0
    · positivity
  · have a : lo ≤ (1 - (x 0).val - (x 1).val) * (c 0 j).val + (x 0).val * (c 1 j).val + (x 1).val * (c 2 j).val := by
      linarith [mul_le_mul_of_nonneg_left l0 hL, mul_le_mul_of_nonneg_left l1 hx0, mul_le_mul_of_nonneg_left l2 hx1]
    have b : lo ≤ (1 - (x 0).val - (x 1).val) * (c 3 j).val + (x 0).val * (c 4 j).val + (x 1).val * (c 5 j).val := by
      linarith [mul_le_mul_of_nonneg_left l3 hL, mul_le_mul_of_nonneg_left l4 hx0, mul_le_mul_of_nonneg_left l5 hx1]
    linarith [mul_le_mul_of_nonneg_left a hz, mul_le_mul_of_nonneg_left b hx2]
  · have a : (1 - (x 0).val - (x 1).val) * (c 0 j).val + (x 0).val * (c 1 j).val + (x 1).val * (c 2 j).val ≤ hi := by
      linarith [mul_le_mul_of_nonneg_left u0 hL, mul_le_mul_of_nonneg_left u1 hx0, mul_le_mul_of_nonneg_left u2 hx1]
    have b : (1 - (x 0).val - (x 1).val) * (c 3 j).val + (x 0).val * (c 4 j).val + (x 1).val * (c 5 j).val ≤ hi := by
      linarith [mul_le_mul_of_nonneg_left u3 hL, mul_le_mul_of_nonneg_left u4 hx0, mul_le_mul_of_nonneg_left u5 hx1]
    linarith [mul_le_mul_of_nonneg_left a hz, mul_le_mul_of_nonneg_left b hx2]

/-- C79: a pyramid and its bounding box. -/
theorem C79_pyramid_box (hu : φ.u ≤ 1 / 2) (hη1 : φ.η ≤ 1 / 100) (n : Nat) (c : Nat → Nat → Fl φ) (tol : Fl φ) (ht : 0 ≤ tol.val)
    (y₀ x : Nat → Fl φ) (hx0 : 0 ≤ (x 0).val) (hx1 : 0 ≤ (x 1).val) (hx2 : 0 ≤ (x 2).val) (hx0' : (x 0).val ≤ 1 - (x 2).val)
    (hx1' : (x 1).val ≤ 1 - (x 2).val) (j : Nat) (lo hi : ℝ) (hc : ∀ k, k < 5 → lo ≤ (c k j).val ∧ (c k j).val ≤ hi) (C e : ℝ)
    (hC : C = max |lo| |hi|)
    (he : e = ((1 + φ.u) ^ 18 - 1) * (9 * C) + (1 + φ.u) ^ 18 * ((48 * C + 5) * φ.η) + 2 * tol.val * C) :
    lo - e ≤ ((pyramidN n c tol).global y₀ x j).val ∧ ((pyramidN n c tol).global y₀ x j).val ≤ hi + e := by
  have hC0 : 0 ≤ C := by rw [hC]; exact (abs_nonneg lo).trans (le_max_left _ _)
  obtain ⟨h, hh⟩ : ∃ h, h = 1 - (x 2).val := ⟨_, rfl⟩
  rw [← hh] at hx0' hx1'
  have hb := C79_pyramid hu hη1 n c tol ht y₀ x h hh hx0 hx1 hx2 hx0' hx1' j C fun k hk => by rw [hC]; exact abs_le_box (hc k hk)
  have h0 : 0 ≤ h := hx0.trans hx0'
  have k0 : 0 ≤ h - (x 0).val := by linarith
  have k1 : 0 ≤ h - (x 1).val := by linarith
  have w0 : 0 ≤ (h - (x 0).val) * (h - (x 1).val) / h := by positivity
  have w1 : 0 ≤ (x 0).val * (h - (x 1).val) / h := by positivity
  have w2 : 0 ≤ (h - (x 0).val) * (x 1).val / h := by positivity
  have w3 : 0 ≤ (x 0).val * (x 1).val / h := by positivity
  have hsum : (h - (x 0).val) * (h - (x 1).val) / h + (x 0).val * (h - (x 1).val) / h + (h - (x 0).val) * (x 1).val / h +
      (x 0).val * (x 1).val / h = 1 - (x 2).val := by
    rw [← hh]
    rcases eq_or_ne h 0 with h0 | h0
    · rw [h0]; simp
    · field_simp; ring
  have sl := congrArg (· * lo) hsum
  have su := congrArg (· * hi) hsum
  simp only [add_mul] at sl su
  obtain ⟨l0, u0⟩ := hc 0 (by omega)
  obtain ⟨l1, u1⟩ := hc 1 (by omega)
  obtain ⟨l2, u2⟩ := hc 2 (by omega)
  obtain ⟨l3, u3⟩ := hc 3 (by omega)
  obtain ⟨l4, u4⟩ := hc 4 (by omega)
  refine box_of (hb.trans ?_) ?_ ?_
  · rw [he]
    refine add_le_add (le_refl _) ?_
    split_ifs with h1
    · exact mul_le_mul_of_nonneg_right h1 hC0
    · positivity
  · linarith [mul_le_mul_of_nonneg_left l0 w0, mul_le_mul_of_nonneg_left l1 w1, mul_le_mul_of_nonneg_left l2 w2,
      mul_le_mul_of_nonneg_left l3 w3, mul_le_mul_of_nonneg_left l4 hx2]
  · linarith [mul_le_mul_of_nonneg_left u0 w0, mul_le_mul_of_nonneg_left u1 w1, mul_le_mul_of_nonneg_left u2 w2,
      mul_le_mul_of_nonneg_left u3 w3, mul_le_mul_of_nonneg_left u4 hx2]

/-- a tetrahedron in the unit cube, in `double` with the default tolerance: no computed coordinate exceeds one by more than 1e-13 -/
example (c : Nat → Nat → Fl double) (hc : ∀ k, k < 4 → 0 ≤ (c k 0).val ∧ (c k 0).val ≤ 1) (y₀ : Nat → Fl double) :
    ((tetrahedronN 3 c defaultTol).global y₀ (fun r => if r = 0 then 1 else 0) 0).val ≤ 1 + 1 / 10 ^ 13 := by
  have hu : double.u = 2 ^ (-(53:ℤ)) := rfl
  have hη : double.η = 2 ^ (-1074 : ℤ) / 2 := rfl
  have htol : defaultTol.val = 2 ^ (-48 : ℤ) := rfl
  have hη' : double.η ≤ 2 ^ (-200 : ℤ) := by
    rw [hη]
    have h1 : (2:ℝ) ^ (-1074 : ℤ) ≤ 2 ^ (-200 : ℤ) := zpow_le_zpow_right₀ (by norm_num) (by norm_num)
    exact (half_le_self (two_zpow_pos _).le).trans h1
  have hη0 := double.η_nonneg
  have h := (C79_tetrahedron_box (φ := double) (by rw [hu]; norm_num) (hη'.trans (by rw [hu]; norm_num)) 3 c defaultTol
    (by rw [htol, hu]; norm_num) y₀ (fun r => if r = 0 then 1 else 0) (by simp [Fl.one_val]) (by simp [Fl.zero_val])
    (by simp [Fl.zero_val]) (by simp [Fl.zero_val, Fl.one_val]) 0 0 1 hc 1 _ (by simp) rfl).2
  refine h.trans (add_le_add (le_refl _) ?_)
  rw [hu, htol]
  norm_num at hη' ⊢
  nlinarith

theorem double_small : double.u ≤ 1 / 2 ∧ double.η ≤ 1 / 100 := by
  have hu : double.u = 2 ^ (-(53:ℤ)) := rfl
  have hη : double.η = 2 ^ (-1074 : ℤ) / 2 := rfl
  constructor
  · rw [hu]; norm_num
  · rw [hη]
    have h1 : (2:ℝ) ^ (-1074 : ℤ) ≤ 2 ^ (-200 : ℤ) := zpow_le_zpow_right₀ (by norm_num) (by norm_num)
    refine (half_le_self (two_zpow_pos _).le).trans (h1.trans (by norm_num))

theorem defaultTol_nonneg : 0 ≤ defaultTol.val := (two_zpow_pos (-48)).le

/-- the hypotheses are met at the second corner of a triangle, a prism and a pyramid in the unit cube -/
example (c : Nat → Nat → Fl double) (hc : ∀ k, k < 6 → 0 ≤ (c k 0).val ∧ (c k 0).val ≤ 1) (y₀ : Nat → Fl double) :
    -(((1 + double.u) ^ 10 - 1) * (3 * 1) + (1 + double.u) ^ 10 * ((6 * 1 + 3) * double.η) + 2 * defaultTol.val * 1) ≤
      ((triangleN 3 c defaultTol).global y₀ (fun r => if r = 0 then 1 else 0) 0).val ∧
    ((prismN 3 c defaultTol).global y₀ (fun r => if r = 0 then 1 else 0) 0).val ≤
      1 + (((1 + double.u) ^ 15 - 1) * (3 * 1) + (1 + double.u) ^ 15 * ((26 * 1 + 6) * double.η) + 2 * defaultTol.val * 1) ∧
    ((pyramidN 3 c defaultTol).global y₀ (fun r => if r = 0 then 1 else 0) 0).val ≤
      1 + (((1 + double.u) ^ 18 - 1) * (9 * 1) + (1 + double.u) ^ 18 * ((48 * 1 + 5) * double.η) + 2 * defaultTol.val * 1) := by
  have h1 := (C79_triangle_box double_small.1 3 c defaultTol defaultTol_nonneg y₀ (fun r => if r = 0 then 1 else 0)
    (by simp [Fl.one_val]) (by simp [Fl.zero_val]) (by simp [Fl.zero_val, Fl.one_val]) 0 0 1 (fun k hk => hc k (by omega)) 1 _
    (by simp) rfl).1
  have h2 := (C79_prism_box double_small.1 double_small.2 3 c defaultTol defaultTol_nonneg y₀ (fun r => if r = 0 then 1 else 0)
    (by simp [Fl.one_val]) (by simp [Fl.zero_val]) (by simp [Fl.zero_val, Fl.one_val]) (by simp [Fl.zero_val])
    (by simp [Fl.zero_val]) 0 0 1 hc 1 _ (by simp) rfl).2
  have h3 := (C79_pyramid_box double_small.1 double_small.2 3 c defaultTol defaultTol_nonneg y₀ (fun r => if r = 0 then 1 else 0)
    (by simp [Fl.one_val]) (by simp [Fl.zero_val]) (by simp [Fl.zero_val]) (by simp [Fl.zero_val, Fl.one_val])
    (by simp [Fl.zero_val]) 0 0 1 (fun k hk => hc k (by omega)) 1 _ (by simp) rfl).2
  rw [zero_sub] at h1
  exact ⟨h1, h2, h3⟩

end Verif.Float
