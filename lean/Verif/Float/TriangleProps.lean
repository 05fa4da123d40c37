import Verif.Float.GlobalProps

/-!
C79 for triangles given as multilinear geometries: the code divides by `1 - x₁`, which tends to zero at the apex, and leaves the other
corners out once this is at most the tolerance.
-/

namespace Verif.Float

open Verif.Typ

variable {φ : Format}

section

variable {K : Type} [Zero K] [One K] [Add K] [Sub K] [Mul K] [Div K] [Neg K] [LT K] [DecidableLT K]

/-- the triangle in `n` dimensions with the given corners (multilineargeometry.hh:476-477, the members) -/
def triangleN (n : Nat) (c : Nat → Nat → K) (tol : K) : MultiLinearGeometry K := ⟨2, n, 0, c, tol⟩

theorem triangleN_global (n : Nat) (c : Nat → Nat → K) (tol : K) (y x : Nat → K) (i : Nat) :
    (triangleN n c tol).global y x i = if 1 - 1 * x 1 > tol ∨ 1 - 1 * x 1 < -tol then
      1 * (1 - 1 * x 1) * (1 - 1 / (1 - 1 * x 1) * x 0) * c 0 i + 1 * (1 - 1 * x 1) * (1 / (1 - 1 * x 1) * x 0) * c 1 i + 1 * (1 * x 1) * c 2 i
    else 0 * (1 - 1 * x 0) * c 0 i + 0 * (1 * x 0) * c 1 i + 1 * (1 * x 1) * c 2 i := by
  have h0 : implIsPrism 0 2 0 = false := by decide
  have h1 : implIsPrism 0 2 1 = true := by decide
  simp only [triangleN, MultiLinearGeometry.global, MultiLinearGeometry.globalS, Nat.zero_add, Nat.reduceAdd, Nat.reduceSub, h0, h1,
    if_true, Bool.false_eq_true, if_false]
  split_ifs <;> rfl

end

/-- C79: error of `MultiLinearGeometry::global` on triangles, for points of the element; `C` bounds the coordinates of the corners. The
result is compared with the affine combination of the corners. Although the code divides by `1 - x₁`, ten roundings suffice; within twice
the tolerance of the apex the corners of the base may be left out. -/
theorem C79_triangle (hu : φ.u ≤ 1 / 2) (n : Nat) (c : Nat → Nat → Fl φ) (tol : Fl φ) (ht : 0 ≤ tol.val) (y₀ x : Nat → Fl φ)
    (hx0 : 0 ≤ (x 0).val) (hx1 : 0 ≤ (x 1).val) (hx : (x 0).val + (x 1).val ≤ 1) (j : Nat) (C : ℝ)
    (hC : ∀ k, k < 3 → |(c k j).val| ≤ C) :
    |((triangleN n c tol).global y₀ x j).val -
        ((1 - (x 0).val - (x 1).val) * (c 0 j).val + (x 0).val * (c 1 j).val + (x 1).val * (c 2 j).val)| ≤
      ((1 + φ.u) ^ 10 - 1) * (3 * C) + (1 + φ.u) ^ 10 * ((6 * C + 3) * φ.η) +
        (if 1 - (x 1).val ≤ 2 * tol.val then (1 - (x 1).val) * C else 0) := by
  have hη := φ.η_nonneg
  have hu0 := φ.u_nonneg
  have hC0 : 0 ≤ C := (abs_nonneg _).trans (hC 0 (by omega))
  have c0 := hC 0 (by omega)
  have c1 := hC 1 (by omega)
  have c2 := hC 2 (by omega)
  have hone : Near φ 0 0 (1 : Fl φ).val 1 1 := by have := Near.exact (φ := φ) (1 : Fl φ).val; rwa [Fl.one_val, abs_one] at this
  have hp := Near.one_le_pow φ 10
  have hH0 : 0 ≤ 1 - (x 1).val := by linarith
  have hsub := Fl.sub_err (1 : Fl φ) (x 1)
  rw [Fl.one_val, abs_of_nonneg hH0] at hsub
  have hif : 0 ≤ (if 1 - (x 1).val ≤ 2 * tol.val then (1 - (x 1).val) * C else 0) := by split_ifs <;> positivity
  rw [triangleN_global]
  simp only [Fl.one_mul]
  have ex0 : Near φ 0 0 (x 0).val (x 0).val (x 0).val := by
    have := Near.exact (φ := φ) (x 0).val; rwa [abs_of_nonneg hx0] at this
  have ex1 : Near φ 0 0 (x 1).val (x 1).val (x 1).val := by
    have := Near.exact (φ := φ) (x 1).val; rwa [abs_of_nonneg hx1] at this
  have n2 := ex1.mul (Near.exact (φ := φ) (c 2 j).val)
  by_cases hbr : 1 - x 1 > tol ∨ 1 - x 1 < -tol
  · -- away from the apex
    rw [if_pos hbr]
    refine le_trans ?_ (le_add_of_nonneg_right hif)
    have hH : 0 < 1 - (x 1).val := by
      refine lt_of_le_of_ne hH0 fun h0 => ?_
      rw [← h0, mul_zero, sub_zero] at hsub
      have h1 : (1 - x 1 : Fl φ).val = 0 := abs_eq_zero.1 (le_antisymm hsub (abs_nonneg _))
      rcases hbr with h | h
      · have h2 : tol.val < (1 - x 1 : Fl φ).val := h
        linarith
      · have h2 : (1 - x 1 : Fl φ).val < -tol.val := h
        linarith
    have hH1 : 1 - (x 1).val ≤ 1 := by linarith
    have nc : Near φ 1 0 (1 - x 1 : Fl φ).val (1 - (x 1).val) (1 - (x 1).val) := by
      have := Near.sub_exact (1 : Fl φ) (x 1); rwa [Fl.one_val, abs_of_pos hH] at this
    have nd := hone.div hu hH.ne' (c := 1 - x 1) (by rw [abs_of_pos hH]; exact hsub)
    rw [abs_of_pos hH] at nd
    have nx := nd.mul ex0
    have nx' := (hone.mono (l := 0 + 3 + 0 + 1) (by omega) (le_refl _)).sub nx
    have n0 := (nc.mul nx').mul (Near.exact (φ := φ) (c 0 j).val)
    have n1 := (nc.mul nx).mul (Near.exact (φ := φ) (c 1 j).val)
    have n := (n0.add (n1.mono (l := 8) (by omega) (le_refl _))).add (n2.mono (l := 9) (by omega) (le_refl _))
    generalize hHe : 1 - (x 1).val = H at *
    generalize hX0 : (x 0).val = X at *
    generalize hX1 : (x 1).val = Y at *
    have hX : X ≤ H := by linarith
    have e1 : H * (1 / H * X) = X := by field_simp
    have e2 : H * (1 + 1 / H * X) = H + X := by rw [mul_add, e1, mul_one]
    have e3 : H * (1 - 1 / H * X) = H - X := by rw [mul_sub, e1, mul_one]
    have hm : H * (1 + 1 / H * X) * |(c 0 j).val| + H * (1 / H * X) * |(c 1 j).val| + Y * |(c 2 j).val| ≤ 3 * C := by
      rw [e1, e2]
      have a0 := mul_le_mul_of_nonneg_left c0 (by linarith : 0 ≤ H + X)
      have a1 := mul_le_mul_of_nonneg_left c1 hx0
      have a2 := mul_le_mul_of_nonneg_left c2 hx1
      have a3 : (H + X) * C + X * C + Y * C ≤ 3 * C := by
        have := mul_le_mul_of_nonneg_right (by linarith : H + X + X + Y ≤ 3) hC0
        linarith
      linarith
    have n' := n.mono_m hm
    have hs : ∀ s, s ≤ (6 * C + 3) * φ.η → (1 + φ.u) ^ 10 * s ≤ (1 + φ.u) ^ 10 * ((6 * C + 3) * φ.η) := fun s h =>
      mul_le_mul_of_nonneg_left h (by linarith)
    have hb := n'.bound
    have e4 : H * (1 - 1 / H * X) * (c 0 j).val + H * (1 / H * X) * (c 1 j).val + Y * (c 2 j).val =
        (1 - X - Y) * (c 0 j).val + X * (c 1 j).val + Y * (c 2 j).val := by
      rw [e1, e3, ← hHe]; ring
    rw [e4] at hb
    refine hb.trans (add_le_add (le_refl _) (hs _ ?_))
    simp only [zero_mul, zero_add, zero_div, mul_zero, add_zero]
    have b1 : φ.η * X ≤ φ.η := mul_le_of_le_one_right hη (by linarith)
    have b2 : (φ.η * X + φ.η) * H + φ.η ≤ 3 * φ.η := by
      have := mul_le_of_le_one_right (a := φ.η * X + φ.η) (by positivity) hH1
      linarith
    have b3 := mul_le_mul b2 c0 (abs_nonneg _) (by linarith)
    have b4 := mul_le_mul b2 c1 (abs_nonneg _) (by linarith)
    linarith
  · -- at the apex
    rw [if_neg hbr]
    rw [not_or] at hbr
    have h1 : (1 - x 1 : Fl φ).val ≤ tol.val := not_lt.1 hbr.1
    have h2 := neg_le_of_abs_le hsub
    have h5 := mul_le_mul_of_nonneg_right hu hH0
    have hnear : 1 - (x 1).val ≤ 2 * tol.val := by linarith
    rw [if_pos hnear]
    simp only [Fl.zero_mul, Fl.zero_add]
    have hb := ((n2.mono (l := 10) (t := φ.η) (by omega) (by simp)).mono_m (n := C) 
      ((mul_le_of_le_one_left (abs_nonneg _) (by linarith)).trans c2)).bound
    have h3 : |(1 - (x 0).val - (x 1).val) * (c 0 j).val + (x 0).val * (c 1 j).val| ≤ (1 - (x 1).val) * C := by
      refine (abs_add_le _ _).trans ?_
      rw [abs_mul, abs_mul, abs_of_nonneg hx0, abs_of_nonneg (by linarith : 0 ≤ 1 - (x 0).val - (x 1).val)]
      have a0 := mul_le_mul_of_nonneg_left c0 (by linarith : 0 ≤ 1 - (x 0).val - (x 1).val)
      have a1 := mul_le_mul_of_nonneg_left c1 hx0
      linarith
    have h4 : ∀ z a b : ℝ, |z - (a + b)| ≤ |z - b| + |a| := fun z a b => by
      have := abs_sub (z - b) a
      rwa [show z - b - a = z - (a + b) by ring] at this
    refine (h4 _ _ _).trans (add_le_add (hb.trans (add_le_add ?_ ?_)) h3)
    · exact mul_le_mul_of_nonneg_left (by linarith) (by linarith)
    · refine mul_le_mul_of_nonneg_left ?_ (by linarith)
      have := mul_nonneg hC0 hη
      linarith

/-- a triangle in `double` with coordinates up to 100, a point not at the apex: the error is below 4e-13 -/
example (c : Nat → Nat → Fl double) (y₀ x : Nat → Fl double) (hx0 : 0 ≤ (x 0).val) (hx1 : 0 ≤ (x 1).val)
    (hx : (x 0).val + (x 1).val ≤ 1) (hx' : (x 1).val ≤ 999 / 1000) (j : Nat) (hC : ∀ k, k < 3 → |(c k j).val| ≤ 100) :
    |((triangleN 2 c (epsilon 53 (-1074) (by norm_num) (by norm_num))).global y₀ x j).val -
        ((1 - (x 0).val - (x 1).val) * (c 0 j).val + (x 0).val * (c 1 j).val + (x 1).val * (c 2 j).val)| ≤ 4 / 10 ^ 13 := by
  have hu : double.u = 2 ^ (-(53:ℤ)) := rfl
  have hη : double.η = 2 ^ (-1074 : ℤ) / 2 := rfl
  have htol : (epsilon 53 (-1074) (by norm_num) (by norm_num) : Fl double).val = 2 ^ (1 - 53 : ℤ) := rfl
  have h := C79_triangle (φ := double) (by rw [hu]; norm_num) 2 c (epsilon 53 (-1074) (by norm_num) (by norm_num))
    (by rw [htol]; positivity) y₀ x hx0 hx1 hx j 100 hC
  refine h.trans ?_
  rw [if_neg (by rw [htol]; norm_num; linarith)]
  have hη' : double.η ≤ 2 ^ (-200 : ℤ) := by
    rw [hη]
    have h1 : (2:ℝ) ^ (-1074 : ℤ) ≤ 2 ^ (-200 : ℤ) := zpow_le_zpow_right₀ (by norm_num) (by norm_num)
    exact (half_le_self (two_zpow_pos _).le).trans h1
  have hη0 := double.η_nonneg
  rw [hu]
  norm_num at hη' ⊢
  nlinarith

end Verif.Float
