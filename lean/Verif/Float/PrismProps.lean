import Verif.Float.PyramidProps

/-! C79 for prisms. -/

namespace Verif.Float

open Verif.Typ

variable {φ : Format}

section

variable {K : Type} [Zero K] [One K] [Add K] [Sub K] [Mul K] [Div K] [Neg K] [LT K] [DecidableLT K]

/-- the prism in `n` dimensions with the given corners (multilineargeometry.hh:476-477, the members) -/
def prismN (n : Nat) (c : Nat → Nat → K) (tol : K) : MultiLinearGeometry K := ⟨3, n, 5, c, tol⟩

theorem prismN_global (n : Nat) (c : Nat → Nat → K) (tol : K) (y x : Nat → K) (i : Nat) :
    (prismN n c tol).global y x i = if 1 - 1 * x 1 > tol ∨ 1 - 1 * x 1 < -tol then
      1 * (1 - 1 * x 2) * (1 - 1 * x 1) * (1 - 1 / (1 - 1 * x 1) * x 0) * c 0 i +
        1 * (1 - 1 * x 2) * (1 - 1 * x 1) * (1 / (1 - 1 * x 1) * x 0) * c 1 i + 1 * (1 - 1 * x 2) * (1 * x 1) * c 2 i +
        1 * (1 * x 2) * (1 - 1 * x 1) * (1 - 1 / (1 - 1 * x 1) * x 0) * c 3 i +
        1 * (1 * x 2) * (1 - 1 * x 1) * (1 / (1 - 1 * x 1) * x 0) * c 4 i + 1 * (1 * x 2) * (1 * x 1) * c 5 i
    else
      0 * (1 - 1 * x 0) * c 0 i + 0 * (1 * x 0) * c 1 i + 1 * (1 - 1 * x 2) * (1 * x 1) * c 2 i +
        0 * (1 - 1 * x 0) * c 3 i + 0 * (1 * x 0) * c 4 i + 1 * (1 * x 2) * (1 * x 1) * c 5 i := by
  have h0 : implIsPrism 5 3 0 = true := by decide
  have h1 : implIsPrism 5 3 1 = false := by decide
  have h2 : implIsPrism 5 3 2 = true := by decide
  simp only [prismN, MultiLinearGeometry.global, MultiLinearGeometry.globalS, Nat.zero_add, Nat.reduceAdd, Nat.reduceSub, h0, h1,
    h2, if_true, Bool.false_eq_true, if_false]
  split_ifs <;> rfl

end

/-- the weight of a corner off the edge where the divisor vanishes -/
theorem prism_weight (hη1 : φ.η ≤ 1 / 100) {ρ H : ℝ} (hρ : ρ ≤ 1) (hH1 : H ≤ 1) {rf cx a c : Fl φ} {l : ℕ} {α m C : ℝ}
    (nr : Near φ 1 0 rf.val ρ ρ) (nc : Near φ 1 0 cx.val H H) (na : Near φ l (2 * φ.η) a.val α m) (hm : m ≤ 2) (hl : l ≤ 5)
    (hc : |c.val| ≤ C) :
    Near φ 10 (6 * φ.η * C + φ.η) (rf * cx * a * c).val (ρ * H * α * c.val) (ρ * H * m * |c.val|) := by
  have hη := φ.η_nonneg
  have hm0 := na.m_nonneg
  have hρH : ρ * H ≤ 1 := mul_le_one₀ hρ nc.m_nonneg hH1
  have n1 := (nr.mul nc).mono (t := φ.η) (le_refl _) (by simp)
  have h2 : φ.η * m + 2 * φ.η * (ρ * H) + φ.η * (2 * φ.η) + φ.η ≤ 6 * φ.η := by
    have a1 := mul_le_mul_of_nonneg_left hm hη
    have a2 := mul_le_mul_of_nonneg_left hρH hη
    have a3 := mul_le_mul_of_nonneg_left hη1 hη
    linarith
  have n3 := ((n1.mul na).mono (le_refl _) h2).mul (Near.exact (φ := φ) c.val)
  refine n3.mono (by omega) ?_
  have := mul_le_mul_of_nonneg_left hc (by linarith : 0 ≤ 6 * φ.η)
  linarith

/-- the weight of a corner on this edge -/
theorem edge_weight {ρ Y : ℝ} {rf y c : Fl φ} {C : ℝ} (nr : Near φ 1 0 rf.val ρ ρ) (ny : Near φ 0 0 y.val Y Y) (hc : |c.val| ≤ C) :
    Near φ 3 (φ.η * C + φ.η) (rf * y * c).val (ρ * Y * c.val) (ρ * Y * |c.val|) := by
  have hη := φ.η_nonneg
  have n1 := (nr.mul ny).mono (t := φ.η) (le_refl _) (by simp)
  refine (n1.mul (Near.exact (φ := φ) c.val)).mono (by omega) ?_
  have := mul_le_mul_of_nonneg_left hc hη
  linarith

/-- C79: error of `MultiLinearGeometry::global` on prisms, for points of the element; `C` bounds the coordinates of the corners. The
result is compared with the shape functions of the prism. Within twice the tolerance of the edge between the corners 2 and 5 the others
may be left out. -/
theorem C79_prism (hu : φ.u ≤ 1 / 2) (hη1 : φ.η ≤ 1 / 100) (n : Nat) (c : Nat → Nat → Fl φ) (tol : Fl φ) (ht : 0 ≤ tol.val)
    (y₀ x : Nat → Fl φ) (hx0 : 0 ≤ (x 0).val) (hx1 : 0 ≤ (x 1).val) (hx : (x 0).val + (x 1).val ≤ 1) (hx2 : 0 ≤ (x 2).val)
    (hx2' : (x 2).val ≤ 1) (j : Nat) (C : ℝ) (hC : ∀ k, k < 6 → |(c k j).val| ≤ C) :
    |((prismN n c tol).global y₀ x j).val -
        ((1 - (x 2).val) * ((1 - (x 0).val - (x 1).val) * (c 0 j).val + (x 0).val * (c 1 j).val + (x 1).val * (c 2 j).val) +
          (x 2).val * ((1 - (x 0).val - (x 1).val) * (c 3 j).val + (x 0).val * (c 4 j).val + (x 1).val * (c 5 j).val))| ≤
      ((1 + φ.u) ^ 15 - 1) * (3 * C) + (1 + φ.u) ^ 15 * ((26 * C + 6) * φ.η) +
        (if 1 - (x 1).val ≤ 2 * tol.val then (1 - (x 1).val) * C else 0) := by
  have hη := φ.η_nonneg
  have hu0 := φ.u_nonneg
  have hC0 : 0 ≤ C := (abs_nonneg _).trans (hC 0 (by omega))
  have c0 := hC 0 (by omega)
  have c1 := hC 1 (by omega)
  have c2 := hC 2 (by omega)
  have c3 := hC 3 (by omega)
  have c4 := hC 4 (by omega)
  have c5 := hC 5 (by omega)
  have hH0 : 0 ≤ 1 - (x 1).val := by linarith
  have hz : 0 ≤ 1 - (x 2).val := by linarith
  have hηC : 0 ≤ C * φ.η := by positivity
  have hsub := Fl.sub_err (1 : Fl φ) (x 1)
  rw [Fl.one_val, abs_of_nonneg hH0] at hsub
  have hif : 0 ≤ (if 1 - (x 1).val ≤ 2 * tol.val then (1 - (x 1).val) * C else 0) := by split_ifs <;> positivity
  have hone : Near φ 0 0 (1 : Fl φ).val 1 1 := by have := Near.exact (φ := φ) (1 : Fl φ).val; rwa [Fl.one_val, abs_one] at this
  have ex : ∀ r, 0 ≤ (x r).val → Near φ 0 0 (x r).val (x r).val (x r).val := fun r h => by
    have := Near.exact (φ := φ) (x r).val; rwa [abs_of_nonneg h] at this
  have nz : Near φ 1 0 (1 - x 2 : Fl φ).val (1 - (x 2).val) (1 - (x 2).val) := by
    have := Near.sub_exact (1 : Fl φ) (x 2); rwa [Fl.one_val, abs_of_nonneg hz] at this
  have nz' : Near φ 1 0 (x 2).val (x 2).val (x 2).val := (ex 2 hx2).mono (by omega) (le_refl _)
  have v2 := edge_weight nz (ex 1 hx1) c2
  have v5 := edge_weight nz' (ex 1 hx1) c5
  rw [prismN_global]
  simp only [Fl.one_mul]
  by_cases hbr : 1 - x 1 > tol ∨ 1 - x 1 < -tol
  · rw [if_pos hbr]
    refine le_trans ?_ (le_add_of_nonneg_right hif)
    have hH : 0 < 1 - (x 1).val := by
      refine lt_of_le_of_ne hH0 fun h0 => ?_
      rw [← h0, mul_zero, sub_zero] at hsub
      have h1 : (1 - x 1 : Fl φ).val = 0 := abs_eq_zero.1 (le_antisymm hsub (abs_nonneg _))
      rcases hbr with h | h
      · have h2 : tol.val < (1 - x 1 : Fl φ).val := h
        linarith
      · have h2 : (1 - x 1 : Fl φ).val < -tol.val := h
        linarith
    have nc : Near φ 1 0 (1 - x 1 : Fl φ).val (1 - (x 1).val) (1 - (x 1).val) := by
      have := Near.sub_exact (1 : Fl φ) (x 1); rwa [Fl.one_val, abs_of_pos hH] at this
    have nd := hone.div hu hH.ne' (c := 1 - x 1) (by rw [abs_of_pos hH]; exact hsub)
    rw [abs_of_pos hH] at nd
    have nx := nd.mul (ex 0 hx0)
    rw [show 1 / (1 - (x 1).val) * (x 0).val = (x 0).val / (1 - (x 1).val) by ring] at nx
    have nx := nx.mono (l := 4) (t := 2 * φ.η) (by omega) (by
      simp only [zero_div, zero_add, zero_mul, mul_zero, add_zero]
      have := mul_le_of_le_one_right hη (by linarith : (x 0).val ≤ 1)
      linarith)
    have nx' : Near φ 5 (2 * φ.η) (1 - 1 / (1 - x 1) * x 0 : Fl φ).val (1 - (x 0).val / (1 - (x 1).val)) (1 + (x 0).val / (1 - (x 1).val)) := by
      simpa using (hone.mono (l := 4) (by omega) (le_refl _)).sub nx
    have r0 : (x 0).val / (1 - (x 1).val) ≤ 1 := by rw [div_le_iff₀ hH]; linarith
    have hH1 : 1 - (x 1).val ≤ 1 := by linarith
    have hz1 : 1 - (x 2).val ≤ 1 := by linarith
    have w0 := prism_weight hη1 hz1 hH1 nz nc nx' (by linarith) (by omega) c0
    have w1 := prism_weight hη1 hz1 hH1 nz nc nx (by linarith) (by omega) c1
    have w3 := prism_weight hη1 hx2' hH1 nz' nc nx' (by linarith) (by omega) c3
    have w4 := prism_weight hη1 hx2' hH1 nz' nc nx (by linarith) (by omega) c4
    have w := ((((w0.add w1).add (v2.mono (l := 11) (by omega) (le_refl _))).add (w3.mono (l := 12) (by omega) (le_refl _))).add
      (w4.mono (l := 13) (by omega) (le_refl _))).add (v5.mono (l := 14) (by omega) (le_refl _))
    have e1 : ∀ ρ : ℝ, ρ * (1 - (x 1).val) * ((x 0).val / (1 - (x 1).val)) = ρ * (x 0).val := fun ρ => by field_simp
    have e2 : ∀ ρ : ℝ, ρ * (1 - (x 1).val) * (1 + (x 0).val / (1 - (x 1).val)) = ρ * (1 - (x 1).val + (x 0).val) := fun ρ => by
      rw [mul_add, e1]; ring
    have e3 : ∀ ρ : ℝ, ρ * (1 - (x 1).val) * (1 - (x 0).val / (1 - (x 1).val)) = ρ * (1 - (x 0).val - (x 1).val) := fun ρ => by
      rw [mul_sub, e1]; ring
    rw [e1, e1, e2, e2, e3, e3] at w
    have hA : 0 ≤ 1 - (x 1).val + (x 0).val := by linarith
    have q0 := mul_le_mul_of_nonneg_left c0 (mul_nonneg hz hA)
    have q1 := mul_le_mul_of_nonneg_left c1 (mul_nonneg hz hx0)
    have q2 := mul_le_mul_of_nonneg_left c2 (mul_nonneg hz hx1)
    have q3 := mul_le_mul_of_nonneg_left c3 (mul_nonneg hx2 hA)
    have q4 := mul_le_mul_of_nonneg_left c4 (mul_nonneg hx2 hx0)
    have q5 := mul_le_mul_of_nonneg_left c5 (mul_nonneg hx2 hx1)
    have q6 := mul_le_mul_of_nonneg_right (by linarith : 1 + 2 * (x 0).val ≤ 3) hC0
    have hb := ((w.mono (t := (26 * C + 6) * φ.η) (le_refl _) (by linarith)).mono_m (n := 3 * C) (by linarith)).bound
    refine le_trans (le_of_eq ?_) hb
    congr 2
    ring
  · rw [if_neg hbr]
    rw [not_or] at hbr
    have h1 : (1 - x 1 : Fl φ).val ≤ tol.val := not_lt.1 hbr.1
    have h2 := neg_le_of_abs_le hsub
    have h5 := mul_le_mul_of_nonneg_right hu hH0
    rw [if_pos (by linarith)]
    simp only [Fl.zero_mul, Fl.zero_add, Fl.add_zero]
    have w := (v2.add v5)
    have q2 := mul_le_mul_of_nonneg_left c2 (mul_nonneg hz hx1)
    have q5 := mul_le_mul_of_nonneg_left c5 (mul_nonneg hx2 hx1)
    have q6 := mul_le_mul_of_nonneg_right (by linarith : (x 1).val ≤ 3) hC0
    have hb := ((w.mono (l := 15) (t := (26 * C + 6) * φ.η) (by omega) (by linarith)).mono_m (n := 3 * C) (by linarith)).bound
    have h4 : ∀ z a b : ℝ, |z - (a + b)| ≤ |z - b| + |a| := fun z a b => by
      have := abs_sub (z - b) a
      rwa [show z - b - a = z - (a + b) by ring] at this
    have hL : 0 ≤ 1 - (x 0).val - (x 1).val := by linarith
    have q0 := mul_le_mul_of_nonneg_left c0 (mul_nonneg hz hL)
    have q1 := mul_le_mul_of_nonneg_left c1 (mul_nonneg hz hx0)
    have q3 := mul_le_mul_of_nonneg_left c3 (mul_nonneg hx2 hL)
    have q4 := mul_le_mul_of_nonneg_left c4 (mul_nonneg hx2 hx0)
    rw [show (1 - (x 2).val) * ((1 - (x 0).val - (x 1).val) * (c 0 j).val + (x 0).val * (c 1 j).val + (x 1).val * (c 2 j).val) +
          (x 2).val * ((1 - (x 0).val - (x 1).val) * (c 3 j).val + (x 0).val * (c 4 j).val + (x 1).val * (c 5 j).val) =
        ((1 - (x 2).val) * (1 - (x 0).val - (x 1).val) * (c 0 j).val + (1 - (x 2).val) * (x 0).val * (c 1 j).val +
          (x 2).val * (1 - (x 0).val - (x 1).val) * (c 3 j).val + (x 2).val * (x 0).val * (c 4 j).val) +
        ((1 - (x 2).val) * (x 1).val * (c 2 j).val + (x 2).val * (x 1).val * (c 5 j).val) by ring]
    refine (h4 _ _ _).trans (add_le_add hb ?_)
    refine (abs_add_le _ _).trans ?_
    have t3 := abs_add_three ((1 - (x 2).val) * (1 - (x 0).val - (x 1).val) * (c 0 j).val) ((1 - (x 2).val) * (x 0).val * (c 1 j).val)
      ((x 2).val * (1 - (x 0).val - (x 1).val) * (c 3 j).val)
    have za : ∀ w v : ℝ, 0 ≤ w → |w * v| = w * |v| := fun w v hw => by rw [abs_mul, abs_of_nonneg hw]
    rw [za _ _ (mul_nonneg hz hL), za _ _ (mul_nonneg hz hx0), za _ _ (mul_nonneg hx2 hL)] at t3
    rw [za _ _ (mul_nonneg hx2 hx0)]
    linarith

/-- a prism in `double` with the default tolerance and coordinates up to 100: the error is below 2e-12 everywhere -/
example (c : Nat → Nat → Fl double) (y₀ x : Nat → Fl double) (hx0 : 0 ≤ (x 0).val) (hx1 : 0 ≤ (x 1).val)
    (hx : (x 0).val + (x 1).val ≤ 1) (hx2 : 0 ≤ (x 2).val) (hx2' : (x 2).val ≤ 1) (j : Nat) (hC : ∀ k, k < 6 → |(c k j).val| ≤ 100) :
    |((prismN 3 c defaultTol).global y₀ x j).val -
        ((1 - (x 2).val) * ((1 - (x 0).val - (x 1).val) * (c 0 j).val + (x 0).val * (c 1 j).val + (x 1).val * (c 2 j).val) +
          (x 2).val * ((1 - (x 0).val - (x 1).val) * (c 3 j).val + (x 0).val * (c 4 j).val + (x 1).val * (c 5 j).val))| ≤
      2 / 10 ^ 12 := by
  have hu : double.u = 2 ^ (-(53:ℤ)) := rfl
  have hη : double.η = 2 ^ (-1074 : ℤ) / 2 := rfl
  have htol : defaultTol.val = 2 ^ (-48 : ℤ) := rfl
  have hη' : double.η ≤ 2 ^ (-200 : ℤ) := by
    rw [hη]
    have h1 : (2:ℝ) ^ (-1074 : ℤ) ≤ 2 ^ (-200 : ℤ) := zpow_le_zpow_right₀ (by norm_num) (by norm_num)
    exact (half_le_self (two_zpow_pos _).le).trans h1
  have hη0 := double.η_nonneg
  have h1 := C79_prism (φ := double) (by rw [hu]; norm_num) (hη'.trans (by norm_num)) 3 c defaultTol
    (by rw [htol]; positivity) y₀ x hx0 hx1 hx hx2 hx2' j 100 hC
  have h2 : (if 1 - (x 1).val ≤ 2 * defaultTol.val then (1 - (x 1).val) * (100 : ℝ) else 0) ≤ 2 * 2 ^ (-48 : ℤ) * 100 := by
    rw [htol]; split_ifs with h3
    · exact mul_le_mul_of_nonneg_right h3 (by norm_num)
    · positivity
  refine (h1.trans (add_le_add (le_refl _) h2)).trans ?_
  rw [hu]
  norm_num at hη' ⊢
  nlinarith

end Verif.Float
