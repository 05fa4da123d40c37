import Verif.Float.TriangleProps

/-!
C79 for tetrahedra given as multilinear geometries. The code divides twice; the second divisor `1 - x₁ / (1 - x₂)` has a large relative
error near the edge where it vanishes, but this error cancels in the weights of the corners.
-/

namespace Verif.Float

open Verif.Typ

variable {φ : Format}

section

variable {K : Type} [Zero K] [One K] [Add K] [Sub K] [Mul K] [Div K] [Neg K] [LT K] [DecidableLT K]

/-- the tetrahedron in `n` dimensions with the given corners (multilineargeometry.hh:476-477, the members) -/
def tetrahedronN (n : Nat) (c : Nat → Nat → K) (tol : K) : MultiLinearGeometry K := ⟨3, n, 0, c, tol⟩

/-- what `global` (multilineargeometry.hh:746-775) computes for the face opposite to the apex -/
def faceN (c : Nat → Nat → K) (tol df rf : K) (x : Nat → K) (i : Nat) : K :=
  (if 1 - df * x 1 > tol ∨ 1 - df * x 1 < -tol then
    rf * (1 - df * x 1) * (1 - df / (1 - df * x 1) * x 0) * c 0 i + rf * (1 - df * x 1) * (df / (1 - df * x 1) * x 0) * c 1 i
  else 0 * (1 - df * x 0) * c 0 i + 0 * (df * x 0) * c 1 i) + rf * (df * x 1) * c 2 i

theorem tetrahedronN_global (n : Nat) (c : Nat → Nat → K) (tol : K) (y x : Nat → K) (i : Nat) :
    (tetrahedronN n c tol).global y x i = (if 1 - 1 * x 2 > tol ∨ 1 - 1 * x 2 < -tol then
      faceN c tol (1 / (1 - 1 * x 2)) (1 * (1 - 1 * x 2)) x i else faceN c tol 1 0 x i) + 1 * (1 * x 2) * c 3 i := by
  have h0 : implIsPrism 0 3 0 = false := by decide
  have h1 : implIsPrism 0 3 1 = false := by decide
  have h2 : implIsPrism 0 3 2 = true := by decide
  simp only [tetrahedronN, faceN, MultiLinearGeometry.global, MultiLinearGeometry.globalS, Nat.zero_add, Nat.reduceAdd, Nat.reduceSub, h0, h1,
    h2, if_true, Bool.false_eq_true, if_false]
  split_ifs <;> rfl

end

theorem faceN_zero (c : Nat → Nat → Fl φ) (tol df : Fl φ) (x : Nat → Fl φ) (i : Nat) : faceN c tol df 0 x i = 0 := by
  simp only [faceN, Fl.zero_mul, Fl.add_zero, ite_self]

/-- error of the second divisor -/
theorem pow5_le {u η : ℝ} (hu0 : 0 ≤ u) (hu : u ≤ 1 / 100) (hη0 : 0 ≤ η) (hη : η ≤ u) :
    ((1 + u) ^ 5 - 1) * 2 + (1 + u) ^ 5 * (2 * η) ≤ 16 * u := by
  have h1 : (1 + u) ^ 5 ≤ 1 + 6 * u := by
    have h2 : u ^ 2 ≤ u / 100 := by nlinarith
    have h3 : u ^ 3 ≤ u / 100 := by nlinarith
    have h4 : u ^ 4 ≤ u / 100 := by nlinarith
    have h5 : u ^ 5 ≤ u / 100 := by nlinarith
    have : (1 + u) ^ 5 = 1 + 5 * u + 10 * u ^ 2 + 10 * u ^ 3 + 5 * u ^ 4 + u ^ 5 := by ring
    linarith
  have h6 := mul_le_mul h1 hη hη0 (by linarith)
  nlinarith

/-- two divisions: the weights of the corners of the base -/
theorem face_near (hu : φ.u ≤ 1 / 100) (hηu : φ.η ≤ φ.u) (c : Nat → Nat → Fl φ) (tol : Fl φ) (ht : 16 * φ.u ≤ tol.val) (x : Nat → Fl φ)
    (hx0 : 0 ≤ (x 0).val) (hx1 : 0 ≤ (x 1).val) (H : ℝ) (hH : 0 < H) (hH1 : H ≤ 1) (hx : (x 0).val + (x 1).val ≤ H)
    (cx df : Fl φ) (nc : Near φ 1 0 cx.val H H) (nd : Near φ 3 φ.η df.val (1 / H) (1 / H)) (j : Nat) (C : ℝ)
    (hC : ∀ k, k < 4 → |(c k j).val| ≤ C) :
    (∃ b m s, Near φ 14 s (faceN c tol df cx x j).val b m ∧ m ≤ (2 * H + 2 * (x 0).val + (x 1).val) * C ∧ s ≤ (36 * C + 3) * φ.η ∧
      |b - ((H - (x 0).val - (x 1).val) * (c 0 j).val + (x 0).val * (c 1 j).val + (x 1).val * (c 2 j).val)| ≤ 16 * φ.u * C) ∨
    (H - (x 1).val ≤ 2 * tol.val ∧ ∃ s, s ≤ (36 * C + 3) * φ.η ∧ Near φ 14 s (faceN c tol df cx x j).val ((x 1).val * (c 2 j).val) C) := by
  have hη := φ.η_nonneg
  have hu0 := φ.u_nonneg
  have hC0 : 0 ≤ C := (abs_nonneg _).trans (hC 0 (by omega))
  have c0 := hC 0 (by omega)
  have c1 := hC 1 (by omega)
  have c2 := hC 2 (by omega)
  have hone : Near φ 0 0 (1 : Fl φ).val 1 1 := by have := Near.exact (φ := φ) (1 : Fl φ).val; rwa [Fl.one_val, abs_one] at this
  have ex0 : Near φ 0 0 (x 0).val (x 0).val (x 0).val := by
    have := Near.exact (φ := φ) (x 0).val; rwa [abs_of_nonneg hx0] at this
  have ex1 : Near φ 0 0 (x 1).val (x 1).val (x 1).val := by
    have := Near.exact (φ := φ) (x 1).val; rwa [abs_of_nonneg hx1] at this
  have n1 := nd.mul ex1
  have n1' := (hone.mono (l := 3 + 0 + 1) (by omega) (le_refl _)).sub n1
  have n2 := (nc.mul n1).mul (Near.exact (φ := φ) (c 2 j).val)
  have e1 : H * (1 / H * (x 1).val) = (x 1).val := by field_simp
  have hp1 : 1 / H * (x 1).val ≤ 1 := by rw [one_div, inv_mul_le_iff₀ hH, mul_one]; linarith
  have hp0 : 0 ≤ 1 / H * (x 1).val := by positivity
  rw [e1] at n2
  -- the second divisor
  have hs1 : φ.η * (x 1).val + 0 * (1 / H) + φ.η * 0 + φ.η ≤ 2 * φ.η := by
    have := mul_le_of_le_one_right hη (by linarith : (x 1).val ≤ 1); linarith
  have hE : |(1 - df * x 1 : Fl φ).val - (1 - 1 / H * (x 1).val)| ≤ 16 * φ.u := by
    have h1 := ((n1'.mono (t := 2 * φ.η) (le_refl _) (by linarith)).mono_m (n := 2) (by linarith)).bound
    exact h1.trans (pow5_le hu0 hu hη hηu)
  have hs2 : (0 * (1 / H * (x 1).val) + (φ.η * (x 1).val + 0 * (1 / H) + φ.η * 0 + φ.η) * H +
      0 * (φ.η * (x 1).val + 0 * (1 / H) + φ.η * 0 + φ.η) + φ.η) * |(c 2 j).val| + 0 * (x 1).val +
      (0 * (1 / H * (x 1).val) + (φ.η * (x 1).val + 0 * (1 / H) + φ.η * 0 + φ.η) * H +
      0 * (φ.η * (x 1).val + 0 * (1 / H) + φ.η * 0 + φ.η) + φ.η) * 0 + φ.η ≤ 3 * φ.η * C + φ.η := by
    have h1 := mul_le_mul hs1 hH1 hH.le (by linarith)
    have h2 := mul_le_mul (by linarith : 0 * (1 / H * (x 1).val) + (φ.η * (x 1).val + 0 * (1 / H) + φ.η * 0 + φ.η) * H +
      0 * (φ.η * (x 1).val + 0 * (1 / H) + φ.η * 0 + φ.η) + φ.η ≤ 3 * φ.η) c2 (abs_nonneg _) (by linarith)
    linarith
  have n2' := n2.mono (le_refl _) hs2
  clear hs2 n2
  generalize hq : (1 - df * x 1 : Fl φ) = q at *
  rw [abs_le] at hE
  have hpos : 0 ≤ 1 - 1 / H * (x 1).val := by linarith
  by_cases hbr : q > tol ∨ q < -tol
  · left
    have hqt : tol.val < q.val := by
      rcases hbr with h | h
      · exact h
      · have h2 : q.val < -tol.val := h
        linarith
    have hq0 : 0 < q.val := by linarith
    have hq2 : q.val ≤ 2 := by linarith
    -- the point relative to the computed divisor
    have hXH : (x 0).val ≤ H * (1 - 1 / H * (x 1).val) := by rw [mul_sub, e1]; linarith
    have hXq : (x 0).val ≤ H * q.val * 2 := by
      have : 1 - 1 / H * (x 1).val ≤ 2 * q.val := by linarith
      have := mul_le_mul_of_nonneg_left this hH.le
      linarith
    have nq : Near φ 0 0 q.val q.val q.val := by
      have := Near.exact (φ := φ) q.val; rwa [abs_of_pos hq0] at this
    have nd2 := nd.div (by linarith) hq0.ne' (c := q) (by rw [sub_self, abs_zero]; positivity)
    rw [abs_of_pos hq0] at nd2
    have nr2 := nc.mul nq
    have nx := nd2.mul ex0
    have e2 : 1 / H / q.val * (x 0).val = (x 0).val / (H * q.val) := by field_simp
    have hr : (x 0).val / (H * q.val) ≤ 2 := by rw [div_le_iff₀ (by positivity)]; linarith
    have hr0 : 0 ≤ (x 0).val / (H * q.val) := by positivity
    have e3 : H * q.val * ((x 0).val / (H * q.val)) = (x 0).val := by field_simp
    have hX1 : (x 0).val ≤ 1 := by linarith
    have hXdq : (x 0).val / q.val ≤ 2 := by
      rw [div_le_iff₀ hq0]
      have := mul_le_mul_of_nonneg_right hH1 hq0.le
      linarith
    have hsx : (φ.η / q.val + φ.η) * (x 0).val + 0 * (1 / H / q.val) + (φ.η / q.val + φ.η) * 0 + φ.η ≤ 4 * φ.η := by
      have h1 : φ.η / q.val * (x 0).val = φ.η * ((x 0).val / q.val) := by ring
      have h2 := mul_le_mul_of_nonneg_left hXdq hη
      have h3 := mul_le_of_le_one_right hη hX1
      linarith
    rw [e2] at nx
    have nx := nx.mono (le_refl _) hsx
    have nr2 := nr2.mono (le_refl _) (by linarith : 0 * q.val + 0 * H + 0 * 0 + φ.η ≤ φ.η)
    have nx' := (hone.mono (l := 3 + 3 + 0 + 1) (by omega) (le_refl _)).sub nx
    have w0 := nr2.mul nx'
    have w1 := nr2.mul nx
    have hHq : H * q.val ≤ 2 := by have := mul_le_mul hH1 hq2 hq0.le zero_le_one; linarith
    have hHq0 : 0 < H * q.val := by positivity
    have hηη : φ.η * (4 * φ.η) ≤ φ.η := mul_le_of_le_one_right hη (by linarith)
    have s0 : φ.η * (1 + (x 0).val / (H * q.val)) + (0 + 4 * φ.η) * (H * q.val) + φ.η * (0 + 4 * φ.η) + φ.η ≤ 16 * φ.η := by
      have h1 := mul_le_mul_of_nonneg_left hr hη
      have h2 := mul_le_mul_of_nonneg_left hHq hη
      linarith
    have s1 : φ.η * ((x 0).val / (H * q.val)) + (4 * φ.η) * (H * q.val) + φ.η * (4 * φ.η) + φ.η ≤ 16 * φ.η := by
      have h1 := mul_le_mul_of_nonneg_left hr hη
      have h2 := mul_le_mul_of_nonneg_left hHq hη
      linarith
    have w0 := (w0.mono (le_refl _) s0).mul (Near.exact (φ := φ) (c 0 j).val)
    have w1 := (w1.mono (le_refl _) s1).mul (Near.exact (φ := φ) (c 1 j).val)
    rw [mul_add, mul_sub, e3, mul_one] at w0
    rw [e3] at w1
    have w := (w0.add (w1.mono (l := 12) (by omega) (le_refl _))).add (n2'.mono (l := 13) (by omega) (le_refl _))
    rw [faceN, hq, if_pos hbr]
    refine ⟨_, _, _, w, ?_, ?_, ?_⟩
    · have a0 := mul_le_mul_of_nonneg_left c0 (by linarith : 0 ≤ H * q.val + (x 0).val)
      have a1 := mul_le_mul_of_nonneg_left c1 hx0
      have a2 := mul_le_mul_of_nonneg_left c2 hx1
      have a3 := mul_le_mul_of_nonneg_right (mul_le_mul_of_nonneg_left hq2 hH.le) hC0
      linarith
    · have a0 := mul_le_mul_of_nonneg_left c0 (by linarith : 0 ≤ 16 * φ.η)
      have a1 := mul_le_mul_of_nonneg_left c1 (by linarith : 0 ≤ 16 * φ.η)
      have a2 := mul_nonneg hC0 hη
      linarith
    · have h1 : (H * q.val - (x 0).val) * (c 0 j).val + (x 0).val * (c 1 j).val + (x 1).val * (c 2 j).val -
          ((H - (x 0).val - (x 1).val) * (c 0 j).val + (x 0).val * (c 1 j).val + (x 1).val * (c 2 j).val) =
          H * (q.val - (1 - 1 / H * (x 1).val)) * (c 0 j).val := by
        rw [mul_sub H, mul_sub H 1, e1]; ring
      rw [h1, abs_mul]
      refine mul_le_mul ?_ c0 (abs_nonneg _) (by linarith)
      rw [abs_mul, abs_of_pos hH]
      have h2 : |q.val - (1 - 1 / H * (x 1).val)| ≤ 16 * φ.u := abs_le.2 hE
      have := mul_le_mul hH1 h2 (abs_nonneg _) zero_le_one
      linarith
  · right
    have h1 : q.val ≤ tol.val := by rw [not_or] at hbr; exact not_lt.1 hbr.1
    refine ⟨?_, 3 * φ.η * C + φ.η, ?_, ?_⟩
    · have h2 : 1 - 1 / H * (x 1).val ≤ 2 * tol.val := by linarith
      have h3 := mul_le_mul hH1 h2 hpos zero_le_one
      rw [mul_sub, e1] at h3
      linarith
    · have := mul_nonneg hC0 hη
      linarith
    · rw [faceN, hq, if_neg hbr]
      simp only [Fl.zero_mul, Fl.zero_add]
      exact (n2'.mono (l := 14) (by omega) (le_refl _)).mono_m ((mul_le_of_le_one_left (abs_nonneg _) (by linarith)).trans c2)

/-- C79: error of `MultiLinearGeometry::global` on tetrahedra, for points of the element; `C` bounds the coordinates of the corners. The
result is compared with the affine combination of the corners. Within twice the tolerance of the edge opposite to the first two corners
these may be left out. -/
theorem C79_tetrahedron (hu : φ.u ≤ 1 / 100) (hηu : φ.η ≤ φ.u) (n : Nat) (c : Nat → Nat → Fl φ) (tol : Fl φ) (ht : 16 * φ.u ≤ tol.val)
    (y₀ x : Nat → Fl φ) (hx0 : 0 ≤ (x 0).val) (hx1 : 0 ≤ (x 1).val) (hx2 : 0 ≤ (x 2).val)
    (hx : (x 0).val + (x 1).val + (x 2).val ≤ 1) (j : Nat) (C : ℝ) (hC : ∀ k, k < 4 → |(c k j).val| ≤ C) :
    |((tetrahedronN n c tol).global y₀ x j).val -
        ((1 - (x 0).val - (x 1).val - (x 2).val) * (c 0 j).val + (x 0).val * (c 1 j).val + (x 1).val * (c 2 j).val +
          (x 2).val * (c 3 j).val)| ≤
      ((1 + φ.u) ^ 15 - 1) * (4 * C) + (1 + φ.u) ^ 15 * ((36 * C + 4) * φ.η) + 16 * φ.u * C +
        (if 1 - (x 1).val - (x 2).val ≤ 2 * tol.val then 2 * tol.val * C else 0) := by
  have hη := φ.η_nonneg
  have hu0 := φ.u_nonneg
  have hC0 : 0 ≤ C := (abs_nonneg _).trans (hC 0 (by omega))
  have c0 := hC 0 (by omega)
  have c1 := hC 1 (by omega)
  have c2 := hC 2 (by omega)
  have c3 := hC 3 (by omega)
  have ht0 : 0 ≤ tol.val := by linarith
  have hp := Near.one_le_pow φ 15
  have hH0 : 0 ≤ 1 - (x 2).val := by linarith
  have hsub := Fl.sub_err (1 : Fl φ) (x 2)
  rw [Fl.one_val, abs_of_nonneg hH0] at hsub
  have hif : 0 ≤ (if 1 - (x 1).val - (x 2).val ≤ 2 * tol.val then 2 * tol.val * C else 0) := by split_ifs <;> positivity
  have huC : 0 ≤ 16 * φ.u * C := by positivity
  have hηC : 0 ≤ C * φ.η := by positivity
  have ex2 : Near φ 0 0 (x 2).val (x 2).val (x 2).val := by
    have := Near.exact (φ := φ) (x 2).val; rwa [abs_of_nonneg hx2] at this
  have n3 := (ex2.mul (Near.exact (φ := φ) (c 3 j).val)).mono (t := φ.η) (le_refl _) (by simp)
  have hx2C := mul_le_mul_of_nonneg_left c3 hx2
  have h4 : ∀ z a b : ℝ, |z - (a + b)| ≤ |z - b| + |a| := fun z a b => by
    have := abs_sub (z - b) a
    rwa [show z - b - a = z - (a + b) by ring] at this
  have hcomb : ∀ w0 w1 w2 : ℝ, 0 ≤ w0 → 0 ≤ w1 → 0 ≤ w2 →
      |w0 * (c 0 j).val + w1 * (c 1 j).val + w2 * (c 2 j).val| ≤ (w0 + w1 + w2) * C := by
    intro w0 w1 w2 h0 h1 h2
    refine (abs_add_three _ _ _).trans ?_
    rw [abs_mul, abs_mul, abs_mul, abs_of_nonneg h0, abs_of_nonneg h1, abs_of_nonneg h2]
    have a0 := mul_le_mul_of_nonneg_left c0 h0
    have a1 := mul_le_mul_of_nonneg_left c1 h1
    have a2 := mul_le_mul_of_nonneg_left c2 h2
    linarith
  have fin : ∀ z b m s e : ℝ, Near φ 15 s z b m → m ≤ 4 * C → s ≤ (36 * C + 4) * φ.η → ∀ b', |b - b'| ≤ e →
      |z - b'| ≤ ((1 + φ.u) ^ 15 - 1) * (4 * C) + (1 + φ.u) ^ 15 * ((36 * C + 4) * φ.η) + e := by
    intro z b m s e h1 h2 h3 b' h5
    have := ((h1.mono (le_refl _) h3).mono_m h2).bound
    exact (abs_sub_le _ b _).trans (add_le_add this h5)
  rw [tetrahedronN_global]
  simp only [Fl.one_mul]
  by_cases hbr : 1 - x 2 > tol ∨ 1 - x 2 < -tol
  · rw [if_pos hbr]
    have hH : 0 < 1 - (x 2).val := by
      refine lt_of_le_of_ne hH0 fun h0 => ?_
      rw [← h0, mul_zero, sub_zero] at hsub
      have h1 : (1 - x 2 : Fl φ).val = 0 := abs_eq_zero.1 (le_antisymm hsub (abs_nonneg _))
      rcases hbr with h | h
      · have h2 : tol.val < (1 - x 2 : Fl φ).val := h
        linarith
      · have h2 : (1 - x 2 : Fl φ).val < -tol.val := h
        linarith
    have hone : Near φ 0 0 (1 : Fl φ).val 1 1 := by have := Near.exact (φ := φ) (1 : Fl φ).val; rwa [Fl.one_val, abs_one] at this
    have nc : Near φ 1 0 (1 - x 2 : Fl φ).val (1 - (x 2).val) (1 - (x 2).val) := by
      have := Near.sub_exact (1 : Fl φ) (x 2); rwa [Fl.one_val, abs_of_pos hH] at this
    have nd := hone.div (by linarith) hH.ne' (c := 1 - x 2) (by rw [abs_of_pos hH]; exact hsub)
    rw [abs_of_pos hH] at nd
    rcases face_near hu hηu c tol ht x hx0 hx1 _ hH (by linarith) (by linarith) _ _ nc (nd.mono (le_refl _) (by simp)) j C hC with
      ⟨b, m, s, hn, hm, hs, hb⟩ | ⟨hnear, s, hs, hn⟩
    · have hsum := hn.add (n3.mono (l := 14) (by omega) (le_refl _))
      refine (fin _ _ _ _ (16 * φ.u * C) hsum ?_ (by linarith) _ ?_).trans (by linarith)
      · have := mul_le_mul_of_nonneg_right
          (by linarith : 2 * (1 - (x 2).val) + 2 * (x 0).val + (x 1).val + (x 2).val ≤ 4) hC0
        linarith
      · refine le_trans (le_of_eq ?_) hb
        congr 1
        ring
    · have hsum := hn.add (n3.mono (l := 14) (by omega) (le_refl _))
      rw [if_pos (by linarith)]
      have hx2C' := mul_le_of_le_one_left hC0 (by linarith : (x 2).val ≤ 1)
      refine (fin _ _ _ _ (2 * tol.val * C) hsum (by linarith) (by linarith) _ ?_).trans (by linarith)
      have h5 := hcomb (1 - (x 0).val - (x 1).val - (x 2).val) (x 0).val 0 (by linarith) hx0 (le_refl _)
      have h6 := mul_le_mul_of_nonneg_right hnear hC0
      rw [abs_sub_comm]
      refine le_trans (le_of_eq ?_) (h5.trans (by linarith))
      congr 1
      ring
  · rw [if_neg hbr, faceN_zero, Fl.zero_add]
    rw [not_or] at hbr
    have h1 : (1 - x 2 : Fl φ).val ≤ tol.val := not_lt.1 hbr.1
    have h2 := neg_le_of_abs_le hsub
    have h5 := mul_le_mul_of_nonneg_right (by linarith : φ.u ≤ 1 / 2) hH0
    have hnear : 1 - (x 2).val ≤ 2 * tol.val := by linarith
    rw [if_pos (by linarith)]
    have hx2C' := mul_le_of_le_one_left hC0 (by linarith : (x 2).val ≤ 1)
    refine (fin _ _ _ _ (2 * tol.val * C) (n3.mono (l := 15) (by omega) (le_refl _)) (by linarith) (by linarith) _ ?_).trans (by linarith)
    have h6 := hcomb (1 - (x 0).val - (x 1).val - (x 2).val) (x 0).val (x 1).val (by linarith) hx0 hx1
    have h7 := mul_le_mul_of_nonneg_right hnear hC0
    rw [abs_sub_comm]
    refine le_trans (le_of_eq ?_) (h6.trans (by linarith))
    congr 1
    ring

/-- the default tolerance, `16 * epsilon` (multilineargeometry.hh:61) -/
noncomputable def defaultTol : Fl double :=
  ⟨2 ^ (-48 : ℤ), rdBinary_exact (by norm_num) (m := 1) (k := -48) (by norm_num) (by norm_num) (by norm_num)⟩

/-- a tetrahedron in `double` with the default tolerance and coordinates up to 100: the error is below 2e-12 everywhere -/
example (c : Nat → Nat → Fl double) (y₀ x : Nat → Fl double) (hx0 : 0 ≤ (x 0).val) (hx1 : 0 ≤ (x 1).val) (hx2 : 0 ≤ (x 2).val)
    (hx : (x 0).val + (x 1).val + (x 2).val ≤ 1) (j : Nat) (hC : ∀ k, k < 4 → |(c k j).val| ≤ 100) :
    |((tetrahedronN 3 c defaultTol).global y₀ x j).val -
        ((1 - (x 0).val - (x 1).val - (x 2).val) * (c 0 j).val + (x 0).val * (c 1 j).val + (x 1).val * (c 2 j).val +
          (x 2).val * (c 3 j).val)| ≤ 2 / 10 ^ 12 := by
  have hu : double.u = 2 ^ (-(53:ℤ)) := rfl
  have hη : double.η = 2 ^ (-1074 : ℤ) / 2 := rfl
  have htol : defaultTol.val = 2 ^ (-48 : ℤ) := rfl
  have hη' : double.η ≤ 2 ^ (-200 : ℤ) := by
    rw [hη]
    have h1 : (2:ℝ) ^ (-1074 : ℤ) ≤ 2 ^ (-200 : ℤ) := zpow_le_zpow_right₀ (by norm_num) (by norm_num)
    exact (half_le_self (two_zpow_pos _).le).trans h1
  have hη0 := double.η_nonneg
  have h := C79_tetrahedron (φ := double) (by rw [hu]; norm_num) (hη'.trans (by rw [hu]; norm_num)) 3 c defaultTol
    (by rw [htol, hu]; norm_num) y₀ x hx0 hx1 hx2 hx j 100 hC
  have h2 : (if 1 - (x 1).val - (x 2).val ≤ 2 * defaultTol.val then 2 * defaultTol.val * (100 : ℝ) else 0) ≤ 2 * 2 ^ (-48 : ℤ) * 100 := by
    rw [htol]; split_ifs
    · exact le_refl _
    · positivity
  refine (h.trans (add_le_add (le_refl _) h2)).trans ?_
  rw [hu]
  norm_num at hη' ⊢
  nlinarith

end Verif.Float
