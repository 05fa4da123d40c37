import Verif.Float.InversePlane
import Verif.Float.VolumeProps

/-! `local` and `global` of affine geometries in floating-point arithmetic. -/

namespace Verif.FloatInv

open Verif.Float Verif.RefGeom Verif.FloatVol Verif.FloatNewton
open Finset hiding ext

variable {φ : Format} {m n : ℕ} {R r : ℝ}

/-- linearly independent edges of bounded length, within the limits of the format: `R` bounds the lengths, `r` is a lower bound
of the singular values -/
structure Regular (φ : Format) (m n : ℕ) (R r : ℝ) (e : ℕ → ℕ → ℝ) : Prop where
  m_pos : 1 ≤ m
  mn : m ≤ n
  n_le : n ≤ 29
  u_pos : 0 < φ.u
  u_le : φ.u ≤ 1 / 2 ^ 24
  η_le : φ.η ≤ φ.u ^ 2
  R_pos : 0 < R
  r_pos : 0 < r
  low : φ.η ≤ φ.u ^ 2 * R ^ 2
  high : 2 * φ.η * R ^ 2 ≤ φ.u
  cond : 60 * m * n * φ.u * R ^ 2 ≤ r ^ 2
  row : RowsWithin m n e (R ^ 2)
  ind : IndependentBy m n e (r ^ 2)

theorem rows_perturbed {D : ℝ} {e J : ℕ → ℕ → ℝ} (hu : φ.u ≤ 1 / 1000) (hJ : ∀ k < m, ∀ c < n, |J k c - e k c| ≤ φ.u * |e k c|)
    (hrow : RowsWithin m n e (D ^ 2)) : RowsWithin m n J ((1001 / 1000 * D) ^ 2) := by
  intro k
  have hu0 := φ.u_nonneg
  have : ∀ c : Fin n, J k c ^ 2 ≤ (1001 / 1000) ^ 2 * e k c ^ 2 := fun c => by
    have h1 := hJ k k.2 c c.2
    have h2 : |J k c| ≤ 1001 / 1000 * |e k c| := by
      have := abs_add_le (J k c - e k c) (e k c)
      rw [sub_add_cancel] at this
      have := mul_le_mul_of_nonneg_right hu (abs_nonneg (e k c))
      linarith
    have := pow_le_pow_left₀ (abs_nonneg _) h2 2
    rwa [mul_pow, sq_abs, sq_abs] at this
  refine (sum_le_sum fun c _ => this c).trans ?_
  rw [← mul_sum, mul_pow]
  exact mul_le_mul_of_nonneg_left (hrow k) (by norm_num)

theorem indep_perturbed {D lam : ℝ} {e J : ℕ → ℕ → ℝ} (hJ : ∀ k < m, ∀ c < n, |J k c - e k c| ≤ φ.u * |e k c|) (hrow : RowsWithin m n e D)
    (hind : IndependentBy m n e lam) (hs : 20000 * (φ.u ^ 2 * (m * D)) ≤ lam) : IndependentBy m n J (9604 / 10000 * lam) := by
  intro w
  have hu := φ.u_nonneg
  have h1 : ∀ c : Fin n, 98 / 100 * (∑ k : Fin m, w k * e k c) ^ 2 - 49 * (φ.u ^ 2 * ((∑ k : Fin m, w k ^ 2) * ∑ k : Fin m, e k c ^ 2)) ≤
      (∑ k : Fin m, w k * J k c) ^ 2 := fun c => by
    have a1 : |∑ k : Fin m, w k * (J k c - e k c)| ≤ φ.u * ∑ k : Fin m, |w k| * |e k c| := by
      refine (abs_sum_le_sum_abs _ _).trans ?_
      rw [mul_sum]
      refine sum_le_sum fun k _ => ?_
      rw [abs_mul]
      have := mul_le_mul_of_nonneg_left (hJ k k.2 c c.2) (abs_nonneg (w k))
      linarith
    have a2 : (∑ k : Fin m, |w k| * |e k c|) ^ 2 ≤ (∑ k : Fin m, w k ^ 2) * ∑ k : Fin m, e k c ^ 2 := by
      have := sum_mul_sq_le_sq_mul_sq univ (fun k : Fin m => |w k|) fun k : Fin m => |e k c|
      simpa only [sq_abs] using this
    have a3 : (∑ k : Fin m, w k * (J k c - e k c)) ^ 2 ≤ φ.u ^ 2 * ((∑ k : Fin m, w k ^ 2) * ∑ k : Fin m, e k c ^ 2) := by
      have := pow_le_pow_left₀ (abs_nonneg _) a1 2
      rw [sq_abs, mul_pow] at this
      exact this.trans (mul_le_mul_of_nonneg_left a2 (sq_nonneg _))
    have a4 : ∑ k : Fin m, w k * J k c = (∑ k : Fin m, w k * e k c) + ∑ k : Fin m, w k * (J k c - e k c) := by
      rw [← sum_add_distrib]
      exact sum_congr rfl fun k _ => by ring
    rw [a4]
    set p := ∑ k : Fin m, w k * e k c
    set q := ∑ k : Fin m, w k * (J k c - e k c)
    nlinarith [sq_nonneg (p / 50 + q)]
  have h2 := sum_le_sum fun (c : Fin n) (_ : c ∈ univ) => h1 c
  rw [sum_sub_distrib, ← mul_sum, ← mul_sum, ← mul_sum, ← mul_sum] at h2
  have h3 : ∑ c : Fin n, ∑ k : Fin m, e k c ^ 2 ≤ m * D := by
    rw [sum_comm]
    refine (sum_le_sum fun k _ => hrow k).trans ?_
    simp
  have h4 := hind w
  have hW : 0 ≤ ∑ k : Fin m, w k ^ 2 := sum_nonneg fun _ _ => sq_nonneg _
  set W := ∑ k : Fin m, w k ^ 2
  have h5 : φ.u ^ 2 * (W * ∑ c : Fin n, ∑ k : Fin m, e k c ^ 2) ≤ φ.u ^ 2 * (W * (m * D)) :=
    mul_le_mul_of_nonneg_left (mul_le_mul_of_nonneg_left h3 hW) (sq_nonneg _)
  have h6 := mul_le_mul_of_nonneg_right hs hW
  have h7 : 0 ≤ (m:ℝ) * D := le_trans (sum_nonneg fun c _ => sum_nonneg fun k _ => sq_nonneg _) h3
  have h8 : 0 ≤ φ.u ^ 2 * (m * D) * W := by positivity
  linarith

namespace Regular

variable {e : ℕ → ℕ → ℝ}

theorem u_small (h : Regular φ m n R r e) : φ.u ≤ 1 / 1000000 := h.u_le.trans (by norm_num)

theorem consts (h : Regular φ m n R r e) : (1:ℝ) ≤ m ∧ (m:ℝ) ≤ n ∧ (n:ℝ) ≤ 29 ∧ (n:ℝ) * φ.u ≤ 1 / 500000 :=
  ⟨by exact_mod_cast h.m_pos, by exact_mod_cast h.mn, by exact_mod_cast h.n_le,
    (mul_le_mul (by exact_mod_cast h.n_le) h.u_le h.u_pos.le (by norm_num) : (n:ℝ) * φ.u ≤ 29 * (1 / 2 ^ 24)).trans (by norm_num)⟩

/-- the stored Jacobian -/
theorem good (h : Regular φ m n R r e) {J : Mat (Fl φ)} (hJ : ∀ k < m, ∀ c < n, |(J k c).val - e k c| ≤ φ.u * |e k c|) :
    Good φ m n (1001 / 1000 * R) (98 / 100 * r) (valM J) := by
  obtain ⟨hm1, hmn, hn, hnu⟩ := h.consts
  have hu := h.u_pos
  have hu2 := h.u_small
  have hη := φ.η_nonneg
  have hR := h.R_pos
  have hr := h.r_pos
  have hR2 : 0 < R ^ 2 := by positivity
  have hcond := h.cond
  have hηu : φ.η ≤ φ.u := h.η_le.trans (by nlinarith)
  refine ⟨⟨h.m_pos, h.mn, h.n_le, hu, h.u_le, hηu, ?_, ?_, by positivity, ?_⟩, by positivity, by positivity, ?_,
    rows_perturbed (by linarith) hJ h.row, ?_⟩
  · refine h.low.trans (mul_le_mul_of_nonneg_left ?_ (sq_nonneg _))
    nlinarith
  · have a1 := mul_le_mul h.η_le h.high (by positivity) (sq_nonneg _)
    have a2 : φ.u ^ 2 * φ.u ≤ φ.u ^ 2 * (1 / 1000000) := mul_le_mul_of_nonneg_left hu2 (sq_nonneg _)
    have a3 : 0 ≤ φ.u ^ 2 := sq_nonneg _
    nlinarith
  · have a1 : 0 ≤ (m:ℝ) * n * φ.u * R ^ 2 := by positivity
    nlinarith
  · have := h.high
    nlinarith
  · have := indep_perturbed hJ h.row h.ind (by
      have a1 : φ.u ^ 2 * (m * R ^ 2) ≤ φ.u * (m * n * φ.u * R ^ 2) := by
        have : 0 ≤ φ.u * (m * φ.u * R ^ 2) := by positivity
        nlinarith
      have a2 : φ.u * (m * n * φ.u * R ^ 2) ≤ 1 / 1000000 * (m * n * φ.u * R ^ 2) := mul_le_mul_of_nonneg_right hu2 (by positivity)
      have : 0 ≤ (m:ℝ) * n * φ.u * R ^ 2 := by positivity
      linarith)
    rw [mul_pow]
    norm_num at this ⊢
    exact this

theorem entry (h : Regular φ m n R r e) {k c : ℕ} (hk : k < m) (hc : c < n) : |e k c| ≤ R := by
  refine abs_le_of_sq_le_sq (le_trans ?_ (h.row ⟨k, hk⟩)) h.R_pos.le
  exact single_le_sum (f := fun c : Fin n => e k c ^ 2) (fun c _ => sq_nonneg _) (mem_univ (⟨c, hc⟩ : Fin n))

theorem rR (h : Regular φ m n R r e) : r ≤ R := by
  have h1 := h.ind (fun k => if k = ⟨0, h.m_pos⟩ then 1 else 0)
  simp only [ite_pow, one_pow, ne_eq, OfNat.ofNat_ne_zero, not_false_eq_true, zero_pow, sum_ite_eq', mem_univ, if_true, ite_mul, _root_.one_mul,
    MulZeroClass.zero_mul, _root_.mul_one] at h1
  exact (abs_le_of_sq_le_sq' (h1.trans (h.row ⟨0, h.m_pos⟩)) h.R_pos.le).2

end Regular

/-- vectors orthogonal to `n` linearly independent vectors with `n` components vanish -/
theorem orthogonal_zero {e : ℕ → ℕ → ℝ} (hr : 0 < r) (hind : IndependentBy n n e (r ^ 2)) (s : ℕ → ℝ) (hs : ∀ k < n, ∑ i ∈ range n, e k i * s i = 0) :
    ∀ i < n, s i = 0 := by
  have h1 := transpose_lower n e (s := r ^ 2) (by positivity) (fun w => by
    have := hind fun k => w k
    rw [sum_range, sum_range]
    simpa only [sum_range] using this) s
  have h0 : ∑ k ∈ range n, (∑ a ∈ range n, e k a * s a) ^ 2 = 0 := sum_eq_zero fun k hk => by rw [hs k (mem_range.1 hk)]; norm_num
  rw [h0] at h1
  have h2 : ∑ a ∈ range n, s a ^ 2 ≤ 0 := by
    by_contra hc
    push Not at hc
    have := mul_pos (by positivity : 0 < r ^ 2) hc
    linarith
  intro i hi
  have h3 := single_le_sum (f := fun a => s a ^ 2) (fun a _ => sq_nonneg _) (mem_range.2 hi)
  have h4 : s i ^ 2 = 0 := le_antisymm (h3.trans h2) (sq_nonneg _)
  simpa using h4

set_option maxHeartbeats 1000000 in
/-- `local` for the stored Jacobian -/
theorem local_err {J inv : Mat (Fl φ)} (hm : 1 ≤ m) (hmn : m ≤ n) (hn : n ≤ 29) (hu' : φ.u ≤ 1 / 2 ^ 24) (hr : 0 < r) (hrR : r ≤ R)
    (hinv : Inverts m n R r J inv) (hJ : ∀ k < m, ∀ i < n, |(J k i).val| ≤ R) (o y : ℕ → Fl φ) (x s ρ : ℕ → ℝ) {τ : ℝ}
    (hy : ∀ i < n, (y i).val - (o i).val = (∑ k ∈ range m, (J k i).val * x k) + s i + ρ i)
    (hs : ∀ k < m, |∑ i ∈ range n, (J k i).val * s i| ≤ τ) (hs0 : m = n → ∀ i < n, s i = 0) {j : ℕ} (hj : j < m) :
    |(addLoop 0 0 n fun i => inv i j * (y i - o i)).val - x j| ≤ 80 * n ^ 4 * φ.u * (R / r) ^ 3 * norm1 m x + 242 / 100 * m * (R / r ^ 2) * norm1 n ρ +
      19 * n ^ 2 * φ.u * (R / r ^ 2) * norm1 n s + m * (9 / 4 / r ^ 2) * τ + 2 * n * φ.η := by
  have hR : 0 < R := lt_of_lt_of_le hr hrR
  have hu := φ.u_nonneg
  have hη := φ.η_nonneg
  have hκ : 1 ≤ R / r := (one_le_div hr).2 hrR
  have hm1 : (1:ℝ) ≤ m := by exact_mod_cast hm
  have hmn' : (m:ℝ) ≤ n := by exact_mod_cast hmn
  have hn' : (n:ℝ) ≤ 29 := by exact_mod_cast hn
  have hn1 : (1:ℝ) ≤ n := hm1.trans hmn'
  have hnu : (n:ℝ) * φ.u ≤ 1 / 500000 := (mul_le_mul hn' hu' hu (by norm_num)).trans (by norm_num)
  have hu2 : φ.u ≤ 1 / 1000000 := hu'.trans (by norm_num)
  have hτ : 0 ≤ τ := (abs_nonneg _).trans (hs 0 hm)
  set P := R / r ^ 2 with hP
  have hP0 : 0 ≤ P := by positivity
  set N := norm1 m x with hN
  set S := norm1 n s with hS
  set Q := norm1 n ρ with hQ
  have hN0 : 0 ≤ N := norm1_nonneg _ _
  have hS0 : 0 ≤ S := norm1_nonneg _ _
  have hQ0 : 0 ≤ Q := norm1_nonneg _ _
  set d : ℕ → ℝ := fun i => ∑ k ∈ range m, (J k i).val * x k with hd
  set w : ℕ → ℝ := fun i => (y i).val - (o i).val with hw
  have hdR : ∀ i < n, |d i| ≤ R * N := fun i hi => abs_sum_mul_le (range m) (fun k => (J k i).val) x hR.le fun k hk => hJ k (mem_range.1 hk) i hi
  have hd1 : norm1 n d ≤ n * (R * N) := norm1_le hdR
  set W := norm1 n w with hW
  have hW0 : 0 ≤ W := norm1_nonneg _ _
  have hW1 : W ≤ n * (R * N) + S + Q := by
    have : W ≤ norm1 n d + S + Q := by
      rw [hW, hS, hQ, norm1, norm1, norm1, norm1, ← sum_add_distrib, ← sum_add_distrib]
      refine sum_le_sum fun i hi => ?_
      have := hy i (mem_range.1 hi)
      change |(y i).val - (o i).val| ≤ _
      rw [this]
      exact (abs_add_le _ _).trans (add_le_add_left (abs_add_le _ _) _)
    linarith
  set B := 24 / 10 * m * P with hB
  have hB0 : 0 ≤ B := by positivity
  have hinvB : ∀ i ∈ range n, |(inv i j).val| ≤ B := fun i hi => hinv.size i (mem_range.1 hi) j hj
  -- the loop
  have h1 := addLoop_near (0 : Fl φ) (fun i => inv i j) (fun i => y i - o i) le_rfl ((Near.exact (φ := φ) 0).mono (l := 1) (by omega) (le_refl _)) n 0
  simp only [_root_.zero_add, abs_zero] at h1
  have h2 := h1.bound
  have h3 := pow_sub_one_le hu hu' (1 + n) (n + 1) (by omega) (by omega)
  set G := (1 + φ.u) ^ (1 + n)
  have hG1 : 0 ≤ G - 1 := by linarith [Near.one_le_pow φ (1 + n)]
  push_cast at h3
  have hG2 : G ≤ 101 / 100 := by linarith
  have hdiff : ∀ i, |(y i - o i).val - w i| ≤ φ.u * |w i| := fun i => Fl.sub_err _ _
  have hdiff2 : ∀ i, |(y i - o i).val| ≤ 101 / 100 * |w i| := fun i => by
    have a1 := abs_add_le ((y i - o i).val - w i) (w i)
    rw [sub_add_cancel] at a1
    have a2 := mul_le_mul_of_nonneg_right hu2 (abs_nonneg (w i))
    linarith [hdiff i, abs_nonneg (w i)]
  have h4 : ∑ i ∈ range n, |(inv i j).val| * |(y i - o i).val| ≤ B * (101 / 100 * W) := by
    refine (sum_mul_le (range n) (fun i => (inv i j).val) (fun i => (y i - o i).val) hB0 hinvB).trans (mul_le_mul_of_nonneg_left ?_ hB0)
    rw [hW, norm1, mul_sum]
    exact sum_le_sum fun i _ => hdiff2 i
  have h5 : |∑ i ∈ range n, (inv i j).val * ((y i - o i).val - w i)| ≤ B * (φ.u * W) := by
    refine (abs_sum_mul_le (range n) (fun i => (inv i j).val) (fun i => (y i - o i).val - w i) hB0 hinvB).trans (mul_le_mul_of_nonneg_left ?_ hB0)
    rw [hW, norm1, mul_sum]
    exact sum_le_sum fun i _ => hdiff i
  have h6 : |∑ i ∈ range n, (inv i j).val * d i - x j| ≤ 72 * n ^ 4 * φ.u * (R / r) ^ 3 * N := hinv.left x j hj
  have h7 : |∑ i ∈ range n, (inv i j).val * ρ i| ≤ B * Q := abs_sum_mul_le (range n) (fun i => (inv i j).val) ρ hB0 hinvB
  have h8 : |∑ i ∈ range n, (inv i j).val * s i| ≤ 113 / 10 * m ^ 2 * φ.u * P * S + m * (9 / 4 / r ^ 2) * τ := by
    rcases hmn.lt_or_eq with hlt | heq
    · obtain ⟨b, hb1, hb2⟩ := hinv.span hlt
      have e1 : ∑ i ∈ range n, (inv i j).val * s i = ∑ i ∈ range n, ((inv i j).val - ∑ k ∈ range m, (J k i).val * b k j) * s i +
          ∑ k ∈ range m, b k j * ∑ i ∈ range n, (J k i).val * s i := by
        have : ∑ k ∈ range m, b k j * ∑ i ∈ range n, (J k i).val * s i = ∑ i ∈ range n, (∑ k ∈ range m, (J k i).val * b k j) * s i := by
          simp only [mul_sum, sum_mul]
          rw [sum_comm]
          exact sum_congr rfl fun _ _ => sum_congr rfl fun _ _ => by ring
        rw [this, ← sum_add_distrib]
        exact sum_congr rfl fun _ _ => by ring
      rw [e1]
      refine (abs_add_le _ _).trans (add_le_add ?_ ?_)
      · exact abs_sum_mul_le (range n) _ s (by positivity) fun i hi => hb2 i (mem_range.1 hi) j hj
      · refine (abs_sum_le_sum_abs _ _).trans ?_
        have := sum_le_sum fun k (hk : k ∈ range m) => show |b k j * ∑ i ∈ range n, (J k i).val * s i| ≤ 9 / 4 / r ^ 2 * τ by
          rw [abs_mul]
          exact mul_le_mul (hb1 k (mem_range.1 hk) j hj) (hs k (mem_range.1 hk)) (abs_nonneg _) (by positivity)
        rw [sum_const, card_range, nsmul_eq_mul] at this
        linarith
    · rw [sum_eq_zero fun i hi => by rw [hs0 heq i (mem_range.1 hi), MulZeroClass.mul_zero], abs_zero]
      positivity
  -- together
  set z := (addLoop 0 0 n fun i => inv i j * (y i - o i)).val with hz
  have e1 : z - x j = (z - ∑ i ∈ range n, (inv i j).val * (y i - o i).val) + ∑ i ∈ range n, (inv i j).val * ((y i - o i).val - w i) +
      (∑ i ∈ range n, (inv i j).val * d i - x j) + ∑ i ∈ range n, (inv i j).val * s i + ∑ i ∈ range n, (inv i j).val * ρ i := by
    have : ∑ i ∈ range n, (inv i j).val * w i = ∑ i ∈ range n, (inv i j).val * d i + ∑ i ∈ range n, (inv i j).val * s i + ∑ i ∈ range n, (inv i j).val * ρ i := by
      rw [← sum_add_distrib, ← sum_add_distrib]
      refine sum_congr rfl fun i hi => ?_
      have := hy i (mem_range.1 hi)
      change (inv i j).val * ((y i).val - (o i).val) = _
      rw [this]
      ring
    simp only [mul_sub, sum_sub_distrib]
    linarith
  have h9 : |z - x j| ≤ |z - ∑ i ∈ range n, (inv i j).val * (y i - o i).val| + |∑ i ∈ range n, (inv i j).val * ((y i - o i).val - w i)| +
      |∑ i ∈ range n, (inv i j).val * d i - x j| + |∑ i ∈ range n, (inv i j).val * s i| + |∑ i ∈ range n, (inv i j).val * ρ i| := by
    rw [e1]
    refine (abs_add_le _ _).trans (add_le_add_left ?_ _)
    refine (abs_add_le _ _).trans (add_le_add_left ?_ _)
    refine (abs_add_le _ _).trans (add_le_add_left ?_ _)
    exact abs_add_le _ _
  have h10 : |z - ∑ i ∈ range n, (inv i j).val * (y i - o i).val| ≤ 203 / 100 * (n * φ.u) * (B * W) + 101 / 100 * (n * φ.η) := by
    refine le_trans h2 (add_le_add ?_ (mul_le_mul_of_nonneg_right hG2 (by positivity)))
    have a1 : G - 1 ≤ 2002 / 1000 * (n * φ.u) := by
      have : φ.u ≤ n * φ.u := le_mul_of_one_le_left hu hn1
      linarith
    refine (mul_le_mul a1 h4 (sum_nonneg fun i _ => by positivity) (by positivity)).trans ?_
    have : 0 ≤ n * φ.u * (B * W) := by positivity
    linarith
  refine h9.trans ?_
  -- collect
  have hBW : 0 ≤ φ.u * (B * W) := by positivity
  have c1 : 203 / 100 * (n * φ.u) * (B * W) + B * (φ.u * W) ≤ 303 / 100 * n * (φ.u * (B * W)) := by
    have := mul_le_mul_of_nonneg_right hn1 hBW
    linarith
  have c2 : 303 / 100 * n * (φ.u * (B * W)) ≤ 303 / 100 * n * (φ.u * (B * (n * (R * N) + S + Q))) := by gcongr
  have c3 : 303 / 100 * n * (φ.u * (B * (n * (R * N) + S + Q))) =
      7272 / 1000 * (m * n * n * (P * R)) * (φ.u * N) + 7272 / 1000 * (m * n) * (φ.u * P * S) + 303 / 100 * (n * φ.u) * (B * Q) := by rw [hB]; ring
  have c4 : P * R = (R / r) ^ 2 := by rw [hP]; field_simp
  have c5 : (m:ℝ) * n * n * (P * R) ≤ n ^ 4 * (R / r) ^ 3 := by
    rw [c4]
    refine mul_le_mul ?_ (pow_le_pow_right₀ hκ (by norm_num)) (by positivity) (by positivity)
    have b1 : (m:ℝ) * n * n ≤ n * n * n := by gcongr
    have b2 : (n:ℝ) ^ 3 ≤ n ^ 4 := pow_le_pow_right₀ hn1 (by norm_num)
    linarith
  have c6 := mul_le_mul_of_nonneg_right c5 (by positivity : 0 ≤ φ.u * N)
  have c7 : (m:ℝ) * n * (φ.u * P * S) ≤ n ^ 2 * (φ.u * P * S) := mul_le_mul_of_nonneg_right (by nlinarith) (by positivity)
  have c8 : (m:ℝ) ^ 2 * (φ.u * P * S) ≤ n ^ 2 * (φ.u * P * S) := mul_le_mul_of_nonneg_right (pow_le_pow_left₀ (by linarith) hmn' 2) (by positivity)
  have c9 : 303 / 100 * (n * φ.u) * (B * Q) ≤ 1 / 1000 * (B * Q) := mul_le_mul_of_nonneg_right (by linarith) (by positivity)
  have hBQ : B * Q = 24 / 10 * (m * P * Q) := by rw [hB]; ring
  have hmPQ : 0 ≤ m * P * Q := by positivity
  have hnη : 0 ≤ n * φ.η := by positivity
  have hNN : 0 ≤ n ^ 4 * (R / r) ^ 3 * (φ.u * N) := by positivity
  have hSS : 0 ≤ n ^ 2 * (φ.u * P * S) := by positivity
  have t1 : 80 * n ^ 4 * φ.u * (R / r) ^ 3 * N = 80 * (n ^ 4 * (R / r) ^ 3 * (φ.u * N)) := by ring
  have t2 : 242 / 100 * m * P * Q = 242 / 100 * (m * P * Q) := by ring
  have t3 : 19 * n ^ 2 * φ.u * P * S = 19 * (n ^ 2 * (φ.u * P * S)) := by ring
  have t4 : 72 * n ^ 4 * φ.u * (R / r) ^ 3 * N = 72 * (n ^ 4 * (R / r) ^ 3 * (φ.u * N)) := by ring
  have t5 : 113 / 10 * m ^ 2 * φ.u * P * S = 113 / 10 * (m ^ 2 * (φ.u * P * S)) := by ring
  rw [t4] at h6
  rw [t5] at h8
  rw [t1, t2, t3]
  rw [hBQ] at h7 c9
  rw [c3] at c2
  rw [hBQ] at c2
  clear_value z G W S Q N B P d w
  linarith

/-- `global` for the stored Jacobian -/
theorem global_err {J : Mat (Fl φ)} {e : ℕ → ℕ → ℝ} (hm : m ≤ 29) (hm1 : 1 ≤ m) (hu' : φ.u ≤ 1 / 2 ^ 24) {D O : ℝ} (hD : 0 ≤ D)
    (hJ : ∀ k < m, ∀ c < n, |(J k c).val - e k c| ≤ φ.u * |e k c|) (he : ∀ k < m, ∀ i < n, |e k i| ≤ D) (o x : ℕ → Fl φ) {i : ℕ} (hi : i < n)
    (ho : |(o i).val| ≤ O) :
    |(affineGlobal m o J x i).val - ((o i).val + ∑ k ∈ range m, e k i * (x k).val)| ≤
      31 / 10 * m * φ.u * (O + D * norm1 m fun k => (x k).val) + 101 / 100 * m * φ.η := by
  have hu := φ.u_nonneg
  have hη := φ.η_nonneg
  have hu2 : φ.u ≤ 1 / 1000000 := hu'.trans (by norm_num)
  have hm1' : (1:ℝ) ≤ m := by exact_mod_cast hm1
  have hm' : (m:ℝ) ≤ 29 := by exact_mod_cast hm
  set N := norm1 m fun k => (x k).val with hN
  have hN0 : 0 ≤ N := norm1_nonneg _ _
  have hO : 0 ≤ O := (abs_nonneg _).trans ho
  have h1 := addLoop_near (o i) (fun k => J k i) x le_rfl ((Near.exact (φ := φ) (o i).val).mono (l := 1) (by omega) (le_refl _)) m 0
  simp only [_root_.zero_add] at h1
  have h2 := h1.bound
  have h3 := pow_sub_one_le hu hu' (1 + m) (m + 1) (by omega) (by omega)
  set G := (1 + φ.u) ^ (1 + m)
  have hG1 : 0 ≤ G - 1 := by linarith [Near.one_le_pow φ (1 + m)]
  push_cast at h3
  have hmu : (m:ℝ) * φ.u ≤ 1 / 500000 := (mul_le_mul hm' hu' hu (by norm_num)).trans (by norm_num)
  have hum : φ.u ≤ m * φ.u := le_mul_of_one_le_left hu hm1'
  have hG2 : G ≤ 101 / 100 := by linarith
  have hJD : ∀ k ∈ range m, |(J k i).val| ≤ 101 / 100 * D := fun k hk => by
    have a1 := abs_add_le ((J k i).val - e k i) (e k i)
    rw [sub_add_cancel] at a1
    have a2 := hJ k (mem_range.1 hk) i hi
    have a3 := he k (mem_range.1 hk) i hi
    have a4 := mul_le_mul hu2 a3 (abs_nonneg _) (by norm_num)
    linarith
  have h4 : ∑ k ∈ range m, |(J k i).val| * |(x k).val| ≤ 101 / 100 * D * N := sum_mul_le (range m) (fun k => (J k i).val) (fun k => (x k).val) (by positivity) hJD
  have h5 : |∑ k ∈ range m, ((J k i).val - e k i) * (x k).val| ≤ φ.u * D * N := by
    refine abs_sum_mul_le (range m) (fun k => (J k i).val - e k i) (fun k => (x k).val) (by positivity) fun k hk => ?_
    exact (hJ k (mem_range.1 hk) i hi).trans (mul_le_mul_of_nonneg_left (he k (mem_range.1 hk) i hi) hu)
  have e1 : (affineGlobal m o J x i).val - ((o i).val + ∑ k ∈ range m, e k i * (x k).val) =
      ((affineGlobal m o J x i).val - ((o i).val + ∑ k ∈ range m, (J k i).val * (x k).val)) + ∑ k ∈ range m, ((J k i).val - e k i) * (x k).val := by
    simp only [sub_mul, sum_sub_distrib]
    ring
  rw [e1]
  refine (abs_add_le _ _).trans ?_
  have h6 : |(affineGlobal m o J x i).val - ((o i).val + ∑ k ∈ range m, (J k i).val * (x k).val)| ≤
      2002 / 1000 * (m * φ.u) * (O + 101 / 100 * D * N) + 101 / 100 * (m * φ.η) := by
    refine le_trans h2 (add_le_add ?_ (mul_le_mul_of_nonneg_right hG2 (by positivity)))
    exact mul_le_mul (by linarith) (add_le_add ho h4) (add_nonneg (abs_nonneg _) (sum_nonneg fun k _ => by positivity)) (by positivity)
  have hDN : 0 ≤ D * N := by positivity
  have a1 := mul_le_mul_of_nonneg_right hum hDN
  have a2 : 0 ≤ m * φ.u * O := by positivity
  have a3 : 0 ≤ m * φ.u * (D * N) := by positivity
  have t1 : 31 / 10 * m * φ.u * (O + D * N) = 31 / 10 * (m * φ.u * O) + 31 / 10 * (m * φ.u * (D * N)) := by ring
  have t2 : 2002 / 1000 * (m * φ.u) * (O + 101 / 100 * D * N) = 2002 / 1000 * (m * φ.u * O) + 2002 / 1000 * (101 / 100) * (m * φ.u * (D * N)) := by ring
  rw [t1]
  rw [t2] at h6
  linarith

end Verif.FloatInv
