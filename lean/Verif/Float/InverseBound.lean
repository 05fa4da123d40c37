import Verif.Float.InverseResidual

/-! The product of the inverse of a Cholesky factor with its transpose is close to the inverse of the matrix of products of
rows. -/

namespace Verif.FloatInv

open Verif.Float Verif.RefGeom Verif.FloatVol Verif.FloatNewton
open Finset hiding ext

variable {φ : Format}

/-- a computed Cholesky factor `L` of `J Jᵀ`, for rows of length at most `R` and singular values at least `r` -/
structure Fac (φ : Format) (m n : ℕ) (R r : ℝ) (J L : Mat (Fl φ)) : Prop where
  fits : Fits φ m n (R ^ 2) (r ^ 2)
  R_pos : 0 < R
  r_pos : 0 < r
  rR : r ≤ R
  high : φ.η * R ^ 2 ≤ φ.u
  row : RowsWithin m n (valM J) (R ^ 2)
  ind : IndependentBy m n (valM J) (r ^ 2)
  diag : ∀ i < m, 0 < (L i i).val
  back : ∀ i < m, ∀ k < m, |rowProd n J i k - ∑ a ∈ range m, tri L i a * tri L k a| ≤ 17 * n * φ.u * R ^ 2

theorem Fits.le {m n : ℕ} {R r : ℝ} (hf : Fits φ m n (R ^ 2) (r ^ 2)) (hR : 0 < R) {e : Nat → Nat → ℝ} (hrow : RowsWithin m n e (R ^ 2))
    (hind : IndependentBy m n e (r ^ 2)) : r ≤ R := by
  have h1 := hind (fun k => if k = ⟨0, hf.m_pos⟩ then 1 else 0)
  simp only [ite_pow, one_pow, ne_eq, OfNat.ofNat_ne_zero, not_false_eq_true, zero_pow, sum_ite_eq', mem_univ, if_true, ite_mul, _root_.one_mul,
    MulZeroClass.zero_mul, _root_.mul_one] at h1
  exact le_of_sq_le_sq' (h1.trans (hrow ⟨0, hf.m_pos⟩)) hR.le
where
  le_of_sq_le_sq' {a b : ℝ} (h : a ^ 2 ≤ b ^ 2) (hb : 0 ≤ b) : a ≤ b := (abs_le_of_sq_le_sq' h hb).2

namespace Fac

variable {m n : ℕ} {R r : ℝ} {J L : Mat (Fl φ)}

theorem entry (h : Fac φ m n R r J L) {k c : ℕ} (hk : k < m) (hc : c < n) : |(J k c).val| ≤ R := by
  refine abs_le_of_sq_le_sq (le_trans ?_ (h.row ⟨k, hk⟩)) h.R_pos.le
  exact single_le_sum (f := fun c : Fin n => valM J k c ^ 2) (fun c _ => sq_nonneg _) (mem_univ (⟨c, hc⟩ : Fin n))

theorem rowProd_le (h : Fac φ m n R r J L) {i k : ℕ} (hi : i < m) (hk : k < m) : |rowProd n J i k| ≤ R ^ 2 := by
  have h1 : ∑ c ∈ range n, (J i c).val ^ 2 ≤ R ^ 2 := by rw [sum_range]; exact h.row ⟨i, hi⟩
  have h2 : ∑ c ∈ range n, (J k c).val ^ 2 ≤ R ^ 2 := by rw [sum_range]; exact h.row ⟨k, hk⟩
  refine abs_le_of_sq_le_sq ?_ (sq_nonneg R)
  refine (sum_mul_sq_le_sq_mul_sq _ _ _).trans ?_
  rw [sq (R ^ 2)]
  exact mul_le_mul h1 h2 (sum_nonneg fun _ _ => sq_nonneg _) (sq_nonneg R)

theorem consts (h : Fac φ m n R r J L) : (1:ℝ) ≤ m ∧ (m:ℝ) ≤ n ∧ (n:ℝ) ≤ 29 ∧ (n:ℝ) * φ.u ≤ 1 / 500000 ∧ 50 * (m * n * φ.u * R) ≤ r := by
  obtain ⟨hm, hmn, hn, hu, hu', hη', hlow, hhigh, hlam0, hlam⟩ := h.fits
  have hm1 : (1:ℝ) ≤ m := by exact_mod_cast hm
  have hmn' : (m:ℝ) ≤ n := by exact_mod_cast hmn
  have hn' : (n:ℝ) ≤ 29 := by exact_mod_cast hn
  refine ⟨hm1, hmn', hn', (mul_le_mul hn' hu' hu.le (by norm_num)).trans (by norm_num), ?_⟩
  have h0 : 0 ≤ m * n * φ.u * R := by have := h.R_pos; positivity
  have h1 : 50 * (m * n * φ.u * R) * r ≤ r * r := by
    have := mul_le_mul_of_nonneg_left h.rR h0
    nlinarith
  exact le_of_mul_le_mul_right h1 h.r_pos

theorem tri_le (h : Fac φ m n R r J L) {k : ℕ} (hk : k < m) (a : ℕ) : |tri L k a| ≤ 1001 / 1000 * R := by
  obtain ⟨hm1, hmn, hn, hnu, _⟩ := h.consts
  have hR := h.R_pos
  by_cases ha : a < m
  · refine abs_le_of_sq_le_sq ?_ (by positivity)
    have h1 := (abs_le.mp (h.back k hk k hk)).1
    have h2 : tri L k a ^ 2 ≤ ∑ a ∈ range m, tri L k a * tri L k a := by
      rw [sq]
      exact single_le_sum (f := fun a => tri L k a * tri L k a) (fun a _ => mul_self_nonneg _) (mem_range.2 ha)
    have h3 := (abs_le.mp (h.rowProd_le hk hk)).2
    have h4 : 17 * n * φ.u * R ^ 2 ≤ 1 / 1000 * R ^ 2 := mul_le_mul_of_nonneg_right (by linarith) (sq_nonneg R)
    nlinarith
  · rw [tri_of_lt L (by omega), abs_zero]
    positivity

theorem diag_high (h : Fac φ m n R r J L) {i : ℕ} (hi : i < m) : φ.η * (L i i).val ≤ φ.u := by
  have h1 := h.tri_le hi i
  rw [tri_of_le L le_rfl, abs_of_pos (h.diag i hi)] at h1
  have hR := h.R_pos
  have hη := φ.η_nonneg
  have h2 : φ.η * R ≤ φ.u / 2 := by
    have h3 : (φ.η * R) ^ 2 ≤ (φ.u / 2) ^ 2 := by have := h.fits.high; nlinarith [sq_nonneg φ.u]
    exact (abs_le_of_sq_le_sq' h3 (by have := h.fits.u_pos; positivity)).2
  have h3 := mul_le_mul_of_nonneg_left h1 hη
  have h4 := h.fits.u_pos
  nlinarith

/-- the factor is well conditioned -/
theorem lower (h : Fac φ m n R r J L) (w : ℕ → ℝ) :
    33 / 50 * r ^ 2 * ∑ k ∈ range m, w k ^ 2 ≤ ∑ a ∈ range m, (∑ k ∈ range m, w k * tri L k a) ^ 2 := by
  have h1 := form_close m (fun k j => rowProd n J k j) (fun k j => ∑ a ∈ range m, tri L k a * tri L j a) (fun k j => h.back k k.2 j j.2) fun k => w k
  have h2 := h.ind fun k => w k
  rw [form_gram] at h2
  have h3 := form_gram m m (fun k a => tri L k a) fun k => w k
  rw [← h3] at h1
  have hW : 0 ≤ ∑ k : Fin m, w k ^ 2 := sum_nonneg fun _ _ => sq_nonneg _
  have h4 : (m:ℝ) * (17 * n * φ.u * R ^ 2) ≤ 17 / 50 * r ^ 2 := by have := h.fits.cond; linarith
  have h5 := mul_le_mul_of_nonneg_right h4 hW
  have e1 : ∑ a ∈ range m, (∑ k ∈ range m, w k * tri L k a) ^ 2 = ∑ a : Fin m, (∑ k : Fin m, w k * tri L k a) ^ 2 := by
    rw [sum_range]
    exact sum_congr rfl fun a _ => by rw [sum_range]
  rw [e1, sum_range (fun k => w k ^ 2)]
  have h6 := (abs_le.mp h1).2
  have h7 : r ^ 2 * ∑ k : Fin m, w k ^ 2 ≤ ∑ k : Fin m, ∑ j : Fin m, w k * w j * rowProd n J k j := h2
  linarith

theorem lowerT (h : Fac φ m n R r J L) (x : ℕ → ℝ) :
    33 / 50 * r ^ 2 * ∑ a ∈ range m, x a ^ 2 ≤ ∑ k ∈ range m, (∑ a ∈ range m, tri L k a * x a) ^ 2 :=
  transpose_lower m (fun k a => tri L k a) (by have := h.r_pos; positivity) h.lower x

theorem norm1_sq (m : ℕ) (v : ℕ → ℝ) : norm1 m v ^ 2 ≤ m * ∑ k ∈ range m, v k ^ 2 := by
  have := sq_sum_le_card_mul_sum_sq (s := range m) (f := fun k => |v k|)
  rw [card_range] at this
  simp only [sq_abs] at this
  exact this

/-- the residual in terms of a column of the inverse -/
theorem residual (h : Fac φ m n R r J L) {i j : ℕ} (hi : i < m) (hj : j < m) :
    |∑ k ∈ range m, tri L i k * tri (invL m L).2 k j - (if i = j then 1 else 0)| ≤
      4004 / 1000 * m * φ.u * R * norm1 m (fun k => tri (invL m L).2 k j) + 3 * m * φ.u := by
  have hR := h.R_pos
  have hu := φ.u_nonneg
  have h1 := invL_residual m (by have := h.fits.n_le; have := h.fits.mn; omega) h.fits.u_le h.fits.η_le L h.diag (fun i hi => h.diag_high hi) i j hi hj
  refine h1.trans (add_le_add_left ?_ _)
  have h2 := sum_mul_le (range m) (fun k => tri L i k) (fun k => tri (invL m L).2 k j) (by positivity : 0 ≤ 1001 / 1000 * R) fun k _ => h.tri_le hi k
  have h3 := mul_le_mul_of_nonneg_left h2 (by positivity : 0 ≤ 4 * m * φ.u)
  refine h3.trans (le_of_eq ?_)
  rw [norm1]
  ring

/-- the columns of the inverse are bounded -/
theorem col (h : Fac φ m n R r J L) {j : ℕ} (hj : j < m) : r ^ 2 * ∑ k ∈ range m, tri (invL m L).2 k j ^ 2 ≤ 9 / 4 := by
  obtain ⟨hm1, hmn, hn, hnu, hc⟩ := h.consts
  have hR := h.R_pos
  have hr := h.r_pos
  have hu := φ.u_nonneg
  set x := fun k => tri (invL m L).2 k j with hx
  have h1 := h.lowerT x
  set Q := ∑ k ∈ range m, x k ^ 2 with hQ
  have hQ0 : 0 ≤ Q := sum_nonneg fun _ _ => sq_nonneg _
  set N := norm1 m x with hN
  have hN0 : 0 ≤ N := norm1_nonneg _ _
  have hNQ : N ^ 2 ≤ m * Q := norm1_sq m x
  set e := 4004 / 1000 * m * φ.u * R * N + 3 * m * φ.u with he
  have he0 : 0 ≤ e := by positivity
  have h2 : ∀ i ∈ range m, (∑ a ∈ range m, tri L i a * x a) ^ 2 ≤ 11 / 10 * (if i = j then 1 else 0) + 11 * e ^ 2 := fun i hi => by
    have h3 := h.residual (mem_range.1 hi) hj
    rw [← hx, ← hN, ← he] at h3
    set s := ∑ k ∈ range m, tri L i k * tri (invL m L).2 k j with hs
    change s ^ 2 ≤ _
    have h4 : (s - if i = j then (1:ℝ) else 0) ^ 2 ≤ e ^ 2 := by
      rw [← sq_abs]
      exact pow_le_pow_left₀ (abs_nonneg _) h3 2
    split_ifs at h4 ⊢
    · nlinarith [sq_nonneg (s - 1 - 1 / 10)]
    · nlinarith
  have h3 := sum_le_sum h2
  rw [sum_add_distrib, ← mul_sum, sum_ite_eq', if_pos (mem_range.2 hj), sum_const, card_range, nsmul_eq_mul] at h3
  have h4 : e ^ 2 ≤ 2 * (4004 / 1000 * (m * φ.u * R)) ^ 2 * N ^ 2 + 18 * (m * φ.u) ^ 2 := by
    rw [he]
    nlinarith [sq_nonneg (4004 / 1000 * m * φ.u * R * N - 3 * m * φ.u)]
  have h5 : 2 * (4004 / 1000 * (m * φ.u * R)) ^ 2 * N ^ 2 ≤ 2 * (4004 / 1000 * (m * φ.u * R)) ^ 2 * (m * Q) :=
    mul_le_mul_of_nonneg_left hNQ (by positivity)
  have h6 : (m * (m * φ.u * R)) ^ 2 ≤ (r / 50) ^ 2 := by
    refine pow_le_pow_left₀ (by positivity) ?_ 2
    have : m * (m * φ.u * R) ≤ m * n * φ.u * R := by
      have h0 : 0 ≤ m * φ.u * R := by positivity
      nlinarith
    linarith
  have h7 : (m:ℝ) * (2 * (4004 / 1000 * (m * φ.u * R)) ^ 2 * (m * Q)) ≤ 2 * (4004 / 1000) ^ 2 * (r / 50) ^ 2 * Q := by
    have := mul_le_mul_of_nonneg_right h6 hQ0
    nlinarith
  have h8 : (m:ℝ) * (18 * (m * φ.u) ^ 2) ≤ 1 / 1000 := by
    have h9 : (m:ℝ) * φ.u ≤ 1 / 500000 := (mul_le_mul_of_nonneg_right hmn hu).trans hnu
    have h10 : (m * φ.u) ^ 2 ≤ (1 / 500000) ^ 2 := pow_le_pow_left₀ (by positivity) h9 2
    have h11 : (m:ℝ) * (18 * (m * φ.u) ^ 2) ≤ 29 * (18 * (1 / 500000) ^ 2) := mul_le_mul (by linarith) (by linarith) (by positivity) (by norm_num)
    linarith
  have h9 := mul_le_mul_of_nonneg_left (h4.trans (add_le_add_left h5 _)) (by positivity : (0:ℝ) ≤ m)
  have hrQ : 0 ≤ r ^ 2 * Q := by positivity
  nlinarith

/-- the residual is small -/
theorem small (h : Fac φ m n R r J L) {i j : ℕ} (hi : i < m) (hj : j < m) :
    |∑ k ∈ range m, tri L i k * tri (invL m L).2 k j - (if i = j then 1 else 0)| ≤ 91 / 10 * m ^ 2 * φ.u * (R / r) := by
  obtain ⟨hm1, hmn, hn, hnu, hc⟩ := h.consts
  have hR := h.R_pos
  have hr := h.r_pos
  have hu := φ.u_nonneg
  refine (h.residual hi hj).trans ?_
  set N := norm1 m (fun k => tri (invL m L).2 k j) with hN
  have hN0 : 0 ≤ N := norm1_nonneg _ _
  have h1 : r * N ≤ 3 / 2 * m := by
    refine (abs_le_of_sq_le_sq' (b := 3 / 2 * (m:ℝ)) (a := r * N) ?_ (by positivity)).2
    have h2 := mul_le_mul_of_nonneg_left (norm1_sq m (fun k => tri (invL m L).2 k j)) (sq_nonneg r)
    have h3 := mul_le_mul_of_nonneg_left (h.col hj) (by positivity : (0:ℝ) ≤ m)
    have h4 : (m:ℝ) ≤ m ^ 2 := by nlinarith
    nlinarith
  have hκ : 1 ≤ R / r := (one_le_div hr).2 h.rR
  have h2 : R * N ≤ 3 / 2 * m * (R / r) := by
    rw [mul_div_assoc', le_div_iff₀ hr]
    nlinarith
  have h3 := mul_le_mul_of_nonneg_left h2 (by positivity : 0 ≤ 4004 / 1000 * m * φ.u)
  have h4 : (m:ℝ) * φ.u ≤ m ^ 2 * φ.u * (R / r) := by
    have a1 : (m:ℝ) * φ.u ≤ m ^ 2 * φ.u := mul_le_mul_of_nonneg_right (by nlinarith) hu
    have a2 : m ^ 2 * φ.u * 1 ≤ m ^ 2 * φ.u * (R / r) := mul_le_mul_of_nonneg_left hκ (by positivity)
    linarith
  have h5 : 0 ≤ m ^ 2 * φ.u * (R / r) := by positivity
  linarith

end Fac

end Verif.FloatInv
