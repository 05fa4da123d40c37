import Verif.Float.InverseBound

/-! The pseudo-inverse of a Jacobian in floating-point arithmetic: its product with the Jacobian. -/

namespace Verif.FloatInv

open Verif.Float Verif.RefGeom Verif.FloatVol Verif.FloatNewton
open Finset hiding ext

variable {φ : Format}

namespace Fac

variable {m n : ℕ} {R r : ℝ} {J L : Mat (Fl φ)}

/-- the inverse of the Cholesky factor and its transpose invert the products of the rows -/
theorem gram_inv (h : Fac φ m n R r J L) (x : ℕ → ℝ) {i : ℕ} (hi : i < m) :
    |∑ k ∈ range m, tri (invL m L).2 k i * (∑ j ∈ range m, tri (invL m L).2 k j * ∑ l ∈ range m, rowProd n J j l * x l) - x i| ≤
      60 * n ^ 4 * φ.u * (R / r) ^ 3 * norm1 m x := by
  obtain ⟨hm1, hmn, hn, hnu, hc⟩ := h.consts
  have hR := h.R_pos
  have hr := h.r_pos
  have hu := φ.u_nonneg
  have hκ : 1 ≤ R / r := (one_le_div hr).2 h.rR
  set X := fun k j => tri (invL m L).2 k j with hX
  set N := norm1 m x with hN
  have hN0 : 0 ≤ N := norm1_nonneg _ _
  set E : ℕ → ℕ → ℝ := fun l j => ∑ k ∈ range m, tri L l k * X k j - (if l = j then 1 else 0) with hE
  set ε := 91 / 10 * m ^ 2 * φ.u * (R / r) with hε
  have hε0 : 0 ≤ ε := by positivity
  have hEε : ∀ l < m, ∀ j < m, |E l j| ≤ ε := fun l hl j hj => h.small hl hj
  set g : ℕ → ℝ := fun j => ∑ l ∈ range m, rowProd n J j l * x l with hg
  set v : ℕ → ℝ := fun a => ∑ l ∈ range m, tri L l a * x l with hv
  set t : ℕ → ℝ := fun k => ∑ j ∈ range m, X k j * g j with ht
  set κ := R / r with hκd
  -- sizes
  have hg1 : norm1 m g ≤ m * (R ^ 2 * N) := norm1_le fun j hj =>
    abs_sum_mul_le (range m) (fun l => rowProd n J j l) x (sq_nonneg R) fun l hl => h.rowProd_le hj (mem_range.1 hl)
  have hδ : ∀ k < m, |g k - ∑ a ∈ range m, tri L k a * v a| ≤ 17 * n * φ.u * R ^ 2 * N := fun k hk => by
    have e : g k - ∑ a ∈ range m, tri L k a * v a = ∑ l ∈ range m, (rowProd n J k l - ∑ a ∈ range m, tri L k a * tri L l a) * x l := by
      simp only [hg, hv, sub_mul, sum_sub_distrib, mul_sum, sum_mul]
      congr 1
      rw [sum_comm]
      exact sum_congr rfl fun _ _ => sum_congr rfl fun _ _ => by ring
    rw [e]
    exact abs_sum_mul_le (range m) _ x (by positivity) fun l hl => h.back k hk l (mem_range.1 hl)
  -- the residual of `t - v`
  have hw : ∀ k < m, |∑ a ∈ range m, tri L k a * (t a - v a)| ≤ 261 / 10 * n ^ 3 * φ.u * κ * R ^ 2 * N := fun k hk => by
    have e : ∑ a ∈ range m, tri L k a * (t a - v a) = ∑ j ∈ range m, E k j * g j + (g k - ∑ a ∈ range m, tri L k a * v a) := by
      simp only [hE, ht, mul_sub, sub_mul, sum_sub_distrib, ite_mul, _root_.one_mul, MulZeroClass.zero_mul, sum_ite_eq, mem_range, if_pos hk, mul_sum, sum_mul]
      rw [sum_comm]
      have : ∑ y ∈ range m, ∑ x ∈ range m, tri L k x * (X x y * g y) = ∑ x ∈ range m, ∑ i ∈ range m, tri L k i * X i x * g x :=
        sum_congr rfl fun _ _ => sum_congr rfl fun _ _ => by ring
      rw [this]
      ring
    rw [e]
    refine (abs_add_le _ _).trans ?_
    have h1 : |∑ j ∈ range m, E k j * g j| ≤ ε * norm1 m g := abs_sum_mul_le (range m) (fun j => E k j) g hε0 fun j hj => hEε k hk j (mem_range.1 hj)
    have h2 := mul_le_mul_of_nonneg_left hg1 hε0
    have h3 := hδ k hk
    have hP : 0 ≤ φ.u * (R ^ 2 * N) := by positivity
    have h4 : ε * (m * (R ^ 2 * N)) ≤ 91 / 10 * n ^ 3 * κ * (φ.u * (R ^ 2 * N)) := by
      have : (m:ℝ) ^ 3 ≤ n ^ 3 := pow_le_pow_left₀ (by linarith) hmn 3
      have h5 : (m:ℝ) ^ 3 * (κ * (φ.u * (R ^ 2 * N))) ≤ n ^ 3 * (κ * (φ.u * (R ^ 2 * N))) := mul_le_mul_of_nonneg_right this (by positivity)
      have e3 : ε * (m * (R ^ 2 * N)) = 91 / 10 * (m ^ 3 * (κ * (φ.u * (R ^ 2 * N)))) := by rw [hε]; ring
      rw [e3]
      linarith
    have h6 : 17 * n * φ.u * R ^ 2 * N ≤ 17 * n ^ 3 * κ * (φ.u * (R ^ 2 * N)) := by
      have a1 : (n:ℝ) ≤ n ^ 3 := by
        have : (1:ℝ) ≤ n := by linarith
        calc (n:ℝ) = n ^ 1 := (pow_one _).symm
          _ ≤ n ^ 3 := pow_le_pow_right₀ this (by norm_num)
      have a2 : (n:ℝ) * 1 ≤ n ^ 3 * κ := mul_le_mul a1 hκ (by norm_num) (by positivity)
      have := mul_le_mul_of_nonneg_right a2 hP
      nlinarith
    linarith
  set w := 261 / 10 * n ^ 3 * φ.u * κ * R ^ 2 * N with hwd
  have hw0 : 0 ≤ w := by positivity
  -- the length of `t - v`
  have h1 := h.lowerT fun a => t a - v a
  have h2 : ∑ k ∈ range m, (∑ a ∈ range m, tri L k a * (t a - v a)) ^ 2 ≤ m * w ^ 2 := by
    have := sum_le_sum fun k (hk : k ∈ range m) => (sq_abs _).symm.le.trans (pow_le_pow_left₀ (abs_nonneg _) (hw k (mem_range.1 hk)) 2)
    rwa [sum_const, card_range, nsmul_eq_mul] at this
  set Z := ∑ a ∈ range m, (t a - v a) ^ 2 with hZ
  have hZ0 : 0 ≤ Z := sum_nonneg fun _ _ => sq_nonneg _
  -- Cauchy-Schwarz
  have h3 : |∑ k ∈ range m, X k i * (t k - v k)| ≤ 19 / 10 * m * w / r ^ 2 := by
    refine abs_le_of_sq_le_sq ?_ (by positivity)
    refine (sum_mul_sq_le_sq_mul_sq _ _ _).trans ?_
    have hcol := h.col hi
    set Q := ∑ k ∈ range m, X k i ^ 2 with hQ
    have hQ0 : 0 ≤ Q := sum_nonneg fun _ _ => sq_nonneg _
    rw [div_pow, le_div_iff₀ (by positivity)]
    have a1 : (r ^ 2 * Q) * (33 / 50 * r ^ 2 * Z) ≤ 9 / 4 * (m * w ^ 2) := mul_le_mul hcol (h1.trans h2) (by positivity) (by norm_num)
    have a2 : (m:ℝ) * w ^ 2 ≤ m ^ 2 * w ^ 2 := mul_le_mul_of_nonneg_right (by nlinarith) (sq_nonneg _)
    nlinarith
  -- the remaining part
  have h4 : |∑ k ∈ range m, X k i * v k - x i| ≤ ε * N := by
    have e : ∑ k ∈ range m, X k i * v k - x i = ∑ l ∈ range m, E l i * x l := by
      simp only [hE, hv, sub_mul, sum_sub_distrib, ite_mul, _root_.one_mul, MulZeroClass.zero_mul, sum_ite_eq', mem_range, if_pos hi, mul_sum, sum_mul]
      congr 1
      rw [sum_comm]
      exact sum_congr rfl fun _ _ => sum_congr rfl fun _ _ => by ring
    rw [e]
    exact abs_sum_mul_le (range m) (fun l => E l i) x hε0 fun l hl => hEε l (mem_range.1 hl) i hi
  have e : ∑ k ∈ range m, X k i * t k - x i = ∑ k ∈ range m, X k i * (t k - v k) + (∑ k ∈ range m, X k i * v k - x i) := by
    simp only [mul_sub, sum_sub_distrib]
    ring
  change |∑ k ∈ range m, X k i * t k - x i| ≤ _
  rw [e]
  refine (abs_add_le _ _).trans ?_
  have e2 : 19 / 10 * m * w / r ^ 2 = 4959 / 100 * (m * n ^ 3) * (φ.u * κ ^ 3 * N) := by
    rw [hwd, hκd]
    field_simp
    ring
  rw [e2] at h3
  have hP : 0 ≤ φ.u * κ ^ 3 * N := by positivity
  have h5 : (m:ℝ) * n ^ 3 ≤ n ^ 4 := by
    have : (m:ℝ) * n ^ 3 ≤ n * n ^ 3 := mul_le_mul_of_nonneg_right hmn (by positivity)
    linarith
  have h6 := mul_le_mul_of_nonneg_right h5 hP
  have h7 : ε * N ≤ 91 / 10 * n ^ 4 * (φ.u * κ ^ 3 * N) := by
    have a1 : (m:ℝ) ^ 2 ≤ n ^ 4 := (pow_le_pow_left₀ (by linarith) hmn 2).trans (pow_le_pow_right₀ (by linarith) (by norm_num))
    have a2 : κ ≤ κ ^ 3 := by
      calc κ = κ ^ 1 := (pow_one _).symm
        _ ≤ κ ^ 3 := pow_le_pow_right₀ hκ (by norm_num)
    have a3 : (m:ℝ) ^ 2 * κ ≤ n ^ 4 * κ ^ 3 := mul_le_mul a1 a2 (by positivity) (by positivity)
    have := mul_le_mul_of_nonneg_right a3 (by positivity : 0 ≤ φ.u * N)
    have e3 : ε * N = 91 / 10 * (m ^ 2 * κ * (φ.u * N)) := by rw [hε]; ring
    rw [e3]
    linarith
  have e4 : 60 * n ^ 4 * φ.u * κ ^ 3 * N = 60 * (n ^ 4 * (φ.u * κ ^ 3 * N)) := by ring
  have hP4 : 0 ≤ n ^ 4 * (φ.u * κ ^ 3 * N) := by positivity
  rw [e4]
  linarith

/-- underflow of the entries of the inverse is negligible -/
theorem eta_le (h : Fac φ m n R r J L) : φ.η * r ^ 2 ≤ φ.u * R ∧ φ.η * r ^ 2 ≤ φ.u := by
  have hR := h.R_pos
  have hr := h.r_pos
  have hη := φ.η_nonneg
  have hu := φ.u_nonneg
  have h0 : r ^ 2 ≤ R ^ 2 := pow_le_pow_left₀ hr.le h.rR 2
  have h1 : φ.η * r ^ 2 ≤ φ.η * R ^ 2 := mul_le_mul_of_nonneg_left h0 hη
  refine ⟨?_, h1.trans h.high⟩
  rcases le_total 1 R with hR1 | hR1
  · exact (h1.trans h.high).trans (le_mul_of_one_le_right hu hR1)
  · refine h1.trans ?_
    have := mul_le_mul_of_nonneg_right h.fits.η_le hR.le
    have h3 : φ.η * R ^ 2 ≤ φ.η * R := mul_le_mul_of_nonneg_left (by nlinarith) hη
    linarith

/-- products of columns of the inverse factor -/
theorem colProd_le (h : Fac φ m n R r J L) {i j : ℕ} (hi : i < m) (hj : j < m) :
    ∑ k ∈ range m, |tri (invL m L).2 k i| * |tri (invL m L).2 k j| ≤ 9 / 4 / r ^ 2 := by
  have hr := h.r_pos
  have h1 := sum_mul_sq_le_sq_mul_sq (range m) (fun k => |tri (invL m L).2 k i|) fun k => |tri (invL m L).2 k j|
  simp only [sq_abs] at h1
  have hi' := h.col hi
  have hj' := h.col hj
  set A := ∑ k ∈ range m, tri (invL m L).2 k i ^ 2
  set B := ∑ k ∈ range m, tri (invL m L).2 k j ^ 2
  have hA0 : 0 ≤ A := sum_nonneg fun _ _ => sq_nonneg _
  have hB0 : 0 ≤ B := sum_nonneg fun _ _ => sq_nonneg _
  refine (abs_le_of_sq_le_sq' ?_ (by positivity)).2
  refine h1.trans ?_
  rw [div_pow, le_div_iff₀ (by positivity)]
  have := mul_le_mul hi' hj' (by positivity) (by norm_num)
  nlinarith

theorem LTL_eq (m : ℕ) (X : Mat (Fl φ)) (i j : ℕ) :
    LTL m X i j = (List.range' (max i j) (m - max i j)).foldl (fun x k => x + X k (max i j) * X k (min i j)) 0 := by
  rw [LTL]
  by_cases h1 : j < i
  · rw [if_pos h1, max_eq_left h1.le, min_eq_right h1.le, addLoop]
  · rw [if_neg h1]
    by_cases h2 : i < j
    · rw [if_pos h2, max_eq_right h2.le, min_eq_left h2.le, addLoop]
    · have : i = j := by omega
      subst this
      rw [if_neg h2, max_self, min_self, addLoop]

theorem tri_colProd (F : ℝ → ℝ → ℝ) (hF : ∀ b, F 0 b = 0) (X : Mat (Fl φ)) {i j m : ℕ} (hji : j ≤ i) (hi : i < m) :
    ∑ k ∈ range m, F (tri X k i) (tri X k j) = ∑ k ∈ range (m - i), F (X (i + k) i).val (X (i + k) j).val := by
  have h0 : ∑ k ∈ Ico 0 i, F (tri X k i) (tri X k j) = 0 := sum_eq_zero fun k hk => by rw [tri_of_lt X (mem_Ico.1 hk).2, hF]
  rw [range_eq_Ico, ← sum_Ico_consecutive _ (Nat.zero_le i) hi.le, h0, _root_.zero_add, sum_Ico_eq_sum_range]
  exact sum_congr rfl fun k _ => by rw [tri_of_le X (by omega), tri_of_le X (by omega)]

/-- the product of the transposed inverse factor with the inverse factor -/
theorem LTL_err (h : Fac φ m n R r J L) {i j : ℕ} (hi : i < m) (hj : j < m) :
    |(LTL m (invL m L).2 i j).val - ∑ k ∈ range m, tri (invL m L).2 k i * tri (invL m L).2 k j| ≤ 56 / 10 * m * φ.u / r ^ 2 ∧
      |(LTL m (invL m L).2 i j).val| ≤ 23 / 10 / r ^ 2 := by
  obtain ⟨hm1, hmn, hn, hnu, hc⟩ := h.consts
  have hr := h.r_pos
  have hu := φ.u_nonneg
  have hη := φ.η_nonneg
  set X := (invL m L).2 with hX
  have key : |(LTL m X i j).val - ∑ k ∈ range m, tri X k i * tri X k j| ≤ 56 / 10 * m * φ.u / r ^ 2 := by
    rw [LTL_eq]
    set p := max i j with hp
    set q := min i j with hq
    have hpm : p < m := max_lt hi hj
    have hqm : q < m := by omega
    have h1 := addLoop_near (0 : Fl φ) (fun k => X k p) (fun k => X k q) le_rfl ((Near.exact (φ := φ) 0).mono (l := 1) (by omega) (le_refl _)) (m - p) p
    have e1 := tri_colProd (fun a b => a * b) (fun b => by simp) X (by omega : q ≤ p) hpm
    have e2 := tri_colProd (fun a b => |a| * |b|) (fun b => by simp) X (by omega : q ≤ p) hpm
    beta_reduce at e1 e2
    rw [← e1, ← e2, _root_.zero_add, _root_.zero_add, abs_zero, _root_.zero_add] at h1
    have e3 : ∑ k ∈ range m, tri X k i * tri X k j = ∑ k ∈ range m, tri X k p * tri X k q := by
      rcases le_total i j with h2 | h2
      · rw [hp, hq, max_eq_right h2, min_eq_left h2]
        exact sum_congr rfl fun k _ => mul_comm _ _
      · rw [hp, hq, max_eq_left h2, min_eq_right h2]
    rw [e3]
    have h2 := h1.bound
    have h3 := h.colProd_le hpm hqm
    rw [← hX] at h3
    set T := ∑ k ∈ range m, |tri X k p| * |tri X k q| with hT
    have hT0 : 0 ≤ T := sum_nonneg fun k _ => by positivity
    have h4 := pow_sub_one_le hu h.fits.u_le (1 + (m - p)) (m + 1) (by omega) (by have := h.fits.n_le; have := h.fits.mn; omega)
    set G := (1 + φ.u) ^ (1 + (m - p))
    have hG1 : 0 ≤ G - 1 := by linarith [Near.one_le_pow φ (1 + (m - p))]
    push_cast at h4
    have hmu : (m:ℝ) * φ.u ≤ 1 / 500000 := (mul_le_mul_of_nonneg_right hmn hu).trans hnu
    have hu1 : φ.u ≤ m * φ.u := le_mul_of_one_le_left hu hm1
    have hG2 : G ≤ 101 / 100 := by linarith
    have hmp : ((m - p : ℕ) : ℝ) ≤ m := by exact_mod_cast Nat.sub_le m p
    refine h2.trans ?_
    rw [le_div_iff₀ (by positivity)]
    rw [le_div_iff₀ (by positivity)] at h3
    have a1 : (G - 1) * (T * r ^ 2) ≤ 2002 / 1000 * (m * φ.u) * (9 / 4) := mul_le_mul (by linarith) h3 (by positivity) (by positivity)
    have a2 : G * (((m - p : ℕ) : ℝ) * (φ.η * r ^ 2)) ≤ 101 / 100 * (m * φ.u) :=
      mul_le_mul hG2 (mul_le_mul hmp h.eta_le.2 (by positivity) (by positivity)) (by positivity) (by norm_num)
    have hmu0 : 0 ≤ m * φ.u := by positivity
    calc ((G - 1) * T + G * (((m - p : ℕ) : ℝ) * φ.η)) * r ^ 2 = (G - 1) * (T * r ^ 2) + G * (((m - p : ℕ) : ℝ) * (φ.η * r ^ 2)) := by ring
      _ ≤ 56 / 10 * m * φ.u := by linarith
  refine ⟨key, ?_⟩
  have h1 : |∑ k ∈ range m, tri X k i * tri X k j| ≤ 9 / 4 / r ^ 2 := by
    refine (abs_sum_le_sum_abs _ _).trans ((le_of_eq ?_).trans (h.colProd_le hi hj))
    exact sum_congr rfl fun _ _ => abs_mul _ _
  have h2 := abs_add_le ((LTL m X i j).val - ∑ k ∈ range m, tri X k i * tri X k j) (∑ k ∈ range m, tri X k i * tri X k j)
  rw [sub_add_cancel] at h2
  refine h2.trans ((add_le_add key h1).trans ?_)
  rw [← add_div]
  refine div_le_div_of_nonneg_right ?_ (by positivity)
  have hmu : (m:ℝ) * φ.u ≤ 1 / 500000 := (mul_le_mul_of_nonneg_right hmn hu).trans hnu
  linarith

/-- the entries of the pseudo-inverse -/
theorem ATBT_err (h : Fac φ m n R r J L) {i j : ℕ} (hi : i < n) (hj : j < m) :
    |(ATBT m J (LTL m (invL m L).2) i j).val - ∑ k ∈ range m, (J k i).val * ∑ a ∈ range m, tri (invL m L).2 a j * tri (invL m L).2 a k| ≤
        113 / 10 * m ^ 2 * φ.u * (R / r ^ 2) ∧
      |(ATBT m J (LTL m (invL m L).2) i j).val| ≤ 24 / 10 * m * (R / r ^ 2) := by
  obtain ⟨hm1, hmn, hn, hnu, hc⟩ := h.consts
  have hr := h.r_pos
  have hR := h.R_pos
  have hu := φ.u_nonneg
  have hη := φ.η_nonneg
  set B := LTL m (invL m L).2 with hB
  have hmu : (m:ℝ) * φ.u ≤ 1 / 500000 := (mul_le_mul_of_nonneg_right hmn hu).trans hnu
  have hu1 : φ.u ≤ m * φ.u := le_mul_of_one_le_left hu hm1
  have h1 := addLoop_near (0 : Fl φ) (fun k => J k i) (fun k => B j k) le_rfl ((Near.exact (φ := φ) 0).mono (l := 1) (by omega) (le_refl _)) m 0
  simp only [_root_.zero_add, abs_zero] at h1
  have h2 := h1.bound
  set S := ∑ k ∈ range m, (J k i).val * (B j k).val with hS
  set T := ∑ k ∈ range m, |(J k i).val| * |(B j k).val| with hT
  have hT0 : 0 ≤ T := sum_nonneg fun k _ => by positivity
  have hT1 : T ≤ m * (R * (23 / 10 / r ^ 2)) := by
    have := sum_le_sum fun k (hk : k ∈ range m) => mul_le_mul (h.entry (mem_range.1 hk) hi) (h.LTL_err hj (mem_range.1 hk)).2 (abs_nonneg _) hR.le
    rwa [sum_const, card_range, nsmul_eq_mul] at this
  have h4 := pow_sub_one_le hu h.fits.u_le (1 + m) (m + 1) (by omega) (by have := h.fits.n_le; have := h.fits.mn; omega)
  set G := (1 + φ.u) ^ (1 + m)
  have hG1 : 0 ≤ G - 1 := by linarith [Near.one_le_pow φ (1 + m)]
  push_cast at h4
  have hG2 : G ≤ 101 / 100 := by linarith
  set P := R / r ^ 2 with hP
  have hP0 : 0 ≤ P := by positivity
  have hηP : φ.η ≤ φ.u * P := by rw [hP, mul_div_assoc', le_div_iff₀ (by positivity)]; exact h.eta_le.1
  have eT : m * (R * (23 / 10 / r ^ 2)) = 23 / 10 * m * P := by rw [hP]; ring
  rw [eT] at hT1
  have a1 : (G - 1) * T ≤ 2002 / 1000 * (m * φ.u) * (23 / 10 * m * P) := mul_le_mul (by linarith) hT1 hT0 (by positivity)
  have a2 : G * ((0:ℝ) + m * φ.η) ≤ 101 / 100 * (m * (φ.u * P)) := by
    rw [_root_.zero_add]
    exact mul_le_mul hG2 (mul_le_mul_of_nonneg_left hηP (by positivity)) (by positivity) (by norm_num)
  have hmm : (m:ℝ) * (φ.u * P) ≤ m ^ 2 * (φ.u * P) := mul_le_mul_of_nonneg_right (by nlinarith) (by positivity)
  have h5 : |(ATBT m J B i j).val - S| ≤ 57 / 10 * (m ^ 2 * (φ.u * P)) := by
    refine le_trans h2 ?_
    simp only [_root_.zero_add] at a2
    nlinarith
  have h6 : |S - ∑ k ∈ range m, (J k i).val * ∑ a ∈ range m, tri (invL m L).2 a j * tri (invL m L).2 a k| ≤ m * (R * (56 / 10 * m * φ.u / r ^ 2)) := by
    rw [hS, ← sum_sub_distrib]
    refine (abs_sum_le_sum_abs _ _).trans ?_
    have := sum_le_sum fun k (hk : k ∈ range m) => show |(J k i).val * (B j k).val - (J k i).val * ∑ a ∈ range m, tri (invL m L).2 a j * tri (invL m L).2 a k| ≤
        R * (56 / 10 * m * φ.u / r ^ 2) by
      rw [← mul_sub, abs_mul]
      exact mul_le_mul (h.entry (mem_range.1 hk) hi) (h.LTL_err hj (mem_range.1 hk)).1 (abs_nonneg _) hR.le
    rwa [sum_const, card_range, nsmul_eq_mul] at this
  have e6 : m * (R * (56 / 10 * m * φ.u / r ^ 2)) = 56 / 10 * (m ^ 2 * (φ.u * P)) := by rw [hP]; ring
  rw [e6] at h6
  constructor
  · refine (abs_sub_le _ S _).trans ((add_le_add h5 h6).trans (le_of_eq ?_))
    ring
  · have h7 := abs_add_le ((ATBT m J B i j).val - S) S
    rw [sub_add_cancel] at h7
    have h8 : |S| ≤ T := (abs_sum_le_sum_abs _ _).trans (le_of_eq (sum_congr rfl fun _ _ => abs_mul _ _))
    have h9 : (m:ℝ) ^ 2 * (φ.u * P) ≤ 1 / 500000 * (m * P) := by
      have := mul_le_mul_of_nonneg_right hmu (by positivity : 0 ≤ m * P)
      nlinarith
    have : 0 ≤ m * P := by positivity
    nlinarith

end Fac

/-- what is needed of a computed pseudo-inverse of the matrix `J` -/
structure Inverts (m n : ℕ) (R r : ℝ) (J inv : Mat (Fl φ)) : Prop where
  /-- it inverts the transposed matrix -/
  left : ∀ (x : ℕ → ℝ), ∀ j < m, |∑ i ∈ range n, (inv i j).val * (∑ k ∈ range m, (J k i).val * x k) - x j| ≤ 72 * n ^ 4 * φ.u * (R / r) ^ 3 * norm1 m x
  /-- its entries are bounded -/
  size : ∀ i < n, ∀ j < m, |(inv i j).val| ≤ 24 / 10 * m * (R / r ^ 2)
  /-- its columns are close to combinations of the rows -/
  span : m < n → ∃ b : ℕ → ℕ → ℝ, (∀ k < m, ∀ j < m, |b k j| ≤ 9 / 4 / r ^ 2) ∧
    ∀ i < n, ∀ j < m, |(inv i j).val - ∑ k ∈ range m, (J k i).val * b k j| ≤ 113 / 10 * m ^ 2 * φ.u * (R / r ^ 2)

theorem Fac.inverts {m n : ℕ} {R r : ℝ} {J L : Mat (Fl φ)} (h : Fac φ m n R r J L) : Inverts m n R r J (ATBT m J (LTL m (invL m L).2)) := by
  refine ⟨fun x j hj => ?_, fun i hi j hj => (h.ATBT_err hi hj).2, fun _ => ⟨fun k j => ∑ a ∈ range m, tri (invL m L).2 a j * tri (invL m L).2 a k,
    fun k hk j hj => ?_, fun i hi j hj => (h.ATBT_err hi hj).1⟩⟩
  on_goal 2 =>
    refine (abs_sum_le_sum_abs _ _).trans ((le_of_eq ?_).trans (h.colProd_le hj hk))
    exact sum_congr rfl fun _ _ => abs_mul _ _
  obtain ⟨hm1, hmn, hn, hnu, hc⟩ := h.consts
  have hr := h.r_pos
  have hR := h.R_pos
  have hu := φ.u_nonneg
  have hκ : 1 ≤ R / r := (one_le_div hr).2 h.rR
  set N := norm1 m x with hN
  have hN0 : 0 ≤ N := norm1_nonneg _ _
  set X := (invL m L).2 with hX
  set d : ℕ → ℝ := fun i => ∑ k ∈ range m, (J k i).val * x k with hd
  have hdR : ∀ i < n, |d i| ≤ R * N := fun i hi => abs_sum_mul_le (range m) (fun k => (J k i).val) x hR.le fun k hk => h.entry (mem_range.1 hk) hi
  set V : ℕ → ℝ := fun i => ∑ k ∈ range m, (J k i).val * ∑ a ∈ range m, tri X a j * tri X a k with hV
  have h1 : |∑ i ∈ range n, ((ATBT m J (LTL m X) i j).val - V i) * d i| ≤ n * (113 / 10 * m ^ 2 * φ.u * (R / r ^ 2) * (R * N)) := by
    refine (abs_sum_le_sum_abs _ _).trans ?_
    have := sum_le_sum fun i (hi : i ∈ range n) => show |((ATBT m J (LTL m X) i j).val - V i) * d i| ≤ 113 / 10 * m ^ 2 * φ.u * (R / r ^ 2) * (R * N) by
      rw [abs_mul]
      exact mul_le_mul (h.ATBT_err (mem_range.1 hi) hj).1 (hdR i (mem_range.1 hi)) (abs_nonneg _) (by positivity)
    rwa [sum_const, card_range, nsmul_eq_mul] at this
  have h2 := h.gram_inv x hj
  rw [← hN] at h2
  have e1 : ∑ i ∈ range n, V i * d i = ∑ k ∈ range m, tri X k j * ∑ l ∈ range m, tri X k l * ∑ p ∈ range m, rowProd n J l p * x p := by
    have b1 : ∀ l, ∑ p ∈ range m, rowProd n J l p * x p = ∑ i ∈ range n, (J l i).val * d i := fun l => by
      simp only [rowProd, hd, sum_mul, mul_sum]
      rw [sum_comm]
      exact sum_congr rfl fun _ _ => sum_congr rfl fun _ _ => by ring
    simp only [b1, hV, sum_mul, mul_sum]
    have b2 : ∀ (F : ℕ → ℕ → ℕ → ℝ), ∑ i ∈ range n, ∑ k ∈ range m, ∑ a ∈ range m, F i k a = ∑ a ∈ range m, ∑ k ∈ range m, ∑ i ∈ range n, F i k a := fun F => by
      rw [sum_comm, sum_comm' (s := range m) (t := fun _ => range m) (t' := range m) (s' := fun _ => range m) (by simp)]
      refine sum_congr rfl fun k _ => ?_
      rw [sum_comm]
    rw [b2]
    exact sum_congr rfl fun _ _ => sum_congr rfl fun _ _ => sum_congr rfl fun _ _ => by ring
  have e2 : ∑ i ∈ range n, (ATBT m J (LTL m X) i j).val * d i - x j =
      ∑ i ∈ range n, ((ATBT m J (LTL m X) i j).val - V i) * d i + (∑ i ∈ range n, V i * d i - x j) := by
    simp only [sub_mul, sum_sub_distrib]
    ring
  rw [e2, e1]
  refine (abs_add_le _ _).trans ((add_le_add h1 h2).trans ?_)
  have e3 : n * (113 / 10 * m ^ 2 * φ.u * (R / r ^ 2) * (R * N)) = 113 / 10 * (m ^ 2 * n * (R / r) ^ 2) * (φ.u * N) := by
    rw [div_pow]; field_simp
  rw [e3]
  set κ := R / r with hκd
  have a1 : (m:ℝ) ^ 2 * n * κ ^ 2 ≤ n ^ 4 * κ ^ 3 := by
    refine mul_le_mul ?_ (pow_le_pow_right₀ hκ (by norm_num)) (by positivity) (by positivity)
    have b1 : (m:ℝ) ^ 2 * n ≤ n ^ 2 * n := mul_le_mul_of_nonneg_right (pow_le_pow_left₀ (by linarith) hmn 2) (by linarith)
    have b2 : (n:ℝ) ^ 3 ≤ n ^ 4 := pow_le_pow_right₀ (by linarith) (by norm_num)
    nlinarith
  have a2 := mul_le_mul_of_nonneg_right a1 (by positivity : 0 ≤ φ.u * N)
  have a3 : 0 ≤ n ^ 4 * κ ^ 3 * (φ.u * N) := by positivity
  nlinarith

end Verif.FloatInv
