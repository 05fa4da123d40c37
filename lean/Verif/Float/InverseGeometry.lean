import Verif.Float.InverseLocal
import Verif.Float.EmbedModel

/-! The geometry object: its members are within the errors of `InverseLocal`. -/

namespace Verif.FloatInv

open Verif.Float Verif.RefGeom Verif.FloatVol Verif.FloatNewton Verif.FloatEmbed
open Finset hiding ext

variable {φ : Format} {m n : ℕ} {R r : ℝ} {e : ℕ → ℕ → ℝ} {J : Mat (Fl φ)}

/-- the construction succeeds -/
theorem Regular.some (h : Regular φ m n R r e) (hJ : ∀ k < m, ∀ c < n, |(J k c).val - e k c| ≤ φ.u * |e k c|) (id : ℕ) (o : ℕ → Fl φ)
    (ret ret' : Mat (Fl φ)) : ∃ g, Geometry.ofJacobian m n id o J ret ret' = some g ∧ g.mydim = m ∧ g.cdim = n ∧ g.origin = o ∧ g.jt = J ∧
      Inverts m n (1001 / 1000 * R) (98 / 100 * r) J g.jit := by
  obtain ⟨ie, inv, h1, h2⟩ := rightInv_inverts (h.good hJ) ret ret'
  refine ⟨⟨m, n, id, o, J, inv, ie⟩, ?_, rfl, rfl, rfl, rfl, h2⟩
  rw [Geometry.ofJacobian, h1]
  rfl

theorem kappa_le {R r : ℝ} (hR : 0 < R) (hr : 0 < r) : (1001 / 1000 * R / (98 / 100 * r)) ^ 3 ≤ 107 / 100 * (R / r) ^ 3 ∧
    1001 / 1000 * R / (98 / 100 * r) ^ 2 ≤ 105 / 100 * (R / r ^ 2) ∧ 9 / 4 / (98 / 100 * r) ^ 2 ≤ 235 / 100 / r ^ 2 := by
  refine ⟨?_, ?_, ?_⟩
  · have : (1001 / 1000 * R / (98 / 100 * r)) ^ 3 = (1001 / 980) ^ 3 * (R / r) ^ 3 := by rw [← mul_pow]; congr 1; field_simp; norm_num
    rw [this]
    exact mul_le_mul_of_nonneg_right (by norm_num) (by positivity)
  · have : 1001 / 1000 * R / (98 / 100 * r) ^ 2 = 10010 / 9604 * (R / r ^ 2) := by field_simp; norm_num
    rw [this]
    exact mul_le_mul_of_nonneg_right (by norm_num) (by positivity)
  · have : 9 / 4 / (98 / 100 * r) ^ 2 = 22500 / 9604 * (1 / r ^ 2) := by field_simp; norm_num
    rw [this, div_eq_mul_one_div (235 / 100) (r ^ 2)]
    exact mul_le_mul_of_nonneg_right (by norm_num) (by positivity)

/-- `local` in terms of the exact edges -/
theorem Regular.local_ (h : Regular φ m n R r e) (hJ : ∀ k < m, ∀ c < n, |(J k c).val - e k c| ≤ φ.u * |e k c|) {inv : Mat (Fl φ)}
    (hinv : Inverts m n (1001 / 1000 * R) (98 / 100 * r) J inv) (o y : ℕ → Fl φ) (x s ρ : ℕ → ℝ)
    (hy : ∀ i < n, (y i).val = (o i).val + (∑ k ∈ range m, e k i * x k) + s i + ρ i) (hs : ∀ k < m, ∑ i ∈ range n, e k i * s i = 0)
    {j : ℕ} (hj : j < m) :
    |(addLoop 0 0 n fun i => inv i j * (y i - o i)).val - x j| ≤ 90 * n ^ 4 * φ.u * (R / r) ^ 3 * norm1 m x + 3 * m * (R / r ^ 2) * norm1 n ρ +
      25 * n ^ 2 * φ.u * (R / r ^ 2) * norm1 n s + 2 * n * φ.η := by
  obtain ⟨hm1, hmn, hn, hnu⟩ := h.consts
  have hn1 : (1:ℝ) ≤ n := hm1.trans hmn
  have hu := h.u_pos
  have hu2 := h.u_small
  have hη := φ.η_nonneg
  have hR := h.R_pos
  have hr := h.r_pos
  have hrR := h.rR
  have hκ : 1 ≤ R / r := (one_le_div hr).2 hrR
  have hg := h.good hJ
  have hJR : ∀ k < m, ∀ i < n, |(J k i).val| ≤ 1001 / 1000 * R := fun k hk i hi => by
    refine abs_le_of_sq_le_sq (le_trans ?_ (hg.row ⟨k, hk⟩)) hg.R_pos.le
    exact single_le_sum (f := fun c : Fin n => valM J k c ^ 2) (fun c _ => sq_nonneg _) (mem_univ (⟨i, hi⟩ : Fin n))
  set N := norm1 m x with hN
  set S := norm1 n s with hS
  set Q := norm1 n ρ with hQ
  have hN0 : 0 ≤ N := norm1_nonneg _ _
  have hS0 : 0 ≤ S := norm1_nonneg _ _
  have hQ0 : 0 ≤ Q := norm1_nonneg _ _
  set ρ' : ℕ → ℝ := fun i => ρ i - ∑ k ∈ range m, ((J k i).val - e k i) * x k with hρ'
  have hJe : ∀ k < m, ∀ i < n, |(J k i).val - e k i| ≤ φ.u * R := fun k hk i hi =>
    (hJ k hk i hi).trans (mul_le_mul_of_nonneg_left (h.entry hk hi) hu.le)
  have h1 := local_err h.m_pos h.mn h.n_le h.u_le (by positivity : 0 < 98 / 100 * r) (by linarith) hinv hJR o y x s ρ' (τ := φ.u * R * S)
    (fun i hi => by
      rw [hy i hi, hρ']
      simp only [sub_mul, sum_sub_distrib]
      ring)
    (fun k hk => by
      have e1 : ∑ i ∈ range n, (J k i).val * s i = ∑ i ∈ range n, ((J k i).val - e k i) * s i := by
        simp only [sub_mul, sum_sub_distrib]
        rw [hs k hk, _root_.sub_zero]
      rw [e1]
      exact abs_sum_mul_le (range n) (fun i => (J k i).val - e k i) s (by positivity) fun i hi => hJe k hk i (mem_range.1 hi))
    (fun heq => by
      subst heq
      exact orthogonal_zero hr h.ind s hs) hj
  have h2 : norm1 n ρ' ≤ Q + n * (φ.u * R * N) := by
    have : norm1 n ρ' ≤ ∑ i ∈ range n, (|ρ i| + φ.u * R * N) := sum_le_sum fun i hi => by
      refine (abs_sub _ _).trans (add_le_add_right ?_ _)
      exact abs_sum_mul_le (range m) (fun k => (J k i).val - e k i) x (by positivity) fun k hk => hJe k (mem_range.1 hk) i (mem_range.1 hi)
    refine this.trans (le_of_eq ?_)
    rw [sum_add_distrib, sum_const, card_range, nsmul_eq_mul]
    rfl
  obtain ⟨k1, k2, k3⟩ := kappa_le hR hr
  refine h1.trans ?_
  set κ := R / r with hκd
  set P := R / r ^ 2 with hP
  have hP0 : 0 ≤ P := by positivity
  have hPR : P * R = κ ^ 2 := by rw [hP, hκd]; field_simp
  have a1 : 80 * n ^ 4 * φ.u * (1001 / 1000 * R / (98 / 100 * r)) ^ 3 * N ≤ 80 * n ^ 4 * φ.u * (107 / 100 * κ ^ 3) * N := by gcongr
  have a2 : 242 / 100 * m * (1001 / 1000 * R / (98 / 100 * r) ^ 2) * norm1 n ρ' ≤ 242 / 100 * m * (105 / 100 * P) * (Q + n * (φ.u * R * N)) := by
    have := norm1_nonneg n ρ'
    gcongr
  have a3 : 19 * n ^ 2 * φ.u * (1001 / 1000 * R / (98 / 100 * r) ^ 2) * S ≤ 19 * n ^ 2 * φ.u * (105 / 100 * P) * S := by gcongr
  have a4 : m * (9 / 4 / (98 / 100 * r) ^ 2) * (φ.u * R * S) ≤ m * (235 / 100 / r ^ 2) * (φ.u * R * S) := by gcongr
  have b2 : 242 / 100 * m * (105 / 100 * P) * (Q + n * (φ.u * R * N)) = 2541 / 1000 * (m * P * Q) + 2541 / 1000 * (m * n * κ ^ 2) * (φ.u * N) := by
    rw [← hPR]; ring
  have b4 : m * (235 / 100 / r ^ 2) * (φ.u * R * S) = 235 / 100 * m * (φ.u * P * S) := by rw [hP]; ring
  have c2 : (m:ℝ) * n * κ ^ 2 ≤ n ^ 4 * κ ^ 3 := by
    refine mul_le_mul ?_ (pow_le_pow_right₀ hκ (by norm_num)) (by positivity) (by positivity)
    have b1 : (m:ℝ) * n ≤ n * n := by gcongr
    have b2 : (n:ℝ) ^ 2 ≤ n ^ 4 := pow_le_pow_right₀ hn1 (by norm_num)
    linarith
  have c3 := mul_le_mul_of_nonneg_right c2 (by positivity : 0 ≤ φ.u * N)
  have c4 : (m:ℝ) * (φ.u * P * S) ≤ n ^ 2 * (φ.u * P * S) := mul_le_mul_of_nonneg_right (by nlinarith) (by positivity)
  have d1 : 0 ≤ n ^ 4 * κ ^ 3 * (φ.u * N) := by positivity
  have d2 : 0 ≤ m * P * Q := by positivity
  have d3 : 0 ≤ n ^ 2 * (φ.u * P * S) := by positivity
  have t1 : 90 * n ^ 4 * φ.u * κ ^ 3 * N = 90 * (n ^ 4 * κ ^ 3 * (φ.u * N)) := by ring
  have t2 : 3 * m * P * Q = 3 * (m * P * Q) := by ring
  have t3 : 25 * n ^ 2 * φ.u * P * S = 25 * (n ^ 2 * (φ.u * P * S)) := by ring
  have t4 : 80 * n ^ 4 * φ.u * (107 / 100 * κ ^ 3) * N = 856 / 10 * (n ^ 4 * κ ^ 3 * (φ.u * N)) := by ring
  have t5 : 19 * n ^ 2 * φ.u * (105 / 100 * P) * S = 1995 / 100 * (n ^ 2 * (φ.u * P * S)) := by ring
  rw [t4] at a1
  rw [b2] at a2
  rw [t5] at a3
  rw [b4] at a4
  rw [t1, t2, t3]
  linarith

/-- `jacobianInverseTransposed` in terms of the exact edges -/
theorem Regular.inverse (h : Regular φ m n R r e) (hJ : ∀ k < m, ∀ c < n, |(J k c).val - e k c| ≤ φ.u * |e k c|) {inv : Mat (Fl φ)}
    (hinv : Inverts m n (1001 / 1000 * R) (98 / 100 * r) J inv) {k j : ℕ} (hk : k < m) (hj : j < m) :
    |(∑ i ∈ range n, e k i * (inv i j).val) - if k = j then 1 else 0| ≤ 90 * n ^ 4 * φ.u * (R / r) ^ 3 := by
  obtain ⟨hm1, hmn, hn, hnu⟩ := h.consts
  have hn1 : (1:ℝ) ≤ n := hm1.trans hmn
  have hu := h.u_pos
  have hR := h.R_pos
  have hr := h.r_pos
  have hκ : 1 ≤ R / r := (one_le_div hr).2 h.rR
  have h1 := hinv.left (fun l => if l = k then 1 else 0) j hj
  have e1 : norm1 m (fun l => if l = k then (1:ℝ) else 0) = 1 := by
    rw [norm1, sum_congr rfl fun l _ => show |(if l = k then (1:ℝ) else 0)| = if l = k then 1 else 0 by split_ifs <;> simp,
      sum_ite_eq', if_pos (mem_range.2 hk)]
  have e2 : ∑ i ∈ range n, (inv i j).val * ∑ l ∈ range m, (J l i).val * (if l = k then (1:ℝ) else 0) = ∑ i ∈ range n, (inv i j).val * (J k i).val := by
    refine sum_congr rfl fun i _ => ?_
    congr 1
    simp only [mul_ite, _root_.mul_one, MulZeroClass.mul_zero, sum_ite_eq', mem_range, hk, if_true]
  rw [e1, e2] at h1
  have h2 : |∑ i ∈ range n, (e k i - (J k i).val) * (inv i j).val| ≤ φ.u * R * (n * (24 / 10 * m * (1001 / 1000 * R / (98 / 100 * r) ^ 2))) := by
    refine (abs_sum_mul_le (range n) (fun i => e k i - (J k i).val) (fun i => (inv i j).val) (r := φ.u * R) (by positivity) fun i hi => ?_).trans ?_
    · rw [abs_sub_comm]
      exact (hJ k hk i (mem_range.1 hi)).trans (mul_le_mul_of_nonneg_left (h.entry hk (mem_range.1 hi)) hu.le)
    · exact mul_le_mul_of_nonneg_left (norm1_le fun i hi => hinv.size i hi j hj) (by positivity)
  have e3 : (∑ i ∈ range n, e k i * (inv i j).val) - (if k = j then 1 else 0) =
      (∑ i ∈ range n, (inv i j).val * (J k i).val - if j = k then 1 else 0) + ∑ i ∈ range n, (e k i - (J k i).val) * (inv i j).val := by
    simp only [sub_mul, sum_sub_distrib, mul_comm (inv _ j).val, eq_comm (a := j)]
    ring
  rw [e3]
  refine (abs_add_le _ _).trans ?_
  obtain ⟨k1, k2, k3⟩ := kappa_le hR hr
  set κ := R / r with hκd
  set P := R / r ^ 2 with hP
  have hPR : P * R = κ ^ 2 := by rw [hP, hκd]; field_simp
  have a1 : 72 * n ^ 4 * φ.u * (1001 / 1000 * R / (98 / 100 * r)) ^ 3 * 1 ≤ 72 * n ^ 4 * φ.u * (107 / 100 * κ ^ 3) * 1 := by gcongr
  have a2 : φ.u * R * (n * (24 / 10 * m * (1001 / 1000 * R / (98 / 100 * r) ^ 2))) ≤ φ.u * R * (n * (24 / 10 * m * (105 / 100 * P))) := by gcongr
  have b2 : φ.u * R * (n * (24 / 10 * m * (105 / 100 * P))) = 252 / 100 * (m * n * κ ^ 2) * φ.u := by rw [← hPR]; ring
  have c2 : (m:ℝ) * n * κ ^ 2 ≤ n ^ 4 * κ ^ 3 := by
    refine mul_le_mul ?_ (pow_le_pow_right₀ hκ (by norm_num)) (by positivity) (by positivity)
    have b1 : (m:ℝ) * n ≤ n * n := by gcongr
    have b2 : (n:ℝ) ^ 2 ≤ n ^ 4 := pow_le_pow_right₀ hn1 (by norm_num)
    linarith
  have c3 := mul_le_mul_of_nonneg_right c2 hu.le
  have d1 : 0 ≤ n ^ 4 * κ ^ 3 * φ.u := by positivity
  have t1 : 90 * n ^ 4 * φ.u * κ ^ 3 = 90 * (n ^ 4 * κ ^ 3 * φ.u) := by ring
  have t2 : 72 * n ^ 4 * φ.u * (107 / 100 * κ ^ 3) * 1 = 7704 / 100 * (n ^ 4 * κ ^ 3 * φ.u) := by ring
  rw [t2] at a1
  rw [b2] at a2
  rw [t1]
  linarith

/-- `local` after `global` -/
theorem Regular.roundtrip (h : Regular φ m n R r e) (hJ : ∀ k < m, ∀ c < n, |(J k c).val - e k c| ≤ φ.u * |e k c|) {inv : Mat (Fl φ)}
    (hinv : Inverts m n (1001 / 1000 * R) (98 / 100 * r) J inv) (o x : ℕ → Fl φ) {O : ℝ} (ho : ∀ i < n, |(o i).val| ≤ O) {j : ℕ} (hj : j < m) :
    |(addLoop 0 0 n fun i => inv i j * (affineGlobal m o J x i - o i)).val - (x j).val| ≤
      100 * n ^ 4 * φ.u * (R / r) ^ 3 * ((norm1 m fun k => (x k).val) + O / R) + 4 * n ^ 3 * φ.η * (R / r) ^ 2 * (1 + 1 / R) := by
  obtain ⟨hm1, hmn, hn, hnu⟩ := h.consts
  have hn1 : (1:ℝ) ≤ n := hm1.trans hmn
  have hu := h.u_pos
  have hη := φ.η_nonneg
  have hR := h.R_pos
  have hr := h.r_pos
  have hκ : 1 ≤ R / r := (one_le_div hr).2 h.rR
  have hO : 0 ≤ O := (abs_nonneg _).trans (ho 0 (lt_of_lt_of_le h.m_pos h.mn))
  set N := norm1 m fun k => (x k).val with hN
  have hN0 : 0 ≤ N := norm1_nonneg _ _
  set ρ : ℕ → ℝ := fun i => (affineGlobal m o J x i).val - ((o i).val + ∑ k ∈ range m, e k i * (x k).val) with hρ
  have h1 := h.local_ hJ hinv o (affineGlobal m o J x) (fun k => (x k).val) (fun _ => 0) ρ (fun i hi => by rw [hρ]; ring) (fun k hk => by simp) hj
  have e0 : norm1 n (fun _ => (0:ℝ)) = 0 := by simp [norm1]
  rw [e0, MulZeroClass.mul_zero, _root_.add_zero] at h1
  have h2 : norm1 n ρ ≤ n * (31 / 10 * m * φ.u * (O + R * N) + 101 / 100 * m * φ.η) :=
    norm1_le fun i hi => global_err (h.mn.trans h.n_le) h.m_pos h.u_le hR.le hJ (fun k hk i hi => h.entry hk hi) o x hi (ho i hi)
  refine h1.trans ?_
  set κ := R / r with hκd
  have hP : R / r ^ 2 = κ ^ 2 / R := by rw [hκd]; field_simp
  rw [hP]
  have a2 : 3 * m * (κ ^ 2 / R) * norm1 n ρ ≤ 3 * m * (κ ^ 2 / R) * (n * (31 / 10 * m * φ.u * (O + R * N) + 101 / 100 * m * φ.η)) := by gcongr
  have b2 : 3 * m * (κ ^ 2 / R) * (n * (31 / 10 * m * φ.u * (O + R * N) + 101 / 100 * m * φ.η)) =
      93 / 10 * (m * m * n * κ ^ 2) * (φ.u * (N + O / R)) + 303 / 100 * (m * m * n) * (κ ^ 2 * φ.η * (1 / R)) := by field_simp; ring
  have c1 : (m:ℝ) * m * n ≤ n ^ 3 := by
    have : (m:ℝ) * m * n ≤ n * n * n := by gcongr
    linarith
  have c2 : (m:ℝ) * m * n * κ ^ 2 ≤ n ^ 4 * κ ^ 3 :=
    mul_le_mul (c1.trans (pow_le_pow_right₀ hn1 (by norm_num))) (pow_le_pow_right₀ hκ (by norm_num)) (by positivity) (by positivity)
  have hOR : 0 ≤ O / R := by positivity
  have c3 := mul_le_mul_of_nonneg_right c2 (by positivity : 0 ≤ φ.u * (N + O / R))
  have c4 := mul_le_mul_of_nonneg_right c1 (by positivity : 0 ≤ κ ^ 2 * φ.η * (1 / R))
  have c5 : (n:ℝ) * φ.η ≤ n ^ 3 * (κ ^ 2 * φ.η) := by
    have b1 : (n:ℝ) ≤ n ^ 3 := le_self_pow₀ hn1 (by norm_num)
    have b2 : φ.η ≤ κ ^ 2 * φ.η := le_mul_of_one_le_left hη (one_le_pow₀ hκ)
    exact mul_le_mul b1 b2 hη (by positivity)
  have d1 : 0 ≤ n ^ 4 * κ ^ 3 * (φ.u * (N + O / R)) := by positivity
  have d2 : 0 ≤ n ^ 4 * κ ^ 3 * (φ.u * (O / R)) := by positivity
  have d3 : 0 ≤ n ^ 3 * (κ ^ 2 * φ.η) := by positivity
  have d4 : 0 ≤ n ^ 3 * (κ ^ 2 * φ.η * (1 / R)) := by positivity
  have t1 : 100 * n ^ 4 * φ.u * κ ^ 3 * (N + O / R) = 100 * (n ^ 4 * κ ^ 3 * (φ.u * (N + O / R))) := by ring
  have t2 : 90 * n ^ 4 * φ.u * κ ^ 3 * N = 90 * (n ^ 4 * κ ^ 3 * (φ.u * (N + O / R))) - 90 * (n ^ 4 * κ ^ 3 * (φ.u * (O / R))) := by ring
  have t3 : 4 * n ^ 3 * φ.η * κ ^ 2 * (1 + 1 / R) = 4 * (n ^ 3 * (κ ^ 2 * φ.η)) + 4 * (n ^ 3 * (κ ^ 2 * φ.η * (1 / R))) := by ring
  rw [b2] at a2
  rw [t1, t2, t3]
  linarith

/-- `global` after `local`, for points of the image -/
theorem Regular.roundtrip' (h : Regular φ m n R r e) (hJ : ∀ k < m, ∀ c < n, |(J k c).val - e k c| ≤ φ.u * |e k c|) {inv : Mat (Fl φ)}
    (hinv : Inverts m n (1001 / 1000 * R) (98 / 100 * r) J inv) (o y : ℕ → Fl φ) (x : ℕ → ℝ) {O : ℝ} (ho : ∀ i < n, |(o i).val| ≤ O)
    (hy : ∀ i < n, (y i).val = (o i).val + ∑ k ∈ range m, e k i * x k) {i : ℕ} (hi : i < n) :
    |(affineGlobal m o J (fun j => addLoop 0 0 n fun i => inv i j * (y i - o i)) i).val - (y i).val| ≤
      100 * n ^ 5 * φ.u * (R / r) ^ 3 * (R * norm1 m x + O) + 3 * n ^ 2 * φ.η * (1 + R) := by
  obtain ⟨hm1, hmn, hn, hnu⟩ := h.consts
  have hn1 : (1:ℝ) ≤ n := hm1.trans hmn
  have hu := h.u_pos
  have hη := φ.η_nonneg
  have hR := h.R_pos
  have hr := h.r_pos
  have hκ : 1 ≤ R / r := (one_le_div hr).2 h.rR
  have hO : 0 ≤ O := (abs_nonneg _).trans (ho 0 (lt_of_lt_of_le h.m_pos h.mn))
  set N := norm1 m x with hN
  have hN0 : 0 ≤ N := norm1_nonneg _ _
  set z : ℕ → Fl φ := fun j => addLoop 0 0 n fun i => inv i j * (y i - o i) with hz
  have e0 : norm1 n (fun _ => (0:ℝ)) = 0 := by simp [norm1]
  set Δ := 90 * n ^ 4 * φ.u * (R / r) ^ 3 * N + 2 * n * φ.η with hΔ
  have hΔ0 : 0 ≤ Δ := by positivity
  have h1 : ∀ j < m, |(z j).val - x j| ≤ Δ := fun j hj => by
    have := h.local_ hJ hinv o y x (fun _ => 0) (fun _ => 0) (fun i hi => by rw [hy i hi]; ring) (fun k hk => by simp) hj
    rwa [e0, MulZeroClass.mul_zero, MulZeroClass.mul_zero, _root_.add_zero, _root_.add_zero] at this
  have h2 := global_err (h.mn.trans h.n_le) h.m_pos h.u_le hR.le hJ (fun k hk i hi => h.entry hk hi) o z hi (ho i hi)
  have h3 : norm1 m (fun k => (z k).val) ≤ N + m * Δ := by
    have : norm1 m (fun k => (z k).val) ≤ ∑ k ∈ range m, (|x k| + Δ) := sum_le_sum fun k hk => by
      have a1 := abs_add_le (x k) ((z k).val - x k)
      rw [add_sub_cancel] at a1
      linarith [h1 k (mem_range.1 hk)]
    refine this.trans (le_of_eq ?_)
    rw [sum_add_distrib, sum_const, card_range, nsmul_eq_mul]
    rfl
  have h4 : |∑ k ∈ range m, e k i * ((z k).val - x k)| ≤ R * (m * Δ) :=
    (abs_sum_mul_le (range m) (fun k => e k i) (fun k => (z k).val - x k) hR.le fun k hk => h.entry (mem_range.1 hk) hi).trans
      (mul_le_mul_of_nonneg_left (norm1_le (v := fun k => (z k).val - x k) h1) hR.le)
  have e1 : (affineGlobal m o J z i).val - (y i).val = ((affineGlobal m o J z i).val - ((o i).val + ∑ k ∈ range m, e k i * (z k).val)) +
      ∑ k ∈ range m, e k i * ((z k).val - x k) := by
    rw [hy i hi]
    simp only [mul_sub, sum_sub_distrib]
    ring
  rw [e1]
  refine (abs_add_le _ _).trans ?_
  have a1 : 31 / 10 * m * φ.u * (O + R * norm1 m fun k => (z k).val) ≤ 31 / 10 * m * φ.u * (O + R * (N + m * Δ)) := by gcongr
  have hmu : (m:ℝ) * φ.u ≤ 1 / 500000 := le_trans (mul_le_mul_of_nonneg_right hmn hu.le) hnu
  have a2 : 31 / 10 * m * φ.u * (O + R * (N + m * Δ)) = 31 / 10 * (m * φ.u * (R * N + O)) + 31 / 10 * (m * φ.u) * (R * (m * Δ)) := by ring
  have a3 : 31 / 10 * (m * φ.u) * (R * (m * Δ)) ≤ 1 / 1000 * (R * (m * Δ)) := mul_le_mul_of_nonneg_right (by linarith) (by positivity)
  have a4 : R * (m * Δ) ≤ R * (n * Δ) := by gcongr
  set κ := R / r with hκd
  have b1 : R * (n * Δ) = 90 * (n ^ 5 * κ ^ 3 * (φ.u * (R * N + O))) - 90 * (n ^ 5 * κ ^ 3 * (φ.u * O)) + 2 * (n ^ 2 * φ.η * R) := by rw [hΔ]; ring
  have b2 : (m:ℝ) * φ.u * (R * N + O) ≤ n ^ 5 * κ ^ 3 * (φ.u * (R * N + O)) := by
    have c1 : (m:ℝ) ≤ n ^ 5 * κ ^ 3 := by
      have c2 : (n:ℝ) ≤ n ^ 5 := le_self_pow₀ hn1 (by norm_num)
      have c3 : (n:ℝ) ^ 5 ≤ n ^ 5 * κ ^ 3 := le_mul_of_one_le_right (by positivity) (one_le_pow₀ hκ)
      linarith
    have := mul_le_mul_of_nonneg_right c1 (by positivity : 0 ≤ φ.u * (R * N + O))
    linarith
  have b3 : (m:ℝ) * φ.η ≤ n ^ 2 * φ.η := mul_le_mul_of_nonneg_right (by nlinarith) hη
  have d1 : 0 ≤ n ^ 5 * κ ^ 3 * (φ.u * O) := by positivity
  have d2 : 0 ≤ n ^ 5 * κ ^ 3 * (φ.u * (R * N + O)) := by positivity
  have d3 : 0 ≤ n ^ 2 * φ.η * R := by positivity
  have d4 : 0 ≤ n ^ 2 * φ.η := by positivity
  have t1 : 100 * n ^ 5 * φ.u * κ ^ 3 * (R * N + O) = 100 * (n ^ 5 * κ ^ 3 * (φ.u * (R * N + O))) := by ring
  have t2 : 3 * n ^ 2 * φ.η * (1 + R) = 3 * (n ^ 2 * φ.η) + 3 * (n ^ 2 * φ.η * R) := by ring
  rw [t1, t2]
  clear_value Δ z N κ
  linarith

end Verif.FloatInv
