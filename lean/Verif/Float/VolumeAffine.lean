import Verif.Float.VolumeEntries

/-! The right inverse of a Jacobian in floating-point arithmetic. -/

namespace Verif.FloatVol

open Verif.Float Verif.RefGeom HasSqrt HasAbs
open Finset hiding ext

variable {φ : Format}

noncomputable instance : DecidableEq (Fl φ) := Classical.decEq _

/-- `JJᵀ` for a matrix with `m` rows and `n` columns -/
def gram (m n : ℕ) (e : ℕ → ℕ → ℝ) : Matrix (Fin m) (Fin m) ℝ := Matrix.of fun k j => ∑ c : Fin n, e k c * e j c

/-- the rows are linearly independent by a margin: all singular values are at least `√lam` -/
def IndependentBy (m n : ℕ) (e : ℕ → ℕ → ℝ) (lam : ℝ) : Prop := ∀ w : Fin m → ℝ, lam * ∑ k, w k ^ 2 ≤ ∑ c : Fin n, (∑ k, w k * e k c) ^ 2

/-- the Euclidean length of each row is at most `√D` -/
def RowsWithin (m n : ℕ) (e : ℕ → ℕ → ℝ) (D : ℝ) : Prop := ∀ k : Fin m, ∑ c : Fin n, e k c ^ 2 ≤ D

theorem form_gram (m n : ℕ) (e : ℕ → ℕ → ℝ) (w : Fin m → ℝ) :
    ∑ c : Fin n, (∑ k : Fin m, w k * e k c) ^ 2 = ∑ k : Fin m, ∑ j : Fin m, w k * w j * ∑ c ∈ range n, e k c * e j c := by
  have : ∀ c : Fin n, (∑ k : Fin m, w k * e k c) ^ 2 = ∑ k : Fin m, ∑ j : Fin m, w k * w j * (e k c * e j c) := fun c => by
    rw [sq, sum_mul_sum]
    exact sum_congr rfl fun k _ => sum_congr rfl fun j _ => by ring
  rw [sum_congr rfl fun c _ => this c, sum_comm]
  refine sum_congr rfl fun k _ => ?_
  rw [sum_comm]
  refine sum_congr rfl fun j _ => ?_
  rw [← mul_sum, sum_range]

set_option maxHeartbeats 1000000 in
/-- the computed right inverse and integration element -/
theorem right_inverse (m n : ℕ) (hm : 1 ≤ m) (hmn : m ≤ n) (hn : n ≤ 29) (J : Mat (Fl φ)) (e : ℕ → ℕ → ℝ) (ret ret' : Mat (Fl φ)) {D lam : ℝ}
    (hu : 0 < φ.u) (hu' : φ.u ≤ 1 / 2 ^ 24) (hη : φ.η ≤ φ.u) (hlow : φ.η ≤ φ.u ^ 2 * D) (hhigh : 8 * φ.η ^ 2 * D ≤ φ.u ^ 2)
    (hJ : ∀ r c, c < n → r < m → |(J r c).val - e r c| ≤ φ.u * |e r c|) (hrow : RowsWithin m n e D) (hind : IndependentBy m n e lam) (hlam0 : 0 < lam)
    (hlam : 50 * m * n * φ.u * D ≤ lam) :
    ∃ det inv P, (spdInvA m (AAT_L n J ret) ret').map (fun s => (s.1, ATBT m J s.2)) = some (det, inv) ∧
      spdDetA m (AAT_L n J ret) ret' = some det ∧ 0 < P ∧
      (1 - 17 * m * n * φ.u * D / lam) ^ m * (gram m n e).det ≤ P ^ 2 ∧ P ^ 2 ≤ (1 + 17 * m * n * φ.u * D / lam) ^ m * (gram m n e).det ∧
      Near φ m (m * φ.η * (1 + D) ^ m) det.val P P ∧ P ≤ (1 + D) ^ m := by
  have hm1 : (1:ℝ) ≤ m := by exact_mod_cast hm
  have hn1 : (1:ℝ) ≤ n := by exact_mod_cast (hm.trans hmn)
  have hmn' : (m:ℝ) ≤ n := by exact_mod_cast hmn
  have hn' : (n:ℝ) ≤ 29 := by exact_mod_cast hn
  have hη0 := φ.η_nonneg
  have hu2 : φ.u ≤ 1 / 10000000 := hu'.trans (by norm_num)
  have hrow' : ∀ k, k < m → ∑ c ∈ range n, e k c ^ 2 ≤ D := fun k hk => by
    have := hrow ⟨k, hk⟩
    rwa [← sum_range (fun c => e k c ^ 2)] at this
  have hD : 0 ≤ D := (sum_nonneg fun c _ => sq_nonneg _).trans (hrow' 0 (by omega))
  have huD : 0 ≤ φ.u * D := mul_nonneg hu.le hD
  set S : ℕ → ℕ → ℝ := fun k j => ∑ c ∈ range n, e k c * e j c with hS
  have hSs : ∀ k j, S k j = S j k := fun k j => sum_congr rfl fun c _ => mul_comm _ _
  set A := AAT_L n J ret with hAd
  set F := 31 / 10 * n * φ.u * D with hF
  have hF0 : 0 ≤ F := by positivity
  have hgram : ∀ k j, j ≤ k → k < m → |(A k j).val - S k j| ≤ F ∧ |S k j| ≤ D := fun k j hjk hk =>
    gram_bound hu hu' hlow hD n (by omega) hn J e ret k j hjk (fun r c hc hr => hJ r c hc (by omega)) (hrow' k hk) (hrow' j (by omega))
  have hFD : F ≤ 1 / 1000 * D := by
    have : 31 / 10 * (n:ℝ) * φ.u ≤ 1 / 1000 := by nlinarith
    exact mul_le_mul_of_nonneg_right this hD
  set D' := 1001 / 1000 * D with hD'
  have hR : InRange φ D' := by
    refine ⟨hu, hu', hη, hlow.trans ?_, ?_⟩
    · exact mul_le_mul_of_nonneg_left (by linarith) (by positivity)
    · have : 0 ≤ φ.η ^ 2 * D := by positivity
      rw [hD']
      linarith
  have hA : ∀ k l, l ≤ k → k < m → |(A k l).val| ≤ D' := fun k l hlk hk => by
    obtain ⟨h1, h2⟩ := hgram k l hlk hk
    have := abs_add_le ((A k l).val - S k l) (S k l)
    rw [sub_add_cancel] at this
    linarith
  have hsym : ∀ k j : Fin m, |symVal A k j - S k j| ≤ F := fun k j => by
    rcases le_total (j : ℕ) k with h | h
    · rw [symVal_lower A h]; exact (hgram k j h k.2).1
    · rw [symVal_comm, symVal_lower A h, hSs]; exact (hgram j k h j.2).1
  -- sizes
  set X := m * n * φ.u * D with hX
  have hX0 : 0 ≤ X := by positivity
  have hmF : m * F = 31 / 10 * X := by rw [hF, hX]; ring
  have hmm : (m:ℝ) * m * (φ.u * D) ≤ X := by
    rw [hX]
    have : (m:ℝ) * m * (φ.u * D) ≤ m * n * (φ.u * D) := by gcongr
    linarith
  have hmm1 : (m:ℝ) * (φ.u * D) ≤ m * m * (φ.u * D) := by
    have h0 : 0 ≤ m * (φ.u * D) := by positivity
    nlinarith
  have hmm0 : φ.u * D ≤ m * (φ.u * D) := by nlinarith
  have hback : backErr φ m D' = 1001 / 1000 * (3 * (m * (φ.u * D)) + 10 * (φ.u * D)) := by rw [backErr, hD']; ring
  have hE0 : 0 ≤ backErr φ m D' := by rw [hback]; positivity
  have hmE : m * backErr φ m D' ≤ 1302 / 100 * X := by
    rw [hback]
    have : m * (1001 / 1000 * (3 * (m * (φ.u * D)) + 10 * (φ.u * D))) = 1001 / 1000 * (3 * (m * m * (φ.u * D)) + 10 * (m * (φ.u * D))) := by ring
    linarith
  have h2mE : (2 * m + 1) * backErr φ m D' ≤ 392 / 10 * X := by
    have : backErr φ m D' ≤ m * backErr φ m D' := by nlinarith
    linarith
  have hlamX : 50 * X ≤ lam := by rw [hX]; linarith
  have hq : ∀ w : ℕ → ℝ, (lam - m * F) * ∑ k ∈ range m, w k ^ 2 ≤ quad m (symVal A) w := fun w => by
    have h1 := form_close m (fun k j => symVal A k j) (fun k j => S k j) hsym (fun k => w k)
    have h2 := hind (fun k => w k)
    rw [form_gram] at h2
    rw [quad, sum_range, sum_congr rfl fun k _ => sum_range _, sum_range]
    have := (abs_le.mp h1).1
    linarith
  obtain ⟨L, hL, hc⟩ := cholesky_ok m (by omega) A (D := D') (lam := lam - m * F) hR hA (by linarith) (by
    rcases hX0.lt_or_eq with h | h
    · linarith
    · rw [hmF, ← h]; linarith) hq ret'
  have hdet := invL_det m L
  refine ⟨detL m L, ATBT m J (LTL m (invL m L).2), ∏ i ∈ range m, (L i i).val, ?_, ?_, prod_pos fun i hi => hc.diag i (mem_range.mp hi), ?_⟩
  · rw [spdInvA, hL, Option.map_some, Option.map_some, hdet.1]
  · rw [spdDetA, hL, Option.map_some]
  -- the determinant
  have hb : ∀ k j, j ≤ k → k < m → |S k j - ∑ a ∈ range (j + 1), (L k a).val * (L j a).val| ≤ F + backErr φ m D' := fun k j hjk hk => by
    have h1 := (hgram k j hjk hk).1
    have h2 := hc.back k j (by omega) hjk hk
    rw [abs_sub_comm] at h1
    have := abs_add_le (S k j - (A k j).val) ((A k j).val - ∑ a ∈ range (j + 1), (L k a).val * (L j a).val)
    rw [sub_add_sub_cancel] at this
    linarith
  have hlt : m * (F + backErr φ m D') < lam := by
    rcases hX0.lt_or_eq with h | h
    · linarith
    · linarith
  obtain ⟨hd1, hd2⟩ := factor_det m S (fun k j => (L k j).val) hSs hlam0 (fun w => by
    have := hind w
    rw [form_gram] at this
    exact this) hb (fun j hj => hc.diag j hj) (by linarith) hlt
  have hg : fullMat m S = gram m n e := by
    ext k j
    rw [fullMat, gram, Matrix.of_apply, Matrix.of_apply, hS]
    beta_reduce
    rw [sum_range]
  rw [hg] at hd1 hd2
  set P := ∏ i ∈ range m, (L i i).val with hP
  have hP0 : 0 < P := prod_pos fun i hi => hc.diag i (mem_range.mp hi)
  have hle : m * (F + backErr φ m D') / lam ≤ 17 * m * n * φ.u * D / lam := by
    rw [div_le_div_iff_of_pos_right hlam0]
    have : 17 * m * n * φ.u * D = 17 * X := by rw [hX]; ring
    rw [this]
    linarith
  have hε1 : 17 * m * n * φ.u * D / lam ≤ 1 := by
    rw [div_le_one hlam0]
    have : 17 * m * n * φ.u * D = 17 * X := by rw [hX]; ring
    linarith
  have hε0 : 0 ≤ m * (F + backErr φ m D') / lam := by positivity
  have hg0 : 0 < (gram m n e).det := by
    by_contra hneg
    push Not at hneg
    have : (1 + m * (F + backErr φ m D') / lam) ^ m * (gram m n e).det ≤ 0 := mul_nonpos_of_nonneg_of_nonpos (by positivity) hneg
    nlinarith [sq_pos_of_pos hP0]
  refine ⟨le_trans (mul_le_mul_of_nonneg_right (pow_le_pow_left₀ (by linarith) (by linarith) m) hg0.le) hd1,
    hd2.trans (mul_le_mul_of_nonneg_right (pow_le_pow_left₀ (by linarith) (by linarith) m) hg0.le), ?_⟩
  clear_value X F D'
  clear hd1 hd2 hb hq
  have hLb : ∀ i < m, |(L i i).val| ≤ 1 + D := fun i hi => by
    have h0 := hc.diag i hi
    have h1 := hc.back i i hi le_rfl hi
    rw [sum_range_succ] at h1
    have h2 : 0 ≤ ∑ a ∈ range i, (L i a).val * (L i a).val := sum_nonneg fun a _ => mul_self_nonneg _
    have h3 := (abs_le.mp h1).1
    have h4 := (abs_le.mp (hA i i le_rfl hi)).2
    have hEb : backErr φ m D' ≤ 1 / 100 * D := by
      have : φ.u * D ≤ 1 / 10000000 * D := mul_le_mul_of_nonneg_right hu2 hD
      have : m * (φ.u * D) ≤ 29 * (φ.u * D) := mul_le_mul_of_nonneg_right (by linarith) huD
      rw [hback]
      linarith
    rw [abs_of_pos h0]
    by_contra hgt
    push Not at hgt
    have : (1 + D) * (1 + D) ≤ (L i i).val * (L i i).val := mul_le_mul hgt.le hgt.le (by linarith) h0.le
    nlinarith
  have := detL_near (R := 1 + D) (by linarith) m L hLb
  rw [show ∏ i ∈ range m, |(L i i).val| = P from prod_congr rfl fun i hi => abs_of_pos (hc.diag i (mem_range.mp hi))] at this
  refine ⟨this, ?_⟩
  refine (prod_le_prod (fun i hi => (hc.diag i (mem_range.mp hi)).le) fun i hi => (le_abs_self _).trans (hLb i (mem_range.mp hi))).trans ?_
  rw [prod_const, card_range]

/-- from the square of the determinant to the determinant -/
theorem root_close {ε P G : ℝ} (h0 : 0 ≤ ε) (h1 : ε ≤ 1) (m : ℕ) (hP : 0 < P) (hl : (1 - ε) ^ m * G ≤ P ^ 2) (hr : P ^ 2 ≤ (1 + ε) ^ m * G) :
    |P - Real.sqrt G| ≤ ((1 + ε) ^ m - 1) * Real.sqrt G ∧ P ≤ (1 + ε) ^ m * Real.sqrt G := by
  have hp1 : 1 ≤ (1 + ε) ^ m := one_le_pow₀ (by linarith)
  have hG : 0 < G := by
    by_contra hneg
    push Not at hneg
    have : (1 + ε) ^ m * G ≤ 0 := mul_nonpos_of_nonneg_of_nonpos (by positivity) hneg
    nlinarith [sq_pos_of_pos hP]
  have hg := Real.sqrt_nonneg G
  have hgg := Real.mul_self_sqrt hG.le
  set g := Real.sqrt G
  have hup : P ≤ (1 + ε) ^ m * g := by
    refine abs_le_of_sq_le_sq' ?_ (by positivity) |>.2
    rw [mul_pow, sq g, hgg]
    refine hr.trans (mul_le_mul_of_nonneg_right ?_ hG.le)
    nlinarith
  have hq0 : 0 ≤ (1 - ε) ^ m := pow_nonneg (by linarith) m
  have hq1 : (1 - ε) ^ m ≤ 1 := pow_le_one₀ (by linarith) (by linarith)
  have hlow : (1 - ε) ^ m * g ≤ P := by
    refine abs_le_of_sq_le_sq' ?_ hP.le |>.2
    rw [mul_pow, sq g, hgg]
    refine le_trans (mul_le_mul_of_nonneg_right ?_ hG.le) hl
    nlinarith
  have hsum : ∀ m : ℕ, 2 ≤ (1 + ε) ^ m + (1 - ε) ^ m := fun m => by
    have a := one_add_mul_le_pow (show -2 ≤ ε by linarith) m
    have b := one_add_mul_le_pow (show -2 ≤ -ε by linarith) m
    rw [← sub_eq_add_neg] at b
    linarith
  refine ⟨abs_le.mpr ⟨?_, by linarith⟩, hup⟩
  have := mul_le_mul_of_nonneg_right (hsum m) hg
  linarith

end Verif.FloatVol
