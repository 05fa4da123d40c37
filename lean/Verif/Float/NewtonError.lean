import Verif.Float.NewtonQuad
import Verif.Float.NewtonSolve
import Verif.Float.GlobalProps

/-! Newton's method for quadrilaterals in floating-point arithmetic: the error of one pass. -/

namespace Verif.FloatNewton

open Verif.Float Verif.FloatVol Verif.RefGeom Finset HasSqrt

/-! ### The exact map -/

/-- the bilinear map with the given values at the corners -/
def bilinear (c : Nat → Nat → ℝ) (x : Nat → ℝ) (i : Nat) : ℝ :=
  (1 - x 1) * (1 - x 0) * c 0 i + (1 - x 1) * x 0 * c 1 i + x 1 * (1 - x 0) * c 2 i + x 1 * x 0 * c 3 i

/-- its derivative in direction `k` -/
def bilinearD (c : Nat → Nat → ℝ) (x : Nat → ℝ) (k i : Nat) : ℝ :=
  if k = 0 then (1 - x 1) * (c 1 i - c 0 i) + x 1 * (c 3 i - c 2 i) else (1 - x 0) * (c 2 i - c 0 i) + x 0 * (c 3 i - c 1 i)

/-- its mixed derivative -/
def twist (c : Nat → Nat → ℝ) (i : Nat) : ℝ := c 0 i - c 1 i - c 2 i + c 3 i

theorem bilinear_taylor (c : Nat → Nat → ℝ) (x z : Nat → ℝ) (i : Nat) :
    bilinear c x i - bilinear c z i = (∑ k ∈ range 2, (x k - z k) * bilinearD c x k i) - (x 0 - z 0) * (x 1 - z 1) * twist c i := by
  rw [sum_range_succ, sum_range_succ, sum_range_zero]
  simp only [bilinear, bilinearD, twist, if_true, one_ne_zero, if_false]
  ring

variable {φ : Format}

/-- the values of the corners -/
def cvals (c : Mat (Fl φ)) (k i : Nat) : ℝ := (c k i).val

/-- the error of the image and of the derivatives -/
noncomputable def mapErr (φ : Format) (M : ℝ) : ℝ := 29 * φ.u * M + 5 * φ.η * (1 + M)

theorem mapErr_nonneg {M : ℝ} (hM : 0 ≤ M) : 0 ≤ mapErr φ M := by
  have := φ.u_nonneg
  have := φ.η_nonneg
  rw [mapErr]; positivity

theorem abs_pair {t : ℝ} (h0 : -(1 / 2) ≤ t) (h1 : t ≤ 3 / 2) : |1 - t| + |t| ≤ 2 := by
  rcases abs_cases (1 - t) with ⟨h, _⟩ | ⟨h, _⟩ <;> rcases abs_cases t with ⟨h', _⟩ | ⟨h', _⟩ <;> rw [h, h'] <;> linarith

theorem near_final (hu' : φ.u ≤ 1 / 2 ^ 24) {a b m s M : ℝ} {k : ℕ} (hk : k ≤ 7) (h : Near φ k s a b m) (hM : 0 ≤ M) (hm : m ≤ 4 * M) (hs : s ≤ 4 * φ.η * (1 + M)) :
    |a - b| ≤ mapErr φ M := by
  have h1 := ((h.mono hk hs).mono_m hm).bound
  have h2 := pow_sub_one_le φ.u_nonneg hu' 7 7 le_rfl (by norm_num)
  have hη := φ.η_nonneg
  have hu := φ.u_nonneg
  have h3 : ((1 + φ.u) ^ 7 - 1) * (4 * M) ≤ 1001 / 1000 * (7 : ℕ) * φ.u * (4 * M) := mul_le_mul_of_nonneg_right h2 (by positivity)
  push_cast at h2 h3
  have h4 : (1 + φ.u) ^ 7 ≤ 5 / 4 := by
    have : φ.u ≤ 1 / 1000 := hu'.trans (by norm_num)
    linarith
  have h5 : (1 + φ.u) ^ 7 * (4 * φ.η * (1 + M)) ≤ 5 / 4 * (4 * φ.η * (1 + M)) := mul_le_mul_of_nonneg_right h4 (by positivity)
  have h6 : 0 ≤ φ.u * M := by positivity
  rw [mapErr]
  linarith

theorem one_sub_near (t : Fl φ) : Near φ 1 0 (1 - t).val (1 - t.val) |1 - t.val| := by
  have := Near.sub_exact (1 : Fl φ) t
  rwa [Fl.one_val] at this

/-- a corner times a weight -/
theorem term_near {k : ℕ} {s b m : ℝ} {a : Fl φ} (h : Near φ k s a.val b m) (c : Fl φ) {M : ℝ} (hc : |c.val| ≤ M) :
    Near φ (k + 1) (s * M + φ.η) (a * c).val (b * c.val) (m * M) := by
  have h1 := (h.mul ((Near.exact (φ := φ) c.val).mono_m hc)).mono (l := k + 1) le_rfl le_rfl
  simpa using h1

theorem global_err (hu' : φ.u ≤ 1 / 2 ^ 24) (c : Mat (Fl φ)) {M : ℝ} (i : Nat) (hc : ∀ k < 4, |(c k i).val| ≤ M) (x : Nat → Fl φ)
    (hx : ∀ k < 2, -(1 / 2) ≤ (x k).val ∧ (x k).val ≤ 3 / 2) : |(qGlobal c x i).val - bilinear (cvals c) (vals x) i| ≤ mapErr φ M := by
  have hM : 0 ≤ M := (abs_nonneg _).trans (hc 0 (by norm_num))
  have hη := φ.η_nonneg
  have ex : ∀ k, Near φ 1 0 (x k).val (x k).val |(x k).val| := fun k => (Near.exact (φ := φ) (x k).val).mono (by omega) le_rfl
  have w : ∀ {a b : Fl φ} {a' b' m m' : ℝ}, Near φ 1 0 a.val a' m → Near φ 1 0 b.val b' m' → Near φ 3 φ.η (a * b).val (a' * b') (m * m') := fun h h' => by
    simpa using h.mul h'
  have t0 := term_near (w (one_sub_near (x 1)) (one_sub_near (x 0))) (c 0 i) (hc 0 (by norm_num))
  have t1 := term_near (w (one_sub_near (x 1)) (ex 0)) (c 1 i) (hc 1 (by norm_num))
  have t2 := (term_near (w (ex 1) (one_sub_near (x 0))) (c 2 i) (hc 2 (by norm_num))).mono (l := 5) (by norm_num) le_rfl
  have t3 := (term_near (w (ex 1) (ex 0)) (c 3 i) (hc 3 (by norm_num))).mono (l := 6) (by norm_num) le_rfl
  have h := ((t0.add t1).add t2).add t3
  have p0 := abs_pair (hx 0 (by norm_num)).1 (hx 0 (by norm_num)).2
  have p1 := abs_pair (hx 1 (by norm_num)).1 (hx 1 (by norm_num)).2
  have := near_final hu' (by norm_num) h hM (by
    have : (|1 - (x 1).val| + |(x 1).val|) * (|1 - (x 0).val| + |(x 0).val|) ≤ 2 * 2 := mul_le_mul p1 p0 (by positivity) (by norm_num)
    have h2 := mul_le_mul_of_nonneg_right this hM
    linarith) (by linarith)
  simpa only [qGlobal, Fl.one_mul, bilinear, cvals, vals] using this

theorem row0_err (hu' : φ.u ≤ 1 / 2 ^ 24) (c : Mat (Fl φ)) {M : ℝ} (i : Nat) (hc : ∀ k < 4, |(c k i).val| ≤ M) (x : Nat → Fl φ)
    (hx : ∀ k < 2, -(1 / 2) ≤ (x k).val ∧ (x k).val ≤ 3 / 2) : |(qRow0 c x i).val - bilinearD (cvals c) (vals x) 0 i| ≤ mapErr φ M := by
  have hM : 0 ≤ M := (abs_nonneg _).trans (hc 0 (by norm_num))
  have hη := φ.η_nonneg
  have ex : ∀ k, Near φ 1 0 (x k).val (x k).val |(x k).val| := fun k => (Near.exact (φ := φ) (x k).val).mono (by omega) le_rfl
  have t0 := term_near (one_sub_near (x 1)).neg (c 0 i) (hc 0 (by norm_num))
  have t1 := term_near (one_sub_near (x 1)) (c 1 i) (hc 1 (by norm_num))
  have t2 := (term_near (ex 1).neg (c 2 i) (hc 2 (by norm_num))).mono (l := 3) (by norm_num) le_rfl
  have t3 := (term_near (ex 1) (c 3 i) (hc 3 (by norm_num))).mono (l := 4) (by norm_num) le_rfl
  have h := ((t0.add t1).add t2).add t3
  have p1 := abs_pair (hx 1 (by norm_num)).1 (hx 1 (by norm_num)).2
  have := near_final hu' (by norm_num) h hM (by nlinarith) (by nlinarith)
  refine le_trans (le_of_eq ?_) this
  simp only [qRow0, Fl.one_mul, bilinearD, cvals, vals, if_true]
  congr 1
  ring

theorem row1_err (hu' : φ.u ≤ 1 / 2 ^ 24) (c : Mat (Fl φ)) {M : ℝ} (i : Nat) (hc : ∀ k < 4, |(c k i).val| ≤ M) (x : Nat → Fl φ)
    (hx : ∀ k < 2, -(1 / 2) ≤ (x k).val ∧ (x k).val ≤ 3 / 2) : |(qRow1 c x i).val - bilinearD (cvals c) (vals x) 1 i| ≤ mapErr φ M := by
  have hM : 0 ≤ M := (abs_nonneg _).trans (hc 0 (by norm_num))
  have hη := φ.η_nonneg
  have ex : ∀ k, Near φ 1 0 (x k).val (x k).val |(x k).val| := fun k => (Near.exact (φ := φ) (x k).val).mono (by omega) le_rfl
  have w : ∀ {a : Fl φ} {a' m : ℝ}, Near φ 1 0 a.val a' m → Near φ 2 φ.η (-1 * a).val (-1 * a') m := fun h => by
    have := (Near.exact (φ := φ) (-1 : Fl φ).val).mul h
    simpa [Fl.neg_val, Fl.one_val] using this
  have t0 := term_near (w (one_sub_near (x 0))) (c 0 i) (hc 0 (by norm_num))
  have t1 := term_near (w (ex 0)) (c 1 i) (hc 1 (by norm_num))
  have t2 := (term_near (one_sub_near (x 0)) (c 2 i) (hc 2 (by norm_num))).mono (l := 4) (by norm_num) le_rfl
  have t3 := (term_near (ex 0) (c 3 i) (hc 3 (by norm_num))).mono (l := 5) (by norm_num) le_rfl
  have h := ((t0.add t1).add t2).add t3
  have p1 := abs_pair (hx 0 (by norm_num)).1 (hx 0 (by norm_num)).2
  have := near_final hu' (by norm_num) h hM (by nlinarith) (by nlinarith)
  refine le_trans (le_of_eq ?_) this
  simp only [qRow1, Fl.one_mul, bilinearD, cvals, vals, one_ne_zero, if_false]
  congr 1
  ring

/-! ### Perturbed matrices -/

theorem rows_perturb {n : ℕ} {e e' : ℕ → ℕ → ℝ} {R ε : ℝ} (hR : 0 ≤ R) (hε : 0 ≤ ε) (hrow : RowsWithin 2 n e (R ^ 2))
    (h : ∀ k c, k < 2 → c < n → |e' k c - e k c| ≤ ε) : RowsWithin 2 n e' ((R + n * ε) ^ 2) := by
  intro k
  have h1 := hrow k
  have h2 : ∀ c : Fin n, e' k c ^ 2 ≤ e k c ^ 2 + 2 * R * ε + ε ^ 2 := fun c => by
    have h3 := h k c k.2 c.2
    have h4 : |e k c| ≤ R := abs_le_of_sq_le_sq (le_trans (single_le_sum (f := fun c : Fin n => e k c ^ 2) (fun c _ => sq_nonneg _) (mem_univ c)) h1) hR
    have h5 : e' k c ^ 2 = e k c ^ 2 + 2 * (e k c * (e' k c - e k c)) + (e' k c - e k c) ^ 2 := by ring
    have h6 : e k c * (e' k c - e k c) ≤ R * ε := (le_abs_self _).trans (by rw [abs_mul]; exact mul_le_mul h4 h3 (abs_nonneg _) hR)
    have h7 : (e' k c - e k c) ^ 2 ≤ ε ^ 2 := sq_le_sq' (by linarith [(abs_le.mp h3).1]) (abs_le.mp h3).2
    linarith
  have h3 := sum_le_sum fun c (_ : c ∈ univ) => h2 c
  rw [sum_add_distrib, sum_add_distrib, sum_const, sum_const, card_univ, Fintype.card_fin, nsmul_eq_mul, nsmul_eq_mul] at h3
  have h4 : (n:ℝ) * ε ^ 2 ≤ (n * ε) ^ 2 := by
    have : (n:ℝ) ≤ n ^ 2 := by
      rcases Nat.eq_zero_or_pos n with rfl | hn
      · norm_num
      · have : (1:ℝ) ≤ n := by exact_mod_cast hn
        nlinarith
    have := mul_le_mul_of_nonneg_right this (sq_nonneg ε)
    linarith [mul_pow (n:ℝ) ε 2]
  nlinarith

theorem indep_perturb {n : ℕ} {e e' : ℕ → ℕ → ℝ} {lam ε : ℝ} (hind : IndependentBy 2 n e lam)
    (h : ∀ k c, k < 2 → c < n → |e' k c - e k c| ≤ ε) (hs : 800 * n * ε ^ 2 ≤ lam) : IndependentBy 2 n e' (9 / 10 * lam) := by
  intro w
  have h1 := hind w
  set W := ∑ k, w k ^ 2 with hW
  have hW0 : 0 ≤ W := sum_nonneg fun _ _ => sq_nonneg _
  have h2 : ∀ c : Fin n, 19 / 20 * (∑ k, w k * e k c) ^ 2 - 40 * ε ^ 2 * W ≤ (∑ k, w k * e' k c) ^ 2 := fun c => by
    have e1 := h 0 c (by norm_num) c.2
    have e2 := h 1 c (by norm_num) c.2
    simp only [hW, Fin.sum_univ_two, Fin.val_zero, Fin.val_one]
    set a := w 0 * e 0 c + w 1 * e 1 c with ha
    set b := w 0 * (e' 0 c - e 0 c) + w 1 * (e' 1 c - e 1 c) with hb
    have e3 : w 0 * e' 0 c + w 1 * e' 1 c = a + b := by rw [ha, hb]; ring
    have hε : 0 ≤ ε := (abs_nonneg _).trans e1
    have e4 : |b| ≤ ε * (|w 0| + |w 1|) := by
      refine (abs_add_le _ _).trans ?_
      rw [abs_mul, abs_mul]
      nlinarith [mul_le_mul_of_nonneg_left e1 (abs_nonneg (w 0)), mul_le_mul_of_nonneg_left e2 (abs_nonneg (w 1))]
    have e5 : b ^ 2 ≤ 2 * ε ^ 2 * (w 0 ^ 2 + w 1 ^ 2) := by
      have e6 : b ^ 2 ≤ (ε * (|w 0| + |w 1|)) ^ 2 := by
        rw [← sq_abs b]
        exact pow_le_pow_left₀ (abs_nonneg _) e4 2
      have e7 : (|w 0| + |w 1|) ^ 2 ≤ 2 * (w 0 ^ 2 + w 1 ^ 2) := by
        rw [← sq_abs (w 0), ← sq_abs (w 1)]
        nlinarith [sq_nonneg (|w 0| - |w 1|)]
      have e8 := mul_le_mul_of_nonneg_left e7 (sq_nonneg ε)
      nlinarith
    rw [e3]
    nlinarith [sq_nonneg (a / 20 + b), sq_nonneg (a + 20 * b)]
  have h3 := sum_le_sum fun c (_ : c ∈ univ) => h2 c
  rw [sum_sub_distrib, ← mul_sum, sum_const, card_univ, Fintype.card_fin, nsmul_eq_mul] at h3
  have h4 := mul_le_mul_of_nonneg_right hs hW0
  nlinarith

/-! ### One pass -/

/-- a quadrilateral in `n` dimensions whose corners have coordinates of size at most `M`, whose Jacobian has columns of length at most
`R` and singular values of at least `√lam` in a neighbourhood of the element, with a twist and with rounding errors that are small
against these numbers -/
structure Mild (φ : Format) (n : ℕ) (c : Mat (Fl φ)) (M R lam : ℝ) : Prop where
  n_ge : 2 ≤ n
  n_le : n ≤ 29
  u_pos : 0 < φ.u
  u_le : φ.u ≤ 1 / 2 ^ 24
  η_le : φ.η ≤ φ.u ^ 2
  low : φ.η ≤ φ.u ^ 2 * R ^ 2
  high : 16 * φ.η ^ 2 * R ^ 2 ≤ φ.u ^ 2
  corners : ∀ k < 4, ∀ i < n, |(c k i).val| ≤ M
  R_pos : 0 < R
  lam_pos : 0 < lam
  rows : ∀ x : Nat → ℝ, (∀ k < 2, -(1 / 2) ≤ x k ∧ x k ≤ 3 / 2) → RowsWithin 2 n (bilinearD (cvals c) x) (R ^ 2)
  indep : ∀ x : Nat → ℝ, (∀ k < 2, -(1 / 2) ≤ x k ∧ x k ≤ 3 / 2) → IndependentBy 2 n (bilinearD (cvals c) x) lam
  twisted : ∀ i < n, 2 * n * R * |twist (cvals c) i| ≤ lam
  cond : 6000 * n ^ 2 * φ.u * R ^ 2 ≤ lam
  dist : 800 * n * R * mapErr φ M ≤ lam

variable {n : ℕ} {c : Mat (Fl φ)} {M R lam : ℝ}

theorem Mild.M_nonneg (h : Mild φ n c M R lam) : 0 ≤ M := (abs_nonneg _).trans (h.corners 0 (by norm_num) 0 (by have := h.n_ge; omega))

theorem Mild.lam_le (h : Mild φ n c M R lam) : lam ≤ R ^ 2 := by
  have h1 := h.indep (fun _ => 0) (fun _ _ => by norm_num) (fun k => if k = 0 then 1 else 0)
  have h2 := h.rows (fun _ => 0) (fun _ _ => by norm_num) 0
  simp only [Fin.sum_univ_two, if_true, one_ne_zero, if_false, one_mul, MulZeroClass.zero_mul, _root_.add_zero, one_pow, mul_one, ne_eq, OfNat.ofNat_ne_zero,
    not_false_eq_true, zero_pow] at h1
  exact h1.trans h2

/-- the relative error of the solver -/
noncomputable def relErr (φ : Format) (n : ℕ) (R lam : ℝ) : ℝ := n ^ 2 * φ.u * R ^ 2 / lam

/-- the error of the map, in local coordinates -/
noncomputable def distErr (φ : Format) (n : ℕ) (M R lam : ℝ) : ℝ := n * R * mapErr φ M / lam

/-- the error by underflow -/
noncomputable def tinyErr (φ : Format) (n : ℕ) (R lam : ℝ) : ℝ := n ^ 2 * φ.η * (1 + R) ^ 2 / lam

theorem pass_arith {n u R lam ε η E X D dn rn Tw a b h : ℝ} (hn : 2 ≤ n) (hu : 0 ≤ u) (hu' : u ≤ 1 / 2 ^ 24) (hR : 0 < R) (hlam : 0 < lam) (hη : 0 ≤ η) (hε : 0 ≤ ε)
    (hE0 : 0 ≤ E) (hE1 : E ≤ 101 / 100) (hX0 : 0 ≤ X)
    (ha : a = n ^ 2 * u * R ^ 2 / lam) (hb : b = n * R * ε / lam) (hh : h = n ^ 2 * η * (1 + R) ^ 2 / lam) (ha1 : a ≤ 1 / 6000)
    (hTw : 2 * n * R * Tw ≤ lam) (hTw0 : 0 ≤ Tw) (hlamR : lam ≤ R ^ 2)
    (hD : D ≤ E + X)
    (hdn : dn ≤ n * (101 / 100 * (R * E + Tw * (E ^ 2 / 4) + 2 * ε)))
    (hrn : rn ≤ n * (2 * ε + u * (R * E + Tw * (E ^ 2 / 4) + 2 * ε) + Tw * (E ^ 2 / 4) + ε * E))
    (hs : 9 / 10 * lam * X ≤ 2 * (26 * n ^ 2 * u * (101 / 100 * R) ^ 2 * D + 22 / 10 * n * u * (101 / 100 * R * dn) + 101 / 100 * R * rn +
      4 * n ^ 2 * η * (1 + 101 / 100 * R) ^ 2)) :
    X ≤ 3 / 5 * (n * R * Tw / lam) * E ^ 2 + 70 * a * E + 7 * b + 19 / 2 * h := by
  have ea : n ^ 2 * u * R ^ 2 = a * lam := by rw [ha]; field_simp
  have eb : n * R * ε = b * lam := by rw [hb]; field_simp
  have eh : n ^ 2 * η * (1 + R) ^ 2 = h * lam := by rw [hh]; field_simp
  have ha0 : 0 ≤ a := by rw [ha]; positivity
  have hb0 : 0 ≤ b := by rw [hb]; positivity
  have hh0 : 0 ≤ h := by rw [hh]; positivity
  have hE2 : E ^ 2 ≤ 101 / 100 * E := by rw [sq]; exact mul_le_mul_of_nonneg_right hE1 hE0
  set t := n * R * Tw / lam with ht
  have et : n * R * Tw = t * lam := by rw [ht]; field_simp
  have ht0 : 0 ≤ t := by rw [ht]; positivity
  have hE20 : 0 ≤ E ^ 2 := sq_nonneg E
  -- the twist is small against `R`
  have hT1 : n * (R * Tw) ≤ lam / 2 := by linarith
  have hT2 : Tw ≤ R / 4 := by
    have h1 : 2 * (R * Tw) ≤ n * (R * Tw) := mul_le_mul_of_nonneg_right hn (by positivity)
    have : R * (4 * Tw) ≤ R * R := by linarith
    have := le_of_mul_le_mul_left this hR
    linarith
  have hG : R * E + Tw * (E ^ 2 / 4) ≤ 107 / 100 * (R * E) := by
    have : Tw * (E ^ 2 / 4) ≤ R / 4 * (101 / 100 * E / 4) := mul_le_mul hT2 (by linarith) (by positivity) (by positivity)
    have := mul_nonneg hR.le hE0
    linarith
  have hu2 : u ≤ 1 / 10000 := hu'.trans (by norm_num)
  -- the terms
  have t1 : 26 * n ^ 2 * u * (101 / 100 * R) ^ 2 * D ≤ 2653 / 100 * (a * lam) * (E + X) := by
    have e1 : 26 * n ^ 2 * u * (101 / 100 * R) ^ 2 * D = 26 * (101 / 100) ^ 2 * (a * lam) * D := by rw [← ea]; ring
    rw [e1]
    have : 0 ≤ a * lam := by positivity
    calc 26 * (101 / 100) ^ 2 * (a * lam) * D ≤ 26 * (101 / 100) ^ 2 * (a * lam) * (E + X) := mul_le_mul_of_nonneg_left hD (by positivity)
      _ ≤ 2653 / 100 * (a * lam) * (E + X) := mul_le_mul_of_nonneg_right (by linarith) (by positivity)
  have hub : n * u * (b * lam) ≤ 1 / 6000 * (b * lam) := by
    refine mul_le_mul_of_nonneg_right ?_ (by positivity)
    have e1 : n ^ 2 * u * R ^ 2 ≤ 1 / 6000 * R ^ 2 := by rw [ea]; exact mul_le_mul ha1 hlamR hlam.le (by norm_num)
    have e2 := le_of_mul_le_mul_right e1 (by positivity : 0 < R ^ 2)
    have e3 : n * u * 1 ≤ n * u * n := mul_le_mul_of_nonneg_left (by linarith) (by positivity)
    linarith
  have t2 : 22 / 10 * n * u * (101 / 100 * R * dn) ≤ 241 / 100 * (a * lam) * E + 1 / 100 * (b * lam) := by
    have e1 : 22 / 10 * n * u * (101 / 100 * R * dn) ≤ 22 / 10 * n * u * (101 / 100 * R * (n * (101 / 100 * (107 / 100 * (R * E) + 2 * ε)))) := by
      refine mul_le_mul_of_nonneg_left (mul_le_mul_of_nonneg_left (hdn.trans ?_) (by positivity)) (by positivity)
      refine mul_le_mul_of_nonneg_left ?_ (by linarith)
      linarith
    have e2 : 22 / 10 * n * u * (101 / 100 * R * (n * (101 / 100 * (107 / 100 * (R * E) + 2 * ε)))) =
        22 / 10 * (101 / 100) ^ 2 * (107 / 100) * (n ^ 2 * u * R ^ 2) * E + 22 / 10 * (101 / 100) ^ 2 * 2 * (n * u * (n * R * ε)) := by ring
    rw [e2, ea, eb] at e1
    have e3 : 0 ≤ a * lam * E := by positivity
    have e4 : 0 ≤ b * lam := by positivity
    linarith
  have t3 : 101 / 100 * R * rn ≤ 305 / 100 * (b * lam) + 55 / 100 * (a * lam) * E + 101 / 400 * (t * lam) * E ^ 2 := by
    have e1 : 101 / 100 * R * rn ≤ 101 / 100 * R * (n * (2 * ε + u * (107 / 100 * (R * E) + 2 * ε) + Tw * (E ^ 2 / 4) + 101 / 100 * ε)) := by
      refine mul_le_mul_of_nonneg_left (hrn.trans ?_) (by positivity)
      refine mul_le_mul_of_nonneg_left ?_ (by linarith)
      have h1 : u * (R * E + Tw * (E ^ 2 / 4) + 2 * ε) ≤ u * (107 / 100 * (R * E) + 2 * ε) := mul_le_mul_of_nonneg_left (by linarith) hu
      have h2 : ε * E ≤ ε * (101 / 100) := mul_le_mul_of_nonneg_left hE1 hε
      linarith
    have e2 : 101 / 100 * R * (n * (2 * ε + u * (107 / 100 * (R * E) + 2 * ε) + Tw * (E ^ 2 / 4) + 101 / 100 * ε)) =
        101 / 100 * (301 / 100 + 2 * u) * (n * R * ε) + 101 / 100 * (107 / 100) * (n * u * R ^ 2) * E + 101 / 400 * (n * R * Tw) * E ^ 2 := by ring
    rw [e2, eb, et] at e1
    have e3 : 2 * (n * u * R ^ 2) ≤ a * lam := by
      rw [← ea]
      have h1 : 0 ≤ n * u * R ^ 2 := by positivity
      have h2 := mul_le_mul_of_nonneg_right hn h1
      linarith
    have e4 : (n * u * R ^ 2) * E ≤ (a * lam / 2) * E := mul_le_mul_of_nonneg_right (by linarith) hE0
    have e6 : 0 ≤ b * lam := by positivity
    have e7 : u * (b * lam) ≤ 1 / 10000 * (b * lam) := mul_le_mul_of_nonneg_right hu2 e6
    have e8 : 0 ≤ a * lam * E := by positivity
    linarith
  have t4 : 4 * n ^ 2 * η * (1 + 101 / 100 * R) ^ 2 ≤ 409 / 100 * (h * lam) := by
    rw [← eh]
    have : (1 + 101 / 100 * R) ^ 2 ≤ (101 / 100 * (1 + R)) ^ 2 := pow_le_pow_left₀ (by positivity) (by linarith) 2
    rw [mul_pow] at this
    have e1 := mul_le_mul_of_nonneg_left this (by positivity : 0 ≤ 4 * n ^ 2 * η)
    have : 0 ≤ n ^ 2 * η * (1 + R) ^ 2 := by positivity
    linarith
  have key : lam * (9 / 10 * X) ≤ lam * (2 * (2653 / 100 * a * (E + X) + 241 / 100 * a * E + 1 / 100 * b + 305 / 100 * b + 55 / 100 * a * E + 101 / 400 * (t * E ^ 2) + 409 / 100 * h)) := by
    linarith
  have key2 := le_of_mul_le_mul_left key hlam
  have haX : a * X ≤ 1 / 6000 * X := mul_le_mul_of_nonneg_right ha1 hX0
  have haE : 0 ≤ a * E := by positivity
  have htE : 0 ≤ t * E ^ 2 := by positivity
  linarith

/-- the Jacobian of a pass -/
noncomputable def jac (n : ℕ) (c : Mat (Fl φ)) (tol : Fl φ) (mem : Mat (Fl φ)) (x : Nat → Fl φ) : Mat (Fl φ) := jacobianTransposed (quadN n c tol) mem x

/-- the residual of a pass -/
noncomputable def resi (n : ℕ) (c : Mat (Fl φ)) (tol : Fl φ) (mem : Mat (Fl φ)) (x y : Nat → Fl φ) : Nat → Fl φ := fun i => (quadN n c tol).global (mem 0) x i - y i

theorem Mild.n_err (h : Mild φ n c M R lam) : 800 * n * mapErr φ M ≤ R := by
  have h1 : R * (800 * n * mapErr φ M) ≤ R * R := by linarith [h.dist, h.lam_le]
  exact le_of_mul_le_mul_left h1 h.R_pos

/-- **One pass**: the computed correction is the error up to a fraction of it and rounding errors.  `Tw` bounds the twist. -/
theorem pass_err (h : Mild φ n c M R lam) (tol : Fl φ) (mem : Mat (Fl φ)) (x y : Nat → Fl φ) (hx : ∀ k < 2, -(1 / 2) ≤ (x k).val ∧ (x k).val ≤ 3 / 2)
    (z : Nat → ℝ) (hE : norm1 2 (fun k => (x k).val - z k) ≤ 101 / 100) (hy : ∀ i < n, |(y i).val - bilinear (cvals c) z i| ≤ mapErr φ M)
    {Tw : ℝ} (hTw0 : 0 ≤ Tw) (hTw : ∀ i < n, |twist (cvals c) i| ≤ Tw) (hTl : 2 * n * R * Tw ≤ lam) :
    ∃ dx, xTRightInvA 2 n (jac n c tol mem x) (resi n c tol mem x y) mem = (true, dx) ∧
      norm1 2 (fun k => (dx k).val - ((x k).val - z k)) ≤ 3 / 5 * (n * R * Tw / lam) * norm1 2 (fun k => (x k).val - z k) ^ 2 +
        70 * relErr φ n R lam * norm1 2 (fun k => (x k).val - z k) + 7 * distErr φ n M R lam + 19 / 2 * tinyErr φ n R lam := by
  have hM := h.M_nonneg
  have hlamR := h.lam_le
  have hnε := h.n_err
  have hε := mapErr_nonneg (φ := φ) hM
  have hR := h.R_pos
  have hlam := h.lam_pos
  have hu := h.u_pos
  have hη := φ.η_nonneg
  have hn2 : (2:ℝ) ≤ n := by exact_mod_cast h.n_ge
  set ε := mapErr φ M with hεd
  set E := norm1 2 (fun k => (x k).val - z k) with hEd
  have hE0 : 0 ≤ E := norm1_nonneg _ _
  have eE : E = |(x 0).val - z 0| + |(x 1).val - z 1| := by rw [hEd, norm1, sum_range_succ, sum_range_succ, sum_range_zero, _root_.zero_add]
  -- the Jacobian
  have hJ : ∀ k i, k < 2 → i < n → |valM (jac n c tol mem x) k i - bilinearD (cvals c) (vals x) k i| ≤ ε := fun k i hk hi => by
    obtain rfl | rfl : k = 0 ∨ k = 1 := by omega
    · rw [valM, jac, quadN_jt0]
      exact row0_err h.u_le c i (fun k hk => h.corners k hk i hi) x hx
    · rw [valM, jac, quadN_jt1]
      exact row1_err h.u_le c i (fun k hk => h.corners k hk i hi) x hx
  have hrow := rows_perturb hR.le hε (h.rows (vals x) hx) hJ
  have hrow' : RowsWithin 2 n (valM (jac n c tol mem x)) ((101 / 100 * R) ^ 2) := fun k =>
    (hrow k).trans (pow_le_pow_left₀ (by positivity) (by linarith) 2)
  have hεR : ε ≤ R := by nlinarith
  have hind := indep_perturb (h.indep (vals x) hx) hJ (by
    have h1 : R * (800 * n * ε ^ 2) ≤ R * lam := by
      calc R * (800 * n * ε ^ 2) = (800 * n * R * ε) * ε := by ring
        _ ≤ lam * R := mul_le_mul h.dist hεR hε hlam.le
        _ = R * lam := by ring
    exact le_of_mul_le_mul_left h1 hR)
  have hR2 : 0 < R ^ 2 := by positivity
  have hfit : Fits φ 2 n ((101 / 100 * R) ^ 2) (9 / 10 * lam) := by
    refine ⟨by norm_num, h.n_ge, h.n_le, hu, h.u_le, ?_, ?_, ?_, by positivity, ?_⟩
    · have h1 := h.η_le
      have h2 : φ.u ^ 2 ≤ φ.u := by
        rw [sq]; exact mul_le_of_le_one_right hu.le (h.u_le.trans (by norm_num))
      linarith
    · have h1 := h.low
      have : φ.u ^ 2 * R ^ 2 ≤ φ.u ^ 2 * (101 / 100 * R) ^ 2 := by gcongr; linarith
      linarith
    · have h1 := h.high
      have : 0 ≤ φ.η ^ 2 * R ^ 2 := by positivity
      rw [mul_pow]
      linarith
    · have h1 := h.cond
      have h2 : (n:ℝ) * (φ.u * R ^ 2) * 2 ≤ n * (φ.u * R ^ 2) * n := mul_le_mul_of_nonneg_left hn2 (by positivity)
      have h3 : 0 ≤ (n:ℝ) * (φ.u * R ^ 2) := by positivity
      push_cast
      rw [mul_pow]
      linarith
  obtain ⟨dx, hdx, hb⟩ := solve_ok hfit (by positivity) (jac n c tol mem x) (resi n c tol mem x y) mem hrow' hind
  refine ⟨dx, hdx, ?_⟩
  have hb := hb fun k => (x k).val - z k
  push_cast at hb
  -- the residual
  have hG : ∀ i < n, |bilinear (cvals c) (vals x) i - bilinear (cvals c) z i| ≤ R * E + Tw * (E ^ 2 / 4) ∧
      |bilinear (cvals c) (vals x) i - bilinear (cvals c) z i - ∑ k ∈ range 2, ((x k).val - z k) * bilinearD (cvals c) (vals x) k i| ≤ Tw * (E ^ 2 / 4) := fun i hi => by
    have h1 := bilinear_taylor (cvals c) (vals x) z i
    have h2 : |(vals x 0 - z 0) * (vals x 1 - z 1) * twist (cvals c) i| ≤ Tw * (E ^ 2 / 4) := by
      rw [abs_mul, mul_comm]
      refine mul_le_mul (hTw i hi) ?_ (abs_nonneg _) hTw0
      rw [abs_mul, eE]
      simp only [vals]
      nlinarith [sq_nonneg (|(x 0).val - z 0| - |(x 1).val - z 1|)]
    have h3 : |∑ k ∈ range 2, (vals x k - z k) * bilinearD (cvals c) (vals x) k i| ≤ R * E := by
      rw [sum_congr rfl fun k _ => mul_comm _ _]
      refine abs_sum_mul_le (range 2) (fun k => bilinearD (cvals c) (vals x) k i) (fun k => vals x k - z k) hR.le fun k hk => ?_
      have h4 := h.rows (vals x) hx ⟨k, mem_range.mp hk⟩
      exact abs_le_of_sq_le_sq (le_trans (single_le_sum (f := fun i : Fin n => bilinearD (cvals c) (vals x) k i ^ 2) (fun _ _ => sq_nonneg _)
        (mem_univ (⟨i, hi⟩ : Fin n))) h4) hR.le
    refine ⟨?_, ?_⟩
    · rw [h1]
      exact (abs_sub _ _).trans (add_le_add h3 h2)
    · have e : bilinear (cvals c) (vals x) i - bilinear (cvals c) z i - ∑ k ∈ range 2, ((x k).val - z k) * bilinearD (cvals c) (vals x) k i =
          -((vals x 0 - z 0) * (vals x 1 - z 1) * twist (cvals c) i) := by
        rw [h1]
        simp only [vals]
        ring
      rw [e, abs_neg]
      exact h2
  have hd : ∀ i < n, |(resi n c tol mem x y i).val - (bilinear (cvals c) (vals x) i - bilinear (cvals c) z i)| ≤
      2 * ε + φ.u * (R * E + Tw * (E ^ 2 / 4) + 2 * ε) := fun i hi => by
    have h1 := global_err h.u_le c i (fun k hk => h.corners k hk i hi) x hx
    have h2 := hy i hi
    have h3 := Fl.sub_err (qGlobal c x i) (y i)
    rw [resi, quadN_global]
    have h4 : |(qGlobal c x i).val - (y i).val - (bilinear (cvals c) (vals x) i - bilinear (cvals c) z i)| ≤ 2 * ε := by
      rw [show (qGlobal c x i).val - (y i).val - (bilinear (cvals c) (vals x) i - bilinear (cvals c) z i) =
        ((qGlobal c x i).val - bilinear (cvals c) (vals x) i) - ((y i).val - bilinear (cvals c) z i) by ring]
      exact (abs_sub _ _).trans (by linarith)
    have h5 := abs_add_le ((qGlobal c x i).val - (y i).val - (bilinear (cvals c) (vals x) i - bilinear (cvals c) z i))
      (bilinear (cvals c) (vals x) i - bilinear (cvals c) z i)
    rw [sub_add_cancel] at h5
    have h6 := (hG i hi).1
    have h7 := abs_add_le ((qGlobal c x i - y i).val - ((qGlobal c x i).val - (y i).val))
      ((qGlobal c x i).val - (y i).val - (bilinear (cvals c) (vals x) i - bilinear (cvals c) z i))
    rw [sub_add_sub_cancel] at h7
    have h8 : φ.u * |(qGlobal c x i).val - (y i).val| ≤ φ.u * (R * E + Tw * (E ^ 2 / 4) + 2 * ε) := mul_le_mul_of_nonneg_left (by linarith) hu.le
    linarith
  have hu2 : φ.u ≤ 1 / 100 := h.u_le.trans (by norm_num)
  refine pass_arith (n := n) (u := φ.u) (R := R) (lam := lam) (ε := ε) (η := φ.η) (E := E) (D := norm1 2 fun k => (dx k).val)
    (dn := norm1 n fun i => (resi n c tol mem x y i).val)
    (rn := norm1 n fun i => (resi n c tol mem x y i).val - ∑ k ∈ range 2, ((x k).val - z k) * (jac n c tol mem x k i).val)
    hn2 hu.le h.u_le hR hlam hη hε hE0 hE (norm1_nonneg _ _) rfl rfl rfl ?_ hTl hTw0 hlamR ?_ ?_ ?_ hb
  · rw [relErr, div_le_iff₀ hlam]
    linarith [h.cond]
  · have e : ∀ k, |(dx k).val| ≤ |(x k).val - z k| + |(dx k).val - ((x k).val - z k)| := fun k => by
      have := abs_add_le ((x k).val - z k) ((dx k).val - ((x k).val - z k))
      rwa [add_sub_cancel] at this
    rw [hEd, norm1, norm1, norm1, ← sum_add_distrib]
    exact sum_le_sum fun k _ => e k
  · refine norm1_le fun i hi => ?_
    have h1 := hd i hi
    have h2 := (hG i hi).1
    have h3 := abs_add_le ((resi n c tol mem x y i).val - (bilinear (cvals c) (vals x) i - bilinear (cvals c) z i))
      (bilinear (cvals c) (vals x) i - bilinear (cvals c) z i)
    rw [sub_add_cancel] at h3
    have h4 : 0 ≤ R * E + Tw * (E ^ 2 / 4) + 2 * ε := by positivity
    have h5 := mul_le_mul_of_nonneg_right hu2 h4
    linarith
  · refine norm1_le fun i hi => ?_
    have h1 := hd i hi
    have h2 := (hG i hi).2
    have h3 : |∑ k ∈ range 2, ((x k).val - z k) * (bilinearD (cvals c) (vals x) k i - (jac n c tol mem x k i).val)| ≤ ε * E := by
      rw [sum_congr rfl fun k _ => mul_comm _ _]
      refine abs_sum_mul_le (range 2) (fun k => bilinearD (cvals c) (vals x) k i - (jac n c tol mem x k i).val) (fun k => (x k).val - z k) hε fun k hk => ?_
      rw [abs_sub_comm]
      exact hJ k i (mem_range.mp hk) hi
    have e : (resi n c tol mem x y i).val - ∑ k ∈ range 2, ((x k).val - z k) * (jac n c tol mem x k i).val =
        ((resi n c tol mem x y i).val - (bilinear (cvals c) (vals x) i - bilinear (cvals c) z i)) +
        (bilinear (cvals c) (vals x) i - bilinear (cvals c) z i - ∑ k ∈ range 2, ((x k).val - z k) * bilinearD (cvals c) (vals x) k i) +
        ∑ k ∈ range 2, ((x k).val - z k) * (bilinearD (cvals c) (vals x) k i - (jac n c tol mem x k i).val) := by
      simp only [mul_sub, sum_sub_distrib]
      ring
    rw [e]
    refine (abs_add_le _ _).trans (add_le_add ((abs_add_le _ _).trans (add_le_add h1 h2)) h3)

end Verif.FloatNewton
