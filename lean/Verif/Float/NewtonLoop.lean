import Verif.Float.NewtonError

/-! Newton's method for quadrilaterals in floating-point arithmetic: the loop. -/

namespace Verif.FloatNewton

open Verif.Float Verif.FloatVol Verif.RefGeom Finset HasSqrt

variable {φ : Format} {n : ℕ} {c : Mat (Fl φ)} {M R lam : ℝ}

/-- the 1-norm of the error of `x` -/
noncomputable def dist1 (x : Nat → Fl φ) (z : Nat → ℝ) : ℝ := norm1 2 fun k => (x k).val - z k

/-- the part of the error that does not decrease -/
noncomputable def floorErr (φ : Format) (n : ℕ) (M R lam : ℝ) : ℝ := 8 * distErr φ n M R lam + 10 * tinyErr φ n R lam + 2 * φ.u

theorem norm1_two (v : Nat → ℝ) : norm1 2 v = |v 0| + |v 1| := by
  rw [norm1, sum_range_succ, sum_range_succ, sum_range_zero, _root_.zero_add]

theorem relErr_nonneg (h : Mild φ n c M R lam) : 0 ≤ relErr φ n R lam := by
  have := h.u_pos
  have := h.lam_pos
  rw [relErr]; positivity

theorem relErr_le (h : Mild φ n c M R lam) : relErr φ n R lam ≤ 1 / 6000 := by
  rw [relErr, div_le_iff₀ h.lam_pos]
  linarith [h.cond]

theorem distErr_nonneg (h : Mild φ n c M R lam) : 0 ≤ distErr φ n M R lam := by
  have := mapErr_nonneg (φ := φ) h.M_nonneg
  have := h.R_pos
  have := h.lam_pos
  rw [distErr]; positivity

theorem distErr_le (h : Mild φ n c M R lam) : distErr φ n M R lam ≤ 1 / 800 := by
  rw [distErr, div_le_iff₀ h.lam_pos]
  linarith [h.dist]

theorem tinyErr_nonneg (h : Mild φ n c M R lam) : 0 ≤ tinyErr φ n R lam := by
  have := φ.η_nonneg
  have := h.R_pos
  have := h.lam_pos
  rw [tinyErr]; positivity

/-- underflow is negligible -/
theorem tinyErr_le (h : Mild φ n c M R lam) : tinyErr φ n R lam ≤ 4 * φ.u * relErr φ n R lam := by
  rw [tinyErr, relErr, mul_div_assoc', div_le_div_iff_of_pos_right h.lam_pos]
  have h1 := h.η_le
  have h2 := h.low
  have h3 : φ.η * (1 + R) ^ 2 ≤ φ.η * (2 + 2 * R ^ 2) := mul_le_mul_of_nonneg_left (by nlinarith [sq_nonneg (1 - R)]) φ.η_nonneg
  have h4 : φ.η * R ^ 2 ≤ φ.u ^ 2 * R ^ 2 := mul_le_mul_of_nonneg_right h1 (sq_nonneg R)
  have h5 : φ.η * (1 + R) ^ 2 ≤ 4 * (φ.u ^ 2 * R ^ 2) := by linarith
  have h6 := mul_le_mul_of_nonneg_left h5 (by positivity : (0:ℝ) ≤ n ^ 2)
  linarith

theorem floorErr_bounds (h : Mild φ n c M R lam) : 2 * φ.u ≤ floorErr φ n M R lam ∧ floorErr φ n M R lam ≤ 101 / 10000 := by
  have h1 := distErr_nonneg h
  have h2 := tinyErr_nonneg h
  have h3 := distErr_le h
  have h4 := tinyErr_le h
  have h5 := relErr_le h
  have h6 := relErr_nonneg h
  have hu : φ.u ≤ 1 / 10 ^ 6 := h.u_le.trans (by norm_num)
  have h7 : φ.u * relErr φ n R lam ≤ 1 / 10 ^ 6 * (1 / 6000) := mul_le_mul hu h5 h6 (by norm_num)
  rw [floorErr]
  constructor
  · linarith
  · linarith

/-! ### The norm of the correction -/

theorem two_norm2_err (m : Nat) (hm : m ≤ 29) (hu' : φ.u ≤ 1 / 2 ^ 24) (d : Nat → Fl φ) :
    |(two_norm2 m d).val - ∑ c ∈ range m, (d c).val ^ 2| ≤ 1 / 1000 * ∑ c ∈ range m, (d c).val ^ 2 + 1001 / 1000 * (m * φ.η) := by
  have hu := φ.u_nonneg
  have hη := φ.η_nonneg
  have h0 : Near φ 1 0 (0 : Fl φ).val 0 0 := by
    have := (Near.exact (φ := φ) (0:ℝ)).mono (l := 1) (by omega) le_rfl
    rwa [abs_zero] at this
  have h1 := (addLoop_near 0 d d le_rfl h0 m 0).bound
  simp only [Nat.zero_add, _root_.zero_add, ← sq, sq_abs] at h1
  have h3 := pow_sub_one_le hu hu' (1 + m) (m + 1) (by omega) (by omega)
  have h5 : 0 ≤ ∑ c ∈ range m, (d c).val ^ 2 := sum_nonneg fun c _ => sq_nonneg _
  set G := (1 + φ.u) ^ (1 + m)
  have hm' : (m:ℝ) ≤ 29 := by exact_mod_cast hm
  have hm0 : (0:ℝ) ≤ m := Nat.cast_nonneg m
  push_cast at h3
  have h6 : (m + 1 : ℝ) * φ.u ≤ 30 * (1 / 2 ^ 24) := mul_le_mul (by linarith) hu' hu (by norm_num)
  have hG : G ≤ 1001 / 1000 := by
    have : (30:ℝ) * (1 / 2 ^ 24) ≤ 1 / 10000 := by norm_num
    linarith
  have h7 : (G - 1) * ∑ c ∈ range m, (d c).val ^ 2 ≤ 1 / 1000 * ∑ c ∈ range m, (d c).val ^ 2 := mul_le_mul_of_nonneg_right (by linarith) h5
  have h8 : G * (m * φ.η) ≤ 1001 / 1000 * (m * φ.η) := mul_le_mul_of_nonneg_right hG (by positivity)
  exact le_trans h1 (by linarith)

theorem two_norm2_bounds (hu' : φ.u ≤ 1 / 2 ^ 24) (d : Nat → Fl φ) :
    (two_norm2 2 d).val ≤ 1001 / 1000 * norm1 2 (fun k => (d k).val) ^ 2 + 21 / 10 * φ.η ∧
      norm1 2 (fun k => (d k).val) ^ 2 ≤ 2003 / 1000 * (two_norm2 2 d).val + 42 / 10 * φ.η := by
  have h := abs_le.1 (two_norm2_err 2 (by norm_num) hu' d)
  have hη := φ.η_nonneg
  rw [sum_range_succ, sum_range_succ, sum_range_zero, _root_.zero_add] at h
  push_cast at h
  rw [norm1_two]
  have h1 : (|(d 0).val| + |(d 1).val|) ^ 2 = (d 0).val ^ 2 + (d 1).val ^ 2 + 2 * (|(d 0).val| * |(d 1).val|) := by
    rw [add_sq, sq_abs, sq_abs]; ring
  have h2 : 2 * (|(d 0).val| * |(d 1).val|) ≤ (d 0).val ^ 2 + (d 1).val ^ 2 := by
    rw [← sq_abs (d 0).val, ← sq_abs (d 1).val]
    linarith [two_mul_le_add_sq |(d 0).val| |(d 1).val|]
  have h3 : 0 ≤ |(d 0).val| * |(d 1).val| := by positivity
  rw [h1]
  constructor
  · linarith [h.2]
  · linarith [h.1]

/-! ### One pass -/

/-- the new point -/
theorem step_err (x dx : Nat → Fl φ) (z : Nat → ℝ) (hz : ∀ k < 2, 0 ≤ z k ∧ z k ≤ 1) :
    dist1 (fun i => x i - dx i) z ≤ (1 + φ.u) * norm1 2 (fun k => (dx k).val - ((x k).val - z k)) + 2 * φ.u := by
  rw [dist1, norm1_two, norm1_two]
  have key : ∀ k < 2, |(x k - dx k).val - z k| ≤ (1 + φ.u) * |(dx k).val - ((x k).val - z k)| + φ.u := fun k hk => by
    have h1 := Fl.sub_err (x k) (dx k)
    have e1 : (x k).val - (dx k).val = z k - ((dx k).val - ((x k).val - z k)) := by ring
    have h2 : |(x k).val - (dx k).val| ≤ 1 + |(dx k).val - ((x k).val - z k)| := by
      rw [e1]
      refine (abs_sub _ _).trans (add_le_add ?_ le_rfl)
      rw [abs_of_nonneg (hz k hk).1]
      exact (hz k hk).2
    have h3 := mul_le_mul_of_nonneg_left h2 φ.u_nonneg
    have h4 := abs_add_le ((x k - dx k).val - ((x k).val - (dx k).val)) ((x k).val - (dx k).val - z k)
    rw [sub_add_sub_cancel] at h4
    have h5 : |(x k).val - (dx k).val - z k| = |(dx k).val - ((x k).val - z k)| := by
      rw [← abs_neg]; congr 1; ring
    linarith
  have h0 := key 0 (by norm_num)
  have h1 := key 1 (by norm_num)
  linarith

/-- the bound for the twist that `Mild` contains -/
noncomputable def maxTwist (n : ℕ) (R lam : ℝ) : ℝ := lam / (2 * n * R)

theorem maxTwist_spec (h : Mild φ n c M R lam) : 0 ≤ maxTwist n R lam ∧ 2 * n * R * maxTwist n R lam = lam ∧
    n * R * maxTwist n R lam / lam = 1 / 2 ∧ ∀ i < n, |twist (cvals c) i| ≤ maxTwist n R lam := by
  have hn : (0:ℝ) < n := by exact_mod_cast (show 0 < n by have := h.n_ge; omega)
  have hR := h.R_pos
  have hl := h.lam_pos
  refine ⟨by rw [maxTwist]; positivity, by rw [maxTwist]; field_simp, by rw [maxTwist]; field_simp, fun i hi => ?_⟩
  rw [maxTwist, le_div_iff₀ (by positivity)]
  linarith [h.twisted i hi]

theorem region {x : Nat → Fl φ} {z : Nat → ℝ} (hz : ∀ k < 2, 0 ≤ z k ∧ z k ≤ 1) (h : dist1 x z ≤ 1 / 2) (k : Nat) (hk : k < 2) :
    -(1 / 2) ≤ (x k).val ∧ (x k).val ≤ 3 / 2 := by
  rw [dist1, norm1_two] at h
  have h0 := abs_nonneg ((x 0).val - z 0)
  have h1 := abs_nonneg ((x 1).val - z 1)
  have h2 : |(x k).val - z k| ≤ 1 / 2 := by
    obtain rfl | rfl : k = 0 ∨ k = 1 := by omega
    · linarith
    · linarith
  have := abs_le.1 h2
  have := hz k hk
  constructor <;> linarith

/-- what one pass of the loop does -/
theorem pass_bounds (h : Mild φ n c M R lam) (tol : Fl φ) (mem : Mat (Fl φ)) (x y : Nat → Fl φ) (hx : ∀ k < 2, -(1 / 2) ≤ (x k).val ∧ (x k).val ≤ 3 / 2)
    (z : Nat → ℝ) (hz : ∀ k < 2, 0 ≤ z k ∧ z k ≤ 1) (hE : dist1 x z ≤ 101 / 100) (hy : ∀ i < n, |(y i).val - bilinear (cvals c) z i| ≤ mapErr φ M) :
    ∃ dx, xTRightInvA 2 n (jac n c tol mem x) (resi n c tol mem x y) mem = (true, dx) ∧
      |norm1 2 (fun k => (dx k).val) - dist1 x z| ≤ 3 / 10 * dist1 x z ^ 2 + 70 * relErr φ n R lam * dist1 x z + 95 / 100 * floorErr φ n M R lam ∧
      dist1 (fun i => x i - dx i) z ≤ 31 / 100 * dist1 x z ^ 2 + 80 * relErr φ n R lam * dist1 x z + floorErr φ n M R lam := by
  obtain ⟨t0, t1, t2, t3⟩ := maxTwist_spec h
  obtain ⟨dx, h1, h2⟩ := pass_err h tol mem x y hx z hE hy t0 t3 t1.le
  have hs := step_err x dx z hz
  rw [t2] at h2
  rw [show (norm1 2 fun k => (x k).val - z k) = dist1 x z from rfl] at h2
  set E := dist1 x z with hEd
  set X := norm1 2 (fun k => (dx k).val - ((x k).val - z k)) with hX
  have hE0 : 0 ≤ E := norm1_nonneg _ _
  have ha := relErr_nonneg h
  have hb := distErr_nonneg h
  have hh := tinyErr_nonneg h
  have hu0 := φ.u_nonneg
  have hu : φ.u ≤ 1 / 10 ^ 6 := h.u_le.trans (by norm_num)
  have hX0 : 0 ≤ X := norm1_nonneg _ _
  have haE : 0 ≤ relErr φ n R lam * E := by positivity
  refine ⟨dx, h1, ?_, ?_⟩
  · have h3 : |norm1 2 (fun k => (dx k).val) - E| ≤ X := by
      rw [hEd, dist1, hX, norm1_two, norm1_two, norm1_two]
      have a0 := abs_le.1 (abs_abs_sub_abs_le_abs_sub (dx 0).val ((x 0).val - z 0))
      have a1 := abs_le.1 (abs_abs_sub_abs_le_abs_sub (dx 1).val ((x 1).val - z 1))
      rw [abs_le]
      constructor <;> linarith [a0.1, a0.2, a1.1, a1.2]
    refine h3.trans ?_
    rw [floorErr]
    linarith
  · have h3 : φ.u * X ≤ 1 / 10 ^ 6 * X := mul_le_mul_of_nonneg_right hu hX0
    rw [floorErr]
    have : 0 ≤ E ^ 2 := sq_nonneg E
    linarith

/-! ### Arithmetic -/

theorem contract_arith {E E' a δ : ℝ} (h0 : 0 ≤ E) (h1 : E ≤ 101 / 100) (ha : a ≤ 1 / 6000) (hδ : δ ≤ 101 / 10000)
    (h : E' ≤ 31 / 100 * E ^ 2 + 80 * a * E + δ) : E' ≤ 1 / 2 ∧ (2 * δ ≤ E → E' ≤ 5 / 6 * E) := by
  have h2 : E ^ 2 ≤ 101 / 100 * E := by rw [sq]; exact mul_le_mul_of_nonneg_right h1 h0
  have h3 : a * E ≤ 1 / 6000 * E := mul_le_mul_of_nonneg_right ha h0
  constructor
  · linarith
  · intro h4
    linarith

theorem stop_arith {E D a δ t tol u η : ℝ} (h0 : 0 ≤ E) (hD0 : 0 ≤ D) (ha : a ≤ 1 / 6000) (hδ : δ ≤ 101 / 10000) (hu0 : 0 ≤ u) (hu : 2 * u ≤ δ) (hη : η ≤ u ^ 2)
    (h1 : E ≤ 2 * δ) (hD : |D - E| ≤ 3 / 10 * E ^ 2 + 70 * a * E + 95 / 100 * δ) (ht : t ≤ 1001 / 1000 * D ^ 2 + 21 / 10 * η) (htol : 16 * δ ^ 2 ≤ tol) : t ≤ tol := by
  have h2 := (abs_le.1 hD).2
  have hδ0 : 0 ≤ δ := by linarith
  have h3 : E ^ 2 ≤ 2 * δ * (2 * (101 / 10000)) := by rw [sq]; exact mul_le_mul h1 (by linarith) h0 (by linarith)
  have h4 : a * E ≤ 1 / 6000 * (2 * δ) := mul_le_mul ha h1 h0 (by norm_num)
  have h5 : D ≤ 31 / 10 * δ := by linarith
  have h6 : D ^ 2 ≤ (31 / 10 * δ) ^ 2 := pow_le_pow_left₀ hD0 h5 2
  have h7 : u ^ 2 ≤ (δ / 2) ^ 2 := pow_le_pow_left₀ hu0 (by linarith) 2
  rw [mul_pow] at h6
  rw [div_pow] at h7
  have : 0 ≤ δ ^ 2 := sq_nonneg δ
  linarith

theorem result_arith {E D E' a δ t u η T : ℝ} (h0 : 0 ≤ E) (h1 : E ≤ 101 / 100) (hD0 : 0 ≤ D) (ha0 : 0 ≤ a) (ha : a ≤ 1 / 6000) (hu0 : 0 ≤ u) (hu : 2 * u ≤ δ)
    (hη : η ≤ u ^ 2) (hT : 0 ≤ T) (hD : |D - E| ≤ 3 / 10 * E ^ 2 + 70 * a * E + 95 / 100 * δ) (ht : D ^ 2 ≤ 2003 / 1000 * t + 42 / 10 * η)
    (hend : t ≤ T ^ 2) (htol : 16 * δ ^ 2 ≤ T ^ 2) (h : E' ≤ 31 / 100 * E ^ 2 + 80 * a * E + δ) : E' ≤ 2 * T ^ 2 + 200 * a * T + δ := by
  have h2 := (abs_le.1 hD).1
  have hδ0 : 0 ≤ δ := by linarith
  have hδT : 4 * δ ≤ T := by
    refine le_of_sq_le_sq ?_ hT
    rw [mul_pow]; linarith
  have h7 : u ^ 2 ≤ (δ / 2) ^ 2 := pow_le_pow_left₀ hu0 (by linarith) 2
  rw [div_pow] at h7
  have h8 : D ≤ 145 / 100 * T := by
    refine le_of_sq_le_sq ?_ (by positivity)
    rw [mul_pow]
    have : 0 ≤ T ^ 2 := sq_nonneg T
    linarith
  have h3 : E ^ 2 ≤ 101 / 100 * E := by rw [sq]; exact mul_le_mul_of_nonneg_right h1 h0
  have h4 : a * E ≤ 1 / 6000 * E := mul_le_mul_of_nonneg_right ha h0
  have h5 : E ≤ 5 / 2 * T := by linarith
  have h6 : E ^ 2 ≤ (5 / 2 * T) ^ 2 := pow_le_pow_left₀ h0 h5 2
  rw [mul_pow] at h6
  have h9 : a * E ≤ a * (5 / 2 * T) := mul_le_mul_of_nonneg_left h5 ha0
  have : 0 ≤ T ^ 2 := sq_nonneg T
  linarith

/-! ### The loop -/

theorem newton_succ (tol : Fl φ) (mem : Mat (Fl φ)) (a : Bool) (y x dx : Nat → Fl φ) (fuel : Nat)
    (h : xTRightInvA 2 n (jac n c tol mem x) (resi n c tol mem x y) mem = (true, dx)) :
    newton (quadN n c tol) mem a y (fuel + 1) x = if a then some (.point fun i => x i - dx i)
      else if two_norm2 2 dx > tol then newton (quadN n c tol) mem a y fuel (fun i => x i - dx i) else some (.point fun i => x i - dx i) := by
  rw [newton]
  have e : xTRightInvA (quadN n c tol).mydim (quadN n c tol).cdim (jacobianTransposed (quadN n c tol) mem x)
      (fun i => (quadN n c tol).global (mem 0) x i - y i) mem = (true, dx) := h
  rw [e]
  rfl

/-- **The loop ends**, after a number of passes that is bounded by the distance of the start, and close to the point. -/
theorem newton_ends (h : Mild φ n c M R lam) (tol : Fl φ) (htol : 16 * floorErr φ n M R lam ^ 2 ≤ tol.val) {T : ℝ} (hT : 0 ≤ T) (hT2 : tol.val = T ^ 2)
    (mem : Mat (Fl φ)) (y : Nat → Fl φ) (z : Nat → ℝ) (hz : ∀ k < 2, 0 ≤ z k ∧ z k ≤ 1) (hy : ∀ i < n, |(y i).val - bilinear (cvals c) z i| ≤ mapErr φ M)
    (N : ℕ) : ∀ x : Nat → Fl φ, (∀ k < 2, -(1 / 2) ≤ (x k).val ∧ (x k).val ≤ 3 / 2) → dist1 x z ≤ 101 / 100 → dist1 x z * (5 / 6) ^ N ≤ 2 * floorErr φ n M R lam →
      ∃ r, (∀ fuel > N, newton (quadN n c tol) mem false y fuel x = some (.point r)) ∧
        dist1 r z ≤ 2 * T ^ 2 + 200 * relErr φ n R lam * T + floorErr φ n M R lam := by
  obtain ⟨hf1, hf2⟩ := floorErr_bounds h
  have ha := relErr_nonneg h
  have ha1 := relErr_le h
  induction N with
  | zero =>
    intro x hx hE hN
    obtain ⟨dx, h1, h2, h3⟩ := pass_bounds h tol mem x y hx z hz hE hy
    rw [pow_zero, mul_one] at hN
    have hb := two_norm2_bounds h.u_le dx
    have hend := stop_arith (E := dist1 x z) (norm1_nonneg _ _) (norm1_nonneg _ _) ha1 hf2 φ.u_nonneg hf1 h.η_le hN h2 hb.1 htol
    refine ⟨fun i => x i - dx i, fun fuel hf => ?_, ?_⟩
    · obtain ⟨fuel, rfl⟩ : ∃ k, fuel = k + 1 := ⟨fuel - 1, by omega⟩
      rw [newton_succ tol mem false y x dx fuel h1, if_neg Bool.false_ne_true, if_neg]
      exact not_lt.2 hend
    · exact result_arith (norm1_nonneg _ _) hE (norm1_nonneg _ _) ha ha1 φ.u_nonneg hf1 h.η_le hT h2 hb.2 (hT2 ▸ hend) (hT2 ▸ htol) h3
  | succ N ih =>
    intro x hx hE hN
    obtain ⟨dx, h1, h2, h3⟩ := pass_bounds h tol mem x y hx z hz hE hy
    have hb := two_norm2_bounds h.u_le dx
    obtain ⟨c1, c2⟩ := contract_arith (E := dist1 x z) (norm1_nonneg _ _) hE ha1 hf2 h3
    by_cases ht : two_norm2 2 dx > tol
    · obtain ⟨r, hr, hr'⟩ := ih (fun i => x i - dx i) (region hz c1) (c1.trans (by norm_num)) (by
        rcases le_total (2 * floorErr φ n M R lam) (dist1 x z) with hle | hle
        · refine (mul_le_mul_of_nonneg_right (c2 hle) (by positivity)).trans ?_
          rw [pow_succ] at hN
          linarith
        · exact absurd ht (not_lt.2 (stop_arith (E := dist1 x z) (norm1_nonneg _ _) (norm1_nonneg _ _) ha1 hf2 φ.u_nonneg hf1 h.η_le hle h2 hb.1 htol)))
      refine ⟨r, fun fuel hf => ?_, hr'⟩
      obtain ⟨fuel, rfl⟩ : ∃ k, fuel = k + 1 := ⟨fuel - 1, by omega⟩
      rw [newton_succ tol mem false y x dx fuel h1, if_neg Bool.false_ne_true, if_pos ht]
      exact hr fuel (by omega)
    · refine ⟨fun i => x i - dx i, fun fuel hf => ?_, ?_⟩
      · obtain ⟨fuel, rfl⟩ : ∃ k, fuel = k + 1 := ⟨fuel - 1, by omega⟩
        rw [newton_succ tol mem false y x dx fuel h1, if_neg Bool.false_ne_true, if_neg ht]
      · exact result_arith (norm1_nonneg _ _) hE (norm1_nonneg _ _) ha ha1 φ.u_nonneg hf1 h.η_le hT h2 hb.2 (hT2 ▸ not_lt.1 ht) (hT2 ▸ htol) h3

/-! ### Elements taken for affine -/

theorem quadN_affine (n : Nat) (c : Mat (Fl φ)) (tol : Fl φ) (mem : Mat (Fl φ)) (h0 : 0 < tol) :
    affine (quadN n c tol) mem = decide (0 + two_norm2 n (fun j => c 3 j - c 2 j - (c 1 j - c 0 j)) < tol) := by
  have e1 : ∀ cit jt, affineS (quadN n c tol) mem 1 cit jt = (true, cit + 2, setRow jt 0 fun j => c (cit + 1) j - c cit j) := by
    intro cit jt
    simp only [affineS, quadN, Nat.reduceAdd, Nat.reduceSub, prism1, Bool.not_true, Bool.false_eq_true, if_false, if_true, List.range_zero,
      List.foldl_nil, h0, not_true_eq_false]
  rw [affine, show (quadN n c tol).mydim = 1 + 1 from rfl, affineS]
  simp only [e1, Bool.not_true, Bool.false_eq_true, if_false, show (quadN n c tol).id = 3 from rfl, show (quadN n c tol).mydim = 2 from rfl,
    Nat.reduceAdd, Nat.reduceSub, prism0, if_true]
  by_cases h : 0 + two_norm2 n (fun j => c 3 j - c 2 j - (c 1 j - c 0 j)) < tol
  · rw [decide_eq_true h, if_neg]
    exact not_not.2 h
  · rw [decide_eq_false h, if_pos]
    exact h

/-- an element taken for affine has a small twist -/
theorem twist_small (h : Mild φ n c M R lam) (tol : Fl φ) (mem : Mat (Fl φ)) (h0 : 0 < tol) {T : ℝ} (hT : 0 ≤ T) (hT2 : tol.val ≤ T ^ 2)
    (ha : affine (quadN n c tol) mem = true) (i : Nat) (hi : i < n) : |twist (cvals c) i| ≤ 101 / 100 * T + 9 * φ.u * (1 + R) := by
  rw [quadN_affine n c tol mem h0, decide_eq_true_eq, Fl.zero_add, Fl.lt_iff] at ha
  have hu := h.u_pos
  have hu6 : φ.u ≤ 1 / 10 ^ 6 := h.u_le.trans (by norm_num)
  have hη := φ.η_nonneg
  have hn' : (n:ℝ) ≤ 29 := by exact_mod_cast h.n_le
  have h1 := (abs_le.1 (two_norm2_err n h.n_le h.u_le fun j => c 3 j - c 2 j - (c 1 j - c 0 j))).1
  have h2 : (c 3 i - c 2 i - (c 1 i - c 0 i)).val ^ 2 ≤ ∑ j ∈ range n, (c 3 j - c 2 j - (c 1 j - c 0 j)).val ^ 2 :=
    single_le_sum (f := fun j => (c 3 j - c 2 j - (c 1 j - c 0 j)).val ^ 2) (fun j _ => sq_nonneg _) (mem_range.2 hi)
  have h3 : (c 3 i - c 2 i - (c 1 i - c 0 i)).val ^ 2 ≤ (1002 / 1000 * T + 6 * φ.u) ^ 2 := by
    have h4 := h.η_le
    have h5 : (n:ℝ) * φ.η ≤ 29 * φ.u ^ 2 := mul_le_mul hn' h4 hη (by norm_num)
    have h6 : 0 ≤ T * φ.u := by positivity
    have h7 : 0 ≤ T ^ 2 := sq_nonneg T
    have h8 : 0 ≤ φ.u ^ 2 := sq_nonneg _
    nlinarith
  have h4 := abs_le_of_sq_le_sq h3 (by positivity)
  have hr1 := h.rows (fun _ => 0) (fun _ _ => by norm_num) 0
  have hr2 := h.rows (fun _ => 1) (fun _ _ => by norm_num) 0
  have b1 : |(c 1 i).val - (c 0 i).val| ≤ R := by
    refine abs_le_of_sq_le_sq (le_trans ?_ hr1) h.R_pos.le
    refine le_trans (le_of_eq ?_) (single_le_sum (f := fun i : Fin n => bilinearD (cvals c) (fun _ => 0) (0 : Fin 2) i ^ 2) (fun _ _ => sq_nonneg _) (mem_univ (⟨i, hi⟩ : Fin n)))
    simp [bilinearD, cvals]
  have b2 : |(c 3 i).val - (c 2 i).val| ≤ R := by
    refine abs_le_of_sq_le_sq (le_trans ?_ hr2) h.R_pos.le
    refine le_trans (le_of_eq ?_) (single_le_sum (f := fun i : Fin n => bilinearD (cvals c) (fun _ => 1) (0 : Fin 2) i ^ 2) (fun _ _ => sq_nonneg _) (mem_univ (⟨i, hi⟩ : Fin n)))
    simp [bilinearD, cvals]
  have hN := ((Near.sub_exact (c 3 i) (c 2 i)).sub (Near.sub_exact (c 1 i) (c 0 i))).mono_m (n := 2 * R) (by linarith)
  have hB := hN.bound
  have e : (c 3 i).val - (c 2 i).val - ((c 1 i).val - (c 0 i).val) = twist (cvals c) i := by
    rw [twist, cvals, cvals, cvals, cvals]; ring
  rw [e] at hB
  simp only [_root_.add_zero, MulZeroClass.mul_zero] at hB
  have hP : ((1 + φ.u) ^ (1 + 1) - 1) ≤ 21 / 10 * φ.u := by
    have : φ.u ^ 2 ≤ 1 / 10 ^ 6 * φ.u := by rw [sq]; exact mul_le_mul_of_nonneg_right hu6 hu.le
    nlinarith
  have hQ := mul_le_mul_of_nonneg_right hP (by have := h.R_pos; positivity : 0 ≤ 2 * R)
  have h5 := abs_add_le (c 3 i - c 2 i - (c 1 i - c 0 i)).val (twist (cvals c) i - (c 3 i - c 2 i - (c 1 i - c 0 i)).val)
  rw [add_sub_cancel] at h5
  rw [abs_sub_comm] at hB
  have hC := hB.trans hQ
  have : 0 ≤ φ.u * R := mul_nonneg hu.le h.R_pos.le
  clear hP hQ hB hN h1 h2 h3
  linarith

/-- **One pass** for an element taken for affine. -/
theorem newton_affine (h : Mild φ n c M R lam) (tol : Fl φ) (h0 : 0 < tol) {T : ℝ} (hT : 0 ≤ T) (hT2 : tol.val ≤ T ^ 2)
    (mem : Mat (Fl φ)) (y : Nat → Fl φ) (z : Nat → ℝ) (hz : ∀ k < 2, 0 ≤ z k ∧ z k ≤ 1) (hy : ∀ i < n, |(y i).val - bilinear (cvals c) z i| ≤ mapErr φ M)
    (ha : affine (quadN n c tol) mem = true) (x : Nat → Fl φ) (hx : ∀ k < 2, -(1 / 2) ≤ (x k).val ∧ (x k).val ≤ 3 / 2) (hE : dist1 x z ≤ 101 / 100) :
    ∃ r, (∀ fuel > 0, newton (quadN n c tol) mem true y fuel x = some (.point r)) ∧
      dist1 r z ≤ n * R / lam * (T + 6 * φ.u * (1 + R)) + 80 * relErr φ n R lam + floorErr φ n M R lam := by
  obtain ⟨t0, t1, t2, t3⟩ := maxTwist_spec h
  have hu := h.u_pos
  have hR := h.R_pos
  have hl := h.lam_pos
  have hn : (0:ℝ) < n := by exact_mod_cast (show 0 < n by have := h.n_ge; omega)
  set Tw := min (maxTwist n R lam) (101 / 100 * T + 9 * φ.u * (1 + R)) with hTw
  have p0 : 0 ≤ Tw := le_min t0 (by positivity)
  have p1 : ∀ i < n, |twist (cvals c) i| ≤ Tw := fun i hi => le_min (t3 i hi) (twist_small h tol mem h0 hT hT2 ha i hi)
  have p2 : 2 * n * R * Tw ≤ lam := by
    rw [← t1]
    exact mul_le_mul_of_nonneg_left (min_le_left _ _) (by positivity)
  obtain ⟨dx, h1, h2⟩ := pass_err h tol mem x y hx z hE hy p0 p1 p2
  refine ⟨fun i => x i - dx i, fun fuel hf => ?_, ?_⟩
  · obtain ⟨fuel, rfl⟩ : ∃ k, fuel = k + 1 := ⟨fuel - 1, by omega⟩
    rw [newton_succ tol mem true y x dx fuel h1, if_pos rfl]
  · have hs := step_err x dx z hz
    rw [show (norm1 2 fun k => (x k).val - z k) = dist1 x z from rfl] at h2
    set E := dist1 x z with hEd
    set X := norm1 2 (fun k => (dx k).val - ((x k).val - z k)) with hX
    have hE0 : 0 ≤ E := norm1_nonneg _ _
    have ha := relErr_nonneg h
    have hb := distErr_nonneg h
    have hh := tinyErr_nonneg h
    have hu6 : φ.u ≤ 1 / 10 ^ 6 := h.u_le.trans (by norm_num)
    have hX0 : 0 ≤ X := norm1_nonneg _ _
    have h3 : φ.u * X ≤ 1 / 10 ^ 6 * X := mul_le_mul_of_nonneg_right hu6 hX0
    have h4 : E ^ 2 ≤ (101 / 100) ^ 2 := pow_le_pow_left₀ hE0 hE 2
    have h5 : relErr φ n R lam * E ≤ relErr φ n R lam * (101 / 100) := mul_le_mul_of_nonneg_left hE ha
    have h6 : n * R * Tw / lam ≤ n * R / lam * (101 / 100 * T + 9 * φ.u * (1 + R)) := by
      rw [div_mul_eq_mul_div]
      exact div_le_div_of_nonneg_right (mul_le_mul_of_nonneg_left (min_le_right _ _) (by positivity)) hl.le
    have h7 : n * R * Tw / lam * E ^ 2 ≤ n * R / lam * (101 / 100 * T + 9 * φ.u * (1 + R)) * (101 / 100) ^ 2 := mul_le_mul h6 h4 (sq_nonneg _) (by positivity)
    have h8 : 0 ≤ n * R / lam * T := by positivity
    have h9 : 0 ≤ n * R / lam * (φ.u * (1 + R)) := by positivity
    rw [floorErr]
    linarith

end Verif.FloatNewton
