import Verif.Float.GaussModel
import Verif.Float.NewtonLoop

/-! The method of Gauss and Newton in floating-point arithmetic: norms, one pass, the loop. -/

namespace Verif.FloatGauss

open Verif.Float Verif.FloatVol Verif.FloatNewton Verif.RefGeom Finset HasSqrt
open Verif.GaussNewton (Code)

variable {φ : Format}

/-! ### Norms -/

/-- the Euclidean norm -/
noncomputable def norm2 (n : Nat) (v : Nat → ℝ) : ℝ := Real.sqrt (∑ k ∈ range n, v k ^ 2)

theorem norm2_nonneg (n : Nat) (v : Nat → ℝ) : 0 ≤ norm2 n v := Real.sqrt_nonneg _

theorem norm2_sq (n : Nat) (v : Nat → ℝ) : norm2 n v ^ 2 = ∑ k ∈ range n, v k ^ 2 := Real.sq_sqrt (sum_nonneg fun _ _ => sq_nonneg _)

theorem abs_le_norm2 {n : Nat} (v : Nat → ℝ) {k : Nat} (hk : k < n) : |v k| ≤ norm2 n v := by
  rw [norm2, ← Real.sqrt_sq_eq_abs]
  exact Real.sqrt_le_sqrt (single_le_sum (f := fun j => v j ^ 2) (fun j _ => sq_nonneg _) (mem_range.2 hk))

theorem norm1_le_norm2 (n : Nat) (v : Nat → ℝ) : norm1 n v ≤ n * norm2 n v := norm1_le fun _ hk => abs_le_norm2 v hk

theorem norm2_le_norm1 (n : Nat) (v : Nat → ℝ) : norm2 n v ≤ norm1 n v := by
  refine Real.sqrt_le_iff.2 ⟨norm1_nonneg _ _, ?_⟩
  rw [norm1]
  induction n with
  | zero => simp
  | succ n ih =>
    rw [sum_range_succ, sum_range_succ, add_sq, sq_abs]
    have : 0 ≤ 2 * (∑ k ∈ range n, |v k|) * |v n| := by
      have : 0 ≤ ∑ k ∈ range n, |v k| := sum_nonneg fun _ _ => abs_nonneg _
      positivity
    linarith

theorem norm1_add (n : Nat) (a b : Nat → ℝ) : norm1 n (fun k => a k + b k) ≤ norm1 n a + norm1 n b := by
  simp only [norm1]
  rw [← sum_add_distrib]
  exact sum_le_sum fun k _ => abs_add_le _ _

theorem norm1_mono {n : Nat} {a b : Nat → ℝ} (h : ∀ k < n, |a k| ≤ b k) : norm1 n a ≤ ∑ k ∈ range n, b k := sum_le_sum fun k hk => h k (mem_range.1 hk)

/-- the absolute error of a computed norm -/
noncomputable def normErr (φ : Format) : ℝ := 7 * Real.sqrt φ.η + 2 * φ.η

theorem normErr_nonneg : 0 ≤ normErr φ := by
  have := φ.η_nonneg
  have := Real.sqrt_nonneg φ.η
  rw [normErr]; positivity

theorem two_norm_err (n : Nat) (hn : n ≤ 29) (hu : φ.u ≤ 1 / 2 ^ 24) (d : Nat → Fl φ) :
    (two_norm n d).val ≤ 1002 / 1000 * norm2 n (fun c => (d c).val) + normErr φ ∧
      norm2 n (fun c => (d c).val) ≤ 1002 / 1000 * (two_norm n d).val + normErr φ := by
  have h1 := two_norm2_err n hn hu d
  have h2 := sqrt_err (two_norm2 n d)
  rw [show (HasSqrt.sqrt (two_norm2 n d)).val = (two_norm n d).val from rfl, abs_of_nonneg (Real.sqrt_nonneg _)] at h2
  rw [← norm2_sq n fun c => (d c).val] at h1
  have hS := norm2_nonneg n fun c => (d c).val
  set S := norm2 n fun c => (d c).val
  set T := (two_norm2 n d).val
  set r := (two_norm n d).val
  have hη := φ.η_nonneg
  have hn' : (n:ℝ) ≤ 29 := by exact_mod_cast hn
  have hq := Real.sqrt_nonneg φ.η
  have hq2 := Real.sq_sqrt hη
  set q := Real.sqrt φ.η
  have hT := Real.sqrt_nonneg T
  have hu1 : φ.u ≤ 1 / 10000 := hu.trans (by norm_num)
  have hu0 := φ.u_nonneg
  have h3 : 1001 / 1000 * (n * φ.η) ≤ 30 * q ^ 2 := by rw [hq2]; nlinarith
  obtain ⟨a1, a2⟩ := abs_le.1 h1
  obtain ⟨b1, b2⟩ := abs_le.1 h2
  have h4 : φ.u * Real.sqrt T ≤ 1 / 10000 * Real.sqrt T := mul_le_mul_of_nonneg_right hu1 hT
  have h5 : Real.sqrt T ≤ 1001 / 1000 * S + 6 * q := by
    refine Real.sqrt_le_iff.2 ⟨by positivity, ?_⟩
    have : 0 ≤ S * q := by positivity
    nlinarith
  have h6 : S ≤ 1001 / 1000 * Real.sqrt T + 6 * q := by
    have h7 : T ≤ Real.sqrt T ^ 2 := by
      rcases le_total 0 T with h | h
      · rw [Real.sq_sqrt h]
      · exact h.trans (sq_nonneg _)
    refine le_of_sq_le_sq ?_ (by positivity)
    have : 0 ≤ Real.sqrt T * q := by positivity
    nlinarith
  rw [normErr]
  constructor <;> linarith

/-! ### Maps -/

/-- the values of a vector -/
def vals (x : Nat → Fl φ) : Nat → ℝ := fun k => (x k).val

/-- the 1-norm of the error of `x` -/
noncomputable def dist (m : Nat) (x : Nat → Fl φ) (z : Nat → ℝ) : ℝ := norm1 m fun k => (x k).val - z k

theorem dist_nonneg (m : Nat) (x : Nat → Fl φ) (z : Nat → ℝ) : 0 ≤ dist m x z := norm1_nonneg _ _

/-- the computed residual -/
def resi (f : (Nat → Fl φ) → Nat → Fl φ) (y x : Nat → Fl φ) : Nat → Fl φ := fun i => f x i - y i

/-- within the distance `ρ` of `z`, `f` computes the map `F` up to an error `ε` in each coordinate, distances (1-norm) grow at least
by the factor `lo` and at most by `hi`, the computed derivatives `df` have rows of length at most `R` and a smallest singular value
at least `√lam`, and they describe the change of `F` towards `z` up to the factor `θ` -/
structure Tame (m n : ℕ) (f : (Nat → Fl φ) → Nat → Fl φ) (df : (Nat → Fl φ) → Mat (Fl φ)) (F : (Nat → ℝ) → Nat → ℝ) (z : Nat → ℝ)
    (ρ R lam lo hi θ ε : ℝ) : Prop where
  fits : Fits φ m n (R ^ 2) lam
  cond : 52 * m * n ^ 2 * φ.u * R ^ 2 ≤ lam
  R_nonneg : 0 ≤ R
  lo_pos : 0 < lo
  hi_nonneg : 0 ≤ hi
  θ_nonneg : 0 ≤ θ
  ε_nonneg : 0 ≤ ε
  value : ∀ x, dist m x z ≤ ρ → ∀ c < n, |(f x c).val - F (vals x) c| ≤ ε
  lower : ∀ x : Nat → ℝ, norm1 m (fun k => x k - z k) ≤ ρ → lo * norm1 m (fun k => x k - z k) ≤ norm1 n fun c => F x c - F z c
  upper : ∀ x : Nat → ℝ, norm1 m (fun k => x k - z k) ≤ ρ → norm1 n (fun c => F x c - F z c) ≤ hi * norm1 m fun k => x k - z k
  rows : ∀ x, dist m x z ≤ ρ → RowsWithin m n (valM (df x)) (R ^ 2)
  indep : ∀ x, dist m x z ≤ ρ → IndependentBy m n (valM (df x)) lam
  linear : ∀ x, dist m x z ≤ ρ →
    norm1 n (fun c => F (vals x) c - F z c - ∑ k ∈ range m, ((x k).val - z k) * (df x k c).val) ≤ θ * dist m x z

section
variable {m n : ℕ} {f : (Nat → Fl φ) → Nat → Fl φ} {df : (Nat → Fl φ) → Mat (Fl φ)} {F : (Nat → ℝ) → Nat → ℝ} {z : Nat → ℝ}
    {ρ R lam lo hi θ ε : ℝ}

/-- the factor by which a step decreases the error -/
noncomputable def rate (φ : Format) (m n : ℕ) (R lam hi θ : ℝ) : ℝ := 3 * m * (26 * n ^ 2 * φ.u * R ^ 2 + 4 * n * φ.u * R * hi + R * θ) / lam

/-- the part of the error that does not decrease -/
noncomputable def drift (φ : Format) (m n : ℕ) (R lam ε s : ℝ) : ℝ := 3 * m * (3 * n * R * ε + 4 * n ^ 2 * φ.η * (1 + R) ^ 2) / lam + φ.u * s

theorem resi_err {x y : Nat → Fl φ} (hv : ∀ c < n, |(f x c).val - F (vals x) c| ≤ ε) (hy : ∀ c < n, |(y c).val - F z c| ≤ ε) :
    norm1 n (fun c => (resi f y x c).val - (F (vals x) c - F z c)) ≤
      2 * n * ε + φ.u * (norm1 n (fun c => F (vals x) c - F z c) + 2 * n * ε) := by
  have key : ∀ c < n, |(resi f y x c).val - (F (vals x) c - F z c)| ≤ 2 * ε + φ.u * (|F (vals x) c - F z c| + 2 * ε) := fun c hc => by
    have h1 := Fl.sub_err (f x c) (y c)
    have e1 : |(f x c).val - (y c).val - (F (vals x) c - F z c)| ≤ 2 * ε := by
      have := abs_sub ((f x c).val - F (vals x) c) ((y c).val - F z c)
      rw [show (f x c).val - F (vals x) c - ((y c).val - F z c) = (f x c).val - (y c).val - (F (vals x) c - F z c) by ring] at this
      linarith [hv c hc, hy c hc]
    have e2 : |(f x c).val - (y c).val| ≤ |F (vals x) c - F z c| + 2 * ε := by
      have := abs_add_le ((f x c).val - (y c).val - (F (vals x) c - F z c)) (F (vals x) c - F z c)
      rw [sub_add_cancel] at this
      linarith
    have e3 := mul_le_mul_of_nonneg_left e2 φ.u_nonneg
    have := abs_add_le ((f x c - y c).val - ((f x c).val - (y c).val)) ((f x c).val - (y c).val - (F (vals x) c - F z c))
    rw [sub_add_sub_cancel] at this
    exact this.trans (by linarith)
  refine (norm1_mono key).trans (le_of_eq ?_)
  simp only [sum_add_distrib, ← mul_sum, sum_const, card_range, nsmul_eq_mul, norm1]
  ring

/-- arithmetic of one pass -/
theorem pass_arith {m n u R lam X E D W T hi θ ε : ℝ} (hm : 0 < m) (hn : 1 ≤ n) (hn' : n ≤ 29) (hu : 0 ≤ u) (hu' : u ≤ 1 / 10 ^ 6) (hR : 0 ≤ R) (hlam : 0 < lam)
    (hcond : 52 * m * n ^ 2 * u * R ^ 2 ≤ lam) (hX : 0 ≤ X) (hE : 0 ≤ E) (hhi : 0 ≤ hi) (hε : 0 ≤ ε) (hθ : 0 ≤ θ) (hT : 0 ≤ T)
    (hD : D ≤ (1 + u) * (hi * E + 2 * n * ε)) (hW : W ≤ θ * E + 2 * n * ε + u * (hi * E + 2 * n * ε))
    (h : lam * X ≤ m * (26 * n ^ 2 * u * R ^ 2 * (X + E) + 22 / 10 * n * u * (R * D) + R * W + T)) :
    (1 + u) * X ≤ 3 * m * (26 * n ^ 2 * u * R ^ 2 + 4 * n * u * R * hi + R * θ) / lam * E + 3 * m * (3 * n * R * ε + T) / lam := by
  rw [div_mul_eq_mul_div, ← add_div, le_div_iff₀ hlam]
  set P := hi * E with hP
  have hP0 : 0 ≤ P := by positivity
  have h1 : m * (26 * n ^ 2 * u * R ^ 2 * X) ≤ lam / 2 * X := by
    have := mul_le_mul_of_nonneg_right hcond hX
    linarith
  have hnu : n * u ≤ 29 * (1 / 10 ^ 6) := mul_le_mul hn' hu' hu (by norm_num)
  have h2 : 22 / 10 * n * u * (R * D) ≤ 22 / 10 * n * u * (R * ((1 + u) * (P + 2 * n * ε))) :=
    mul_le_mul_of_nonneg_left (mul_le_mul_of_nonneg_left hD hR) (by positivity)
  have h3 : R * W ≤ R * (θ * E + 2 * n * ε + u * (P + 2 * n * ε)) := mul_le_mul_of_nonneg_left hW hR
  have h4 : 22 / 10 * n * u * (R * ((1 + u) * (P + 2 * n * ε))) ≤ 23 / 10 * (n * u * R * P) + 1 / 1000 * (n * R * ε) := by
    have a1 : n * u * R * P * u ≤ n * u * R * P * (1 / 10 ^ 6) := mul_le_mul_of_nonneg_left hu' (by positivity)
    have a2 : n * u * (n * R * ε) ≤ 29 * (1 / 10 ^ 6) * (n * R * ε) := mul_le_mul_of_nonneg_right hnu (by positivity)
    have a3 : n * u * (n * R * ε) * u ≤ n * u * (n * R * ε) * (1 / 10 ^ 6) := mul_le_mul_of_nonneg_left hu' (by positivity)
    have a4 : 0 ≤ n * R * ε := by positivity
    have a5 : 0 ≤ n * u * R * P := by positivity
    linarith
  have h5 : R * (u * (P + 2 * n * ε)) ≤ n * u * R * P + 1 / 1000 * (n * R * ε) := by
    have a1 : 1 * (u * R * P) ≤ n * (u * R * P) := mul_le_mul_of_nonneg_right hn (by positivity)
    have a2 : u * (n * R * ε) ≤ 1 / 10 ^ 6 * (n * R * ε) := mul_le_mul_of_nonneg_right hu' (by positivity)
    have a4 : 0 ≤ n * R * ε := by positivity
    linarith
  have h6 : 22 / 10 * n * u * (R * D) + R * W ≤ 33 / 10 * (n * u * R * P) + R * θ * E + 201 / 100 * (n * R * ε) := by
    have a4 : 0 ≤ n * R * ε := by positivity
    linarith
  have h7 := mul_le_mul_of_nonneg_left h6 hm.le
  have h8 : lam * X ≤ 2 * (m * (26 * n ^ 2 * u * R ^ 2 * E + 33 / 10 * (n * u * R * P) + R * θ * E + 201 / 100 * (n * R * ε) + T)) := by linarith
  have h9 : u * (lam * X) ≤ 1 / 10 ^ 6 * (lam * X) := mul_le_mul_of_nonneg_right hu' (by positivity)
  have b1 : 0 ≤ m * (26 * n ^ 2 * u * R ^ 2 * E) := by positivity
  have b2 : 0 ≤ m * (n * u * R * P) := by positivity
  have b3 : 0 ≤ m * (R * θ * E) := by positivity
  have b4 : 0 ≤ m * (n * R * ε) := by positivity
  have b5 : 0 ≤ m * T := by positivity
  rw [hP] at *
  linarith

/-- the new point -/
theorem step_err (m : Nat) (x dx : Nat → Fl φ) (z : Nat → ℝ) :
    dist m (fun i => x i - 1 * dx i) z ≤ (1 + φ.u) * norm1 m (fun k => (dx k).val - ((x k).val - z k)) + φ.u * norm1 m z := by
  have key : ∀ k < m, |(x k - 1 * dx k).val - z k| ≤ (1 + φ.u) * |(dx k).val - ((x k).val - z k)| + φ.u * |z k| := fun k _ => by
    rw [Fl.one_mul]
    have h1 := Fl.sub_err (x k) (dx k)
    have h2 : |(x k).val - (dx k).val| ≤ |z k| + |(dx k).val - ((x k).val - z k)| := by
      rw [show (x k).val - (dx k).val = z k - ((dx k).val - ((x k).val - z k)) by ring]
      exact abs_sub _ _
    have h3 := mul_le_mul_of_nonneg_left h2 φ.u_nonneg
    have h4 := abs_add_le ((x k - dx k).val - ((x k).val - (dx k).val)) ((x k).val - (dx k).val - z k)
    rw [sub_add_sub_cancel] at h4
    have h5 : |(x k).val - (dx k).val - z k| = |(dx k).val - ((x k).val - z k)| := by
      rw [← abs_neg]; congr 1; ring
    linarith
  refine (norm1_mono key).trans (le_of_eq ?_)
  rw [sum_add_distrib, ← mul_sum, ← mul_sum, norm1, norm1]

/-- what one pass of the loop does -/
theorem pass_bounds (h : Tame m n f df F z ρ R lam lo hi θ ε) (mem : Mat (Fl φ)) (x y : Nat → Fl φ) (hx : dist m x z ≤ ρ)
    (hy : ∀ c < n, |(y c).val - F z c| ≤ ε) :
    ∃ dx, xTRightInvA m n (df x) (resi f y x) mem = (true, dx) ∧
      dist m (fun i => x i - 1 * dx i) z ≤ rate φ m n R lam hi θ * dist m x z + drift φ m n R lam ε (norm1 m z) := by
  obtain ⟨dx, h1, h2⟩ := solve_ok h.fits h.R_nonneg (df x) (resi f y x) mem (h.rows x hx) (h.indep x hx)
  refine ⟨dx, h1, ?_⟩
  have h2 := h2 fun k => (x k).val - z k
  have hr := resi_err (h.value x hx) hy
  have hup : norm1 n (fun c => F (vals x) c - F z c) ≤ hi * dist m x z := h.upper (vals x) hx
  have hl := h.linear x hx
  have hu := φ.u_nonneg
  have hu6 : φ.u ≤ 1 / 10 ^ 6 := h.fits.u_le.trans (by norm_num)
  set U := norm1 n fun c => F (vals x) c - F z c with hU
  have hE0 := dist_nonneg m x z
  have hX : norm1 m (fun k => (dx k).val) ≤ norm1 m (fun k => (dx k).val - ((x k).val - z k)) + dist m x z := by
    have := norm1_add m (fun k => (dx k).val - ((x k).val - z k)) fun k => (x k).val - z k
    simp only [sub_add_cancel] at this
    exact this
  have hD : norm1 n (fun c => (resi f y x c).val) ≤ (1 + φ.u) * (hi * dist m x z + 2 * n * ε) := by
    have h3 := norm1_add n (fun c => (resi f y x c).val - (F (vals x) c - F z c)) fun c => F (vals x) c - F z c
    simp only [sub_add_cancel] at h3
    have h4 := mul_le_mul_of_nonneg_left hup hu
    linarith
  have hW : norm1 n (fun c => (resi f y x c).val - ∑ k ∈ range m, ((x k).val - z k) * (df x k c).val) ≤
      θ * dist m x z + 2 * n * ε + φ.u * (hi * dist m x z + 2 * n * ε) := by
    have h3 := norm1_add n (fun c => (resi f y x c).val - (F (vals x) c - F z c))
      fun c => F (vals x) c - F z c - ∑ k ∈ range m, ((x k).val - z k) * (df x k c).val
    simp only [sub_add_sub_cancel] at h3
    have h4 := mul_le_mul_of_nonneg_left hup hu
    linarith
  have hm : (0:ℝ) < m := by exact_mod_cast h.fits.m_pos
  have hn : (1:ℝ) ≤ n := by exact_mod_cast h.fits.m_pos.trans h.fits.mn
  have hn' : (n:ℝ) ≤ 29 := by exact_mod_cast h.fits.n_le
  have hη := φ.η_nonneg
  have hR := h.R_nonneg
  have hp := pass_arith (T := 4 * n ^ 2 * φ.η * (1 + R) ^ 2) hm hn hn' hu hu6 h.R_nonneg h.fits.lam_pos h.cond (norm1_nonneg m fun k => (dx k).val - ((x k).val - z k)) hE0
    h.hi_nonneg h.ε_nonneg h.θ_nonneg (by positivity) hD hW (h2.trans (mul_le_mul_of_nonneg_left (by
      have := mul_le_mul_of_nonneg_left hX (show 0 ≤ 26 * (n:ℝ) ^ 2 * φ.u * R ^ 2 by positivity)
      linarith) hm.le))
  refine (step_err m x dx z).trans ?_
  rw [rate, drift]
  linarith

/-- the residual below which nothing is known -/
noncomputable def floorRes (φ : Format) (m n : ℕ) (R lam hi ε s : ℝ) : ℝ := 2 * hi * drift φ m n R lam ε s + 3 * n * ε + 2 * normErr φ

/-- the computed norm of the residual and the distance -/
theorem norm_bounds (h : Tame m n f df F z ρ R lam lo hi θ ε) (x y : Nat → Fl φ) (hx : dist m x z ≤ ρ) (hy : ∀ c < n, |(y c).val - F z c| ≤ ε) :
    (two_norm n (resi f y x)).val ≤ 1003 / 1000 * hi * dist m x z + 201 / 100 * n * ε + normErr φ ∧
      lo * dist m x z ≤ n * (1003 / 1000 * (two_norm n (resi f y x)).val + 101 / 100 * normErr φ + 201 / 100 * ε) := by
  obtain ⟨h1, h2⟩ := two_norm_err n h.fits.n_le h.fits.u_le (resi f y x)
  have hr := resi_err (h.value x hx) hy
  have hup : norm1 n (fun c => F (vals x) c - F z c) ≤ hi * dist m x z := h.upper (vals x) hx
  have hlo : lo * dist m x z ≤ norm1 n fun c => F (vals x) c - F z c := h.lower (vals x) hx
  have hu := φ.u_nonneg
  have hu6 : φ.u ≤ 1 / 10 ^ 6 := h.fits.u_le.trans (by norm_num)
  have hE0 := dist_nonneg m x z
  have hε := h.ε_nonneg
  have hn0 : (0:ℝ) ≤ n := Nat.cast_nonneg n
  have hU0 : 0 ≤ norm1 n fun c => F (vals x) c - F z c := norm1_nonneg _ _
  have a1 := norm2_le_norm1 n fun c => (resi f y x c).val
  have a2 := norm1_le_norm2 n fun c => (resi f y x c).val
  have h3 := norm1_add n (fun c => (resi f y x c).val - (F (vals x) c - F z c)) fun c => F (vals x) c - F z c
  have h4 := norm1_add n (fun c => -((resi f y x c).val - (F (vals x) c - F z c))) fun c => (resi f y x c).val
  simp only [sub_add_cancel] at h3
  have e4 : (fun c => -((resi f y x c).val - (F (vals x) c - F z c)) + (resi f y x c).val) = fun c => F (vals x) c - F z c := by
    funext c; ring
  have e5 : norm1 n (fun c => -((resi f y x c).val - (F (vals x) c - F z c))) = norm1 n fun c => (resi f y x c).val - (F (vals x) c - F z c) := by
    simp only [norm1, abs_neg]
  rw [e4, e5] at h4
  set U := norm1 n fun c => F (vals x) c - F z c
  set r := (two_norm n (resi f y x)).val
  set S := norm2 n fun c => (resi f y x c).val
  set D := norm1 n fun c => (resi f y x c).val
  have b1 : φ.u * (U + 2 * n * ε) ≤ 1 / 10 ^ 6 * (U + 2 * n * ε) := mul_le_mul_of_nonneg_right hu6 (by positivity)
  have b2 : (n:ℝ) * S ≤ n * (1002 / 1000 * r + normErr φ) := mul_le_mul_of_nonneg_left h2 hn0
  have b3 : 0 ≤ hi * dist m x z := hU0.trans hup
  have b4 : 0 ≤ (n:ℝ) * ε := by positivity
  constructor
  · linarith
  · have b5 : 0 ≤ n * (1002 / 1000 * r + normErr φ) := le_trans (mul_nonneg hn0 (norm2_nonneg _ _)) b2
    have b6 : 0 ≤ (n:ℝ) * normErr φ := mul_nonneg hn0 normErr_nonneg
    linarith

/-! ### The loop -/

/-- the limits within which the loop succeeds -/
structure Converges (φ : Format) (m n : ℕ) (ρ R lam lo hi θ ε s tol : ℝ) : Prop where
  rate_le : rate φ m n R lam hi θ ≤ 1 / 2
  rate_lo : 4 * n * hi * rate φ m n R lam hi θ ≤ lo
  drift_le : 2 * drift φ m n R lam ε s ≤ ρ
  tol_pos : 0 < tol
  tol_le : 2 * floorRes φ m n R lam hi ε s ≤ tol

theorem contract_arith {n lo hi q E E' r r' t ε δ ρ : ℝ} (hn : 1 ≤ n) (hlo : 0 < lo) (hhi : 0 ≤ hi) (hq : 0 ≤ q) (hE : 0 ≤ E) (hEρ : E ≤ ρ) (ht : 0 ≤ t) (hε : 0 ≤ ε)
    (hδ : 0 ≤ δ) (h1 : q ≤ 1 / 2) (h2 : 4 * n * hi * q ≤ lo) (h3 : 2 * δ ≤ ρ) (hE' : E' ≤ q * E + δ)
    (hr' : r' ≤ 1003 / 1000 * hi * E' + 201 / 100 * n * ε + t) (hr : lo * E ≤ n * (1003 / 1000 * r + 101 / 100 * t + 201 / 100 * ε))
    (hfloor : 2 * (2 * hi * δ + 3 * n * ε + 2 * t) ≤ r) (hr0 : 0 < r) : E' ≤ ρ ∧ r' ≤ 4 / 5 * r := by
  constructor
  · have := mul_le_mul h1 hEρ hE (by norm_num)
    linarith
  · have a1 : 4 * (hi * (q * E)) ≤ 1003 / 1000 * r + 101 / 100 * t + 201 / 100 * ε := by
      have b1 : 4 * n * hi * q * E ≤ lo * E := mul_le_mul_of_nonneg_right h2 hE
      have b2 : n * (4 * (hi * (q * E))) ≤ n * (1003 / 1000 * r + 101 / 100 * t + 201 / 100 * ε) := by linarith
      exact le_of_mul_le_mul_left b2 (by linarith)
    have a2 : hi * E' ≤ hi * (q * E) + hi * δ := by
      have := mul_le_mul_of_nonneg_left hE' hhi
      linarith
    have a3 : 1 * ε ≤ n * ε := mul_le_mul_of_nonneg_right hn hε
    have a4 : 0 ≤ hi * δ := by positivity
    linarith

theorem rate_nonneg (h : Tame m n f df F z ρ R lam lo hi θ ε) : 0 ≤ rate φ m n R lam hi θ := by
  have := φ.u_nonneg
  have := h.R_nonneg
  have := h.hi_nonneg
  have := h.θ_nonneg
  have := h.fits.lam_pos
  rw [rate]; positivity

theorem drift_nonneg (h : Tame m n f df F z ρ R lam lo hi θ ε) : 0 ≤ drift φ m n R lam ε (norm1 m z) := by
  have := φ.u_nonneg
  have := φ.η_nonneg
  have := h.R_nonneg
  have := h.ε_nonneg
  have := h.fits.lam_pos
  have := norm1_nonneg m z
  rw [drift]; positivity

/-- **The loop ends with OK**, after a number of passes that depends on the logarithm of the residual. -/
theorem loop_ok (h : Tame m n f df F z ρ R lam lo hi θ ε) (opts : Options (Fl φ)) (hopts : 0 < opts.maxInnerIt)
    (hc : Converges φ m n ρ R lam lo hi θ ε (norm1 m z) opts.absTol.val) (mem : Mat (Fl φ)) (y : Nat → Fl φ) (hy : ∀ c < n, |(y c).val - F z c| ≤ ε) (N : ℕ) :
    ∀ (x : Nat → Fl φ) (rr : Fl φ), dist m x z ≤ ρ → 2 * floorRes φ m n R lam hi ε (norm1 m z) ≤ (two_norm n (resi f y x)).val →
      0 < (two_norm n (resi f y x)).val → (two_norm n (resi f y x)).val * (4 / 5) ^ (N + 1) < opts.absTol.val →
      ∃ r, (∀ fuel > N, loop m n f df y opts mem fuel x x (resi f y x) (two_norm n (resi f y x)) rr = (.ok, r)) ∧
        dist m r z ≤ ρ ∧ (two_norm n (resi f y r)).val < opts.absTol.val := by
  obtain ⟨j, hj⟩ : ∃ j, opts.maxInnerIt.toNat = j + 1 := ⟨opts.maxInnerIt.toNat - 1, by omega⟩
  have hn : (1:ℝ) ≤ n := by exact_mod_cast h.fits.m_pos.trans h.fits.mn
  have step : ∀ (x : Nat → Fl φ) (rr : Fl φ), dist m x z ≤ ρ → 2 * floorRes φ m n R lam hi ε (norm1 m z) ≤ (two_norm n (resi f y x)).val →
      0 < (two_norm n (resi f y x)).val → ∃ x', dist m x' z ≤ ρ ∧ (two_norm n (resi f y x')).val ≤ 4 / 5 * (two_norm n (resi f y x)).val ∧
        ∀ fuel, loop m n f df y opts mem (fuel + 1) x x (resi f y x) (two_norm n (resi f y x)) rr =
          if two_norm n (resi f y x') < opts.absTol then (.ok, x')
          else loop m n f df y opts mem fuel x' x' (resi f y x') (two_norm n (resi f y x')) (two_norm n (resi f y x')) := by
    intro x rr hx hfl hr0
    obtain ⟨dx, h1, h2⟩ := pass_bounds h mem x y hx hy
    obtain ⟨_, b2⟩ := norm_bounds h x y hx hy
    have hρ : dist m (fun i => x i - 1 * dx i) z ≤ ρ := by
      have := mul_le_mul hc.rate_le hx (dist_nonneg m x z) (by norm_num)
      linarith [hc.drift_le]
    obtain ⟨b3, _⟩ := norm_bounds h _ y hρ hy
    have hk := contract_arith hn h.lo_pos h.hi_nonneg (rate_nonneg h) (dist_nonneg m x z) hx normErr_nonneg h.ε_nonneg (drift_nonneg h) hc.rate_le hc.rate_lo
      hc.drift_le h2 b3 b2 hfl hr0
    refine ⟨_, hρ, hk.2, fun fuel => ?_⟩
    have hlt : two_norm n (resi f y fun i => x i - 1 * dx i) < two_norm n (resi f y x) := by
      rw [Fl.lt_iff]
      linarith [hk.2]
    rw [loop, h1]
    simp only [hj, lineSearch]
    rw [show (fun i => f (fun i => x i - 1 * dx i) i - y i) = resi f y fun i => x i - 1 * dx i from rfl, if_pos hlt]
    simp only
    rw [if_neg (not_not.2 hlt)]
  induction N with
  | zero =>
    intro x rr hx hfl hr0 hN
    obtain ⟨x', h1, h2, h3⟩ := step x rr hx hfl hr0
    have hlt : two_norm n (resi f y x') < opts.absTol := by
      rw [_root_.zero_add, pow_one] at hN
      rw [Fl.lt_iff]
      linarith
    refine ⟨x', fun fuel hf => ?_, h1, hlt⟩
    obtain ⟨fuel, rfl⟩ : ∃ k, fuel = k + 1 := ⟨fuel - 1, by omega⟩
    rw [h3, if_pos hlt]
  | succ N ih =>
    intro x rr hx hfl hr0 hN
    obtain ⟨x', h1, h2, h3⟩ := step x rr hx hfl hr0
    by_cases hlt : two_norm n (resi f y x') < opts.absTol
    · refine ⟨x', fun fuel hf => ?_, h1, hlt⟩
      obtain ⟨fuel, rfl⟩ : ∃ k, fuel = k + 1 := ⟨fuel - 1, by omega⟩
      rw [h3, if_pos hlt]
    · have hge : opts.absTol.val ≤ (two_norm n (resi f y x')).val := not_lt.1 hlt
      obtain ⟨r, hr, hr'⟩ := ih x' (two_norm n (resi f y x')) h1 (hc.tol_le.trans hge) (hc.tol_pos.trans_le hge) (by
        refine lt_of_le_of_lt (mul_le_mul_of_nonneg_right h2 (by positivity)) ?_
        rw [pow_succ] at hN
        linarith)
      refine ⟨r, fun fuel hf => ?_, hr'⟩
      obtain ⟨fuel, rfl⟩ : ∃ k, fuel = k + 1 := ⟨fuel - 1, by omega⟩
      rw [h3, if_neg hlt]
      exact hr fuel (by omega)

end

end Verif.FloatGauss
