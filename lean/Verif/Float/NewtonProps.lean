import Verif.Float.NewtonLoop
import Verif.Float.NewtonCycle
import Verif.Float.VolumeProps
import Verif.Float.RefineProps

/-!
C90: `MultiLinearGeometry::local` in floating-point arithmetic.

The specification uses the exact bilinear map (`bilinear`), its derivatives (`bilinearD`) and the distance of points only.
-/

namespace Verif.FloatNewton

open Verif.Float Verif.FloatVol Verif.RefGeom Verif.RefTopo Verif.Typ Finset HasSqrt Verif.FloatRefine

/-! ### Specification -/

/-- a point of the unit square -/
def InSquare (x : Nat → ℝ) : Prop := ∀ k < 2, 0 ≤ x k ∧ x k ≤ 1

/-- a quadrilateral of the plane about as large as the unit square whose Jacobian determinant is at least `1/2` everywhere -/
def WellShaped (c : Nat → Nat → ℝ) : Prop := ∀ x, InSquare x → (∀ k < 2, ∀ i < 2, |bilinearD c x k i| ≤ 1) ∧
  1 / 2 ≤ bilinearD c x 0 0 * bilinearD c x 1 1 - bilinearD c x 0 1 * bilinearD c x 1 0

/-- the sum of the errors of the coordinates -/
noncomputable def distance {φ : Format} (x : Nat → Fl φ) (z : Nat → ℝ) : ℝ := |(x 0).val - z 0| + |(x 1).val - z 1|

/-- C90, full statement: for well-shaped quadrilaterals, `local` returns a point for the image of every point of the reference
element.  `mem` is the content of uninitialised variables.  It is wrong, see the counterexamples. -/
def C90_local_full (p : ℕ) (emin : ℤ) (hp : 24 ≤ p) (he : emin ≤ -(2 * p + 32 : ℤ)) : Prop :=
  ∀ (c : Mat (Fl (ieee p emin hp he))) (mem : Mat (Fl (ieee p emin hp he))) (x : Nat → Fl (ieee p emin hp he)),
    WellShaped (fun k i => (c k i).val) → InSquare (fun k => (x k).val) →
    ∃ fuel r, local_ (quad c (tolerance (epsilon p emin hp he))) mem fuel
      (fun i => (quad c (tolerance (epsilon p emin hp he))).global (mem 0) x i) = some (.point r)

/-! ### The loop may not end -/

theorem lit_val (f : BinFormat) {q : ℚ} (h : rdRat f.p f.emin q = q) : ((Bin.hom f).f (lit f q)).val = q := by
  show ((rdRat f.p f.emin q : ℚ) : ℝ) = q
  rw [h]

theorem tolerance16_val (p : ℕ) (emin : ℤ) (hp : 24 ≤ p) (he : emin ≤ -(2 * p + 32 : ℤ)) :
    (tolerance (epsilon p emin hp he)).val = 32 * (ieee p emin hp he).u := by
  rw [tolerance, Fl.mul_val, Fl.natCast_val, ieee_nat _ _ _ _ 16 (by
    calc 16 ≤ 2 ^ 24 := by norm_num
      _ ≤ 2 ^ p := Nat.pow_le_pow_right (by norm_num) hp), epsilon_val, ieee_u]
  have e : ((16 : ℕ) : ℝ) * (2 * 2 ^ (-(p:ℤ))) = (1 : ℤ) * 2 ^ (5 - p : ℤ) := by
    rw [sub_eq_add_neg, zpow_add₀ (by norm_num)]
    norm_num
    ring
  rw [e]
  rw [show (ieee p emin hp he).rd ((1 : ℤ) * 2 ^ (5 - p : ℤ)) = (1 : ℤ) * 2 ^ (5 - p : ℤ) from
    rdBinary_exact (by omega) (m := 1) (k := 5 - p) (by norm_num) (by rw [abs_one]; exact_mod_cast Nat.one_le_two_pow) (by omega)]
  rw [sub_eq_add_neg, zpow_add₀ (by norm_num)]
  norm_num

/-- the corners of the witnesses -/
theorem litC_vals (f : BinFormat) (o a b : ℚ) (h0 : rdRat f.p f.emin o = o) (h1 : rdRat f.p f.emin (o + 1) = o + 1) (ha : rdRat f.p f.emin (o + a) = o + a)
    (hb : rdRat f.p f.emin (o + b) = o + b) :
    let v := fun k i => (mapM (Bin.hom f) (litC f o a b) k i).val
    v 0 0 = o ∧ v 0 1 = o ∧ v 1 0 = o + 1 ∧ v 1 1 = o ∧ v 2 0 = o ∧ v 2 1 = o + 1 ∧ v 3 0 = o + a ∧ v 3 1 = o + b := by
  refine ⟨?_, ?_, ?_, ?_, ?_, ?_, ?_, ?_⟩
  · exact lit_val f h0
  · exact lit_val f h0
  · exact (lit_val f h1).trans (by push_cast; rfl)
  · exact lit_val f h0
  · exact lit_val f h0
  · exact (lit_val f h1).trans (by push_cast; rfl)
  · exact (lit_val f ha).trans (by push_cast; rfl)
  · exact (lit_val f hb).trans (by push_cast; rfl)

theorem wellShaped_of {v : Nat → Nat → ℝ} {o a : ℝ} (h : v 0 0 = o ∧ v 0 1 = o ∧ v 1 0 = o + 1 ∧ v 1 1 = o ∧ v 2 0 = o ∧ v 2 1 = o + 1 ∧ v 3 0 = o + a ∧ v 3 1 = o + 1)
    (ha : 1 / 2 ≤ a) (ha' : a ≤ 1) : WellShaped v := by
  obtain ⟨h1, h2, h3, h4, h5, h6, h7, h8⟩ := h
  intro x hx
  obtain ⟨p0, p1⟩ := hx 0 (by norm_num)
  obtain ⟨q0, q1⟩ := hx 1 (by norm_num)
  have e00 : bilinearD v x 0 0 = 1 - x 1 * (1 - a) := by simp only [bilinearD, if_true, h1, h3, h5, h7]; ring
  have e01 : bilinearD v x 0 1 = 0 := by simp only [bilinearD, if_true, h2, h4, h6, h8]; ring
  have e10 : bilinearD v x 1 0 = -(x 0 * (1 - a)) := by simp only [bilinearD, one_ne_zero, if_false, h1, h3, h5, h7]; ring
  have e11 : bilinearD v x 1 1 = 1 := by simp only [bilinearD, one_ne_zero, if_false, h2, h4, h6, h8]; ring
  have s0 : x 0 * (1 - a) ≤ 1 * (1 - a) := mul_le_mul_of_nonneg_right p1 (by linarith)
  have s0' : 0 ≤ x 0 * (1 - a) := mul_nonneg p0 (by linarith)
  have s1 : x 1 * (1 - a) ≤ 1 * (1 - a) := mul_le_mul_of_nonneg_right q1 (by linarith)
  have s1' : 0 ≤ x 1 * (1 - a) := mul_nonneg q0 (by linarith)
  refine ⟨fun k hk i hi => ?_, by rw [e00, e01, e11]; linarith⟩
  obtain rfl | rfl : k = 0 ∨ k = 1 := by omega
  · obtain rfl | rfl : i = 0 ∨ i = 1 := by omega
    · rw [e00, abs_le]; constructor <;> linarith
    · rw [e01, abs_zero]; norm_num
  · obtain rfl | rfl : i = 0 ∨ i = 1 := by omega
    · rw [e10, abs_neg, abs_le]; constructor <;> linarith
    · rw [e11, abs_one]

theorem inSquare_of (f : BinFormat) {x y : ℚ} (hx : rdRat f.p f.emin x = x) (hy : rdRat f.p f.emin y = y) (h0 : 0 ≤ x ∧ x ≤ 1) (h1 : 0 ≤ y ∧ y ≤ 1) :
    InSquare fun k => (mapV (Bin.hom f) (litV f x y) k).val := by
  intro k hk
  obtain rfl | rfl : k = 0 ∨ k = 1 := by omega
  · have : (mapV (Bin.hom f) (litV f x y) 0).val = x := lit_val f hx
    simp only [this]
    exact ⟨by exact_mod_cast h0.1, by exact_mod_cast h0.2⟩
  · have : (mapV (Bin.hom f) (litV f x y) 1).val = y := lit_val f hy
    simp only [this]
    exact ⟨by exact_mod_cast h1.1, by exact_mod_cast h1.2⟩

/-- C90 is wrong in `double`: for the quadrilateral with the corners `(0,0), (1,0), (0,1), (3/4,1)`, moved by `2^28` in both
directions, `local` does not end for the image of `(1/4, 1/4)`: two points are mapped to each other by Newton's method, their
distance is larger than the tolerance. -/
theorem C90_double_counterexample : ¬ C90_local_full 53 (-1074) (by norm_num) (by norm_num) := by
  intro h
  have ht : (Bin.hom binDouble).f (lit binDouble (1 / 2 ^ 48)) = tolerance (epsilon 53 (-1074) (by norm_num) (by norm_num)) := by
    refine Fl.ext ?_
    rw [tolerance16_val, lit_val binDouble (by decide +kernel), ieee_u]
    norm_num
  obtain ⟨fuel, r, hr⟩ := h quadD (fun _ _ => 0) xD
    (wellShaped_of (a := 3 / 4) (o := 2 ^ 28) (by
      have := litC_vals binDouble (2 ^ 28) (3 / 4) 1 (by decide +kernel) (by decide +kernel) (by decide +kernel) (by decide +kernel)
      push_cast at this
      exact this) (by norm_num) (by norm_num))
    (inSquare_of binDouble (by decide +kernel) (by decide +kernel) (by norm_num) (by norm_num))
  rw [← ht] at hr
  have := (local_double _ (fun i _ => (quad_global _ _ _ _ i).symm) _ fuel).symm.trans hr
  cases this

/-- C90 is wrong in `float`: the corners `(0,0), (1,0), (0,1), (9/16,1)` moved by `2^12`, the image of `(13/16, 11/16)`. -/
theorem C90_single_counterexample : ¬ C90_local_full 24 (-149) (by norm_num) (by norm_num) := by
  intro h
  have ht : (Bin.hom binSingle).f (lit binSingle (1 / 2 ^ 19)) = tolerance (epsilon 24 (-149) (by norm_num) (by norm_num)) := by
    refine Fl.ext ?_
    rw [tolerance16_val, lit_val binSingle (by decide +kernel), ieee_u]
    norm_num
  obtain ⟨fuel, r, hr⟩ := h quadS (fun _ _ => 0) xS
    (wellShaped_of (a := 9 / 16) (o := 2 ^ 12) (by
      have := litC_vals binSingle (2 ^ 12) (9 / 16) 1 (by decide +kernel) (by decide +kernel) (by decide +kernel) (by decide +kernel)
      push_cast at this
      exact this) (by norm_num) (by norm_num))
    (inSquare_of binSingle (by decide +kernel) (by decide +kernel) (by norm_num) (by norm_num))
  rw [← ht] at hr
  have := (local_single _ (fun i _ => (quad_global _ _ _ _ i).symm) _ fuel).symm.trans hr
  cases this

/-! ### Elements for which it ends -/

variable {φ : Format} {n : ℕ} {c : Mat (Fl φ)} {M R lam : ℝ}

theorem center_square : ∃ p : Vec ℝ, RefGeom.position (K := ℝ) 2 3 0 0 = some p ∧ p 0 = 1 / 2 ∧ p 1 = 1 / 2 := by
  obtain ⟨p, h1, h2⟩ := C21_mean (K := ℝ) 2 3 0 0 (by norm_num) (by norm_num) (by decide)
  have hs : refSize3 2 3 0 0 2 = 4 := by decide
  have he : subEntities 2 3 0 0 2 = [0, 1, 2, 3] := by decide
  rw [hs, he] at h2
  have h3 := h2 0
  have h4 := h2 1
  have q2 : implIsPrism 3 2 0 = true := by decide
  have q1 : implIsPrism (implBaseTopologyId 3 2 1) 1 0 = true := by decide
  simp [corner, RefGeom.referenceCorners, q1, q2, setV] at h3 h4
  exact ⟨p, h1, by linarith, by linarith⟩

theorem start_ok (h : Mild φ n c M R lam) (hex : ∀ k : ℕ, k ≤ 4 → φ.rd k = k) (z : Nat → ℝ) (hz : InSquare z) :
    ∃ x : Nat → Fl φ, position (K := Fl φ) 2 3 0 0 = some x ∧ (∀ k < 2, -(1 / 2) ≤ (x k).val ∧ (x k).val ≤ 3 / 2) ∧ dist1 x z ≤ 101 / 100 := by
  have hs : refSize3 2 3 0 0 2 = 4 := by decide
  obtain ⟨p, hp, p0, p1⟩ := center_square
  obtain ⟨x, h1, h2⟩ := position_err (φ := φ) hp (by rw [hs]; norm_num) (fun k hk => hex k (by rwa [hs] at hk))
  have hu0 := φ.u_nonneg
  have hη0 := φ.η_nonneg
  have hu : φ.u ≤ 1 / 10 ^ 6 := h.u_le.trans (by norm_num)
  have hb : posErr φ (refSize3 2 3 0 0 2) ≤ 1 / 1000 := by
    rw [hs, posErr]
    have h3 : φ.u ^ 2 ≤ 1 / 10 ^ 6 * (1 / 10 ^ 6) := by rw [sq]; exact mul_le_mul hu hu hu0 (by norm_num)
    have h4 : φ.η ≤ 1 / 10 ^ 6 := h.η_le.trans (h3.trans (by norm_num))
    have h5 : (φ.u * (4 : ℕ) + (4 : ℕ) + 1) * φ.η ≤ 6 * (1 / 10 ^ 6) := mul_le_mul (by push_cast; linarith) h4 hη0 (by norm_num)
    linarith
  have key : ∀ k < 2, |(x k).val - 1 / 2| ≤ 1 / 1000 := fun k hk => by
    have := (h2 k).trans hb
    obtain rfl | rfl : k = 0 ∨ k = 1 := by omega
    · rwa [p0] at this
    · rwa [p1] at this
  refine ⟨x, h1, fun k hk => ?_, ?_⟩
  · have := abs_le.1 (key k hk)
    constructor <;> linarith
  · rw [dist1, norm1_two]
    have t : ∀ k < 2, |(x k).val - z k| ≤ 501 / 1000 := fun k hk => by
      have h3 := abs_le.1 (key k hk)
      obtain ⟨h4, h5⟩ := hz k hk
      rw [abs_le]
      constructor <;> linarith
    have := t 0 (by norm_num)
    have := t 1 (by norm_num)
    linarith

/-- C90: `local` ends for the quadrilaterals of `Mild`, after a number of passes that depends logarithmically on the
rounding errors, and the point it returns is close to the given one.  Missing is the termination for other elements, which is
wrong for elements far away from the origin. -/
theorem C90_local_partial (h : Mild φ n c M R lam) (hex : ∀ k : ℕ, k ≤ 4 → φ.rd k = k) (tol : Fl φ) (htol : 16 * floorErr φ n M R lam ^ 2 ≤ tol.val)
    (mem : Mat (Fl φ)) (haff : affine (quadN n c tol) mem = false) (x : Nat → Fl φ) (hx : InSquare fun k => (x k).val)
    {N : ℕ} (hN : 101 / 100 * (5 / 6) ^ N ≤ 2 * floorErr φ n M R lam) :
    ∃ r, (∀ fuel > N, local_ (quadN n c tol) mem fuel (fun i => (quadN n c tol).global (mem 0) x i) = some (.point r)) ∧
      distance r (fun k => (x k).val) ≤ 2 * tol.val + 200 * relErr φ n R lam * Real.sqrt tol.val + floorErr φ n M R lam := by
  obtain ⟨s, h1, h2, h3⟩ := start_ok h hex _ hx
  have ht0 : 0 ≤ tol.val := le_trans (by positivity) htol
  obtain ⟨r, hr, hr'⟩ := newton_ends h tol htol (Real.sqrt_nonneg _) (Real.sq_sqrt ht0).symm mem
    (fun i => (quadN n c tol).global (mem 0) x i) (fun k => (x k).val) hx (fun i hi => by
      rw [quadN_global]
      refine global_err h.u_le c i (fun k hk => h.corners k hk i hi) x fun k hk => ?_
      have := hx k hk
      constructor <;> linarith [this.1, this.2]) N s h2 h3 (le_trans (mul_le_mul_of_nonneg_right h3 (by positivity)) hN)
  refine ⟨r, fun fuel hf => ?_, ?_⟩
  · rw [local_]
    have e : position (K := Fl φ) (quadN n c tol).mydim (quadN n c tol).id 0 0 = some s := h1
    rw [e]
    simp only [haff]
    exact hr fuel hf
  · rw [Real.sq_sqrt ht0, dist1, norm1_two] at hr'
    exact hr'

/-- C90: for elements taken for affine, `local` makes one pass.  The error contains the square root of the tolerance: an
element may be taken for affine although its twist has this size. -/
theorem C90_affine_partial (h : Mild φ n c M R lam) (hex : ∀ k : ℕ, k ≤ 4 → φ.rd k = k) (tol : Fl φ) (htol : 0 < tol)
    (mem : Mat (Fl φ)) (haff : affine (quadN n c tol) mem = true) (x : Nat → Fl φ) (hx : InSquare fun k => (x k).val) :
    ∃ r, (∀ fuel > 0, local_ (quadN n c tol) mem fuel (fun i => (quadN n c tol).global (mem 0) x i) = some (.point r)) ∧
      distance r (fun k => (x k).val) ≤ n * R / lam * (Real.sqrt tol.val + 6 * φ.u * (1 + R)) + 80 * relErr φ n R lam + floorErr φ n M R lam := by
  obtain ⟨s, h1, h2, h3⟩ := start_ok h hex _ hx
  have ht0 : 0 ≤ tol.val := le_of_lt (by have := htol; rwa [Fl.lt_iff] at this)
  obtain ⟨r, hr, hr'⟩ := newton_affine h tol htol (Real.sqrt_nonneg _) (Real.sq_sqrt ht0).ge mem
    (fun i => (quadN n c tol).global (mem 0) x i) (fun k => (x k).val) hx (fun i hi => by
      rw [quadN_global]
      refine global_err h.u_le c i (fun k hk => h.corners k hk i hi) x fun k hk => ?_
      have := hx k hk
      constructor <;> linarith [this.1, this.2]) haff s h2 h3
  refine ⟨r, fun fuel hf => ?_, ?_⟩
  · rw [local_]
    have e : position (K := Fl φ) (quadN n c tol).mydim (quadN n c tol).id 0 0 = some s := h1
    rw [e]
    simp only [haff]
    exact hr fuel hf
  · rw [dist1, norm1_two] at hr'
    exact hr'

/-! ### An element that meets the hypotheses

The corners `(0,0), (1,0), (0,1), (17/16,1)`, moved by `2^16` in both directions, in `double`. -/

/-- the corners -/
noncomputable def nearQuad : Mat (Fl double) := mapM (Bin.hom binDouble) (litC binDouble (2 ^ 16) (17 / 16) 1)

theorem nearQuad_vals : let v := cvals nearQuad
    v 0 0 = 2 ^ 16 ∧ v 0 1 = 2 ^ 16 ∧ v 1 0 = 2 ^ 16 + 1 ∧ v 1 1 = 2 ^ 16 ∧ v 2 0 = 2 ^ 16 ∧ v 2 1 = 2 ^ 16 + 1 ∧ v 3 0 = 2 ^ 16 + 17 / 16 ∧ v 3 1 = 2 ^ 16 + 1 := by
  have := litC_vals binDouble (2 ^ 16) (17 / 16) 1 (by decide +kernel) (by decide +kernel) (by decide +kernel) (by decide +kernel)
  push_cast at this
  exact this

theorem mapErr_double {M : ℝ} (hM : 0 ≤ M) : mapErr double M ≤ 30 / 2 ^ 53 * M + 1 / 2 ^ 190 := by
  have h1 := double_η_le
  have h2 := double.η_nonneg
  rw [mapErr, double_u]
  generalize double.η = η at h1 h2 ⊢
  have h3 : η * (1 + M) ≤ 1 / 2 ^ 200 * (1 + M) := mul_le_mul_of_nonneg_right h1 (by positivity)
  have h4 : (5:ℝ) * (1 / 2 ^ 200) ≤ 1 / 2 ^ 190 := by norm_num
  have h5 : (5:ℝ) * (1 / 2 ^ 200) ≤ 1 / 2 ^ 53 := by norm_num
  have h6 := mul_le_mul_of_nonneg_right h5 hM
  linarith

theorem mild_of (c : Mat (Fl double)) {s : ℝ} (hs0 : 0 ≤ s) (hs1 : s ≤ 1 / 16) (hc : let v := cvals c
    v 0 0 = 2 ^ 16 ∧ v 0 1 = 2 ^ 16 ∧ v 1 0 = 2 ^ 16 + 1 ∧ v 1 1 = 2 ^ 16 ∧ v 2 0 = 2 ^ 16 ∧ v 2 1 = 2 ^ 16 + 1 ∧ v 3 0 = 2 ^ 16 + 1 + s ∧ v 3 1 = 2 ^ 16 + 1) :
    Mild double 2 c (2 ^ 16 + 2) (11 / 10) (1 / 2) := by
  have hη := double_η_le
  have hη0 := double.η_nonneg
  obtain ⟨h1, h2, h3, h4, h5, h6, h7, h8⟩ := hc
  have e00 : ∀ x, bilinearD (cvals c) x 0 0 = 1 + x 1 * s := fun x => by simp only [bilinearD, if_true, h1, h3, h5, h7]; ring
  have e01 : ∀ x, bilinearD (cvals c) x 0 1 = 0 := fun x => by simp only [bilinearD, if_true, h2, h4, h6, h8]; ring
  have e10 : ∀ x, bilinearD (cvals c) x 1 0 = x 0 * s := fun x => by simp only [bilinearD, one_ne_zero, if_false, h1, h3, h5, h7]; ring
  have e11 : ∀ x, bilinearD (cvals c) x 1 1 = 1 := fun x => by simp only [bilinearD, one_ne_zero, if_false, h2, h4, h6, h8]; ring
  refine ⟨le_rfl, by norm_num, ?_, ?_, ?_, ?_, ?_, ?_, by norm_num, by norm_num, ?_, ?_, ?_, ?_, ?_⟩
  · rw [double_u]; positivity
  · rw [double_u]; norm_num
  · rw [double_u]; exact hη.trans (by norm_num)
  · rw [double_u]; exact hη.trans (by norm_num)
  · rw [double_u]
    have : double.η ^ 2 ≤ (1 / 2 ^ 200) ^ 2 := pow_le_pow_left₀ hη0 hη 2
    generalize double.η ^ 2 = t at this
    norm_num at this ⊢
    linarith
  · intro k hk i hi
    change |cvals c k i| ≤ _
    rw [abs_le]
    obtain rfl | rfl : i = 0 ∨ i = 1 := by omega
    · obtain rfl | rfl | rfl | rfl : k = 0 ∨ k = 1 ∨ k = 2 ∨ k = 3 := by omega
      · rw [h1]; norm_num
      · rw [h3]; norm_num
      · rw [h5]; norm_num
      · rw [h7]; constructor <;> linarith
    · obtain rfl | rfl | rfl | rfl : k = 0 ∨ k = 1 ∨ k = 2 ∨ k = 3 := by omega
      · rw [h2]; norm_num
      · rw [h4]; norm_num
      · rw [h6]; norm_num
      · rw [h8]; norm_num
  · intro x hx k
    obtain ⟨a0, a1⟩ := hx 0 (by norm_num)
    obtain ⟨b0, b1⟩ := hx 1 (by norm_num)
    have q0 : x 1 * s ≤ 3 / 2 * (1 / 16) := mul_le_mul b1 hs1 hs0 (by norm_num)
    have q1 : -(1 / 2) * (1 / 16) ≤ x 1 * s := by nlinarith
    have q2 : x 0 * s ≤ 3 / 2 * (1 / 16) := mul_le_mul a1 hs1 hs0 (by norm_num)
    have q3 : -(1 / 2) * (1 / 16) ≤ x 0 * s := by nlinarith
    rw [Fin.sum_univ_two]
    fin_cases k
    · show bilinearD (cvals c) x 0 0 ^ 2 + bilinearD (cvals c) x 0 1 ^ 2 ≤ _
      rw [e00, e01]; nlinarith
    · show bilinearD (cvals c) x 1 0 ^ 2 + bilinearD (cvals c) x 1 1 ^ 2 ≤ _
      rw [e10, e11]; nlinarith
  · intro x hx w
    obtain ⟨a0, a1⟩ := hx 0 (by norm_num)
    obtain ⟨b0, b1⟩ := hx 1 (by norm_num)
    have q0 : x 1 * s ≤ 3 / 2 * (1 / 16) := mul_le_mul b1 hs1 hs0 (by norm_num)
    have q1 : -(1 / 2) * (1 / 16) ≤ x 1 * s := by nlinarith
    have q2 : x 0 * s ≤ 3 / 2 * (1 / 16) := mul_le_mul a1 hs1 hs0 (by norm_num)
    have q3 : -(1 / 2) * (1 / 16) ≤ x 0 * s := by nlinarith
    rw [Fin.sum_univ_two, Fin.sum_univ_two, Fin.sum_univ_two, Fin.sum_univ_two]
    show 1 / 2 * (w 0 ^ 2 + w 1 ^ 2) ≤ (w 0 * bilinearD (cvals c) x 0 0 + w 1 * bilinearD (cvals c) x 1 0) ^ 2 +
      (w 0 * bilinearD (cvals c) x 0 1 + w 1 * bilinearD (cvals c) x 1 1) ^ 2
    rw [e00, e01, e10, e11]
    have p0 : (31 / 32) ^ 2 ≤ (1 + x 1 * s) ^ 2 := pow_le_pow_left₀ (by norm_num) (by linarith) 2
    have p1 : (x 0 * s) ^ 2 ≤ (3 / 32) ^ 2 := sq_le_sq' (by linarith) (by linarith)
    have p2 := mul_le_mul_of_nonneg_left p0 (sq_nonneg (w 0))
    have p3 := mul_le_mul_of_nonneg_left p1 (sq_nonneg (w 1))
    have p4 := sq_nonneg (1 / 2 * (w 0 * (1 + x 1 * s)) + 2 * (w 1 * (x 0 * s)))
    have p5 := sq_nonneg (w 0)
    have p6 := sq_nonneg (w 1)
    nlinarith
  · intro i hi
    obtain rfl | rfl : i = 0 ∨ i = 1 := by omega
    · rw [twist, h1, h3, h5, h7, show (2:ℝ) ^ 16 - (2 ^ 16 + 1) - 2 ^ 16 + (2 ^ 16 + 1 + s) = s by ring, abs_of_nonneg hs0]
      push_cast
      linarith
    · rw [twist, h2, h4, h6, h8]; norm_num
  · rw [double_u]; norm_num
  · have h := mapErr_double (show (0:ℝ) ≤ 2 ^ 16 + 2 by norm_num)
    refine le_trans (mul_le_mul_of_nonneg_left h (by norm_num)) ?_
    norm_num

theorem nearQuad_mild : Mild double 2 nearQuad (2 ^ 16 + 2) (11 / 10) (1 / 2) :=
  mild_of nearQuad (s := 1 / 16) (by norm_num) le_rfl (by
    obtain ⟨h1, h2, h3, h4, h5, h6, h7, h8⟩ := nearQuad_vals
    exact ⟨h1, h2, h3, h4, h5, h6, by rw [h7]; norm_num, h8⟩)

theorem nearQuad_floor : floorErr double 2 (2 ^ 16 + 2) (11 / 10) (1 / 2) ≤ 1 / 2 ^ 26 - 1 / 2 ^ 40 := by
  have h := mapErr_double (show (0:ℝ) ≤ 2 ^ 16 + 2 by norm_num)
  have hη := double_η_le
  rw [floorErr, distErr, tinyErr, double_u]
  generalize mapErr double (2 ^ 16 + 2) = e at h ⊢
  generalize double.η = η at hη ⊢
  norm_num at h hη ⊢
  linarith

/-- `local` of this element, with the default tolerance, ends after at most 201 passes, with an error of less than `2^-26` -/
example (mem : Mat (Fl double)) (x : Nat → Fl double) (hx : InSquare fun k => (x k).val) :
    ∃ r, (∀ fuel > 200, local_ (quad nearQuad (tolerance (epsilon 53 (-1074) (by norm_num) (by norm_num)))) mem fuel
      (fun i => (quad nearQuad (tolerance (epsilon 53 (-1074) (by norm_num) (by norm_num)))).global (mem 0) x i) = some (.point r)) ∧
      distance r (fun k => (x k).val) ≤ 1 / 2 ^ 26 := by
  set tol : Fl double := tolerance (epsilon 53 (-1074) (by norm_num) (by norm_num)) with htol
  have ht : tol.val = 1 / 2 ^ 48 := by
    rw [htol]
    refine (tolerance16_val 53 (-1074) (by norm_num) (by norm_num)).trans ?_
    rw [ieee_u]; norm_num
  have hs : Real.sqrt tol.val = 1 / 2 ^ 24 := by
    rw [ht, show (1:ℝ) / 2 ^ 48 = (1 / 2 ^ 24) ^ 2 by norm_num]
    exact Real.sqrt_sq (by norm_num)
  have hb := floorErr_bounds nearQuad_mild
  have hf := nearQuad_floor
  rw [double_u] at hb
  have h0 : 0 < tol := by rw [Fl.lt_iff, ht]; show (0:ℝ) < _; norm_num
  have haff : affine (quadN 2 nearQuad tol) mem = false := by
    rw [Bool.eq_false_iff]
    intro h
    have := twist_small nearQuad_mild tol mem h0 (T := 1 / 2 ^ 24) (by norm_num) (by rw [ht]; norm_num) h 0 (by norm_num)
    obtain ⟨h1, -, h3, -, h5, -, h7, -⟩ := nearQuad_vals
    rw [twist, h1, h3, h5, h7, double_u] at this
    norm_num [abs_of_nonneg] at this
  obtain ⟨r, hr, hd⟩ := C90_local_partial nearQuad_mild (fun k hk => double_nat k (by omega)) tol (by
      rw [ht]
      have h1 : floorErr double 2 (2 ^ 16 + 2) (11 / 10) (1 / 2) ^ 2 ≤ (1 / 2 ^ 26) ^ 2 := pow_le_pow_left₀ (le_trans (by norm_num) hb.1) (hf.trans (by norm_num)) 2
      norm_num at h1 ⊢
      linarith) mem haff x hx (N := 200) (le_trans (by norm_num) (mul_le_mul_of_nonneg_left hb.1 (by norm_num : (0:ℝ) ≤ 2)))
  refine ⟨r, hr, hd.trans ?_⟩
  rw [hs, ht, relErr, double_u]
  norm_num at hf ⊢
  linarith

/-- the unit square, moved by `2^16`, is taken for affine and one pass is made; the error is less than `2^-21` -/
example (mem : Mat (Fl double)) (x : Nat → Fl double) (hx : InSquare fun k => (x k).val) :
    let tol : Fl double := tolerance (epsilon 53 (-1074) (by norm_num) (by norm_num))
    let c : Mat (Fl double) := mapM (Bin.hom binDouble) (litC binDouble (2 ^ 16) 1 1)
    ∃ r, (∀ fuel > 0, local_ (quadN 2 c tol) mem fuel (fun i => (quadN 2 c tol).global (mem 0) x i) = some (.point r)) ∧
      distance r (fun k => (x k).val) ≤ 1 / 2 ^ 21 := by
  intro tol c
  have hv := litC_vals binDouble (2 ^ 16) 1 1 (by decide +kernel) (by decide +kernel) (by decide +kernel) (by decide +kernel)
  push_cast at hv
  have hm : Mild double 2 c (2 ^ 16 + 2) (11 / 10) (1 / 2) := mild_of c (s := 0) le_rfl (by norm_num) (by
    obtain ⟨h1, h2, h3, h4, h5, h6, h7, h8⟩ := hv
    exact ⟨h1, h2, h3, h4, h5, h6, h7.trans (by norm_num), h8⟩)
  have ht : tol.val = 1 / 2 ^ 48 := by
    refine (tolerance16_val 53 (-1074) (by norm_num) (by norm_num)).trans ?_
    rw [ieee_u]; norm_num
  have hs : Real.sqrt tol.val = 1 / 2 ^ 24 := by
    rw [ht, show (1:ℝ) / 2 ^ 48 = (1 / 2 ^ 24) ^ 2 by norm_num]
    exact Real.sqrt_sq (by norm_num)
  have h0 : 0 < tol := by rw [Fl.lt_iff, ht]; show (0:ℝ) < _; norm_num
  have e : ∀ i, i < 2 → c 3 i - c 2 i - (c 1 i - c 0 i) = 0 := by
    have h : ∀ i : Fin 2, litC binDouble (2 ^ 16) 1 1 3 i - litC binDouble (2 ^ 16) 1 1 2 i -
      (litC binDouble (2 ^ 16) 1 1 1 i - litC binDouble (2 ^ 16) 1 1 0 i) = 0 := by decide +kernel
    intro i hi
    have := congrArg (Bin.hom binDouble).f (h ⟨i, hi⟩)
    rw [(Bin.hom binDouble).sub, (Bin.hom binDouble).sub, (Bin.hom binDouble).sub, (Bin.hom binDouble).zero] at this
    exact this
  have haff : affine (quadN 2 c tol) mem = true := by
    rw [quadN_affine 2 c tol mem h0, decide_eq_true_eq]
    have : two_norm2 2 (fun j => c 3 j - c 2 j - (c 1 j - c 0 j)) = 0 := by
      show 0 + (c 3 0 - c 2 0 - (c 1 0 - c 0 0)) * (c 3 0 - c 2 0 - (c 1 0 - c 0 0)) + (c 3 1 - c 2 1 - (c 1 1 - c 0 1)) * (c 3 1 - c 2 1 - (c 1 1 - c 0 1)) = 0
      rw [e 0 (by norm_num), e 1 (by norm_num), Fl.mul_zero, Fl.add_zero, Fl.add_zero]
    rw [this, Fl.add_zero]
    exact h0
  obtain ⟨r, hr, hd⟩ := C90_affine_partial hm (fun k hk => double_nat k (by omega)) tol h0 mem haff x hx
  refine ⟨r, hr, hd.trans ?_⟩
  have hf := nearQuad_floor
  rw [hs, relErr, double_u]
  norm_num at hf ⊢
  linarith

/-! ### The solver -/

/-- C90: the least squares solution that `xTRightInvA` computes for a matrix `J` with `m` rows of length at most `R` and
singular values of at least `√lam`: for every `e`, the distance of the computed solution from `e` is bounded by the residual of `e`
and rounding errors. -/
theorem C90_solver {m n : ℕ} {R lam : ℝ} (hfit : Fits φ m n (R ^ 2) lam) (hR : 0 ≤ R) (J : Mat (Fl φ)) (d : Nat → Fl φ) (mem : Mat (Fl φ))
    (hrow : RowsWithin m n (fun r c => (J r c).val) (R ^ 2)) (hind : IndependentBy m n (fun r c => (J r c).val) lam) :
    ∃ z, xTRightInvA m n J d mem = (true, z) ∧ ∀ e : Nat → ℝ, lam * ∑ k ∈ range m, |(z k).val - e k| ≤
      m * (26 * n ^ 2 * φ.u * R ^ 2 * (∑ k ∈ range m, |(z k).val|) + 22 / 10 * n * φ.u * (R * ∑ i ∈ range n, |(d i).val|) +
        R * (∑ i ∈ range n, |(d i).val - ∑ k ∈ range m, e k * (J k i).val|) + 4 * n ^ 2 * φ.η * (1 + R) ^ 2) :=
  solve_ok hfit hR J d mem hrow hind

/-- two unit vectors of the space -/
example (d : Nat → Fl double) (mem : Mat (Fl double)) : ∃ z, xTRightInvA 2 3 (fun r c => if r = c then 1 else 0) d mem = (true, z) := by
  have hη := double_η_le
  have hη0 := double.η_nonneg
  have v : ∀ r c : ℕ, ((if r = c then 1 else 0 : Fl double)).val = if r = c then 1 else 0 := fun r c => by split_ifs <;> rfl
  obtain ⟨z, h, -⟩ := C90_solver (φ := double) (m := 2) (n := 3) (R := 1) (lam := 1) ⟨by norm_num, by norm_num, by norm_num, by rw [double_u]; positivity,
      by rw [double_u]; norm_num, by rw [double_u]; exact hη.trans (by norm_num), by rw [double_u]; exact hη.trans (by norm_num), by
        have : double.η ^ 2 ≤ (1 / 2 ^ 200) ^ 2 := pow_le_pow_left₀ hη0 hη 2
        rw [double_u]
        generalize double.η ^ 2 = t at this
        norm_num at this ⊢
        linarith, by norm_num, by rw [double_u]; norm_num⟩ (by norm_num) (fun r c => if r = c then 1 else 0) d mem
    (fun k => by simp only [v]; fin_cases k <;> simp [Fin.sum_univ_succ] <;> decide)
    (fun w => by simp only [v]; simp [Fin.sum_univ_succ])
  exact ⟨z, h⟩

end Verif.FloatNewton
