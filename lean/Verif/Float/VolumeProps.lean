import Verif.Float.VolumeAffine
import Verif.Float.RefineProps

/-!
Property C89: volumes and integration elements in floating-point arithmetic.

`edge c` are the exact edges from corner 0 of the element with the corners `c`, `gram` their Gram matrix; the exact
integration element is the square root of its determinant.
-/

namespace Verif.FloatVol

open Verif.Float Verif.RefGeom Verif.FloatQuad Verif.FloatRefine HasSqrt HasAbs
open Finset hiding ext

variable {φ : Format}

/-- the exact edges from corner 0 -/
def edge (c : Nat → Nat → Fl φ) (k j : Nat) : ℝ := (c (k + 1) j).val - (c 0 j).val

theorem edge_err (c : Nat → Nat → Fl φ) (k j : Nat) : |(affineJt c k j).val - edge c k j| ≤ φ.u * |edge c k j| := Fl.sub_err _ _

theorem edge_near (c : Nat → Nat → Fl φ) (k j : Nat) : Near φ 1 0 (affineJt c k j).val (edge c k j) |edge c k j| := Near.sub_exact _ _

/-! ### Axis-aligned cubes -/

/-- C89: the volume of an `AxisAlignedCubeGeometry` is that of the box, up to two rounding errors for each axis. -/
theorem C89_cube (d : Nat) (axes : Nat → Bool) (lower upper : Nat → Fl φ) {R : ℝ} (hR : 1 ≤ R) (h : ∀ i < d, |(upper i).val - (lower i).val| ≤ R) :
    |(cubeVolume d axes lower upper).val - ∏ i ∈ range d with axes i, ((upper i).val - (lower i).val)| ≤
      ((1 + φ.u) ^ (2 * d) - 1) * (∏ i ∈ range d with axes i, |(upper i).val - (lower i).val|) + (1 + φ.u) ^ (2 * d) * (d * φ.η * R ^ d) :=
  (prod_loop hR (fun i => upper i - lower i) (fun i => (upper i).val - (lower i).val) (q := 1) (fun i => Near.sub_exact _ _) axes d h).bound

/-- C89: an entry of the inverse Jacobian of an `AxisAlignedCubeGeometry` is the reciprocal of the edge, up to two rounding errors,
and the computed edge is not zero, so the quotient is defined. -/
theorem C89_cube_inverse (lower upper : Nat → Fl φ) (i : Nat) (hu : φ.u < 1) (h : (upper i).val ≠ (lower i).val) :
    (upper i - lower i).val ≠ 0 ∧
      |(cubeInverse lower upper i).val - 1 / ((upper i).val - (lower i).val)| ≤
        2 * φ.u / (1 - φ.u) * (1 / |(upper i).val - (lower i).val|) + φ.η := by
  have h1 := Fl.sub_err (upper i) (lower i)
  have h2 := Fl.div_err 1 (upper i - lower i)
  have hd : 0 < |(upper i).val - (lower i).val| := abs_pos.2 (sub_ne_zero.2 h)
  change _ ∧ |((1 : Fl φ) / (upper i - lower i)).val - _| ≤ _
  generalize (upper i).val - (lower i).val = d at *
  generalize ((1 : Fl φ) / (upper i - lower i)).val = q at *
  generalize (upper i - lower i).val = e at *
  rw [Fl.one_val] at h2
  have hu0 := φ.u_nonneg
  have he : (1 - φ.u) * |d| ≤ |e| := by
    have := abs_sub_abs_le_abs_sub d e
    rw [abs_sub_comm d e] at this
    linarith
  have he0 : 0 < |e| := lt_of_lt_of_le (mul_pos (by linarith) hd) he
  have hdn : d ≠ 0 := abs_pos.1 hd
  have hen : e ≠ 0 := abs_pos.1 he0
  refine ⟨hen, ?_⟩
  have h3 : |1 / e| ≤ 1 / (1 - φ.u) * (1 / |d|) := by
    rw [abs_div, abs_one, div_mul_div_comm, _root_.one_mul]
    exact one_div_le_one_div_of_le (mul_pos (by linarith) hd) he
  have h4 : |1 / e - 1 / d| ≤ φ.u * |1 / e| := by
    rw [show 1 / e - 1 / d = -(e - d) * (1 / e) / d by field_simp; ring, abs_div, abs_mul, abs_neg, div_le_iff₀ hd]
    calc |e - d| * |1 / e| ≤ φ.u * |d| * |1 / e| := mul_le_mul_of_nonneg_right h1 (abs_nonneg _)
      _ = _ := by ring
  calc |q - 1 / d| ≤ |q - 1 / e| + |1 / e - 1 / d| := abs_sub_le _ _ _
    _ ≤ 2 * φ.u * |1 / e| + φ.η := by linarith
    _ ≤ 2 * φ.u * (1 / (1 - φ.u) * (1 / |d|)) + φ.η := by
        have := mul_le_mul_of_nonneg_left h3 (by linarith : 0 ≤ 2 * φ.u)
        linarith
    _ = _ := by ring

/-- the hypotheses of `C89_cube_inverse`: the interval `[0,1]` in `double` -/
example : double.u < 1 ∧ (1 : Fl double).val ≠ (0 : Fl double).val := by
  refine ⟨?_, by rw [Fl.one_val, Fl.zero_val]; norm_num⟩
  have h : double.u = 2 ^ (-((53:ℕ):ℤ)) := ieee_u 53 (-1074) (by norm_num) (by norm_num)
  rw [h]; norm_num

/-- the box `[0,2] × {5} × [1,4]` -/
example : ∏ i ∈ range 3 with (fun i => i != 1) i, ((if i = 0 then 2 else if i = 1 then 5 else 4) - (if i = 0 then 0 else if i = 1 then 5 else 1) : ℝ) = 6 := by
  rw [show (range 3).filter (fun i => (fun i => i != 1) i = true) = {0, 2} by decide, prod_pair (by norm_num)]
  norm_num

/-! ### Integration elements in the dimensions with a formula of their own -/

/-- C89: the integration element of a two-dimensional element of the plane: the absolute value of the determinant.  The
error is relative to the terms of the determinant, that is to the lengths of the edges, not to the distance from the
origin. -/
theorem C89_det2 (J ret ret' : Mat (Fl φ)) (e : Nat → Nat → ℝ) (hJ : ∀ r c, |(J r c).val - e r c| ≤ φ.u * |e r c|) :
    ∃ v, sqrtDetAAT 2 2 J ret ret' = some v ∧
      _root_.abs (v.val - |e 0 0 * e 1 1 - e 1 0 * e 0 1|) ≤ ((1 + φ.u) ^ 4 - 1) * (|e 0 0| * |e 1 1| + |e 1 0| * |e 0 1|) + (1 + φ.u) ^ 4 * (2 * φ.η) := by
  have h1 : ∀ r c, Near φ 1 0 (J r c).val (e r c) |e r c| := fun r c => ⟨le_rfl, le_rfl, by rw [pow_one]; linarith [hJ r c]⟩
  exact ⟨_, if_pos ⟨rfl, rfl⟩, (near_abs (det2_near (h1 0 0) (h1 1 0) (h1 0 1) (h1 1 1))).bound⟩

/-- C89: the integration element of a three-dimensional element. -/
theorem C89_det3 (J ret ret' : Mat (Fl φ)) (e : Nat → Nat → ℝ) (hJ : ∀ r c, |(J r c).val - e r c| ≤ φ.u * |e r c|) :
    ∃ v, sqrtDetAAT 3 3 J ret ret' = some v ∧
      _root_.abs (v.val - |(Matrix.of fun k j : Fin 3 => e k j).det|) ≤
        ((1 + φ.u) ^ 8 - 1) * ((|e 0 1| * |e 1 2| + |e 1 1| * |e 0 2|) * |e 2 0| + (|e 0 2| * |e 1 0| + |e 1 2| * |e 0 0|) * |e 2 1| +
          (|e 0 0| * |e 1 1| + |e 1 0| * |e 0 1|) * |e 2 2|) +
        (1 + φ.u) ^ 8 * (2 * φ.η * (|e 2 0| + |e 2 1| + |e 2 2|) + 3 * φ.η) := by
  have h1 : ∀ r c, Near φ 1 0 (J r c).val (e r c) |e r c| := fun r c => ⟨le_rfl, le_rfl, by rw [pow_one]; linarith [hJ r c]⟩
  have v0 := (det2_near (h1 0 1) (h1 1 1) (h1 0 2) (h1 1 2)).mul (h1 2 0)
  have v1 := (det2_near (h1 0 2) (h1 1 2) (h1 0 0) (h1 1 0)).mul (h1 2 1)
  have v2 := (det2_near (h1 0 0) (h1 1 0) (h1 0 1) (h1 1 1)).mul (h1 2 2)
  have h := (v0.add v1).add (v2.mono (Nat.le_succ _) le_rfl)
  refine ⟨_, by rw [sqrtDetAAT, if_neg (by omega), if_pos ⟨rfl, rfl⟩], ?_⟩
  have hd : (Matrix.of fun k j : Fin 3 => e k j).det =
      (e 0 1 * e 1 2 - e 1 1 * e 0 2) * e 2 0 + (e 0 2 * e 1 0 - e 1 2 * e 0 0) * e 2 1 + (e 0 0 * e 1 1 - e 1 0 * e 0 1) * e 2 2 := by
    rw [Matrix.det_fin_three]
    simp only [Matrix.of_apply, Fin.val_zero, Fin.val_one, Fin.val_two]
    ring
  rw [hd]
  refine (near_abs (h.mono (l := 8) (t := 2 * φ.η * (|e 2 0| + |e 2 1| + |e 2 2|) + 3 * φ.η) (by norm_num) ?_)).bound
  linarith

/-- C89: the integration element of a two-dimensional element in space: the length of the cross product of the edges. -/
theorem C89_det23 (J ret ret' : Mat (Fl φ)) (e : Nat → Nat → ℝ) (hJ : ∀ r c, |(J r c).val - e r c| ≤ φ.u * |e r c|) :
    ∃ v, sqrtDetAAT 2 3 J ret ret' = some v ∧
      |v.val - Real.sqrt (gram 2 3 e).det| ≤
        ((1 + φ.u) ^ 8 - 1) * ((|e 0 0| * |e 1 1| + |e 0 1| * |e 1 0|) + (|e 0 0| * |e 1 2| + |e 1 0| * |e 0 2|) + (|e 0 1| * |e 1 2| + |e 0 2| * |e 1 1|)) +
        (1 + φ.u) ^ 8 * (7 * φ.η + Real.sqrt (3 * φ.η)) := by
  have h1 : ∀ r c, Near φ 1 0 (J r c).val (e r c) |e r c| := fun r c => ⟨le_rfl, le_rfl, by rw [pow_one]; linarith [hJ r c]⟩
  have h := near_norm (det2_near (h1 0 0) (h1 0 1) (h1 1 0) (h1 1 1)) (det2_near (h1 0 0) (h1 1 0) (h1 0 2) (h1 1 2)) (det2_near (h1 0 1) (h1 0 2) (h1 1 1) (h1 1 2))
  refine ⟨_, by rw [sqrtDetAAT, if_neg (by omega), if_neg (by omega), if_pos ⟨rfl, rfl⟩], ?_⟩
  have hd : (gram 2 3 e).det = (e 0 0 * e 1 1 - e 0 1 * e 1 0) ^ 2 + (e 0 0 * e 1 2 - e 1 0 * e 0 2) ^ 2 + (e 0 1 * e 1 2 - e 0 2 * e 1 1) ^ 2 := by
    rw [Matrix.det_fin_two]
    simp only [gram, Matrix.of_apply, Fin.sum_univ_three, Fin.val_zero, Fin.val_one, Fin.val_two]
    ring
  rw [hd]
  refine (h.mono (l := 8) (t := 7 * φ.η + Real.sqrt (3 * φ.η)) (by norm_num) ?_).bound
  linarith

/-- the hypotheses hold for the computed edges of an element in any position -/
example (c : Nat → Nat → Fl φ) : ∀ r j, |(affineJt c r j).val - edge c r j| ≤ φ.u * |edge c r j| := edge_err c

/-! ### Affine geometries -/

/-- C89, the property: an `AffineGeometry` can be constructed from the corners of every element that is not degenerate. -/
def C89_affine_full (φ : Format) : Prop :=
  ∀ (m n : Nat) (c : Nat → Nat → Fl φ) (ret ret' : Mat (Fl φ)) (lam : ℝ), 1 ≤ m → m ≤ n → 0 < lam → IndependentBy m n (edge c) lam →
    (affine m n c ret ret').isSome

theorem integration_err {m n : ℕ} (hm : 1 ≤ m) {e : ℕ → ℕ → ℝ} {D lam P : ℝ} {det : Fl φ} (hu : 0 < φ.u) (hlam0 : 0 < lam)
    (hlam : 50 * m * n * φ.u * D ≤ lam) (hrow : RowsWithin m n e D) (h3 : 0 < P)
    (h4 : (1 - 17 * m * n * φ.u * D / lam) ^ m * (gram m n e).det ≤ P ^ 2) (h5 : P ^ 2 ≤ (1 + 17 * m * n * φ.u * D / lam) ^ m * (gram m n e).det)
    (h6 : Near φ m (m * φ.η * (1 + D) ^ m) det.val P P) :
    |det.val - Real.sqrt (gram m n e).det| ≤
      ((1 + φ.u) ^ m * (1 + 17 * m * n * φ.u * D / lam) ^ m - 1) * Real.sqrt (gram m n e).det + (1 + φ.u) ^ m * (m * φ.η * (1 + D) ^ m) := by
  have hD : 0 ≤ D := (sum_nonneg fun j _ => sq_nonneg _).trans (hrow ⟨0, hm⟩)
  have hε0 : 0 ≤ 17 * m * n * φ.u * D / lam := by positivity
  have hε1 : 17 * m * n * φ.u * D / lam ≤ 1 := by
    rw [div_le_one hlam0]
    have : (0:ℝ) ≤ m * n * φ.u * D := by positivity
    linarith
  obtain ⟨h7, h8⟩ := root_close hε0 hε1 m h3 h4 h5
  have h9 := h6.bound
  set ε := 17 * m * n * φ.u * D / lam
  set g := Real.sqrt (gram m n e).det
  have h10 := abs_add_le (det.val - P) (P - g)
  rw [sub_add_sub_cancel] at h10
  have h11 := Near.one_le_pow φ m
  have h12 : ((1 + φ.u) ^ m - 1) * P ≤ ((1 + φ.u) ^ m - 1) * ((1 + ε) ^ m * g) := mul_le_mul_of_nonneg_left h8 (by linarith)
  linarith

/-- C89: the `AffineGeometry` of an element that is not too thin is constructed, and its integration element is that of the
exact element up to the given error.  `D` bounds the squared lengths of the edges from corner 0, `lam` is a lower bound of the
squares of the singular values of the Jacobian; the condition says that `D / lam` is smaller than `1 / (50 m n u)`.  Missing
is the construction for thinner elements, see `C89_affine_counterexample`, and the inverse of the Jacobian. -/
theorem C89_affine_partial (m n : ℕ) (hm : 1 ≤ m) (hmn : m ≤ n) (hn : n ≤ 29) (h2 : ¬ (n = 2 ∧ m = 2)) (c : Nat → Nat → Fl φ) (ret ret' : Mat (Fl φ)) {D lam : ℝ}
    (hu : 0 < φ.u) (hu' : φ.u ≤ 1 / 2 ^ 24) (hη : φ.η ≤ φ.u) (hlow : φ.η ≤ φ.u ^ 2 * D) (hhigh : 8 * φ.η ^ 2 * D ≤ φ.u ^ 2)
    (hrow : RowsWithin m n (edge c) D) (hind : IndependentBy m n (edge c) lam) (hlam0 : 0 < lam) (hlam : 50 * m * n * φ.u * D ≤ lam) :
    ∃ det inv, affine m n c ret ret' = some (det, inv) ∧
      |det.val - Real.sqrt (gram m n (edge c)).det| ≤
        ((1 + φ.u) ^ m * (1 + 17 * m * n * φ.u * D / lam) ^ m - 1) * Real.sqrt (gram m n (edge c)).det + (1 + φ.u) ^ m * (m * φ.η * (1 + D) ^ m) := by
  obtain ⟨det, inv, P, h1, -, h3, h4, h5, h6, -⟩ := right_inverse m n hm hmn hn (affineJt c) (edge c) ret ret' hu hu' hη hlow hhigh
    (fun r j _ _ => edge_err c r j) hrow hind hlam0 hlam
  refine ⟨det, inv, by rw [affine, rightInvA, if_neg h2, h1], ?_⟩
  exact integration_err hm hu hlam0 hlam hrow h3 h4 h5 h6

/-- C89: the same for the integration elements of `sqrtDetAAT` in all dimensions without a formula of their own. -/
theorem C89_det (m n : ℕ) (hm : 1 ≤ m) (hmn : m ≤ n) (hn : n ≤ 29) (h22 : ¬ (n = 2 ∧ m = 2)) (h33 : ¬ (n = 3 ∧ m = 3)) (h32 : ¬ (n = 3 ∧ m = 2))
    (J ret ret' : Mat (Fl φ)) (e : ℕ → ℕ → ℝ) {D lam : ℝ}
    (hu : 0 < φ.u) (hu' : φ.u ≤ 1 / 2 ^ 24) (hη : φ.η ≤ φ.u) (hlow : φ.η ≤ φ.u ^ 2 * D) (hhigh : 8 * φ.η ^ 2 * D ≤ φ.u ^ 2)
    (hJ : ∀ r c, |(J r c).val - e r c| ≤ φ.u * |e r c|) (hrow : RowsWithin m n e D) (hind : IndependentBy m n e lam) (hlam0 : 0 < lam)
    (hlam : 50 * m * n * φ.u * D ≤ lam) :
    ∃ det, sqrtDetAAT m n J ret ret' = some det ∧
      |det.val - Real.sqrt (gram m n e).det| ≤
        ((1 + φ.u) ^ m * (1 + 17 * m * n * φ.u * D / lam) ^ m - 1) * Real.sqrt (gram m n e).det + (1 + φ.u) ^ m * (m * φ.η * (1 + D) ^ m) := by
  obtain ⟨det, inv, P, -, h1, h3, h4, h5, h6, -⟩ := right_inverse m n hm hmn hn J e ret ret' hu hu' hη hlow hhigh
    (fun r j _ _ => hJ r j) hrow hind hlam0 hlam
  refine ⟨det, by rw [sqrtDetAAT, if_neg h22, if_neg h33, if_neg h32, if_pos hmn, h1], ?_⟩
  exact integration_err hm hu hlam0 hlam hrow h3 h4 h5 h6

/-- C89: the volume of such an element: the integration element divided by `k`, the inverse of the volume of the reference
element (`k = d!` for simplices). -/
theorem C89_volume (m n id : ℕ) (hm : 1 ≤ m) (hmn : m ≤ n) (hn : n ≤ 29) (h2 : ¬ (n = 2 ∧ m = 2)) (c : Nat → Nat → Fl φ) (ret ret' : Mat (Fl φ)) {D lam : ℝ}
    (hu : 0 < φ.u) (hu' : φ.u ≤ 1 / 2 ^ 24) (hη : φ.η ≤ φ.u) (hlow : φ.η ≤ φ.u ^ 2 * D) (hhigh : 8 * φ.η ^ 2 * D ≤ φ.u ^ 2)
    (hrow : RowsWithin m n (edge c) D) (hind : IndependentBy m n (edge c) lam) (hlam0 : 0 < lam) (hlam : 50 * m * n * φ.u * D ≤ lam)
    {k : Nat} (hk : referenceVolumeInverse m id = k) (hk0 : 0 < k) (hex : φ.rd k = k) :
    ∃ vol, affineVolume m n id c ret ret' = some vol ∧
      |vol.val - Real.sqrt (gram m n (edge c)).det / k| ≤
        ((1 + φ.u) ^ (m + 2) * (1 + 17 * m * n * φ.u * D / lam) ^ m - 1) * (Real.sqrt (gram m n (edge c)).det / k) +
          (1 + φ.u) ^ (m + 2) * ((m + 3) * φ.η * (1 + D) ^ m) := by
  obtain ⟨det, inv, P, h1, -, h3, h4, h5, h6, hPR⟩ := right_inverse m n hm hmn hn (affineJt c) (edge c) ret ret' hu hu' hη hlow hhigh
    (fun r j _ _ => edge_err c r j) hrow hind hlam0 hlam
  refine ⟨det * referenceVolume m id, by rw [affineVolume, affine, rightInvA, if_neg h2, h1]; rfl, ?_⟩
  have hD : 0 ≤ D := (sum_nonneg fun j _ => sq_nonneg _).trans (hrow ⟨0, hm⟩)
  have hη0 := φ.η_nonneg
  have hε0 : 0 ≤ 17 * m * n * φ.u * D / lam := by positivity
  have hε1 : 17 * m * n * φ.u * D / lam ≤ 1 := by
    rw [div_le_one hlam0]
    have : (0:ℝ) ≤ m * n * φ.u * D := by positivity
    linarith
  obtain ⟨h7, h8⟩ := root_close hε0 hε1 m h3 h4 h5
  have hk1 : (1:ℝ) ≤ k := by exact_mod_cast hk0
  have hrv : Near φ 1 φ.η (referenceVolume (K := Fl φ) m id).val (1 / k) (1 / k) := by
    have hv : ((k : Fl φ)).val = k := hex
    have := Fl.div_err (1 : Fl φ) (k : Fl φ)
    rw [Fl.one_val, hv] at this
    have hp : (0:ℝ) < 1 / k := by positivity
    rw [abs_of_pos hp] at this
    refine ⟨by rw [abs_of_pos hp], hη0, ?_⟩
    rw [referenceVolume, hk, pow_one]
    have : 0 ≤ φ.u * φ.η := mul_nonneg hu.le hη0
    linarith
  have h9 := (h6.mul hrv).bound
  rw [Nat.add_assoc, show P * (1 / (k:ℝ)) = P / k by ring] at h9
  set ε := 17 * m * n * φ.u * D / lam
  set g := Real.sqrt (gram m n (edge c)).det
  set R := (1 + D) ^ m with hRd
  have hR : 1 ≤ R := one_le_pow₀ (by linarith)
  have hm' : (m:ℝ) ≤ 29 := by exact_mod_cast hmn.trans hn
  have hs : m * φ.η * R * (1 / k) + φ.η * P + m * φ.η * R * φ.η + φ.η ≤ (m + 3) * φ.η * R := by
    have a1 : m * φ.η * R * (1 / k) ≤ m * φ.η * R := mul_le_of_le_one_right (by positivity) (by rw [div_le_one (by linarith)]; exact hk1)
    have a2 : φ.η * P ≤ φ.η * R := mul_le_mul_of_nonneg_left hPR hη0
    have a3 : m * φ.η * R * φ.η ≤ φ.η * R := by
      have : (m:ℝ) * φ.η ≤ 1 := by
        have : φ.η ≤ 1 / 2 ^ 24 := hη.trans hu'
        have : (m:ℝ) * φ.η ≤ 29 * (1 / 2 ^ 24) := mul_le_mul hm' this hη0 (by norm_num)
        exact this.trans (by norm_num)
      have b : 0 ≤ φ.η * R := by positivity
      nlinarith
    have a4 : φ.η ≤ φ.η * R := le_mul_of_one_le_right hη0 hR
    linarith
  have h10 := abs_add_le ((det * referenceVolume m id : Fl φ).val - P / k) (P / k - g / k)
  rw [sub_add_sub_cancel] at h10
  have h11 := Near.one_le_pow φ (m + 2)
  have hkp : (0:ℝ) < k := by linarith
  have h12 : |P / k - g / k| ≤ ((1 + ε) ^ m - 1) * (g / k) := by
    rw [← sub_div, abs_div, abs_of_pos hkp, ← mul_div_assoc]
    exact div_le_div_of_nonneg_right h7 hkp.le
  have h13 : P / k ≤ (1 + ε) ^ m * (g / k) := by
    rw [← mul_div_assoc]
    exact div_le_div_of_nonneg_right h8 hkp.le
  set Q := (1 + φ.u) ^ (m + 2)
  have h14 : (Q - 1) * (P / k) ≤ (Q - 1) * ((1 + ε) ^ m * (g / k)) := mul_le_mul_of_nonneg_left h13 (by linarith)
  have h15 : Q * (m * φ.η * R * (1 / k) + φ.η * P + m * φ.η * R * φ.η + φ.η) ≤ Q * ((m + 3) * φ.η * R) := mul_le_mul_of_nonneg_left hs (by linarith)
  linarith

/-- C89: two-dimensional elements of the plane: the geometry is constructed if the determinant exceeds its rounding error. -/
theorem C89_plane_partial (c : Nat → Nat → Fl φ) (ret ret' : Mat (Fl φ)) :
    let e := edge c
    let err := ((1 + φ.u) ^ 4 - 1) * (|e 0 0| * |e 1 1| + |e 1 0| * |e 0 1|) + (1 + φ.u) ^ 4 * (2 * φ.η)
    err < |e 0 0 * e 1 1 - e 1 0 * e 0 1| →
    ∃ det inv, affine 2 2 c ret ret' = some (det, inv) ∧ 0 < det.val ∧ _root_.abs (det.val - |e 0 0 * e 1 1 - e 1 0 * e 0 1|) ≤ err := by
  intro e err h
  have h1 := det2_near (edge_near c 0 0) (edge_near c 1 0) (edge_near c 0 1) (edge_near c 1 1)
  have h2 := h1.bound
  set J := affineJt c with hJ
  have h0 : (J 0 0 * J 1 1 - J 1 0 * J 0 1).val ≠ 0 := by
    intro h3
    rw [h3, _root_.zero_sub, _root_.abs_neg] at h2
    exact absurd h (not_lt.mpr h2)
  have hne : ¬ (J 0 0 * J 1 1 - J 1 0 * J 0 1 = 0) := fun h3 => h0 (by rw [h3, Fl.zero_val])
  have heq : ∃ inv, affine 2 2 c ret ret' = some (HasAbs.abs (J 0 0 * J 1 1 - J 1 0 * J 0 1), inv) :=
    ⟨_, (show affine 2 2 c ret ret' = inv22 J by rw [affine, rightInvA, if_pos ⟨rfl, rfl⟩]).trans (if_neg hne)⟩
  obtain ⟨inv, heq⟩ := heq
  exact ⟨_, inv, heq, by rw [abs_val]; exact abs_pos.mpr h0, (near_abs h1).bound⟩

/-! ### Examples and counterexamples in `double` -/

/-- rounding of numbers between one and two -/
theorem double_one_two {x : ℝ} (h1 : 1 ≤ x) (h2 : x < 2) (n : ℤ) (hn : |n - x * 2 ^ 52| < 1 / 2) : double.rd x = n / 2 ^ 52 := by
  have hx : 0 < x := by linarith
  have hl : Int.log 2 |x| = 0 := by
    rw [abs_of_pos hx]
    have a1 : 0 ≤ Int.log 2 x := (Int.zpow_le_iff_le_log (b := 2) (by norm_num) hx).1 (by norm_num; exact h1)
    have a2 : Int.log 2 x < 1 := (Int.lt_zpow_iff_log_lt (b := 2) (by norm_num) hx).1 (by norm_num; exact h2)
    omega
  have hb : lastBit 53 (-1074) x = -52 := by rw [lastBit, hl]; norm_num
  have : rdBinary 53 (-1074) x = n / 2 ^ 52 := by
    rw [rdBinary, hb, roundEven_eq (n := n)]
    · rw [zpow_neg, div_eq_mul_inv]; norm_num
    · rw [zpow_neg, div_inv_eq_mul, abs_sub_comm]
      exact_mod_cast hn
  exact this

/-- a power of two in `double` -/
noncomputable def pow2 (k : ℤ) (hk : -1074 ≤ k) : Fl double :=
  ⟨2 ^ k, rdBinary_exact (p := 53) (emin := -1074) (by norm_num) (m := 1) (k := k) (by norm_num) (by norm_num) hk⟩

/-- the corners `(0,0,0)`, `(1,0,0)`, `(1,2⁻²⁷,0)` of a triangle in space -/
noncomputable def thin (i j : Nat) : Fl double := if i = 0 then 0 else if j = 0 then 1 else if i = 2 ∧ j = 1 then pow2 (-27) (by norm_num) else 0

theorem edge_thin : ∀ k j, edge thin k j = if j = 0 then 1 else if k = 1 ∧ j = 1 then 1 / 2 ^ 27 else 0 := by
  intro k j
  rw [edge, thin, thin]
  simp only [Nat.succ_ne_zero, if_false, if_true, Fl.zero_val, _root_.sub_zero, Nat.add_eq_right]
  by_cases h0 : j = 0
  · rw [if_pos h0, if_pos h0, Fl.one_val]
  · rw [if_neg h0, if_neg h0]
    by_cases h1 : k = 1 ∧ j = 1
    · rw [if_pos h1, if_pos ⟨by omega, h1.2⟩, pow2]; norm_num
    · rw [if_neg h1, if_neg (by omega), Fl.zero_val]

theorem double_u : double.u = 1 / 2 ^ 53 := by
  have h : double.u = 2 ^ (-((53:ℕ):ℤ)) := ieee_u 53 (-1074) (by norm_num) (by norm_num)
  rw [h, one_div, ← zpow_natCast, ← zpow_neg]

theorem double_η : double.η = 1 / 2 ^ 1075 := by
  have h : double.η = 2 ^ (-1074 : ℤ) / 2 := ieee_η 53 (-1074) (by norm_num) (by norm_num)
  rw [h, one_div, ← zpow_natCast, ← zpow_neg, div_eq_mul_inv, show (2:ℝ)⁻¹ = 2 ^ (-1 : ℤ) by norm_num, ← zpow_add₀ (by norm_num)]
  norm_num

theorem double_η_le : double.η ≤ 1 / 2 ^ 200 := by
  rw [double_η]
  exact one_div_le_one_div_of_le (by positivity) (pow_le_pow_right₀ (by norm_num) (by norm_num))

theorem thin_square : (1 : Fl double) + pow2 (-27) (by norm_num) * pow2 (-27) (by norm_num) = 1 := by
  refine Fl.ext ?_
  have h1 : (pow2 (-27) (by norm_num) * pow2 (-27) (by norm_num) : Fl double).val = 1 / 2 ^ 54 := by
    rw [Fl.mul_val, pow2]
    dsimp only
    rw [← zpow_add₀ (by norm_num), show (-27 + -27 : ℤ) = -54 by norm_num]
    refine (rdBinary_exact (p := 53) (emin := -1074) (by norm_num) (m := 1) (k := -54) (by norm_num) (by norm_num) (by norm_num)).trans ?_
    rw [zpow_neg, one_div]
    norm_cast
  rw [Fl.add_val, h1, Fl.one_val, double_one_two (by norm_num) (by norm_num) (2 ^ 52) (by norm_num [abs_lt])]
  norm_num

/-- the triangle is not degenerate -/
theorem thin_independent : IndependentBy 2 3 (edge thin) (1 / 2 ^ 56) := by
  intro w
  simp only [Fin.sum_univ_two, Fin.sum_univ_three, edge_thin]
  norm_num
  nlinarith [sq_nonneg (w 0 + w 1), sq_nonneg (w 0), sq_nonneg (w 1), sq_nonneg (2 * w 0 + 3 * w 1), sq_nonneg (w 0 + 2 * w 1)]

/-- C89: an `AffineGeometry` cannot be constructed for the triangle with the corners `(0,0,0)`, `(1,0,0)` and `(1,2⁻²⁷,0)`: the
Gram matrix of its edges is singular after rounding, and an assertion fails.  Its area `2⁻²⁸` and its angles are far from the
limits of `double`, and `sqrtDetAAT` computes the integration element of the same Jacobian accurately, see `C89_det23`. -/
theorem C89_affine_counterexample : ¬ C89_affine_full double := by
  intro h
  have h1 := h 2 3 thin (fun _ _ => 0) (fun _ _ => 0) (1 / 2 ^ 56) (by norm_num) (by norm_num) (by norm_num) thin_independent
  have hJ : ∀ k j, affineJt thin k j = thin (k + 1) j := fun k j => by
    rw [affineJt, show thin 0 j = 0 from if_pos rfl, Fl.sub_zero]
  have a00 : AAT_L 3 (affineJt thin) (fun _ _ => 0) 0 0 = 1 := by
    simp [AAT_L, addLoop, hJ, thin, List.range', Fl.mul_one, Fl.mul_zero, Fl.add_zero]
  have a10 : AAT_L 3 (affineJt thin) (fun _ _ => 0) 1 0 = 1 := by
    simp [AAT_L, addLoop, hJ, thin, List.range', Fl.mul_one, Fl.mul_zero, Fl.add_zero]
  have a11 : AAT_L 3 (affineJt thin) (fun _ _ => 0) 1 1 = 1 := by
    simp [AAT_L, addLoop, hJ, thin, List.range', Fl.mul_one, Fl.mul_zero, Fl.add_zero, thin_square]
  have hs : sqrt (1 : Fl double) = 1 := Fl.ext (by
    change double.rd (Real.sqrt (1 : Fl double).val) = _
    rw [Fl.one_val, Real.sqrt_one, double.rd_one])
  rw [affine, rightInvA, if_neg (by omega), spdInvA, cholesky_L, choleskyFrom] at h1
  simp [subLoop, a00, hs, Fl.div_one, choleskyFrom, choleskyColumn, List.range', setM, a10, a11, Fl.mul_one, Fl.sub_self, show ¬ (0 : Fl double) < 0 from lt_irrefl (0:ℝ)] at h1

/-- the edges of a triangle of the plane -/
noncomputable def thinPlane (i j : Nat) : Fl double :=
  if i = 0 then 0
  else if i = 1 then (if j = 0 then 1 + pow2 (-52) (by norm_num) else 1)
  else if j = 0 then 1 + pow2 (-51) (by norm_num) else 1 + pow2 (-52) (by norm_num)

theorem one_add_pow2 {k : ℤ} (hk : -52 ≤ k) (hk' : k ≤ -1) : ((1 : Fl double) + pow2 k (by omega)).val = 1 + 2 ^ k := by
  rw [Fl.add_val, Fl.one_val, pow2]
  obtain ⟨j, rfl⟩ : ∃ j : ℕ, k = -52 + j := ⟨(k + 52).toNat, by omega⟩
  refine rdBinary_exact (p := 53) (emin := -1074) (by norm_num) (m := 2 ^ 52 + 2 ^ j) (k := -52) ?_ ?_ (by norm_num)
  · push_cast
    rw [zpow_add₀ (by norm_num), zpow_natCast]
    norm_num
    ring
  · have : (2:ℤ) ^ j ≤ 2 ^ 51 := pow_le_pow_right₀ (by norm_num) (by omega)
    rw [abs_of_pos (by positivity)]
    linarith

theorem edge_thinPlane : edge thinPlane 0 0 = 1 + 1 / 2 ^ 52 ∧ edge thinPlane 0 1 = 1 ∧ edge thinPlane 1 0 = 1 + 1 / 2 ^ 51 ∧
    edge thinPlane 1 1 = 1 + 1 / 2 ^ 52 := by
  have h1 := one_add_pow2 (k := -52) (by norm_num) (by norm_num)
  have h2 := one_add_pow2 (k := -51) (by norm_num) (by norm_num)
  refine ⟨?_, ?_, ?_, ?_⟩ <;> simp only [edge, thinPlane] <;> norm_num [h1, h2, Fl.zero_val, Fl.one_val]

/-- C89: in the plane, the determinant of a thin triangle can vanish after rounding (and its inverse is computed by a
division by zero). -/
theorem C89_plane_counterexample : ¬ C89_affine_full double := by
  intro h
  obtain ⟨e1, e2, e3, e4⟩ := edge_thinPlane
  have hind : IndependentBy 2 2 (edge thinPlane) (1 / 2 ^ 212) := by
    intro w
    simp only [Fin.sum_univ_two, Fin.val_zero, Fin.val_one, e1, e2, e3, e4]
    have hx : ∀ a b : ℝ, a ^ 2 + b ^ 2 ≤ 2 ^ 212 * ((a * (1 + 1 / 2 ^ 52) + b * (1 + 1 / 2 ^ 51)) ^ 2 + (a * 1 + b * (1 + 1 / 2 ^ 52)) ^ 2) := by
      intro a b
      set p := a * (1 + 1 / 2 ^ 52) + b * (1 + 1 / 2 ^ 51) with hp
      set q := a * 1 + b * (1 + 1 / 2 ^ 52) with hq
      have ha : a = 2 ^ 104 * ((1 + 1 / 2 ^ 52) * p - (1 + 1 / 2 ^ 51) * q) := by rw [hp, hq]; ring
      have hb : b = 2 ^ 104 * ((1 + 1 / 2 ^ 52) * q - p) := by rw [hp, hq]; ring
      have hA : ∀ α β x y : ℝ, 0 ≤ α → α ≤ 2 → 0 ≤ β → β ≤ 2 → (α * x - β * y) ^ 2 ≤ 8 * (x ^ 2 + y ^ 2) := by
        intro α β x y h1 h2 h3 h4
        have a1 : (α * x) ^ 2 ≤ 4 * x ^ 2 := by rw [mul_pow]; exact mul_le_mul_of_nonneg_right (by nlinarith) (sq_nonneg x)
        have a2 : (β * y) ^ 2 ≤ 4 * y ^ 2 := by rw [mul_pow]; exact mul_le_mul_of_nonneg_right (by nlinarith) (sq_nonneg y)
        nlinarith [sq_nonneg (α * x + β * y)]
      have b1 := hA (1 + 1 / 2 ^ 52) (1 + 1 / 2 ^ 51) p q (by norm_num) (by norm_num) (by norm_num) (by norm_num)
      have b2 := hA (1 + 1 / 2 ^ 52) 1 q p (by norm_num) (by norm_num) (by norm_num) (by norm_num)
      rw [_root_.one_mul] at b2
      clear_value p q
      rw [ha, hb, mul_pow, mul_pow]
      generalize ((1 + 1 / 2 ^ 52) * p - (1 + 1 / 2 ^ 51) * q) ^ 2 = s1 at *
      generalize ((1 + 1 / 2 ^ 52) * q - p) ^ 2 = s2 at *
      norm_num
      linarith
    have := hx (w 0) (w 1)
    linarith
  have h1 := h 2 2 thinPlane (fun _ _ => 0) (fun _ _ => 0) (1 / 2 ^ 212) (by norm_num) (by norm_num) (by positivity) hind
  have hJ : ∀ k j, affineJt thinPlane k j = thinPlane (k + 1) j := fun k j => by
    rw [affineJt, show thinPlane 0 j = 0 from if_pos rfl, Fl.sub_zero]
  have s1 := one_add_pow2 (k := -52) (by norm_num) (by norm_num)
  have s2 := one_add_pow2 (k := -51) (by norm_num) (by norm_num)
  have hd : affineJt thinPlane 0 0 * affineJt thinPlane 1 1 - affineJt thinPlane 1 0 * affineJt thinPlane 0 1 = 0 := by
    simp only [hJ, thinPlane]
    norm_num
    rw [Fl.mul_one]
    have : (1 + pow2 (-52) (by norm_num) : Fl double) * (1 + pow2 (-52) (by norm_num)) = 1 + pow2 (-51) (by norm_num) := by
      refine Fl.ext ?_
      rw [Fl.mul_val, s1, s2, double_one_two (by norm_num) (by norm_num) (2 ^ 52 + 2) (by norm_num [abs_lt])]
      norm_num
    rw [this, Fl.sub_self]
  rw [affine, rightInvA, if_pos ⟨rfl, rfl⟩, inv22] at h1
  rw [if_pos hd] at h1
  exact absurd h1 (by simp)

/-- the triangle with the corners `(0,0,0)`, `(1,0,0)`, `(0,1,0)` in `double` -/
noncomputable def rightTriangle (i j : Nat) : Fl double := if i = j + 1 then 1 else 0

theorem edge_right (k j : Nat) : edge rightTriangle k j = if k = j then 1 else 0 := by
  rw [edge, rightTriangle, rightTriangle, if_neg (show ¬ 0 = j + 1 by omega), Fl.zero_val, _root_.sub_zero]
  by_cases h : k = j
  · rw [if_pos h, if_pos (by omega), Fl.one_val]
  · rw [if_neg h, if_neg (by omega), Fl.zero_val]

/-- the hypotheses of `C89_affine_partial` and `C89_volume` -/
example : (0 < double.u ∧ double.u ≤ 1 / 2 ^ 24 ∧ double.η ≤ double.u ∧ double.η ≤ double.u ^ 2 * 1 ∧ 8 * double.η ^ 2 * 1 ≤ double.u ^ 2) ∧
    RowsWithin 2 3 (edge rightTriangle) 1 ∧ IndependentBy 2 3 (edge rightTriangle) 1 ∧ 50 * (2 : ℕ) * (3 : ℕ) * double.u * 1 ≤ 1 ∧
    referenceVolumeInverse 2 0 = 2 ∧ double.rd (2 : ℕ) = (2 : ℕ) := by
  have he := edge_right
  have hη := double_η_le
  refine ⟨?_, fun k => ?_, fun w => ?_, ?_, by decide, double_nat 2 (by norm_num)⟩
  · have hη0 := double.η_nonneg
    have h2 : double.η ^ 2 ≤ (1 / 2 ^ 200) ^ 2 := pow_le_pow_left₀ hη0 hη 2
    rw [double_u]
    refine ⟨by norm_num, by norm_num, hη.trans (by norm_num), hη.trans (by norm_num), ?_⟩
    norm_num at h2 ⊢
    linarith
  · fin_cases k <;> simp only [Fin.sum_univ_three, he] <;> norm_num
  · simp [Fin.sum_univ_three, Fin.sum_univ_two, he]
  · rw [double_u]; norm_num

/-- the hypothesis of `C89_plane_partial`: the unit triangle -/
example : let e := edge rightTriangle
    ((1 + double.u) ^ 4 - 1) * (|e 0 0| * |e 1 1| + |e 1 0| * |e 0 1|) + (1 + double.u) ^ 4 * (2 * double.η) < |e 0 0 * e 1 1 - e 1 0 * e 0 1| := by
  have he := edge_right
  have hη := double_η_le
  simp only [he]
  rw [double_u]
  norm_num at hη ⊢
  linarith

end Verif.FloatVol
