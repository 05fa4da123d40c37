import Verif.Quad.InverseProps
import Verif.Cube.Props

/-! Lemmas for the location of points (C103). -/

namespace Verif.Locate

open Verif.Typ Verif.RefTopo Verif.RefGeom Verif.MatHelp Verif.Affine Verif.MultiLinear Verif.Quad
open MultiLinearGeometry (newton local_ LocalResult two_norm2)
open Finset hiding ext

/-! ### The test with a tolerance -/

section order

variable {K : Type} [Field K] [LinearOrder K] [IsStrictOrderedRing K]

theorem inside_congr {tol : K} {x y : Vec K} : ∀ (t : Topo) (f : K), (∀ k, k < t.dim → x k = y k) → Inside tol t f x → Inside tol t f y
  | .pt, _, _, _ => trivial
  | .prism t, f, h, ⟨h1, h2, h3⟩ => by
    have e := h t.dim (by simp [Topo.dim])
    exact ⟨by rw [← e]; exact h1, by rw [← e]; exact h2,
      inside_congr t f (fun k hk => h k (by simp only [Topo.dim]; omega)) h3⟩
  | .pyr t, f, h, ⟨h1, h2, h3⟩ => by
    have e := h t.dim (by simp [Topo.dim])
    refine ⟨by rw [← e]; exact h1, by rw [← e]; exact h2, ?_⟩
    rw [← e]
    exact inside_congr t _ (fun k hk => h k (by simp only [Topo.dim]; omega)) h3

/-- `checkInside` reads the first `d` coordinates only -/
theorem checkInside_congr {d id : Nat} {tol f : K} {x y : Vec K} (h : ∀ k, k < d → x k = y k) :
    checkInside d id x tol f = checkInside d id y tol f := by
  have hr := rep_topoOf d id
  have key : ∀ {x y : Vec K}, (∀ k, k < d → x k = y k) → checkInside d id x tol f = true → checkInside d id y tol f = true := by
    intro x y h hx
    rw [checkInside_iff hr] at hx ⊢
    exact inside_congr _ _ (fun k hk => h k (by rwa [hr.dim_eq] at hk)) hx
  rw [Bool.eq_iff_iff]
  exact ⟨key h, key fun k hk => (h k hk).symm⟩

theorem dom_le : ∀ (t : Topo) {f g : K} {x : Vec K}, f ≤ g → Dom t f x → Dom t g x
  | .pt, _, _, _, _, _ => trivial
  | .prism t, _, _, _, h, hd => ⟨hd.1, hd.2.1.trans h, dom_le t h hd.2.2⟩
  | .pyr t, _, _, _, h, hd => ⟨hd.1, hd.2.1.trans h, dom_le t (by linarith) hd.2.2⟩

/-- a point that passes lies in the element blown up and shifted by the tolerance -/
theorem inside_dom {tol : K} (h0 : 0 ≤ tol) : ∀ (t : Topo) (f : K) (x : Vec K), Inside tol t f x →
    Dom t (f + (t.dim + 1 : Nat) * tol) fun k => x k + tol
  | .pt, _, _, _ => trivial
  | .prism t, f, x, ⟨h1, h2, h3⟩ => by
    have ih := inside_dom h0 t f x h3
    have hd : (0:K) ≤ (t.dim : K) * tol := mul_nonneg (Nat.cast_nonneg _) h0
    simp only [Topo.dim]
    push_cast at ih ⊢
    refine ⟨by linarith, by linarith, dom_le t (by linarith) ih⟩
  | .pyr t, f, x, ⟨h1, h2, h3⟩ => by
    have ih := inside_dom h0 t _ x h3
    have hd : (0:K) ≤ (t.dim : K) * tol := mul_nonneg (Nat.cast_nonneg _) h0
    simp only [Topo.dim]
    push_cast at ih ⊢
    refine ⟨by linarith, by linarith, dom_le t (by linarith) ih⟩

end order

/-! ### Quadrilaterals: the last step -/

section quadrilateral

variable {cs : Nat → Vec ℝ} {id : Nat} {tol : ℝ}

/-- from a balanced point on, the result comes from a balanced point by a correction within the tolerance -/
theorem last_step (hid : id < 2 ^ 2) (hc : IsCubeId 2 id) (z x' : Vec ℝ) : ∀ (n : Nat) (x : Vec ℝ), Balanced cs z x →
    (quad cs id tol).newton false ((quad cs id tol).global z) n x = some (some (.point x')) →
    ∃ xl dx : Vec ℝ, Balanced cs z xl ∧ (x' = fun i => xl i - dx i) ∧ dx 0 ^ 2 + dx 1 ^ 2 ≤ tol ∧
      quadDet cs xl * (xl 0 - dx 0 - z 0) = quadDet1 cs * ((xl 0 - z 0) * (xl 1 - z 1)) ∧
      quadDet cs xl * (xl 1 - dx 1 - z 1) = quadDet0 cs * ((xl 0 - z 0) * (xl 1 - z 1)) := by
  intro n
  induction n with
  | zero => intro x _ h; simp [newton] at h
  | succ n ih =>
    intro x hx h
    obtain ⟨dx, h1, h2, h3⟩ := quad_step (tol := tol) hid hc x z hx.ne
    rw [newton, h1] at h
    simp only [Bool.false_eq_true, if_false] at h
    by_cases hn : two_norm2 2 dx > tol
    · rw [if_pos hn] at h
      exact ih _ (balanced_step (x' := fun i => x i - dx i) hx h2 h3).1.toBalanced h
    · rw [if_neg hn] at h
      refine ⟨x, dx, hx, ?_, ?_, h2, h3⟩
      · simpa using h.symm
      · rw [two_norm2_two, not_lt] at hn; exact hn

/-- the error after a step is proportional to the square of the correction -/
theorem balanced_error {z x dx : Vec ℝ} (h : Balanced cs z x)
    (h0 : quadDet cs x * (x 0 - dx 0 - z 0) = quadDet1 cs * ((x 0 - z 0) * (x 1 - z 1)))
    (h1 : quadDet cs x * (x 1 - dx 1 - z 1) = quadDet0 cs * ((x 0 - z 0) * (x 1 - z 1))) :
    ∃ θ : ℝ, 0 ≤ θ ∧ θ ≤ 1 ∧ quadDet cs z * (x 0 - dx 0 - z 0) = θ * quadDet0 cs * dx 0 ^ 2 ∧
      quadDet cs z * (x 1 - dx 1 - z 1) = θ * quadDet1 cs * dx 1 ^ 2 := by
  have hne := h.ne
  have heq := h.eq
  have hd := h.det
  have hpos := h.pos
  set s := quadDet0 cs * (x 0 - z 0) with hs
  set D := quadDet cs z with hD
  set X := quadDet cs x with hX
  have hDs : D + s ≠ 0 := by
    intro h0
    have : X = -D := by rw [hd]; linarith
    rw [this] at hpos
    nlinarith [sq_nonneg D]
  -- corrections and errors as multiples of the errors before the step
  have e0 : X * (x 0 - dx 0 - z 0) = s * (x 0 - z 0) := by rw [h0, heq]; ring
  have e1 : X * (x 1 - dx 1 - z 1) = s * (x 1 - z 1) := by rw [h1, hs]; ring
  have c0 : X * dx 0 = (D + s) * (x 0 - z 0) := by linear_combination -e0 + (x 0 - z 0) * hd
  have c1 : X * dx 1 = (D + s) * (x 1 - z 1) := by linear_combination -e1 + (x 1 - z 1) * hd
  refine ⟨X * D / (D + s) ^ 2, div_nonneg hpos.le (sq_nonneg _), ?_, ?_, ?_⟩
  · rw [div_le_one (by positivity), hd]
    nlinarith [sq_nonneg s]
  · have k : (D + s) ^ 2 * (X ^ 2 * (D * (x 0 - dx 0 - z 0))) = X ^ 2 * (X * D * (quadDet0 cs * dx 0 ^ 2)) := by
      have q1 : X ^ 2 * (X * D * (quadDet0 cs * dx 0 ^ 2)) = X * D * quadDet0 cs * (X * dx 0) ^ 2 := by ring
      have q2 : (D + s) ^ 2 * (X ^ 2 * (D * (x 0 - dx 0 - z 0))) = (D + s) ^ 2 * X * D * (X * (x 0 - dx 0 - z 0)) := by ring
      rw [q1, q2, e0, c0, hs]; ring
    have hX2 : X ^ 2 ≠ 0 := by positivity
    have hS2 : (D + s) ^ 2 ≠ 0 := by positivity
    have k' : (D + s) ^ 2 * (D * (x 0 - dx 0 - z 0)) = X * D * (quadDet0 cs * dx 0 ^ 2) := by
      apply mul_left_cancel₀ hX2; linear_combination k
    field_simp
    linear_combination k'
  · have k : (D + s) ^ 2 * (X ^ 2 * (D * (x 1 - dx 1 - z 1))) = X ^ 2 * (X * D * (quadDet1 cs * dx 1 ^ 2)) := by
      have q1 : X ^ 2 * (X * D * (quadDet1 cs * dx 1 ^ 2)) = X * D * quadDet1 cs * (X * dx 1) ^ 2 := by ring
      have q2 : (D + s) ^ 2 * (X ^ 2 * (D * (x 1 - dx 1 - z 1))) = (D + s) ^ 2 * X * D * (X * (x 1 - dx 1 - z 1)) := by ring
      rw [q1, q2, e1, c1, heq]; ring
    have hX2 : X ^ 2 ≠ 0 := by positivity
    have hS2 : (D + s) ^ 2 ≠ 0 := by positivity
    have k' : (D + s) ^ 2 * (D * (x 1 - dx 1 - z 1)) = X * D * (quadDet1 cs * dx 1 ^ 2) := by
      apply mul_left_cancel₀ hX2; linear_combination k
    field_simp
    linear_combination k'

/-- one coordinate: `D` is the determinant at the point, `a` its derivative, `D + a (0 - z)` and `D + a (1 - z)` the values at
the two ends; the result leaves the interval by at most twice the tolerance -/
theorem overshoot {D a θ d w z : ℝ} (h0 : 0 ≤ θ) (h1 : θ ≤ 1) (hD : D * w = θ * a * d ^ 2) (hz0 : 0 ≤ z) (hz1 : z ≤ 1)
    (hl : 0 < D * (D - a * z)) (hr : 0 < D * (D + a * (1 - z))) (hd : d ^ 2 ≤ tol) (hw : w ^ 2 ≤ tol) (ht : tol ≤ 1 / 64) :
    -(2 * tol) ≤ z + w ∧ z + w ≤ 1 + 2 * tol := by
  have ht0 : 0 ≤ tol := (sq_nonneg d).trans hd
  have hD0 : D ≠ 0 := fun h => by rw [h, zero_mul] at hl; exact lt_irrefl _ hl
  have hDD : 0 < D * D := mul_self_pos.2 hD0
  have hw8 : |w| ≤ 1 / 8 := abs_le_of_sq_le_sq (by norm_num; linarith) (by norm_num)
  have hw8 := abs_le.1 hw8
  have hθd : θ * d ^ 2 ≤ tol := by nlinarith [sq_nonneg d]
  have hθd0 : 0 ≤ θ * d ^ 2 := by positivity
  set q := θ * d ^ 2 with hq
  -- everything relative to `D`
  have hDw : D * D * w = q * (D * a) := by rw [hq]; linear_combination D * hD
  set P := D * D with hP
  set B := D * a with hB
  have hl' : 0 < P - B * z := by rw [hP, hB]; linear_combination hl
  have hr' : 0 < P + B * (1 - z) := by rw [hP, hB]; linear_combination hr
  constructor
  · rcases le_or_gt (1 / 2) z with hz | hz
    · linarith
    · -- `P ≥ -B (1 - z) ≥ -B / 2`
      by_contra hn
      rw [not_le] at hn
      have hwn : w < -(2 * tol) := by linarith
      have hB : B < 0 := by
        by_contra hB
        rw [not_lt] at hB
        have : 0 ≤ P * w := by rw [hDw]; positivity
        nlinarith
      have h1 : -B < 2 * P := by nlinarith
      have h2 : P * w < P * (-(2 * tol)) := mul_lt_mul_of_pos_left hwn hDD
      rw [hDw] at h2
      nlinarith
  · rcases le_or_gt z (1 / 2) with hz | hz
    · linarith
    · by_contra hn
      rw [not_le] at hn
      have hwn : 2 * tol < w := by linarith
      have hB : 0 < B := by
        by_contra hB
        rw [not_lt] at hB
        have : P * w ≤ 0 := by rw [hDw]; exact mul_nonpos_of_nonneg_of_nonpos hθd0 hB
        nlinarith
      have h1 : B < 2 * P := by nlinarith
      have h2 : P * (2 * tol) < P * w := mul_lt_mul_of_pos_left hwn hDD
      rw [hDw] at h2
      nlinarith

theorem det_same (hreg : ∀ x : Vec ℝ, 0 ≤ x 0 → x 0 ≤ 1 → 0 ≤ x 1 → x 1 ≤ 1 → quadDet cs x ≠ 0) (x y : Vec ℝ)
    (hx0 : 0 ≤ x 0 ∧ x 0 ≤ 1) (hx1 : 0 ≤ x 1 ∧ x 1 ≤ 1) (hy0 : 0 ≤ y 0 ∧ y 0 ≤ 1) (hy1 : 0 ≤ y 1 ∧ y 1 ≤ 1) :
    0 < quadDet cs x * quadDet cs y := by
  by_contra hn
  rw [not_lt] at hn
  have hx := hreg x hx0.1 hx0.2 hx1.1 hx1.2
  have hy := hreg y hy0.1 hy0.2 hy1.1 hy1.2
  have hlt : quadDet cs x * quadDet cs y < 0 := lt_of_le_of_ne hn (mul_ne_zero hx hy)
  have hxy : quadDet cs y - quadDet cs x ≠ 0 := by
    intro h
    have : quadDet cs y = quadDet cs x := by linarith
    rw [this] at hlt
    nlinarith [sq_nonneg (quadDet cs x)]
  set s := -quadDet cs x / (quadDet cs y - quadDet cs x) with hs
  have hs0 : 0 ≤ s ∧ s ≤ 1 := by
    rcases lt_or_gt_of_ne hx with h | h
    · have : 0 < quadDet cs y := by nlinarith
      exact ⟨div_nonneg (by linarith) (by linarith), (div_le_one (by linarith)).2 (by linarith)⟩
    · have : quadDet cs y < 0 := by nlinarith
      exact ⟨div_nonneg_of_nonpos (by linarith) (by linarith), (div_le_one_of_neg (by linarith)).2 (by linarith)⟩
  refine hreg (fun k => x k + s * (y k - x k)) ?_ ?_ ?_ ?_ ?_
  · nlinarith
  · nlinarith
  · nlinarith
  · nlinarith
  · have h1 := quadDet_sub (cs := cs) (fun k => x k + s * (y k - x k)) x
    have h2 := quadDet_sub (cs := cs) y x
    have h3 : s * (quadDet cs y - quadDet cs x) = -quadDet cs x := by rw [hs]; field_simp
    linear_combination h1 + h3 - s * h2

/-- the test of the unit square -/
theorem square_inside (hc : IsCubeId 2 id) (x : Vec ℝ) (t : ℝ) : checkInside 2 id x t 1 = true ↔
    (-t < x 0 ∧ x 0 < 1 + t) ∧ -t < x 1 ∧ x 1 < 1 + t := by
  rw [checkInside_iff (rep_topoOf 2 id), topoOf_cube 2 id hc]
  simp only [Topo.cube, Inside, Topo.dim, and_true]
  constructor
  · rintro ⟨a, b, c, d⟩; exact ⟨⟨c, by linarith⟩, a, by linarith⟩
  · rintro ⟨⟨c, d⟩, a, b⟩; exact ⟨a, by linarith, c, by linarith⟩

end quadrilateral

end Verif.Locate
