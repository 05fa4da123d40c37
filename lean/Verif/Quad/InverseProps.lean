import Verif.Quad.VolumeProps

/-! Property theorems: `local` inverts `global` on elements that are not affine (C76).

`MultiLinearGeometry::local` runs Newton's method from the centre of the reference element, without a limit on the steps
and without a check that the result lies in the element. -/

namespace Verif.Quad

open Verif.Typ Verif.RefTopo Verif.RefGeom Verif.MatHelp Verif.Affine Verif.MultiLinear
open MultiLinearGeometry (newton local_ LocalResult two_norm2)
open Matrix hiding vec ext
open Finset hiding ext

/-! ### One step of Newton's method -/

/-- with as many unknowns as equations the correction solves the linear system -/
theorem xTRightInvA_square {m : Nat} {A : Mat ℝ} (r : Vec ℝ) (hA : LinearIndependent ℝ (mat m m A).row) :
    ∃ dx, xTRightInvA m m A r = some (true, dx) ∧ vec m dx ᵥ* mat m m A = vec m r := by
  obtain ⟨dx, e1, e2⟩ := xTRightInvA_pinv r (le_refl m) hA
  refine ⟨dx, e1, ?_⟩
  rw [e2, Matrix.vecMul_vecMul, mul_eq_one_comm.1 (mul_pinv hA), Matrix.vecMul_one]

/-! ### Quadrilaterals -/

section quadrilateral

variable (cs : Nat → Vec ℝ) (id : Nat) (tol : ℝ)

/-- a quadrilateral in the plane -/
abbrev quad : MultiLinearGeometry := ⟨2, 2, id, cs, tol⟩

variable {cs id tol}

theorem quad_global (hid : id < 2 ^ 2) (hc : IsCubeId 2 id) (x : Vec ℝ) (j : Nat) :
    (quad cs id tol).global x j = cs 0 j + (cs 1 j - cs 0 j) * x 0 + (cs 2 j - cs 0 j) * x 1 +
      (cs 3 j - cs 2 j - cs 1 j + cs 0 j) * (x 0 * x 1) := by
  have h1 : nv (.prism .pt) = 2 := rfl
  have h2 : nv .pt = 1 := rfl
  rw [global_eq _ hid, topoOf_cube 2 id hc]
  simp [Topo.cube, ML, Topo.dim, h1, h2]
  ring

theorem quad_jt (hid : id < 2 ^ 2) (hc : IsCubeId 2 id) (x : Vec ℝ) (j : Nat) :
    (quad cs id tol).jacobianTransposed x 0 j = cs 1 j - cs 0 j + (cs 3 j - cs 2 j - cs 1 j + cs 0 j) * x 1 ∧
    (quad cs id tol).jacobianTransposed x 1 j = cs 2 j - cs 0 j + (cs 3 j - cs 2 j - cs 1 j + cs 0 j) * x 0 := by
  have h1 : nv (.prism .pt) = 2 := rfl
  have h2 : nv .pt = 1 := rfl
  constructor <;>
  · rw [jt_eq _ hid _ _ _ (by norm_num), topoOf_cube 2 id hc]
    simp [Topo.cube, MLd, ML, Topo.dim, h1, h2]
    ring

/-- the determinant of the Jacobian and its derivatives in the two directions -/
def quadDet (cs : Nat → Vec ℝ) (x : Vec ℝ) : ℝ :=
  (cs 1 0 - cs 0 0 + (cs 3 0 - cs 2 0 - cs 1 0 + cs 0 0) * x 1) * (cs 2 1 - cs 0 1 + (cs 3 1 - cs 2 1 - cs 1 1 + cs 0 1) * x 0) -
  (cs 1 1 - cs 0 1 + (cs 3 1 - cs 2 1 - cs 1 1 + cs 0 1) * x 1) * (cs 2 0 - cs 0 0 + (cs 3 0 - cs 2 0 - cs 1 0 + cs 0 0) * x 0)

def quadDet0 (cs : Nat → Vec ℝ) : ℝ :=
  (cs 1 0 - cs 0 0) * (cs 3 1 - cs 2 1 - cs 1 1 + cs 0 1) - (cs 1 1 - cs 0 1) * (cs 3 0 - cs 2 0 - cs 1 0 + cs 0 0)

def quadDet1 (cs : Nat → Vec ℝ) : ℝ :=
  (cs 3 0 - cs 2 0 - cs 1 0 + cs 0 0) * (cs 2 1 - cs 0 1) - (cs 3 1 - cs 2 1 - cs 1 1 + cs 0 1) * (cs 2 0 - cs 0 0)

theorem quadDet_sub (x y : Vec ℝ) : quadDet cs x = quadDet cs y + quadDet0 cs * (x 0 - y 0) + quadDet1 cs * (x 1 - y 1) := by
  simp only [quadDet, quadDet0, quadDet1]; ring

theorem quad_det (hid : id < 2 ^ 2) (hc : IsCubeId 2 id) (x : Vec ℝ) :
    (mat 2 2 ((quad cs id tol).jacobianTransposed x)).det = quadDet cs x := by
  rw [det_fin_two]
  change (quad cs id tol).jacobianTransposed x 0 0 * (quad cs id tol).jacobianTransposed x 1 1 -
    (quad cs id tol).jacobianTransposed x 0 1 * (quad cs id tol).jacobianTransposed x 1 0 = _
  rw [(quad_jt hid hc x 0).1, (quad_jt hid hc x 1).1, (quad_jt hid hc x 0).2, (quad_jt hid hc x 1).2, quadDet]

theorem quad_li (hid : id < 2 ^ 2) (hc : IsCubeId 2 id) (x : Vec ℝ) :
    LinearIndependent ℝ (mat 2 2 ((quad cs id tol).jacobianTransposed x)).row ↔ quadDet cs x ≠ 0 := by
  rw [linearIndependent_rows_iff_isUnit, isUnit_iff_isUnit_det, quad_det hid hc, isUnit_iff_ne_zero]

/-- the step: the errors of the two coordinates before and after -/
theorem quad_step (hid : id < 2 ^ 2) (hc : IsCubeId 2 id) (x z : Vec ℝ) (hx : quadDet cs x ≠ 0) :
    ∃ dx, xTRightInvA 2 2 ((quad cs id tol).jacobianTransposed x)
        (fun i => (quad cs id tol).global x i - (quad cs id tol).global z i) = some (true, dx) ∧
      quadDet cs x * (x 0 - dx 0 - z 0) = quadDet1 cs * ((x 0 - z 0) * (x 1 - z 1)) ∧
      quadDet cs x * (x 1 - dx 1 - z 1) = quadDet0 cs * ((x 0 - z 0) * (x 1 - z 1)) := by
  obtain ⟨dx, h1, h2⟩ := xTRightInvA_square (fun i => (quad cs id tol).global x i - (quad cs id tol).global z i)
    ((quad_li (tol := tol) hid hc x).2 hx)
  refine ⟨dx, h1, ?_⟩
  have c0 : dx 0 * (quad cs id tol).jacobianTransposed x 0 0 + dx 1 * (quad cs id tol).jacobianTransposed x 1 0 =
      (quad cs id tol).global x 0 - (quad cs id tol).global z 0 := by
    simpa [Matrix.vecMul, dotProduct, Fin.sum_univ_two, vec, mat] using congrFun h2 0
  have c1 : dx 0 * (quad cs id tol).jacobianTransposed x 0 1 + dx 1 * (quad cs id tol).jacobianTransposed x 1 1 =
      (quad cs id tol).global x 1 - (quad cs id tol).global z 1 := by
    simpa [Matrix.vecMul, dotProduct, Fin.sum_univ_two, vec, mat] using congrFun h2 1
  rw [(quad_jt hid hc x 0).1, (quad_jt hid hc x 0).2, quad_global hid hc, quad_global hid hc] at c0
  rw [(quad_jt hid hc x 1).1, (quad_jt hid hc x 1).2, quad_global hid hc, quad_global hid hc] at c1
  simp only [quadDet, quadDet0, quadDet1]
  constructor
  · linear_combination (-(cs 2 1 - cs 0 1 + (cs 3 1 - cs 2 1 - cs 1 1 + cs 0 1) * x 0)) * c0 +
      (cs 2 0 - cs 0 0 + (cs 3 0 - cs 2 0 - cs 1 0 + cs 0 0) * x 0) * c1
  · linear_combination (cs 1 1 - cs 0 1 + (cs 3 1 - cs 2 1 - cs 1 1 + cs 0 1) * x 1) * c0 -
      (cs 1 0 - cs 0 0 + (cs 3 0 - cs 2 0 - cs 1 0 + cs 0 0) * x 1) * c1

/-- squared distance in the plane -/
def dist2 (x z : Vec ℝ) : ℝ := (x 0 - z 0) ^ 2 + (x 1 - z 1) ^ 2

/-- after the first step the two errors, scaled by the derivatives of the determinant, are equal; the determinant has not
changed sign -/
structure Balanced (cs : Nat → Vec ℝ) (z x : Vec ℝ) : Prop where
  eq : quadDet0 cs * (x 0 - z 0) = quadDet1 cs * (x 1 - z 1)
  pos : 0 < quadDet cs x * quadDet cs z

/-- in addition the determinant is not smaller than at the solution -/
structure Settled (cs : Nat → Vec ℝ) (z x : Vec ℝ) : Prop extends Balanced cs z x where
  nonneg : 0 ≤ quadDet0 cs * (x 0 - z 0) * quadDet cs z

theorem Balanced.ne {z x : Vec ℝ} (h : Balanced cs z x) : quadDet cs x ≠ 0 := fun h0 => by
  have := h.pos; rw [h0, zero_mul] at this; exact lt_irrefl _ this

theorem Balanced.det {z x : Vec ℝ} (h : Balanced cs z x) :
    quadDet cs x = quadDet cs z + 2 * (quadDet0 cs * (x 0 - z 0)) := by
  rw [quadDet_sub x z, ← h.eq]; ring

/-- one step from a balanced point: the error is multiplied by `f`, the correction is `1 - f` times the error -/
theorem balanced_step {z x x' : Vec ℝ} (h : Balanced cs z x)
    (h0 : quadDet cs x * (x' 0 - z 0) = quadDet1 cs * ((x 0 - z 0) * (x 1 - z 1)))
    (h1 : quadDet cs x * (x' 1 - z 1) = quadDet0 cs * ((x 0 - z 0) * (x 1 - z 1))) :
    Settled cs z x' ∧ ∃ f : ℝ, x' 0 - z 0 = f * (x 0 - z 0) ∧ x' 1 - z 1 = f * (x 1 - z 1) ∧ f ^ 2 ≤ (1 - f) ^ 2 ∧
      (Settled cs z x → 0 ≤ f ∧ f ≤ 1 / 2) := by
  have hne := h.ne
  set s := quadDet0 cs * (x 0 - z 0) with hs
  have hd := h.det
  have hpos := h.pos
  set D := quadDet cs z with hD
  have e0 : x' 0 - z 0 = s / quadDet cs x * (x 0 - z 0) := by
    rw [div_mul_eq_mul_div, eq_div_iff hne, hs, h.eq]; linear_combination h0
  have e1 : x' 1 - z 1 = s / quadDet cs x * (x 1 - z 1) := by
    rw [div_mul_eq_mul_div, eq_div_iff hne, hs]; linear_combination h1
  have hs' : quadDet0 cs * (x' 0 - z 0) = s / quadDet cs x * s := by rw [e0, hs]; ring
  have hq : s / quadDet cs x * s * D = s ^ 2 * (quadDet cs x * D) / quadDet cs x ^ 2 := by field_simp
  have hnn : 0 ≤ s / quadDet cs x * s * D := by rw [hq]; positivity
  have hz0 : D ≠ 0 := fun h0 => by rw [h0, mul_zero] at hpos; exact lt_irrefl _ hpos
  refine ⟨⟨⟨?_, ?_⟩, ?_⟩, s / quadDet cs x, e0, e1, ?_, ?_⟩
  · rw [e0, e1]; linear_combination (s / quadDet cs x) * h.eq
  · rw [quadDet_sub x' z]
    have : quadDet1 cs * (x' 1 - z 1) = s / quadDet cs x * s := by
      rw [e1, ← hs', e0]; linear_combination -(s / quadDet cs x) * h.eq
    rw [this, hs', ← hD]
    nlinarith [mul_self_pos.2 hz0]
  · rw [hs']; exact hnn
  · have : (1 - s / quadDet cs x) ^ 2 - (s / quadDet cs x) ^ 2 = quadDet cs x * D / quadDet cs x ^ 2 := by
      field_simp
      rw [hd]; ring
    have h3 : 0 ≤ quadDet cs x * D / quadDet cs x ^ 2 := by positivity
    linarith
  · intro hset
    have hn := hset.nonneg
    have e : s / quadDet cs x = s * D * (quadDet cs x * D) / (quadDet cs x * D) ^ 2 := by field_simp
    refine ⟨by rw [e]; positivity, ?_⟩
    have : 1 / 2 - s / quadDet cs x = D ^ 2 * (quadDet cs x * D) / (2 * (quadDet cs x * D) ^ 2) := by
      field_simp
      rw [hd]; ring
    have h3 : 0 ≤ D ^ 2 * (quadDet cs x * D) / (2 * (quadDet cs x * D) ^ 2) := by positivity
    linarith

theorem two_norm2_two (dx : Vec ℝ) : two_norm2 2 dx = dx 0 ^ 2 + dx 1 ^ 2 := by
  rw [two_norm2_eq, sum_range_succ, sum_range_one]

/-- from a settled point the loop ends: each step halves the error -/
theorem settled_ends (hid : id < 2 ^ 2) (hc : IsCubeId 2 id) (z : Vec ℝ) : ∀ (n : Nat) (x : Vec ℝ), Settled cs z x →
    dist2 x z ≤ 4 ^ n * tol → ∃ x', (quad cs id tol).newton false ((quad cs id tol).global z) (n + 1) x = some (some (.point x')) ∧
      dist2 x' z ≤ tol := by
  intro n
  induction n with
  | zero =>
    intro x hx hd
    obtain ⟨dx, h1, h2, h3⟩ := quad_step (tol := tol) hid hc x z hx.ne
    obtain ⟨hs, f, e0, e1, hf, hfs⟩ := balanced_step (x' := fun i => x i - dx i) hx.toBalanced h2 h3
    obtain ⟨f0, f1⟩ := hfs hx
    have hdx0 : dx 0 = (1 - f) * (x 0 - z 0) := by linear_combination -e0
    have hdx1 : dx 1 = (1 - f) * (x 1 - z 1) := by linear_combination -e1
    refine ⟨fun i => x i - dx i, ?_, ?_⟩
    · rw [newton, h1]
      simp only [Bool.false_eq_true, if_false]
      rw [if_neg]
      rw [two_norm2_two, not_lt, hdx0, hdx1]
      rw [dist2, pow_zero, one_mul] at hd
      nlinarith [sq_nonneg (x 0 - z 0), sq_nonneg (x 1 - z 1), mul_nonneg f0 (by linarith : (0:ℝ) ≤ 2 - f),
        mul_nonneg (mul_nonneg f0 (by linarith : (0:ℝ) ≤ 2 - f)) (sq_nonneg (x 0 - z 0)),
        mul_nonneg (mul_nonneg f0 (by linarith : (0:ℝ) ≤ 2 - f)) (sq_nonneg (x 1 - z 1))]
    · rw [dist2, pow_zero, one_mul] at hd
      rw [dist2, e0, e1]
      have : f ^ 2 ≤ 1 := by nlinarith
      nlinarith [sq_nonneg (x 0 - z 0), sq_nonneg (x 1 - z 1)]
  | succ n ih =>
    intro x hx hd
    obtain ⟨dx, h1, h2, h3⟩ := quad_step (tol := tol) hid hc x z hx.ne
    obtain ⟨hs, f, e0, e1, hf, hfs⟩ := balanced_step (x' := fun i => x i - dx i) hx.toBalanced h2 h3
    obtain ⟨f0, f1⟩ := hfs hx
    have hdx0 : dx 0 = (1 - f) * (x 0 - z 0) := by linear_combination -e0
    have hdx1 : dx 1 = (1 - f) * (x 1 - z 1) := by linear_combination -e1
    by_cases hn : two_norm2 2 dx > tol
    · obtain ⟨x', h4, h5⟩ := ih _ hs (by
        rw [dist2, e0, e1]
        rw [dist2, pow_succ (4:ℝ)] at hd
        have : f ^ 2 ≤ 1 / 4 := by nlinarith
        nlinarith [sq_nonneg (x 0 - z 0), sq_nonneg (x 1 - z 1)])
      refine ⟨x', ?_, h5⟩
      rw [newton, h1]
      simp only [Bool.false_eq_true, if_false]
      rw [if_pos hn]
      exact h4
    · refine ⟨fun i => x i - dx i, ?_, ?_⟩
      · rw [newton, h1]
        simp only [Bool.false_eq_true, if_false]
        rw [if_neg hn]
      · rw [two_norm2_two, not_lt, hdx0, hdx1] at hn
        rw [dist2, e0, e1]
        nlinarith [sq_nonneg (x 0 - z 0), sq_nonneg (x 1 - z 1)]

/-- from a balanced point the loop ends -/
theorem balanced_ends (htol : 0 < tol) (hid : id < 2 ^ 2) (hc : IsCubeId 2 id) (z x : Vec ℝ) (hx : Balanced cs z x) :
    ∃ n x', (quad cs id tol).newton false ((quad cs id tol).global z) n x = some (some (.point x')) ∧ dist2 x' z ≤ tol := by
  obtain ⟨dx, h1, h2, h3⟩ := quad_step (tol := tol) hid hc x z hx.ne
  obtain ⟨hs, f, e0, e1, hf, -⟩ := balanced_step (x' := fun i => x i - dx i) hx h2 h3
  have hdx0 : dx 0 = (1 - f) * (x 0 - z 0) := by linear_combination -e0
  have hdx1 : dx 1 = (1 - f) * (x 1 - z 1) := by linear_combination -e1
  by_cases hn : two_norm2 2 dx > tol
  · obtain ⟨n, hn'⟩ := pow_unbounded_of_one_lt (dist2 (fun i => x i - dx i) z / tol) (by norm_num : (1:ℝ) < 4)
    obtain ⟨x', h4, h5⟩ := settled_ends (tol := tol) hid hc z n _ hs (by rw [div_lt_iff₀ htol] at hn'; exact hn'.le)
    refine ⟨n + 2, x', ?_, h5⟩
    rw [newton, h1]
    simp only [Bool.false_eq_true, if_false]
    rw [if_pos hn]
    exact h4
  · refine ⟨1, fun i => x i - dx i, ?_, ?_⟩
    · rw [newton, h1]
      simp only [Bool.false_eq_true, if_false]
      rw [if_neg hn]
    · rw [two_norm2_two, not_lt, hdx0, hdx1] at hn
      rw [dist2, e0, e1]
      nlinarith [sq_nonneg (x 0 - z 0), sq_nonneg (x 1 - z 1)]

theorem abs_lemma {P Q : ℝ} (h : |P| + |Q| < 1) : 0 < 1 - P - Q ∧ 0 < 1 - P - Q + 2 * (P * Q) := by
  constructor
  · linarith [le_abs_self P, le_abs_self Q]
  · rcases abs_cases P with ⟨hp, hp'⟩ | ⟨hp, hp'⟩ <;> rcases abs_cases Q with ⟨hq, hq'⟩ | ⟨hq, hq'⟩ <;>
      rw [hp, hq] at h <;> nlinarith

theorem stop_lemma {a d q : ℝ} (ha : |a| < 2) (hn : 1 / 2 < |a * d|) (hq : q < 1 / 2) : 1 / 64 < ((1 - q) * d) ^ 2 := by
  rw [abs_mul] at hn
  have c1 : 1 / 4 < |d| := by
    by_contra h
    rw [not_lt] at h
    have := mul_le_mul ha.le h (abs_nonneg _) (by norm_num)
    linarith
  have c2 : 1 / 8 < (1 - q) * |d| := by
    have := mul_lt_mul'' (by linarith : 1 / 2 < 1 - q) c1 (by norm_num) (by norm_num)
    linarith
  have c3 := pow_lt_pow_left₀ c2 (by norm_num) (two_ne_zero)
  rw [mul_pow, sq_abs, ← mul_pow] at c3
  linarith

theorem half_sq {s : ℝ} (h0 : 0 ≤ s) (h1 : s ≤ 1) : (1 / 2 - s) ^ 2 ≤ 1 / 4 := by nlinarith

theorem sq_le_compl {q : ℝ} (h : q ≤ 1 / 2) : q ^ 2 ≤ (1 - q) ^ 2 := by nlinarith

/-- the determinant does not change sign on the square -/
theorem det_ratio (m : Vec ℝ) (h0 : m 0 = 1 / 2) (h1 : m 1 = 1 / 2)
    (hreg : ∀ x : Vec ℝ, 0 ≤ x 0 → x 0 ≤ 1 → 0 ≤ x 1 → x 1 ≤ 1 → quadDet cs x ≠ 0) :
    |quadDet0 cs / quadDet cs m| + |quadDet1 cs / quadDet cs m| < 2 := by
  have hm : quadDet cs m ≠ 0 := hreg m (by rw [h0]; norm_num) (by rw [h0]; norm_num) (by rw [h1]; norm_num) (by rw [h1]; norm_num)
  set a := quadDet0 cs / quadDet cs m with ha
  set b := quadDet1 cs / quadDet cs m with hb
  have key : ∀ s t : ℝ, |s| ≤ 1 / 2 → |t| ≤ 1 / 2 → 0 < 1 + a * s + b * t := by
    intro s t hs ht
    by_contra hn
    rw [not_lt] at hn
    set E := a * s + b * t with hE
    have hE1 : E ≤ -1 := by rw [hE]; linarith
    have hl0 : 0 < -1 / E := by rw [lt_div_iff_of_neg (by linarith)]; linarith
    have hl1 : -1 / E ≤ 1 := by rw [div_le_iff_of_neg (by linarith)]; linarith
    have hls := abs_le.1 (show |-1 / E * s| ≤ 1 / 2 by
      rw [abs_mul, abs_of_pos hl0]; nlinarith [abs_nonneg s])
    have hlt := abs_le.1 (show |-1 / E * t| ≤ 1 / 2 by
      rw [abs_mul, abs_of_pos hl0]; nlinarith [abs_nonneg t])
    refine hreg (fun k => if k = 0 then 1 / 2 + -1 / E * s else 1 / 2 + -1 / E * t) ?_ ?_ ?_ ?_ ?_
    · simp only [if_true]; linarith
    · simp only [if_true]; linarith
    · simp only [one_ne_zero, if_false]; linarith
    · simp only [one_ne_zero, if_false]; linarith
    · rw [quadDet_sub _ m, h0, h1]
      have e0 : quadDet0 cs = a * quadDet cs m := by rw [ha]; field_simp
      have e1 : quadDet1 cs = b * quadDet cs m := by rw [hb]; field_simp
      have hE0 : E ≠ 0 := by linarith
      simp only [if_true, one_ne_zero, if_false, e0, e1]
      have : 1 + a * (-1 / E * s) + b * (-1 / E * t) = 0 := by
        field_simp
        rw [hE]; ring
      linear_combination quadDet cs m * this
  have k1 := key (1 / 2) (1 / 2) (by norm_num [abs_of_pos]) (by norm_num [abs_of_pos])
  have k2 := key (1 / 2) (-1 / 2) (by norm_num [abs_of_pos]) (by norm_num [abs_le])
  have k3 := key (-1 / 2) (1 / 2) (by norm_num [abs_le]) (by norm_num [abs_of_pos])
  have k4 := key (-1 / 2) (-1 / 2) (by norm_num [abs_le]) (by norm_num [abs_le])
  rcases abs_cases a with ⟨hp, hp'⟩ | ⟨hp, hp'⟩ <;> rcases abs_cases b with ⟨hq, hq'⟩ | ⟨hq, hq'⟩ <;>
    rw [hp, hq] <;> linarith

/-- the first step, from the centre -/
theorem first_step (m z : Vec ℝ) (h0 : m 0 = 1 / 2) (h1 : m 1 = 1 / 2)
    (hreg : ∀ x : Vec ℝ, 0 ≤ x 0 → x 0 ≤ 1 → 0 ≤ x 1 → x 1 ≤ 1 → quadDet cs x ≠ 0)
    (hz0 : 0 ≤ z 0 ∧ z 0 ≤ 1) (hz1 : 0 ≤ z 1 ∧ z 1 ≤ 1) (dx : Vec ℝ)
    (e0 : quadDet cs m * (m 0 - dx 0 - z 0) = quadDet1 cs * ((m 0 - z 0) * (m 1 - z 1)))
    (e1 : quadDet cs m * (m 1 - dx 1 - z 1) = quadDet0 cs * ((m 0 - z 0) * (m 1 - z 1))) :
    Balanced cs z (fun i => m i - dx i) ∧
      (dx 0 ^ 2 + dx 1 ^ 2 ≤ 1 / 64 → dist2 (fun i => m i - dx i) z ≤ dx 0 ^ 2 + dx 1 ^ 2) := by
  have hr := det_ratio m h0 h1 hreg
  have hm : quadDet cs m ≠ 0 := hreg m (by rw [h0]; norm_num) (by rw [h0]; norm_num) (by rw [h1]; norm_num) (by rw [h1]; norm_num)
  set a := quadDet0 cs / quadDet cs m with ha
  set b := quadDet1 cs / quadDet cs m with hb
  have ea : quadDet0 cs = a * quadDet cs m := by rw [ha]; field_simp
  have eb : quadDet1 cs = b * quadDet cs m := by rw [hb]; field_simp
  set d0 := m 0 - z 0 with hd0
  set d1 := m 1 - z 1 with hd1
  have b0 : |d0| ≤ 1 / 2 := by rw [abs_le, hd0, h0]; constructor <;> linarith
  have b1 : |d1| ≤ 1 / 2 := by rw [abs_le, hd1, h1]; constructor <;> linarith
  have hPQ : |a * d0| + |b * d1| < 1 := by
    rw [abs_mul, abs_mul]
    nlinarith [abs_nonneg a, abs_nonneg b]
  have x0 : m 0 - dx 0 - z 0 = b * d1 * d0 := by
    apply mul_left_cancel₀ hm
    rw [e0, eb]; ring
  have x1 : m 1 - dx 1 - z 1 = a * d0 * d1 := by
    apply mul_left_cancel₀ hm
    rw [e1, ea]; ring
  obtain ⟨p1, p2⟩ := abs_lemma hPQ
  have hz : quadDet cs z = quadDet cs m * (1 - a * d0 - b * d1) := by
    rw [quadDet_sub z m, ea, eb, hd0, hd1]; ring
  refine ⟨⟨?_, ?_⟩, ?_⟩
  · rw [x0, x1, ea, eb]; ring
  · have : quadDet cs (fun i => m i - dx i) = quadDet cs m * (1 - a * d0 - b * d1 + 2 * (a * d0 * (b * d1))) := by
      rw [quadDet_sub _ z, x0, x1, hz, ea, eb]; ring
    rw [this, hz]
    have : quadDet cs m * (1 - a * d0 - b * d1 + 2 * (a * d0 * (b * d1))) * (quadDet cs m * (1 - a * d0 - b * d1)) =
      quadDet cs m ^ 2 * ((1 - a * d0 - b * d1 + 2 * (a * d0 * (b * d1))) * (1 - a * d0 - b * d1)) := by ring
    rw [this]
    positivity
  · intro hd
    have y0 : dx 0 = (1 - b * d1) * d0 := by linear_combination -x0 + hd0
    have y1 : dx 1 = (1 - a * d0) * d1 := by linear_combination -x1 + hd1
    have hQ : |b * d1| ≤ 1 / 2 := by
      by_contra hn
      rw [not_le] at hn
      have := stop_lemma (q := a * d0) (by linarith [abs_nonneg a] : |b| < 2) hn (by linarith [le_abs_self (a * d0)])
      rw [← y1] at this
      linarith [sq_nonneg (dx 0)]
    have hP : |a * d0| ≤ 1 / 2 := by
      by_contra hn
      rw [not_le] at hn
      have := stop_lemma (q := b * d1) (by linarith [abs_nonneg b] : |a| < 2) hn (by linarith [le_abs_self (b * d1)])
      rw [← y0] at this
      linarith [sq_nonneg (dx 1)]
    have hP' := abs_le.1 hP
    have hQ' := abs_le.1 hQ
    rw [dist2, x0, x1, y0, y1]
    have s1 : (b * d1 * d0) ^ 2 ≤ ((1 - b * d1) * d0) ^ 2 := by
      rw [mul_pow (b * d1), mul_pow (1 - b * d1)]
      exact mul_le_mul_of_nonneg_right (sq_le_compl hQ'.2) (sq_nonneg _)
    have s2 : (a * d0 * d1) ^ 2 ≤ ((1 - a * d0) * d1) ^ 2 := by
      rw [mul_pow (a * d0), mul_pow (1 - a * d0)]
      exact mul_le_mul_of_nonneg_right (sq_le_compl hP'.2) (sq_nonneg _)
    linarith

theorem quad_affine (hid : id < 2 ^ 2) (hc : IsCubeId 2 id) (h : (quad cs id tol).affine = true) :
    (cs 3 0 - cs 2 0 - cs 1 0 + cs 0 0) ^ 2 + (cs 3 1 - cs 2 1 - cs 1 1 + cs 0 1) ^ 2 < tol := by
  rw [affine_iff _ hid, topoOf_cube 2 id hc] at h
  obtain ⟨_, _, h⟩ := h
  have h1 : nv (.prism .pt) = 2 := rfl
  have h2 : nv .pt = 1 := rfl
  simp only [Topo.cube, gap, Topo.dim, zero_add, range_one, sum_singleton, sum_range_succ, ajt, if_true, h1, h2] at h
  norm_num at h
  linarith

end quadrilateral

/-! ### C76 -/

/-- the error of a result, squared -/
def error2 (g : MultiLinearGeometry) (x' : Vec ℝ) (x : Fin g.mydim → ℝ) : ℝ := ∑ i : Fin g.mydim, (x' i - x i) ^ 2

/-- C76, full statement: on an element with invertible Jacobian, on which the map is one-to-one, `local` returns the
pre-image of a point of the element up to the tolerance. -/
def C76_inverse_full : Prop := ∀ g : MultiLinearGeometry, Legal g → g.tol ≤ 1 / 64 → IsCubeId g.mydim g.id →
  g.cdim = g.mydim → g.affine = false → Set.InjOn (multiLinearMap g) (refSet g.mydim g.id) →
  (∀ x ∈ refSet g.mydim g.id, (g.jacobianInverseTransposed (ext x)).isSome) →
  ∀ x ∈ refSet g.mydim g.id, ∃ fuel x', g.local_ fuel (g.global (ext x)) = some (some (.point x')) ∧ error2 g x' x ≤ g.tol

theorem quad_regular {g : MultiLinearGeometry} (hg : Legal g) (h2 : g.mydim = 2) (hc : IsCubeId g.mydim g.id)
    (hcd : g.cdim = g.mydim) (hjit : ∀ x ∈ refSet g.mydim g.id, (g.jacobianInverseTransposed (ext x)).isSome) :
    ∃ cs id tol, g = quad cs id tol ∧ id < 2 ^ 2 ∧ IsCubeId 2 id ∧ 0 < tol ∧
      ∀ x : Vec ℝ, 0 ≤ x 0 → x 0 ≤ 1 → 0 ≤ x 1 → x 1 ≤ 1 → quadDet cs x ≠ 0 := by
  obtain ⟨m, cd, id, cs, tol⟩ := g
  obtain rfl : m = 2 := h2
  obtain rfl : cd = 2 := hcd
  have hid : id < 2 ^ 2 := hg.id_lt
  refine ⟨cs, id, tol, rfl, hid, hc, hg.tol_pos, fun x a0 a1 b0 b1 => ?_⟩
  have hx : (fun i : Fin 2 => x i) ∈ refSet 2 id := by
    rw [refSet_eq (rep_topoOf 2 id), topoOf_cube 2 id hc]
    simp [Topo.cube, Dom, ext, Topo.dim, a0, a1, b0, b1]
  have := (quad_li (tol := tol) hid hc _).1 (li_of_jit (g := quad cs id tol) rfl (hjit _ hx))
  have e : quadDet cs (ext fun i : Fin 2 => x i) = quadDet cs x := by simp [quadDet, ext]
  rwa [e] at this

/-- C76: quadrilaterals in the plane, for every point of the element.  Missing: dimension three and higher, where the
code is wrong. -/
theorem C76_quadrilateral_partial (g : MultiLinearGeometry) (hg : Legal g) (htol : g.tol ≤ 1 / 64) (h2 : g.mydim = 2)
    (hc : IsCubeId g.mydim g.id) (hcd : g.cdim = g.mydim) (haff : g.affine = false)
    (hjit : ∀ x ∈ refSet g.mydim g.id, (g.jacobianInverseTransposed (ext x)).isSome)
    (x : Fin g.mydim → ℝ) (hx : x ∈ refSet g.mydim g.id) :
    ∃ fuel x', g.local_ fuel (g.global (ext x)) = some (some (.point x')) ∧ error2 g x' x ≤ g.tol := by
  obtain ⟨cs, id, tol, rfl, hid, hc, ht, hreg⟩ := quad_regular hg h2 hc hcd hjit
  have hb := refSet_bounds hx
  change Fin 2 → ℝ at x
  have z0 : ext x 0 = x 0 := by simp [ext]
  have z1 : ext x 1 = x 1 := by simp [ext]
  have he : ∀ x', error2 (quad cs id tol) x' x = dist2 x' (ext x) := by
    intro x'
    rw [dist2, z0, z1]
    exact Fin.sum_univ_two _
  simp only [he]
  set m : Vec ℝ := ext fun _ : Fin 2 => (1 / 2 : ℝ) with hm
  have m0 : m 0 = 1 / 2 := by simp [hm, ext]
  have m1 : m 1 = 1 / 2 := by simp [hm, ext]
  have hpos : position (K := ℝ) (quad cs id tol).mydim (quad cs id tol).id 0 0 = some m := square_center hid hc
  have hnm : quadDet cs m ≠ 0 := hreg m (by rw [m0]; norm_num) (by rw [m0]; norm_num) (by rw [m1]; norm_num) (by rw [m1]; norm_num)
  obtain ⟨dx, h1, h2, h3⟩ := quad_step (tol := tol) hid hc m (ext x) hnm
  obtain ⟨hbal, hfirst⟩ := first_step m (ext x) m0 m1 hreg (by rw [z0]; exact hb 0) (by rw [z1]; exact hb 1) dx h2 h3
  have hloc : ∀ n, (quad cs id tol).local_ (n + 1) ((quad cs id tol).global (ext x)) =
      if two_norm2 2 dx > tol then (quad cs id tol).newton false ((quad cs id tol).global (ext x)) n (fun i => m i - dx i)
      else some (some (.point fun i => m i - dx i)) := by
    intro n
    rw [local_, hpos]
    simp only
    rw [haff, newton, h1]
    simp only [Bool.false_eq_true, if_false]
  by_cases hn : two_norm2 2 dx > tol
  · obtain ⟨n, x', h4, h5⟩ := balanced_ends ht hid hc (ext x) _ hbal
    exact ⟨n + 1, x', by rw [hloc, if_pos hn, h4], h5⟩
  · refine ⟨1, _, by rw [hloc, if_neg hn], ?_⟩
    rw [two_norm2_two, not_lt] at hn
    exact (hfirst (hn.trans htol)).trans hn

/-- C76: quadrilaterals that report affine (up to the tolerance of `affine()`) take one step; the image of the error under
the Jacobian at the centre is within a quarter of the square root of the tolerance. -/
theorem C76_quadrilateral_affine (g : MultiLinearGeometry) (hg : Legal g) (h2 : g.mydim = 2)
    (hc : IsCubeId g.mydim g.id) (hcd : g.cdim = g.mydim) (haff : g.affine = true)
    (hjit : ∀ x ∈ refSet g.mydim g.id, (g.jacobianInverseTransposed (ext x)).isSome)
    (x : Fin g.mydim → ℝ) (hx : x ∈ refSet g.mydim g.id) (fuel : Nat) :
    ∃ m x', position g.mydim g.id 0 0 = some m ∧
      g.local_ (fuel + 1) (g.global (ext x)) = some (some (.point x')) ∧
      ∑ j : Fin g.cdim, (∑ i : Fin g.mydim, g.jacobian m j i * (x' i - x i)) ^ 2 ≤ g.tol / 16 := by
  obtain ⟨cs, id, tol, rfl, hid, hc, ht, hreg⟩ := quad_regular hg h2 hc hcd hjit
  have hb := refSet_bounds hx
  have hd := quad_affine hid hc haff
  change Fin 2 → ℝ at x
  have z0 : ext x 0 = x 0 := by simp [ext]
  have z1 : ext x 1 = x 1 := by simp [ext]
  set m : Vec ℝ := ext fun _ : Fin 2 => (1 / 2 : ℝ) with hm
  have m0 : m 0 = 1 / 2 := by simp [hm, ext]
  have m1 : m 1 = 1 / 2 := by simp [hm, ext]
  have hpos : position (K := ℝ) (quad cs id tol).mydim (quad cs id tol).id 0 0 = some m := square_center hid hc
  have hnm : quadDet cs m ≠ 0 := hreg m (by rw [m0]; norm_num) (by rw [m0]; norm_num) (by rw [m1]; norm_num) (by rw [m1]; norm_num)
  obtain ⟨dx, h1, h2⟩ := xTRightInvA_square (fun i => (quad cs id tol).global m i - (quad cs id tol).global (ext x) i)
    ((quad_li (tol := tol) hid hc m).2 hnm)
  refine ⟨m, fun i => m i - dx i, hpos, ?_, ?_⟩
  · rw [local_, hpos]
    simp only
    rw [haff, newton, h1]
    rfl
  · have c0 : dx 0 * (quad cs id tol).jacobianTransposed m 0 0 + dx 1 * (quad cs id tol).jacobianTransposed m 1 0 =
        (quad cs id tol).global m 0 - (quad cs id tol).global (ext x) 0 := by
      simpa [Matrix.vecMul, dotProduct, Fin.sum_univ_two, vec, mat] using congrFun h2 0
    have c1 : dx 0 * (quad cs id tol).jacobianTransposed m 0 1 + dx 1 * (quad cs id tol).jacobianTransposed m 1 1 =
        (quad cs id tol).global m 1 - (quad cs id tol).global (ext x) 1 := by
      simpa [Matrix.vecMul, dotProduct, Fin.sum_univ_two, vec, mat] using congrFun h2 1
    have hsum : ∀ F : Fin 2 → ℝ, ∑ j : Fin (quad cs id tol).cdim, F j = F 0 + F 1 := Fin.sum_univ_two
    have hsum' : ∀ F : Fin 2 → ℝ, ∑ j : Fin (quad cs id tol).mydim, F j = F 0 + F 1 := Fin.sum_univ_two
    rw [hsum, hsum', hsum']
    simp only [MultiLinearGeometry.jacobian, Fin.val_zero, Fin.val_one]
    rw [(quad_jt hid hc m 0).1, (quad_jt hid hc m 0).2, quad_global hid hc, quad_global hid hc, z0, z1] at c0
    rw [(quad_jt hid hc m 1).1, (quad_jt hid hc m 1).2, quad_global hid hc, quad_global hid hc, z0, z1] at c1
    rw [(quad_jt hid hc m 0).1, (quad_jt hid hc m 0).2, (quad_jt hid hc m 1).1, (quad_jt hid hc m 1).2]
    set d0 := cs 3 0 - cs 2 0 - cs 1 0 + cs 0 0
    set d1 := cs 3 1 - cs 2 1 - cs 1 1 + cs 0 1
    have k0 : (cs 1 0 - cs 0 0 + d0 * m 1) * (m 0 - dx 0 - x 0) + (cs 2 0 - cs 0 0 + d0 * m 0) * (m 1 - dx 1 - x 1) =
        d0 * ((m 0 - x 0) * (m 1 - x 1)) := by linear_combination -c0
    have k1 : (cs 1 1 - cs 0 1 + d1 * m 1) * (m 0 - dx 0 - x 0) + (cs 2 1 - cs 0 1 + d1 * m 0) * (m 1 - dx 1 - x 1) =
        d1 * ((m 0 - x 0) * (m 1 - x 1)) := by linear_combination -c1
    rw [k0, k1, m0, m1, mul_pow, mul_pow]
    have q : ((1 / 2 - x 0) * (1 / 2 - x 1)) ^ 2 ≤ 1 / 16 := by
      have hb0 : 0 ≤ x 0 ∧ x 0 ≤ 1 := hb 0
      have hb1 : 0 ≤ x 1 ∧ x 1 ≤ 1 := hb 1
      rw [mul_pow]
      have := mul_le_mul (half_sq hb0.1 hb0.2) (half_sq hb1.1 hb1.2) (sq_nonneg _) (by norm_num)
      linarith
    change _ ≤ tol / 16
    have := mul_le_mul hd.le q (sq_nonneg _) ht.le
    linarith

/-! ### Small variation of the Jacobian: convergence for cubes of any dimension, also embedded in a larger space -/

theorem MLd_congr {tol : ℝ} : ∀ (t : Topo) (c : Nat → ℝ) {z z' : Vec ℝ} (r : Nat), (∀ r, r < t.dim → z r = z' r) →
    MLd tol t c z r = MLd tol t c z' r
  | .pt, _, _, _, _, _ => rfl
  | .prism t, c, z, z', r, hz => by
    have e := hz t.dim (by simp [Topo.dim])
    have hz' : ∀ r, r < t.dim → z r = z' r := fun r hr => hz r (by simp only [Topo.dim]; omega)
    rw [MLd, MLd, e, ML_congr t (c := fun k => c (nv t + k)) (fun _ _ => rfl) hz', ML_congr t (c := c) (fun _ _ => rfl) hz',
      MLd_congr t c r hz', MLd_congr t (fun k => c (nv t + k)) r hz']
  | .pyr t, c, z, z', r, hz => by
    have e := hz t.dim (by simp [Topo.dim])
    have hz' : ∀ r, r < t.dim → scale tol (z' t.dim) * z r = scale tol (z' t.dim) * z' r := fun r hr => by
      rw [hz r (by simp only [Topo.dim]; omega)]
    rw [MLd, MLd]
    rw [e, ML_congr t (c := c) (fun _ _ => rfl) hz', MLd_congr t c r hz']
    have : ∑ j ∈ range t.dim, scale tol (z' t.dim) * z j * MLd tol t c (fun r => scale tol (z' t.dim) * z r) j =
        ∑ j ∈ range t.dim, scale tol (z' t.dim) * z' j * MLd tol t c (fun r => scale tol (z' t.dim) * z' r) j :=
      sum_congr rfl fun j hj => by rw [hz' j (mem_range.1 hj), MLd_congr t c j hz']
    rw [this]

theorem ext_vec_apply {m : Nat} (x : Vec ℝ) {r : Nat} (h : r < m) : ext (vec m x) r = x r := by
  rw [ext, dif_pos h]; rfl

theorem global_ext {g : MultiLinearGeometry} (hid : g.id < 2 ^ g.mydim) (x : Vec ℝ) : g.global x = g.global (ext (vec g.mydim x)) := by
  funext j
  rw [global_eq g hid, global_eq g hid]
  exact ML_congr _ (fun _ _ => rfl) fun r hr => (ext_vec_apply x (by rwa [topo_dim] at hr)).symm

theorem jt_ext {g : MultiLinearGeometry} (hid : g.id < 2 ^ g.mydim) (x : Vec ℝ) :
    mat g.mydim g.cdim (g.jacobianTransposed x) = mat g.mydim g.cdim (g.jacobianTransposed (ext (vec g.mydim x))) := by
  funext r j
  change g.jacobianTransposed x r j = g.jacobianTransposed (ext (vec g.mydim x)) r j
  rw [jt_eq g hid _ _ _ r.2, jt_eq g hid _ _ _ r.2]
  exact MLd_congr _ _ _ fun r hr => (ext_vec_apply x (by rwa [topo_dim] at hr)).symm

/-- Euclidean length -/
noncomputable def len {m : Nat} (v : Fin m → ℝ) : ℝ := Real.sqrt (∑ i, v i ^ 2)

theorem len_eq {m : Nat} (v : Fin m → ℝ) : len v = ‖(WithLp.toLp 2 v : EuclideanSpace ℝ (Fin m))‖ := by
  rw [EuclideanSpace.norm_eq, len]
  simp

theorem len_nonneg {m : Nat} (v : Fin m → ℝ) : 0 ≤ len v := Real.sqrt_nonneg _

theorem len_sub_le {m : Nat} (v w : Fin m → ℝ) : len (v - w) ≤ len v + len w := by
  rw [len_eq, len_eq, len_eq]
  exact norm_sub_le _ _

theorem two_norm2_len (m : Nat) (v : Vec ℝ) : two_norm2 m v = len (vec m v) ^ 2 := by
  rw [two_norm2_eq, len, Real.sq_sqrt (sum_nonneg fun i _ => sq_nonneg _)]
  exact (Fin.sum_univ_eq_sum_range (fun i => v i ^ 2) m).symm

/-- the pass of the loop at a point `x`: the error is multiplied by at most `ρ` -/
theorem contraction_step {g : MultiLinearGeometry} (hg : Legal g) (hc : IsCubeId g.mydim g.id)
    (z x : Fin g.mydim → ℝ) (ρ : ℝ) (Ji : Mat ℝ)
    (hρ : ∀ t ∈ Set.Icc (0:ℝ) 1, ∀ v, len (v - mat g.mydim g.cdim Ji *ᵥ
      (mat g.cdim g.mydim (g.jacobian (ext (z + t • (x - z)))) *ᵥ v)) ≤ ρ * len v) :
    len (x - z - (vec g.cdim (g.global (ext x)) - vec g.cdim (g.global (ext z))) ᵥ* (mat g.mydim g.cdim Ji)ᵀ) ≤ ρ * len (x - z) := by
  set P := mat g.mydim g.cdim Ji with hP
  let G : (Fin g.mydim → ℝ) → (Fin g.cdim → ℝ) := fun y => vec g.cdim (g.global (ext y))
  let L : (Fin g.mydim → ℝ) →L[ℝ] EuclideanSpace ℝ (Fin g.mydim) := (EuclideanSpace.equiv (Fin g.mydim) ℝ).symm.toContinuousLinearMap
  have hL : ∀ v, ‖L v‖ = len v := fun v => by rw [len_eq]; rfl
  let PL := (Matrix.toLin' P).toContinuousLinearMap
  have hG : ∀ t : ℝ, HasDerivAt (fun t : ℝ => G (z + t • (x - z)))
      (mat g.cdim g.mydim (g.jacobian (ext (z + t • (x - z)))) *ᵥ (x - z)) t := by
    intro t
    have h1 := C32_derivative_cube g hg hc (z + t • (x - z))
    have h2 : HasDerivAt (fun t : ℝ => z + t • (x - z)) (x - z) t := by
      simpa using ((hasDerivAt_id t).smul_const (x - z)).const_add z
    have := h1.comp_hasDerivAt t h2
    simp only [LinearMap.coe_toContinuousLinearMap', Matrix.toLin'_apply] at this
    exact this
  have hφ : ∀ t : ℝ, HasDerivAt (fun t : ℝ => L (t • (x - z) - PL (G (z + t • (x - z)))))
      (L (x - z - P *ᵥ (mat g.cdim g.mydim (g.jacobian (ext (z + t • (x - z)))) *ᵥ (x - z)))) t := by
    intro t
    have h3 := (PL.hasFDerivAt).comp_hasDerivAt t (hG t)
    have h4 : HasDerivAt (fun t : ℝ => t • (x - z)) (x - z) t := by
      simpa using (hasDerivAt_id t).smul_const (x - z)
    have h5 := (L.hasFDerivAt).comp_hasDerivAt t (h4.sub h3)
    exact h5
  have := norm_image_sub_le_of_norm_deriv_le_segment_01' (f := fun t : ℝ => L (t • (x - z) - PL (G (z + t • (x - z)))))
    (C := ρ * len (x - z)) (fun t _ => (hφ t).hasDerivWithinAt) (fun t ht => by
      rw [hL]; exact hρ t ⟨ht.1, ht.2.le⟩ (x - z))
  rw [← map_sub, hL] at this
  refine le_trans (le_of_eq ?_) this
  congr 1
  simp only [one_smul, zero_smul, add_zero, add_sub_cancel, zero_sub, PL, G]
  rw [Matrix.vecMul_transpose, Matrix.mulVec_sub]
  simp
  abel

theorem contraction_pass {g : MultiLinearGeometry} (hg : Legal g) (hc : IsCubeId g.mydim g.id) (hmn : g.mydim ≤ g.cdim)
    (z : Fin g.mydim → ℝ) (x : Vec ℝ) (ρ : ℝ)
    (h : ∃ Ji, g.jacobianInverse (ext (vec g.mydim x)) = some Ji ∧
      ∀ t ∈ Set.Icc (0:ℝ) 1, ∀ v, len (v - mat g.mydim g.cdim Ji *ᵥ
        (mat g.cdim g.mydim (g.jacobian (ext (z + t • (vec g.mydim x - z)))) *ᵥ v)) ≤ ρ * len v) :
    ∃ dx, xTRightInvA g.mydim g.cdim (g.jacobianTransposed x) (fun i => g.global x i - g.global (ext z) i) = some (true, dx) ∧
      len (vec g.mydim (fun i => x i - dx i) - z) ≤ ρ * len (vec g.mydim x - z) := by
  obtain ⟨Ji, hJi, hρ⟩ := h
  have hli : LinearIndependent ℝ (mat g.mydim g.cdim (g.jacobianTransposed (ext (vec g.mydim x)))).row := by
    by_contra hn
    rw [MultiLinearGeometry.jacobianInverse, MultiLinearGeometry.jacobianInverseTransposed,
      C26_rightInvA_singular _ _ _ hmn hn] at hJi
    simp at hJi
  obtain ⟨R, hR1, hR2⟩ := rightInvA_pinv hmn hli
  have hP : (mat g.mydim g.cdim Ji)ᵀ = pinv (mat g.mydim g.cdim (g.jacobianTransposed (ext (vec g.mydim x)))) := by
    rw [MultiLinearGeometry.jacobianInverse, MultiLinearGeometry.jacobianInverseTransposed, hR1, Option.map_some] at hJi
    obtain rfl := Option.some.inj hJi
    rw [← hR2]
    rfl
  have hli' := hli
  rw [← jt_ext hg.id_lt] at hli'
  obtain ⟨dx, e1, e2⟩ := xTRightInvA_pinv (fun i => g.global x i - g.global (ext z) i) hmn hli'
  refine ⟨dx, e1, ?_⟩
  have := contraction_step hg hc z (vec g.mydim x) ρ Ji hρ
  refine le_trans (le_of_eq ?_) this
  congr 1
  rw [hP, ← global_ext hg.id_lt, ← jt_ext hg.id_lt]
  have e3 : vec g.mydim (fun i => x i - dx i) = vec g.mydim x - vec g.mydim dx := rfl
  rw [e3, e2]
  have e4 : vec g.cdim (fun i => g.global x i - g.global (ext z) i) = vec g.cdim (g.global x) - vec g.cdim (g.global (ext z)) := rfl
  rw [e4]
  abel

/-- C76: cubes of any dimension, also embedded in a space of larger dimension.  If the Jacobian varies by a factor `ρ < 1` at
most (measured by `v - J⁻¹(x) J(y) v`) within the distance of the centre from the pre-image `z`, then `local` finds `z`; the
number of passes is explicit. -/
theorem C76_contraction (g : MultiLinearGeometry) (hg : Legal g) (hc : IsCubeId g.mydim g.id) (hmn : g.mydim ≤ g.cdim)
    (haff : g.affine = false) (p : Vec ℝ) (hp : position g.mydim g.id 0 0 = some p) (z : Fin g.mydim → ℝ)
    (ρ : ℝ) (h0 : 0 ≤ ρ) (h1 : ρ < 1)
    (hvar : ∀ x, len (x - z) ≤ len (vec g.mydim p - z) → ∃ Ji, g.jacobianInverse (ext x) = some Ji ∧
      ∀ t ∈ Set.Icc (0:ℝ) 1, ∀ v, len (v - mat g.mydim g.cdim Ji *ᵥ
        (mat g.cdim g.mydim (g.jacobian (ext (z + t • (x - z)))) *ᵥ v)) ≤ ρ * len v)
    (n : Nat) (hn : (1 + ρ) * ρ ^ n * len (vec g.mydim p - z) ≤ Real.sqrt g.tol) :
    ∃ x', g.local_ (n + 1) (g.global (ext z)) = some (some (.point x')) ∧
      (1 - ρ) * len (vec g.mydim x' - z) ≤ ρ * Real.sqrt g.tol := by
  rw [local_, hp]
  simp only
  rw [haff]
  have hts := Real.sq_sqrt hg.tol_pos.le
  have key : ∀ (n : Nat) (x : Vec ℝ), len (vec g.mydim x - z) ≤ len (vec g.mydim p - z) →
      (1 + ρ) * ρ ^ n * len (vec g.mydim x - z) ≤ Real.sqrt g.tol →
      ∃ x', g.newton false (g.global (ext z)) (n + 1) x = some (some (.point x')) ∧
        (1 - ρ) * len (vec g.mydim x' - z) ≤ ρ * Real.sqrt g.tol := by
    intro n
    induction n with
    | zero =>
      intro x hx hn
      obtain ⟨dx, e1, e2⟩ := contraction_pass hg hc hmn z x ρ (hvar _ hx)
      have e3 : vec g.mydim dx = (vec g.mydim x - z) - (vec g.mydim (fun i => x i - dx i) - z) := by
        funext i; simp [vec]
      have e4 : len (vec g.mydim dx) ≤ Real.sqrt g.tol := by
        rw [e3]
        refine (len_sub_le _ _).trans ?_
        rw [pow_zero, mul_one] at hn
        linarith
      refine ⟨fun i => x i - dx i, ?_, ?_⟩
      · rw [newton, e1]
        simp only [Bool.false_eq_true, if_false]
        rw [if_neg]
        rw [not_lt, two_norm2_len, ← hts]
        exact pow_le_pow_left₀ (len_nonneg _) e4 2
      · rw [pow_zero, mul_one] at hn
        have := len_nonneg (vec g.mydim x - z)
        have := len_nonneg (vec g.mydim (fun i => x i - dx i) - z)
        nlinarith
    | succ n ih =>
      intro x hx hn
      obtain ⟨dx, e1, e2⟩ := contraction_pass hg hc hmn z x ρ (hvar _ hx)
      have e3 : vec g.mydim dx = (vec g.mydim x - z) - (vec g.mydim (fun i => x i - dx i) - z) := by
        funext i; simp [vec]
      have hx0 := len_nonneg (vec g.mydim x - z)
      by_cases hb : two_norm2 g.mydim dx > g.tol
      · obtain ⟨x', h3, h4⟩ := ih (fun i => x i - dx i) (by nlinarith) (by
          refine le_trans ?_ hn
          rw [pow_succ, mul_assoc (1 + ρ), mul_assoc (1 + ρ), mul_assoc (ρ ^ n)]
          exact mul_le_mul_of_nonneg_left (mul_le_mul_of_nonneg_left e2 (by positivity)) (by linarith))
        refine ⟨x', ?_, h4⟩
        rw [newton, e1]
        simp only [Bool.false_eq_true, if_false]
        rw [if_pos hb, h3]
      · refine ⟨fun i => x i - dx i, ?_, ?_⟩
        · rw [newton, e1]
          simp only [Bool.false_eq_true, if_false]
          rw [if_neg hb]
        · rw [not_lt, two_norm2_len, ← hts] at hb
          have hb' := (sq_le_sq₀ (len_nonneg _) (Real.sqrt_nonneg _)).1 hb
          -- the error before the step is at most the correction divided by `1 - ρ`
          have e5 : vec g.mydim x - z = vec g.mydim dx - (z - vec g.mydim (fun i => x i - dx i)) := by
            funext i; simp only [vec, Pi.sub_apply]; ring
          have e6 : len (z - vec g.mydim (fun i => x i - dx i)) = len (vec g.mydim (fun i => x i - dx i) - z) := by
            simp only [len]
            congr 1
            exact sum_congr rfl fun i _ => by simp only [Pi.sub_apply]; ring
          have e7 := len_sub_le (vec g.mydim dx) (z - vec g.mydim (fun i => x i - dx i))
          rw [← e5, e6] at e7
          have e8 : (1 - ρ) * len (vec g.mydim x - z) ≤ Real.sqrt g.tol := by linarith
          have := mul_le_mul_of_nonneg_left e8 h0
          have := mul_le_mul_of_nonneg_left e2 (by linarith : 0 ≤ 1 - ρ)
          linarith
  exact key n p (le_refl _) hn

/-! ### The counterexample: a twisted hexahedron -/

/-- image of the cube `[-1,1]³` under `(u, v, w) ↦ (u + v w, v - u w, w - (u + w) v / 2)` -/
noncomputable def twisted (tol : ℝ) : MultiLinearGeometry where
  mydim := 3
  cdim := 3
  id := 7
  corners_ := fun k j =>
    if j = 0 then (if k.testBit 0 then 1 else -1) + (if k.testBit 1 then 1 else -1) * (if k.testBit 2 then 1 else -1)
    else if j = 1 then (if k.testBit 1 then 1 else -1) - (if k.testBit 0 then 1 else -1) * (if k.testBit 2 then 1 else -1)
    else (if k.testBit 2 then 1 else -1) -
      ((if k.testBit 0 then 1 else -1) + (if k.testBit 2 then 1 else -1)) * (if k.testBit 1 then 1 else -1) / 2
  tol := tol

section twisted

variable {tol : ℝ}

theorem twisted_topo : topoOf (twisted tol).mydim (twisted tol).id = .prism (.prism (.prism .pt)) := by
  change topoOf 3 7 = _
  decide

theorem testBits : (Nat.testBit 0 0 = false ∧ Nat.testBit 0 1 = false ∧ Nat.testBit 0 2 = false) ∧
    (Nat.testBit 1 0 = true ∧ Nat.testBit 1 1 = false ∧ Nat.testBit 1 2 = false) ∧
    (Nat.testBit 2 0 = false ∧ Nat.testBit 2 1 = true ∧ Nat.testBit 2 2 = false) ∧
    (Nat.testBit 3 0 = true ∧ Nat.testBit 3 1 = true ∧ Nat.testBit 3 2 = false) ∧
    (Nat.testBit 4 0 = false ∧ Nat.testBit 4 1 = false ∧ Nat.testBit 4 2 = true) ∧
    (Nat.testBit 5 0 = true ∧ Nat.testBit 5 1 = false ∧ Nat.testBit 5 2 = true) ∧
    (Nat.testBit 6 0 = false ∧ Nat.testBit 6 1 = true ∧ Nat.testBit 6 2 = true) ∧
    (Nat.testBit 7 0 = true ∧ Nat.testBit 7 1 = true ∧ Nat.testBit 7 2 = true) := by decide

theorem twisted_global (x : Vec ℝ) :
    (twisted tol).global x 0 = (2 * x 0 - 1) + (2 * x 1 - 1) * (2 * x 2 - 1) ∧
    (twisted tol).global x 1 = (2 * x 1 - 1) - (2 * x 0 - 1) * (2 * x 2 - 1) ∧
    (twisted tol).global x 2 = (2 * x 2 - 1) - ((2 * x 0 - 1) + (2 * x 2 - 1)) * (2 * x 1 - 1) / 2 := by
  have h0 : nv (.prism (.prism .pt)) = 4 := rfl
  have h1 : nv (.prism .pt) = 2 := rfl
  have h2 : nv .pt = 1 := rfl
  have hid : (twisted tol).id < 2 ^ (twisted tol).mydim := by change 7 < 2 ^ 3; norm_num
  refine ⟨?_, ?_, ?_⟩ <;>
  · rw [global_eq _ hid, twisted_topo]
    simp only [ML, Topo.dim, h0, h1, h2, twisted, testBits, Nat.reduceAdd]
    norm_num
    ring

theorem twisted_jt (x : Vec ℝ) :
    ((twisted tol).jacobianTransposed x 0 0 = 2 ∧ (twisted tol).jacobianTransposed x 0 1 = -2 * (2 * x 2 - 1) ∧
      (twisted tol).jacobianTransposed x 0 2 = -(2 * x 1 - 1)) ∧
    ((twisted tol).jacobianTransposed x 1 0 = 2 * (2 * x 2 - 1) ∧ (twisted tol).jacobianTransposed x 1 1 = 2 ∧
      (twisted tol).jacobianTransposed x 1 2 = -((2 * x 0 - 1) + (2 * x 2 - 1))) ∧
    ((twisted tol).jacobianTransposed x 2 0 = 2 * (2 * x 1 - 1) ∧
      (twisted tol).jacobianTransposed x 2 1 = -2 * (2 * x 0 - 1) ∧
      (twisted tol).jacobianTransposed x 2 2 = 2 - (2 * x 1 - 1)) := by
  have h0 : nv (.prism (.prism .pt)) = 4 := rfl
  have h1 : nv (.prism .pt) = 2 := rfl
  have h2 : nv .pt = 1 := rfl
  have hid : (twisted tol).id < 2 ^ (twisted tol).mydim := by change 7 < 2 ^ 3; norm_num
  refine ⟨⟨?_, ?_, ?_⟩, ⟨?_, ?_, ?_⟩, ⟨?_, ?_, ?_⟩⟩ <;>
  · rw [jt_eq _ hid _ _ _ (by change _ < 3; norm_num), twisted_topo]
    simp only [MLd, ML, Topo.dim, h0, h1, h2, twisted, testBits, Nat.reduceAdd]
    norm_num
    try ring

theorem twisted_legal (h0 : 0 < tol) (h1 : tol ≤ 1 / 64) : Legal (twisted tol) := by
  constructor
  · change 7 < 2 ^ 3; norm_num
  · exact h0
  · change tol < _; linarith

theorem twisted_cube : IsCubeId (twisted tol).mydim (twisted tol).id := frustum_cube

/-- an eighth of the determinant of the Jacobian, in the coordinates of `[-1,1]³` -/
noncomputable def twistedDet (u v w : ℝ) : ℝ := 1 - v / 2 - u ^ 2 / 2 - u * w / 2 + w ^ 2 + u * v * w + v ^ 2 / 2

theorem twistedDet_pos {u : ℝ} (h0 : -1 ≤ u) (h1 : u ≤ 1) (v w : ℝ) : 0 < twistedDet u v w := by
  have e1 : 0 < twistedDet 1 v w := by
    rw [twistedDet]; nlinarith [sq_nonneg (4 * w + (2 * v - 1)), sq_nonneg (2 * v - 1)]
  have e2 : 0 < twistedDet (-1) v w := by
    rw [twistedDet]; nlinarith [sq_nonneg (4 * w - (2 * v - 1)), sq_nonneg (2 * v - 1)]
  have e : twistedDet u v w = (1 + u) / 2 * twistedDet 1 v w + (1 - u) / 2 * twistedDet (-1) v w + (1 - u ^ 2) / 2 := by
    simp only [twistedDet]; ring
  rw [e]
  have hu : 0 ≤ (1 - u ^ 2) / 2 := by nlinarith
  rcases le_total 0 u with h | h
  · have := mul_pos (by linarith : 0 < (1 + u) / 2) e1
    have := mul_nonneg (by linarith : 0 ≤ (1 - u) / 2) e2.le
    linarith
  · have := mul_nonneg (by linarith : 0 ≤ (1 + u) / 2) e1.le
    have := mul_pos (by linarith : 0 < (1 - u) / 2) e2
    linarith

theorem twisted_det (x : Vec ℝ) : (mat 3 3 ((twisted tol).jacobianTransposed x)).det =
    8 * twistedDet (2 * x 0 - 1) (2 * x 1 - 1) (2 * x 2 - 1) := by
  rw [det_fin_three]
  obtain ⟨⟨a0, a1, a2⟩, ⟨b0, b1, b2⟩, ⟨c0, c1, c2⟩⟩ := twisted_jt (tol := tol) x
  have e : ∀ i j : Fin 3, mat 3 3 ((twisted tol).jacobianTransposed x) i j = (twisted tol).jacobianTransposed x i j := fun _ _ => rfl
  simp only [e, Fin.val_zero, Fin.val_one, Fin.val_two, a0, a1, a2, b0, b1, b2, c0, c1, c2, twistedDet]
  ring

theorem twisted_li (x : Vec ℝ) (h : twistedDet (2 * x 0 - 1) (2 * x 1 - 1) (2 * x 2 - 1) ≠ 0) :
    LinearIndependent ℝ (mat 3 3 ((twisted tol).jacobianTransposed x)).row := by
  refine linearIndependent_rows_of_isUnit ((isUnit_iff_isUnit_det _).2 (isUnit_iff_ne_zero.2 ?_))
  rw [twisted_det]
  exact mul_ne_zero (by norm_num) h

theorem twisted_not_affine (h : tol ≤ 1 / 64) : (twisted tol).affine = false := by
  rw [← Bool.not_eq_true, affine_iff _ (by change 7 < 2 ^ 3; norm_num), twisted_topo]
  rintro ⟨⟨_, _, h3⟩, _⟩
  have h1 : nv (.prism .pt) = 2 := rfl
  have h2 : nv .pt = 1 := rfl
  simp only [gap, Topo.dim, zero_add, range_one, sum_singleton, sum_range_succ, ajt, if_true, h1, h2, twisted,
    Nat.reduceAdd, testBits] at h3
  norm_num at h3
  linarith

theorem twisted_inj : Set.InjOn (multiLinearMap (twisted tol)) (refSet (twisted tol).mydim (twisted tol).id) := by
  intro x hx y hy h
  change Fin 3 → ℝ at x y
  have bx : 0 ≤ x 0 ∧ x 0 ≤ 1 := refSet_bounds (d := 3) hx 0
  have by' : 0 ≤ y 0 ∧ y 0 ≤ 1 := refSet_bounds (d := 3) hy 0
  have e : ∀ j : Fin 3, (twisted tol).global (ext x) j = (twisted tol).global (ext y) j := fun j => congrFun h j
  have zx : ext x 0 = x 0 ∧ ext x 1 = x 1 ∧ ext x 2 = x 2 := by simp [ext]
  have zy : ext y 0 = y 0 ∧ ext y 1 = y 1 ∧ ext y 2 = y 2 := by simp [ext]
  have e0 := e 0
  have e1 := e 1
  have e2 := e 2
  simp only [Fin.val_zero, Fin.val_one, Fin.val_two, (twisted_global (tol := tol) (ext x)).1, (twisted_global (tol := tol) (ext y)).1,
    (twisted_global (tol := tol) (ext x)).2.1, (twisted_global (tol := tol) (ext y)).2.1,
    (twisted_global (tol := tol) (ext x)).2.2, (twisted_global (tol := tol) (ext y)).2.2, zx, zy] at e0 e1 e2
  have hd : twistedDet (x 0 + y 0 - 1) (x 1 + y 1 - 1) (x 2 + y 2 - 1) ≠ 0 :=
    (twistedDet_pos (by linarith) (by linarith) _ _).ne'
  set u := x 0 + y 0 - 1 with hu
  set v := x 1 + y 1 - 1 with hv
  set w := x 2 + y 2 - 1 with hw
  -- the mean value of the Jacobian is the Jacobian at the midpoint, as the map is quadratic
  have f0 : (x 0 - y 0) + w * (x 1 - y 1) + v * (x 2 - y 2) = 0 := by rw [hw, hv]; linear_combination e0 / 2
  have f1 : -w * (x 0 - y 0) + (x 1 - y 1) - u * (x 2 - y 2) = 0 := by rw [hw, hu]; linear_combination e1 / 2
  have f2 : -v / 2 * (x 0 - y 0) - (u + w) / 2 * (x 1 - y 1) + (1 - v / 2) * (x 2 - y 2) = 0 := by
    rw [hv, hu, hw]; linear_combination e2 / 2
  have g0 : twistedDet u v w * (x 0 - y 0) = 0 := by
    rw [twistedDet]
    linear_combination ((1 - v / 2) - u * (u + w) / 2) * f0 - (w * (1 - v / 2) + v * (u + w) / 2) * f1 + (-u * w - v) * f2
  have g1 : twistedDet u v w * (x 1 - y 1) = 0 := by
    rw [twistedDet]
    linear_combination (w * (1 - v / 2) + u * v / 2) * f0 + ((1 - v / 2) + v ^ 2 / 2) * f1 + (u - v * w) * f2
  have g2 : twistedDet u v w * (x 2 - y 2) = 0 := by
    rw [twistedDet]
    linear_combination (w * (u + w) / 2 + v / 2) * f0 + ((u + w) / 2 - v * w / 2) * f1 + (1 + w ^ 2) * f2
  funext i
  change Fin 3 at i
  fin_cases i
  · exact sub_eq_zero.1 ((mul_eq_zero.1 g0).resolve_left hd)
  · exact sub_eq_zero.1 ((mul_eq_zero.1 g1).resolve_left hd)
  · exact sub_eq_zero.1 ((mul_eq_zero.1 g2).resolve_left hd)

theorem cube3_position : ∃ p, position (K := ℝ) 3 7 0 0 = some p ∧ p 0 = 1 / 2 ∧ p 1 = 1 / 2 ∧ p 2 = 1 / 2 := by
  obtain ⟨q, hq, hm⟩ := C21_mean (K := ℝ) 3 7 0 0 (by norm_num) (by norm_num) (by decide)
  have h3 : refSize3 3 7 0 0 3 = 8 := by decide
  have h4 : subEntities 3 7 0 0 3 = [0, 1, 2, 3, 4, 5, 6, 7] := by decide
  have hc := C17_cube (K := ℝ) 3 7 frustum_cube
  have m0 := hm 0
  have m1 := hm 1
  have m2 := hm 2
  rw [h3, h4] at m0 m1 m2
  simp [RefGeom.corner, hc, List.range_succ, testBits] at m0 m1 m2
  exact ⟨q, hq, by linarith, by linarith, by linarith⟩

theorem twisted_seven : (twisted tol).global (ext fun _ : Fin 3 => (1:ℝ)) 0 = 2 ∧
    (twisted tol).global (ext fun _ : Fin 3 => (1:ℝ)) 1 = 0 ∧ (twisted tol).global (ext fun _ : Fin 3 => (1:ℝ)) 2 = 0 := by
  have o : ext (fun _ : Fin 3 => (1:ℝ)) 0 = 1 ∧ ext (fun _ : Fin 3 => (1:ℝ)) 1 = 1 ∧ ext (fun _ : Fin 3 => (1:ℝ)) 2 = 1 := by
    simp [ext]
  refine ⟨?_, ?_, ?_⟩
  · rw [(twisted_global _).1]; simp only [o]; norm_num
  · rw [(twisted_global _).2.1]; simp only [o]; norm_num
  · rw [(twisted_global _).2.2]; simp only [o]; norm_num

/-- for the corner 7, at `(1, 1, 1)`, Newton's method returns `(3/2, 1/2, 1/2)` -/
theorem twisted_local (h0 : 0 < tol) (h1 : tol ≤ 1 / 64) (fuel : Nat) (y : Vec ℝ) (y0 : y 0 = 2) (y1 : y 1 = 0) (y2 : y 2 = 0) :
    ∃ x', (twisted tol).local_ (fuel + 2) y = some (some (.point x')) ∧ x' 0 = 3 / 2 ∧ x' 1 = 1 / 2 ∧ x' 2 = 1 / 2 := by
  obtain ⟨p, hp, p0, p1, p2⟩ := cube3_position
  have step : ∀ x : Vec ℝ, twistedDet (2 * x 0 - 1) (2 * x 1 - 1) (2 * x 2 - 1) ≠ 0 →
      ∃ dx, xTRightInvA 3 3 ((twisted tol).jacobianTransposed x) (fun i => (twisted tol).global x i - y i) = some (true, dx) ∧
      (∀ j : Fin 3, dx 0 * (twisted tol).jacobianTransposed x 0 j + dx 1 * (twisted tol).jacobianTransposed x 1 j +
        dx 2 * (twisted tol).jacobianTransposed x 2 j = (twisted tol).global x j - y j) := by
    intro x hx
    obtain ⟨dx, e1, e2⟩ := xTRightInvA_square (fun i => (twisted tol).global x i - y i) (twisted_li (tol := tol) x hx)
    refine ⟨dx, e1, fun j => ?_⟩
    have := congrFun e2 j
    simpa [Matrix.vecMul, dotProduct, Fin.sum_univ_three, vec, mat] using this
  obtain ⟨d, e1, e2⟩ := step p (by rw [p0, p1, p2, twistedDet]; norm_num)
  have a0 := e2 0
  have a1 := e2 1
  have a2 := e2 2
  obtain ⟨⟨j00, j01, j02⟩, ⟨j10, j11, j12⟩, ⟨j20, j21, j22⟩⟩ := twisted_jt (tol := tol) p
  obtain ⟨g0, g1, g2⟩ := twisted_global (tol := tol) p
  simp only [Fin.val_zero, Fin.val_one, Fin.val_two, j00, j01, j02, j10, j11, j12, j20, j21, j22, g0, g1, g2, p0, p1, p2,
    y0, y1, y2] at a0 a1 a2
  have d0 : d 0 = -1 := by linarith
  have d1 : d 1 = 0 := by linarith
  have d2 : d 2 = 0 := by linarith
  set q : Vec ℝ := fun i => p i - d i with hq
  have q0 : q 0 = 3 / 2 := by rw [hq]; simp only; rw [p0, d0]; norm_num
  have q1 : q 1 = 1 / 2 := by rw [hq]; simp only; rw [p1, d1]; norm_num
  have q2 : q 2 = 1 / 2 := by rw [hq]; simp only; rw [p2, d2]; norm_num
  obtain ⟨d', e3, e4⟩ := step q (by rw [q0, q1, q2, twistedDet]; norm_num)
  have b0 := e4 0
  have b1 := e4 1
  have b2 := e4 2
  obtain ⟨⟨k00, k01, k02⟩, ⟨k10, k11, k12⟩, ⟨k20, k21, k22⟩⟩ := twisted_jt (tol := tol) q
  obtain ⟨f0, f1, f2⟩ := twisted_global (tol := tol) q
  simp only [Fin.val_zero, Fin.val_one, Fin.val_two, k00, k01, k02, k10, k11, k12, k20, k21, k22, f0, f1, f2, q0, q1, q2,
    y0, y1, y2] at b0 b1 b2
  have d0' : d' 0 = 0 := by linarith
  have d1' : d' 1 = 0 := by linarith
  have d2' : d' 2 = 0 := by linarith
  refine ⟨fun i => q i - d' i, ?_, by simp only; rw [q0, d0', sub_zero], by simp only; rw [q1, d1', sub_zero],
    by simp only; rw [q2, d2', sub_zero]⟩
  have hpos : position (K := ℝ) (twisted tol).mydim (twisted tol).id 0 0 = some p := hp
  rw [local_, hpos]
  simp only
  rw [twisted_not_affine h1]
  have e1' : xTRightInvA (twisted tol).mydim (twisted tol).cdim ((twisted tol).jacobianTransposed p)
    (fun i => (twisted tol).global p i - y i) = some (true, d) := e1
  have e3' : xTRightInvA (twisted tol).mydim (twisted tol).cdim ((twisted tol).jacobianTransposed q)
    (fun i => (twisted tol).global q i - y i) = some (true, d') := e3
  have hn : ∀ v : Vec ℝ, two_norm2 (twisted tol).mydim v = v 0 ^ 2 + v 1 ^ 2 + v 2 ^ 2 := by
    intro v
    rw [two_norm2_eq]
    change ∑ j ∈ range 3, v j ^ 2 = _
    rw [sum_range_succ, sum_range_succ, sum_range_one]
  rw [newton, e1']
  simp only [Bool.false_eq_true, if_false]
  rw [if_pos (by rw [hn, d0, d1, d2]; change tol < _; linarith), newton, e3']
  simp only [Bool.false_eq_true, if_false]
  rw [if_neg (by rw [hn, d0', d1', d2']; change ¬ (tol < _); linarith)]

/-- C76: the full statement fails in dimension three, whatever the tolerance: for the twisted hexahedron, on which the map is
one-to-one with positive determinant, `local(corner(7))` is `(3/2, 1/2, 1/2)` instead of `(1, 1, 1)`. -/
theorem C76_inverse_counterexample : ¬ C76_inverse_full ∧ ∀ tol : ℝ, 0 < tol → tol ≤ 1 / 64 →
    Legal (twisted tol) ∧ Set.InjOn (multiLinearMap (twisted tol)) (refSet (twisted tol).mydim (twisted tol).id) ∧
    (∀ x : Fin 3 → ℝ, x ∈ refSet 3 7 →
      0 < (mat 3 3 ((twisted tol).jacobianTransposed (ext x))).det ∧ ((twisted tol).jacobianInverseTransposed (ext x)).isSome) ∧
    ∃ y, (twisted tol).corner 7 = some y ∧ ∀ fuel, ∃ x', (twisted tol).local_ (fuel + 2) y = some (some (.point x')) ∧
      x' 0 = 3 / 2 ∧ x' 1 = 1 / 2 ∧ x' 2 = 1 / 2 := by
  have hdet : ∀ tol : ℝ, ∀ x : Fin 3 → ℝ, x ∈ refSet 3 7 →
      0 < (mat 3 3 ((twisted tol).jacobianTransposed (ext x))).det ∧ ((twisted tol).jacobianInverseTransposed (ext x)).isSome := by
    intro tol x hx
    have bx : 0 ≤ x 0 ∧ x 0 ≤ 1 := refSet_bounds hx 0
    have z : ext x 0 = x 0 := by simp [ext]
    have hp : 0 < twistedDet (2 * ext x 0 - 1) (2 * ext x 1 - 1) (2 * ext x 2 - 1) :=
      twistedDet_pos (by rw [z]; linarith) (by rw [z]; linarith) _ _
    refine ⟨by rw [twisted_det]; positivity, ?_⟩
    obtain ⟨R, h, _⟩ := C26_rightInvA 3 3 _ (le_refl _) (twisted_li (tol := tol) (ext x) hp.ne')
    have : (twisted tol).jacobianInverseTransposed (ext x) = _ := h
    rw [this]; rfl
  have hone : (fun _ : Fin 3 => (1:ℝ)) ∈ refSet 3 7 := by
    rw [refSet_eq (rep_topoOf 3 7), topoOf_cube 3 7 frustum_cube]
    simp [Topo.cube, Dom, ext, Topo.dim]
  refine ⟨fun hfull => ?_, fun tol h0 h1 => ⟨twisted_legal h0 h1, twisted_inj, hdet tol, (twisted tol).corners_ 7, if_pos (by change 7 < refSize 3 7 3; decide), fun fuel => ?_⟩⟩
  · have ht : (0:ℝ) < 1 / 64 := by norm_num
    obtain ⟨fuel, x', h1, h2⟩ := hfull (twisted (1 / 64)) (twisted_legal ht (le_refl _)) (le_refl _) twisted_cube rfl
      (twisted_not_affine (le_refl _)) twisted_inj (fun x hx => (hdet _ x hx).2) (fun _ => 1) hone
    obtain ⟨x'', h3, a0, a1, a2⟩ := twisted_local ht (le_refl _) fuel _ twisted_seven.1 twisted_seven.2.1 twisted_seven.2.2
    have h4 := (C35_fuel _ _ fuel 2 _ h1).symm.trans h3
    simp only [Option.some.injEq, LocalResult.point.injEq] at h4
    have h5 : error2 (twisted (1 / 64)) x' (fun _ => 1) = (x' 0 - 1) ^ 2 + (x' 1 - 1) ^ 2 + (x' 2 - 1) ^ 2 :=
      Fin.sum_univ_three _
    rw [h5, h4, a0, a1, a2] at h2
    change _ ≤ (1:ℝ) / 64 at h2
    norm_num at h2
  · refine twisted_local h0 h1 fuel _ ?_ ?_ ?_ <;> simp only [twisted, testBits] <;> norm_num

end twisted

/-! ### Examples -/

-- the kite of NewtonProps.lean
example : Legal kite ∧ kite.tol ≤ 1 / 64 ∧ kite.mydim = 2 ∧ IsCubeId kite.mydim kite.id ∧ kite.cdim = kite.mydim ∧
    kite.affine = false ∧ ∀ x ∈ refSet kite.mydim kite.id, (kite.jacobianInverseTransposed (ext x)).isSome := by
  refine ⟨kite_legal, by norm_num [kite], rfl, ?_, rfl, kite_not_affine, fun x hx => ?_⟩
  · intro k h1 h2
    change k < 2 at h2
    interval_cases k
    rfl
  · change Fin 2 → ℝ at x
    have b0 := refSet_bounds (d := 2) hx 0
    have b1 := refSet_bounds (d := 2) hx 1
    have z0 : ext x 0 = x 0 := by simp [ext]
    have z1 : ext x 1 = x 1 := by simp [ext]
    obtain ⟨R, h, _⟩ := C26_rightInvA 2 2 _ (le_refl _) (kite_li (ext x) (by rw [z0, z1]; linarith))
    exact Option.isSome_iff_exists.2 ⟨_, h⟩

/-- corners of the trapezium (0,0), (1,0), (0,1), (1,3/2); the map is `(x, y) ↦ (x, y + x y / 2)` -/
noncomputable def trapezium : Nat → Vec ℝ := fun k j => if j = 0 then (if k = 1 ∨ k = 3 then 1 else 0) else if k = 2 then 1 else if k = 3 then 3 / 2 else 0

theorem isCubeId23 : IsCubeId 2 3 := by
  intro k h1 h2
  interval_cases k
  rfl

-- a parallelogram slightly out of shape: corners (0,0), (1,0), (2,1), (3 + 1/100,1)
example : ∃ cs, Legal (quad cs 3 (1 / 1000)) ∧ (quad cs 3 (1 / 1000)).affine = true ∧ cs 3 0 - cs 2 0 - cs 1 0 + cs 0 0 ≠ 0 ∧
    ∀ x ∈ refSet 2 3, ((quad cs 3 (1 / 1000)).jacobianInverseTransposed (ext x)).isSome := by
  refine ⟨fun k j => if j = 0 then (if k = 3 then 3 + 1 / 100 else k) else if k = 2 ∨ k = 3 then 1 else 0,
    by constructor <;> norm_num, ?_, by norm_num, fun x hx => ?_⟩
  · rw [affine_iff _ (by norm_num), topoOf_cube 2 3 isCubeId23]
    have h1 : nv (.prism .pt) = 2 := rfl
    have h2 : nv .pt = 1 := rfl
    simp only [Topo.cube, IsAff, gap, Topo.dim, zero_add, range_one, sum_singleton, sum_range_succ, ajt, if_true, h1, h2]
    norm_num
  · obtain ⟨R, h, _⟩ := C26_rightInvA 2 2 _ (le_refl _) ((quad_li (cs := fun k j => if j = 0 then (if k = 3 then 3 + 1 / 100 else k) else if k = 2 ∨ k = 3 then 1 else 0)
      (tol := 1 / 1000) (by norm_num) isCubeId23 (ext x)).2 (by
      have b0 := refSet_bounds (d := 2) hx 0
      have b1 := refSet_bounds (d := 2) hx 1
      have z0 : ext x 0 = x 0 := by simp [ext]
      have z1 : ext x 1 = x 1 := by simp [ext]
      simp only [quadDet, z0, z1]
      norm_num
      linarith))
    exact Option.isSome_iff_exists.2 ⟨_, h⟩

-- the trapezium, searched from the midpoint of its left edge: ρ = 1/3, four passes
example : ∃ x', (quad trapezium 3 (1 / 1000)).local_ 4 ((quad trapezium 3 (1 / 1000)).global (ext ![(0:ℝ), 1 / 2])) = some (some (.point x')) ∧
    (1 - 1 / 3) * len (vec 2 x' - ![(0:ℝ), 1 / 2]) ≤ 1 / 3 * Real.sqrt (1 / 1000) := by
  have hleg : Legal (quad trapezium 3 (1 / 1000)) := by constructor <;> norm_num
  obtain ⟨p, hp, p0, p1⟩ := kite_center
  have hlen : len (vec 2 p - ![(0:ℝ), 1 / 2]) = 1 / 2 := by
    rw [len, Fin.sum_univ_two, Real.sqrt_eq_iff_mul_self_eq_of_pos (by norm_num)]
    have e0 : (vec 2 p - ![(0:ℝ), 1 / 2]) 0 = p 0 - 0 := rfl
    have e1 : (vec 2 p - ![(0:ℝ), 1 / 2]) 1 = p 1 - 1 / 2 := rfl
    rw [e0, e1, p0, p1]; norm_num
  refine C76_contraction (quad trapezium 3 (1 / 1000)) hleg isCubeId23 (le_refl _) ?_ p hp ![(0:ℝ), 1 / 2] (1 / 3) (by norm_num) (by norm_num) ?_ 3 ?_
  · rw [← Bool.not_eq_true]
    intro h
    have := quad_affine (by norm_num) isCubeId23 h
    norm_num [trapezium] at this
  · intro x hx
    change Fin 2 → ℝ at x
    change len (x - ![(0:ℝ), 1 / 2]) ≤ len (vec 2 p - ![(0:ℝ), 1 / 2]) at hx
    have z0 : ext x 0 = x 0 := by simp [ext]
    have z1 : ext x 1 = x 1 := by simp [ext]
    have hd : quadDet trapezium (ext x) = 1 + x 0 / 2 := by
      simp only [quadDet, z0, z1]; norm_num [trapezium]; ring
    have hx2 : x 0 ^ 2 + (x 1 - 1 / 2) ^ 2 ≤ 1 / 4 := by
      rw [hlen, len, Fin.sum_univ_two] at hx
      have := (Real.sqrt_le_left (by norm_num)).1 hx
      have e0 : (x - ![(0:ℝ), 1 / 2]) 0 = x 0 - 0 := rfl
      have e1 : (x - ![(0:ℝ), 1 / 2]) 1 = x 1 - 1 / 2 := rfl
      rw [e0, e1] at this
      linarith
    have hx0 : -(1 / 2) ≤ x 0 := by nlinarith [sq_nonneg (x 1 - 1 / 2)]
    have hne : quadDet trapezium (ext x) ≠ 0 := by rw [hd]; linarith
    have hli := (quad_li (tol := 1 / 1000) (by norm_num) isCubeId23 (ext x)).2 hne
    obtain ⟨R, h, hR⟩ := C26_rightInvA 2 2 _ (le_refl _) hli
    refine ⟨(fun i j => R j i), ?_, fun t ht v => ?_⟩
    · have h' : (quad trapezium 3 (1 / 1000)).jacobianInverseTransposed (ext x) = _ := h
      rw [MultiLinearGeometry.jacobianInverse, h']; rfl
    change Fin 2 → ℝ at v
    set y : Fin 2 → ℝ := ![(0:ℝ), 1 / 2] + t • (x - ![(0:ℝ), 1 / 2]) with hy
    have y0 : ext y 0 = y 0 := by simp [ext]
    have y1 : ext y 1 = y 1 := by simp [ext]
    have ey0 : y 0 = t * x 0 := by change (0:ℝ) + t * (x 0 - 0) = _; ring
    have ey1 : y 1 = 1 / 2 + t * (x 1 - 1 / 2) := rfl
    set w : Fin 2 → ℝ := mat 2 2 (fun i j => R j i) *ᵥ (mat 2 2 ((quad trapezium 3 (1 / 1000)).jacobian (ext y)) *ᵥ v) with hw
    change len (v - w) ≤ 1 / 3 * len v
    have hxw : (mat 2 2 ((quad trapezium 3 (1 / 1000)).jacobianTransposed (ext x)))ᵀ *ᵥ w =
        (mat 2 2 ((quad trapezium 3 (1 / 1000)).jacobianTransposed (ext y)))ᵀ *ᵥ v := by
      have e1 : mat 2 2 (fun i j => R j i) = (mat 2 2 R)ᵀ := rfl
      have e2 : mat 2 2 ((quad trapezium 3 (1 / 1000)).jacobian (ext y)) = (mat 2 2 ((quad trapezium 3 (1 / 1000)).jacobianTransposed (ext y)))ᵀ := rfl
      rw [hw, Matrix.mulVec_mulVec, e1, ← Matrix.transpose_mul, mul_eq_one_comm.1 hR.1, Matrix.transpose_one, Matrix.one_mulVec, e2]
    have c0 : w 0 = v 0 := by
      have := congrFun hxw 0
      simp only [Matrix.mulVec, dotProduct, Fin.sum_univ_two, Matrix.transpose_apply] at this
      have j1 := quad_jt (cs := trapezium) (tol := 1 / 1000) (by norm_num) isCubeId23 (ext x) 0
      have j2 := quad_jt (cs := trapezium) (tol := 1 / 1000) (by norm_num) isCubeId23 (ext y) 0
      change (quad trapezium 3 (1 / 1000)).jacobianTransposed (ext x) 0 0 * w 0 + (quad trapezium 3 (1 / 1000)).jacobianTransposed (ext x) 1 0 * w 1 =
        (quad trapezium 3 (1 / 1000)).jacobianTransposed (ext y) 0 0 * v 0 + (quad trapezium 3 (1 / 1000)).jacobianTransposed (ext y) 1 0 * v 1 at this
      rw [j1.1, j1.2, j2.1, j2.2] at this
      norm_num [trapezium] at this
      exact this
    have c1 : x 1 / 2 * w 0 + (1 + x 0 / 2) * w 1 = y 1 / 2 * v 0 + (1 + y 0 / 2) * v 1 := by
      have := congrFun hxw 1
      simp only [Matrix.mulVec, dotProduct, Fin.sum_univ_two, Matrix.transpose_apply] at this
      have j1 := quad_jt (cs := trapezium) (tol := 1 / 1000) (by norm_num) isCubeId23 (ext x) 1
      have j2 := quad_jt (cs := trapezium) (tol := 1 / 1000) (by norm_num) isCubeId23 (ext y) 1
      change (quad trapezium 3 (1 / 1000)).jacobianTransposed (ext x) 0 1 * w 0 + (quad trapezium 3 (1 / 1000)).jacobianTransposed (ext x) 1 1 * w 1 =
        (quad trapezium 3 (1 / 1000)).jacobianTransposed (ext y) 0 1 * v 0 + (quad trapezium 3 (1 / 1000)).jacobianTransposed (ext y) 1 1 * v 1 at this
      rw [j1.1, j1.2, j2.1, j2.2, z0, z1, y0, y1] at this
      norm_num [trapezium] at this
      linarith
    rw [len, len, Real.sqrt_le_left (by positivity), mul_pow, Real.sq_sqrt (by positivity), Fin.sum_univ_two, Fin.sum_univ_two]
    simp only [Pi.sub_apply]
    rw [c0, _root_.sub_self]
    have c2 : (1 + x 0 / 2) * (v 1 - w 1) = ((1 - t) * ((x 1 - 1 / 2) * v 0 + x 0 * v 1)) / 2 := by
      rw [c0, ey0, ey1] at c1
      linear_combination -c1
    have c3 : ((x 1 - 1 / 2) * v 0 + x 0 * v 1) ^ 2 ≤ 1 / 4 * (v 0 ^ 2 + v 1 ^ 2) := by
      nlinarith [sq_nonneg ((x 1 - 1 / 2) * v 1 - x 0 * v 0), sq_nonneg (v 0), sq_nonneg (v 1)]
    have c4 : ((1 - t) * ((x 1 - 1 / 2) * v 0 + x 0 * v 1)) ^ 2 ≤ ((x 1 - 1 / 2) * v 0 + x 0 * v 1) ^ 2 := by
      rw [mul_pow]
      exact mul_le_of_le_one_left (sq_nonneg _) (by nlinarith [ht.1, ht.2])
    have c5 : (9 / 16) * (v 1 - w 1) ^ 2 ≤ ((1 + x 0 / 2) * (v 1 - w 1)) ^ 2 := by
      rw [mul_pow]
      exact mul_le_mul_of_nonneg_right (by nlinarith) (sq_nonneg _)
    rw [c2, div_pow] at c5
    linarith
  · change (1 + 1 / 3) * (1 / 3) ^ 3 * len (vec 2 p - ![(0:ℝ), 1 / 2]) ≤ _
    rw [hlen]
    exact Real.le_sqrt_of_sq_le (by norm_num)

end Verif.Quad
