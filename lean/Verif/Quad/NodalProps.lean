import Verif.Quad.Nodal
import Verif.Quad.MassProps
import Verif.Quad.MappedRuleProps

/-!
Property C116: nodal bases on cubes.  The points of the rules of cubes are unisolvent for the polynomials of degree at most `k` in every
variable, where `k + 1` is the number of points of the rule of the interval.  The Lagrange polynomials of the points therefore form a basis,
and with it the mass matrix computed by the same rule is diagonal (spectral elements, mass lumping).

Specification: `pointsPerLine` are the usual numbers of points of the Gauss, Gauss-Lobatto and Gauss-Radau rules of order `p`; the
Lagrange polynomials are characterised by their values and degrees only.
-/

namespace Verif.Quad

open Verif.Typ Verif.RefTopo Verif.RefGeom Verif.Affine Verif.MatHelp
open Finset hiding ext
open MvPolynomial
open Matrix hiding vec
open MeasureTheory

theorem quadOf_fin {d : Nat} (f : (Fin d → ℝ) → ℝ) (l : List (QPoint ℝ)) :
    quadOf f l = ∑ a : Fin l.length, (l.get a).weight * f ((l.get a).at d) := by
  have : l.map (fun q => q.weight * f (q.at d)) = List.ofFn fun a : Fin l.length => (l.get a).weight * f ((l.get a).at d) := by
    refine List.ext_getElem (by simp) fun n h1 h2 => by simp
  rw [← List.sum_ofFn, ← this]
  rfl

/-- C116: there are `(k+1)^d` points, of positive weights and in the cube, and every choice of values at the points is attained by
exactly one polynomial of degree at most `k` in every variable -/
theorem C116_unisolvent (env : Env ℝ) (d id p m k : Nat) (qt : QType) (hd : d ≤ 30) (hid : id < 2 ^ d) (hc : IsCubeId d id) (hq : IsPlain qt)
    (hm : maxOrder d ⟨d, false, id⟩ qt = .ok m) (hp : p ≤ m) (hk : pointsPerLine qt p = k + 1) :
    ∃ r, rule env d ⟨d, false, id⟩ p qt = .ok r ∧ r.pts.length = (k + 1) ^ d ∧ (∀ q ∈ r.pts, 0 < q.weight ∧ q.at d ∈ Set.Icc 0 1) ∧
      ∀ f : Fin r.pts.length → ℝ, ∃! Q : MvPolynomial (Fin d) ℝ, (∀ j, Q.degreeOf j ≤ k) ∧ ∀ a, Q.eval ((r.pts.get a).at d) = f a := by
  obtain ⟨r, S, h1, h2, h3, h4⟩ := rule_isGrid env hq hd hid hc hm hp
  have hN := h2.nodal (k := k) fun h => (h3 h).trans hk
  refine ⟨r, h1, ?_, fun q hq => ⟨h2.pos q hq, fun i => (h4 _ (h2.at_mem hq i)).1, fun i => (h4 _ (h2.at_mem hq i)).2⟩, fun f => ?_⟩
  · rw [h2.length]
    obtain _ | d := d
    · rfl
    · rw [h3 (Nat.succ_pos d), hk]
  · refine ⟨∑ a, C (f a) * lagrange S ((r.pts.get a).at d), ⟨fun j => ?_, fun a => ?_⟩, ?_⟩
    · exact (degreeOf_sum_le _ _ _).trans (Finset.sup_le fun a _ => (degreeOf_C_mul_le _ _ _).trans (hN.degree a j))
    · simp only [map_sum, map_mul, eval_C, hN.eval]
      simp
    · rintro Q ⟨h5, h6⟩
      rw [hN.interpolate Q h5]
      simp only [h6]

/-- C116: the mass matrix of the Lagrange polynomials of the points, computed with the rule, is diagonal; the entries are the weights times
the integration element. Any geometry -/
theorem C116_diagonal (env : Env ℝ) (d id p m k : Nat) (qt : QType) (hd : d ≤ 30) (hid : id < 2 ^ d) (hc : IsCubeId d id) (hq : IsPlain qt)
    (hm : maxOrder d ⟨d, false, id⟩ qt = .ok m) (hp : p ≤ m) (hk : pointsPerLine qt p = k + 1) :
    ∃ r, rule env d ⟨d, false, id⟩ p qt = .ok r ∧ ∃ P : Fin r.pts.length → MvPolynomial (Fin d) ℝ,
      (∀ a j, (P a).degreeOf j ≤ k) ∧ (∀ a b, (P a).eval ((r.pts.get b).at d) = if a = b then 1 else 0) ∧ LinearIndependent ℝ P ∧
      (∀ Q : MvPolynomial (Fin d) ℝ, (∀ j, Q.degreeOf j ≤ k) → Q = ∑ a, C (Q.eval ((r.pts.get a).at d)) * P a) ∧ ∑ a, P a = 1 ∧
      ∀ ie : (Fin d → ℝ) → ℝ, massMatrix (values P) ie r.pts = diagonal fun a => (r.pts.get a).weight * ie ((r.pts.get a).at d) := by
  obtain ⟨r, S, h1, h2, h3, -⟩ := rule_isGrid env hq hd hid hc hm hp
  have hN := h2.nodal (k := k) fun h => (h3 h).trans hk
  refine ⟨r, h1, _, hN.degree, hN.eval, ?_, hN.interpolate, ?_, fun ie => ?_⟩
  · refine Fintype.linearIndependent_iff.2 fun v hv b => ?_
    have := congrArg (eval ((r.pts.get b).at d)) hv
    simpa only [map_sum, smul_eval, hN.eval, mul_ite, mul_one, mul_zero, sum_ite_eq', mem_univ, if_true, map_zero] using this
  · have := hN.interpolate 1 fun j => by rw [degreeOf_one]; exact Nat.zero_le _
    simp only [map_one, _root_.one_mul] at this
    exact this.symm
  · ext a b
    rw [massMatrix_apply, quadOf_fin]
    simp only [values, hN.eval, diagonal_apply]
    by_cases hab : a = b
    · subst hab
      simp [mul_comm]
    · rw [if_neg hab]
      refine sum_eq_zero fun c _ => ?_
      by_cases h : a = c
      · rw [if_neg (show b ≠ c from fun h' => hab (h.trans h'.symm))]; ring
      · rw [if_neg h]; ring

/-- C116: with a rule of order at least `k`, the entries of the diagonal are the integrals of the Lagrange polynomials up to the accuracy
of the tables, hence the lumped mass matrix has the row sums of the exact mass matrix -/
theorem C116_lumped (env : Env ℝ) (d id p m k : Nat) (qt : QType) (hd : d ≤ 30) (hid : id < 2 ^ d) (hc : IsCubeId d id) (hq : IsPlain qt)
    (hm : maxOrder d ⟨d, false, id⟩ qt = .ok m) (hp : p ≤ m) (hk : pointsPerLine qt p = k + 1) (hkp : k ≤ p) :
    ∃ r, rule env d ⟨d, false, id⟩ p qt = .ok r ∧ ∀ P : Fin r.pts.length → MvPolynomial (Fin d) ℝ,
      (∀ a j, (P a).degreeOf j ≤ k) → (∀ a b, (P a).eval ((r.pts.get b).at d) = if a = b then 1 else 0) →
      ∀ a, |(r.pts.get a).weight - ∑ b, ∫ x in refSet d id, (P a).eval x * (P b).eval x| ≤ tabTol * coeffSum (P a) := by
  obtain ⟨r, S, h1, h2, h3, -⟩ := rule_isGrid env hq hd hid hc hm hp
  have hN := h2.nodal (k := k) fun h => (h3 h).trans hk
  obtain ⟨r', h4, -, h5⟩ := C74_cube env d id p m qt hd hid hc hq hm hp
  rw [h1] at h4
  cases h4
  refine ⟨r, h1, fun P hP hev a => ?_⟩
  have hPL : P = fun a => lagrange S ((r.pts.get a).at d) := by
    refine _root_.funext fun a => ?_
    rw [hN.interpolate (P a) (hP a)]
    simp only [hev]
    simp
  have hone : ∑ b, P b = 1 := by
    have := hN.interpolate 1 fun j => by rw [degreeOf_one]; exact Nat.zero_le _
    simp only [map_one, _root_.one_mul] at this
    rw [hPL]
    exact this.symm
  have e : ∑ b, ∫ x in refSet d id, (P a).eval x * (P b).eval x = ∫ x in refSet d id, (P a).eval x := by
    rw [← integral_finset_sum (f := fun b x => (P a).eval x * (P b).eval x) _ fun b _ => integrableOn_refSet ((P a).continuous_eval.mul (P b).continuous_eval)]
    refine integral_congr_ae (Filter.Eventually.of_forall fun x => ?_)
    change ∑ b, (P a).eval x * (P b).eval x = (P a).eval x
    rw [← mul_sum, ← map_sum, hone, map_one, mul_one]
  have h6 := h5 (P a) fun j => (hP a j).trans hkp
  rw [quadOf_fin] at h6
  simp only [hev] at h6
  simpa [e] using h6

/-- the identifier with all bits set is a cube -/
theorem isCube_ones (d : Nat) : IsCubeId d (2 ^ d - 1) := fun k _ hk => by rw [Nat.testBit_two_pow_sub_one]; exact decide_eq_true hk

/-- The hypotheses hold for the Gauss-Lobatto rule of order 3 of the square: 9 points, biquadratic polynomials. -/
example : ∃ m, maxOrder 2 ⟨2, false, 3⟩ .GaussLobatto = .ok m ∧ 3 ≤ m ∧ IsPlain .GaussLobatto ∧ IsCubeId 2 3 ∧
    pointsPerLine .GaussLobatto 3 = 2 + 1 ∧ 2 ≤ 3 :=
  ⟨31, by decide, by decide, by simp [IsPlain], isCube_ones 2, rfl, by decide⟩

/-- So every function on the nine points is interpolated by exactly one biquadratic polynomial. -/
example (env : Env ℝ) : ∃ r, rule env 2 ⟨2, false, 3⟩ 3 .GaussLobatto = .ok r ∧ r.pts.length = 9 := by
  obtain ⟨r, h1, h2, -⟩ := C116_unisolvent env 2 3 3 31 2 .GaussLobatto (by decide) (by decide) (isCube_ones 2) (by simp [IsPlain])
    (by decide) (by decide) rfl
  exact ⟨r, h1, h2⟩

/-- The same for the Gauss-Legendre rule of order 5 of the hexahedron: 27 points. -/
example (env : Env ℝ) : ∃ r, rule env 3 ⟨3, false, 7⟩ 5 .GaussLegendre = .ok r ∧ r.pts.length = 27 := by
  obtain ⟨r, h1, h2, -⟩ := C116_unisolvent env 3 7 5 61 2 .GaussLegendre (by decide) (by decide) (isCube_ones 3) (by simp [IsPlain])
    (by decide) (by decide) rfl
  exact ⟨r, h1, h2⟩

end Verif.Quad
