import Verif.Quad.MassForms
import Mathlib.Analysis.Matrix.Order

/-!
Property C115: element matrices.  The mass matrices and stiffness matrices which a caller computes with a delivered rule are symmetric and
definite (up to constants), as the exact ones are.

Specification: `Matrix.PosDef` and `Matrix.PosSemidef` of Mathlib; linear independence of the polynomials; `∫ x in refSet d id, …` is the
Lebesgue integral over the reference element.
-/

namespace Verif.Quad

open Verif.Typ Verif.RefTopo Verif.RefGeom Verif.Affine Verif.MatHelp
open Finset hiding ext
open MvPolynomial
open Matrix hiding vec
open MeasureTheory

variable {N : Nat}

/-- the polynomials as functions of the local coordinate -/
noncomputable def values {d : Nat} (P : Fin N → MvPolynomial (Fin d) ℝ) (i : Fin N) (x : Fin d → ℝ) : ℝ := (P i).eval x

/-- their gradients -/
noncomputable def gradients {d : Nat} (P : Fin N → MvPolynomial (Fin d) ℝ) (i : Fin N) (x : Fin d → ℝ) (k : Fin d) : ℝ := (pderiv k (P i)).eval x

theorem eval_comb {d : Nat} (P : Fin N → MvPolynomial (Fin d) ℝ) (v : Fin N → ℝ) (x : Fin d → ℝ) :
    ∑ i, v i * values P i x = (∑ i, v i • P i).eval x := by
  rw [map_sum]
  exact sum_congr rfl fun i _ => by rw [smul_eval]; rfl

theorem comb_ne {d : Nat} {P : Fin N → MvPolynomial (Fin d) ℝ} (hP : LinearIndependent ℝ P) {v : Fin N → ℝ} (hv : v ≠ 0) : ∑ i, v i • P i ≠ 0 :=
  fun h => hv (_root_.funext fun i => Fintype.linearIndependent_iff.1 hP v h i)

theorem comb_degree {d k : Nat} {P : Fin N → MvPolynomial (Fin d) ℝ} (hP : ∀ i, (P i).totalDegree ≤ k) (v : Fin N → ℝ) :
    (∑ i, v i • P i).totalDegree ≤ k :=
  totalDegree_finsetSum_le fun i _ => (totalDegree_smul_le _ _).trans (hP i)

theorem quadOf_nonneg {d : Nat} {f : (Fin d → ℝ) → ℝ} {l : List (QPoint ℝ)} (hw : ∀ q ∈ l, 0 ≤ q.weight) (hf : ∀ q ∈ l, 0 ≤ f (q.at d)) :
    0 ≤ quadOf f l := by
  refine List.sum_nonneg fun v hv => ?_
  obtain ⟨q, hq, rfl⟩ := List.mem_map.1 hv
  exact mul_nonneg (hw q hq) (hf q hq)

theorem quadOf_zero {d : Nat} {f h : (Fin d → ℝ) → ℝ} {l : List (QPoint ℝ)} (hw : ∀ q ∈ l, 0 ≤ q.weight) (hf : ∀ q ∈ l, 0 ≤ f (q.at d))
    (hh : ∀ q ∈ l, 0 < h (q.at d)) (h0 : quadOf (fun x => f x * h x) l = 0) : quadOf f l = 0 := by
  have h1 : ∀ v ∈ l.map fun q => q.weight * (f (q.at d) * h (q.at d)), 0 ≤ v := by
    intro v hv
    obtain ⟨q, hq, rfl⟩ := List.mem_map.1 hv
    exact mul_nonneg (hw q hq) (mul_nonneg (hf q hq) (hh q hq).le)
  refine List.sum_eq_zero fun v hv => ?_
  obtain ⟨q, hq, rfl⟩ := List.mem_map.1 hv
  have h2 := List.all_zero_of_le_zero_le_of_sum_eq_zero h1 h0 (List.mem_map.2 ⟨q, hq, rfl⟩)
  change q.weight * f (q.at d) = 0
  rw [← mul_assoc] at h2
  exact (mul_eq_zero.1 h2).resolve_right (hh q hq).ne'

/-- C115: the values at the points of a rule determine a polynomial of at most half the order. All families, dimensions up to 30, all
orders -/
theorem C115_determined (env : Env ℝ) (d id p m k : Nat) (qt : QType) (hd : d ≤ 30) (hid : id < 2 ^ d) (hq : IsPlain qt)
    (hm : maxOrder d ⟨d, false, id⟩ qt = .ok m) (hp : p ≤ m) (hk : 2 * k ≤ p) :
    ∃ r, rule env d ⟨d, false, id⟩ p qt = .ok r ∧ ∀ P Q : MvPolynomial (Fin d) ℝ, P.totalDegree ≤ k → Q.totalDegree ≤ k →
      (∀ q ∈ r.pts, P.eval (q.at d) = Q.eval (q.at d)) → P = Q := by
  obtain ⟨r, h1, h2⟩ := rule_definite env hq hd hid hm hp hk
  refine ⟨r, h1, fun P Q hP hQ h => sub_eq_zero.1 ((h2 (P - Q) ((totalDegree_sub _ _).trans (max_le hP hQ))).2 ?_)⟩
  refine List.sum_eq_zero fun v hv => ?_
  obtain ⟨q, hq, rfl⟩ := List.mem_map.1 hv
  have : (P - Q).eval (q.at d) = 0 := by rw [map_sub, h q hq, _root_.sub_self]
  change q.weight * (P - Q).eval (q.at d) ^ 2 = 0
  rw [this]; ring

/-- C115: the mass matrix of linearly independent polynomials of at most half the order on an affine geometry is positive definite, in
particular regular. All families, dimensions up to 30, all orders -/
theorem C115_mass (env : Env ℝ) (d n id p m k : Nat) (qt : QType) (hd : d ≤ 30) (hid : id < 2 ^ d) (hq : IsPlain qt)
    (hm : maxOrder d ⟨d, false, id⟩ qt = .ok m) (hp : p ≤ m) (hk : 2 * k ≤ p) (o : Vec ℝ) (jt : Mat ℝ) (hdn : d ≤ n) (g : AffineGeometry)
    (hg : AffineGeometry.ofJacobian d n id o jt = some g) (P : Fin N → MvPolynomial (Fin d) ℝ) (hP : ∀ i, (P i).totalDegree ≤ k)
    (hli : LinearIndependent ℝ P) :
    ∃ r, rule env d ⟨d, false, id⟩ p qt = .ok r ∧ (massMatrix (values P) (fun _ => g.integrationElement) r.pts).PosDef ∧
      IsUnit (massMatrix (values P) (fun _ => g.integrationElement) r.pts) := by
  obtain ⟨r, h1, h2⟩ := rule_definite env hq hd hid hm hp hk
  have hμ := (C29_integrationElement d n id o jt hdn g hg).2.1
  have key : (massMatrix (values P) (fun _ => g.integrationElement) r.pts).PosDef := by
    refine PosDef.of_dotProduct_mulVec_pos (mass_symm _ _ _) fun v hv => ?_
    rw [mass_form]
    simp only [eval_comb]
    have h3 := h2 _ (comb_degree hP v)
    have e : quadOf (fun x => (∑ i, v i • P i).eval x ^ 2 * g.integrationElement) r.pts =
        g.integrationElement * quadOf (fun x => (∑ i, v i • P i).eval x ^ 2) r.pts := by
      rw [← quadOf_const_mul]
      simp only [mul_comm]
    rw [e]
    exact mul_pos hμ (lt_of_le_of_ne h3.1 fun h => comb_ne hli hv (h3.2 h.symm))
  exact ⟨r, h1, key, key.isUnit⟩

/-- C115: up to the accuracy of the tables its entries are the exact inner products -/
theorem C115_entries (env : Env ℝ) (d n id p m : Nat) (qt : QType) (hd : d ≤ 30) (hid : id < 2 ^ d) (hq : IsPlain qt)
    (hm : maxOrder d ⟨d, false, id⟩ qt = .ok m) (hp : p ≤ m) (o : Vec ℝ) (jt : Mat ℝ) (hdn : d ≤ n) (g : AffineGeometry)
    (hg : AffineGeometry.ofJacobian d n id o jt = some g) (P : Fin N → MvPolynomial (Fin d) ℝ) :
    ∃ r, rule env d ⟨d, false, id⟩ p qt = .ok r ∧ ∀ i j, (P i).totalDegree + (P j).totalDegree ≤ p →
      |massMatrix (values P) (fun _ => g.integrationElement) r.pts i j - g.integrationElement * ∫ x in refSet d id, (P i).eval x * (P j).eval x| ≤
        g.integrationElement * (tabTol * (coeffSum (P i) * coeffSum (P j))) := by
  obtain ⟨r, h1, h2, h3⟩ : ∃ r, rule env d ⟨d, false, id⟩ p qt = .ok r ∧ (p : Int) ≤ r.order ∧ ExactUpTo d id r.order.toNat tabTol r.pts := by
    obtain ⟨r, h1, -, h2⟩ := plain_good env hq hd hid hm hp
    exact ⟨r, h1, h2.order, exactUpTo_of_approx (rep_topoOf d id) (h2.approx.mono (le_refl _) (errD_tabTol hd))⟩
  have hμ := (C29_integrationElement d n id o jt hdn g hg).2.1
  refine ⟨r, h1, fun i j hij => ?_⟩
  have h4 := h3 (P i * P j) ((totalDegree_mul _ _).trans (by omega))
  simp only [map_mul] at h4
  rw [massMatrix_apply]
  have e : quadOf (fun x => values P i x * values P j x * g.integrationElement) r.pts =
      g.integrationElement * quadOf (fun x => (P i).eval x * (P j).eval x) r.pts := by
    rw [← quadOf_const_mul]
    simp only [mul_comm, values]
  rw [e, ← mul_sub, abs_mul, abs_of_pos hμ]
  exact mul_le_mul_of_nonneg_left (h4.trans (mul_le_mul_of_nonneg_left (coeffSum_mul _ _) (eps_nonneg h3))) hμ.le

/-- C115: the stiffness matrix on an affine geometry is positive semidefinite, and its kernel consists of the constants, if the order is
at least twice the degree of the gradients -/
theorem C115_stiffness (env : Env ℝ) (d n id p m k : Nat) (qt : QType) (hd : d ≤ 30) (hid : id < 2 ^ d) (hq : IsPlain qt)
    (hm : maxOrder d ⟨d, false, id⟩ qt = .ok m) (hp : p ≤ m) (hk : 2 * (k - 1) ≤ p) (o : Vec ℝ) (jt : Mat ℝ) (hdn : d ≤ n) (g : AffineGeometry)
    (hg : AffineGeometry.ofJacobian d n id o jt = some g) (P : Fin N → MvPolynomial (Fin d) ℝ) (hP : ∀ i, (P i).totalDegree ≤ k) :
    ∃ r, rule env d ⟨d, false, id⟩ p qt = .ok r ∧
      (stiffnessMatrix (gradients P) (mat n d g.jacobianInverseTransposed) (fun _ => g.integrationElement) r.pts).PosSemidef ∧
      ∀ v : Fin N → ℝ, stiffnessMatrix (gradients P) (mat n d g.jacobianInverseTransposed) (fun _ => g.integrationElement) r.pts *ᵥ v = 0 ↔
        ∃ a, ∑ i, v i • P i = C a := by
  obtain ⟨r, h1, h2⟩ := rule_definite env hq hd hid hm hp hk
  have hμ := (C29_integrationElement d n id o jt hdn g hg).2.1
  obtain ⟨-, -, -, -, hinv⟩ := C29_jacobians d n id o jt hdn g hg
  set A := mat n d g.jacobianInverseTransposed with hA
  set M := stiffnessMatrix (gradients P) A (fun _ => g.integrationElement) r.pts with hM
  -- the component `r` of the mapped gradient of a combination
  set D : (Fin N → ℝ) → Fin n → MvPolynomial (Fin d) ℝ := fun v s => ∑ k, A s k • pderiv k (∑ i, v i • P i) with hD
  have hform : ∀ v, star v ⬝ᵥ (M *ᵥ v) = g.integrationElement * ∑ s, quadOf (fun x => (D v s).eval x ^ 2) r.pts := by
    intro v
    rw [hM, stiffness_form, mul_sum]
    refine sum_congr rfl fun s _ => ?_
    rw [← quadOf_const_mul]
    congr 1
    funext x
    rw [mul_comm]
    congr 2
    simp only [hD, map_sum, smul_eval, Derivation.map_smul, mulVec, dotProduct, gradients, mul_sum]
    rw [sum_comm]
    exact sum_congr rfl fun k _ => sum_congr rfl fun i _ => by ring
  have hdeg : ∀ v s, (D v s).totalDegree ≤ k - 1 := fun v s => totalDegree_finsetSum_le fun j _ =>
    (totalDegree_smul_le _ _).trans ((totalDegree_pderiv j _).trans (Nat.sub_le_sub_right (comb_degree hP v) 1))
  have hnn : ∀ v s, 0 ≤ quadOf (fun x => (D v s).eval x ^ 2) r.pts := fun v s => (h2 _ (hdeg v s)).1
  have hpsd : M.PosSemidef := PosSemidef.of_dotProduct_mulVec_nonneg (stiffness_symm _ _ _ _) fun v => by
    rw [hform]
    exact mul_nonneg hμ.le (sum_nonneg fun s _ => hnn v s)
  have hzero : ∀ v, star v ⬝ᵥ (M *ᵥ v) = 0 → ∃ a, ∑ i, v i • P i = C a := by
    intro v hv
    rw [hform] at hv
    have h3 := (sum_eq_zero_iff_of_nonneg fun s _ => hnn v s).1 ((mul_eq_zero.1 hv).resolve_left hμ.ne')
    have h4 : ∀ s, D v s = 0 := fun s => (h2 _ (hdeg v s)).2 (h3 s (mem_univ s))
    refine ⟨_, const_of_pderiv fun l => ?_⟩
    -- multiply by the transposed Jacobian
    have h5 : ∑ s, mat d n g.jacobianTransposed l s • D v s = pderiv l (∑ i, v i • P i) := by
      simp only [hD, smul_sum, smul_smul]
      rw [sum_comm]
      have h6 : ∀ k, ∑ s, (mat d n g.jacobianTransposed l s * A s k) • pderiv k (∑ i, v i • P i) =
          (if l = k then (1 : ℝ) else 0) • pderiv k (∑ i, v i • P i) := fun k => by
        rw [← sum_smul]
        congr 1
        have := congrFun (congrFun hinv l) k
        rwa [mul_apply, one_apply] at this
      rw [sum_congr rfl fun k _ => h6 k]
      simp
    rw [← h5]
    exact sum_eq_zero fun s _ => by rw [h4, smul_zero]
  refine ⟨r, h1, hpsd, fun v => ⟨fun h => hzero v (by rw [h, dotProduct_zero]), fun ⟨a, ha⟩ => ?_⟩⟩
  rw [← hpsd.dotProduct_mulVec_zero_iff, hform]
  have h7 : ∀ s, D v s = 0 := fun s => by
    simp only [hD, ha, pderiv_C, smul_zero, sum_const_zero]
  simp only [h7, map_zero, ne_eq, OfNat.ofNat_ne_zero, not_false_eq_true, zero_pow]
  rw [sum_eq_zero fun s _ => by simp [quadOf], mul_zero]

/-- C115 on cubes: polynomials whose degree in every variable is at most half the order, on any geometry whose integration element is
positive at the points of the rule -/
theorem C115_cube (env : Env ℝ) (d id p m k : Nat) (qt : QType) (hd : d ≤ 30) (hid : id < 2 ^ d) (hc : IsCubeId d id) (hq : IsPlain qt)
    (hm : maxOrder d ⟨d, false, id⟩ qt = .ok m) (hp : p ≤ m) (hk : 2 * k ≤ p) (P : Fin N → MvPolynomial (Fin d) ℝ)
    (hP : ∀ i j, (P i).degreeOf j ≤ k) (hli : LinearIndependent ℝ P) :
    ∃ r, rule env d ⟨d, false, id⟩ p qt = .ok r ∧ ∀ ie : (Fin d → ℝ) → ℝ, (∀ q ∈ r.pts, 0 < ie (q.at d)) →
      (massMatrix (values P) ie r.pts).PosDef := by
  obtain ⟨r, S, h1, h2, h3⟩ := rule_grid env hq hd hid hc hm hp hk
  refine ⟨r, h1, fun ie hie => PosDef.of_dotProduct_mulVec_pos (mass_symm _ _ _) fun v hv => ?_⟩
  rw [mass_form]
  simp only [eval_comb]
  refine lt_of_le_of_ne (quadOf_nonneg h2.1 fun q hq => mul_nonneg (sq_nonneg _) (hie q hq).le) fun h => comb_ne hli hv (grid_zero h2 hie (fun j => ?_) h.symm)
  refine lt_of_le_of_lt ?_ (h3 (Fin.pos j))
  refine (degreeOf_sum_le j univ _).trans (Finset.sup_le fun i _ => ?_)
  rw [smul_eq_C_mul]
  exact (degreeOf_C_mul_le _ _ _).trans (hP i j)

/-- full statement of C115: whatever the functions and the (positive) integration element, the mass matrix is positive semidefinite; and
it is positive definite for linearly independent polynomials of at most half the order -/
def C115_full : Prop :=
  ∀ (env : Env ℝ) (d id p m : Nat) (qt : QType) (r : Rule ℝ), d ≤ 30 → id < 2 ^ d → IsPlain qt → maxOrder d ⟨d, false, id⟩ qt = .ok m → p ≤ m →
    rule env d ⟨d, false, id⟩ p qt = .ok r → ∀ ie : (Fin d → ℝ) → ℝ, (∀ q ∈ r.pts, 0 < ie (q.at d)) →
    (∀ (N : Nat) (φ : Fin N → (Fin d → ℝ) → ℝ), (massMatrix φ ie r.pts).PosSemidef) ∧
    ∀ (N k : Nat) (P : Fin N → MvPolynomial (Fin d) ℝ), 2 * k ≤ p → (∀ i, (P i).totalDegree ≤ k) → LinearIndependent ℝ P →
      (massMatrix (values P) ie r.pts).PosDef

/-- C115, all rules but the Gauss-Legendre rules of order 3 -/
theorem C115_partial (env : Env ℝ) (d id p m : Nat) (qt : QType) (hd : d ≤ 30) (hid : id < 2 ^ d) (hq : IsPlain qt)
    (hm : maxOrder d ⟨d, false, id⟩ qt = .ok m) (hp : p ≤ m) (h3 : ¬ (p = 3 ∧ qt = .GaussLegendre)) :
    ∃ r, rule env d ⟨d, false, id⟩ p qt = .ok r ∧ ∀ ie : (Fin d → ℝ) → ℝ, (∀ q ∈ r.pts, 0 < ie (q.at d)) →
      (∀ (N : Nat) (φ : Fin N → (Fin d → ℝ) → ℝ), (massMatrix φ ie r.pts).PosSemidef) ∧
      ∀ (N k : Nat) (P : Fin N → MvPolynomial (Fin d) ℝ), 2 * k ≤ p → (∀ i, (P i).totalDegree ≤ k) → LinearIndependent ℝ P →
        (massMatrix (values P) ie r.pts).PosDef := by
  obtain ⟨r, h1, -, -, h2, -⟩ := C48_rule_partial env d id p m qt hd hid hq hm hp
  have hw := h2 h3
  refine ⟨r, h1, fun ie hie => ⟨fun N φ => PosSemidef.of_dotProduct_mulVec_nonneg (mass_symm _ _ _) fun v => ?_, fun N k P hk hP hli => ?_⟩⟩
  · rw [mass_form]
    exact quadOf_nonneg hw fun q hq => mul_nonneg (sq_nonneg _) (hie q hq).le
  · refine PosDef.of_dotProduct_mulVec_pos (mass_symm _ _ _) fun v hv => ?_
    rw [mass_form]
    simp only [eval_comb]
    obtain ⟨r', h1', h4⟩ := rule_definite env hq hd hid hm hp hk
    rw [h1] at h1'
    cases h1'
    exact lt_of_le_of_ne (quadOf_nonneg hw fun q hq => mul_nonneg (sq_nonneg _) (hie q hq).le) fun h =>
      comb_ne hli hv ((h4 _ (comb_degree hP v)).2 (quadOf_zero hw (fun q _ => sq_nonneg _) hie h.symm))

/-- with the Gauss-Legendre rule of order 3 of the triangle, whose centre has a negative weight, the square of `(5x - 1)(5y - 1)` has a
negative "integral" -/
theorem C115_counterexample : ¬ C115_full := by
  intro h
  obtain ⟨m, hm, hs⟩ := maxOrder_tab (qt := .GaussLegendre) (h := 61) rfl (by omega) (by omega) 1 0 (by omega) (by omega)
  have hpm : 3 ≤ m := by
    rcases hs.2.2 with rfl | ⟨k, hk1, hk2, -, hk⟩ <;> omega
  have hr : rule (K := ℝ) ⟨none⟩ 2 ⟨2, false, 0⟩ (3 : Nat) .GaussLegendre = simplex2Rule 3 := by
    rw [rule, ruleWith_ok (by omega) (by omega) (Or.inr ⟨m, hm, by omega, by omega⟩)]
    simp only [factory]
    rw [if_pos ⟨by decide, by simp, by simp [simplex2Highest]⟩]
    rfl
  have hb : simplex2Rule (K := ℝ) 3 = .ok ⟨triangle, 3, Simplex2.block2.pts.map Node.point⟩ := rfl
  have h1 := (h ⟨none⟩ 2 0 3 m .GaussLegendre _ (by omega) (by omega) (Or.inl rfl) hm hpm (hr.trans hb) (fun _ => 1) fun _ _ => one_pos).1 1
    fun _ x => (5 * x 0 - 1) * (5 * x 1 - 1)
  have h2 := h1.dotProduct_mulVec_nonneg fun _ => 1
  rw [mass_form] at h2
  simp only [quadOf, Simplex2.block2, List.map_cons, List.map_nil, List.sum_cons, List.sum_nil, Node.point, Lit.val, univ_unique, sum_singleton] at h2
  norm_num at h2

/-! ### Examples -/

/-- linear functions on the unit triangle with the rule of order 2: the hypotheses of `C115_mass` -/
example : ∃ m, maxOrder 2 ⟨2, false, 0⟩ .GaussLegendre = .ok m ∧ 2 ≤ m :=
  let ⟨m, h1, h2⟩ := maxOrder_tab (qt := .GaussLegendre) (h := 61) rfl (by omega) (by omega) 1 0 (by omega) (by omega)
  ⟨m, h1, by rcases h2.2.2 with rfl | ⟨k, hk1, hk2, -, hk⟩ <;> omega⟩

example : LinearIndependent ℝ ![(1 : MvPolynomial (Fin 2) ℝ), X 0, X 1] ∧ ∀ i, (![(1 : MvPolynomial (Fin 2) ℝ), X 0, X 1] i).totalDegree ≤ 1 := by
  constructor
  · rw [Fintype.linearIndependent_iff]
    intro g hg
    rw [Fin.sum_univ_three] at hg
    simp only [Matrix.cons_val] at hg
    have e0 := congrArg (MvPolynomial.eval fun _ => (0 : ℝ)) hg
    have e1 := congrArg (MvPolynomial.eval fun i => if i = (0 : Fin 2) then (1 : ℝ) else 0) hg
    have e2 := congrArg (MvPolynomial.eval fun i => if i = (1 : Fin 2) then (1 : ℝ) else 0) hg
    simp only [map_add, smul_eval, map_one, eval_X, map_zero] at e0 e1 e2
    norm_num at e0 e1 e2
    intro i
    fin_cases i
    · exact e0
    · change g 1 = 0; linarith
    · change g 2 = 0; linarith
  · intro i
    fin_cases i
    · change (1 : MvPolynomial (Fin 2) ℝ).totalDegree ≤ 1
      rw [totalDegree_one]; omega
    · exact (totalDegree_X _).le
    · exact (totalDegree_X _).le

example : ∃ g, AffineGeometry.ofJacobian 2 2 0 (fun _ => 0) (fun i j => if i = j then 1 else 0) = some g := by
  refine (C28_constructible 2 2 0 _ _ le_rfl).2 ?_
  have e : mat 2 2 (fun i j => if i = j then (1 : ℝ) else 0) = 1 := by
    ext i j
    simp only [mat, of_apply, one_apply, Fin.ext_iff]
  rw [e]
  exact Matrix.linearIndependent_rows_of_isUnit isUnit_one

end Verif.Quad
