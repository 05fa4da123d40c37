import Verif.Quad.Recursion
import Verif.RefGeom.Props
import Mathlib.Algebra.MvPolynomial.Eval
import Mathlib.Algebra.MvPolynomial.Degrees
import Mathlib.Algebra.Polynomial.Eval.Degree
import Mathlib.Algebra.Polynomial.BigOperators
import Mathlib.Analysis.Polynomial.Basic

/-! Specification of exactness with polynomials and Lebesgue integrals, and its link to moments. -/

namespace Verif.Quad

open Verif.Typ Verif.RefTopo Verif.RefGeom MeasureTheory
open Finset hiding ext

/-! ### Specification -/

/-- the reference element as a set of points of dimension `d`: the convex hull of the corners -/
def refSet (d id : Nat) : Set (Fin d → ℝ) := {x | ext x ∈ domain ℝ d id}

/-- what a user computes with a rule: the sum of `weight * f(position)` -/
noncomputable def quadOf {d : Nat} (f : (Fin d → ℝ) → ℝ) (l : List (QPoint ℝ)) : ℝ :=
  (l.map fun q => q.weight * f fun i => q.position i).sum

/-- the sum of the absolute values of the coefficients -/
noncomputable def coeffSum {d : Nat} (P : MvPolynomial (Fin d) ℝ) : ℝ := ∑ s ∈ P.support, |P.coeff s|

/-- the rule integrates every polynomial of degree at most `p` up to `ε` times the size of its coefficients -/
def ExactUpTo (d id p : Nat) (ε : ℝ) (l : List (QPoint ℝ)) : Prop :=
  ∀ P : MvPolynomial (Fin d) ℝ, P.totalDegree ≤ p →
    |quadOf (fun x => P.eval x) l - ∫ x in refSet d id, P.eval x| ≤ ε * coeffSum P

/-- the rule integrates every polynomial of degree at most `p` exactly -/
def ExactOn (d id p : Nat) (l : List (QPoint ℝ)) : Prop :=
  ∀ P : MvPolynomial (Fin d) ℝ, P.totalDegree ≤ p →
    quadOf (fun x => P.eval x) l = ∫ x in refSet d id, P.eval x

/-- the one dimensional rule integrates every polynomial of degree at most `p` exactly against `(1-z)^α` -/
def Exact1 (α p : Nat) (l : List (QPoint ℝ)) : Prop :=
  ∀ P : Polynomial ℝ, P.natDegree ≤ p →
    (l.map fun q => q.weight * P.eval (q.position 0)).sum = ∫ z in (0:ℝ)..1, P.eval z * (1 - z) ^ α

/-! ### Monomials -/

/-- exponents as a function -/
def expo {d : Nat} (s : Fin d →₀ Nat) (k : Nat) : Nat := if h : k < d then s ⟨k, h⟩ else 0

theorem mono_expo {d : Nat} (s : Fin d →₀ Nat) (v : Vec ℝ) : mono d (expo s) v = ∏ i : Fin d, v i ^ s i := by
  rw [mono, ← Fin.prod_univ_eq_prod_range (fun k => v k ^ expo s k) d]
  refine prod_congr rfl fun i _ => ?_
  simp [expo]

theorem deg_expo {d : Nat} (s : Fin d →₀ Nat) : deg d (expo s) = s.sum fun _ e => e := by
  rw [deg, ← Fin.sum_univ_eq_sum_range (fun k => expo s k) d, Finsupp.sum_fintype _ _ (fun _ => rfl)]
  refine sum_congr rfl fun i _ => ?_
  simp [expo]

theorem refSet_eq {d id : Nat} {t : Topo} (h : Rep d id t) : refSet d id = {x | Dom t 1 (ext x)} := by
  ext x
  simp only [refSet, Set.mem_ofPred_eq]
  exact mem_domain h _ fun k hk => by simp only [ext]; rw [dif_neg (by omega)]

theorem integral_refSet {d id : Nat} {t : Topo} (h : Rep d id t) (a : Nat → Nat) :
    ∫ x in refSet d id, mono d a (ext x) = mom ℝ t a := by
  rw [refSet_eq h]
  have hd := h.dim_eq
  subst hd
  rw [integral_mono t a 1 zero_le_one, one_pow, one_mul]

theorem refSet_bounds {d id : Nat} {x : Fin d → ℝ} (h : x ∈ refSet d id) (i : Fin d) : 0 ≤ x i ∧ x i ≤ 1 := by
  have hr := rep_topoOf d id
  rw [refSet_eq hr] at h
  have := dom_bounds _ _ _ h i (by rw [hr.dim_eq]; exact i.2)
  simpa [ext] using this

theorem measurableSet_refSet (d id : Nat) : MeasurableSet (refSet d id) := by
  rw [refSet_eq (rep_topoOf d id)]
  exact (measurable_const.prodMk measurable_ext) (measurableSet_dom (topoOf d id))

theorem integrableOn_refSet {d id : Nat} {f : (Fin d → ℝ) → ℝ} (hf : Continuous f) : IntegrableOn f (refSet d id) := by
  have hc : IsCompact (Set.Icc (fun _ => 0 : Fin d → ℝ) (fun _ => 1)) := isCompact_Icc
  refine (hf.continuousOn.integrableOn_compact hc).mono_set fun x hx => ?_
  exact ⟨fun i => (refSet_bounds hx i).1, fun i => (refSet_bounds hx i).2⟩

theorem quadSum_sum {K : Type} [Field K] {ι : Type} (S : Finset ι) (c : ι → K) (g : ι → Vec K → K)
    (l : List (QPoint K)) : quadSum (fun x => ∑ s ∈ S, c s * g s x) l = ∑ s ∈ S, c s * quadSum (g s) l := by
  induction l with
  | nil => simp [quadSum]
  | cons q l ih =>
    simp only [quadSum, List.map_cons, List.sum_cons] at ih ⊢
    rw [ih, mul_sum, ← sum_add_distrib]
    exact sum_congr rfl fun s _ => by ring

/-- value of a polynomial by monomials -/
theorem eval_mono {d : Nat} (P : MvPolynomial (Fin d) ℝ) (v : Vec ℝ) :
    P.eval (fun i : Fin d => v i) = ∑ s ∈ P.support, P.coeff s * mono d (expo s) v := by
  rw [MvPolynomial.eval_eq']
  exact sum_congr rfl fun s _ => by rw [mono_expo]

theorem quadOf_eq {d : Nat} (P : MvPolynomial (Fin d) ℝ) (l : List (QPoint ℝ)) :
    quadOf (fun x => P.eval x) l = ∑ s ∈ P.support, P.coeff s * quadSum (mono d (expo s)) l := by
  rw [← quadSum_sum]
  unfold quadOf quadSum
  congr 1
  refine List.map_congr_left fun q _ => ?_
  beta_reduce; rw [eval_mono]

theorem ext_fin {d : Nat} (x : Fin d → ℝ) : (fun i : Fin d => ext x i) = x := by
  funext i; simp [ext]

theorem integral_poly {d id : Nat} {t : Topo} (h : Rep d id t) (P : MvPolynomial (Fin d) ℝ) :
    ∫ x in refSet d id, P.eval x = ∑ s ∈ P.support, P.coeff s * mom ℝ t (expo s) := by
  have e : ∀ x : Fin d → ℝ, P.eval x = ∑ s ∈ P.support, P.coeff s * mono d (expo s) (ext x) := by
    intro x
    conv_lhs => rw [← ext_fin x]
    exact eval_mono P (ext x)
  simp only [e]
  rw [integral_finsetSum]
  · refine sum_congr rfl fun s _ => ?_
    rw [integral_const_mul, integral_refSet h]
  · intro s _
    exact integrableOn_refSet (continuous_const.mul ((continuous_mono _ _).comp continuous_ext))

theorem exactUpTo_of_approx {d id p : Nat} {t : Topo} (h : Rep d id t) {ε : ℝ} {l : List (QPoint ℝ)}
    (ha : Approx t p ε l) : ExactUpTo d id p ε l := by
  intro P hP
  rw [quadOf_eq, integral_poly h, ← sum_sub_distrib, coeffSum, mul_sum]
  refine (abs_sum_le_sum_abs _ _).trans (sum_le_sum fun s hs => ?_)
  rw [← mul_sub, abs_mul, mul_comm]
  refine mul_le_mul_of_nonneg_right ?_ (abs_nonneg _)
  have hd := h.dim_eq
  have := ha (expo s) (by
    rw [hd, deg_expo]
    exact (MvPolynomial.le_totalDegree hs).trans hP)
  rwa [hd] at this

theorem exactOn_of_approx {d id p : Nat} {t : Topo} (h : Rep d id t) {l : List (QPoint ℝ)}
    (ha : Approx t p 0 l) : ExactOn d id p l := by
  intro P hP
  have := exactUpTo_of_approx h ha P hP
  rw [zero_mul] at this
  exact sub_eq_zero.mp (abs_eq_zero.mp (le_antisymm this (abs_nonneg _)))

theorem approx_of_exactOn {d id p : Nat} {t : Topo} (h : Rep d id t) {l : List (QPoint ℝ)}
    (he : ExactOn d id p l) : Approx t p 0 l := by
  intro a ha
  have hd := h.dim_eq
  let s : Fin d →₀ Nat := Finsupp.equivFunOnFinite.symm fun i => a i
  have hs : ∀ v : Vec ℝ, (MvPolynomial.monomial s (1 : ℝ)).eval (fun i : Fin d => v i) = mono d a v := by
    intro v
    rw [MvPolynomial.eval_monomial, one_mul, Finsupp.prod_fintype _ _ (fun _ => pow_zero _), mono,
      ← Fin.prod_univ_eq_prod_range (fun k => v k ^ a k) d]
    rfl
  have hdeg : (MvPolynomial.monomial s (1 : ℝ)).totalDegree ≤ p := by
    rw [MvPolynomial.totalDegree_monomial _ one_ne_zero, Finsupp.sum_fintype _ _ (fun _ => rfl)]
    rw [hd] at ha
    rw [deg, ← Fin.sum_univ_eq_sum_range (fun k => a k) d] at ha
    exact ha
  have := he _ hdeg
  have e1 : quadOf (fun x : Fin d → ℝ => (MvPolynomial.monomial s (1 : ℝ)).eval x) l = quadSum (mono d a) l := by
    unfold quadOf quadSum
    congr 1
    refine List.map_congr_left fun q _ => ?_
    beta_reduce; rw [hs]
  have e2 : ∀ x : Fin d → ℝ, (MvPolynomial.monomial s (1 : ℝ)).eval x = mono d a (ext x) := by
    intro x
    conv_lhs => rw [← ext_fin x]
    exact hs (ext x)
  simp only [e2] at this
  rw [integral_refSet h] at this
  rw [hd]
  have e3 : quadOf (fun x : Fin d → ℝ => mono d a (ext x)) l = quadSum (mono d a) l := by
    rw [← e1]
    simp only [e2]
  rw [e3] at this
  rw [this]; simp

theorem approx1_of_exact1 {α p : Nat} {l : List (QPoint ℝ)} (h : Exact1 α p l) : Approx1 α p 1 0 l := by
  intro k m hkm
  let P : Polynomial ℝ := Polynomial.X ^ k * (1 - Polynomial.X) ^ m
  have hP : ∀ z, P.eval z = z ^ k * (1 - z) ^ m := fun z => by simp [P]
  have hdeg : P.natDegree ≤ p := by
    refine (Polynomial.natDegree_mul_le.trans ?_)
    have h1 : ((Polynomial.X : Polynomial ℝ) ^ k).natDegree ≤ k := by rw [Polynomial.natDegree_X_pow]
    have h2 : ((1 - Polynomial.X : Polynomial ℝ) ^ m).natDegree ≤ m := by
      refine Polynomial.natDegree_pow_le.trans ?_
      have : (1 - Polynomial.X : Polynomial ℝ).natDegree ≤ 1 :=
        (Polynomial.natDegree_sub_le _ _).trans (by simp)
      calc m * (1 - Polynomial.X : Polynomial ℝ).natDegree ≤ m * 1 := Nat.mul_le_mul_left _ this
        _ = m := Nat.mul_one m
    omega
  have := h P hdeg
  simp only [hP] at this
  have e : ∫ z in (0:ℝ)..1, z ^ k * (1 - z) ^ m * (1 - z) ^ α = bet ℝ k (m + α) := by
    have h1 := integral_beta k (m + α) 1
    simp only [one_pow, one_mul] at h1
    rw [bet, ← h1]
    congr 1
    funext z
    rw [pow_add]; ring
  rw [e] at this
  have e2 : quadSum (fun x : Vec ℝ => x 0 ^ k * (1 - x 0) ^ m) l =
      (l.map fun q => q.weight * (q.position 0 ^ k * (1 - q.position 0) ^ m)).sum := rfl
  rw [e2, this]
  simp

end Verif.Quad
