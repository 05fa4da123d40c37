import Verif.Quad.CompositeProps
import Verif.Quad.MappedRuleProps
import Mathlib.Analysis.Calculus.TaylorIntegral
import Mathlib.Analysis.SpecialFunctions.Integrals.Basic

/-! Lemmas for C85: Taylor polynomials as polynomials in local coordinates, and the error of a rule for a function that is
close to a polynomial. -/

namespace Verif.Quad

open Verif.RefGeom Verif.RefTopo Verif.Typ MeasureTheory
open Finset hiding ext

noncomputable section

/-- the sum of the absolute values of the weights -/
def absWeights (l : List (QPoint ℝ)) : ℝ := (l.map fun q => |q.weight|).sum

theorem absWeights_nonneg (l : List (QPoint ℝ)) : 0 ≤ absWeights l := List.sum_nonneg fun x hx => by
  obtain ⟨q, -, rfl⟩ := List.mem_map.1 hx
  exact abs_nonneg _

theorem absWeights_eq {l : List (QPoint ℝ)} (h : ∀ q ∈ l, 0 ≤ q.weight) : absWeights l = weightSum l := by
  rw [absWeights, weightSum]
  exact congrArg List.sum (List.map_congr_left fun q hq => abs_of_nonneg (h q hq))

theorem quadOf_sub_close {d : Nat} (f g : (Fin d → ℝ) → ℝ) (η : ℝ) : ∀ l : List (QPoint ℝ),
    (∀ q ∈ l, |f (fun i => q.position i) - g (fun i => q.position i)| ≤ η) → |quadOf f l - quadOf g l| ≤ η * absWeights l
  | [], _ => by simp [quadOf, absWeights]
  | q :: l, h => by
    have h1 := quadOf_sub_close f g η l fun q hq => h q (List.mem_cons_of_mem _ hq)
    have h2 := h q (by simp)
    have e : quadOf f (q :: l) - quadOf g (q :: l) =
        q.weight * (f (fun i => q.position i) - g (fun i => q.position i)) + (quadOf f l - quadOf g l) := by
      simp only [quadOf, List.map_cons, List.sum_cons]; ring
    rw [e, absWeights, List.map_cons, List.sum_cons, mul_add]
    refine (abs_add_le _ _).trans (add_le_add ?_ h1)
    rw [abs_mul, mul_comm]
    exact mul_le_mul_of_nonneg_right h2 (abs_nonneg _)

theorem volume_refSet_lt_top (d id : Nat) : volume (refSet d id) < ⊤ := by
  refine lt_of_le_of_lt (measure_mono (t := Set.Icc (0 : Fin d → ℝ) 1) fun x hx => ?_) isCompact_Icc.measure_lt_top
  exact ⟨fun i => (refSet_bounds hx i).1, fun i => (refSet_bounds hx i).2⟩

/-- the error for a function close to a polynomial -/
theorem quad_error {d id p : Nat} {ε η : ℝ} {l : List (QPoint ℝ)} (hl : ExactUpTo d id p ε l) (hp : PointsIn d id l)
    {f : (Fin d → ℝ) → ℝ} (hf : Continuous f) {P : MvPolynomial (Fin d) ℝ} (hP : P.totalDegree ≤ p)
    (h : ∀ x ∈ refSet d id, |f x - P.eval x| ≤ η) :
    |quadOf f l - ∫ x in refSet d id, f x| ≤ η * (absWeights l + volume.real (refSet d id)) + ε * coeffSum P := by
  have h1 := quadOf_sub_close f (fun x => P.eval x) η l fun q hq => h _ (hp q hq)
  have h2 : |(∫ x in refSet d id, f x) - ∫ x in refSet d id, P.eval x| ≤ η * volume.real (refSet d id) := by
    rw [← integral_sub (integrableOn_refSet hf) (integrableOn_refSet (MvPolynomial.continuous_eval P))]
    exact norm_setIntegral_le_of_norm_le_const (f := fun x => f x - P.eval x) (volume_refSet_lt_top d id) h
  have h3 := hl P hP
  rw [mul_add]
  have e : quadOf f l - ∫ x in refSet d id, f x = (quadOf f l - quadOf (fun x => P.eval x) l) -
      ((∫ x in refSet d id, f x) - ∫ x in refSet d id, P.eval x) +
      (quadOf (fun x => P.eval x) l - ∫ x in refSet d id, P.eval x) := by ring
  rw [e]
  exact (abs_add_le _ _).trans (add_le_add ((abs_sub _ _).trans (add_le_add h1 h2)) h3)

/-! ### The size of the coefficients -/

theorem coeffSum_nonneg {d : Nat} (P : MvPolynomial (Fin d) ℝ) : 0 ≤ coeffSum P := sum_nonneg fun _ _ => abs_nonneg _

theorem coeffSum_eq_of_subset {d : Nat} (P : MvPolynomial (Fin d) ℝ) {S : Finset (Fin d →₀ ℕ)} (h : P.support ⊆ S) :
    coeffSum P = ∑ s ∈ S, |P.coeff s| := by
  refine sum_subset h fun s _ hs => ?_
  rw [MvPolynomial.notMem_support_iff.1 hs, abs_zero]

theorem coeffSum_add {d : Nat} (P Q : MvPolynomial (Fin d) ℝ) : coeffSum (P + Q) ≤ coeffSum P + coeffSum Q := by
  classical
  rw [coeffSum_eq_of_subset (P + Q) MvPolynomial.support_add, coeffSum_eq_of_subset P (subset_union_left (s₂ := Q.support)),
    coeffSum_eq_of_subset Q (subset_union_right (s₁ := P.support)), ← sum_add_distrib]
  refine sum_le_sum fun s _ => ?_
  rw [MvPolynomial.coeff_add]
  exact abs_add_le _ _

theorem coeffSum_sum {d : Nat} {ι : Type} (s : Finset ι) (P : ι → MvPolynomial (Fin d) ℝ) :
    coeffSum (∑ i ∈ s, P i) ≤ ∑ i ∈ s, coeffSum (P i) := by
  classical
  induction s using Finset.induction_on with
  | empty => simp [coeffSum]
  | insert a s ha ih =>
    rw [sum_insert ha, sum_insert ha]
    exact (coeffSum_add _ _).trans (add_le_add_right ih _)

theorem coeffSum_monomial {d : Nat} (s : Fin d →₀ ℕ) (c : ℝ) : coeffSum (MvPolynomial.monomial s c) ≤ |c| := by
  classical
  rw [coeffSum_eq_of_subset _ MvPolynomial.support_monomial_subset, sum_singleton, MvPolynomial.coeff_monomial, if_pos rfl]

/-! ### Taylor polynomials -/

/-- the monomial `x_(s 0) … x_(s (k-1))` -/
def monoOf {d k : Nat} (s : Fin k → Fin d) : Fin d →₀ ℕ := ∑ j, Finsupp.single (s j) 1

theorem eval_monoOf {d k : Nat} (s : Fin k → Fin d) (c : ℝ) (x : Fin d → ℝ) :
    (MvPolynomial.monomial (monoOf s) c).eval x = c * ∏ j, x (s j) := by
  have : MvPolynomial.monomial (monoOf s) c = MvPolynomial.C c * ∏ j, MvPolynomial.X (s j) := by
    rw [monoOf, MvPolynomial.monomial_sum_index]
    simp [MvPolynomial.X]
  rw [this, map_mul, MvPolynomial.eval_C, map_prod]
  simp

theorem degree_monoOf {d k : Nat} (s : Fin k → Fin d) (c : ℝ) : (MvPolynomial.monomial (monoOf s) c).totalDegree ≤ k := by
  refine (MvPolynomial.totalDegree_monomial_le _ _).trans ?_
  rw [monoOf, Finsupp.sum_fintype _ _ fun _ => rfl]
  simp only [Finsupp.finsetSum_apply, id]
  rw [sum_comm]
  simp

/-- a symmetric form on directions `∑ x_i a_i` is a polynomial in `x` -/
theorem form_poly {d k : Nat} (D : ContinuousMultilinearMap ℝ (fun _ : Fin k => Fin d → ℝ) ℝ) (a : Fin d → Fin d → ℝ) :
    ∃ P : MvPolynomial (Fin d) ℝ, P.totalDegree ≤ k ∧ (∀ x : Fin d → ℝ, P.eval x = D fun _ => ∑ i, x i • a i) ∧
      coeffSum P ≤ ‖D‖ * (∑ i, ‖a i‖) ^ k := by
  classical
  refine ⟨∑ s : Fin k → Fin d, MvPolynomial.monomial (monoOf s) (D fun j => a (s j)), ?_, fun x => ?_, ?_⟩
  · exact MvPolynomial.totalDegree_finsetSum_le fun s _ => degree_monoOf s _
  · have := D.toMultilinearMap.map_sum (fun (_ : Fin k) (i : Fin d) => x i • a i)
    refine Eq.trans ?_ this.symm
    rw [map_sum]
    refine sum_congr rfl fun s _ => ?_
    rw [eval_monoOf]
    have h2 := D.toMultilinearMap.map_smul_univ (fun j => x (s j)) (fun j => a (s j))
    refine Eq.trans ?_ h2.symm
    rw [smul_eq_mul, mul_comm]; rfl
  · refine (coeffSum_sum _ _).trans ?_
    have : ‖D‖ * (∑ i, ‖a i‖) ^ k = ∑ s : Fin k → Fin d, ‖D‖ * ∏ j, ‖a (s j)‖ := by
      rw [← mul_sum]
      congr 1
      have := Finset.prod_univ_sum (fun _ : Fin k => (univ : Finset (Fin d))) (fun _ i => ‖a i‖)
      rw [prod_const, card_univ, Fintype.card_fin] at this
      rw [this]
      simp
    rw [this]
    exact sum_le_sum fun s _ => (coeffSum_monomial _ _).trans (D.le_opNorm _)

/-- Taylor's formula in local coordinates `x ↦ b + ∑ x_i a_i` -/
theorem taylor_poly {d p : Nat} {f : (Fin d → ℝ) → ℝ} (hf : ContDiff ℝ (p + 1) f) (b : Fin d → ℝ) (a : Fin d → Fin d → ℝ) :
    ∃ P : MvPolynomial (Fin d) ℝ, P.totalDegree ≤ p ∧
      coeffSum P ≤ ∑ k ∈ range (p + 1), ‖iteratedFDeriv ℝ k f b‖ * (∑ i, ‖a i‖) ^ k / k.factorial ∧
      ∀ (x : Fin d → ℝ) (h M : ℝ), ‖∑ i, x i • a i‖ ≤ h →
        (∀ t ∈ Set.Icc (0 : ℝ) 1, ‖iteratedFDeriv ℝ (p + 1) f (b + t • ∑ i, x i • a i)‖ ≤ M) →
        |f (b + ∑ i, x i • a i) - P.eval x| ≤ M * h ^ (p + 1) / (p + 1).factorial := by
  choose Q q1 q2 q3 using fun k => form_poly (iteratedFDeriv ℝ k f b) a
  refine ⟨∑ k ∈ range (p + 1), MvPolynomial.C ((k.factorial : ℝ)⁻¹) * Q k, ?_, ?_, fun x h M hh hM => ?_⟩
  · refine MvPolynomial.totalDegree_finsetSum_le fun k hk => (MvPolynomial.totalDegree_mul _ _).trans ?_
    rw [MvPolynomial.totalDegree_C, Nat.zero_add]
    have := mem_range.1 hk
    exact (q1 k).trans (by omega)
  · refine (coeffSum_sum _ _).trans (sum_le_sum fun k _ => ?_)
    have hk : (0 : ℝ) < k.factorial := Nat.cast_pos.2 k.factorial_pos
    have e : coeffSum (MvPolynomial.C ((k.factorial : ℝ)⁻¹) * Q k) ≤ (k.factorial : ℝ)⁻¹ * coeffSum (Q k) := by
      have hs : (MvPolynomial.C ((k.factorial : ℝ)⁻¹) * Q k).support ⊆ (Q k).support := by
        rw [← MvPolynomial.smul_eq_C_mul]; exact MvPolynomial.support_smul
      rw [coeffSum_eq_of_subset _ hs, coeffSum, mul_sum]
      refine (sum_congr rfl fun s _ => ?_).le
      rw [MvPolynomial.coeff_C_mul, abs_mul, abs_of_pos (inv_pos.2 hk)]
    refine e.trans ?_
    rw [div_eq_inv_mul]
    exact mul_le_mul_of_nonneg_left (q3 k) (inv_pos.2 hk).le
  · set y := ∑ i, x i • a i with hy
    have ht := map_add_eq_sum_add_integral_iteratedFDeriv (x := b) (y := y) (n := p) (f := f) fun t _ => hf.contDiffAt
    have he : MvPolynomial.eval x (∑ k ∈ range (p + 1), MvPolynomial.C ((k.factorial : ℝ)⁻¹) * Q k) =
        ∑ k ∈ range (p + 1), ((k.factorial : ℝ)⁻¹) • (iteratedFDeriv ℝ k f b fun _ => y) := by
      rw [map_sum]
      refine sum_congr rfl fun k _ => ?_
      rw [map_mul, MvPolynomial.eval_C, q2, smul_eq_mul]
    rw [ht, he, add_sub_cancel_left, smul_eq_mul, abs_mul, abs_of_nonneg (by positivity)]
    have hM0 : 0 ≤ M := (norm_nonneg _).trans (hM 0 ⟨le_rfl, zero_le_one⟩)
    have hint : |∫ t in (0:ℝ)..1, (1 - t) ^ p • iteratedFDeriv ℝ (p + 1) f (b + t • y) fun _ => y| ≤
        ∫ t in (0:ℝ)..1, (1 - t) ^ p * (M * h ^ (p + 1)) := by
      refine intervalIntegral.norm_integral_le_of_norm_le (E := ℝ) zero_le_one ?_ ?_
      · refine Filter.Eventually.of_forall fun t ht => ?_
        have ht' : t ∈ Set.Icc (0 : ℝ) 1 := ⟨ht.1.le, ht.2⟩
        rw [norm_smul, norm_pow, Real.norm_of_nonneg (by linarith [ht.2] : (0:ℝ) ≤ 1 - t)]
        refine mul_le_mul_of_nonneg_left ?_ (pow_nonneg (by linarith [ht.2]) _)
        refine ((iteratedFDeriv ℝ (p + 1) f (b + t • y)).le_opNorm _).trans ?_
        rw [prod_const, card_univ, Fintype.card_fin]
        exact mul_le_mul (hM t ht') (pow_le_pow_left₀ (norm_nonneg _) hh _) (by positivity) hM0
      · apply Continuous.intervalIntegrable
        fun_prop
    have hval : ∫ t in (0:ℝ)..1, (1 - t) ^ p * (M * h ^ (p + 1)) = M * h ^ (p + 1) / (p + 1) := by
      rw [intervalIntegral.integral_mul_const, intervalIntegral.integral_comp_sub_left (fun t => t ^ p) (1 : ℝ), integral_pow]
      simp only [_root_.sub_self, _root_.sub_zero, one_pow]
      rw [zero_pow (by omega)]
      ring
    rw [hval] at hint
    refine (mul_le_mul_of_nonneg_left hint (by positivity)).trans (le_of_eq ?_)
    rw [Nat.factorial_succ]
    push_cast
    have : (p.factorial : ℝ) ≠ 0 := Nat.cast_ne_zero.2 p.factorial_ne_zero
    field_simp

/-! ### Affine maps -/

theorem eps_nonneg {d id p : Nat} {ε : ℝ} {l : List (QPoint ℝ)} (hl : ExactUpTo d id p ε l) : 0 ≤ ε := by
  classical
  have h := hl 1 (by rw [MvPolynomial.totalDegree_one]; omega)
  have : coeffSum (1 : MvPolynomial (Fin d) ℝ) = 1 := by
    rw [coeffSum_eq_of_subset (S := {0}) _ (by
      rw [← MvPolynomial.C_1]; exact MvPolynomial.support_monomial_subset), sum_singleton, ← MvPolynomial.C_1,
      MvPolynomial.coeff_C, if_pos rfl, abs_one]
  rw [this, mul_one] at h
  exact (abs_nonneg _).trans h

/-- a vector with at most one entry, between 0 and `f`, lies in every domain of size `f` -/
theorem dom_single (t : Topo) : ∀ (f : ℝ) (x : Vec ℝ), (∀ i, i < t.dim → 0 ≤ x i ∧ x i ≤ f) →
    (∀ i j, i < t.dim → j < t.dim → x i ≠ 0 → x j ≠ 0 → i = j) → 0 ≤ f → Dom t f x := by
  induction t with
  | pt => intros; trivial
  | prism t ih =>
    intro f x h1 h2 hf
    refine ⟨(h1 _ (by simp [Topo.dim])).1, (h1 _ (by simp [Topo.dim])).2, ih f x (fun i hi => h1 i (by simp [Topo.dim]; omega))
      (fun i j hi hj => h2 i j (by simp [Topo.dim]; omega) (by simp [Topo.dim]; omega)) hf⟩
  | pyr t ih =>
    intro f x h1 h2 hf
    have ht := h1 t.dim (by simp [Topo.dim])
    refine ⟨ht.1, ht.2, ih _ x (fun i hi => ?_) (fun i j hi hj => h2 i j (by simp [Topo.dim]; omega) (by simp [Topo.dim]; omega))
      (by linarith [ht.2])⟩
    have hi' := h1 i (by simp [Topo.dim]; omega)
    refine ⟨hi'.1, ?_⟩
    by_cases h0 : x t.dim = 0
    · rw [h0]; linarith [hi'.2]
    · have : x i = 0 := by
        by_contra hne
        have := h2 i t.dim (by simp [Topo.dim]; omega) (by simp [Topo.dim]) hne h0
        omega
      rw [this]; linarith [ht.2]

theorem zero_mem_refSet (d id : Nat) : (0 : Fin d → ℝ) ∈ refSet d id := by
  rw [refSet_eq (rep_topoOf d id)]
  have e : ext (0 : Fin d → ℝ) = fun _ => 0 := by funext i; simp [ext]
  change Dom _ 1 (ext 0)
  rw [e]
  exact dom_single _ _ _ (fun _ _ => ⟨le_rfl, zero_le_one⟩) (fun _ _ _ _ h => absurd rfl h) zero_le_one

theorem single_mem_refSet (d id : Nat) (i : Fin d) : (Pi.single i 1 : Fin d → ℝ) ∈ refSet d id := by
  rw [refSet_eq (rep_topoOf d id)]
  change Dom _ 1 (ext _)
  have e : ∀ k, ext (Pi.single i 1 : Fin d → ℝ) k = if k = i then 1 else 0 := by
    intro k
    unfold ext
    split
    · next h => rw [Pi.single_apply]; simp only [Fin.ext_iff]
    · next h => rw [if_neg (by have := i.2; omega)]
  refine dom_single _ _ _ (fun k _ => ?_) (fun k j _ _ hk hj => ?_) zero_le_one
  · rw [e]; split <;> norm_num
  · rw [e] at hk hj
    have h1 : k = i := by by_contra h; exact hk (if_neg h)
    have h2 : j = i := by by_contra h; exact hj (if_neg h)
    rw [h1, h2]

/-- the bound: `B k` bounds the derivatives of order `k`, `h` is the size of the element, `W` the stability constant, `ε` the
accuracy of the rule for polynomials -/
def errorBound (d p : Nat) (ε W : ℝ) (B : Nat → ℝ) (h : ℝ) : ℝ :=
  B (p + 1) * h ^ (p + 1) / (p + 1).factorial * W + ε * ∑ k ∈ range (p + 1), B k * (d * h) ^ k / k.factorial

/-- the error for a smooth function on the image of the reference element under `x ↦ b + A x` -/
theorem affine_error {d id p : Nat} {ε : ℝ} {l : List (QPoint ℝ)} (hl : ExactUpTo d id p ε l) (hp : PointsIn d id l)
    {f : (Fin d → ℝ) → ℝ} (hf : ContDiff ℝ (p + 1) f) (b : Fin d → ℝ) (A : Matrix (Fin d) (Fin d) ℝ) {h : ℝ} {B : Nat → ℝ}
    (hh : ∀ x ∈ refSet d id, ‖A.mulVec x‖ ≤ h)
    (hB : ∀ k ≤ p + 1, ∀ x ∈ refSet d id, ‖iteratedFDeriv ℝ k f (b + A.mulVec x)‖ ≤ B k) :
    |quadOf (fun x => f (b + A.mulVec x)) l - ∫ x in refSet d id, f (b + A.mulVec x)| ≤
      errorBound d p ε (absWeights l + volume.real (refSet d id)) B h := by
  have hcol : ∀ x : Fin d → ℝ, ∑ i, x i • A.col i = A.mulVec x := by
    intro x
    funext j
    simp [Matrix.mulVec, dotProduct, mul_comm]
  have h0 := zero_mem_refSet d id
  obtain ⟨P, h1, h2, h3⟩ := taylor_poly hf b fun i => A.col i
  have hc : Continuous fun x => f (b + A.mulVec x) :=
    hf.continuous.comp (continuous_const.add (Continuous.matrix_mulVec continuous_const continuous_id))
  have h4 := quad_error hl hp hc (P := P) (η := B (p + 1) * h ^ (p + 1) / (p + 1).factorial) h1 fun x hx => by
    have := h3 x h (B (p + 1)) (by rw [hcol]; exact hh x hx) (fun t ht => by
      rw [hcol]
      have hx' : t • x ∈ refSet d id := by
        have := convex_refSet d id h0 hx (sub_nonneg.2 ht.2) ht.1 (by ring)
        simpa using this
      have := hB (p + 1) le_rfl _ hx'
      rwa [Matrix.mulVec_smul] at this)
    rwa [hcol] at this
  refine h4.trans (add_le_add_right (mul_le_mul_of_nonneg_left (h2.trans (sum_le_sum fun k hk => ?_)) (eps_nonneg hl)) _)
  have hk' := mem_range.1 hk
  have hb : ‖iteratedFDeriv ℝ k f b‖ ≤ B k := by
    have := hB k (by omega) 0 h0
    rwa [Matrix.mulVec_zero, add_zero] at this
  have ha : ∑ i, ‖A.col i‖ ≤ d * h := by
    have : ∀ i ∈ (univ : Finset (Fin d)), ‖A.col i‖ ≤ h := fun i _ => by
      have := hh _ (single_mem_refSet d id i)
      rwa [Matrix.mulVec_single_one] at this
    refine (sum_le_card_nsmul _ _ _ this).trans ?_
    simp
  have hk0 : (0 : ℝ) < k.factorial := Nat.cast_pos.2 k.factorial_pos
  refine div_le_div_of_nonneg_right ?_ hk0.le
  exact mul_le_mul hb (pow_le_pow_left₀ (sum_nonneg fun _ _ => norm_nonneg _) ha _)
    (pow_nonneg (sum_nonneg fun _ _ => norm_nonneg _) _) ((norm_nonneg _).trans hb)

end

end Verif.Quad
