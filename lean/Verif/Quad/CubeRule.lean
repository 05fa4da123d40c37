import Verif.Quad.MapPoly

/-! The rules on cubes are products of one dimensional rules: every monomial with exponents up to the order is integrated,
whatever its total degree. -/

namespace Verif.Quad

open Verif.Typ Verif.RefTopo Verif.RefGeom MeasureTheory
open Finset hiding ext

/-- every monomial with exponents at most `p` is integrated with an error of at most `ε` -/
def ApproxQ (t : Topo) (p : Nat) (ε : ℝ) (l : List (QPoint ℝ)) : Prop :=
  ∀ a : Nat → Nat, (∀ k, k < t.dim → a k ≤ p) → |quadSum (mono t.dim a) l - mom ℝ t a| ≤ ε

theorem approxQ_tensor {t : Topo} {p : Nat} {ε δ : ℝ} {B O : List (QPoint ℝ)} (hB : ApproxQ t p ε B)
    (hO : Approx1 0 p 1 δ O) : ApproxQ (.prism t) p (ε * (1 + δ) + δ) (tensorProduct (t.dim + 1) B O) := by
  intro a ha
  simp only [Topo.dim] at ha ⊢
  rw [quadSum_tensor, mom_prism]
  have h := hO (a t.dim) 0 (ha _ (Nat.lt_succ_self _))
  simp only [pow_zero, mul_one, one_mul, Nat.add_zero] at h
  exact abs_mul_sub_le (hB a fun k hk => ha k (by omega)) h (by rw [abs_of_pos (mom_pos _ _)]; exact mom_le_one _ _)
    (by rw [abs_of_pos (bet_pos _ _)]; exact bet_le_one _ _)

theorem rule_cubeQ (env : Env ℝ) (qt : QType) (p : Nat) (hp : p < 2 ^ 31) (δ : ℝ) (h0 : 0 ≤ δ) (h1 : δ ≤ 1 / 100)
    (hone : ∀ id, id < 2 → ∃ o, rule1 env ⟨1, false, id⟩ p qt = .ok o ∧ o.type = line ∧ Oned 0 p δ False o) :
    ∀ (d id : Nat), d ≤ 30 → id < 2 ^ d → IsCubeId d id →
    (∀ k, 1 ≤ k → k ≤ d → ∃ m : Nat, maxOrder k ⟨k, false, id % 2 ^ k⟩ qt = .ok m ∧ p ≤ m) →
    ∃ r, rule env d ⟨d, false, id⟩ p qt = .ok r ∧ ApproxQ (topoOf d id) p (errD ℝ d δ) r.pts
  | 0, id, _, hid, _, _ => by
    obtain ⟨r, e1, -, e2⟩ := point_good env qt hp hid (ε := errD ℝ 0 δ) (by unfold errD epsT; norm_num)
    refine ⟨r, e1, fun a _ => e2.approx a ?_⟩
    simp [topoOf, Topo.dim, deg]
  | 1, id, _, hid, _, _ => by
    obtain ⟨o, e1, -, e3⟩ := hone id (by simpa using hid)
    have ht : topoOf 1 id = .prism .pt := by simp [topoOf]
    have hg := (oned_good (qt := qt) e3)
    refine ⟨o, e1, fun a ha => ?_⟩
    rw [ht] at ha ⊢
    have := hg.approx a (by
      have h2 := ha 0 (by simp [Topo.dim])
      have h3 := hg.order
      simp only [Topo.dim, deg, zero_add, sum_range_one]
      omega)
    refine this.trans ?_
    have : (0 : ℝ) ≤ epsT ℝ := by unfold epsT; norm_num
    unfold errD; push_cast; linarith
  | d + 2, id, hd, hid, hc, hmax => by
    have hbit : id.testBit (d + 1) = true := hc (d + 1) (by omega) (by omega)
    obtain ⟨B, b1, b2⟩ := rule_cubeQ env qt p hp δ h0 h1 hone (d + 1) (id % 2 ^ (d + 1)) (by omega)
      (Nat.mod_lt _ (Nat.two_pow_pos _)) (fun k h1 h2 => by rw [testBit_mod' h2]; exact hc k h1 (by omega))
      (fun k hk1 hk2 => by rw [mod_pow_mod hk2]; exact hmax k hk1 (by omega))
    obtain ⟨m, hm, hpm⟩ := hmax (d + 2) (by omega) (le_refl _)
    rw [Nat.mod_eq_of_lt hid] at hm
    have hr : rule env (d + 2) ⟨d + 2, false, id⟩ p qt =
        factory env (d + 2) ⟨d + 2, false, id⟩ p qt (.ok B) := by
      rw [rule, ruleWith_ok hd hid (Or.inr ⟨m, hm, by omega, by omega⟩)]
      simp only
      rw [baseTypeOf_eq (by omega) hid, b1]
    have hge := Nat.ge_two_pow_of_testBit hbit
    have hs : isSimplex ⟨d + 2, false, id⟩ = false := by
      by_contra h
      have := isSimplex_iff.1 (by simpa using h)
      have : 2 ≤ 2 ^ (d + 1) := by rw [pow_succ]; have := Nat.one_le_two_pow (n := d); omega
      omega
    have hp3 : d + 2 = 3 → isPrism ⟨d + 2, false, id⟩ = false := by
      intro h3
      have hb1 := hc 1 (by omega) (by omega)
      by_contra h
      simp only [isPrism, Bool.not_false, Bool.true_and, Bool.and_eq_true, beq_iff_eq, or_one_eq, Bool.not_eq_false] at h
      rw [Nat.testBit_eq_decide_div_mod_eq] at hb1
      simp at hb1
      omega
    have hf : factory env (d + 2) ⟨d + 2, false, id⟩ p qt (.ok B) = tensorRule env (d + 2) id p qt (.ok B) := by
      match d, hs, hp3 with
      | 0, hs, _ => simp only [factory, hs]; simp
      | 1, hs, hp3 => simp only [factory, hs, hp3 rfl]; simp
      | d + 2, _, _ => simp only [factory]
    obtain ⟨o, o1, -, o3⟩ := hone 0 (by omega)
    have htopo : topoOf (d + 2) id = .prism (topoOf (d + 1) (id % 2 ^ (d + 1))) := by
      rw [topoOf]; simp [hbit]
    have hdim := (rep_topoOf (d + 1) (id % 2 ^ (d + 1))).dim_eq
    have herr : errD ℝ (d + 1) δ + 2 * δ = errD ℝ (d + 2) δ := by unfold errD; push_cast; ring
    rw [hr, hf, tensorRule]
    simp only [ok_bind, show d + 2 - 1 = d + 1 from rfl, hbit, if_true, line_eq, o1]
    refine ⟨_, rfl, ?_⟩
    rw [htopo]
    have := approxQ_tensor b2 (o3.approx.mono (by have := o3.order; omega))
    rw [hdim] at this
    intro a ha
    refine (this a ha).trans ?_
    rw [← herr]
    exact step_err h0 (errD_le (by omega) h1)

theorem poly_of_approxQ {d id p : Nat} {t : Topo} (h : Rep d id t) {ε : ℝ} {l : List (QPoint ℝ)}
    (ha : ApproxQ t p ε l) (P : MvPolynomial (Fin d) ℝ) (hP : ∀ i, P.degreeOf i ≤ p) :
    |quadOf (fun x => P.eval x) l - ∫ x in refSet d id, P.eval x| ≤ ε * coeffSum P := by
  rw [quadOf_eq, integral_poly h, ← sum_sub_distrib, coeffSum, mul_sum]
  refine (abs_sum_le_sum_abs _ _).trans (sum_le_sum fun s hs => ?_)
  rw [← mul_sub, abs_mul, mul_comm]
  refine mul_le_mul_of_nonneg_right ?_ (abs_nonneg _)
  have hd := h.dim_eq
  have := ha (expo s) (by
    intro k hk
    rw [hd] at hk
    rw [expo, dif_pos hk]
    exact (MvPolynomial.monomial_le_degreeOf _ hs).trans (hP _))
  rwa [hd] at this

end Verif.Quad
