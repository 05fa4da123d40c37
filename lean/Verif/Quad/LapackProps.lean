import Verif.Quad.GolubWelsch
import Verif.Quad.Props

/-! C61: the rules computed by the eigenvalue solver. -/

namespace Verif.Quad

open Polynomial Verif.RefGeom Verif.Typ

/-- C61: for every degree and every exponent, with a correct eigenvalue solver the computed rule has `degree/2 + 1`
distinct nodes inside (0,1) with positive weights, and integrates every polynomial of degree at most 2 (degree/2) + 1
against the weight (1-x)^alpha exactly. -/
theorem C61_gauss {solver : Solver} (hs : SolverOK solver) (degree alpha : ℕ) :
    (jacobiNodesWeights solver degree alpha).length = degree / 2 + 1 ∧
    ((jacobiNodesWeights solver degree alpha).map fun q => q.position 0).Nodup ∧
    (∀ q ∈ jacobiNodesWeights solver degree alpha, 0 < q.position 0 ∧ q.position 0 < 1 ∧ 0 < q.weight) ∧
    ∀ p : ℝ[X], p.natDegree ≤ 2 * (degree / 2) + 1 →
      ((jacobiNodesWeights solver degree alpha).map fun q => q.weight * p.eval (q.position 0)).sum =
        ∫ x in (0 : ℝ)..1, (1 - x) ^ alpha * p.eval x := by
  obtain ⟨h1, h2, h3, h4⟩ := lapack_rule hs degree alpha
  exact ⟨h1, h3, fun q hq => ⟨(h2 q hq).1, (h2 q hq).2.1, (h2 q hq).2.2.1⟩, h4⟩

/-- C61: no rule with that many points does better: the polynomial ∏ (x - x_i)² of degree 2 (degree/2) + 2 is not
integrated exactly. -/
theorem C61_sharp {solver : Solver} (hs : SolverOK solver) (degree alpha : ℕ) :
    ∃ p : ℝ[X], p.natDegree = 2 * (degree / 2) + 2 ∧
      ((jacobiNodesWeights solver degree alpha).map fun q => q.weight * p.eval (q.position 0)).sum ≠
        ∫ x in (0 : ℝ)..1, (1 - x) ^ alpha * p.eval x := by
  obtain ⟨h1, h2, h3, h4⟩ := lapack_rule hs degree alpha
  set l := jacobiNodesWeights solver degree alpha with hl
  let w : ℝ[X] := (l.map fun q => X - C (q.position 0)).prod
  have wmon : w.Monic := by
    have : w = ((l.map fun q => q.position 0).map fun a => X - C a).prod := by
      rw [List.map_map]; rfl
    rw [this]
    have := monic_multisetProd_X_sub_C ((l.map fun q => q.position 0 : List ℝ) : Multiset ℝ)
    simpa only [Multiset.map_coe, Multiset.prod_coe] using this
  have wdeg : w.natDegree = l.length := by
    have : w = ((l.map fun q => q.position 0).map fun a => X - C a).prod := by
      rw [List.map_map]; rfl
    rw [this]
    have := natDegree_multiset_prod_X_sub_C_eq_card ((l.map fun q => q.position 0 : List ℝ) : Multiset ℝ)
    simp only [Multiset.map_coe, Multiset.prod_coe, Multiset.coe_card, List.length_map] at this
    exact this
  refine ⟨w * w, ?_, ?_⟩
  · rw [wmon.natDegree_mul wmon, wdeg, h1]; ring
  · have hz : (l.map fun q => q.weight * (w * w).eval (q.position 0)).sum = 0 := by
      apply List.sum_eq_zero
      intro x hx
      obtain ⟨q, hq, rfl⟩ := List.mem_map.1 hx
      have : w.eval (q.position 0) = 0 := by
        rw [eval_list_prod]
        apply List.prod_eq_zero
        rw [List.map_map]
        exact List.mem_map.2 ⟨q, hq, by simp⟩
      rw [eval_mul, this]; ring
    rw [hz]
    have hp := Ortho.L_pos alpha ((w * w).comp (C 1 - X)) (by
      intro h
      have h' := congrArg (fun f : ℝ[X] => f.comp (C 1 - X)) h
      simp only [comp_assoc, zero_comp] at h'
      have e : (C 1 - X : ℝ[X]).comp (C 1 - X) = X := by
        rw [sub_comp, C_comp, X_comp]; ring
      rw [e, comp_X] at h'
      exact mul_ne_zero wmon.ne_zero wmon.ne_zero h') (fun s _ _ => by
      rw [eval_comp, eval_mul]; exact mul_self_nonneg _)
    unfold Ortho.L at hp
    have := intervalIntegral.integral_comp_sub_left (a := 0) (b := 1)
      (fun s : ℝ => s ^ alpha * ((w * w).comp (C 1 - X)).eval s) 1
    simp only [sub_self, sub_zero, eval_comp, eval_sub, eval_C, eval_X, sub_sub_cancel] at this
    simp only [eval_comp, eval_sub, eval_C, eval_X] at hp
    rw [this]
    exact hp.ne

/-- C61: the result does not depend on the solver, up to the order of the points -/
theorem C61_unique {s₁ s₂ : Solver} (h₁ : SolverOK s₁) (h₂ : SolverOK s₂) (degree alpha : ℕ) :
    ∀ q ∈ jacobiNodesWeights s₁ degree alpha, q ∈ jacobiNodesWeights s₂ degree alpha := by
  have hn : ((degree : ℤ) / 2 + 1).toNat = degree / 2 + 1 := by omega
  have d₁ := h₁.dec (degree / 2 + 1) alpha
  have d₂ := h₂.dec (degree / 2 + 1) alpha
  intro q hq
  unfold jacobiNodesWeights at hq ⊢
  simp only [hn] at hq ⊢
  obtain ⟨i, hi, rfl⟩ := List.mem_map.1 hq
  obtain ⟨j, hj, e1, e2⟩ := Ortho.Dec.unique d₁ d₂ i (List.mem_range.1 hi)
  refine List.mem_map.2 ⟨j, List.mem_range.2 hj, ?_⟩
  rw [mul_assoc, mul_assoc, e1, e2]

/-- the assumption of C49 and C50 about the eigenvalue solver holds for the computed rules, without any error -/
theorem C61_solver {solver : Solver} (hs : SolverOK solver) (δ : ℝ) (hδ : 0 ≤ δ) : LapackOK (lapackEnv solver) δ := by
  refine ⟨jacobiNodesWeights solver, rfl, ?_⟩
  intro degree alpha _ _
  obtain ⟨h1, h2, h3, h4⟩ := lapack_rule hs degree alpha
  refine ⟨h1, ?_, fun q hq => ⟨(h2 q hq).1.le, (h2 q hq).2.1.le⟩, fun q hq => (h2 q hq).2.2.1, fun q hq => (h2 q hq).2.2.2⟩
  intro k m hkm
  have e := h4 (X ^ k * (C 1 - X) ^ m) (by
    refine natDegree_mul_le.trans ?_
    have h5 : (C 1 - X : ℝ[X]).natDegree ≤ 1 := (natDegree_sub_le _ _).trans (by simp)
    have h6 := natDegree_pow_le_of_le m h5
    rw [natDegree_X_pow]
    omega)
  simp only [eval_mul, eval_pow, eval_sub, eval_X, eval_C] at e
  rw [e]
  have := L_bet alpha m k
  unfold Ortho.L at this
  have sub := intervalIntegral.integral_comp_sub_left (a := 0) (b := 1)
      (fun s : ℝ => s ^ alpha * ((C 1 - X : ℝ[X]) ^ k * X ^ m).eval s) 1
  simp only [sub_self, sub_zero, eval_mul, eval_pow, eval_sub, eval_C, eval_X, sub_sub_cancel] at sub
  simp only [eval_mul, eval_pow, eval_sub, eval_C, eval_X] at this
  rw [sub, this, one_mul, sub_self, abs_zero]
  exact hδ

/-- C61: a library with a correct eigenvalue solver delivers, for the family `GaussJacobi_n_0`, rules for every
reference element up to dimension 30 and every order up to 127, of that accuracy and with all points inside. -/
theorem C61_rule {solver : Solver} (hs : SolverOK solver) (d id p : Nat) (hd : d ≤ 30) (hid : id < 2 ^ d) (hp : p ≤ 127) :
    ∃ r, rule (lapackEnv solver) d ⟨d, false, id⟩ p .GaussJacobi_n_0 = .ok r ∧ (p : Int) ≤ r.order ∧
      ExactUpTo d id r.order.toNat (1 / (4 * 10 ^ 14) + 2 * d * eps1 ℝ) r.pts ∧ PointsIn d id r.pts := by
  have hb := eps1_bounds (K := ℝ)
  exact C49_rule_lapack _ (eps1 ℝ) le_rfl hb.2 (C61_solver hs _ hb.1) d id p hd hid hp

/-- C61: and for the regular geometry types the order and the type are those requested -/
theorem C61_order {solver : Solver} (hs : SolverOK solver) (t : GeometryType) (p : Nat) (h : Regular t) (hd : t.dim ≤ 30)
    (hp : p ≤ 127) :
    ∃ r, rule (lapackEnv solver) t.dim t p .GaussJacobi_n_0 = .ok r ∧ (p : Int) ≤ r.order ∧ eq r.type t = true :=
  C50_jacobi_partial _ t p h hd (Or.inr ⟨hp, C61_solver hs _ (by norm_num)⟩)

/-- there is a solver that meets the assumption -/
example : ∃ solver, SolverOK solver := exists_solver

/-- order 100 on a pyramid: beyond the tables -/
example {solver : Solver} (hs : SolverOK solver) : ∃ r, rule (lapackEnv solver) 3 ⟨3, false, 3⟩ (100 : Nat) .GaussJacobi_n_0 = .ok r :=
  (C61_rule hs 3 3 100 (by norm_num) (by norm_num) (by norm_num)).imp fun _ h => h.1

end Verif.Quad
