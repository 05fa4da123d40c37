import Verif.Quad.Poly
import Verif.Type.Props

/-! Property theorems for quadrature rules: C47 to C50.  The specification (`refSet`, `quadOf`, `ExactOn`,
`ExactUpTo`, `Exact1`) is in `Verif/Quad/Poly.lean`. -/

namespace Verif.Quad

open Verif.Typ Verif.RefTopo Verif.RefGeom MeasureTheory
open Finset hiding ext

/-! ### C47: products inherit exactness -/

theorem rep_prism {d id : Nat} {t : Topo} (hid : id < 2 ^ d) (h : Rep d id t) : Rep (d + 1) (id + 2 ^ d) (.prism t) := by
  refine .prism (Or.inr ?_) ?_
  · rw [Nat.add_comm, Nat.testBit_two_pow_add_eq, Nat.testBit_lt_two_pow hid]; rfl
  · rw [Nat.add_mod_right, Nat.mod_eq_of_lt hid]; exact h

theorem rep_pyr {d id : Nat} {t : Topo} (hid : id < 2 ^ d) (h : Rep d id t) : Rep (d + 1) id (.pyr t) := by
  refine .pyr (Or.inr (Nat.testBit_lt_two_pow hid)) ?_
  rw [Nat.mod_eq_of_lt hid]; exact h

/-- C47: the tensor product of a rule exact to degree `p` on the element `id` of dimension `d` and a one
dimensional rule exact to degree `p` is exact to degree `p` on the prism over that element. -/
theorem C47_tensor (d id p : Nat) (hid : id < 2 ^ d) (B O : List (QPoint ℝ)) (hB : ExactOn d id p B)
    (hO : Exact1 0 p O) : ExactOn (d + 1) (id + 2 ^ d) p (tensorProduct (d + 1) B O) := by
  have h := rep_topoOf d id
  have ha := approx_tensor (approx_of_exactOn h hB) (approx1_of_exact1 hO)
  rw [h.dim_eq] at ha
  exact exactOn_of_approx (rep_prism hid h) (by simpa using ha)

/-- C47: the conical product with a one dimensional rule exact to degree `p + d` is exact to degree `p` on
the pyramid over the element. -/
theorem C47_conical (d id p : Nat) (hid : id < 2 ^ d) (B O : List (QPoint ℝ)) (hB : ExactOn d id p B)
    (hO : Exact1 0 (p + d) O) : ExactOn (d + 1) id p (conicalProduct (d + 1) false B O) := by
  have h := rep_topoOf d id
  have hO' := approx1_of_exact1 hO
  rw [← h.dim_eq] at hO'
  have ha := approx_conical (approx_of_exactOn h hB) hO'
  rw [h.dim_eq] at ha
  exact exactOn_of_approx (rep_pyr hid h) (by simpa using ha)

/-- C47: the conical product that respects the weight function: the one dimensional rule integrates
against `(1-z)^d`, degree `p` is enough. -/
theorem C47_jacobi (d id p : Nat) (hid : id < 2 ^ d) (B O : List (QPoint ℝ)) (hB : ExactOn d id p B)
    (hO : Exact1 d p O) : ExactOn (d + 1) id p (conicalProduct (d + 1) true B O) := by
  have h := rep_topoOf d id
  have hO' := approx1_of_exact1 hO
  rw [← h.dim_eq] at hO'
  have ha := approx_conical_weighted (approx_of_exactOn h hB) (by simpa [h.dim_eq] using hO')
  rw [h.dim_eq] at ha
  exact exactOn_of_approx (rep_pyr hid h) (by simpa using ha)

/-- the one point rule at the midpoint of the unit interval is exact to degree 1 -/
theorem midpoint_exact : Exact1 0 1 [⟨fun _ => 1 / 2, 1⟩] := by
  intro P hP
  have e : ∀ z : ℝ, P.eval z = P.coeff 0 + P.coeff 1 * z := by
    intro z
    rw [Polynomial.eval_eq_sum_range' (n := 2) (by omega)]
    simp [sum_range_succ]
  simp only [e, List.map_cons, List.map_nil, List.sum_cons, List.sum_nil, pow_zero, mul_one, one_mul, add_zero]
  rw [intervalIntegral.integral_add (Continuous.intervalIntegrable (by fun_prop) _ _)
    (Continuous.intervalIntegrable (by fun_prop) _ _), intervalIntegral.integral_const_mul, integral_id]
  simp

/-- the one point rule is exact on the point to every degree -/
theorem point_exact (p : Nat) : ExactOn 0 0 p [⟨fun _ => 0, 1⟩] := by
  refine exactOn_of_approx (.pt 0) fun a _ => ?_
  simp [quadSum, mono, Topo.dim, mom]

/-- the midpoint rule on the square from the theorem: the hypotheses are satisfiable -/
example : ExactOn 2 3 1 (tensorProduct 2 (tensorProduct 1 [⟨fun _ => 0, 1⟩] [⟨fun _ => 1 / 2, 1⟩])
    [⟨fun _ => 1 / 2, 1⟩]) :=
  C47_tensor 1 1 1 (by norm_num) _ _ (C47_tensor 0 0 1 (by norm_num) _ _ (point_exact 1) midpoint_exact) midpoint_exact

/-- degree `p` of the one dimensional rule is not enough for the conical product over an element of
dimension `d ≥ 1`: the exponent in `C47_conical` matters. -/
theorem C47_conical_order_needed : ExactOn 1 0 1 [⟨fun _ => 1 / 2, 1⟩] ∧ Exact1 0 1 [⟨fun _ => 1 / 2, 1⟩] ∧
    ¬ ExactOn 2 0 1 (conicalProduct 2 false [⟨fun _ => 1 / 2, 1⟩] [⟨fun _ => 1 / 2, 1⟩]) := by
  have h1 : Approx (.prism .pt) 1 (0 : ℝ) [⟨fun _ => 1 / 2, 1⟩] := by
    intro a ha
    have h := approx1_of_exact1 midpoint_exact (a 0) 0 (by simpa [deg, Topo.dim] using ha)
    rw [mom_prism]
    simpa [quadSum, mono, mom, Topo.dim] using h
  refine ⟨exactOn_of_approx (rep_topoOf 1 0) h1, midpoint_exact, fun h => ?_⟩
  have := approx_of_exactOn (rep_topoOf 2 0) h (fun k => k) (by decide)
  have e : topoOf 2 0 = .pyr (.prism .pt) := by decide
  rw [e, mom_tri] at this
  simp [quadSum, mono, conicalProduct, mulPow, setV, Topo.dim, prod_range_succ, Nat.factorial] at this
  norm_num at this

/-! ### C48: points inside, weights, counts -/

/-- the points of a rule for an element of dimension `d`, as points of `Fin d → ℝ` -/
def PointsIn (d id : Nat) (l : List (QPoint ℝ)) : Prop := ∀ q ∈ l, (fun i : Fin d => q.position i) ∈ refSet d id

theorem pointsIn_iff {d id : Nat} {t : Topo} (h : Rep d id t) (l : List (QPoint ℝ)) : PointsIn d id l ↔ InDom t l := by
  unfold PointsIn InDom
  refine forall_congr' fun q => forall_congr' fun _ => ?_
  rw [refSet_eq h]
  simp only [Set.mem_ofPred_eq]
  refine dom_congr_iff t 1 fun k hk => ?_
  rw [h.dim_eq] at hk
  simp [ext, hk]

/-- the sum of the weights -/
noncomputable def weightSum (l : List (QPoint ℝ)) : ℝ := (l.map QPoint.weight).sum

theorem weightSum_eq (d : Nat) (l : List (QPoint ℝ)) : weightSum l = quadSum (mono d fun _ => 0) l := by
  unfold weightSum quadSum mono
  simp

theorem mom_zero {d id : Nat} {t : Topo} (h : Rep d id t) : mom ℝ t (fun _ => 0) = exactVolume ℝ d id := by
  rw [exactVolume_eq h]
  clear h
  induction t with
  | pt => simp [mom, vol]
  | prism t ih => simp [mom, vol, ih]
  | pyr t ih =>
    have e : deg t.dim (fun _ => 0) = 0 := by simp [deg]
    rw [mom, ih, vol, e]
    have h1 : ((t.dim.factorial : Nat) : ℝ) ≠ 0 := by exact_mod_cast Nat.factorial_ne_zero _
    have h2 : ((t.dim : ℝ) + 1) ≠ 0 := by positivity
    simp only [Nat.factorial_zero, Nat.cast_one, one_mul, Nat.add_zero, Nat.zero_add, Nat.factorial_succ]
    push_cast
    field_simp

/-- C48: the products place their points in the prism / pyramid over the element. -/
theorem C48_inside (d id : Nat) (hid : id < 2 ^ d) (B O : List (QPoint ℝ)) (hB : PointsIn d id B)
    (hO : ∀ q ∈ O, 0 ≤ q.position 0 ∧ q.position 0 ≤ 1) :
    PointsIn (d + 1) (id + 2 ^ d) (tensorProduct (d + 1) B O) ∧
    ∀ r, PointsIn (d + 1) id (conicalProduct (d + 1) r B O) := by
  have h := rep_topoOf d id
  have hd := h.dim_eq
  rw [pointsIn_iff h] at hB
  constructor
  · rw [pointsIn_iff (rep_prism hid h)]
    have := inDom_tensor hB hO
    rwa [hd] at this
  · intro r
    rw [pointsIn_iff (rep_pyr hid h)]
    have := inDom_conical (r := r) hB hO
    rwa [hd] at this

/-- C48: the weights of the products are positive if the given weights are; for the conical product without
respect for the weight function the one dimensional points must stay below the apex. -/
theorem C48_positive (d : Nat) (B O : List (QPoint ℝ)) (hB : ∀ q ∈ B, 0 < q.weight) (hO : ∀ q ∈ O, 0 < q.weight) :
    (∀ q ∈ tensorProduct d B O, 0 < q.weight) ∧
    (∀ q ∈ conicalProduct d true B O, 0 < q.weight) ∧
    ((∀ q ∈ O, q.position 0 < 1) → ∀ q ∈ conicalProduct d false B O, 0 < q.weight) :=
  ⟨posW_tensor hB hO, posW_conical hB hO (by simp), fun h => posW_conical hB hO fun _ => h⟩

/-- C48: the number of points is the product of the numbers, and the weights of the tensor product sum to
the product of the sums. -/
theorem C48_size (d : Nat) (r : Bool) (B O : List (QPoint ℝ)) :
    (tensorProduct (d + 1) B O).length = B.length * O.length ∧
    (conicalProduct (d + 1) r B O).length = B.length * O.length ∧
    weightSum (tensorProduct (d + 1) B O) = weightSum B * weightSum O := by
  refine ⟨length_tensor _ _ _, length_conical _ _ _ _, ?_⟩
  rw [weightSum_eq (d + 1), quadSum_tensor, ← weightSum_eq d]
  congr 1
  simp [quadSum, weightSum]

/-- C48: the weights of a rule that is exact to some degree sum to the volume of the reference element. -/
theorem C48_volume (d id p : Nat) (l : List (QPoint ℝ)) (h : ExactOn d id p l) :
    weightSum l = exactVolume ℝ d id ∧ ENNReal.ofReal (weightSum l) = volume (refSet d id) := by
  have hr := rep_topoOf d id
  have ha := approx_of_exactOn hr h (fun _ => 0) (by simp [deg])
  have e : weightSum l = exactVolume ℝ d id := by
    rw [hr.dim_eq, ← weightSum_eq, mom_zero hr] at ha
    exact sub_eq_zero.mp (abs_eq_zero.mp (le_antisymm ha (abs_nonneg _)))
  refine ⟨e, ?_⟩
  rw [e, refSet, C19_exact]

example : weightSum (tensorProduct 2 (tensorProduct 1 [⟨fun _ => 0, 1⟩] [⟨fun _ => 1 / 2, 1⟩])
    [⟨fun _ => 1 / 2, 1⟩]) = exactVolume ℝ 2 3 :=
  (C48_volume 2 3 1 _ (C47_tensor 1 1 1 (by norm_num) _ _
    (C47_tensor 0 0 1 (by norm_num) _ _ (point_exact 1) midpoint_exact) midpoint_exact)).1

/-- full statement of the positivity part of C48 for the delivered rules -/
def C48_positive_full : Prop :=
  ∀ (env : Env ℝ) (d id p m : Nat) (qt : QType) (r : Rule ℝ), d ≤ 30 → id < 2 ^ d → IsPlain qt →
    maxOrder d ⟨d, false, id⟩ qt = .ok m → p ≤ m → rule env d ⟨d, false, id⟩ p qt = .ok r →
    ∀ q ∈ r.pts, 0 < q.weight

/-- the tabulated triangle rule of order 3 has a negative weight, and the cone over a Gauss-Lobatto rule has
points of weight zero at the apex -/
theorem C48_positive_counterexample : ¬ C48_positive_full := by
  intro h
  obtain ⟨m, hm, hs⟩ := maxOrder_tab (qt := .GaussLegendre) (h := 61) rfl (by omega) (by omega) 1 0 (by omega) (by omega)
  have hpm : 3 ≤ m := by
    rcases hs.2.2 with rfl | ⟨k, hk1, hk2, -, hk⟩ <;> omega
  have hr : rule (K := ℝ) ⟨none⟩ 2 ⟨2, false, 0⟩ (3 : Nat) .GaussLegendre = simplex2Rule 3 := by
    rw [rule, ruleWith_ok (by omega) (by omega) (Or.inr ⟨m, hm, by omega, by omega⟩)]
    simp only [factory]
    rw [if_pos ⟨by decide, by simp, by simp [simplex2Highest]⟩]
    rfl
  have hb : simplex2Rule (K := ℝ) 3 = .ok ⟨triangle, 3, Simplex2.block2.pts.map Node.point⟩ := rfl
  have := h ⟨none⟩ 2 0 3 m .GaussLegendre _ (by omega) (by omega) (Or.inl rfl) hm hpm (hr.trans hb)
  have h2 := this (Node.point (Simplex2.block2.pts[0]'(by decide))) (List.mem_map.mpr ⟨_, List.getElem_mem _, rfl⟩)
  have e : (Node.point (K := ℝ) (Simplex2.block2.pts[0]'(by decide))).weight =
    (((Simplex2.block2.pts[0]'(by decide)).w.num : Int) : ℝ) / ((Simplex2.block2.pts[0]'(by decide)).w.den : Nat) := rfl
  rw [e] at h2
  have hn : (Simplex2.block2.pts[0]'(by decide)).w.num < 0 := by decide
  have : ((((Simplex2.block2.pts[0]'(by decide)).w.num : Int) : ℝ)) < 0 := by exact_mod_cast hn
  exact absurd h2 (not_lt.mpr (div_nonpos_of_nonpos_of_nonneg this.le (Nat.cast_nonneg _)))

/-- the accuracy in the theorems about delivered rules: the decimals of the tables -/
noncomputable def tabTol : ℝ := 1 / (3 * 10 ^ 14)

theorem errD_tabTol {d : Nat} (hd : d ≤ 30) : errD ℝ d (eps1 ℝ) ≤ tabTol := by
  have hd' : (d : ℝ) ≤ 30 := by exact_mod_cast hd
  have : 2 * (d : ℝ) * eps1 ℝ ≤ 2 * 30 * eps1 ℝ := by
    have := (eps1_bounds (K := ℝ)).1
    nlinarith
  unfold errD epsT tabTol
  refine (add_le_add_right this _).trans ?_
  unfold eps1
  norm_num

/-- C48 for the delivered rules of the types Gauss-Legendre, Gauss-Lobatto, Gauss-Radau: all points lie in the
reference element, the weights sum to its volume up to the decimals of the tables, no weight is negative except
for order 3, all weights are positive if moreover the family has no point at the right end of the interval.
Missing from the full statement: positivity for the cases excluded here, where it fails. -/
theorem C48_rule_partial (env : Env ℝ) (d id p m : Nat) (qt : QType) (hd : d ≤ 30) (hid : id < 2 ^ d)
    (hq : IsPlain qt) (hm : maxOrder d ⟨d, false, id⟩ qt = .ok m) (hp : p ≤ m) :
    ∃ r, rule env d ⟨d, false, id⟩ p qt = .ok r ∧ PointsIn d id r.pts ∧
      |weightSum r.pts - exactVolume ℝ d id| ≤ tabTol ∧
      (¬ (p = 3 ∧ qt = .GaussLegendre) → ∀ q ∈ r.pts, 0 ≤ q.weight) ∧
      (qt = .GaussRadauLeft ∨ (qt = .GaussLegendre ∧ p ≠ 3) → ∀ q ∈ r.pts, 0 < q.weight) := by
  obtain ⟨r, h1, -, h2⟩ := plain_good env hq hd hid hm hp
  have hr := rep_topoOf d id
  have hn : ¬ (p = 3 ∧ qt = .GaussLegendre) → NonnegCase qt p := by
    rintro h ⟨e1, e2 | e2⟩
    · exact h ⟨e1, e2⟩
    · subst e2; rcases hq with h | h | h | h <;> cases h
  refine ⟨r, h1, (pointsIn_iff hr _).2 h2.inDom, ?_, fun h => h2.nonneg (hn h), fun h => h2.pos ⟨hn ?_, ?_, ?_⟩⟩
  · have := h2.approx (fun _ => 0) (by simp [deg])
    rw [mom_zero hr, ← weightSum_eq] at this
    exact this.trans (errD_tabTol hd)
  · rintro ⟨e1, rfl⟩
    rcases h with h | h
    · cases h
    · exact h.2 e1
  · rcases h with rfl | ⟨rfl, -⟩ <;> simp
  · rcases h with rfl | ⟨rfl, -⟩ <;> simp

/-- number of points of the Gauss-Legendre rule on the interval -/
theorem gauss_length : ((List.range 62).all fun p => match initHelper Gauss.table p with
    | .ok r => decide (r.pts.length = p / 2 + 1)
    | _ => false) = true := by decide +kernel

/-- C48: the Gauss-Legendre rule of order `p` on the cube of dimension `d` has `(p/2+1)^d` points. -/
theorem C48_cube_size (env : Env ℝ) (p : Nat) (hp : p ≤ 61) : ∀ (d id : Nat), d ≤ 30 → id < 2 ^ d → IsCubeId d id →
    ∃ r, rule env d ⟨d, false, id⟩ p .GaussLegendre = .ok r ∧ r.pts.length = (p / 2 + 1) ^ d := by
  have h1d : ∀ i, i < 2 → ∃ r, rule1 env ⟨1, false, i⟩ p .GaussLegendre = .ok r ∧ r.pts.length = p / 2 + 1 := by
    intro i hi
    rw [rule1_eq env hi (qt := .GaussLegendre) rfl hp]
    have := List.all_eq_true.mp gauss_length p (List.mem_range.mpr (by omega))
    revert this
    unfold rule1D
    cases initHelper Gauss.table p with
    | ok r => intro h; exact ⟨_, rfl, by simpa using h⟩
    | throw => simp
    | ub => simp
  intro d
  induction d with
  | zero =>
    intro id hd hid _
    obtain ⟨r, h1, -⟩ := point_good env .GaussLegendre (p := p) (by omega) hid (le_refl (0 : ℝ))
    refine ⟨pointRule, ?_, by simp [pointRule]⟩
    rw [rule, ruleWith_ok (by omega) hid (Or.inl rfl)]
    simp [factory, isVertex]
  | succ d ih =>
    intro id hd hid hc
    match d, hd, hid, hc, ih with
    | 0, hd, hid, hc, ih =>
      obtain ⟨r, e1, e2⟩ := h1d id (by simpa using hid)
      exact ⟨r, e1, by rw [e2]; ring⟩
    | d + 1, hd, hid, hc, ih =>
      have hbit : id.testBit (d + 1) = true := hc (d + 1) (by omega) (by omega)
      obtain ⟨B, b1, b2⟩ := ih (id % 2 ^ (d + 1)) (by omega) (Nat.mod_lt _ (Nat.two_pow_pos _))
        fun k hk1 hk2 => by rw [testBit_mod' hk2]; exact hc k hk1 (by omega)
      obtain ⟨m, hm, hs⟩ := maxOrder_tab (qt := .GaussLegendre) (h := 61) rfl (by omega) (by omega) (d + 1) id hd hid
      have hm61 : m = 61 := by
        rcases hs.2.2 with h | ⟨k, hk1, hk2, hk3, -⟩
        · exact h
        · rw [hc k hk1 hk2] at hk3; cases hk3
      have hge := Nat.ge_two_pow_of_testBit hbit
      have hns : isSimplex ⟨d + 2, false, id⟩ = false := by
        rw [Bool.eq_false_iff]
        intro h
        rw [isSimplex_iff] at h
        have : 2 ^ 1 ≤ 2 ^ (d + 1) := Nat.pow_le_pow_right (by omega) (by omega)
        omega
      obtain ⟨o, o1, o2⟩ := h1d 0 (by omega)
      have ht : ∃ r, tensorRule env (d + 2) id p .GaussLegendre (.ok B) = .ok r ∧
          r.pts.length = (p / 2 + 1) ^ (d + 2) := by
        unfold tensorRule
        simp only [ok_bind, show d + 2 - 1 = d + 1 from rfl, hbit, if_true, line_eq, o1]
        refine ⟨_, rfl, ?_⟩
        simp only [length_tensor, b2, o2]
        ring
      rw [rule, ruleWith_ok hd hid (Or.inr ⟨m, hm, by omega, by omega⟩)]
      simp only
      rw [baseTypeOf_eq (by omega) hid, b1]
      match d, hd, hid, hc, hns, ht with
      | 0, _, _, _, hns, ht =>
        simp only [factory]
        rw [if_neg (by rw [hns]; simp)]
        exact ht
      | 1, _, hid, hc, hns, ht =>
        have hnp : isPrism ⟨3, false, id⟩ = false := by
          rw [Bool.eq_false_iff]
          intro h
          simp only [isPrism, Bool.not_false, Bool.true_and, Bool.and_eq_true, beq_iff_eq, or_one_eq] at h
          have h1 := hc 1 (by omega) (by omega)
          have : id = 4 ∨ id = 5 := by omega
          rcases this with rfl | rfl <;> revert h1 <;> decide
        simp only [factory]
        rw [if_neg (by rw [hns]; simp), if_neg (by rw [hnp]; simp)]
        exact ht
      | d + 2, _, _, _, _, ht =>
        simp only [factory]
        exact ht

example : IsCubeId 5 0b11111 ∧ (61 / 2 + 1) ^ 5 = 28629151 := ⟨fun k _ hk => by interval_cases k <;> decide, by norm_num⟩

/-! ### C49: the tables -/

/-- the integral of a power against `(1-z)^α` -/
theorem integral_bet (k α : Nat) : ∫ z in (0:ℝ)..1, z ^ k * (1 - z) ^ α = bet ℝ k α := by
  have h := integral_beta k α 1
  simpa [bet] using h

/-- C49: every rule of the six one dimensional tables (Gauss-Legendre, Gauss-Lobatto, Gauss-Radau left and
right, Gauss-Jacobi with exponents 1 and 2) integrates every polynomial up to its order, against the weight
`(2(1-z))^α`, with an error of `10^-79` relative to the coefficients. -/
theorem C49_interval (α : Nat) (tab : List Row)
    (ht : (α, tab) ∈ [(0, Gauss.table), (0, Lobatto.table), (0, RadauLeft.table), (0, RadauRight.table),
      (1, Jacobi1.table), (2, Jacobi2.table)]) (r : Row) (hr : r ∈ tab) (P : Polynomial ℝ)
    (hP : P.natDegree ≤ r.order) :
    |((r.pts.map Node.point).map fun q => q.weight * P.eval (q.position 0)).sum -
      ∫ z in (0:ℝ)..1, P.eval z * (2 * (1 - z)) ^ α| ≤ 1 / 10 ^ 79 * ∑ k ∈ range (P.natDegree + 1), |P.coeff k| := by
  have hok : r.ok1 α = true := by
    simp only [List.mem_cons, Prod.mk.injEq, List.not_mem_nil, or_false] at ht
    rcases ht with ⟨rfl, rfl⟩ | ⟨rfl, rfl⟩ | ⟨rfl, rfl⟩ | ⟨rfl, rfl⟩ | ⟨rfl, rfl⟩ | ⟨rfl, rfl⟩
    · exact List.all_eq_true.mp gauss_ok r hr
    · exact List.all_eq_true.mp lobatto_ok r hr
    · exact List.all_eq_true.mp radauLeft_ok r hr
    · exact List.all_eq_true.mp radauRight_ok r hr
    · exact List.all_eq_true.mp jacobi1_ok r hr
    · exact List.all_eq_true.mp jacobi2_ok r hr
  have e1 : ((r.pts.map (Node.point (K := ℝ))).map fun q => q.weight * P.eval (q.position 0)).sum =
      ∑ k ∈ range (P.natDegree + 1), P.coeff k * quadSum (fun x => x 0 ^ k) (r.pts.map Node.point) := by
    rw [← quadSum_sum]
    unfold quadSum
    congr 1
    refine List.map_congr_left fun q _ => ?_
    beta_reduce
    rw [Polynomial.eval_eq_sum_range]
  have e2 : ∫ z in (0:ℝ)..1, P.eval z * (2 * (1 - z)) ^ α =
      ∑ k ∈ range (P.natDegree + 1), P.coeff k * (2 ^ α * bet ℝ k α) := by
    have : ∀ z : ℝ, P.eval z * (2 * (1 - z)) ^ α =
        ∑ k ∈ range (P.natDegree + 1), P.coeff k * 2 ^ α * (z ^ k * (1 - z) ^ α) := by
      intro z
      rw [Polynomial.eval_eq_sum_range, sum_mul, mul_pow]
      exact sum_congr rfl fun k _ => by ring
    simp only [this]
    rw [intervalIntegral.integral_finsetSum fun k _ => Continuous.intervalIntegrable (by fun_prop) _ _]
    refine sum_congr rfl fun k _ => ?_
    rw [intervalIntegral.integral_const_mul, integral_bet, mul_assoc]
  rw [e1, e2, ← sum_sub_distrib, mul_sum]
  refine (abs_sum_le_sum_abs _ _).trans (sum_le_sum fun k hk => ?_)
  rw [← mul_sub, abs_mul, mul_comm]
  refine mul_le_mul_of_nonneg_right (ok1_moment hok k ?_) (abs_nonneg _)
  have := mem_range.mp hk
  omega

example : Gauss.row30 ∈ Gauss.table ∧ Gauss.row30.order = 61 ∧ Gauss.row30.pts.length = 31 := by
  refine ⟨by simp [Gauss.table], rfl, rfl⟩

/-- C49: the orders of the one dimensional tables: `n` points give order `2n-1` (Gauss and Gauss-Jacobi), `2n-3`
(Lobatto), `2n-2` (Radau); all points lie in the interval, all weights are positive. -/
theorem C49_interval_points :
    (∀ r ∈ Gauss.table ++ Jacobi1.table ++ Jacobi2.table, r.order + 1 = 2 * r.pts.length) ∧
    (∀ r ∈ Lobatto.table, r.order + 3 = 2 * r.pts.length) ∧
    (∀ r ∈ RadauLeft.table ++ RadauRight.table, r.order + 2 = 2 * r.pts.length) ∧
    (∀ r ∈ Gauss.table ++ Jacobi1.table ++ Jacobi2.table, ∀ q ∈ r.pts.map (Node.point (K := ℝ)),
      0 < q.position 0 ∧ q.position 0 < 1) ∧
    (∀ r ∈ Gauss.table ++ Jacobi1.table ++ Jacobi2.table ++ Lobatto.table ++ RadauLeft.table ++ RadauRight.table,
      ∀ q ∈ r.pts.map (Node.point (K := ℝ)), (0 ≤ q.position 0 ∧ q.position 0 ≤ 1) ∧ 0 < q.weight) := by
  have hg : ∀ r ∈ Gauss.table ++ Jacobi1.table ++ Jacobi2.table, r.gaussShape = true := by
    intro r hr
    simp only [List.mem_append] at hr
    rcases hr with (hr | hr) | hr
    · exact List.all_eq_true.mp gauss_shape r hr
    · exact List.all_eq_true.mp jacobi1_shape r hr
    · exact List.all_eq_true.mp jacobi2_shape r hr
  refine ⟨?_, ?_, ?_, ?_, ?_⟩
  · intro r hr
    have := hg r hr
    simp only [Row.gaussShape, Bool.and_eq_true, decide_eq_true_eq] at this
    exact this.1
  · intro r hr; simpa using List.all_eq_true.mp lobatto_shape r hr
  · intro r hr
    simp only [List.mem_append] at hr
    rcases hr with hr | hr
    · simpa using List.all_eq_true.mp radauLeft_shape r hr
    · simpa using List.all_eq_true.mp radauRight_shape r hr
  · intro r hr
    have := hg r hr
    simp only [Row.gaussShape, Bool.and_eq_true] at this
    exact inner_sound this.2
  · intro r hr q hq
    have : ∃ α, r.ok1 α = true := by
      simp only [List.mem_append] at hr
      rcases hr with ((((hr | hr) | hr) | hr) | hr) | hr
      · exact ⟨0, List.all_eq_true.mp gauss_ok r hr⟩
      · exact ⟨1, List.all_eq_true.mp jacobi1_ok r hr⟩
      · exact ⟨2, List.all_eq_true.mp jacobi2_ok r hr⟩
      · exact ⟨0, List.all_eq_true.mp lobatto_ok r hr⟩
      · exact ⟨0, List.all_eq_true.mp radauLeft_ok r hr⟩
      · exact ⟨0, List.all_eq_true.mp radauRight_ok r hr⟩
    obtain ⟨α, h⟩ := this
    simp only [Row.ok1, Bool.and_eq_true] at h
    exact ⟨in01_sound h.1.2 q hq, posW_sound h.2 q hq⟩

/-- C49: every block of the triangle table that is written integrates all polynomials up to its order up to
`10^-32` relative to the coefficients (`1/(4 10^14)` for the block of order 12). -/
theorem C49_triangle (r : Row) (hr : r ∈ Simplex2.blocks) :
    ExactUpTo 2 0 r.order (if r.order = 12 then 1 / (4 * 10 ^ 14) else 1 / 10 ^ 32) (r.pts.map Node.point) := by
  have h := List.all_eq_true.mp simplex2_ok r hr
  simp only [Row.okTri, Bool.and_eq_true] at h
  refine exactUpTo_of_approx (rep_topoOf 2 0) fun a ha => ?_
  have e : topoOf 2 0 = .pyr (.prism .pt) := by decide
  rw [e, mom_tri]
  rw [e] at ha
  have := row_moment (K := ℝ) h.1 a ha
  have e2 : (((simplexMom ((List.range 2).map a)).1 : Nat) : ℝ) / (((simplexMom ((List.range 2).map a)).2 : Nat) : ℝ) =
      ((a 0).factorial : ℝ) * (a 1).factorial / ((a 0 + a 1 + 2).factorial : ℝ) := by
    simp [simplexMom, List.range_succ]
  rw [e2] at this
  refine this.trans (le_of_eq ?_)
  split <;> norm_num

/-- C49: the blocks of the tetrahedron table, up to `10^-17`. -/
theorem C49_tetrahedron (r : Row) (hr : r ∈ Simplex3.blocks) :
    ExactUpTo 3 0 r.order (1 / 10 ^ 17) (r.pts.map Node.point) := by
  have h := List.all_eq_true.mp simplex3_ok r hr
  simp only [Row.okTet, Bool.and_eq_true] at h
  refine exactUpTo_of_approx (rep_topoOf 3 0) fun a ha => ?_
  have e : topoOf 3 0 = .pyr (.pyr (.prism .pt)) := by decide
  rw [e, mom_tet]
  rw [e] at ha
  have := row_moment (K := ℝ) h.1 a ha
  have e2 : (((simplexMom ((List.range 3).map a)).1 : Nat) : ℝ) / (((simplexMom ((List.range 3).map a)).2 : Nat) : ℝ) =
      ((a 0).factorial : ℝ) * (a 1).factorial * (a 2).factorial / ((a 0 + a 1 + a 2 + 3).factorial : ℝ) := by
    simp [simplexMom, List.range_succ, mul_assoc, add_assoc]
  rw [e2] at this
  refine this.trans (le_of_eq ?_)
  norm_num

/-- C49: the rule of the prism table that is in effect (the second block overwrites the first), up to
`10^-15`. -/
theorem C49_prism : ∃ r, lastBlock Prism3.blocks 6 = some r ∧ r.order = 2 ∧
    ExactUpTo 3 5 2 (1 / 10 ^ 15) (r.pts.map Node.point) := by
  refine ⟨_, prism3_sel.1, prism3_sel.2, exactUpTo_of_approx (rep_topoOf 3 5) fun a ha => ?_⟩
  have h := prism3_ok
  simp only [Row.okPrism, Bool.and_eq_true] at h
  have e : topoOf 3 5 = .prism (.pyr (.prism .pt)) := by decide
  rw [e, mom_pri]
  rw [e] at ha
  have := row_moment (K := ℝ) h.1 a ha
  have e2 : (((prismMom ((List.range 3).map a)).1 : Nat) : ℝ) / (((prismMom ((List.range 3).map a)).2 : Nat) : ℝ) =
      ((a 0).factorial : ℝ) * (a 1).factorial / (((a 0 + a 1 + 2).factorial : ℝ) * (a 2 + 1)) := by
    simp [prismMom, List.range_succ]
  rw [e2] at this
  refine this.trans (le_of_eq ?_)
  norm_num

example : Simplex2.block11 ∈ Simplex2.blocks ∧ Simplex2.block11.order = 12 ∧ Simplex2.block10.order = 11 :=
  ⟨by simp [Simplex2.blocks], rfl, rfl⟩

/-- C49: whatever is requested from `QuadratureRules<double,d>` with `d ≤ 30`, a type of dimension `d`, one of
the families Gauss-Legendre, Gauss-Lobatto, Gauss-Radau and an order `p` up to `maxOrder`: the delivered rule
integrates every polynomial up to the order *the rule reports* over the reference element, up to the
decimals of the tables. -/
theorem C49_rule (env : Env ℝ) (d id p m : Nat) (qt : QType) (hd : d ≤ 30) (hid : id < 2 ^ d)
    (hq : IsPlain qt) (hm : maxOrder d ⟨d, false, id⟩ qt = .ok m) (hp : p ≤ m) :
    ∃ r, rule env d ⟨d, false, id⟩ p qt = .ok r ∧ ExactUpTo d id r.order.toNat tabTol r.pts := by
  obtain ⟨r, h1, -, h2⟩ := plain_good env hq hd hid hm hp
  exact ⟨r, h1, exactUpTo_of_approx (rep_topoOf d id) (h2.approx.mono (le_refl _) (errD_tabTol hd))⟩

/-- C49 for the family `GaussJacobi_n_0` without an eigenvalue solver: dimensions up to 3, orders up to 60. -/
theorem C49_rule_jacobi (env : Env ℝ) (d id p : Nat) (hd : d ≤ 3) (hid : id < 2 ^ d) (hp : p ≤ 60) :
    ∃ r, rule env d ⟨d, false, id⟩ p .GaussJacobi_n_0 = .ok r ∧ (p : Int) ≤ r.order ∧
      ExactUpTo d id r.order.toNat tabTol r.pts ∧ PointsIn d id r.pts := by
  have hr := rep_topoOf d id
  obtain ⟨r, h1, -, h2⟩ := jacobi_good env (d := d) (id := id) (p := p) (by omega) hid (by omega) eps1_bounds.1
    eps1_bounds.2 fun α hα => jacobi_table env hp (by omega)
  exact ⟨r, h1, h2.order, exactUpTo_of_approx hr (h2.approx.mono (le_refl _) (errD_tabTol (by omega))),
    (pointsIn_iff hr _).2 h2.inDom⟩

/-- C49 for `GaussJacobi_n_0` with an eigenvalue solver of accuracy `δ`: every dimension up to 30 and every
order up to 127. -/
theorem C49_rule_lapack (env : Env ℝ) (δ : ℝ) (hδ : eps1 ℝ ≤ δ) (hδ1 : δ ≤ 1 / 100) (hl : LapackOK env δ)
    (d id p : Nat) (hd : d ≤ 30) (hid : id < 2 ^ d) (hp : p ≤ 127) :
    ∃ r, rule env d ⟨d, false, id⟩ p .GaussJacobi_n_0 = .ok r ∧ (p : Int) ≤ r.order ∧
      ExactUpTo d id r.order.toNat (1 / (4 * 10 ^ 14) + 2 * d * δ) r.pts ∧ PointsIn d id r.pts := by
  have hr := rep_topoOf d id
  have h0 := (eps1_bounds (K := ℝ)).1
  obtain ⟨r, h1, -, h2⟩ := jacobi_good env (d := d) (id := id) (p := p) hd hid hp (h0.trans hδ) hδ1
    fun α hα => jacobi_lapack hl hδ hp (by omega)
  exact ⟨r, h1, h2.order, exactUpTo_of_approx hr h2.approx, (pointsIn_iff hr _).2 h2.inDom⟩

/-! ### C50: order and type -/

/-- C50: `maxOrder` of the tabulated families in dimension 1 to 30: the order `h` of the one dimensional table,
lowered by the dimension `k` of the base of the last cone. -/
theorem C50_maxOrder (d id : Nat) (qt : QType) (h : Nat) (tab : List Row) (h1 : 1 ≤ d) (hd : d ≤ 30)
    (hid : id < 2 ^ d) (ht : tableOf qt = some (tab, h)) :
    ∃ m, maxOrder d ⟨d, false, id⟩ qt = .ok m ∧ m ≤ h ∧
      (∀ k, 1 ≤ k → k < d → id.testBit k = false → m + k ≤ h) ∧
      (m = h ∨ ∃ k, 1 ≤ k ∧ k < d ∧ id.testBit k = false ∧ m + k = h) := by
  obtain ⟨d, rfl⟩ : ∃ e, d = e + 1 := ⟨d - 1, by omega⟩
  refine maxOrder_tab ht ?_ ?_ d id hd hid
  · cases qt <;> simp only [tableOf, Option.some.injEq, Prod.mk.injEq, reduceCtorEq] at ht <;> omega
  · cases qt <;> simp only [tableOf, Option.some.injEq, Prod.mk.injEq, reduceCtorEq] at ht <;> omega

/-- C50: `maxOrder` of the family `GaussJacobi_n_0` is 127, in every dimension from 1 to 30. -/
theorem C50_maxOrder_n (d id : Nat) (h1 : 1 ≤ d) (hd : d ≤ 30) (hid : id < 2 ^ d) :
    maxOrder d ⟨d, false, id⟩ .GaussJacobi_n_0 = .ok 127 := by
  obtain ⟨d, rfl⟩ : ∃ e, d = e + 1 := ⟨d - 1, by omega⟩
  exact maxOrder_n d id hd hid

/-- full statement: the requested order and type are delivered up to `maxOrder`, an order above `maxOrder` is
reported by the exception, in all families -/
def C50_full : Prop :=
  ∀ (env : Env ℝ) (t : GeometryType) (p : Int) (qt : QType) (m : Nat), Regular t → t.dim ≤ 30 →
    maxOrder t.dim t qt = .ok m →
    (0 ≤ p → p ≤ m → ∃ r, rule env t.dim t p qt = .ok r ∧ p ≤ r.order ∧ eq r.type t = true) ∧
    ((m : Int) < p → rule env t.dim t p qt = .throw)

/-- an order above `maxOrder` is an access behind the end of a vector, and without LAPACK the family
`GaussJacobi_n_0` fails for orders that `maxOrder` declares as available -/
theorem C50_counterexample : ¬ C50_full ∧
    rule (K := ℝ) ⟨none⟩ 1 line 62 .GaussLegendre = .ub ∧ rule (K := ℝ) ⟨none⟩ 1 line (-1) .GaussLegendre = .ub ∧
    maxOrder 1 line .GaussJacobi_n_0 = .ok 127 ∧ rule (K := ℝ) ⟨none⟩ 1 line 61 .GaussJacobi_n_0 = .throw := by
  have hu : rule (K := ℝ) ⟨none⟩ 1 line 62 .GaussLegendre = .ub := rfl
  refine ⟨fun h => ?_, hu, rfl, rfl, rfl⟩
  have := (h ⟨none⟩ line 62 .GaussLegendre 61 ⟨rfl, by decide⟩ (by decide) rfl).2 (by decide)
  have e : line.dim = 1 := rfl
  rw [e, hu] at this
  cases this

/-- C50 for orders between 0 and `maxOrder`, in the families Gauss-Legendre, Gauss-Lobatto, Gauss-Radau.
Missing: orders above `maxOrder` (undefined behaviour instead of an exception) and the Gauss-Jacobi families
(see `C50_jacobi_partial`). -/
theorem C50_partial (env : Env ℝ) (t : GeometryType) (p : Int) (qt : QType) (m : Nat) (h : Regular t)
    (hd : t.dim ≤ 30) (hq : IsPlain qt) (hm : maxOrder t.dim t qt = .ok m) (h0 : 0 ≤ p) (hp : p ≤ m) :
    ∃ r, rule env t.dim t p qt = .ok r ∧ p ≤ r.order ∧ eq r.type t = true := by
  obtain ⟨d, n, id⟩ := t
  obtain ⟨hn, hv⟩ := h
  simp only at hn hv hd hm
  subst hn
  obtain ⟨p, rfl⟩ := Int.eq_ofNat_of_zero_le h0
  obtain ⟨r, h1, h2, h3⟩ := plain_good env hq hd hv hm (p := p) (by omega)
  exact ⟨r, h1, h3.order, h2⟩

/-- C50 for the family `GaussJacobi_n_0`: dimension up to 3 and orders up to 60, or an eigenvalue solver. -/
theorem C50_jacobi_partial (env : Env ℝ) (t : GeometryType) (p : Nat) (h : Regular t) (hd : t.dim ≤ 30)
    (hp : (t.dim ≤ 3 ∧ p ≤ 60) ∨ (p ≤ 127 ∧ LapackOK env (1 / 100))) :
    ∃ r, rule env t.dim t p .GaussJacobi_n_0 = .ok r ∧ (p : Int) ≤ r.order ∧ eq r.type t = true := by
  obtain ⟨d, n, id⟩ := t
  obtain ⟨hn, hv⟩ := h
  simp only at hn hv hd hp
  subst hn
  have hb := eps1_bounds (K := ℝ)
  rcases hp with ⟨hd3, hp⟩ | ⟨hp, hl⟩
  · obtain ⟨r, h1, h2, h3⟩ := jacobi_good env (d := d) (id := id) (p := p) hd hv (by omega) hb.1 hb.2
      fun α hα => jacobi_table env hp (by omega)
    exact ⟨r, h1, h3.order, h2⟩
  · obtain ⟨r, h1, h2, h3⟩ := jacobi_good env (d := d) (id := id) (p := p) hd hv hp (hb.1.trans hb.2) (le_refl _)
      fun α hα => jacobi_lapack hl hb.2 hp (by omega)
    exact ⟨r, h1, h3.order, h2⟩

/-- C50: what happens outside the supported orders: undefined behaviour in every dimension from 1 to 30, every
type and family. -/
theorem C50_out_of_range (env : Env ℝ) (t : GeometryType) (p : Int) (qt : QType) (m : Nat) (h : Regular t)
    (h1 : 1 ≤ t.dim) (hd : t.dim ≤ 30) (hm : maxOrder t.dim t qt = .ok m) (hp : p < 0 ∨ (m : Int) < p) :
    rule env t.dim t p qt = .ub := by
  obtain ⟨d, n, id⟩ := t
  obtain ⟨hn, hv⟩ := h
  simp only at hn hv hd hm h1
  subst hn
  obtain ⟨d, rfl⟩ : ∃ e, d = e + 1 := ⟨d - 1, by omega⟩
  have hs : localSize (d + 1) = some (2 ^ (d + 1) - 2 ^ (d + 1) / 2 + 1) := by
    unfold localSize; rw [regularSize_eq hd]; rfl
  have hi : localIndex ⟨d + 1, false, id⟩ = some (id / 2) := by simp [localIndex, shr_one]
  have hlt := half_lt_pow hv
  simp only [rule]
  unfold ruleWith
  rw [hs, hi, hm]
  simp only [ne_eq, not_true_eq_false, if_false]
  rw [if_neg (by omega), if_neg (by omega), if_pos (by omega)]

/-- C50: the one dimensional tables themselves do throw outside their orders and nowhere else -/
theorem C50_table (qt : QType) (tab : List Row) (h : Nat) (ht : tableOf qt = some (tab, h)) (p : Int) :
    (rule1D (K := ℝ) tab p = .throw ↔ p < 0 ∨ h < p) ∧ (0 ≤ p → p ≤ h → ∃ r, rule1D (K := ℝ) tab p = .ok r ∧ p ≤ r.order) := by
  have key : ∀ (tab : List Row) (h : Nat), coverOK tab h = true → (tab.all fun r => r.cases.all fun c => decide (c ≤ h)) = true →
      (rule1D (K := ℝ) tab p = .throw ↔ p < 0 ∨ h < p) ∧
        (0 ≤ p → p ≤ h → ∃ r, rule1D (K := ℝ) tab p = .ok r ∧ p ≤ r.order) := by
    intro tab h h1 h2
    have ok : 0 ≤ p → p ≤ h → ∃ r, rule1D (K := ℝ) tab p = .ok r ∧ p ≤ r.order := by
      intro h0 hp
      obtain ⟨q, rfl⟩ := Int.eq_ofNat_of_zero_le h0
      obtain ⟨r, e1, e2, e3⟩ := cover_row h1 (p := q) (by omega)
      exact ⟨⟨line, r.order, r.pts.map Node.point⟩, by simp [rule1D, e1], by simpa using e3⟩
    refine ⟨⟨fun e => ?_, fun hp => ?_⟩, ok⟩
    · by_contra hc
      obtain ⟨r, hr, -⟩ := ok (by omega) (by omega)
      rw [hr] at e
      exact nomatch e
    · have : tab.find? (fun r => r.cases.any fun c => (c : Int) == p) = none := by
        rw [List.find?_eq_none]
        intro r hr hc
        obtain ⟨c, hc, he⟩ := List.any_eq_true.1 hc
        have := List.all_eq_true.1 (List.all_eq_true.1 h2 r hr) c hc
        simp only [beq_iff_eq, decide_eq_true_eq] at he this
        omega
      rw [rule1D, initHelper, this]
      rfl
  cases qt <;> simp only [tableOf, Option.some.injEq, Prod.mk.injEq, reduceCtorEq] at ht <;> obtain ⟨rfl, rfl⟩ := ht
  · exact key _ _ gauss_cover (by decide +kernel)
  · exact key _ _ jacobi1_cover (by decide +kernel)
  · exact key _ _ jacobi2_cover (by decide +kernel)
  · exact key _ _ lobatto_cover (by decide +kernel)
  · exact key _ _ radauLeft_cover (by decide +kernel)
  · exact key _ _ radauRight_cover (by decide +kernel)

example : tableOf .GaussLobatto = some (Lobatto.table, 31) := rfl

/-- C50 also fails for none types: the delivered rule has the type of a simplex. -/
theorem C50_none_counterexample :
    ∃ r, rule (K := ℝ) ⟨none⟩ 4 (noneType 4) 0 .GaussLegendre = .ok r ∧ eq r.type (noneType 4) = false ∧
      r.type = simplex 4 := ⟨_, rfl, rfl, rfl⟩

example : Regular ⟨5, false, 0b10110⟩ ∧ maxOrder 5 ⟨5, false, 0b10110⟩ .GaussLobatto = .ok 28 :=
  ⟨⟨rfl, by decide⟩, by decide +kernel⟩

end Verif.Quad
