import Verif.Quad.ErrorLemmas
import Mathlib.Analysis.SpecialFunctions.Trigonometric.Deriv

/-! Property C85: how accurate a rule is for functions that are not polynomials. -/

namespace Verif.Quad

open Verif.RefGeom Verif.RefTopo Verif.Typ Verif.Refine Verif.MatHelp MeasureTheory
open Verif.Affine (AffineGeometry ofJacobian_good C28_local_global)
open Finset hiding ext
open Matrix hiding vec ext

noncomputable section

/-! ## Best approximation -/

/-- C85: a rule that integrates polynomials of degree `p` up to `ε` integrates a continuous function up to its distance from any
polynomial `P` of degree `p`, times the stability constant of the rule, plus `ε` times the size of the coefficients of `P` -/
theorem C85_best (d id p : Nat) (ε : ℝ) (l : List (QPoint ℝ)) (hl : ExactUpTo d id p ε l) (hp : PointsIn d id l)
    (f : (Fin d → ℝ) → ℝ) (hf : Continuous f) (P : MvPolynomial (Fin d) ℝ) (hP : P.totalDegree ≤ p) (η : ℝ)
    (h : ∀ x ∈ refSet d id, |f x - P.eval x| ≤ η) :
    |quadOf f l - ∫ x in refSet d id, f x| ≤
      η * ((l.map fun q => |q.weight|).sum + volume.real (refSet d id)) + ε * coeffSum P :=
  quad_error hl hp hf hP h

/-- the sum of the absolute values of weights of one sign -/
theorem absWeights_le {d id p : Nat} {ε : ℝ} {l : List (QPoint ℝ)} (hl : ExactUpTo d id p ε l) (hn : ∀ q ∈ l, 0 ≤ q.weight) :
    absWeights l ≤ volume.real (refSet d id) + ε := by
  have h := hl 1 (by rw [MvPolynomial.totalDegree_one]; omega)
  have e1 : coeffSum (1 : MvPolynomial (Fin d) ℝ) ≤ 1 := by
    have := coeffSum_monomial (d := d) 0 1
    rwa [abs_one] at this
  have e2 : quadOf (fun x => (1 : MvPolynomial (Fin d) ℝ).eval x) l = absWeights l := by
    rw [absWeights_eq hn]; simp [quadOf, weightSum]
  have e3 : ∫ x in refSet d id, (1 : MvPolynomial (Fin d) ℝ).eval x = volume.real (refSet d id) := by simp
  rw [e2, e3] at h
  have := (abs_le.1 h).2
  nlinarith [eps_nonneg hl]

/-- a delivered rule: points, polynomials, weights -/
theorem delivered (env : Env ℝ) (d id p m : Nat) (qt : QType) (hd : d ≤ 30) (hid : id < 2 ^ d)
    (hq : IsPlain qt) (hm : maxOrder d ⟨d, false, id⟩ qt = .ok m) (hp : p ≤ m) :
    ∃ r, rule env d ⟨d, false, id⟩ p qt = .ok r ∧ PointsIn d id r.pts ∧ ExactUpTo d id p tabTol r.pts ∧
      (¬ (p = 3 ∧ qt = .GaussLegendre) → absWeights r.pts ≤ volume.real (refSet d id) + tabTol) := by
  obtain ⟨r, h1, h2, -, h4, -⟩ := C48_rule_partial env d id p m qt hd hid hq hm hp
  obtain ⟨r', g1, g2⟩ := C49_rule env d id p m qt hd hid hq hm hp
  obtain ⟨r'', k1, k2, k3⟩ := plain_good env hq hd hid hm hp
  cases h1.symm.trans g1
  cases h1.symm.trans k1
  have hor := k3.order
  have g3 : ExactUpTo d id p tabTol r.pts := fun P hP => g2 P (hP.trans (by omega))
  exact ⟨r, h1, h2, g3, fun h => absWeights_le g3 (h4 h)⟩

/-- C85 for all delivered rules: on every reference element the error for a continuous function is at most twice the volume
times the distance to the polynomials of the requested degree, up to the decimals of the tables.  (The exception is the rule
of order 3 with negative weights, see C48.) -/
theorem C85_rule (env : Env ℝ) (d id p m : Nat) (qt : QType) (hd : d ≤ 30) (hid : id < 2 ^ d)
    (hq : IsPlain qt) (hm : maxOrder d ⟨d, false, id⟩ qt = .ok m) (hp : p ≤ m) (h3 : ¬ (p = 3 ∧ qt = .GaussLegendre)) :
    ∃ r, rule env d ⟨d, false, id⟩ p qt = .ok r ∧
      ∀ (f : (Fin d → ℝ) → ℝ) (P : MvPolynomial (Fin d) ℝ) (η : ℝ), Continuous f → P.totalDegree ≤ p →
        (∀ x ∈ refSet d id, |f x - P.eval x| ≤ η) →
        |quadOf f r.pts - ∫ x in refSet d id, f x| ≤ η * (2 * volume.real (refSet d id) + tabTol) + tabTol * coeffSum P := by
  obtain ⟨r, h1, h2, h4, h5⟩ := delivered env d id p m qt hd hid hq hm hp
  refine ⟨r, h1, fun f P η hf hP h => (quad_error h4 h2 hf hP h).trans ?_⟩
  have hη : 0 ≤ η := (abs_nonneg _).trans (h 0 (zero_mem_refSet d id))
  have := h5 h3
  nlinarith

/-! ## Smooth functions -/

/-- C85: smooth functions on the reference element.  `B k` bounds the derivatives of order `k`; the sum of the absolute values
of the weights is part of the bound, so the rule of order 3 is included. -/
theorem C85_smooth (env : Env ℝ) (d id p m : Nat) (qt : QType) (hd : d ≤ 30) (hid : id < 2 ^ d)
    (hq : IsPlain qt) (hm : maxOrder d ⟨d, false, id⟩ qt = .ok m) (hp : p ≤ m) :
    ∃ r, rule env d ⟨d, false, id⟩ p qt = .ok r ∧
      ∀ (f : (Fin d → ℝ) → ℝ) (B : Nat → ℝ), ContDiff ℝ (p + 1) f →
        (∀ k ≤ p + 1, ∀ x ∈ refSet d id, ‖iteratedFDeriv ℝ k f x‖ ≤ B k) →
        |quadOf f r.pts - ∫ x in refSet d id, f x| ≤
          B (p + 1) / (p + 1).factorial * ((r.pts.map fun q => |q.weight|).sum + volume.real (refSet d id)) +
          tabTol * ∑ k ∈ range (p + 1), B k * (d : ℝ) ^ k / k.factorial := by
  obtain ⟨r, h1, h2, h4, -⟩ := delivered env d id p m qt hd hid hq hm hp
  refine ⟨r, h1, fun f B hf hB => ?_⟩
  have := affine_error h4 h2 hf 0 1 (h := 1) (B := B) (fun x hx => by
    rw [Matrix.one_mulVec]
    refine (pi_norm_le_iff_of_nonneg zero_le_one).2 fun i => ?_
    have := refSet_bounds hx i
    rw [Real.norm_of_nonneg this.1]; exact this.2) (fun k hk x hx => by
    rw [Matrix.one_mulVec, zero_add]; exact hB k hk x hx)
  simp only [Matrix.one_mulVec, zero_add, errorBound, one_pow, mul_one] at this
  exact this

/-- C85: smooth functions on an element of size `h`, the image of a reference element under an affine geometry: the error of the
rule of order `p` is of order `h ^ (p + 1)` relative to the volume, up to the decimals of the tables -/
theorem C85_element (env : Env ℝ) (d id p m : Nat) (qt : QType) (hd : d ≤ 30) (hid : id < 2 ^ d)
    (hq : IsPlain qt) (hm : maxOrder d ⟨d, false, id⟩ qt = .ok m) (hp : p ≤ m)
    (o : Vec ℝ) (jt : Mat ℝ) (g : AffineGeometry) (hg : AffineGeometry.ofJacobian d d id o jt = some g) :
    ∃ r, rule env d ⟨d, false, id⟩ p qt = .ok r ∧
      ∀ (f : (Fin d → ℝ) → ℝ) (B : Nat → ℝ) (h : ℝ), ContDiff ℝ (p + 1) f →
        (∀ y ∈ affineMap d g '' refSet d id, ∀ z ∈ affineMap d g '' refSet d id, ‖y - z‖ ≤ h) →
        (∀ k ≤ p + 1, ∀ y ∈ affineMap d g '' refSet d id, ‖iteratedFDeriv ℝ k f y‖ ≤ B k) →
        |quadOf (fun x => f (affineMap d g x) * g.integrationElement) r.pts - ∫ y in affineMap d g '' refSet d id, f y| ≤
          g.integrationElement * errorBound d p tabTol ((r.pts.map fun q => |q.weight|).sum + volume.real (refSet d id)) B h := by
  obtain ⟨r, h1, h2, h4, -⟩ := delivered env d id p m qt hd hid hq hm hp
  refine ⟨r, h1, fun f B h hf hh hB => ?_⟩
  have hint := C72_affine_integral d id o jt g hg f
  obtain ⟨rfl, hc, rfl, rfl, rfl, hgood⟩ := ofJacobian_good (le_refl d) hg
  have hie : 0 ≤ g.integrationElement := by
    have hdet := hgood.det
    rw [hc, sqrt_det_square] at hdet
    rw [hdet]; exact abs_nonneg _
  have e : ∀ x, affineMap g.mydim g x = vec g.mydim g.origin + (mat g.mydim g.mydim g.jt)ᵀ *ᵥ x := affineMap_eq hc
  have hz := zero_mem_refSet g.mydim g.id
  have key := affine_error h4 h2 hf (vec g.mydim g.origin) (mat g.mydim g.mydim g.jt)ᵀ (h := h) (B := B) (fun x hx => by
      have := hh _ ⟨x, hx, rfl⟩ _ ⟨0, hz, rfl⟩
      rwa [e, e, Matrix.mulVec_zero, add_zero, add_sub_cancel_left] at this) (fun k hk x hx => by
      have := hB k hk _ ⟨x, hx, rfl⟩
      rwa [e] at this)
  rw [hint]
  simp only [← e] at key
  have e2 : quadOf (fun x => f (affineMap g.mydim g x) * g.integrationElement) r.pts =
      g.integrationElement * quadOf (fun x => f (affineMap g.mydim g x)) r.pts := by
    rw [quadOf, quadOf, ← List.sum_map_mul_left]
    refine congrArg List.sum (List.map_congr_left fun q _ => by ring)
  rw [e2, integral_mul_const, mul_comm (∫ x in refSet g.mydim g.id, f (affineMap g.mydim g x)), ← mul_sub, abs_mul,
    abs_of_nonneg hie]
  exact mul_le_mul_of_nonneg_left key hie

/-! ## Composite rules -/

/-- C85: the composite rule with `n` intervals converges with order `p + 1` if the base rule integrates polynomials of degree
`p`; `ε` is the accuracy of the base rule for polynomials -/
theorem C85_composite {d n fuel : Nat} {tol : ℝ} {jit : Mat ℝ} {detInv : ℝ} {quad r : Rule ℝ}
    (h : CompositeCall d n fuel tol quad) (hr : compositeRule d tol jit detInv fuel quad n = some r) (p : Nat) (ε : ℝ)
    (hp : PointsIn d quad.type.id quad.pts) (hw : ExactUpTo d quad.type.id p ε quad.pts)
    (f : (Fin d → ℝ) → ℝ) (hf : ContDiff ℝ (p + 1) f) (B : Nat → ℝ)
    (hB : ∀ k ≤ p + 1, ∀ x ∈ refSet d quad.type.id, ‖iteratedFDeriv ℝ k f x‖ ≤ B k) :
    |quadOf f r.pts - ∫ x in refSet d quad.type.id, f x| ≤
      B (p + 1) / (n : ℝ) ^ (p + 1) / (p + 1).factorial *
        ((quad.pts.map fun q => |q.weight|).sum + volume.real (refSet d quad.type.id)) +
      ε * ∑ k ∈ range (p + 1), B k * ((d : ℝ) / n) ^ k / k.factorial := by
  obtain ⟨c, hc⟩ := cells' h.dim_pos n
  have hset := simplex_refSet h
  rw [composite_quadOf h hr hc f, hset, integral_cells' h.dim_pos h.n_pos hc hf.continuous, ← sum_sub_distrib, ← hset]
  refine (abs_sum_le_sum_abs _ _).trans ?_
  rw [← mean_const (d := d) h.n_pos (_ + _)]
  refine sum_le_sum fun k hk => ?_
  have hpn : (0 : ℝ) ≤ 1 / (n : ℝ) ^ d := by positivity
  rw [← mul_sub, abs_mul, abs_of_nonneg hpn]
  refine mul_le_mul_of_nonneg_left ?_ hpn
  obtain ⟨it, e1, corners, g2, g3, g4, g5, g6⟩ := hc k (mem_range.1 hk)
  have hmem : ∀ x ∈ simplexSet d, cellMap d (c k) x ∈ simplexSet d := fun x hx => by
    obtain ⟨it', y, a1, a2, a3⟩ := C60_inside (K := ℝ) d n k h.dim_pos (mem_range.1 hk) (ext x) hx
    obtain rfl := Option.some.inj (e1.symm.trans a1)
    obtain ⟨y', b1, b2⟩ := g5 (ext x)
    obtain rfl := Option.some.inj (a2.symm.trans b1)
    exact (inSimplex_congr (ext_cell b2)).2 a3
  have hzero : (0 : Fin d → ℝ) ∈ simplexSet d := (mem_simplexSet _).2 ⟨fun _ => le_rfl, by simp⟩
  have hmap : ∀ x, cellMap d (c k) x = (fun i : Fin d => c k 0 i) + (cellMat d (c k)).mulVec x := fun x => by
    rw [cellMap_eq, Matrix.toLin'_apply]
  have hdiam : ∀ x ∈ simplexSet d, ‖(cellMat d (c k)).mulVec x‖ ≤ 1 / n := fun x hx => by
    refine (pi_norm_le_iff_of_nonneg (by positivity)).2 fun i => ?_
    obtain ⟨it', y, y', a1, a2, a3, a4⟩ := C60_diameter (K := ℝ) d n k h.dim_pos (mem_range.1 hk) (ext x) (ext 0) hx hzero
    obtain rfl := Option.some.inj (e1.symm.trans a1)
    obtain ⟨z, b1, b2⟩ := g5 (ext x)
    obtain rfl := Option.some.inj (a2.symm.trans b1)
    obtain ⟨z, c1, c2⟩ := g5 (ext 0)
    obtain rfl := Option.some.inj (a3.symm.trans c1)
    have := a4 i i.2
    rw [b2 i i.2, c2 i i.2] at this
    have e3 : cellMap d (c k) x i - cellMap d (c k) 0 i = (cellMat d (c k)).mulVec x i := by
      rw [hmap, hmap, Matrix.mulVec_zero, add_zero, Pi.add_apply, add_sub_cancel_left]
    rw [Real.norm_eq_abs, ← e3]
    exact this
  have key := affine_error hw hp hf (fun i : Fin d => c k 0 i) (cellMat d (c k)) (h := 1 / n) (B := B)
    (fun x hx => hdiam x (hset ▸ hx)) (fun j hj x hx => by
      rw [← hmap]
      exact hB j hj _ (hset.symm ▸ hmem x (hset ▸ hx)))
  simp only [← hmap] at key
  refine key.trans (le_of_eq ?_)
  rw [errorBound, one_div, inv_pow, ← div_eq_mul_inv, ← div_eq_mul_inv]
  rfl

/-- C85: with an exact base rule the error of the composite rule is `C / n ^ (p + 1)` -/
theorem C85_composite_exact {d n fuel : Nat} {tol : ℝ} {jit : Mat ℝ} {detInv : ℝ} {quad r : Rule ℝ}
    (h : CompositeCall d n fuel tol quad) (hr : compositeRule d tol jit detInv fuel quad n = some r) (p : Nat)
    (hp : PointsIn d quad.type.id quad.pts) (hw : ExactOn d quad.type.id p quad.pts)
    (f : (Fin d → ℝ) → ℝ) (hf : ContDiff ℝ (p + 1) f) (M : ℝ)
    (hM : ∀ x ∈ refSet d quad.type.id, ‖iteratedFDeriv ℝ (p + 1) f x‖ ≤ M) :
    |quadOf f r.pts - ∫ x in refSet d quad.type.id, f x| ≤ M / (p + 1).factorial * stability d quad / (n : ℝ) ^ (p + 1) := by
  have hS : IsCompact (refSet d quad.type.id) := by
    rw [simplex_refSet h]; exact isCompact_simplexSet d
  have hb : ∀ k, ∃ b, k ≤ p + 1 → ∀ x ∈ refSet d quad.type.id, ‖iteratedFDeriv ℝ k f x‖ ≤ b := fun k => by
    by_cases hk : k ≤ p + 1
    · obtain ⟨b, hb⟩ := hS.exists_bound_of_continuousOn
        (f := iteratedFDeriv ℝ k f) (hf.continuous_iteratedFDeriv (by exact_mod_cast hk)).continuousOn
      exact ⟨b, fun _ => hb⟩
    · exact ⟨0, fun h => absurd h hk⟩
  choose B hB using hb
  have := C85_composite h hr p 0 hp (fun P hP => by rw [hw P hP, _root_.sub_self, abs_zero, zero_mul]) f hf
    (fun k => if k = p + 1 then M else B k) (fun k hk x hx => by
      split
      · next e => subst e; exact hM x hx
      · exact hB k hk x hx)
  rw [zero_mul, add_zero, if_pos rfl] at this
  refine this.trans (le_of_eq ?_)
  rw [stability]
  ring

-- the composite midpoint rule converges quadratically for the exponential function
example : ∃ C : ℝ, ∀ n fuel r, 0 < n → n < fuel →
    compositeRule 1 (1 / 1000) (fun _ _ => 0) 0 fuel ⟨Typ.simplex 1, 1, [⟨fun _ => 1 / 2, 1⟩]⟩ n = some r →
    |quadOf (fun x : Fin 1 → ℝ => Real.exp (x 0)) r.pts - ∫ x in refSet 1 0, Real.exp (x 0)| ≤ C / (n : ℝ) ^ 2 := by
  have hf : ContDiff ℝ ((1 : Nat) + 1) fun x : Fin 1 → ℝ => Real.exp (x 0) :=
    Real.contDiff_exp.comp (contDiff_apply ℝ ℝ (0 : Fin 1))
  have hS : IsCompact (refSet 1 0) := by
    have h : CompositeCall 1 1 2 (1 / 1000) ⟨Typ.simplex 1, 1, [⟨fun _ => 1 / 2, 1⟩]⟩ :=
      ⟨by omega, by omega, by omega, by norm_num, by norm_num, by decide, by decide, rfl⟩
    have := simplex_refSet h
    rw [show (⟨Typ.simplex 1, 1, [⟨fun _ => 1 / 2, 1⟩]⟩ : Rule ℝ).type.id = 0 from rfl] at this
    rw [this]; exact isCompact_simplexSet 1
  obtain ⟨M, hM⟩ := hS.exists_bound_of_continuousOn
    (f := iteratedFDeriv ℝ (1 + 1) fun x : Fin 1 → ℝ => Real.exp (x 0)) (hf.continuous_iteratedFDeriv (by norm_num)).continuousOn
  refine ⟨M / (1 + 1).factorial * stability 1 ⟨Typ.simplex 1, 1, [⟨fun _ => 1 / 2, 1⟩]⟩, fun n fuel r hn hfuel hr => ?_⟩
  have h : CompositeCall 1 n fuel (1 / 1000) ⟨Typ.simplex 1, 1, [⟨fun _ => 1 / 2, 1⟩]⟩ :=
    ⟨by omega, by omega, hn, by norm_num, by norm_num, by simpa [nElements] using hfuel, by decide, rfl⟩
  refine C85_composite_exact h hr 1 ?_ C47_conical_order_needed.1 _ hf M hM
  intro q hq
  rw [List.mem_singleton] at hq
  subst hq
  rw [refSet_eq (rep_topoOf 1 _), show topoOf 1 (Typ.simplex 1).id = .prism .pt by decide]
  refine ⟨?_, ?_, trivial⟩ <;> norm_num [ext, Topo.dim]

example : (2:Nat) ≤ 30 ∧ 3 < 2 ^ 2 ∧ IsPlain .GaussLegendre ∧ (∃ m, maxOrder 2 ⟨2, false, 3⟩ .GaussLegendre = .ok m ∧ 5 ≤ m) ∧
    ¬ (5 = 3 ∧ QType.GaussLegendre = .GaussLegendre) ∧
    ContDiff ℝ ((5 : Nat) + 1) fun x : Fin 2 → ℝ => Real.cos (x 0) * Real.exp (x 1) := by
  refine ⟨by norm_num, by norm_num, Or.inl rfl, ⟨61, by decide, by norm_num⟩, by simp, ?_⟩
  exact (Real.contDiff_cos.comp (contDiff_apply ℝ ℝ (0 : Fin 2))).mul (Real.contDiff_exp.comp (contDiff_apply ℝ ℝ (1 : Fin 2)))

end

end Verif.Quad
