import Verif.Balance.Lemmas

/-!
Property theorems: the divergence theorem of the quadrature rules on multilinear elements that are not affine (C123).  A uniform flow
through the facets of a distorted cube balances.

The rules are those of `QuadratureRules::rule` for the element and for the types of its facets (quadraturerules.hh, modelled in
`Quad.Model`), the normals `jacobianInverseTransposed * integrationOuterNormal * integrationElement` (multilineargeometry.hh:350-384,
modelled in `MultiLinear.Model`).
-/

namespace Verif.Balance

open Verif.Typ Verif.RefTopo Verif.RefGeom Verif.MatHelp Verif.Affine Verif.MultiLinear MvPolynomial MeasureTheory
open Verif.Quad hiding jac
open Matrix hiding vec
open Finset hiding ext

/-! ### Specification -/

/-- what a caller may evaluate at the points of the element: the inverse and the integration element exist -/
structure Regular (g : MultiLinearGeometry) (jit : (Fin g.mydim → ℝ) → ℝ × Mat ℝ) (ie : (Fin g.mydim → ℝ) → ℝ) : Prop where
  legal : Legal g
  cube : IsCubeId g.mydim g.id
  full : g.cdim = g.mydim
  inverse : ∀ x ∈ refSet g.mydim g.id, g.jacobianInverseTransposed (RefGeom.ext x) = some (jit x)
  element : ∀ x ∈ refSet g.mydim g.id, g.integrationElement (RefGeom.ext x) = some (ie x)

/-- component `k` of the mapped outer normal of facet `i` at the point `x` -/
noncomputable def mapped (g : MultiLinearGeometry) (jit : (Fin g.mydim → ℝ) → ℝ × Mat ℝ) (ie : (Fin g.mydim → ℝ) → ℝ) (i : Nat)
    (k : Fin g.mydim) (x : Fin g.mydim → ℝ) : ℝ :=
  (mat g.mydim g.mydim (jit x).2 *ᵥ fun j => normal g.mydim g.id i j) k * ie x

/-- the sum over the facets of the facet rules, applied to `u(global(x))` times component `k` of the mapped normal -/
noncomputable def outflow (g : MultiLinearGeometry) (jit : (Fin g.mydim → ℝ) → ℝ × Mat ℝ) (ie : (Fin g.mydim → ℝ) → ℝ)
    (R : Nat → Rule ℝ) (u : (Fin g.mydim → ℝ) → ℝ) (k : Fin g.mydim) : ℝ :=
  ((List.range (refSize g.mydim g.id 1)).map fun i =>
    facetQuad g.mydim g.id i (fun x => u (multiLinearMap g x) * mapped g jit ie i k x) (R i).pts).sum

/-! ### helper lemmas -/

/-- rules for the element and its facets, exact for polynomials of degree `p` in each variable -/
theorem cube_rules (env : Env ℝ) {d id p m : Nat} {qt : QType} (h0 : 0 < d) (hd : d ≤ 30) (hid : id < 2 ^ d) (hc : IsCubeId d id)
    (hq : IsPlain qt) (hm : maxOrder d ⟨d, false, id⟩ qt = .ok m) (hp : p ≤ m) :
    ∃ r R, Rules env d id p qt r R ∧ PointsIn d id r.pts ∧
      (∀ P : MvPolynomial (Fin d) ℝ, (∀ i, P.degreeOf i ≤ p) →
        |quadOf (fun x => P.eval x) r.pts - ∫ x in refSet d id, P.eval x| ≤ tabTol * coeffSum P) ∧
      ∀ i, i < refSize d id 1 → PointsIn (refType d id i 1).dim (refType d id i 1).id (R i).pts ∧
        ∀ P : MvPolynomial (Fin (refType d id i 1).dim) ℝ, (∀ i, P.degreeOf i ≤ p) →
          |quadOf (fun x => P.eval x) (R i).pts - ∫ x in refSet (refType d id i 1).dim (refType d id i 1).id, P.eval x| ≤
            tabTol * coeffSum P := by
  obtain ⟨r, h1, h2, h3⟩ := C74_cube env d id p m qt hd hid hc hq hm hp
  have hF : ∀ i, ∃ q, i < refSize d id 1 → rule env (refType d id i 1).dim (refType d id i 1) p qt = .ok q ∧
      PointsIn (refType d id i 1).dim (refType d id i 1).id q.pts ∧
        ∀ P : MvPolynomial (Fin (refType d id i 1).dim) ℝ, (∀ i, P.degreeOf i ≤ p) →
          |quadOf (fun x => P.eval x) q.pts - ∫ x in refSet (refType d id i 1).dim (refType d id i 1).id, P.eval x| ≤
            tabTol * coeffSum P := by
    intro i
    by_cases hi : i < refSize d id 1
    · obtain ⟨m', a1, a2⟩ := C107_available d id m qt hd hid hq hm 1 i h0 hi
      have hcube := Flux.sub_isCube hc hid hd h0 hi
      have hT : refType d id i 1 = ⟨d - 1, false, subTopologyId d id 1 i⟩ := refType_eq d id _ _ (by omega) hid h0
      rw [hT] at a1 hcube ⊢
      obtain ⟨q, b1, b2, b3⟩ := C74_cube env (d - 1) _ p m' qt (by omega) (subTopologyId_lt d id 1 i hid h0) hcube hq a1 (hp.trans a2)
      exact ⟨q, fun _ => ⟨b1, b2, b3⟩⟩
    · exact ⟨⟨⟨0, false, 0⟩, 0, []⟩, fun h => absurd h hi⟩
  choose R hR using hF
  exact ⟨r, R, ⟨h1, fun i hi => (hR i hi).1⟩, h2, h3, fun i hi => (hR i hi).2⟩

theorem quadOf_congr {d id : Nat} {l : List (QPoint ℝ)} (hl : PointsIn d id l) {f g : (Fin d → ℝ) → ℝ}
    (h : ∀ x ∈ refSet d id, f x = g x) : quadOf f l = quadOf g l := by
  unfold quadOf
  congr 1
  exact List.map_congr_left fun q hq => by rw [h _ (hl q hq)]

theorem quadOf_sum {d n : Nat} (c : Fin n → ℝ) (f : Fin n → (Fin d → ℝ) → ℝ) (l : List (QPoint ℝ)) :
    quadOf (fun x => ∑ j, c j * f j x) l = ∑ j, c j * quadOf (f j) l := by
  unfold quadOf
  induction l with
  | nil => simp
  | cons q l ih =>
    simp only [List.map_cons, List.sum_cons, mul_add, sum_add_distrib] at ih ⊢
    rw [ih, mul_sum]
    congr 1
    exact sum_congr rfl fun j _ => by ring

/-- the values of `u` times the cofactors, a polynomial; its divergence and its degrees -/
theorem field {g : MultiLinearGeometry} {jit : (Fin g.mydim → ℝ) → ℝ × Mat ℝ} {ie : (Fin g.mydim → ℝ) → ℝ} (h : Regular g jit ie)
    (P : MvPolynomial (Fin g.mydim) ℝ) (k : Fin g.mydim) : ∃ Q : Fin g.mydim → MvPolynomial (Fin g.mydim) ℝ,
      (∀ j l, (Q j).degreeOf l ≤ P.totalDegree + if l = j then g.mydim - 1 else g.mydim - 2) ∧
      (∀ x ∈ refSet g.mydim g.id, ∀ j, (Q j).eval x = P.eval (multiLinearMap g x) * ((jit x).2 k j * ie x)) ∧
      ∀ x ∈ refSet g.mydim g.id, ∑ j, (pderiv j (Q j)).eval x = partialDeriv (fun y => P.eval y) k (multiLinearMap g x) * ie x := by
  obtain ⟨hg, hc, hd, hjit, hie⟩ := h
  have hΦ := multiLinearMap_contDiff hg hc
  have hJ := Piola.jac_multiLinear hg hc hd
  have hE := mlPoly_eval hg hc
  have hjp : ∀ x, (eval x).mapMatrix (jacPoly (mlPoly g)) = Quad.jac (multiLinearMap g) x := by
    intro x
    refine Matrix.ext fun j l => ?_
    rw [Quad.jac, of_apply, partialDeriv]
    have e : (fun y => multiLinearMap g y j) = fun y => (mlPoly g j).eval y := funext fun y => hE y j
    rw [e, (hasFDerivAt_eval (mlPoly g j) x).fderiv]
    simp [jacPoly, Pi.single_apply]
  have hadj : ∀ x j, (adjugate (jacPoly (mlPoly g)) j k).eval x = adjugate (Quad.jac (multiLinearMap g) x) j k := by
    intro x j
    have := congrFun (congrFun (RingHom.map_adjugate (eval x) (jacPoly (mlPoly g))) j) k
    rw [hjp] at this
    exact this
  have hb : ∀ x, (bind₁ (mlPoly g) P).eval x = P.eval (multiLinearMap g x) := by
    intro x
    rw [eval_bind]
    congr 2
    exact funext fun j => (hE x j).symm
  -- the sign of the determinant
  have hli := fun x hx => li_of_jit hd (x := RefGeom.ext x) (by rw [hjit x hx]; rfl)
  have hne : ∀ x ∈ refSet g.mydim g.id, (Quad.jac (multiLinearMap g) x).det ≠ 0 := fun x hx => by
    rw [hJ]; exact det_ne_of_li (hli x hx)
  have hcont : Continuous fun x => (Quad.jac (multiLinearMap g) x).det := (Quad.contDiff_det (Quad.contDiff_jac hΦ)).continuous
  have hie' : ∀ x ∈ refSet g.mydim g.id, ie x = |(Quad.jac (multiLinearMap g) x).det| := fun x hx => by
    have := hie x hx
    rw [ie_of_li hd (hli x hx), ← hJ] at this
    exact (Option.some.inj this).symm
  obtain ⟨s, hs⟩ : ∃ s : ℝ, ∀ x ∈ refSet g.mydim g.id, ie x = s * (Quad.jac (multiLinearMap g) x).det := by
    rcases sign_const hcont hne with hs | hs
    · exact ⟨1, fun x hx => by rw [hie' x hx, hs x hx, one_mul]⟩
    · exact ⟨-1, fun x hx => by rw [hie' x hx, hs x hx, neg_one_mul]⟩
  refine ⟨fun j => C s * (bind₁ (mlPoly g) P * adjugate (jacPoly (mlPoly g)) j k), fun j l => ?_, fun x hx j => ?_, fun x hx => ?_⟩
  · refine ((degLike_of l).mul _ _).trans ?_
    rw [(degLike_of l).const, zero_add]
    refine ((degLike_of l).mul _ _).trans ?_
    have e1 := (degLike_of l).bind_le (mlPoly g) (fun j => mlPoly_degree g l j) P
    have e2 := adjugate_degree (mlPoly_degree g) l j k
    rw [one_mul] at e1
    exact Nat.add_le_add e1 e2
  · rw [map_mul, eval_C, map_mul, hb, hadj, hs x hx]
    have h1 := hjit x hx
    rw [MultiLinearGeometry.jacobianInverseTransposed, hd] at h1
    have h2 := mul_eq_one_comm.1 (Piola.right_inverse le_rfl h1).1
    rw [← transpose_transpose (mat g.mydim g.mydim (g.jacobianTransposed (RefGeom.ext x))), ← hJ] at h2
    -- `jit * Jᵀ = 1`, hence `jit * det = adjᵀ`
    have h3 : (Quad.jac (multiLinearMap g) x).det • mat g.mydim g.mydim (jit x).2 = (adjugate (Quad.jac (multiLinearMap g) x))ᵀ := by
      rw [← Matrix.one_mul (adjugate (Quad.jac (multiLinearMap g) x))ᵀ, ← h2, Matrix.mul_assoc, ← transpose_mul, adjugate_mul,
        transpose_smul, transpose_one, Matrix.mul_smul, Matrix.mul_one]
    have h4 := congrFun (congrFun h3 k) j
    rw [transpose_apply] at h4
    rw [← h4, Matrix.smul_apply, smul_eq_mul]
    change _ = P.eval (multiLinearMap g x) * (mat g.mydim g.mydim (jit x).2 k j * _)
    ring
  · have h1 := Piola.divergence_adjugate (w := fun y i => if i = k then P.eval y else 0) (fun i => by
      by_cases h : i = k
      · simp only [if_pos h]; exact contDiff_eval P
      · simp only [if_neg h]; exact contDiff_const) hΦ x
    have h2 : ∀ y j, (adjugate (Quad.jac (multiLinearMap g) y) *ᵥ fun i => if i = k then P.eval (multiLinearMap g y) else 0) j =
        (bind₁ (mlPoly g) P * adjugate (jacPoly (mlPoly g)) j k).eval y := by
      intro y j
      rw [map_mul, hb, hadj]
      simp [mulVec, dotProduct, mul_comm]
    simp only [h2, partialDeriv_eval] at h1
    have h3 : ∑ i, partialDeriv (fun y => if i = k then P.eval y else 0) i (multiLinearMap g x) =
        partialDeriv (fun y => P.eval y) k (multiLinearMap g x) := by
      rw [sum_eq_single k]
      · simp
      · intro i _ hi
        simp [partialDeriv, if_neg hi]
      · simp
    rw [h3] at h1
    simp only [pderiv_C_mul, map_mul, eval_C, ← mul_sum] at h1 ⊢
    rw [h1, hs x hx]
    ring

/-! ### C123 -/

/-- C123: the divergence theorem of the rules on the image of a cube under a multilinear geometry, for polynomials of degree at most
`p - (d - 2)`; `Q` are the values times the entries of the matrix of cofactors. -/
theorem C123_divergence (env : Env ℝ) (p m : Nat) (qt : QType) (g : MultiLinearGeometry) (jit : (Fin g.mydim → ℝ) → ℝ × Mat ℝ)
    (ie : (Fin g.mydim → ℝ) → ℝ) (h : Regular g jit ie) (h0 : 0 < g.mydim) (hd : g.mydim ≤ 30) (hq : IsPlain qt)
    (hm : maxOrder g.mydim ⟨g.mydim, false, g.id⟩ qt = .ok m) (hp : p ≤ m) :
    ∃ r R, Rules env g.mydim g.id p qt r R ∧ ∀ P : MvPolynomial (Fin g.mydim) ℝ, P.totalDegree + (g.mydim - 2) ≤ p → ∀ k : Fin g.mydim,
      ∃ Q : Fin g.mydim → MvPolynomial (Fin g.mydim) ℝ,
        (∀ x ∈ refSet g.mydim g.id, ∀ j, (Q j).eval x = P.eval (multiLinearMap g x) * ((jit x).2 k j * ie x)) ∧
        |quadOf (fun x => partialDeriv (fun y => P.eval y) k (multiLinearMap g x) * ie x) r.pts -
          outflow g jit ie R (fun y => P.eval y) k| ≤ tabTol * ((p + 1 + 2 * g.mydim) * ∑ j, coeffSum (Q j)) := by
  obtain ⟨r, R, hR, hin, hr, hf⟩ := cube_rules env h0 hd h.legal.id_lt h.cube hq hm hp
  refine ⟨r, R, hR, fun P hP k => ?_⟩
  obtain ⟨Q, hQd, hQe, hQv⟩ := field h P k
  refine ⟨Q, hQe, ?_⟩
  have ht : 0 < tabTol := by unfold tabTol; norm_num
  -- the element
  have e1 := hr (∑ j, pderiv j (Q j)) fun i => (degLike_of i).sum_le _ _ fun j _ =>
    (degreeOf_pderiv i j _).trans (by have := hQd j i; split_ifs at this ⊢ <;> omega)
  have e1' : coeffSum (∑ j, pderiv j (Q j)) ≤ (p + 1) * ∑ j, coeffSum (Q j) := by
    refine (coeffSum_sum _ _).trans ?_
    rw [mul_sum]
    refine sum_le_sum fun j _ => ?_
    have := coeffSum_pderiv_of j (Q j) (p := p + 1) (by have := hQd j j; rw [if_pos rfl] at this; omega)
    push_cast at this
    exact this
  -- the facets
  have e2 : ∫ x in refSet g.mydim g.id, (∑ j, pderiv j (Q j)).eval x =
      ((List.range (refSize g.mydim g.id 1)).map fun i => ∑ j : Fin g.mydim, normal g.mydim g.id i j *
        facetIntegral g.mydim g.id i fun x => (Q j).eval x).sum := by
    have := C71_field g.mydim g.id h0 (by omega) h.legal.id_lt (fun x j => (Q j).eval x) (contDiff_pi.2 fun j => contDiff_eval (Q j))
    simp only [partialDeriv_eval] at this
    simp only [map_sum]
    rw [this]
    congr 1
    refine List.map_congr_left fun i _ => ?_
    rw [facetIntegral_sum (g := fun k x => normal g.mydim g.id i k * (Q k).eval x) fun k => continuous_const.mul (contDiff_eval (Q k)).continuous]
    exact sum_congr rfl fun k _ => integral_const_mul _ _
  have e3 : outflow g jit ie R (fun y => P.eval y) k =
      ((List.range (refSize g.mydim g.id 1)).map fun i => ∑ j : Fin g.mydim, normal g.mydim g.id i j *
        facetQuad g.mydim g.id i (fun x => (Q j).eval x) (R i).pts).sum := by
    unfold outflow
    congr 1
    refine List.map_congr_left fun i hi => ?_
    have hi' := List.mem_range.1 hi
    simp only [facetQuad]
    rw [← quadOf_sum]
    refine quadOf_congr (hf i hi').1 fun y hy => ?_
    have hx := facetPoint_mem h0 (by omega) h.legal.id_lt hi' hy
    simp only [hQe _ hx]
    rw [mapped, mulVec, dotProduct, sum_mul, mul_sum]
    exact sum_congr rfl fun j _ => by
      change _ * (mat g.mydim g.mydim _ k j * _ * _) = _ * (_ * (mat g.mydim g.mydim _ k j * _))
      ring
  have e4 := list_sum_abs_le (List.range (refSize g.mydim g.id 1))
    (fun i => ∑ j : Fin g.mydim, normal g.mydim g.id i j * facetIntegral g.mydim g.id i fun x => (Q j).eval x)
    (fun i => ∑ j : Fin g.mydim, normal g.mydim g.id i j * facetQuad g.mydim g.id i (fun x => (Q j).eval x) (R i).pts)
    (c := tabTol * ∑ j, coeffSum (Q j)) fun i hi => by
      have hi' := List.mem_range.1 hi
      rw [← sum_sub_distrib, mul_sum]
      refine (abs_sum_le_sum_abs _ _).trans (sum_le_sum fun j _ => ?_)
      rw [← mul_sub, abs_mul]
      by_cases hj : normal g.mydim g.id i j = 0
      · rw [hj, abs_zero, zero_mul]
        exact mul_nonneg ht.le (coeffSum_nonneg _)
      obtain ⟨S, s1, s2, s3⟩ := cube_facet h.cube h0 (by omega) h.legal.id_lt hi' (Q j) j hj (p := p) fun l hl => by
        have := hQd j l
        rw [if_neg hl] at this
        omega
      have a1 := (hf i hi').2 S s2
      simp only [s1] at a1
      rw [abs_sub_comm] at a1
      have a2 := (facet_entries (id := g.id) h0 hi').1 j
      calc _ ≤ 1 * |facetIntegral g.mydim g.id i (fun x => (Q j).eval x) - facetQuad g.mydim g.id i (fun x => (Q j).eval x) (R i).pts| :=
            mul_le_mul_of_nonneg_right a2 (abs_nonneg _)
        _ ≤ tabTol * coeffSum S := by rw [one_mul]; exact a1
        _ ≤ _ := mul_le_mul_of_nonneg_left s3 ht.le
  rw [← e2, ← e3] at e4
  have e5 : quadOf (fun x => partialDeriv (fun y => P.eval y) k (multiLinearMap g x) * ie x) r.pts =
      quadOf (fun x => (∑ j, pderiv j (Q j)).eval x) r.pts :=
    quadOf_congr hin fun x hx => by rw [map_sum, hQv x hx]
  have e6 : (((List.range (refSize g.mydim g.id 1)).length : ℕ) : ℝ) ≤ 2 * g.mydim := by
    rw [List.length_range]
    have h := rep_topoOf g.mydim g.id
    have := facets_le (topoOf g.mydim g.id)
    rw [h.dim_eq] at this
    rw [refSize, size_eq h 1 h0]
    exact_mod_cast this
  have e7 : 0 ≤ tabTol * ∑ j, coeffSum (Q j) := mul_nonneg ht.le (sum_nonneg fun _ _ => coeffSum_nonneg _)
  have e8 := mul_le_mul_of_nonneg_right e6 e7
  have e9 := mul_le_mul_of_nonneg_left e1' ht.le
  rw [e5]
  refine (abs_sub_le _ _ _).trans ((add_le_add e1 e4).trans ((add_le_add e9 e8).trans (le_of_eq ?_)))
  ring

/-- C123: uniform flow.  The mapped normals, summed with the weights of the facet rules, cancel for every order from `d - 2` on: for
quadrilaterals with every rule, for hexahedra already with the midpoint rule. -/
theorem C123_free_stream (env : Env ℝ) (p m : Nat) (qt : QType) (g : MultiLinearGeometry) (jit : (Fin g.mydim → ℝ) → ℝ × Mat ℝ)
    (ie : (Fin g.mydim → ℝ) → ℝ) (h : Regular g jit ie) (h0 : 0 < g.mydim) (hd : g.mydim ≤ 30) (hq : IsPlain qt)
    (hm : maxOrder g.mydim ⟨g.mydim, false, g.id⟩ qt = .ok m) (hp : p ≤ m) (hp' : g.mydim - 2 ≤ p) :
    ∃ r R, Rules env g.mydim g.id p qt r R ∧ ∀ k : Fin g.mydim, ∃ Q : Fin g.mydim → MvPolynomial (Fin g.mydim) ℝ,
      (∀ x ∈ refSet g.mydim g.id, ∀ j, (Q j).eval x = (jit x).2 k j * ie x) ∧
      |outflow g jit ie R (fun _ => 1) k| ≤ tabTol * ((p + 1 + 2 * g.mydim) * ∑ j, coeffSum (Q j)) := by
  obtain ⟨r, R, hR, hr⟩ := C123_divergence env p m qt g jit ie h h0 hd hq hm hp
  refine ⟨r, R, hR, fun k => ?_⟩
  obtain ⟨Q, h1, h2⟩ := hr (C 1) (by rw [totalDegree_C]; omega) k
  refine ⟨Q, fun x hx j => by rw [h1 x hx j, eval_C, one_mul], ?_⟩
  simp only [eval_C] at h2
  have e : quadOf (fun x => partialDeriv (fun _ => (1:ℝ)) k (multiLinearMap g x) * ie x) r.pts = 0 := by
    simp [partialDeriv, quadOf]
  rwa [e, zero_sub, abs_neg] at h2

/-- C123: the volume is the flux of a coordinate. -/
theorem C123_volume (env : Env ℝ) (p m : Nat) (qt : QType) (g : MultiLinearGeometry) (jit : (Fin g.mydim → ℝ) → ℝ × Mat ℝ)
    (ie : (Fin g.mydim → ℝ) → ℝ) (h : Regular g jit ie) (h0 : 0 < g.mydim) (hd : g.mydim ≤ 30) (hq : IsPlain qt)
    (hm : maxOrder g.mydim ⟨g.mydim, false, g.id⟩ qt = .ok m) (hp : p ≤ m) (hp' : 1 + (g.mydim - 2) ≤ p) :
    ∃ r R, Rules env g.mydim g.id p qt r R ∧ ∀ k : Fin g.mydim, ∃ Q : Fin g.mydim → MvPolynomial (Fin g.mydim) ℝ,
      (∀ x ∈ refSet g.mydim g.id, ∀ j, (Q j).eval x = multiLinearMap g x k * ((jit x).2 k j * ie x)) ∧
      |quadOf ie r.pts - outflow g jit ie R (fun y => y k) k| ≤ tabTol * ((p + 1 + 2 * g.mydim) * ∑ j, coeffSum (Q j)) := by
  obtain ⟨r, R, hR, hr⟩ := C123_divergence env p m qt g jit ie h h0 hd hq hm hp
  refine ⟨r, R, hR, fun k => ?_⟩
  obtain ⟨Q, h1, h2⟩ := hr (X k) (by rw [totalDegree_X]; exact hp') k
  refine ⟨Q, fun x hx j => by rw [h1 x hx j, eval_X], ?_⟩
  have e : ∀ y, partialDeriv (fun y => (X k : MvPolynomial (Fin g.mydim) ℝ).eval y) k y = 1 := by
    intro y; rw [partialDeriv_eval, pderiv_X_self, map_one]
  simp only [e, one_mul] at h2
  simpa only [eval_X] using h2

/-! ### The hypotheses can be met -/

/-- a geometry on a cube whose Jacobian is invertible on the whole element -/
theorem regular_of {g : MultiLinearGeometry} (hg : Legal g) (hc : IsCubeId g.mydim g.id) (hd : g.cdim = g.mydim)
    (h : ∀ x ∈ refSet g.mydim g.id, (g.jacobianInverseTransposed (RefGeom.ext x)).isSome) : ∃ jit ie, Regular g jit ie :=
  ⟨fun x => (g.jacobianInverseTransposed (RefGeom.ext x)).getD (0, fun _ _ => 0), fun x => (g.integrationElement (RefGeom.ext x)).getD 0,
    hg, hc, hd, fun x hx => by obtain ⟨a, ha⟩ := Option.isSome_iff_exists.1 (h x hx); rw [ha]; rfl,
    fun x hx => by rw [ie_of_li hd (li_of_jit hd (h x hx))]; rfl⟩

/-- the frustum, which is not affine, with the midpoint rule for the facets -/
example : (∃ jit ie, Regular frustum jit ie) ∧ IsPlain .GaussLegendre ∧ frustum.mydim - 2 ≤ 1 := by
  refine ⟨regular_of frustum_legal frustum_cube rfl fun x hx => ?_, Or.inl rfl, by decide⟩
  obtain ⟨R, h, _⟩ := C26_rightInvA 3 3 _ le_rfl (frustum_li hx)
  have : frustum.jacobianInverseTransposed (RefGeom.ext x) = _ := h
  rw [this]
  rfl

end Verif.Balance
