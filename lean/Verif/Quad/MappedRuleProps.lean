import Verif.Quad.CubeRule

/-! Property theorems: quadrature on mapped elements (C74).

`quadOf f r.pts` is the sum of `weight * f(position)`; `refSet` is the reference element, `coeffSum` the sum of the absolute
values of the coefficients of a polynomial and `tabTol` the accuracy of the tables, `1/(3*10^14)`. -/

namespace Verif.Quad

open Verif.Typ Verif.RefTopo Verif.RefGeom Verif.MatHelp Verif.Affine Verif.MultiLinear MeasureTheory
open Matrix hiding vec ext
open Finset hiding ext

/-! ### Rules on cubes -/

/-- C74: on a cube the rule of order `p` integrates every polynomial of degree at most `p` in each variable, though its
total degree may be up to `d * p`. -/
theorem C74_cube (env : Env ℝ) (d id p m : Nat) (qt : QType) (hd : d ≤ 30) (hid : id < 2 ^ d) (hc : IsCubeId d id)
    (hq : IsPlain qt) (hm : maxOrder d ⟨d, false, id⟩ qt = .ok m) (hp : p ≤ m) :
    ∃ r, rule env d ⟨d, false, id⟩ p qt = .ok r ∧ PointsIn d id r.pts ∧
      ∀ P : MvPolynomial (Fin d) ℝ, (∀ i, P.degreeOf i ≤ p) →
        |quadOf (fun x => P.eval x) r.pts - ∫ x in refSet d id, P.eval x| ≤ tabTol * coeffSum P := by
  obtain ⟨r, h1, -, h2⟩ := plain_good env hq hd hid hm hp
  refine ⟨r, h1, (pointsIn_iff (rep_topoOf d id) _).2 h2.inDom, ?_⟩
  obtain ⟨tab, h, ht⟩ : ∃ tab h, tableOf qt = some (tab, h) := by
    rcases hq with rfl | rfl | rfl | rfl <;> exact ⟨_, _, rfl⟩
  obtain ⟨h30, h61, -⟩ := plain_table (K := ℝ) hq ht (p := 0) (Nat.zero_le _)
  obtain ⟨r', h3, h4⟩ : ∃ r', rule env d ⟨d, false, id⟩ p qt = .ok r' ∧ ApproxQ (topoOf d id) p (errD ℝ d (eps1 ℝ)) r'.pts := by
    match d, hd, hid, hm, hc with
    | 0, hd, hid, hm, _ =>
      obtain ⟨r, e1, -, e2⟩ := point_good env qt (p := p) (ε := errD ℝ 0 (eps1 ℝ))
        (by have : m = 2 ^ 31 - 1 := by simp [maxOrder, isVertex] at hm; omega
            omega) hid (by unfold errD epsT; norm_num)
      refine ⟨r, e1, fun a _ => e2.approx a ?_⟩
      simp [topoOf, Topo.dim, deg]
    | d + 1, hd, hid, hm, hc =>
      obtain ⟨m', e1, e2⟩ := maxOrder_tab ht h30 h61 d id hd hid
      rw [e1] at hm
      cases hm
      refine rule_cubeQ env qt p (by have := e2.1; omega) (eps1 ℝ) eps1_bounds.1 eps1_bounds.2 ?_ (d + 1) id hd hid hc ?_
      · intro i hi
        obtain ⟨o, e1, e2, e3⟩ := plain_rule1 env hq ht (hp.trans e2.1) hi
        exact ⟨o, e1, e2, e3.weaken False.elim⟩
      · intro k hk1 hk2
        obtain ⟨k, rfl⟩ : ∃ j, k = j + 1 := ⟨k - 1, by omega⟩
        obtain ⟨m'', h3, h4⟩ := maxOrder_tab ht h30 h61 k (id % 2 ^ (k + 1)) (by omega) (Nat.mod_lt _ (Nat.two_pow_pos _))
        exact ⟨m'', h3, hp.trans (e2.anti hk2 h4)⟩
  rw [h1] at h3
  cases h3
  exact poly_of_approxQ (rep_topoOf d id) fun a ha => (h4 a ha).trans (errD_tabTol hd)

/-- C74: the same for the family `GaussJacobi_n_0`, without an eigenvalue solver, in every dimension for orders up to 60. -/
theorem C74_cube_jacobi (env : Env ℝ) (d id p : Nat) (hd : d ≤ 30) (hid : id < 2 ^ d) (hc : IsCubeId d id) (hp : p ≤ 60) :
    ∃ r, rule env d ⟨d, false, id⟩ p .GaussJacobi_n_0 = .ok r ∧
      ∀ P : MvPolynomial (Fin d) ℝ, (∀ i, P.degreeOf i ≤ p) →
        |quadOf (fun x => P.eval x) r.pts - ∫ x in refSet d id, P.eval x| ≤ tabTol * coeffSum P := by
  obtain ⟨r, h1, h2⟩ := rule_cubeQ env .GaussJacobi_n_0 p (by omega) (eps1 ℝ) eps1_bounds.1 eps1_bounds.2
    (fun i hi => by
      obtain ⟨o, e1, e2, e3⟩ := jacobi_table env hp (show 0 ≤ 2 by omega)
      exact ⟨o, by rw [rule1_n_eq env hi (by omega)]; exact e1, e2, e3⟩) d id hd hid hc
    (fun k hk1 hk2 => by
      obtain ⟨k, rfl⟩ : ∃ j, k = j + 1 := ⟨k - 1, by omega⟩
      exact ⟨127, maxOrder_n k _ (by omega) (Nat.mod_lt _ (Nat.two_pow_pos _)), by omega⟩)
  exact ⟨r, h1, poly_of_approxQ (rep_topoOf d id) fun a ha => (h2 a ha).trans (errD_tabTol hd)⟩

/-! ### AffineGeometry -/

/-- C74: on the image of any reference element under an affine geometry the rule of order `p`, with the integration element as
factor, integrates polynomials of degree `p`.  The error is that of the rule for the transformed polynomial `Q`. -/
theorem C74_affine (env : Env ℝ) (d id p m : Nat) (qt : QType) (hd : d ≤ 30) (hid : id < 2 ^ d)
    (hq : IsPlain qt) (hm : maxOrder d ⟨d, false, id⟩ qt = .ok m) (hp : p ≤ m)
    (o : Vec ℝ) (jt : Mat ℝ) (g : AffineGeometry) (hg : AffineGeometry.ofJacobian d d id o jt = some g)
    (P : MvPolynomial (Fin d) ℝ) (hP : P.totalDegree ≤ p) :
    ∃ r Q, rule env d ⟨d, false, id⟩ p qt = .ok r ∧ Q.totalDegree ≤ p ∧
      (∀ x ∈ refSet d id, Q.eval x = P.eval (affineMap d g x) * g.integrationElement) ∧
      |quadOf (fun x => P.eval (affineMap d g x) * g.integrationElement) r.pts -
        ∫ y in affineMap d g '' refSet d id, P.eval y| ≤ tabTol * coeffSum Q := by
  obtain ⟨r, h1, -, h2⟩ := plain_good env hq hd hid hm hp
  have hin := (pointsIn_iff (rep_topoOf d id) _).2 h2.inDom
  have hex := exactUpTo_of_approx (rep_topoOf d id) (h2.approx.mono (le_refl _) (errD_tabTol hd))
  have hl := C28_local_global d d id o jt (le_refl d) g hg
  obtain ⟨rfl, hc, rfl, rfl, rfl, h⟩ := ofJacobian_good (le_refl d) hg
  have hdet := h.det
  rw [hc, sqrt_det_square] at hdet
  have hinv := h.right_inv
  rw [hc] at hinv
  have hne : (mat g.mydim g.mydim g.jt)ᵀ.det ≠ 0 := by
    rw [det_transpose]
    intro h0
    have := congrArg det hinv
    rw [det_mul, h0, zero_mul, det_one] at this
    exact zero_ne_one this
  let G : Fin g.mydim → MvPolynomial (Fin g.mydim) ℝ := fun j => MvPolynomial.C (g.origin j) +
    ∑ l : Fin g.mydim, MvPolynomial.C (g.jt l j) * MvPolynomial.X l
  have hG : ∀ j, (G j).totalDegree ≤ 1 := by
    intro j
    refine (degLike_total.add _ _).trans (max_le (by rw [degLike_total.const]; omega) ?_)
    refine degLike_total.sum_le _ _ fun l _ => (degLike_total.mul _ _).trans ?_
    rw [degLike_total.const, MvPolynomial.totalDegree_X]
  obtain ⟨Q, q1, q2, q3⟩ := quad_mapped (D := {Q | Q.totalDegree ≤ p}) hin
    (fun Q hQ => hex Q (le_trans hQ (by have := h2.order; omega))) (G := G) (Φ := affineMap g.mydim g)
    (fun x j => by
      rw [affineMap_eq hc]
      simp only [G, Pi.add_apply, mulVec, dotProduct, transpose_apply, map_add, map_sum, map_mul, MvPolynomial.eval_C,
        MvPolynomial.eval_X]
      rfl)
    (affineMap_hasFDerivAt hc)
    (fun x _ y _ hxy => by
      rw [← vec_ext x, ← hl (ext x), ← vec_ext y, ← hl (ext y), Affine.local_eq, Affine.local_eq]
      congr 2
      rw [hc]
      exact hxy)
    (fun _ _ => hne) (ie := fun _ => g.integrationElement) (fun _ _ => hdet) P (fun s => by
      refine (degLike_total.mul _ _).trans ?_
      rw [degLike_total.const, zero_add]
      refine (degLike_total.mul _ _).trans ?_
      have e1 := degLike_total.bind_le G hG P
      have e2 := degLike_total.det_le (jacPoly G) (c := fun _ => 0) fun j l =>
        (totalDegree_pderiv l (G j)).trans (by have := hG j; omega)
      simp only [sum_const_zero] at e2
      omega)
  exact ⟨r, Q, h1, q1, q2, q3⟩

/-! ### MultiLinearGeometry on cubes -/

/-- the components of the map of a multilinear geometry on a cube, as polynomials -/
noncomputable def mlPoly (g : MultiLinearGeometry) (j : Fin g.mydim) : MvPolynomial (Fin g.mydim) ℝ :=
  ∑ k ∈ range (2 ^ g.mydim), (∏ r : Fin g.mydim, if k.testBit r then MvPolynomial.X r else MvPolynomial.C 1 - MvPolynomial.X r) *
    MvPolynomial.C (g.corners_ k j)

theorem mlPoly_eval {g : MultiLinearGeometry} (hg : Legal g) (hc : IsCubeId g.mydim g.id) (x : Fin g.mydim → ℝ)
    (j : Fin g.mydim) : multiLinearMap g x j = (mlPoly g j).eval x := by
  have := C31_cube_formula g hg hc (ext x) j
  refine this.trans ?_
  rw [mlPoly, map_sum]
  refine sum_congr rfl fun k _ => ?_
  rw [map_mul, MvPolynomial.eval_C, map_prod,
    ← Fin.prod_univ_eq_prod_range (fun r => if k.testBit r then ext x r else 1 - ext x r) g.mydim]
  congr 1
  refine prod_congr rfl fun r _ => ?_
  have : ext x r = x r := by simp [ext]
  rw [this]
  split_ifs <;> simp

theorem degreeOf_sub_X {d : Nat} (i r : Fin d) :
    (MvPolynomial.C 1 - MvPolynomial.X r : MvPolynomial (Fin d) ℝ).degreeOf i ≤ if i = r then 1 else 0 := by
  have e : (MvPolynomial.C 1 - MvPolynomial.X r : MvPolynomial (Fin d) ℝ) =
      MvPolynomial.C 1 + MvPolynomial.C (-1) * MvPolynomial.X r := by
    rw [map_neg, map_one]; ring
  rw [e]
  refine ((degLike_of i).add _ _).trans (max_le (by rw [(degLike_of i).const]; exact Nat.zero_le _) ?_)
  refine ((degLike_of i).mul _ _).trans ?_
  rw [(degLike_of i).const, zero_add, MvPolynomial.degreeOf_X]

theorem mlPoly_degree (g : MultiLinearGeometry) (i j : Fin g.mydim) : (mlPoly g j).degreeOf i ≤ 1 := by
  refine (degLike_of i).sum_le _ _ fun k _ => ((degLike_of i).mul _ _).trans ?_
  rw [(degLike_of i).const, add_zero]
  refine ((degLike_of i).prod_le _ _).trans ?_
  refine (sum_le_sum (g := fun r => if i = r then 1 else 0) fun r _ => ?_).trans (by simp)
  split_ifs with h1 h2 h2
  · subst h2; simp
  · rw [MvPolynomial.degreeOf_X_of_ne h2]
  · have := degreeOf_sub_X i r; rwa [if_pos h2] at this
  · have := degreeOf_sub_X i r; rwa [if_neg h2] at this

/-- C74: on the image of a cube under a multilinear geometry a rule of order `p` with the integration element as factor
integrates polynomials of degree at most `p - (d - 1)`. -/
theorem C74_multilinear (env : Env ℝ) (p m : Nat) (qt : QType) (g : MultiLinearGeometry) (hg : Legal g)
    (hc : IsCubeId g.mydim g.id) (hcd : g.cdim = g.mydim) (hd : g.mydim ≤ 30)
    (hq : IsPlain qt) (hm : maxOrder g.mydim ⟨g.mydim, false, g.id⟩ qt = .ok m) (hp : p ≤ m)
    (hinj : Set.InjOn (multiLinearMap g) (refSet g.mydim g.id))
    (hjit : ∀ x ∈ refSet g.mydim g.id, (g.jacobianInverseTransposed (ext x)).isSome)
    (ie : (Fin g.mydim → ℝ) → ℝ) (hie : ∀ x ∈ refSet g.mydim g.id, g.integrationElement (ext x) = some (ie x))
    (P : MvPolynomial (Fin g.mydim) ℝ) (hP : P.totalDegree + (g.mydim - 1) ≤ p) :
    ∃ r Q, rule env g.mydim ⟨g.mydim, false, g.id⟩ p qt = .ok r ∧ (∀ i, Q.degreeOf i ≤ p) ∧
      (∀ x ∈ refSet g.mydim g.id, Q.eval x = P.eval (multiLinearMap g x) * ie x) ∧
      |quadOf (fun x => P.eval (multiLinearMap g x) * ie x) r.pts -
        ∫ y in multiLinearMap g '' refSet g.mydim g.id, P.eval y| ≤ tabTol * coeffSum Q := by
  obtain ⟨r, h1, h2, h3⟩ := C74_cube env g.mydim g.id p m qt hd hg.id_lt hc hq hm hp
  have hli : ∀ x ∈ refSet g.mydim g.id, LinearIndependent ℝ (mat g.mydim g.mydim (g.jacobianTransposed (ext x))).row := by
    intro x hx
    by_contra hn
    have := hjit x hx
    rw [MultiLinearGeometry.jacobianInverseTransposed, hcd, C26_rightInvA_singular _ _ _ (le_refl _) hn] at this
    simp at this
  obtain ⟨Q, q1, q2, q3⟩ := quad_mapped (D := {Q | ∀ i, Q.degreeOf i ≤ p}) h2 h3 (G := mlPoly g) (Φ := multiLinearMap g)
    (mlPoly_eval hg hc) (multiLinearMap_hasFDerivAt hg hc hcd) hinj
    (fun x hx => by
      rw [det_transpose]
      exact (isUnit_iff_ne_zero.1 ((isUnit_iff_isUnit_det _).1 (linearIndependent_rows_iff_isUnit.1 (hli x hx)))))
    (ie := ie) (fun x hx => by
      have h := hie x hx
      rw [MultiLinearGeometry.integrationElement, hcd, C27_sqrtDetAAT_partial _ _ _ (Or.inl (hli x hx)),
        sqrt_det_square] at h
      exact (Option.some.inj h).symm) P (fun s i => by
      refine ((degLike_of i).mul _ _).trans ?_
      rw [(degLike_of i).const, zero_add]
      refine ((degLike_of i).mul _ _).trans ?_
      have e1 := (degLike_of i).bind_le (mlPoly g) (fun j => mlPoly_degree g i j) P
      have e2 := (degLike_of i).det_le (jacPoly (mlPoly g)) (c := fun l => 1 - if i = l then 1 else 0) fun j l =>
        (degreeOf_pderiv i l _).trans (Nat.sub_le_sub_right (mlPoly_degree g i j) _)
      have e3 : ∑ l : Fin g.mydim, (1 - if i = l then 1 else 0) = g.mydim - 1 := by
        have : ∀ l : Fin g.mydim, (1 - if i = l then 1 else 0) = if l ∈ univ.erase i then 1 else 0 := by
          intro l
          by_cases h : i = l
          · subst h; simp
          · rw [if_neg h, if_pos (by simp [Ne.symm h])]
        simp only [this]
        rw [sum_ite_mem]
        simp
      rw [e3] at e2
      omega)
  exact ⟨r, Q, h1, q1, q2, q3⟩

/-! ### LocalFiniteElementGeometry -/

/-- C74: the same for a geometry parametrised by a local finite element whose basis functions are polynomials `Ψ i` of degree
at most `k`, over any reference element: order `k * deg P + d * (k - 1)` is enough. -/
theorem C74_localFE {d N id : Nat} (env : Env ℝ) (p m k : Nat) (qt : QType) (hd : d ≤ 30) (hid : id < 2 ^ d)
    (hq : IsPlain qt) (hm : maxOrder d ⟨d, false, id⟩ qt = .ok m) (hp : p ≤ m)
    (g : Lfe.LFEGeometry d d) (ψ : Fin N → (Fin d → ℝ) → ℝ) (dψ : Fin N → (Fin d → ℝ) → Fin d → ℝ)
    (he : Lfe.Evaluates g.localFE ψ dψ) (v : Fin N → Fin d → ℝ)
    (hv : g.vertices = List.ofFn v) (hder : ∀ i x, HasFDerivAt (ψ i) (Lfe.dotL (dψ i x)) x)
    (Ψ : Fin N → MvPolynomial (Fin d) ℝ) (hψ : ∀ i x, ψ i x = (Ψ i).eval x) (hk : ∀ i, (Ψ i).totalDegree ≤ k)
    (hinj : Set.InjOn (fun x => ∑ i, ψ i x • v i) (refSet d id))
    (hreg : ∀ x ∈ refSet d id, ∀ J, g.jacobian x = some J → (mat d d J).det ≠ 0)
    (P : MvPolynomial (Fin d) ℝ) (hP : k * P.totalDegree + d * (k - 1) ≤ p) :
    ∃ (r : Rule ℝ) (Q : MvPolynomial (Fin d) ℝ) (ie : (Fin d → ℝ) → ℝ) (G : (Fin d → ℝ) → Fin d → ℝ),
      rule env d ⟨d, false, id⟩ p qt = .ok r ∧ (∀ x, g.global x = some (G x)) ∧
      (∀ x ∈ refSet d id, g.integrationElement x = some (ie x)) ∧ Q.totalDegree ≤ p ∧
      (∀ x ∈ refSet d id, Q.eval x = P.eval (G x) * ie x) ∧
      |quadOf (fun x => P.eval (G x) * ie x) r.pts - ∫ y in G '' refSet d id, P.eval y| ≤ tabTol * coeffSum Q := by
  obtain ⟨r, h1, -, h2⟩ := plain_good env hq hd hid hm hp
  have hin := (pointsIn_iff (rep_topoOf d id) _).2 h2.inDom
  have hex := exactUpTo_of_approx (rep_topoOf d id) (h2.approx.mono (le_refl _) (errD_tabTol hd))
  have hd' := fun x => Lfe.C38_derivative g he v hv x fun i => hder i x
  choose J hJ1 hJ2 _ using hd'
  have hreg' : ∀ x ∈ refSet d id, (mat d d (J x)).det ≠ 0 := fun x hx => hreg x hx _ (hJ1 x)
  have hinv := fun x hx => Lfe.C38_inverse g x (J x) (hJ1 x) (li_of_det (hreg' x hx))
  let G : Fin d → MvPolynomial (Fin d) ℝ := fun j => ∑ i, Ψ i * MvPolynomial.C (v i j)
  have hG : ∀ j, (G j).totalDegree ≤ k := fun j => degLike_total.sum_le _ _ fun i _ => (degLike_total.mul _ _).trans (by
    rw [degLike_total.const, add_zero]; exact hk i)
  obtain ⟨Q, q1, q2, q3⟩ := quad_mapped (D := {Q | Q.totalDegree ≤ p}) hin
    (fun Q hQ => hex Q (le_trans hQ (by have := h2.order; omega))) (G := G) (Φ := fun x => ∑ i, ψ i x • v i)
    (fun x j => by
      simp only [G, Finset.sum_apply, Pi.smul_apply, smul_eq_mul, map_sum, map_mul, MvPolynomial.eval_C, hψ])
    hJ2 hinj hreg' (ie := fun x => |(mat d d (J x)).det|) (fun _ _ => rfl) P (fun s => by
      refine (degLike_total.mul _ _).trans ?_
      rw [degLike_total.const, zero_add]
      refine (degLike_total.mul _ _).trans ?_
      have e1 := degLike_total.bind_le G hG P
      have e2 := degLike_total.det_le (jacPoly G) (c := fun _ => k - 1) fun j l =>
        (totalDegree_pderiv l (G j)).trans (Nat.sub_le_sub_right (hG j) _)
      simp only [sum_const, card_univ, Fintype.card_fin, smul_eq_mul] at e2
      omega)
  refine ⟨r, Q, _, _, h1, fun x => Lfe.C38_global g he v hv x, fun x hx => ?_, q1, q2, q3⟩
  obtain ⟨_, h⟩ := hinv x hx
  rw [h, sqrt_det_square']

/-! ### Examples -/

-- Gauss-Legendre of order 5 on the cube; degree 5 in each variable, total degree 15
example : (3:Nat) ≤ 30 ∧ 7 < 2 ^ 3 ∧ IsCubeId 3 7 ∧ IsPlain .GaussLegendre ∧ ∃ m, maxOrder 3 ⟨3, false, 7⟩ .GaussLegendre = .ok m ∧ 5 ≤ m := by
  refine ⟨by norm_num, by norm_num, ?_, Or.inl rfl, ?_⟩
  · intro k h1 h2; interval_cases k <;> rfl
  · exact ⟨61, by decide, by norm_num⟩

example : ∀ i : Fin 2, (MvPolynomial.X 0 * MvPolynomial.X 1 : MvPolynomial (Fin 2) ℝ).degreeOf i ≤ 1 := by
  intro i
  refine ((degLike_of i).mul _ _).trans ?_
  fin_cases i <;> simp [MvPolynomial.degreeOf_X]

-- the triangle with corners (0,0), (2,0), (1,1)
example : (∃ g, AffineGeometry.ofJacobian 2 2 0 (fun _ => 0) (fun i j => if i = 0 then (if j = 0 then 2 else 0) else 1) = some g) ∧
    IsPlain .GaussLegendre ∧ ∃ m, maxOrder 2 ⟨2, false, 0⟩ .GaussLegendre = .ok m ∧ 12 ≤ m := by
  refine ⟨(C28_constructible 2 2 0 _ _ (by norm_num)).2 ?_, Or.inl rfl, 60, by decide, by norm_num⟩
  have : mat 2 2 (fun i j => if i = 0 then (if j = 0 then (2:ℝ) else 0) else 1) = !![2, 0; 1, 1] := by
    refine Matrix.ext fun i j => ?_
    fin_cases i <;> fin_cases j <;> simp [mat]
  rw [this]
  refine linearIndependent_rows_of_isUnit ((isUnit_iff_isUnit_det _).2 ?_)
  rw [det_fin_two_of]
  norm_num

-- the trapezoid
example (env : Env ℝ) (P : MvPolynomial (Fin 2) ℝ) (hP : P.totalDegree ≤ 4) : ∃ ie : (Fin 2 → ℝ) → ℝ,
    (∀ x ∈ refSet 2 3, trapezoid.integrationElement (ext x) = some (ie x)) ∧
    ∃ r Q, rule env 2 ⟨2, false, 3⟩ 5 .GaussLegendre = .ok r ∧
      (∀ x ∈ refSet 2 3, Q.eval x = P.eval (multiLinearMap trapezoid x) * ie x) ∧
      |quadOf (fun x : Fin 2 → ℝ => P.eval (multiLinearMap trapezoid x) * ie x) r.pts -
        ∫ y in multiLinearMap trapezoid '' refSet 2 3, P.eval y| ≤ tabTol * coeffSum Q := by
  obtain ⟨jit, ie, h1, h2, h3, h4, h5, h6, h7, h8⟩ := trapezoid_hyps
  obtain ⟨r, Q, e1, _, e2, e3⟩ := C74_multilinear env 5 61 .GaussLegendre trapezoid h1 h2 h3 (by decide) (Or.inl rfl)
    (by decide) (by norm_num) h6 (fun x hx => by rw [h7 x hx]; rfl) ie h8 P
    (by have : trapezoid.mydim = 2 := rfl
        have : P.totalDegree + (2 - 1) ≤ 5 := by omega
        exact this)
  exact ⟨ie, h8, r, Q, e1, e2, e3⟩

-- the quadrilateral with the bilinear basis as polynomials of degree 2
example (i : Fin 4) : ∃ Ψ : MvPolynomial (Fin 2) ℝ, (∀ x, Lfe.q1 2 i x = Ψ.eval x) ∧ Ψ.totalDegree ≤ 2 := by
  refine ⟨∏ r : Fin 2, if (i : Nat).testBit r then MvPolynomial.X r else MvPolynomial.C 1 - MvPolynomial.X r, fun x => ?_, ?_⟩
  · rw [map_prod, Lfe.q1]
    refine prod_congr rfl fun r _ => ?_
    split_ifs <;> simp
  · refine (degLike_total.prod_le _ _).trans ?_
    refine (sum_le_sum (g := fun _ => 1) fun r _ => ?_).trans (by simp)
    split_ifs
    · simp
    · exact (MvPolynomial.totalDegree_sub _ _).trans (by simp)

end Verif.Quad
