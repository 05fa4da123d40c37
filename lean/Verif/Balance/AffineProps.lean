import Verif.Balance.GlobalProps
import Verif.Balance.SimplexMeshProps
import Verif.Tip.Props

/-!
Property theorems: the divergence theorem of the quadrature rules on affine elements of every shape, for the loops over the rules with a
multilinear geometry (C123).
-/

namespace Verif.Balance

open Verif.Typ Verif.RefTopo Verif.RefGeom Verif.MatHelp Verif.Affine Verif.MultiLinear Verif.Normal Verif.Flux Verif.Tip Verif.Neighbour MvPolynomial
open Verif.Quad hiding jac absWeights
open Matrix hiding vec ext
open Finset hiding ext

/-! ### Specification -/

/-- no point of the rules for the element and its facets is too close to a tip of the element without being the tip -/
structure PointsOk (env : Env ℝ) (d p : Nat) (qt : QType) (g : MultiLinearGeometry) : Prop where
  element : ∀ r, rule env d ⟨d, false, g.id⟩ p qt = .ok r → ∀ q ∈ r.pts, TipsOk g.tol d g.id q.position
  facet : ∀ i n e r, IsFacet d g.id i n e → rule env (d - 1) (refType d g.id i 1) p qt = .ok r → ∀ q ∈ r.pts,
    TipsOk g.tol d g.id (embed (d - 1) e q.position)

/-! ### helper lemmas -/

/-- what the two geometries answer at a point -/
theorem affine_at {d : Nat} {g : MultiLinearGeometry} (hg : Legal g) (hdim : g.mydim = d) (hfull : g.cdim = d) {a : Vec ℝ} {M : Mat ℝ}
    (h : ImageOf g a M) (hli : LinearIndependent ℝ (mat d d fun r j => M j r).row) {g' : AffineGeometry}
    (hg' : AffineGeometry.ofJacobian d d g.id a (fun r j => M j r) = some g') {x : Vec ℝ} (hx : TipsOk g.tol d g.id x) :
    (∃ r, g.jacobianInverseTransposed x = some r ∧ mat d d r.2 = mat d d g'.jacobianInverseTransposed ∧ r.1 = g'.integrationElement) ∧
      g.integrationElement x = some g'.integrationElement ∧ vec d (g.global x) = affineMap d g' fun j => x j := by
  subst hdim
  obtain ⟨c1, c2, c3⟩ := C119_closed_partial g hg a M h x hx
  obtain ⟨h1, h2, -, h4, h5, hG⟩ := ofJacobian_good le_rfl hg'
  rw [hfull] at c1 c2 c3
  have hJ : mat g.mydim g.mydim (g.jacobianTransposed x) = mat g.mydim g.mydim fun r j => M j r :=
    Matrix.ext fun r j => c2 j r j.2 r.2
  obtain ⟨R, k1, k2⟩ := rightInvA_eq (A := g.jacobianTransposed x) le_rfl (by rw [hJ]; exact hli)
  have hdet := hG.det
  have hinv := hG.inv
  rw [h1, h2, h5] at hdet hinv
  rw [hJ] at k1 k2
  refine ⟨⟨(Real.sqrt (mat g.mydim g.mydim (fun r j => M j r) * (mat g.mydim g.mydim fun r j => M j r)ᵀ).det, R), ?_, ?_, ?_⟩, ?_, ?_⟩
  · rw [MultiLinearGeometry.jacobianInverseTransposed, hfull]; exact k1
  · rw [k2]; exact hinv.symm
  · exact hdet.symm
  · rw [c3 hli, hdet]; rfl
  · have := affineMap_eq (g := g') (by rw [h1, h2])
    rw [h1] at this
    rw [this, h4, h5]
    funext j
    rw [Pi.add_apply, mulVec, dotProduct]
    refine (c1 j j.2).trans ?_
    rw [← Fin.sum_univ_eq_sum_range (fun r => M j r * x r) g.mydim]
    rfl

/-- no point of the rules for triangles has second coordinate close to 1 -/
def below (n : Node) : Bool :=
  n.x.length == 2 && match n.x[1]? with
    | some l => l.den != 0 && decide (900 * l.num ≤ 899 * (l.den : Int))
    | none => false

theorem blocks_below : (Simplex2.blocks.all fun r => r.pts.all below) = true := by decide +kernel

theorem edge_below {i : Nat} {n : Vec ℝ} {e : Vec ℝ × Mat ℝ} (h : IsFacet 2 0 i n e) {y : Vec ℝ} (hy : 0 ≤ y 0) (hy' : y 0 ≤ 899 / 900) :
    embed 1 e y 1 ≤ 899 / 900 := by
  have hi : i < 3 := lt_of_lt_of_eq h.lt (by decide)
  have he := h.embedding
  have : ∃ c, (e.1 1 = 0 ∧ e.2 0 1 = c) ∧ (c = 0 ∨ c = 1) := by
    interval_cases i
    · obtain rfl := Option.some.inj he
      refine ⟨_, ⟨?_, rfl⟩, ?_⟩ <;> simp [setM, setV]
    · obtain rfl := Option.some.inj he
      refine ⟨_, ⟨?_, rfl⟩, ?_⟩ <;> simp [setM, setV]
    · obtain rfl := Option.some.inj he
      refine ⟨_, ⟨?_, rfl⟩, ?_⟩ <;> simp [setM, setV]
  obtain ⟨c, ⟨h1, h2⟩, h3⟩ := this
  simp only [embed, sum_range_one, h1, h2]
  rcases h3 with rfl | rfl <;> linarith

/-- the points of the rules for triangles and their edges keep away from the tip -/
theorem triangle_points (env : Env ℝ) {p : Nat} (hp : p ≤ 12) {g : MultiLinearGeometry} (hid : g.id = 0) (htol : g.tol ≤ 1 / 1000) :
    PointsOk env 2 p .GaussLegendre g := by
  have key : ∀ x : Vec ℝ, x 1 ≤ 899 / 900 → TipsOk g.tol 2 g.id x := by
    intro x hx
    rw [hid]
    simp only [TipsOk]
    norm_num
    left
    linarith
  constructor
  · intro r hr q hq
    rw [hid, triangle_rule env p hp] at hr
    obtain ⟨row, g1, g2⟩ := triangle_row p hp
    have e := hr.symm.trans g1
    injection e with e
    subst e
    obtain ⟨n, hn, rfl⟩ := List.mem_map.1 hq
    have hm := List.mem_of_find?_eq_some g2
    rw [List.mem_reverse] at hm
    have hb := List.all_eq_true.1 (List.all_eq_true.1 blocks_below row hm) n hn
    rw [below, Bool.and_eq_true, beq_iff_eq] at hb
    obtain ⟨h1, h2⟩ := hb
    rw [List.getElem?_eq_getElem (by omega)] at h2
    simp only [Bool.and_eq_true, bne_iff_ne, ne_eq, decide_eq_true_eq] at h2
    have e : (Node.point (K := ℝ) n).position 1 = (n.x[1].num : ℝ) / n.x[1].den := dif_pos (by omega)
    have hd : (0:ℝ) < n.x[1].den := by exact_mod_cast Nat.pos_of_ne_zero h2.1
    have h5' : 900 * (n.x[1].num : ℝ) ≤ 899 * n.x[1].den := by exact_mod_cast h2.2
    refine key _ ?_
    rw [e, div_le_iff₀ hd]
    norm_num at h5' ⊢
    linarith
  · intro i n e r hf hr q hq
    have hi : i < 3 := by have := hf.lt; rw [hid] at this; exact lt_of_lt_of_eq this (by decide)
    have ht : refType 2 g.id i 1 = ⟨1, false, 0⟩ ∨ refType 2 g.id i 1 = ⟨1, false, 1⟩ := by
      rw [hid]; interval_cases i <;> decide
    obtain ⟨row, h1, h2, -, h01⟩ := plain_row (qt := .GaussLegendre) (Or.inl rfl) rfl (show p ≤ 61 by omega)
    have hpts : r.pts = row.pts.map Node.point := by
      rcases ht with ht | ht <;>
      · rw [ht] at hr
        have e1 := rule1_eq (K := ℝ) env (id := _) (by omega) rfl (show p ≤ 61 by omega) |>.symm.trans hr
        rw [rule1D, h2] at e1
        injection e1 with e1
        rw [← e1]
    rw [hpts] at hq
    obtain ⟨n', hn, rfl⟩ := List.mem_map.1 hq
    have hk := List.all_eq_true.1 gauss_inner row h1
    simp only [inner1, Bool.and_eq_true, List.all_eq_true, beq_iff_eq, bne_iff_ne, ne_eq, decide_eq_true_eq] at hk
    obtain ⟨k1, k2⟩ := hk n' hn
    obtain ⟨k3, k4, k5⟩ := k2 _ (List.getElem_mem (show 0 < n'.x.length by omega))
    have e : (Node.point (K := ℝ) n').position 0 = (n'.x[0].num : ℝ) / n'.x[0].den := dif_pos (by omega)
    have hd : (0:ℝ) < n'.x[0].den := by exact_mod_cast Nat.pos_of_ne_zero k3
    have h4' : (n'.x[0].den : ℝ) ≤ 900 * n'.x[0].num := by exact_mod_cast k4
    have h5' : 900 * (n'.x[0].num : ℝ) ≤ 899 * n'.x[0].den := by exact_mod_cast k5
    rw [hid] at hf
    refine key _ (edge_below hf ?_ ?_)
    · rw [e, le_div_iff₀ hd]; norm_num at h4' ⊢; linarith
    · rw [e, div_le_iff₀ hd]; norm_num at h5' ⊢; linarith

/-! ### C123 -/

/-- C123: the divergence theorem of the rules on an affine element of any shape, for fields of degree at most the order; `Q k` are the
values of component `k` of the field in the element. -/
theorem C123_affine (env : Env ℝ) (d p m : Nat) (qt : QType) (g : MultiLinearGeometry) (hg : Legal g) (hdim : g.mydim = d)
    (hfull : g.cdim = d) (h0 : 0 < d) (hd : d ≤ 30) (hq : IsPlain qt) (hm : maxOrder d ⟨d, false, g.id⟩ qt = .ok m) (hp : p ≤ m)
    (a : Vec ℝ) (M : Mat ℝ) (h : ImageOf g a M) (hM : (mat d d M).det ≠ 0) (ht : PointsOk env d p qt g)
    (P : Fin d → MvPolynomial (Fin d) ℝ) (hP : ∀ k, (P k).totalDegree ≤ p) :
    ∃ (D : ℝ) (S : Nat → ℝ) (Q : Fin d → MvPolynomial (Fin d) ℝ), elementIntegral env d p qt (polyDiv P) g = some D ∧
      (∀ i, i < refSize d g.id 1 → facetFlux env d p qt (polyField P) g i = some (S i)) ∧
      (∀ k x, (Q k).eval x = (P k).eval fun j : Fin d => a j + ∑ r : Fin d, M j r * x r) ∧
      |D - ∑ i ∈ range (refSize d g.id 1), S i| ≤
        ∑ k, tabTol * ((p + 2 * d * d ^ p) * coeffSum (Q k)) * ∑ j, |adjugate (mat d d M) j k| := by
  have hid : g.id < 2 ^ d := hdim ▸ hg.id_lt
  have hli : LinearIndependent ℝ (mat d d fun r j => M j r).row := by
    rw [linearIndependent_rows_iff_isUnit, isUnit_iff_isUnit_det]
    have e : mat d d (fun r j => M j r) = (mat d d M)ᵀ := rfl
    rw [e, det_transpose]
    exact isUnit_iff_ne_zero.2 hM
  obtain ⟨g', hg', -⟩ := ofJacobian_eq (id := g.id) (o := a) le_rfl hli
  obtain ⟨r, R, hR, hb⟩ := C107_affine env d g.id p m qt h0 hd hid hq hm hp a _ g' hg'
  have hat := fun {x} (hx : TipsOk g.tol d g.id x) => affine_at hg hdim hfull h hli hg' hx
  choose Q hQd hQe hQb using fun k => hb (P k) (hP k)
  obtain ⟨h1, h2, h3, h4, h5, hG⟩ := ofJacobian_good le_rfl hg'
  -- the matrix of cofactors
  have hcof : ∀ k j : Fin d, |g'.jacobianInverseTransposed k j * g'.integrationElement| = |adjugate (mat d d M) j k| := by
    have e1 := hG.right_inv
    rw [h1, h2, h5] at e1
    have e2 : mat d d (fun r j => M j r) = (mat d d M)ᵀ := rfl
    have e3 := hG.det
    rw [h1, h2, h5, e2, transpose_transpose, det_mul, det_transpose, Real.sqrt_mul_self_eq_abs] at e3
    have e4 : (adjugate (mat d d M))ᵀ = (mat d d M).det • mat d d g'.jit := by
      rw [← Matrix.mul_one (adjugate (mat d d M))ᵀ, ← e1, e2, ← Matrix.mul_assoc, ← transpose_mul, mul_adjugate, transpose_smul,
        transpose_one, Matrix.smul_mul, Matrix.one_mul]
    intro k j
    have e5 := congrFun (congrFun e4 k) j
    rw [transpose_apply, Matrix.smul_apply, smul_eq_mul] at e5
    rw [e5, e3, abs_mul, abs_mul, abs_abs, mul_comm]
    rfl
  have hmap : ∀ x, affineMap d g' x = fun j : Fin d => a j + ∑ r : Fin d, M j r * x r := by
    intro x
    have := affineMap_eq (g := g') (by rw [h1, h2])
    subst hdim
    rw [h1] at this
    rw [this, h4, h5]
    rfl
  refine ⟨∑ k, quadOf (fun x => partialDeriv (fun y => (P k).eval y) k (affineMap d g' x) * g'.integrationElement) r.pts,
    fun i => ∑ k, facetQuad d g.id i (fun x => (P k).eval (affineMap d g' x) *
      ((mat d d g'.jacobianInverseTransposed *ᵥ fun j => normal d g.id i j) k * g'.integrationElement)) (R i).pts, Q, ?_, fun i hi => ?_,
    fun k x => by rw [hQe k x, hmap], ?_⟩
  · rw [elementIntegral, hR.element]
    simp only
    rw [quadrature_eq (v := fun q => ∑ k, partialDeriv (fun y => (P k).eval y) k (affineMap d g' fun j => q.position j) *
      g'.integrationElement)]
    · congr 1
      rw [← quadOf_sum', quadOf]
      congr 1
      exact List.map_congr_left fun q _ => mul_comm _ _
    · intro q hq'
      obtain ⟨-, k1, k2⟩ := hat (ht.element r hR.element q hq')
      rw [surfaceDensity, k1, Option.map_some, ← sum_mul, polyDiv, k2]
  · obtain ⟨n, e, hf⟩ := facet_exists h0 hi
    have hT : refType d g.id i 1 = ⟨d - 1, false, subTopologyId d g.id 1 i⟩ := refType_eq _ _ _ _ (by omega) hid h0
    have hR' : rule env (d - 1) (refType d g.id i 1) p qt = .ok (R i) := by
      have e : (refType d g.id i 1).dim = d - 1 := by rw [hT]
      rw [← e]; exact hR.facet i hi
    have hn : (referenceIntegrationOuterNormals (K := ℝ) d d g.id).getD i (fun _ => 0) = n := by
      rw [List.getD_eq_getElem?_getD, hf.normal, Option.getD_some]
    rw [facetFlux_eq hf hR', quadrature_eq (v := fun q => ∑ k,
      (P k).eval (affineMap d g' (facetPoint d g.id i fun k : Fin (refType d g.id i 1).dim => q.position k)) *
        ((mat d d g'.jacobianInverseTransposed *ᵥ fun j => normal d g.id i j) k * g'.integrationElement))]
    · congr 1
      simp only [facetQuad]
      rw [← quadOf_sum', quadOf]
      congr 1
      exact List.map_congr_left fun q _ => mul_comm _ _
    · intro q hq'
      obtain ⟨⟨r', k1, k2, k3⟩, -, k4⟩ := hat (ht.facet i n e _ hf hR' q hq')
      have e0 : (fun j : Fin d => embed (d - 1) e q.position j) =
          facetPoint d g.id i fun k : Fin (refType d g.id i 1).dim => q.position k := by
        funext j
        rw [embed_eq h0 (by omega) hid hf, RefGeom.ext, dif_pos j.2]
      rw [e0] at k4
      rw [fluxDensity, k1, Option.map_some, dotProduct]
      congr 1
      refine sum_congr rfl fun k _ => ?_
      have e1 : vec d (polyField P (g.global (embed (d - 1) e q.position))) k = (P k).eval (vec d (g.global (embed (d - 1) e q.position))) :=
        dif_pos k.2
      have e2 : (fun j : Fin d => normal d g.id i j) = vec d n := by
        funext j; rw [normal, hn]; rfl
      rw [mappedNormal, Pi.smul_apply, smul_eq_mul, k2, k3, e1, k4, e2]
      ring
  · rw [sum_comm, ← sum_sub_distrib]
    refine (abs_sum_le_sum_abs _ _).trans (sum_le_sum fun k _ => ?_)
    have := hQb k k
    simp only [hcof] at this
    rwa [← Multiset.sum_coe, ← Multiset.map_coe] at this

/-- C123: the divergence theorem of the rules on triangles that are not degenerate, for the orders up to 12. -/
theorem C123_triangle (env : Env ℝ) (p : Nat) (hp : p ≤ 12) (g : MultiLinearGeometry) (hg : Legal g) (hdim : g.mydim = 2)
    (hfull : g.cdim = 2) (hid : g.id = 0) (htol : g.tol ≤ 1 / 1000) (M : Mat ℝ) (hedges : M = fun j r => g.corners_ (r + 1) j - g.corners_ 0 j)
    (hM : (mat 2 2 M).det ≠ 0) (P : Fin 2 → MvPolynomial (Fin 2) ℝ) (hP : ∀ k, (P k).totalDegree ≤ p) :
    ∃ (D : ℝ) (S : Nat → ℝ) (Q : Fin 2 → MvPolynomial (Fin 2) ℝ), elementIntegral env 2 p .GaussLegendre (polyDiv P) g = some D ∧
      (∀ i, i < 3 → facetFlux env 2 p .GaussLegendre (polyField P) g i = some (S i)) ∧
      (∀ k x, (Q k).eval x = (P k).eval fun j : Fin 2 => g.corners_ 0 j + ∑ r : Fin 2, M j r * x r) ∧
      |D - (S 0 + S 1 + S 2)| ≤
        ∑ k, tabTol * ((p + 4 * 2 ^ p) * coeffSum (Q k)) * ∑ j, |adjugate (mat 2 2 M) j k| := by
  have h : ImageOf g (g.corners_ 0) M := by rw [hedges]; exact imageOf_simplex g fun k _ _ => by simp [hid]
  obtain ⟨m, hm, hs⟩ := maxOrder_tab (qt := .GaussLegendre) (h := 61) rfl (by omega) (by omega) 1 g.id (by omega) (by omega)
  have hpm : p ≤ m := by
    rcases hs.2.2 with rfl | ⟨k, hk1, hk2, -, hk⟩ <;> omega
  obtain ⟨D, S, Q, h1, h2, h3, h4⟩ := C123_affine env 2 p m .GaussLegendre g hg hdim hfull (by omega) (by omega) (Or.inl rfl) hm hpm _ M h hM
    (triangle_points env hp hid htol) P hP
  have e : refSize 2 g.id 1 = 3 := by rw [hid]; decide
  rw [e] at h2 h4
  refine ⟨D, S, Q, h1, h2, h3, ?_⟩
  rw [sum_range_succ, sum_range_succ, sum_range_succ, sum_range_zero, zero_add] at h4
  norm_num at h4 ⊢
  exact h4

/-- the triangle with corners (5,5), (7,5), (5,7) -/
noncomputable def sampleTriangle : MultiLinearGeometry where
  mydim := 2
  cdim := 2
  id := 0
  corners_ := fun k j => 5 + if k = j + 1 then 2 else 0
  tol := 1 / 10 ^ 6

example (env : Env ℝ) : Legal sampleTriangle ∧ sampleTriangle.tol ≤ 1 / 1000 ∧ PointsOk env 2 12 .GaussLegendre sampleTriangle ∧
    ImageOf sampleTriangle (sampleTriangle.corners_ 0) (fun j r => sampleTriangle.corners_ (r + 1) j - sampleTriangle.corners_ 0 j) ∧
    (mat 2 2 fun j r => sampleTriangle.corners_ (r + 1) j - sampleTriangle.corners_ 0 j).det ≠ 0 := by
  have h : sampleTriangle.tol ≤ 1 / 1000 := by norm_num [sampleTriangle]
  refine ⟨by constructor <;> norm_num [sampleTriangle], h, triangle_points env le_rfl rfl h, imageOf_simplex _ fun k _ _ => by simp [sampleTriangle], ?_⟩
  norm_num [Matrix.det_fin_two, mat, sampleTriangle]

end Verif.Balance
