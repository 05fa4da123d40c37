import Verif.Balance.MeshProps
import Verif.Balance.Props

/-!
Property theorems: the balance of a mesh (C125).  The sum over all elements of the quadrature of the divergence is the sum over the
boundary facets of the quadrature of the flux.
-/

namespace Verif.Balance

open Verif.Typ Verif.RefTopo Verif.RefGeom Verif.MatHelp Verif.MultiLinear Verif.Normal Verif.Flux MvPolynomial
open Verif.Quad hiding jac absWeights
open Matrix hiding vec ext
open Finset hiding ext

/-! ### Specification -/

/-- a vector field with polynomial components in world coordinates -/
noncomputable def polyField {d : Nat} (P : Fin d → MvPolynomial (Fin d) ℝ) : Vec ℝ → Vec ℝ :=
  fun y k => if h : k < d then (P ⟨k, h⟩).eval (vec d y) else 0

/-- its divergence -/
noncomputable def polyDiv {d : Nat} (P : Fin d → MvPolynomial (Fin d) ℝ) : Vec ℝ → ℝ :=
  fun y => ∑ k, partialDeriv (fun z => (P k).eval z) k (vec d y)

/-- a mesh of cubes of dimension `d` in `d`-dimensional space whose Jacobians are invertible -/
structure Solid (d p : Nat) (qt : QType) (gs : List MultiLinearGeometry) : Prop where
  legal : ∀ g ∈ gs, Legal g
  dim : ∀ g ∈ gs, g.mydim = d
  full : ∀ g ∈ gs, g.cdim = g.mydim
  cube : ∀ g ∈ gs, IsCubeId d g.id
  order : ∀ g ∈ gs, ∃ m, maxOrder d ⟨d, false, g.id⟩ qt = .ok m ∧ p ≤ m
  inverse : ∀ g ∈ gs, ∀ x ∈ refSet g.mydim g.id, (g.jacobianInverseTransposed (RefGeom.ext x)).isSome

/-- `Q k j` are the values of component `k` of the field times the entries of the matrix of cofactors -/
def Transformed (d : Nat) (g : MultiLinearGeometry) (P : Fin d → MvPolynomial (Fin d) ℝ)
    (Q : Fin d → Fin d → MvPolynomial (Fin d) ℝ) : Prop :=
  ∀ x ∈ refSet d g.id, ∃ r, g.jacobianInverseTransposed (RefGeom.ext x) = some r ∧
    ∀ k j : Fin d, (Q k j).eval x = (P k).eval (vec d (g.global (RefGeom.ext x))) * (r.2 k j * r.1)

/-- the error of the tables for one element -/
noncomputable def elementTol (d p : Nat) (Q : Fin d → Fin d → MvPolynomial (Fin d) ℝ) : ℝ :=
  tabTol * ((p + 1 + 2 * d) * ∑ k, ∑ j, coeffSum (Q k j))

/-! ### helper lemmas -/

theorem facet_exists {d id i : Nat} (h0 : 0 < d) (hi : i < refSize d id 1) : ∃ n e, IsFacet d id i n e := by
  obtain ⟨f, hf, hfi⟩ := facet_face h0 hi
  have hrep := rep_topoOf d id
  have he := embedding_face (K := ℝ) hrep f
  rw [hf, hfi] at he
  have hn := normal_face (K := ℝ) hrep f hf
  rw [hfi] at hn
  exact ⟨_, _, hi, hn, he⟩

/-- the point of the element that belongs to a point of the facet -/
theorem embed_eq {d id i : Nat} (h0 : 0 < d) (hd : d ≤ 31) (hid : id < 2 ^ d) {n : Vec ℝ} {e : Vec ℝ × Mat ℝ} (h : IsFacet d id i n e)
    (y : Vec ℝ) : embed (d - 1) e y = RefGeom.ext (facetPoint d id i fun k : Fin (refType d id i 1).dim => y k) := by
  obtain ⟨f, hf, hfi⟩ := facet_face h0 h.lt
  have hrep := rep_topoOf d id
  have he := embedding_face (K := ℝ) hrep f
  rw [hf, hfi] at he
  have hT : refType d id i 1 = ⟨d - 1, false, subTopologyId d id 1 i⟩ := refType_eq d id _ _ hd hid h0
  obtain rfl : e = (orig f, RefGeom.jac f) := Option.some.inj (h.embedding.symm.trans he)
  have hfd := Face.codim_add_dim f
  rw [hrep.dim_eq, hf] at hfd
  funext j
  by_cases hj : j < d
  · rw [RefGeom.ext, dif_pos hj, facetPoint, List.getD_eq_getElem?_getD, he, Option.getD_some]
    simp only [embed]
    congr 1
    refine sum_congr rfl fun r hr => ?_
    rw [RefGeom.ext, dif_pos (by rw [hT]; exact mem_range.1 hr)]
  · rw [RefGeom.ext, dif_neg hj, show d - 1 = f.shape.dim by omega]
    exact emb_zero f y j (by rw [hrep.dim_eq]; omega)

theorem Regular.ie_eq {g : MultiLinearGeometry} {jit : (Fin g.mydim → ℝ) → ℝ × Mat ℝ} {ie : (Fin g.mydim → ℝ) → ℝ} (h : Regular g jit ie)
    {x : Fin g.mydim → ℝ} (hx : x ∈ refSet g.mydim g.id) : ie x = (jit x).1 := by
  have h1 := h.inverse x hx
  have h2 := h.element x hx
  rw [ie_of_li h.full (li_of_jit h.full (by rw [h1]; rfl))] at h2
  rw [MultiLinearGeometry.jacobianInverseTransposed, h.full] at h1
  rw [(Piola.right_inverse le_rfl h1).2.1, sqrt_det_square]
  exact (Option.some.inj h2).symm

theorem quadOf_sum' {d n : Nat} (f : Fin n → (Fin d → ℝ) → ℝ) (l : List (QPoint ℝ)) :
    quadOf (fun x => ∑ j, f j x) l = ∑ j, quadOf (f j) l := by
  have := quadOf_sum (fun _ => 1) f l
  simpa using this

theorem facet_value {g : MultiLinearGeometry} {jit : (Fin g.mydim → ℝ) → ℝ × Mat ℝ} {ie : (Fin g.mydim → ℝ) → ℝ} (h : Regular g jit ie)
    (h0 : 0 < g.mydim) (hd : g.mydim ≤ 30) (env : Env ℝ) {p : Nat} {qt : QType} {i : Nat} (hi : i < refSize g.mydim g.id 1) {R : Rule ℝ}
    (hR : rule env (refType g.mydim g.id i 1).dim (refType g.mydim g.id i 1) p qt = .ok R)
    (hin : PointsIn (refType g.mydim g.id i 1).dim (refType g.mydim g.id i 1).id R.pts) (P : Fin g.mydim → MvPolynomial (Fin g.mydim) ℝ) :
    facetFlux env g.mydim p qt (polyField P) g i =
      some (∑ k, facetQuad g.mydim g.id i (fun x => (P k).eval (multiLinearMap g x) * mapped g jit ie i k x) R.pts) := by
  obtain ⟨n, e, hf⟩ := facet_exists h0 hi
  have hT : refType g.mydim g.id i 1 = ⟨g.mydim - 1, false, subTopologyId g.mydim g.id 1 i⟩ :=
    refType_eq _ _ _ _ (by omega) h.legal.id_lt h0
  have hR' : rule env (g.mydim - 1) (refType g.mydim g.id i 1) p qt = .ok R := by
    have e : (refType g.mydim g.id i 1).dim = g.mydim - 1 := by rw [hT]
    rw [← e]; exact hR
  have hn : (referenceIntegrationOuterNormals (K := ℝ) g.mydim g.mydim g.id).getD i (fun _ => 0) = n := by
    rw [List.getD_eq_getElem?_getD, hf.normal, Option.getD_some]
  rw [facetFlux_eq hf hR', quadrature_eq (v := fun q => ∑ k,
    (P k).eval (multiLinearMap g (facetPoint g.mydim g.id i fun k : Fin (refType g.mydim g.id i 1).dim => q.position k)) *
      mapped g jit ie i k (facetPoint g.mydim g.id i fun k : Fin (refType g.mydim g.id i 1).dim => q.position k))]
  · congr 1
    simp only [facetQuad]
    rw [← quadOf_sum', quadOf]
    congr 1
    exact List.map_congr_left fun q _ => mul_comm _ _
  · intro q hq
    have hx := facetPoint_mem h0 (by omega) h.legal.id_lt hi (hin q hq)
    rw [fluxDensity, embed_eq h0 (by omega) h.legal.id_lt hf, h.inverse _ hx, Option.map_some]
    congr 1
    rw [dotProduct]
    refine sum_congr rfl fun k _ => ?_
    rw [mapped, h.ie_eq hx, mappedNormal, Pi.smul_apply, smul_eq_mul]
    have e1 : vec g.mydim (polyField P (g.global (RefGeom.ext (facetPoint g.mydim g.id i
        fun k : Fin (refType g.mydim g.id i 1).dim => q.position k)))) k =
        (P k).eval (multiLinearMap g (facetPoint g.mydim g.id i fun k : Fin (refType g.mydim g.id i 1).dim => q.position k)) :=
      dif_pos k.2
    have e2 : (fun j : Fin g.mydim => normal g.mydim g.id i j) = vec g.mydim n := by
      funext j; rw [normal, hn]; rfl
    rw [e1, e2]
    ring

theorem element_value {g : MultiLinearGeometry} {jit : (Fin g.mydim → ℝ) → ℝ × Mat ℝ} {ie : (Fin g.mydim → ℝ) → ℝ} (h : Regular g jit ie)
    (env : Env ℝ) {p : Nat} {qt : QType} {r : Rule ℝ} (hr : rule env g.mydim ⟨g.mydim, false, g.id⟩ p qt = .ok r)
    (hin : PointsIn g.mydim g.id r.pts) (hz : ∀ q ∈ r.pts, ∀ k, g.mydim ≤ k → q.position k = 0)
    (P : Fin g.mydim → MvPolynomial (Fin g.mydim) ℝ) :
    elementIntegral env g.mydim p qt (polyDiv P) g =
      some (∑ k, quadOf (fun x => partialDeriv (fun y => (P k).eval y) k (multiLinearMap g x) * ie x) r.pts) := by
  rw [elementIntegral, hr]
  simp only
  rw [quadrature_eq (v := fun q => ∑ k, partialDeriv (fun y => (P k).eval y) k (multiLinearMap g fun j => q.position j) *
    ie fun j => q.position j)]
  · congr 1
    rw [← quadOf_sum', quadOf]
    congr 1
    exact List.map_congr_left fun q _ => mul_comm _ _
  · intro q hq
    have e : q.position = RefGeom.ext fun j : Fin g.mydim => q.position j := by
      funext k
      by_cases hk : k < g.mydim
      · rw [RefGeom.ext, dif_pos hk]
      · rw [RefGeom.ext, dif_neg hk, hz q hq k (by omega)]
    rw [surfaceDensity]
    conv_lhs => rw [e]
    rw [h.element _ (hin q hq), Option.map_some, ← sum_mul]
    rfl

/-- one element -/
theorem element_balance (env : Env ℝ) {d p m : Nat} {qt : QType} {g : MultiLinearGeometry} (hg : Legal g) (hdim : g.mydim = d)
    (hfull : g.cdim = g.mydim) (hc : IsCubeId d g.id) (h0 : 0 < d) (hd : d ≤ 30) (hq : IsPlain qt)
    (hm : maxOrder d ⟨d, false, g.id⟩ qt = .ok m) (hp : p ≤ m)
    (hinv : ∀ x ∈ refSet g.mydim g.id, (g.jacobianInverseTransposed (RefGeom.ext x)).isSome)
    (P : Fin d → MvPolynomial (Fin d) ℝ) (hP : ∀ k, (P k).totalDegree + (d - 2) ≤ p) :
    ∃ (D : ℝ) (S : Nat → ℝ) (Q : Fin d → Fin d → MvPolynomial (Fin d) ℝ), elementIntegral env d p qt (polyDiv P) g = some D ∧
      (∀ i, i < refSize d g.id 1 → facetFlux env d p qt (polyField P) g i = some (S i)) ∧ Transformed d g P Q ∧
      |D - ∑ i ∈ range (refSize d g.id 1), S i| ≤ elementTol d p Q := by
  subst hdim
  obtain ⟨jit, ie, h⟩ := regular_of hg hc hfull hinv
  obtain ⟨r, R, hR, hb⟩ := C123_divergence env p m qt g jit ie h h0 hd hq hm hp
  obtain ⟨r', R', hR', hin, -, hf⟩ := cube_rules env h0 hd hg.id_lt hc hq hm hp
  obtain rfl : r = r' := by have := hR.element.symm.trans hR'.element; cases this; rfl
  have hRR : ∀ i, i < refSize g.mydim g.id 1 → R i = R' i := fun i hi => by
    have := (hR.facet i hi).symm.trans (hR'.facet i hi); injection this
  obtain ⟨r', h1, -, h2⟩ := plain_good env hq hd hg.id_lt hm hp
  obtain rfl : r = r' := by have := hR.element.symm.trans h1; cases this; rfl
  choose Q hQ hQb using fun k => hb (P k) (hP k) k
  refine ⟨_, fun i => ∑ k, facetQuad g.mydim g.id i (fun x => (P k).eval (multiLinearMap g x) * mapped g jit ie i k x) (R i).pts, Q,
    element_value h env hR.element hin (fun q hq k hk => h2.zero q hq k (by rw [(rep_topoOf _ _).dim_eq]; exact hk)) P,
    fun i hi => facet_value h h0 hd env hi (hR.facet i hi) (by rw [hRR i hi]; exact (hf i hi).1) P, fun x hx => ⟨jit x, h.inverse x hx,
      fun k j => by rw [hQ k x hx j, h.ie_eq hx]; rfl⟩, ?_⟩
  rw [sum_comm, ← sum_sub_distrib, elementTol, mul_sum, mul_sum]
  refine (abs_sum_le_sum_abs _ _).trans (sum_le_sum fun k _ => ?_)
  have := hQb k
  rw [outflow] at this
  rwa [← Multiset.sum_coe, ← Multiset.map_coe] at this

theorem Solid.cubes {env : Env ℝ} {d p : Nat} {qt : QType} {gs : List MultiLinearGeometry} (h : Solid d p qt gs) (h0 : 0 < d) (hd : d ≤ 30)
    (hq : IsPlain qt) : Cubes env d p qt gs := by
  refine ⟨h.legal, h.dim, h.cube, h.order, fun g hg i n e r hf hr q hq' => ?_⟩
  obtain ⟨m, hm, hp⟩ := h.order g hg
  have hid := (h.legal g hg).id_lt
  have hinv := h.inverse g hg
  have hdim := h.dim g hg
  have hc := h.cube g hg
  subst hdim
  obtain ⟨_, R, hR, -, -, hf'⟩ := cube_rules env h0 hd hid hc hq hm hp
  have hT : refType g.mydim g.id i 1 = ⟨g.mydim - 1, false, subTopologyId g.mydim g.id 1 i⟩ := refType_eq _ _ _ _ (by omega) hid h0
  have e : R i = r := by
    have h1 := hR.facet i hf.lt
    have e : (refType g.mydim g.id i 1).dim = g.mydim - 1 := by rw [hT]
    rw [← e, h1] at hr; injection hr
  have hin := (hf' i hf.lt).1
  rw [e] at hin
  rw [embed_eq h0 (by omega) hid hf]
  exact hinv _ (facetPoint_mem h0 (by omega) hid hf.lt (hin q hq'))

/-! ### C125 -/

/-- C125: the divergence theorem of the rules on a mesh. -/
theorem C125_mesh (env : Env ℝ) (d p : Nat) (hd : 1 < d) (hd' : d ≤ 30) (qt : QType) (hq : qt = .GaussLegendre ∨ qt = .GaussLobatto)
    (P : Fin d → MvPolynomial (Fin d) ℝ) (hP : ∀ k, (P k).totalDegree + (d - 2) ≤ p) (K : ℝ) (gs : List MultiLinearGeometry)
    (h : Solid d p qt gs) (I : Finset (Fin gs.length × Nat)) (β : Fin gs.length × Nat → Fin gs.length × Nat)
    (hc : Conforming env d p qt (polyField P) K gs I β) :
    ∃ (D : ℝ) (S : Fin gs.length × Nat → ℝ) (Q : Fin gs.length → Fin d → Fin d → MvPolynomial (Fin d) ℝ),
      meshIntegral env d p qt (polyDiv P) gs = some D ∧
      (∀ x ∈ facets d gs, facetFlux env d p qt (polyField P) (gs.get x.1) x.2 = some (S x)) ∧
      (∀ a, Transformed d (gs.get a) P (Q a)) ∧
      |D - ∑ x ∈ facets d gs \ I, S x| ≤ ∑ a, elementTol d p (Q a) + I.card / 2 * K := by
  have hpl : IsPlain qt := hq.elim Or.inl fun h => Or.inr (Or.inl h)
  obtain ⟨T, S, hT, hS, hb⟩ := C124_conservation env d p hd hd' qt hq (polyField P) K gs (h.cubes (by omega) hd' hpl) I β hc
  have hel : ∀ a : Fin gs.length, ∃ D Q, elementIntegral env d p qt (polyDiv P) (gs.get a) = some D ∧ Transformed d (gs.get a) P Q ∧
      |D - ∑ i ∈ range (refSize d (gs.get a).id 1), S (a, i)| ≤ elementTol d p Q := by
    intro a
    have m1 := List.get_mem gs a
    obtain ⟨m, hm, hp⟩ := h.order _ m1
    obtain ⟨D, S', Q, e1, e2, e3, e4⟩ := element_balance env (h.legal _ m1) (h.dim _ m1) (h.full _ m1) (h.cube _ m1) (by omega) hd' hpl hm hp
      (h.inverse _ m1) P hP
    refine ⟨D, Q, e1, e3, ?_⟩
    have : ∑ i ∈ range (refSize d (gs.get a).id 1), S (a, i) = ∑ i ∈ range (refSize d (gs.get a).id 1), S' i :=
      sum_congr rfl fun i hi => Option.some.inj ((hS (a, i) (mem_facets.2 (mem_range.1 hi))).symm.trans (e2 i (mem_range.1 hi)))
    rw [this]; exact e4
  choose D Q h1 h2 h3 using hel
  refine ⟨∑ a, D a, S, Q, ?_, hS, h2, ?_⟩
  · rw [meshIntegral, outer_loop gs D (fun a s => by rw [h1 a]; rfl), zero_add]
  · have hT' : T = ∑ x ∈ facets d gs, S x := by
      rw [meshFlux, outer_loop gs (fun a => ∑ i ∈ range (refSize d (gs.get a).id 1), S (a, i)) (fun a s =>
        inner_loop _ (fun i hi => hS (a, i) (mem_facets.2 hi)) s), zero_add, ← sum_facets] at hT
      exact (Option.some.inj hT).symm
    have e : |∑ a, D a - T| ≤ ∑ a, elementTol d p (Q a) := by
      rw [hT', sum_facets, ← sum_sub_distrib]
      exact (abs_sum_le_sum_abs _ _).trans (sum_le_sum fun a _ => h3 a)
    refine (abs_sub_le _ T _).trans (add_le_add e hb)

/-- C125: a field without divergence has no net flux through the boundary of the mesh. -/
theorem C125_solenoidal (env : Env ℝ) (d p : Nat) (hd : 1 < d) (hd' : d ≤ 30) (qt : QType) (hq : qt = .GaussLegendre ∨ qt = .GaussLobatto)
    (P : Fin d → MvPolynomial (Fin d) ℝ) (hP : ∀ k, (P k).totalDegree + (d - 2) ≤ p) (hdiv : ∑ k, pderiv k (P k) = 0) (K : ℝ)
    (gs : List MultiLinearGeometry) (h : Solid d p qt gs) (I : Finset (Fin gs.length × Nat))
    (β : Fin gs.length × Nat → Fin gs.length × Nat) (hc : Conforming env d p qt (polyField P) K gs I β) :
    ∃ (S : Fin gs.length × Nat → ℝ) (Q : Fin gs.length → Fin d → Fin d → MvPolynomial (Fin d) ℝ),
      (∀ x ∈ facets d gs, facetFlux env d p qt (polyField P) (gs.get x.1) x.2 = some (S x)) ∧
      (∀ a, Transformed d (gs.get a) P (Q a)) ∧
      |∑ x ∈ facets d gs \ I, S x| ≤ ∑ a, elementTol d p (Q a) + I.card / 2 * K := by
  have hpl : IsPlain qt := hq.elim Or.inl fun h => Or.inr (Or.inl h)
  obtain ⟨D, S, Q, h1, h2, h3, h4⟩ := C125_mesh env d p hd hd' qt hq P hP K gs h I β hc
  refine ⟨S, Q, h2, h3, ?_⟩
  have hz : polyDiv P = fun _ => 0 := by
    funext y
    simp only [polyDiv, partialDeriv_eval]
    rw [← map_sum, hdiv, map_zero]
  have hD : D = 0 := by
    have hel : ∀ a : Fin gs.length, ∀ s : ℝ, (elementIntegral env d p qt (polyDiv P) (gs.get a)).map (fun v => s + v) = some (s + 0) := by
      intro a s
      have m1 := List.get_mem gs a
      obtain ⟨m, hm, hp⟩ := h.order _ m1
      obtain ⟨v, -, -, e1, -⟩ := element_balance env (h.legal _ m1) (h.dim _ m1) (h.full _ m1) (h.cube _ m1) (by omega) hd' hpl hm hp
        (h.inverse _ m1) P hP
      have : v = 0 := by
        have e2 := e1
        rw [elementIntegral] at e2
        split at e2
        · rename_i r hr
          have : ∀ (l : List (QPoint ℝ)) (s : ℝ) {v}, l.foldlM (fun sum qp => (surfaceDensity (gs.get a) (polyDiv P) qp.position).map
              fun v => sum + v * qp.weight) s = some v → v = s := by
            intro l
            induction l with
            | nil => intro s v hv; exact (Option.some.inj hv).symm
            | cons q l ih =>
              intro s v hv
              rw [List.foldlM_cons] at hv
              cases hq : surfaceDensity (gs.get a) (polyDiv P) q.position with
              | none => rw [hq] at hv; cases hv
              | some w =>
                have hw : w = 0 := by
                  rw [surfaceDensity, hz] at hq
                  obtain ⟨_, -, h⟩ := Option.map_eq_some_iff.1 hq
                  rw [← h, zero_mul]
                rw [hq, hw] at hv
                have := ih _ hv
                rw [this]; simp
          exact this r.pts 0 e2
        · cases e2
      rw [e1, this]; rfl
    rw [meshIntegral, outer_loop gs (fun _ => 0) hel] at h1
    simpa using (Option.some.inj h1).symm
  rw [hD, zero_sub, abs_neg] at h4
  exact h4

/-- C125: the volume of the mesh is the flux of a coordinate through its boundary. -/
theorem C125_volume (env : Env ℝ) (d p : Nat) (hd : 1 < d) (hd' : d ≤ 30) (hp : d - 1 ≤ p) (qt : QType)
    (hq : qt = .GaussLegendre ∨ qt = .GaussLobatto) (k : Fin d) (K : ℝ) (gs : List MultiLinearGeometry) (h : Solid d p qt gs)
    (I : Finset (Fin gs.length × Nat)) (β : Fin gs.length × Nat → Fin gs.length × Nat)
    (hc : Conforming env d p qt (fun y i => if i = k then y k else 0) K gs I β) :
    ∃ (V : ℝ) (S : Fin gs.length × Nat → ℝ) (Q : Fin gs.length → Fin d → Fin d → MvPolynomial (Fin d) ℝ),
      meshIntegral env d p qt (fun _ => 1) gs = some V ∧
      (∀ x ∈ facets d gs, facetFlux env d p qt (fun y i => if i = k then y k else 0) (gs.get x.1) x.2 = some (S x)) ∧
      (∀ a, Transformed d (gs.get a) (fun i => if i = k then X k else 0) (Q a)) ∧
      |V - ∑ x ∈ facets d gs \ I, S x| ≤ ∑ a, elementTol d p (Q a) + I.card / 2 * K := by
  have e1 : polyField (fun i => if i = k then X k else 0) = fun y i => if i = k.1 then y k else 0 := by
    funext y i
    rw [polyField]
    by_cases hi : i < d
    · rw [dif_pos hi]
      by_cases hik : i = k.1
      · rw [if_pos (Fin.ext hik), if_pos hik, eval_X]; rfl
      · rw [if_neg (fun h => hik (congrArg Fin.val h)), if_neg hik, map_zero]
    · rw [dif_neg hi, if_neg (fun h : i = k.1 => hi (h ▸ k.2))]
  have e2 : polyDiv (fun i => if i = k then X k else 0) = fun _ => (1 : ℝ) := by
    funext y
    simp only [polyDiv, partialDeriv_eval]
    rw [sum_eq_single k]
    · rw [if_pos rfl, pderiv_X_self, map_one]
    · intro i _ hi; rw [if_neg hi, map_zero, map_zero]
    · simp
  have := C125_mesh env d p hd hd' qt hq (fun i => if i = k then X k else 0) (fun i => by
    by_cases hi : i = k
    · simp only [if_pos hi, totalDegree_X]; omega
    · simp only [if_neg hi, totalDegree_zero]; omega) K gs h I β (by rw [e1]; exact hc)
  rw [e1, e2] at this
  exact this

/-- two neighbouring squares and the field `(c, y)`, whose divergence is 1 -/
example (env : Env ℝ) (c : ℝ) : ∃ K, Solid 2 1 .GaussLegendre [sampleSquare 0, sampleSquare 1] ∧
    (∀ k, ((![C c, X 1] : Fin 2 → MvPolynomial (Fin 2) ℝ) k).totalDegree + (2 - 2) ≤ 1) ∧
    Conforming env 2 1 .GaussLegendre (polyField ![C c, X 1]) K [sampleSquare 0, sampleSquare 1] {((0 : Fin 2), 1), ((1 : Fin 2), 0)}
      (fun x => if x = ((0 : Fin 2), 1) then ((1 : Fin 2), 0) else ((0 : Fin 2), 1)) := by
  obtain ⟨K, h1, h2⟩ := two_squares env (polyField ![C c, X 1]) c fun y => by
    rw [polyField, dif_pos (show 0 < 2 by omega)]; simp
  refine ⟨K, ⟨h1.legal, h1.dim, ?_, h1.cube, h1.order, ?_⟩, ?_, h2⟩
  · intro g hg; simp only [List.mem_cons, List.not_mem_nil, or_false] at hg; rcases hg with rfl | rfl <;> rfl
  · intro g hg x _
    simp only [List.mem_cons, List.not_mem_nil, or_false] at hg
    rcases hg with rfl | rfl <;>
    · obtain ⟨r, k, -⟩ := sampleSquare_inverse _ (RefGeom.ext x)
      rw [k]; rfl
  · intro k; fin_cases k <;> simp

/-- the second coordinate for two neighbouring squares -/
example (env : Env ℝ) : ∃ K I β, Conforming env 2 1 .GaussLegendre (fun y i => if i = (1 : Fin 2).1 then y (1 : Fin 2) else 0) K
    [sampleSquare 0, sampleSquare 1] I β := by
  obtain ⟨K, -, h⟩ := two_squares env (fun y i => if i = (1 : Fin 2).1 then y (1 : Fin 2) else 0) 0 fun y => by simp
  exact ⟨K, _, _, h⟩

end Verif.Balance
