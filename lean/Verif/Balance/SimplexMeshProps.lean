import Verif.Balance.MeshProps
import Verif.Quad.ConicalSymmetricProps

/-!
Property theorems: conservation on meshes in the plane and on meshes of tetrahedra (C124).  The fluxes through inner facets cancel as on
meshes of cubes; the points of the rules keep away from the boundary of the facets.
-/

namespace Verif.Balance

open Verif.Typ Verif.RefTopo Verif.RefGeom Verif.MatHelp Verif.MultiLinear Verif.Normal Verif.Flux
open Verif.Quad hiding jac absWeights
open Finset hiding ext

/-! ### Specification -/

/-- the elements have dimension `d` in `d`-dimensional space and can be evaluated at the points of the facet rules -/
structure Elements (env : Env ℝ) (d p : Nat) (gs : List MultiLinearGeometry) : Prop where
  legal : ∀ g ∈ gs, Legal g
  dim : ∀ g ∈ gs, g.mydim = d
  tol : ∀ g ∈ gs, g.tol ≤ 1 / 1000
  order : ∀ g ∈ gs, ∃ m, maxOrder d ⟨d, false, g.id⟩ .GaussLegendre = .ok m ∧ p ≤ m
  regular : ∀ g ∈ gs, ∀ i n e r, IsFacet d g.id i n e → rule env (d - 1) (refType d g.id i 1) p .GaussLegendre = .ok r → ∀ q ∈ r.pts,
    (g.jacobianInverseTransposed (embed (d - 1) e q.position)).isSome

/-- elements of the plane, any order; tetrahedra, the orders whose rule on the triangle is symmetric and has no points on the edges -/
def Supported (d p : Nat) (gs : List MultiLinearGeometry) : Prop :=
  d = 2 ∨ d = 3 ∧ (∀ g ∈ gs, g.id = 0) ∧ p ≤ 12 ∧ p ≠ 6 ∧ p ≠ 7 ∧ p ≠ 11

/-- as `Glued`, with the accuracy of the tables of the simplices -/
def GluedTo (env : Env ℝ) (d p : Nat) (F : Vec ℝ → Vec ℝ) (K : ℝ) (g₁ g₂ : MultiLinearGeometry) (i₁ i₂ : Nat) : Prop :=
  ∃ n₁ n₂ e₁ e₂ id σ a M B ω r, Common d g₁ g₂ i₁ i₂ n₁ n₂ e₁ e₂ id σ a M ∧ rule env (d - 1) ⟨d - 1, false, id⟩ p .GaussLegendre = .ok r ∧
    (∀ q ∈ r.pts, Opposite d g₁ g₂ n₁ n₂ e₁ e₂ a M q.position) ∧ Smooth (d - 1) (1 / 10 ^ 14) B ω (fluxDensity d g₁ n₁ e₁ F) r.pts ∧
    r.pts.length * (1 / 10 ^ 14) * B + absWeights r.pts * ω ≤ K

/-- `I` are the inner facets; `β` gives the other side -/
structure ConformingTo (env : Env ℝ) (d p : Nat) (F : Vec ℝ → Vec ℝ) (K : ℝ) (gs : List MultiLinearGeometry)
    (I : Finset (Fin gs.length × Nat)) (β : Fin gs.length × Nat → Fin gs.length × Nat) : Prop where
  facet : I ⊆ facets d gs
  partner : ∀ x ∈ I, β x ∈ I
  back : ∀ x ∈ I, β (β x) = x
  glued : ∀ x ∈ I, GluedTo env d p F K (gs.get x.1) (gs.get (β x).1) x.2 (β x).2 ∨
    GluedTo env d p F K (gs.get (β x).1) (gs.get x.1) (β x).2 x.2

/-! ### helper lemmas -/

/-- the points of the rules on the line keep a distance of 1/900 from the ends -/
def inner1 (r : Row) : Bool :=
  r.pts.all fun n => n.x.length == 1 && n.x.all fun l => l.den != 0 && decide ((l.den : Int) ≤ 900 * l.num ∧ 900 * l.num ≤ 899 * (l.den : Int))

theorem gauss_inner : (Gauss.table.all inner1) = true := by decide +kernel

theorem inner_near {row : Row} (h : row ∈ Gauss.table) {tol : ℝ} (htol : tol ≤ 1 / 1000) (id : Nat) :
    ∀ q ∈ row.pts.map (Node.point (K := ℝ)), ∀ y : Vec ℝ, (∀ i, i < 1 → |y i - q.position i| ≤ 1 / 10 ^ 14) →
      checkInside 1 id y (-tol) 1 = true := by
  intro q hq y hy
  obtain ⟨n, hn, rfl⟩ := List.mem_map.1 hq
  have hk := List.all_eq_true.1 gauss_inner row h
  simp only [inner1, Bool.and_eq_true, List.all_eq_true, beq_iff_eq, bne_iff_ne, ne_eq, decide_eq_true_eq] at hk
  obtain ⟨h1, h2⟩ := hk n hn
  obtain ⟨h3, h4, h5⟩ := h2 _ (List.getElem_mem (show 0 < n.x.length by omega))
  have e : (Node.point (K := ℝ) n).position 0 = (n.x[0].num : ℝ) / n.x[0].den := dif_pos (by omega)
  have hd : (0:ℝ) < n.x[0].den := by exact_mod_cast Nat.pos_of_ne_zero h3
  have h4' : (n.x[0].den : ℝ) ≤ 900 * n.x[0].num := by exact_mod_cast h4
  have h5' : 900 * (n.x[0].num : ℝ) ≤ 899 * n.x[0].den := by exact_mod_cast h5
  have a1 : 1 / 900 ≤ (Node.point (K := ℝ) n).position 0 := by
    rw [e, le_div_iff₀ hd]; norm_num at h4' ⊢; linarith
  have a2 : (Node.point (K := ℝ) n).position 0 ≤ 899 / 900 := by
    rw [e, div_le_iff₀ hd]; norm_num at h5' ⊢; linarith
  have a3 := abs_le.1 (hy 0 (by omega))
  norm_num at a3
  have b1 : y 0 > - -tol := by linarith [a3.1]
  have b2 : 1 - y 0 > - -tol := by linarith [a3.2]
  unfold checkInside
  simp only
  rw [if_pos ⟨b1, b2⟩]
  rfl

theorem invariant_mono {d : Nat} {ε ε' : ℝ} (h : ε ≤ ε') {A : Vec ℝ → Vec ℝ} {l : List (QPoint ℝ)} (hi : Invariant d ε A l) :
    Invariant d ε' A l :=
  Multiset.Rel.mono hi fun _ _ _ _ hab => ⟨fun i hi => (hab.1 i hi).trans h, hab.2.trans h⟩

/-- two neighbours in the plane -/
theorem flux_plane (env : Env ℝ) {g₁ g₂ : MultiLinearGeometry} {i₁ i₂ : Nat} {n₁ n₂ : Vec ℝ} {e₁ e₂ : Vec ℝ × Mat ℝ} {id : Nat}
    {σ : Nat → Nat} {a : Vec ℝ} {M : Mat ℝ} (h : Common 2 g₁ g₂ i₁ i₂ n₁ n₂ e₁ e₂ id σ a M) (htol : g₁.tol ≤ 1 / 1000) {p : Nat}
    (hp : p ≤ 61) : ∃ r, rule env 1 ⟨1, false, id⟩ p .GaussLegendre = .ok r ∧
      ((∀ q ∈ r.pts, Opposite 2 g₁ g₂ n₁ n₂ e₁ e₂ a M q.position) →
        (∀ q ∈ r.pts, (g₂.jacobianInverseTransposed (embed 1 e₂ q.position)).isSome) →
        ∀ (F : Vec ℝ → Vec ℝ) (B ω : ℝ), Smooth 1 (1 / 10 ^ 14) B ω (fluxDensity 2 g₁ n₁ e₁ F) r.pts →
        ∃ S T, quadrature (fluxDensity 2 g₁ n₁ e₁ F) r.pts = some S ∧ quadrature (fluxDensity 2 g₂ n₂ e₂ F) r.pts = some T ∧
          |T + S| ≤ r.pts.length * (1 / 10 ^ 14) * B + absWeights r.pts * ω) := by
  have hid : id < 2 := h.valid
  have hm : maxOrder 1 ⟨1, false, id⟩ .GaussLegendre = .ok 61 := by interval_cases id <;> decide
  obtain ⟨r, hr, hinv⟩ := C108_cube_partial env 1 id p 61 .GaussLegendre (by omega) h.valid (fun k h1 h2 => by omega) (Or.inl rfl) hm (by omega)
    hp σ a M h.symmetry
  have hinv := invariant_mono (show (1 : ℝ) / 10 ^ 79 ≤ 1 / 10 ^ 14 by norm_num) hinv
  obtain ⟨row, h1, h2, -⟩ := plain_row (qt := .GaussLegendre) (Or.inl rfl) rfl hp
  have e1 : rule (K := ℝ) env 1 ⟨1, false, id⟩ p .GaussLegendre = rule1D Gauss.table p := rule1_eq env hid rfl hp
  rw [rule1D, h2, hr] at e1
  have hpts : r.pts = row.pts.map Node.point := by injection e1 with e1; rw [e1]
  have hin := inner_near h1 htol id
  rw [← hpts] at hin
  refine ⟨r, hr, fun hop hreg F B ω hF => C112_flux 2 g₁ g₂ i₁ i₂ n₁ n₂ e₁ e₂ id σ a M h _ B ω r.pts hinv (fun q hq => ?_) hop hreg F hF⟩
  refine ⟨hin q hq _ fun i _ => by rw [_root_.sub_self, abs_zero]; positivity, ?_⟩
  obtain ⟨q', hq', hc, -⟩ := Multiset.exists_mem_of_rel_of_mem hinv (Multiset.mem_coe.2 hq)
  exact hin q' (Multiset.mem_coe.1 hq') _ hc

/-- the flux through every facet is defined -/
theorem Elements.flux_some {env : Env ℝ} {d p : Nat} {gs : List MultiLinearGeometry} (h : Elements env d p gs) (h0 : 0 < d) (hd : d ≤ 30)
    (F : Vec ℝ → Vec ℝ) (x : Fin gs.length × Nat) (hx : x ∈ facets d gs) :
    ∃ v, facetFlux env d p .GaussLegendre F (gs.get x.1) x.2 = some v := by
  have hi := mem_facets.1 hx
  have m1 := List.get_mem gs x.1
  generalize gs.get x.1 = g at *
  obtain ⟨f, hf, hfi⟩ := facet_face h0 hi
  have hrep := rep_topoOf d g.id
  have he := embedding_face (K := ℝ) hrep f
  rw [hf, hfi] at he
  have hn := normal_face (K := ℝ) hrep f hf
  rw [hfi] at hn
  have hfac : IsFacet d g.id x.2 _ _ := ⟨hi, hn, he⟩
  have hid := (h.legal _ m1).id_lt
  rw [h.dim _ m1] at hid
  obtain ⟨m, hm, hpm⟩ := h.order _ m1
  obtain ⟨m', hm', hmm⟩ := C107_available d _ m .GaussLegendre hd hid (Or.inl rfl) hm 1 x.2 h0 hi
  have hT : refType d g.id x.2 1 = ⟨d - 1, false, subTopologyId d g.id 1 x.2⟩ := refType_eq d _ _ _ (by omega) hid h0
  have hT' := hm'
  rw [hT] at hT'
  obtain ⟨r, hr, -⟩ := plain_good env (Or.inl rfl) (show d - 1 ≤ 30 by omega) (subTopologyId_lt d _ 1 x.2 hid h0) hT' (hpm.trans hmm)
  rw [← hT] at hr
  have hreg := h.regular _ m1 _ _ _ _ hfac hr
  choose! v hv using fun q hq => Option.isSome_iff_exists.1 (hreg q hq)
  rw [facetFlux_eq hfac hr]
  exact ⟨_, quadrature_eq fun q hq => by rw [fluxDensity, hv q hq, Option.map_some]⟩

/-! ### C124 -/

/-- C124 for meshes in the plane (triangles and quadrilaterals) and for meshes of tetrahedra; the two sides of an inner facet have the same topology id. -/
theorem C124_simplices (env : Env ℝ) (d p : Nat) (F : Vec ℝ → Vec ℝ) (K : ℝ) (gs : List MultiLinearGeometry) (h : Elements env d p gs)
    (hsup : Supported d p gs) (I : Finset (Fin gs.length × Nat)) (β : Fin gs.length × Nat → Fin gs.length × Nat)
    (hc : ConformingTo env d p F K gs I β) :
    ∃ (T : ℝ) (S : Fin gs.length × Nat → ℝ), meshFlux env d p .GaussLegendre F gs = some T ∧
      (∀ x ∈ facets d gs, facetFlux env d p .GaussLegendre F (gs.get x.1) x.2 = some (S x)) ∧
      |T - ∑ x ∈ facets d gs \ I, S x| ≤ I.card / 2 * K := by
  have hd : 0 < d ∧ d ≤ 30 := by rcases hsup with rfl | ⟨rfl, -⟩ <;> omega
  choose! S hS using h.flux_some hd.1 hd.2 F
  refine ⟨∑ x ∈ facets d gs, S x, S, ?_, hS, ?_⟩
  · rw [meshFlux, outer_loop gs (fun a => ∑ i ∈ range (refSize d (gs.get a).id 1), S (a, i)) (fun a s =>
      inner_loop _ (fun i hi => hS (a, i) (mem_facets.2 hi)) s), zero_add, sum_facets]
  · rw [← sum_sdiff hc.facet, add_sub_cancel_left]
    refine sum_pairs hc.partner hc.back fun x hx => ?_
    have key : ∀ x ∈ I, ∀ y ∈ I, GluedTo env d p F K (gs.get x.1) (gs.get y.1) x.2 y.2 → |S y + S x| ≤ K := by
      rintro x hx y hy ⟨n₁, n₂, e₁, e₂, id, σ, a, M, B, ω, r, hcom, hr, hop, hsm, hK⟩
      have m1 := List.get_mem gs x.1
      have m2 := List.get_mem gs y.1
      have t1 : refType d (gs.get x.1).id x.2 1 = ⟨d - 1, false, id⟩ := by
        have hid := (h.legal _ m1).id_lt
        rw [h.dim _ m1] at hid
        have := refType_eq d (gs.get x.1).id x.2 1 (by omega) hid (by omega)
        have h2 := hcom.type₁
        rw [this] at h2 ⊢
        rw [← h2]
      have t2 : refType d (gs.get y.1).id y.2 1 = ⟨d - 1, false, id⟩ := by
        have hid := (h.legal _ m2).id_lt
        rw [h.dim _ m2] at hid
        have := refType_eq d (gs.get y.1).id y.2 1 (by omega) hid (by omega)
        have h2 := hcom.type₂
        rw [this] at h2 ⊢
        rw [← h2]
      have hreg := h.regular _ m2 _ _ _ _ hcom.facet₂ (by rw [t2]; exact hr)
      obtain ⟨s, t, hs, ht, hb⟩ : ∃ s t, quadrature (fluxDensity d (gs.get x.1) n₁ e₁ F) r.pts = some s ∧
          quadrature (fluxDensity d (gs.get y.1) n₂ e₂ F) r.pts = some t ∧ |t + s| ≤ r.pts.length * (1 / 10 ^ 14) * B + absWeights r.pts * ω := by
        rcases hsup with rfl | ⟨rfl, h0, h12, h6, h7, h11⟩
        · have hp : p ≤ 61 := by
            obtain ⟨m, hm, hpm⟩ := h.order _ m1
            have hid := (h.legal _ m1).id_lt
            rw [h.dim _ m1] at hid
            obtain ⟨m', hm', hs⟩ := maxOrder_tab (qt := .GaussLegendre) (h := 61) rfl (by omega) (by omega) 1 (gs.get x.1).id (by omega) hid
            rw [hm] at hm'
            cases hm'
            exact hpm.trans hs.1
          obtain ⟨r', hr', hflux⟩ := flux_plane env hcom (h.tol _ m1) hp
          obtain rfl : r = r' := by have := hr.symm.trans hr'; cases this; rfl
          exact hflux hop hreg F B ω hsm
        · have hid : id = 0 := by
            have h1 := hcom.type₁
            have h2 := hcom.facet₁.lt
            rw [h0 _ m1] at h1 h2
            have h3 : x.2 < 4 := lt_of_lt_of_eq h2 (by decide)
            rw [← h1]
            generalize x.2 = i at *
            interval_cases i <;> decide
          subst hid
          obtain ⟨r', hr', hflux⟩ := C112_triangle_partial env p h12 h6 h7 h11 _ _ _ _ n₁ n₂ e₁ e₂ σ a M hcom ((h.tol _ m1).trans (by norm_num))
          obtain rfl : r = r' := by have := hr.symm.trans hr'; cases this; rfl
          exact hflux hop hreg F B ω hsm
      have hx' := hS x (hc.facet hx)
      have hy' := hS y (hc.facet hy)
      rw [facetFlux_eq hcom.facet₁ (by rw [t1]; exact hr), hs] at hx'
      rw [facetFlux_eq hcom.facet₂ (by rw [t2]; exact hr), ht] at hy'
      rw [← Option.some.inj hx', ← Option.some.inj hy']
      exact hb.trans hK
    rcases hc.glued x hx with hg | hg
    · rw [add_comm]; exact key x hx _ (hc.partner x hx) hg
    · exact key _ (hc.partner x hx) x hx hg

/-- two neighbouring squares and a uniform flow -/
example (env : Env ℝ) (c : Vec ℝ) : ∃ K, Elements env 2 1 [sampleSquare 0, sampleSquare 1] ∧
    Supported 2 1 [sampleSquare 0, sampleSquare 1] ∧
    ConformingTo env 2 1 (fun _ => c) K [sampleSquare 0, sampleSquare 1] {((0 : Fin 2), 1), ((1 : Fin 2), 0)}
      (fun x => if x = ((0 : Fin 2), 1) then ((1 : Fin 2), 0) else ((0 : Fin 2), 1)) := by
  obtain ⟨K', h1, h2⟩ := two_squares env (fun _ => c) (c 0) fun _ => rfl
  obtain ⟨n₁, n₂, e₁, e₂, a, M, hcom, hop, hflux, -⟩ := squares_common
  obtain ⟨r, hr, -⟩ := flux_plane env hcom (by norm_num [sampleSquare]) (show 1 ≤ 61 by omega)
  have hG : GluedTo env 2 1 (fun _ => c) (r.pts.length * (1 / 10 ^ 14) * |c 0| + absWeights r.pts * 0) (sampleSquare 0)
      (sampleSquare 1) 1 0 :=
    ⟨n₁, n₂, e₁, e₂, 1, _, a, M, |c 0|, 0, r, hcom, hr, fun q _ => hop _, fun q _ =>
      ⟨c 0, hflux _ _, fun y _ => ⟨c 0, hflux _ _, le_rfl, by simp⟩⟩, le_rfl⟩
  refine ⟨r.pts.length * (1 / 10 ^ 14) * |c 0| + absWeights r.pts * 0, ⟨h1.legal, h1.dim, ?_, h1.order, h1.regular⟩, Or.inl rfl, h2.facet, h2.partner, h2.back, ?_⟩
  · intro g hg
    simp only [List.mem_cons, List.not_mem_nil, or_false] at hg
    rcases hg with rfl | rfl <;> norm_num [sampleSquare]
  · intro x hx
    simp only [mem_insert, mem_singleton] at hx
    rcases hx with rfl | rfl
    · exact Or.inl hG
    · exact Or.inr hG

end Verif.Balance
