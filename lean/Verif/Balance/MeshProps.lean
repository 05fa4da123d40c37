import Verif.Balance.Model
import Verif.Quad.DiscreteDivergenceProps

/-!
Property theorems: conservation on a mesh (C124).  The fluxes through inner facets, each computed twice, cancel in the sum over all
elements; what remains are the fluxes through the boundary.
-/

namespace Verif.Balance

open Verif.Typ Verif.RefTopo Verif.RefGeom Verif.MatHelp Verif.MultiLinear Verif.Normal Verif.Flux
open Verif.Quad hiding jac absWeights
open Finset hiding ext

/-! ### Specification -/

/-- the facets of a mesh: number of the element, number of the facet -/
def facets (d : Nat) (gs : List MultiLinearGeometry) : Finset (Fin gs.length × Nat) :=
  univ.biUnion fun a => (range (refSize d (gs.get a).id 1)).image fun i => (a, i)

/-- the elements are cubes of dimension `d` in `d`-dimensional space that can be evaluated at the points of the facet rules -/
structure Cubes (env : Env ℝ) (d p : Nat) (qt : QType) (gs : List MultiLinearGeometry) : Prop where
  legal : ∀ g ∈ gs, Legal g
  dim : ∀ g ∈ gs, g.mydim = d
  cube : ∀ g ∈ gs, IsCubeId d g.id
  order : ∀ g ∈ gs, ∃ m, maxOrder d ⟨d, false, g.id⟩ qt = .ok m ∧ p ≤ m
  regular : ∀ g ∈ gs, ∀ i n e r, IsFacet d g.id i n e → rule env (d - 1) (refType d g.id i 1) p qt = .ok r → ∀ q ∈ r.pts,
    (g.jacobianInverseTransposed (embed (d - 1) e q.position)).isSome

/-- facet `i₂` of `g₂` is facet `i₁` of `g₁`, with some numbering of its corners, the elements are on different sides and the field does
not vary wildly -/
def Glued (env : Env ℝ) (d p : Nat) (qt : QType) (F : Vec ℝ → Vec ℝ) (K : ℝ) (g₁ g₂ : MultiLinearGeometry) (i₁ i₂ : Nat) : Prop :=
  ∃ n₁ n₂ e₁ e₂ id σ a M B ω r, Common d g₁ g₂ i₁ i₂ n₁ n₂ e₁ e₂ id σ a M ∧ rule env (d - 1) ⟨d - 1, false, id⟩ p qt = .ok r ∧
    (∀ q ∈ r.pts, Opposite d g₁ g₂ n₁ n₂ e₁ e₂ a M q.position) ∧ Smooth (d - 1) (1 / 10 ^ 79) B ω (fluxDensity d g₁ n₁ e₁ F) r.pts ∧
    r.pts.length * (1 / 10 ^ 79) * B + absWeights r.pts * ω ≤ K

/-- `I` are the inner facets; `β` gives the other side -/
structure Conforming (env : Env ℝ) (d p : Nat) (qt : QType) (F : Vec ℝ → Vec ℝ) (K : ℝ) (gs : List MultiLinearGeometry)
    (I : Finset (Fin gs.length × Nat)) (β : Fin gs.length × Nat → Fin gs.length × Nat) : Prop where
  facet : I ⊆ facets d gs
  partner : ∀ x ∈ I, β x ∈ I
  back : ∀ x ∈ I, β (β x) = x
  glued : ∀ x ∈ I, Glued env d p qt F K (gs.get x.1) (gs.get (β x).1) x.2 (β x).2 ∨
    Glued env d p qt F K (gs.get (β x).1) (gs.get x.1) (β x).2 x.2

/-! ### helper lemmas -/

theorem mem_facets {d : Nat} {gs : List MultiLinearGeometry} {x : Fin gs.length × Nat} :
    x ∈ facets d gs ↔ x.2 < refSize d (gs.get x.1).id 1 := by
  simp only [facets, mem_biUnion, mem_univ, true_and, mem_image, mem_range]
  constructor
  · rintro ⟨a, i, h, rfl⟩; exact h
  · intro h; exact ⟨x.1, x.2, h, rfl⟩

theorem sum_facets {d : Nat} {gs : List MultiLinearGeometry} (S : Fin gs.length × Nat → ℝ) :
    ∑ x ∈ facets d gs, S x = ∑ a, ∑ i ∈ range (refSize d (gs.get a).id 1), S (a, i) := by
  rw [facets, sum_biUnion]
  · exact sum_congr rfl fun a _ => sum_image fun i _ j _ h => (Prod.mk.inj h).2
  · intro a _ b _ hab
    rw [Function.onFun, disjoint_left]
    intro x hx hx'
    obtain ⟨i, -, rfl⟩ := mem_image.1 hx
    obtain ⟨j, -, h⟩ := mem_image.1 hx'
    exact hab (Prod.mk.inj h).1.symm

theorem inner_loop {f : Nat → Option ℝ} {S : Nat → ℝ} (n : Nat) (h : ∀ i < n, f i = some (S i)) (s : ℝ) :
    (List.range n).foldlM (fun sum i => (f i).map fun v => sum + v) s = some (s + ∑ i ∈ range n, S i) := by
  induction n with
  | zero => simp
  | succ n ih =>
    rw [List.range_succ, List.foldlM_append, ih fun i hi => h i (by omega), sum_range_succ]
    simp [h n (by omega), add_assoc]

theorem outer_loop {α : Type} {f : ℝ → α → Option ℝ} : ∀ (l : List α) (S : Fin l.length → ℝ)
    (_ : ∀ a s, f s (l.get a) = some (s + S a)) (s : ℝ), l.foldlM f s = some (s + ∑ a, S a)
  | [], _, _, s => by simp
  | x :: l, S, h, s => by
    rw [List.foldlM_cons, show f s x = some (s + S 0) from h 0 s, Option.bind_eq_bind, Option.bind_some,
      outer_loop l (fun a => S a.succ) (fun a s => h a.succ s), add_assoc]
    congr 2
    exact (Fin.sum_univ_succ (n := l.length) S).symm

/-- pairs that nearly cancel -/
theorem sum_pairs {α : Type} [DecidableEq α] {I : Finset α} {β : α → α} (h1 : ∀ x ∈ I, β x ∈ I) (h2 : ∀ x ∈ I, β (β x) = x)
    {S : α → ℝ} {K : ℝ} (h : ∀ x ∈ I, |S x + S (β x)| ≤ K) : |∑ x ∈ I, S x| ≤ I.card / 2 * K := by
  have e : ∑ x ∈ I, S (β x) = ∑ x ∈ I, S x :=
    sum_nbij' β β h1 h1 h2 h2 fun _ _ => rfl
  have e2 : ∑ x ∈ I, (S x + S (β x)) = 2 * ∑ x ∈ I, S x := by rw [sum_add_distrib, e]; ring
  have e3 := (abs_sum_le_sum_abs (fun x => S x + S (β x)) I).trans (sum_le_card_nsmul I _ K h)
  rw [e2, abs_mul, abs_of_pos (by norm_num : (0:ℝ) < 2), nsmul_eq_mul] at e3
  linarith

theorem facetFlux_eq {env : Env ℝ} {d p : Nat} {qt : QType} {F : Vec ℝ → Vec ℝ} {g : MultiLinearGeometry} {i : Nat} {n : Vec ℝ}
    {e : Vec ℝ × Mat ℝ} (hf : IsFacet d g.id i n e) {r : Rule ℝ} (hr : rule env (d - 1) (refType d g.id i 1) p qt = .ok r) :
    facetFlux env d p qt F g i = quadrature (fluxDensity d g n e F) r.pts := by
  rw [facetFlux, hr]
  simp only [List.getD_eq_getElem?_getD, hf.normal, hf.embedding, Option.getD_some]

/-- the flux through every facet is defined -/
theorem facetFlux_some {env : Env ℝ} {d p : Nat} {qt : QType} {gs : List MultiLinearGeometry} (h : Cubes env d p qt gs)
    (h0 : 0 < d) (hd : d ≤ 30) (hq : IsPlain qt) (F : Vec ℝ → Vec ℝ) (x : Fin gs.length × Nat) (hx : x ∈ facets d gs) :
    ∃ v, facetFlux env d p qt F (gs.get x.1) x.2 = some v := by
  have hi := mem_facets.1 hx
  have m1 := List.get_mem gs x.1
  generalize gs.get x.1 = g at *
  obtain ⟨f, hf, hfi⟩ := facet_face h0 hi
  have hrep := rep_topoOf d g.id
  have he := embedding_face (K := ℝ) hrep f
  rw [hf, hfi] at he
  have hn := normal_face (K := ℝ) hrep f hf
  rw [hfi] at hn
  have hfac : IsFacet d g.id x.2 _ _ := ⟨hi, hn, he⟩
  have hid := (h.legal _ m1).id_lt
  rw [h.dim _ m1] at hid
  obtain ⟨m, hm, hpm⟩ := h.order _ m1
  obtain ⟨m', hm', hmm⟩ := C107_available d _ m qt hd hid hq hm 1 x.2 h0 hi
  have hT : refType d g.id x.2 1 = ⟨d - 1, false, subTopologyId d g.id 1 x.2⟩ := refType_eq d _ _ _ (by omega) hid h0
  have hT' := hm'
  rw [hT] at hT'
  obtain ⟨r, hr, -⟩ := plain_good env hq (show d - 1 ≤ 30 by omega) (subTopologyId_lt d _ 1 x.2 hid h0) hT' (hpm.trans hmm)
  rw [← hT] at hr
  have hreg := h.regular _ m1 _ _ _ _ hfac hr
  choose! v hv using fun q hq => Option.isSome_iff_exists.1 (hreg q hq)
  rw [facetFlux_eq hfac hr]
  exact ⟨_, quadrature_eq fun q hq => by rw [fluxDensity, hv q hq, Option.map_some]⟩

/-! ### C124 -/

/-- C124: the sum over all facets of all elements is the sum over the facets that are not inner facets, up to the error of the pairs. -/
theorem C124_conservation (env : Env ℝ) (d p : Nat) (hd : 1 < d) (hd' : d ≤ 30) (qt : QType) (hq : qt = .GaussLegendre ∨ qt = .GaussLobatto)
    (F : Vec ℝ → Vec ℝ) (K : ℝ) (gs : List MultiLinearGeometry) (h : Cubes env d p qt gs) (I : Finset (Fin gs.length × Nat))
    (β : Fin gs.length × Nat → Fin gs.length × Nat) (hc : Conforming env d p qt F K gs I β) :
    ∃ (T : ℝ) (S : Fin gs.length × Nat → ℝ), meshFlux env d p qt F gs = some T ∧
      (∀ x ∈ facets d gs, facetFlux env d p qt F (gs.get x.1) x.2 = some (S x)) ∧
      |T - ∑ x ∈ facets d gs \ I, S x| ≤ I.card / 2 * K := by
  have hpl : IsPlain qt := hq.elim Or.inl fun h => Or.inr (Or.inl h)
  choose! S hS using facetFlux_some h (by omega) hd' hpl F
  refine ⟨∑ x ∈ facets d gs, S x, S, ?_, hS, ?_⟩
  · rw [meshFlux, outer_loop gs (fun a => ∑ i ∈ range (refSize d (gs.get a).id 1), S (a, i)) (fun a s =>
      inner_loop _ (fun i hi => hS (a, i) (mem_facets.2 hi)) s), zero_add, sum_facets]
  · rw [← sum_sdiff hc.facet, add_sub_cancel_left]
    refine sum_pairs hc.partner hc.back fun x hx => ?_
    have key : ∀ x ∈ I, ∀ y ∈ I, Glued env d p qt F K (gs.get x.1) (gs.get y.1) x.2 y.2 → |S y + S x| ≤ K := by
      rintro x hx y hy ⟨n₁, n₂, e₁, e₂, id, σ, a, M, B, ω, r, hcom, hr, hop, hsm, hK⟩
      have m1 := List.get_mem gs x.1
      have m2 := List.get_mem gs y.1
      have t1 : refType d (gs.get x.1).id x.2 1 = ⟨d - 1, false, id⟩ := by
        have hid := (h.legal _ m1).id_lt
        rw [h.dim _ m1] at hid
        have := refType_eq d (gs.get x.1).id x.2 1 (by omega) hid (by omega)
        have h2 := hcom.type₁
        rw [this] at h2 ⊢
        rw [← h2]
      have t2 : refType d (gs.get y.1).id y.2 1 = ⟨d - 1, false, id⟩ := by
        have hid := (h.legal _ m2).id_lt
        rw [h.dim _ m2] at hid
        have := refType_eq d (gs.get y.1).id y.2 1 (by omega) hid (by omega)
        have h2 := hcom.type₂
        rw [this] at h2 ⊢
        rw [← h2]
      obtain ⟨m, hm, hpm⟩ := h.order _ m1
      have hid := (h.legal _ m1).id_lt
      rw [h.dim _ m1] at hid
      obtain ⟨m', hm', hmm⟩ := C107_available d _ m qt hd' hid hpl hm 1 x.2 (by omega) hcom.facet₁.lt
      rw [t1] at hm'
      obtain ⟨r', hr', hflux⟩ := C112_flux_cube env d hd hd' _ _ _ _ n₁ n₂ e₁ e₂ id σ a M hcom (h.cube _ m1) (h.cube _ m2) qt hq p m' hm'
        (hpm.trans hmm)
      obtain rfl : r = r' := by rw [hr] at hr'; cases hr'; rfl
      obtain ⟨s, t, hs, ht, hb⟩ := hflux hop (h.regular _ m2 _ _ _ _ hcom.facet₂ (by rw [t2]; exact hr)) F B ω hsm
      have hx' := hS x (hc.facet hx)
      have hy' := hS y (hc.facet hy)
      rw [facetFlux_eq hcom.facet₁ (by rw [t1]; exact hr), hs] at hx'
      rw [facetFlux_eq hcom.facet₂ (by rw [t2]; exact hr), ht] at hy'
      rw [← Option.some.inj hx', ← Option.some.inj hy']
      exact hb.trans hK
    rcases hc.glued x hx with hg | hg
    · rw [add_comm]; exact key x hx _ (hc.partner x hx) hg
    · exact key _ (hc.partner x hx) x hx hg

/-- two neighbouring squares and a flow whose first component is uniform -/
theorem two_squares (env : Env ℝ) (F : Vec ℝ → Vec ℝ) (c : ℝ) (hF : ∀ y, F y 0 = c) :
    ∃ K, Cubes env 2 1 .GaussLegendre [sampleSquare 0, sampleSquare 1] ∧
    Conforming env 2 1 .GaussLegendre F K [sampleSquare 0, sampleSquare 1] {((0 : Fin 2), 1), ((1 : Fin 2), 0)}
      (fun x => if x = ((0 : Fin 2), 1) then ((1 : Fin 2), 0) else ((0 : Fin 2), 1)) := by
  obtain ⟨n₁, n₂, e₁, e₂, a, M, hcom, hop, hflux, -⟩ := squares_common
  have hflux : ∀ x, fluxDensity 2 (sampleSquare 0) n₁ e₁ F x = some c := fun x => by rw [hflux, hF]
  obtain ⟨m, hm, hm1⟩ : ∃ m, maxOrder 1 ⟨1, false, 1⟩ .GaussLegendre = .ok m ∧ 1 ≤ m := ⟨61, by decide, by norm_num⟩
  obtain ⟨r, hr, -⟩ := plain_good env (Or.inl rfl) (show 1 ≤ 30 by omega) (show 1 < 2 ^ 1 by norm_num) hm hm1
  have hG : Glued env 2 1 .GaussLegendre F (r.pts.length * (1 / 10 ^ 79) * |c| + absWeights r.pts * 0) (sampleSquare 0)
      (sampleSquare 1) 1 0 :=
    ⟨n₁, n₂, e₁, e₂, 1, _, a, M, |c|, 0, r, hcom, hr, fun q _ => hop _, fun q _ =>
      ⟨c, hflux _, fun y _ => ⟨c, hflux _, le_rfl, by simp⟩⟩, le_rfl⟩
  refine ⟨r.pts.length * (1 / 10 ^ 79) * |c| + absWeights r.pts * 0, ⟨?_, ?_, ?_, ?_, ?_⟩, ?_, ?_, ?_, ?_⟩
  · intro g hg; simp only [List.mem_cons, List.not_mem_nil, or_false] at hg; rcases hg with rfl | rfl <;> exact sampleSquare_legal _
  · intro g hg; simp only [List.mem_cons, List.not_mem_nil, or_false] at hg; rcases hg with rfl | rfl <;> rfl
  · intro g hg; simp only [List.mem_cons, List.not_mem_nil, or_false] at hg; rcases hg with rfl | rfl <;> exact Neighbour.square_cube
  · intro g hg
    simp only [List.mem_cons, List.not_mem_nil, or_false] at hg
    rcases hg with rfl | rfl <;> exact ⟨61, by decide, by norm_num⟩
  · intro g hg i n e r' _ _ q _
    simp only [List.mem_cons, List.not_mem_nil, or_false] at hg
    rcases hg with rfl | rfl <;>
    · obtain ⟨r, k, -⟩ := sampleSquare_inverse _ (embed (2 - 1) e q.position)
      rw [k]; rfl
  · intro x hx
    rw [mem_facets]
    simp only [mem_insert, mem_singleton] at hx
    rcases hx with rfl | rfl <;> decide
  · intro x hx
    simp only [mem_insert, mem_singleton] at hx
    rcases hx with rfl | rfl <;> simp
  · intro x hx
    simp only [mem_insert, mem_singleton] at hx
    rcases hx with rfl | rfl <;> simp
  · intro x hx
    simp only [mem_insert, mem_singleton] at hx
    rcases hx with rfl | rfl
    · exact Or.inl hG
    · exact Or.inr hG

/-- two neighbouring squares and a uniform flow -/
example (env : Env ℝ) (c : Vec ℝ) : ∃ K I β, Cubes env 2 1 .GaussLegendre [sampleSquare 0, sampleSquare 1] ∧
    Conforming env 2 1 .GaussLegendre (fun _ => c) K [sampleSquare 0, sampleSquare 1] I β := by
  obtain ⟨K, h1, h2⟩ := two_squares env (fun _ => c) (c 0) fun _ => rfl
  exact ⟨K, _, _, h1, h2⟩

end Verif.Balance
