import Verif.Quad.FacetNodes
import Verif.Quad.NodesProps

/-!
Property C117: nodes on sub-entities.  The points of a Gauss-Lobatto rule of a cube which lie on a sub-entity are the points of the rule of
the same order of the sub-entity, mapped by the embedding of the sub-entity.  Codes with continuous spectral elements rely on this to
identify nodes on faces, edges and vertices.
-/

namespace Verif.Quad

open Verif.Typ Verif.RefTopo Verif.RefGeom
open Finset hiding ext

/-- The points `l` of an element whose coordinates differ from those of a point of sub-entity `(i, c)` (embedded by `e`) by numbers that are `near` 0
are the embedded points `L` of the rule of the sub-entity, up to `δ` in every coordinate -/
def SameNodes (δ : ℝ) (d c : Nat) (e : Vec ℝ × Mat ℝ) (near : ℝ → Prop) (l L : List (QPoint ℝ)) : Prop :=
  (∀ q ∈ L, ∃ q' ∈ l, ∀ j < d, |q'.position j - embed (d - c) e q.position j| ≤ δ) ∧
  ∀ q' ∈ l, (∃ y : Vec ℝ, ∀ j < d, near |q'.position j - embed (d - c) e y j|) →
    ∃ q ∈ L, ∀ j < d, |q'.position j - embed (d - c) e q.position j| ≤ δ

/-- C117 in full: for every order the points on a sub-entity are exactly those of the rule of the sub-entity -/
def C117_full : Prop := ∀ (env : Env ℝ) (d id p m c i : Nat), 0 < d → d ≤ 30 → id < 2 ^ d → IsCubeId d id →
  maxOrder d ⟨d, false, id⟩ .GaussLobatto = .ok m → p ≤ m → c ≤ d → i < refSize d id c →
  ∀ e : Vec ℝ × Mat ℝ, (referenceEmbeddings d id c)[i]? = some e →
  ∃ r R, rule env d ⟨d, false, id⟩ p .GaussLobatto = .ok r ∧ rule env (refType d id i c).dim (refType d id i c) p .GaussLobatto = .ok R ∧
    SameNodes 0 d c e (fun t => t = 0) r.pts R.pts

theorem nodes_aux (env : Env ℝ) {d id p m c i : Nat} (h0 : 0 < d) (hd : d ≤ 30) (hid : id < 2 ^ d) (hc : IsCubeId d id)
    (hm : maxOrder d ⟨d, false, id⟩ .GaussLobatto = .ok m) (hp : p ≤ m) (hcd : c ≤ d) (hi : i < refSize d id c) {e : Vec ℝ × Mat ℝ}
    (he : (referenceEmbeddings d id c)[i]? = some e) {E D : Nat} (hD : 0 < D)
    (hrow : ∀ row ∈ Lobatto.table, initHelper Lobatto.table p = .ok row → row.ended E D = true) :
    ∃ r R, rule env d ⟨d, false, id⟩ p .GaussLobatto = .ok r ∧ rule env (refType d id i c).dim (refType d id i c) p .GaussLobatto = .ok R ∧
      SameNodes (E / D) d c e (fun t => t < 1 / 1000) r.pts R.pts := by
  have hq : IsPlain .GaussLobatto := Or.inr (Or.inl rfl)
  have ht : tableOf .GaussLobatto = some (Lobatto.table, 31) := rfl
  obtain ⟨n, rfl⟩ : ∃ n, d = n + 1 := ⟨d - 1, by omega⟩
  obtain ⟨h30, h61, -⟩ := plain_table (K := ℝ) hq ht (p := 0) (Nat.zero_le _)
  have hph : p ≤ 31 := by
    obtain ⟨m', e1, e2⟩ := maxOrder_tab ht h30 h61 n id hd hid
    rw [e1] at hm
    cases hm
    exact hp.trans e2.1
  obtain ⟨-, -, row, hr, -⟩ := plain_table (K := ℝ) hq ht hph
  have hS := ended_sound hD (hrow row (initHelper_mem hr) hr)
  obtain ⟨m', hm', hmm'⟩ := C107_available (n + 1) id m .GaussLobatto hd hid hq hm c i hcd hi
  have hcube := MultiLinear.topoOf_cube (n + 1) id hc
  have hrep : Rep (n + 1) id (Topo.cube (n + 1)) := hcube ▸ rep_topoOf (n + 1) id
  obtain ⟨f, rfl, rfl⟩ := exists_face hrep hcd hi
  rw [embedding_face hrep f] at he
  obtain rfl := Option.some.inj he
  have hfd := Face.codim_add_dim f
  rw [hrep.dim_eq] at hfd
  have hdc : n + 1 - f.codim = f.shape.dim := by omega
  have hT := refType_eq (n + 1) id f.idx f.codim (by omega) hid hcd
  have hsub := rep_sub hrep hid f
  rw [hT] at hm' ⊢
  rw [hdc] at hm' hsub ⊢
  obtain ⟨r, h1, h2⟩ := rule_isGrid_row env hq ht hd hid hcube hm hp hph hr
  obtain ⟨R, h3, h4⟩ := rule_isGrid_row env hq ht (d := f.shape.dim) (id := subTopologyId (n + 1) id f.codim f.idx) (by omega)
    (hdc ▸ subTopologyId_lt (n + 1) id _ _ hid hcd) (MultiLinear.topoOf_cube _ _ (isCube_of_rep _ _ (cube_shape _ f ▸ hsub))) hm' (hp.trans hmm') hph hr
  refine ⟨r, R, h1, h3, ?_⟩
  rw [SameNodes, hdc]
  exact facet_nodes hS (by positivity) f h2 h4

/-- C117, what holds for all orders: the points within `1/1000` of a sub-entity are those of the rule of the sub-entity up to `1e-99` -/
theorem C117_near_partial (env : Env ℝ) (d id p m c i : Nat) (h0 : 0 < d) (hd : d ≤ 30) (hid : id < 2 ^ d) (hc : IsCubeId d id)
    (hm : maxOrder d ⟨d, false, id⟩ .GaussLobatto = .ok m) (hp : p ≤ m) (hcd : c ≤ d) (hi : i < refSize d id c) (e : Vec ℝ × Mat ℝ)
    (he : (referenceEmbeddings d id c)[i]? = some e) :
    ∃ r R, rule env d ⟨d, false, id⟩ p .GaussLobatto = .ok r ∧ rule env (refType d id i c).dim (refType d id i c) p .GaussLobatto = .ok R ∧
      SameNodes (1 / 10 ^ 99) d c e (fun t => t < 1 / 1000) r.pts R.pts := by
  have := nodes_aux env h0 hd hid hc hm hp hcd hi he (E := 1) (D := 10 ^ 99) (by positivity) fun row hr _ => List.all_eq_true.mp lobatto_ended row hr
  simpa only [Nat.cast_one, Nat.cast_pow, Nat.cast_ofNat] using this

/-- C117 for the orders whose tables contain both end points exactly -/
theorem C117_partial (env : Env ℝ) (d id p m c i : Nat) (h0 : 0 < d) (hd : d ≤ 30) (hid : id < 2 ^ d) (hc : IsCubeId d id)
    (hm : maxOrder d ⟨d, false, id⟩ .GaussLobatto = .ok m) (hp : p ≤ m) (hcd : c ≤ d) (hi : i < refSize d id c) (e : Vec ℝ × Mat ℝ)
    (he : (referenceEmbeddings d id c)[i]? = some e) (hex : p ≤ 9 ∨ p = 14 ∨ p = 15 ∨ p = 18 ∨ p = 19 ∨ p = 30 ∨ p = 31) :
    ∃ r R, rule env d ⟨d, false, id⟩ p .GaussLobatto = .ok r ∧ rule env (refType d id i c).dim (refType d id i c) p .GaussLobatto = .ok R ∧
      SameNodes 0 d c e (fun t => t = 0) r.pts R.pts := by
  have hmem : p ∈ exactEnds := by
    rcases hex with h | rfl | rfl | rfl | rfl | rfl | rfl
    · interval_cases p <;> decide
    all_goals decide
  obtain ⟨r, R, h1, h2, h3, h4⟩ := nodes_aux env h0 hd hid hc hm hp hcd hi he (E := 0) (D := 1) (by norm_num) fun row _ hr => by
    have := List.all_eq_true.mp lobatto_ended_exact p hmem
    rw [hr] at this
    exact this
  simp only [Nat.cast_zero, zero_div] at h3 h4
  refine ⟨r, R, h1, h2, h3, fun q' hq' ⟨y, hy⟩ => h4 q' hq' ⟨y, fun j hj => ?_⟩⟩
  rw [hy j hj]
  norm_num

/-- The rule of order 10 has no point at the vertex 0 of the interval (gausslobattoquadrature.hh:147), so the full statement fails -/
theorem C117_counterexample : ¬ C117_full := by
  intro h
  obtain ⟨row, h1, h2⟩ := lobatto10
  have hr : rule (K := ℝ) ⟨none⟩ 1 line (10 : Nat) .GaussLobatto = .ok ⟨line, row.order, row.pts.map Node.point⟩ := by
    rw [lobatto_rule _ (by omega), rule1D]
    have : ((10 : Nat) : Int) = 10 := rfl
    rw [this, h1]; rfl
  have hrep : Rep 1 0 (.prism .pt) := .prism (Or.inl rfl) (.pt _)
  have he := embedding_face (K := ℝ) hrep (.bot .pt)
  obtain ⟨r, R, h3, h4, h5, -⟩ := h ⟨none⟩ 1 0 10 31 1 0 (by decide) (by decide) (by decide) (fun k h1 h2 => by omega) (by decide) (by decide)
    (by decide) (by decide) _ he
  obtain rfl : r = _ := Res.ok.inj (h3.symm.trans hr)
  obtain ⟨R', h6, h7⟩ := rule_isGrid_row (d := 0) (id := 0) (p := 10) (m := 2 ^ 31 - 1) ⟨none⟩ (Or.inr (Or.inl rfl)) (show tableOf .GaussLobatto = some (Lobatto.table, 31) from rfl) (by decide)
    (by decide) rfl (by decide) (by decide) (by decide) h1
  have hT : refType 1 0 0 1 = ⟨0, false, 0⟩ := by decide
  rw [hT] at h4
  obtain rfl : R = R' := Res.ok.inj (h4.symm.trans h6)
  obtain ⟨q, hq⟩ : ∃ q, q ∈ R.pts := List.exists_mem_of_length_pos (by rw [h7.length, pow_zero]; exact one_pos)
  obtain ⟨q', hq', h8⟩ := h5 q hq
  have h9 := h8 0 (by decide)
  have h10 := positive_sound h2 q' hq'
  have e0 : embed (1 - 1) (orig (K := ℝ) (Face.bot Face.pt), RefGeom.jac (Face.bot Face.pt)) q.position 0 = 0 := by simp [embed, orig]
  rw [e0, sub_zero] at h9
  have : q'.position 0 ≤ 0 := (le_abs_self _).trans h9
  have : (0:ℝ) < 1 / 10 ^ 200 := by positivity
  linarith

/-- The hypotheses hold for edge 3 of the hexahedron and order 5: four points. -/
example : ∃ m e, maxOrder 3 ⟨3, false, 7⟩ .GaussLobatto = .ok m ∧ 5 ≤ m ∧ 3 < refSize 3 7 2 ∧ IsCubeId 3 7 ∧
    (referenceEmbeddings (K := ℝ) 3 7 2)[3]? = some e := by
  have h : 3 < (referenceEmbeddings (K := ℝ) 3 7 2).length := by rw [(C20_basic 3 7 (by decide)).1 2 (by decide)]; decide
  exact ⟨31, _, by decide, by decide, by decide, isCube_of_rep 3 7 (rep_cube 3), List.getElem?_eq_getElem h⟩

end Verif.Quad
