import Verif.VertexOrder.Chart

/-! Property theorems: vertex ids orient shared sub-entities in the same way from every element (C109). -/

namespace Verif.VertexOrder

open Verif.Typ Verif.RefTopo Verif.RefGeom Verif.Neighbour Verif.MultiLinear Verif.Quad
open Finset hiding ext

variable {α : Type} [LinearOrder α]

/-! ### Specification -/

/-- `sub` lists the ids of the vertices of sub-entity `i` of codimension `c`, in the order in which the reference element
numbers them; `ids` are the ids of the corners of the element -/
structure VertexIds (d id i c : Nat) (ids sub : List α) : Prop where
  length : sub.length = refSize3 d id i c d
  get : ∀ ii, ii < refSize3 d id i c d → ∃ k x, subEntity d id i c ii d = some k ∧ ids[k]? = some x ∧ sub[ii]? = some x

/-- an element: dimension, topology id and the ids of its corners -/
structure Elem (α : Type) where
  d : Nat
  id : Nat
  ids : List α

/-- distinct ids, one for each corner; the dimension is one of those supported -/
structure Elem.Valid (e : Elem α) : Prop where
  dim : e.d ≤ 31
  id_lt : e.id < 2 ^ e.d
  length : e.ids.length = refSize e.d e.id e.d
  nodup : e.ids.Nodup

/-- sub-entity `i` of codimension `c` of an element; what `getReduced` says about it -/
def Elem.reduced (e : Elem α) (c i addr : Nat) : Option (List Nat) :=
  (GeneralVertexOrder.make e.d e.id e.ids addr).bind fun o => o.getReduced c i

/-! ### Theorems -/

theorem sub_nodup {e : Elem α} (he : e.Valid) {c i : Nat} (hc : c ≤ e.d) (hi : i < refSize e.d e.id c) {sub : List α}
    (hs : VertexIds e.d e.id i c e.ids sub) : sub.Nodup := by
  rw [List.nodup_iff_injective_get]
  intro a b hab
  obtain ⟨k, x, k1, k2, k3⟩ := hs.get a.1 (hs.length ▸ a.2)
  obtain ⟨l, y, l1, l2, l3⟩ := hs.get b.1 (hs.length ▸ b.2)
  have ea : sub[a.1]? = some (sub.get a) := List.getElem?_eq_getElem a.2
  have eb : sub[b.1]? = some (sub.get b) := List.getElem?_eq_getElem b.2
  have exy : x = y := by
    have h1 := k3.symm.trans ea
    have h2 := l3.symm.trans eb
    rw [hab] at h1
    exact Option.some.inj (h1.trans h2.symm)
  subst exy
  have hkl : k = l := by
    obtain ⟨hk, e1⟩ := List.getElem?_eq_some_iff.1 k2
    obtain ⟨hl, e2⟩ := List.getElem?_eq_some_iff.1 l2
    exact (List.Nodup.getElem_inj_iff he.nodup).1 (e1.trans e2.symm)
  subst hkl
  exact Fin.ext (C13_injective e.d e.id i c e.d a.1 b.1 he.id_lt hc le_rfl hi (by
    rw [← hs.length]; exact a.2) (by rw [← hs.length]; exact b.2) (k1.trans l1.symm))

/-- C109: `getReduced` is the reduction of the ids of the sub-entity's vertices, in each element. -/
theorem C109_reduced (e : Elem α) (he : e.Valid) (c i addr : Nat) (hc : c ≤ e.d) (hi : i < refSize e.d e.id c)
    (sub : List α) (hs : VertexIds e.d e.id i c e.ids sub) (hn : sub.length < 2 ^ 64) :
    e.reduced c i addr = some (reduceOrder sub) ∧ sub.Nodup := by
  obtain ⟨o, sub', h1, h2, h3, h4⟩ := C23_subentity e.d e.id c i addr e.ids he.id_lt hc hi he.length (hs.length ▸ hn)
  have : sub' = sub := by
    apply List.ext_getElem?
    intro n
    by_cases h : n < refSize3 e.d e.id i c e.d
    · obtain ⟨k, k1, k2, k3⟩ := h3 n h
      obtain ⟨k', x, l1, l2, l3⟩ := hs.get n h
      rw [k1] at l1
      cases l1
      rw [k2, l2, l3]
    · rw [List.getElem?_eq_none (by omega), List.getElem?_eq_none (by rw [hs.length]; omega)]
  subst this
  refine ⟨?_, sub_nodup he hc hi hs⟩
  rw [Elem.reduced, h1]
  exact h4

/-- C109: two elements that share the vertices of a sub-entity agree on its vertices: the reduced number of a vertex is the
same in both, whatever the position of the sub-entity in the elements and the order of its vertices there.  The numbers are
`0..n-1`, so they name the vertices. -/
theorem C109_canonical (e₁ e₂ : Elem α) (he₁ : e₁.Valid) (he₂ : e₂.Valid) (c₁ i₁ c₂ i₂ addr₁ addr₂ : Nat) (hc₁ : c₁ ≤ e₁.d)
    (hc₂ : c₂ ≤ e₂.d) (hi₁ : i₁ < refSize e₁.d e₁.id c₁) (hi₂ : i₂ < refSize e₂.d e₂.id c₂) (s₁ s₂ : List α)
    (hs₁ : VertexIds e₁.d e₁.id i₁ c₁ e₁.ids s₁) (hs₂ : VertexIds e₂.d e₂.id i₂ c₂ e₂.ids s₂) (hn : s₁.length < 2 ^ 64)
    (hset : ∀ x, x ∈ s₁ ↔ x ∈ s₂) :
    ∃ o₁ o₂, e₁.reduced c₁ i₁ addr₁ = some o₁ ∧ e₂.reduced c₂ i₂ addr₂ = some o₂ ∧
      o₁.Perm (List.range s₁.length) ∧ o₂.Perm (List.range s₁.length) ∧
      ∀ (v w : Nat) (x y : α), s₁[v]? = some x → s₂[w]? = some y →
        ((o₁[v]? = o₂[w]? ↔ x = y) ∧ ∀ n m, o₁[v]? = some n → o₂[w]? = some m → (n < m ↔ x < y)) := by
  have n₁ := sub_nodup he₁ hc₁ hi₁ hs₁
  have n₂ := sub_nodup he₂ hc₂ hi₂ hs₂
  have hp : s₁.Perm s₂ := (List.perm_ext_iff_of_nodup n₁ n₂).2 hset
  refine ⟨_, _, (C109_reduced e₁ he₁ c₁ i₁ addr₁ hc₁ hi₁ s₁ hs₁ hn).1,
    (C109_reduced e₂ he₂ c₂ i₂ addr₂ hc₂ hi₂ s₂ hs₂ (hp.length_eq ▸ hn)).1, C23_permutation s₁ n₁, ?_, ?_⟩
  · rw [hp.length_eq]; exact C23_permutation s₂ n₂
  · intro v w x y hv hw
    refine ⟨reduce_match hp hv hw, fun n m h1 h2 => ?_⟩
    simp only [reduceOrder, List.getElem?_map, hv, hw, Option.map_some, Option.some.injEq] at h1 h2
    rw [← h1, ← h2, hp.countP_eq]
    exact below_lt_iff s₂ (hp.subset (List.mem_of_getElem? hv)) (List.mem_of_getElem? hw)

/-- C109: coordinates on a shared simplex (edge, triangle) that do not depend on the element: renumber the corners by the
reduced order.  Two elements describe the same point by the same coordinates. -/
theorem C109_chart (g₁ g₂ : MultiLinearGeometry) (h₁ : Legal g₁) (h₂ : Legal g₂) (htol : g₂.tol = g₁.tol)
    (ids₁ ids₂ : List α) (he₁ : Elem.Valid ⟨g₁.mydim, g₁.id, ids₁⟩) (he₂ : Elem.Valid ⟨g₂.mydim, g₂.id, ids₂⟩)
    (c₁ i₁ c₂ i₂ addr₁ addr₂ m id : Nat) (hc₁ : c₁ ≤ g₁.mydim) (hc₂ : c₂ ≤ g₂.mydim) (hi₁ : i₁ < refSize g₁.mydim g₁.id c₁)
    (hi₂ : i₂ < refSize g₂.mydim g₂.id c₂) (p₁ p₂ : Vec ℝ × Mat ℝ)
    (hp₁ : (referenceEmbeddings (K := ℝ) g₁.mydim g₁.id c₁)[i₁]? = some p₁)
    (hp₂ : (referenceEmbeddings (K := ℝ) g₂.mydim g₂.id c₂)[i₂]? = some p₂) (hm₁ : g₁.mydim - c₁ = m)
    (hm₂ : g₂.mydim - c₂ = m) (hid₁ : (refType g₁.mydim g₁.id i₁ c₁).id = id) (hid₂ : (refType g₂.mydim g₂.id i₂ c₂).id = id)
    (hsimp : IsSimplexId m id) (s₁ s₂ : List α) (hs₁ : VertexIds g₁.mydim g₁.id i₁ c₁ ids₁ s₁)
    (hs₂ : VertexIds g₂.mydim g₂.id i₂ c₂ ids₂ s₂) (hset : ∀ x, x ∈ s₁ ↔ x ∈ s₂)
    (hcor : ∀ k₁ k₂ x, ids₁[k₁]? = some x → ids₂[k₂]? = some x → g₂.corners_ k₂ = g₁.corners_ k₁) :
    ∃ o₁ o₂, Elem.reduced ⟨g₁.mydim, g₁.id, ids₁⟩ c₁ i₁ addr₁ = some o₁ ∧
      Elem.reduced ⟨g₂.mydim, g₂.id, ids₂⟩ c₂ i₂ addr₂ = some o₂ ∧
      ∃ a₁ M₁ a₂ M₂, Symmetry m id (fun v => o₁.getD v 0) a₁ M₁ ∧ Symmetry m id (fun v => o₂.getD v 0) a₂ M₂ ∧
        ∀ x₁ x₂ : Vec ℝ, checkInside m id x₁ (-g₁.tol) 1 = true → checkInside m id x₂ (-g₁.tol) 1 = true →
          (∀ i, i < m → affMap m a₁ M₁ x₁ i = affMap m a₂ M₂ x₂ i) →
          g₁.global (embed m p₁ x₁) = g₂.global (embed m p₂ x₂) := by
  have hsz := simplex_size hsimp
  have hr₁ := C12_sizes g₁.mydim g₁.id i₁ c₁ g₁.mydim he₁.dim he₁.id_lt hc₁ le_rfl hi₁
  have hr₂ := C12_sizes g₂.mydim g₂.id i₂ c₂ g₂.mydim he₂.dim he₂.id_lt hc₂ le_rfl hi₂
  rw [if_neg (by omega), (C12_regular g₁.mydim g₁.id i₁ c₁ he₁.dim he₁.id_lt hc₁).2.1, hid₁, hm₁, hsz] at hr₁
  rw [if_neg (by omega), (C12_regular g₂.mydim g₂.id i₂ c₂ he₂.dim he₂.id_lt hc₂).2.1, hid₂, hm₂, hsz] at hr₂
  have hd₁ : g₁.mydim ≤ 31 := he₁.dim
  have hd₂ : g₂.mydim ≤ 31 := he₂.dim
  have hl₁ : s₁.length = m + 1 := hs₁.length.trans hr₁
  have hl₂ : s₂.length = m + 1 := hs₂.length.trans hr₂
  have hidm : id < 2 ^ m := by
    have := (C12_regular g₁.mydim g₁.id i₁ c₁ he₁.dim he₁.id_lt hc₁).2.2
    rwa [hid₁, hm₁] at this
  obtain ⟨r1, n₁⟩ := C109_reduced ⟨g₁.mydim, g₁.id, ids₁⟩ he₁ c₁ i₁ addr₁ hc₁ hi₁ s₁ hs₁ (by omega)
  obtain ⟨r2, n₂⟩ := C109_reduced ⟨g₂.mydim, g₂.id, ids₂⟩ he₂ c₂ i₂ addr₂ hc₂ hi₂ s₂ hs₂ (by omega)
  have hp : s₁.Perm s₂ := (List.perm_ext_iff_of_nodup n₁ n₂).2 hset
  obtain ⟨a₁, M₁, y₁⟩ := reduce_symmetry hsimp n₁ hl₁
  obtain ⟨a₂, M₂, y₂⟩ := reduce_symmetry hsimp n₂ hl₂
  refine ⟨_, _, r1, r2, a₁, M₁, a₂, M₂, y₁, y₂, fun x₁ x₂ hx₁ hx₂ hx => ?_⟩
  -- which vertex of the first sub-entity is the vertex of the second one
  have hfind : ∀ v, v ≤ m → ∃ w x, w ≤ m ∧ s₁[w]? = some x ∧ s₂[v]? = some x := by
    intro v hv
    have hv' : v < s₂.length := by omega
    obtain ⟨w, hw, e⟩ := List.getElem_of_mem (hp.symm.subset (List.getElem_mem hv'))
    exact ⟨w, s₂[v], by omega, by rw [List.getElem?_eq_getElem hw, e], List.getElem?_eq_getElem hv'⟩
  choose! σ xs hσ using hfind
  obtain ⟨a, M, y⟩ := C97_simplex_any m id hsimp σ (fun k hk => (hσ k hk).1) (fun k k' hk hk' e => by
    obtain ⟨-, e1, e2⟩ := hσ k hk
    obtain ⟨-, f1, f2⟩ := hσ k' hk'
    rw [e, f1] at e1
    rw [← e1, ← f2] at e2
    obtain ⟨hk1, -⟩ := List.getElem?_eq_some_iff.1 f2
    have hk2 : k < s₂.length := by omega
    rw [List.getElem?_eq_getElem hk1, List.getElem?_eq_getElem hk2, Option.some.injEq] at e2
    exact (List.Nodup.getElem_inj_iff n₂).1 e2)
  have hfac := fun {i : Nat} (hi : i < m) => bary_factor hsimp y₁ y₂ y (fun v hv => by
    obtain ⟨-, e1, e2⟩ := hσ v hv
    have := (reduce_match hp e1 e2).2 rfl
    simp only [List.getD_eq_getElem?_getD, this]) hx hi
  have := C97_neighbours g₁ g₂ h₁ h₂ hd₁ hd₂ htol i₁ c₁ i₂ c₂ hc₁ hc₂ hi₁ hi₂ p₁ p₂ hp₁ hp₂ m id hm₁ hm₂ hid₁ hid₂ hidm
    (Or.inl hsimp) σ a M y (fun v hv => by
      rw [hsz] at hv
      obtain ⟨w1, e1, e2⟩ := hσ v (by omega)
      obtain ⟨k₁, z₁, k1, k2, k3⟩ := hs₁.get (σ v) (by rw [hr₁]; omega)
      obtain ⟨k₂, z₂, l1, l2, l3⟩ := hs₂.get v (by rw [hr₂]; omega)
      have hz : z₂ = z₁ := by
        rw [e1] at k3
        rw [e2] at l3
        exact (Option.some.inj l3).symm.trans (Option.some.inj k3)
      exact ⟨k₁, k₂, k1, l1, hcor k₁ k₂ z₁ k2 (hz ▸ l2)⟩) x₂ hx₂ (by
      rw [← Locate.checkInside_congr (x := x₁) (fun k hk => hfac hk)]; exact hx₁)
  rw [this]
  congr 1
  exact embed_congr p₁ fun r hr => hfac hr

/-- C109: both elements run through a common edge in the same direction: from the smaller to the larger id. -/
theorem C109_edge (e : Elem α) (he : e.Valid) (h1 : 1 ≤ e.d) (i addr : Nat) (hi : i < refSize e.d e.id (e.d - 1)) (k l : Nat)
    (x y : α) (hk : subEntity e.d e.id i (e.d - 1) 0 e.d = some k) (hl : subEntity e.d e.id i (e.d - 1) 1 e.d = some l)
    (hx : e.ids[k]? = some x) (hy : e.ids[l]? = some y) :
    e.reduced (e.d - 1) i addr = some (if x < y then [0, 1] else [1, 0]) ∧ x ≠ y := by
  have hsz : refSize3 e.d e.id i (e.d - 1) e.d = 2 := by
    rw [C12_sizes e.d e.id i (e.d - 1) e.d he.dim he.id_lt (by omega) le_rfl hi, if_neg (by omega)]
    have hr := C12_regular e.d e.id i (e.d - 1) he.dim he.id_lt (by omega)
    have e1 : e.d - (e.d - 1) = 1 := by omega
    rw [hr.2.1, e1]
    exact simplex_size (d := 1) (fun k h1 h2 => by omega)
  have hs : VertexIds e.d e.id i (e.d - 1) e.ids [x, y] := by
    refine ⟨hsz.symm, fun ii hii => ?_⟩
    rw [hsz] at hii
    interval_cases ii
    · exact ⟨k, x, hk, hx, rfl⟩
    · exact ⟨l, y, hl, hy, rfl⟩
  obtain ⟨r, hn⟩ := C109_reduced e he (e.d - 1) i addr (by omega) hi _ hs (by simp)
  have hne : x ≠ y := by simpa using hn
  refine ⟨?_, hne⟩
  rw [r]
  congr 1
  rcases lt_or_gt_of_ne hne with h | h
  · simp [reduceOrder, h, not_lt_of_gt h]
  · simp [reduceOrder, h, not_lt_of_gt h]

/-- The reduced order of a quadrilateral need not be one of its symmetries: renumbering the corners by it gives no coordinates
on the quadrilateral.  (Which vertices two elements name by the same number is still the same, `C109_canonical`.) -/
theorem C109_quadrilateral_counterexample : ∃ e : Elem Nat, e.Valid ∧ e.d = 2 ∧ IsCubeId e.d e.id ∧
    ∃ o, e.reduced 0 0 0 = some o ∧ ¬ ∃ a M, Symmetry 2 e.id (fun v => o.getD v 0) a M := by
  refine ⟨⟨2, 3, [5, 6, 8, 7]⟩, ⟨by decide, by decide, by decide, by decide⟩, rfl, square_cube, [0, 1, 3, 2], by decide +kernel, ?_⟩
  rw [C97_quadrilateral 3 square_cube _ (by decide) (fun k k' hk hk' => by
    interval_cases k <;> interval_cases k' <;> simp)]
  simp

/-! ### examples -/

/-- the two triangles of the unit square; corners 1, 2 of the first are corners 2, 1 of the second -/
noncomputable def lower : MultiLinearGeometry := ⟨2, 2, 0, fun k j => if k = j + 1 ∧ j < 2 then 1 else 0, 1 / 10⟩

noncomputable def upper : MultiLinearGeometry := ⟨2, 2, 0, fun k j => if k = j + 1 ∨ 2 ≤ j then 0 else 1, 1 / 10⟩

theorem lower_legal : Legal lower :=
  ⟨by change 0 < 2 ^ 2; norm_num, by change (0:ℝ) < 1 / 10; norm_num, by change (1 / 10 : ℝ) < 1; norm_num⟩

theorem upper_legal : Legal upper :=
  ⟨by change 0 < 2 ^ 2; norm_num, by change (0:ℝ) < 1 / 10; norm_num, by change (1 / 10 : ℝ) < 1; norm_num⟩

theorem lower_ids : VertexIds 2 0 2 1 [10, 30, 20] [30, 20] :=
  ⟨by decide, fun ii h => by
    have h : ii < 2 := h
    interval_cases ii
    · exact ⟨1, 30, by decide +kernel, rfl, rfl⟩
    · exact ⟨2, 20, by decide +kernel, rfl, rfl⟩⟩

theorem upper_ids : VertexIds 2 0 2 1 [40, 20, 30] [20, 30] :=
  ⟨by decide, fun ii h => by
    have h : ii < 2 := h
    interval_cases ii
    · exact ⟨1, 20, by decide +kernel, rfl, rfl⟩
    · exact ⟨2, 30, by decide +kernel, rfl, rfl⟩⟩

theorem lower_valid : Elem.Valid (⟨2, 0, [10, 30, 20]⟩ : Elem Nat) := ⟨by decide, by decide, by decide, by decide⟩

theorem upper_valid : Elem.Valid (⟨2, 0, [40, 20, 30]⟩ : Elem Nat) := ⟨by decide, by decide, by decide, by decide⟩

example : Elem.reduced (⟨2, 0, [10, 30, 20]⟩ : Elem Nat) 1 2 0 = some [1, 0] ∧
    Elem.reduced (⟨2, 0, [40, 20, 30]⟩ : Elem Nat) 1 2 0 = some [0, 1] := ⟨by decide +kernel, by decide +kernel⟩

/-- the point at 1/4 of the common edge, seen from the first triangle, is the one at 3/4 seen from the second -/
example (p : Vec ℝ × Mat ℝ) (hp : (referenceEmbeddings (K := ℝ) 2 0 1)[2]? = some p) :
    lower.global (embed 1 p fun _ => 1 / 4) = upper.global (embed 1 p fun _ => 3 / 4) := by
  have hs : IsSimplexId 1 0 := fun k h1 h2 => by omega
  obtain ⟨o₁, o₂, r1, r2, a₁, M₁, a₂, M₂, s1, s2, key⟩ := C109_chart (α := Nat) lower upper lower_legal upper_legal rfl
    [10, 30, 20] [40, 20, 30] lower_valid upper_valid 1 2 1 2 0 0 1 0
    (by decide) (by decide) (by decide) (by decide) p p hp hp rfl rfl (by decide +kernel) (by decide +kernel)
    hs [30, 20] [20, 30] lower_ids upper_ids (fun x => by simp [or_comm])
    (fun k₁ k₂ x e1 e2 => by
      obtain ⟨l1, e1⟩ := List.getElem?_eq_some_iff.1 e1
      obtain ⟨l2, e2⟩ := List.getElem?_eq_some_iff.1 e2
      have l1 : k₁ < 3 := l1
      have l2 : k₂ < 3 := l2
      subst e1
      funext j
      interval_cases k₁ <;> interval_cases k₂ <;> simp at e2
      · change (if 2 = j + 1 ∨ 2 ≤ j then (0:ℝ) else 1) = if 1 = j + 1 ∧ j < 2 then 1 else 0
        by_cases h : j = 0
        · simp [h]
        · rw [if_pos (by omega), if_neg (by omega)]
      · change (if 1 = j + 1 ∨ 2 ≤ j then (0:ℝ) else 1) = if 2 = j + 1 ∧ j < 2 then 1 else 0
        by_cases h : j = 1
        · simp [h]
        · rw [if_pos (by omega), if_neg (by omega)])
  have e1 : o₁ = [1, 0] := Option.some.inj (r1.symm.trans (by decide +kernel))
  have e2 : o₂ = [0, 1] := Option.some.inj (r2.symm.trans (by decide +kernel))
  subst e1 e2
  have hin : ∀ t : ℝ, 1 / 10 < t → t < 9 / 10 → checkInside 1 0 (fun _ => t) (-lower.tol) 1 = true := by
    intro t h1 h2
    have e : lower.tol = 1 / 10 := rfl
    simp [checkInside, e]
    constructor <;> linarith
  refine key _ _ (hin _ (by norm_num) (by norm_num)) (hin _ (by norm_num) (by norm_num)) fun i hi => ?_
  rw [simplex_affMap hs s1 _ hi, simplex_affMap hs s2 _ hi]
  have : i = 0 := by omega
  subst this
  simp [sum_range_succ, baryV]
  norm_num

end Verif.VertexOrder
