import Verif.VertexOrder.Props
import Verif.Quad.SimplexSymmetric
import Verif.Locate.Lemmas

/-! Lemmas for `NeighbourProps.lean`: reduced orders as symmetries of simplices. -/

namespace Verif.VertexOrder

open Verif.Typ Verif.RefTopo Verif.RefGeom Verif.Neighbour Verif.MultiLinear Verif.Quad
open Finset hiding ext

theorem sum_bary (d : Nat) (x : Vec ℝ) : ∑ k ∈ range (d + 1), baryV d x k = 1 := by
  rw [sum_range_succ']
  simp [baryV]

/-- a symmetry permutes the barycentric coordinates -/
theorem bary_affMap {d id : Nat} (hs : IsSimplexId d id) {σ : Nat → Nat} {a : Vec ℝ} {M : Mat ℝ}
    (h : Symmetry d id σ a M) (x : Vec ℝ) {k : Nat} (hk : k ≤ d) : baryV d (affMap d a M x) (σ k) = baryV d x k := by
  have hsz := simplex_size hs
  have hinj : ∀ k', k' ≤ d → σ k' = σ k → k' = k := fun k' hk' e => h.inj k' k (by omega) (by omega) e
  have hlt : ∀ k', k' ≤ d → σ k' ≤ d := fun k' hk' => by have := h.lt k' (by omega); omega
  have hpos : ∀ k', k' ≤ d → ∀ i, i < d → σ k' = i + 1 → affMap d a M x i = baryV d x k' := by
    intro k' hk' i hi e
    rw [simplex_affMap hs h x hi, sum_eq_single k']
    · rw [if_pos e, mul_one]
    · intro l hl hne
      rw [mem_range] at hl
      rw [if_neg, mul_zero]
      intro e'
      exact hne (h.inj l k' (by omega) (by omega) (e'.trans e.symm))
    · intro hn; exact absurd (mem_range.2 (by omega)) hn
  by_cases h0 : σ k = 0
  · rw [h0]
    have e1 : baryV d (affMap d a M x) 0 = 1 - ∑ r ∈ range d, affMap d a M x r := by simp [baryV]
    rw [e1, sum_congr rfl fun r hr => simplex_affMap hs h x (mem_range.1 hr), sum_comm]
    have e2 : ∀ l ∈ range (d + 1), ∑ i ∈ range d, baryV d x l * (if σ l = i + 1 then (1:ℝ) else 0) =
        baryV d x l - if l = k then baryV d x l else 0 := by
      intro l hl
      rw [mem_range] at hl
      rw [← mul_sum]
      by_cases hlk : l = k
      · subst hlk
        rw [if_pos rfl, _root_.sub_self, sum_eq_zero, mul_zero]
        intro i _
        rw [h0, if_neg (by omega)]
      · have hne : σ l ≠ 0 := fun e => hlk (hinj l (by omega) (e.trans h0.symm))
        have := hlt l (by omega)
        rw [if_neg hlk, sub_zero, sum_eq_single (σ l - 1), if_pos (by omega), mul_one]
        · intro i _ hne'
          rw [if_neg (by omega)]
        · intro hn; exact absurd (mem_range.2 (by omega)) hn
    rw [sum_congr rfl e2, sum_sub_distrib, sum_bary, sum_ite_eq' (range (d + 1)) k, if_pos (mem_range.2 (by omega))]
    ring
  · have := hlt k hk
    have e := hpos k hk (σ k - 1) (by omega) (by omega)
    rw [← e]
    simp [baryV, h0]

/-- two symmetries with a common image -/
theorem bary_factor {d id : Nat} (hs : IsSimplexId d id) {σ₁ σ₂ σ : Nat → Nat} {a₁ a₂ a : Vec ℝ} {M₁ M₂ M : Mat ℝ}
    (h₁ : Symmetry d id σ₁ a₁ M₁) (h₂ : Symmetry d id σ₂ a₂ M₂) (h : Symmetry d id σ a M)
    (hσ : ∀ v, v ≤ d → σ₁ (σ v) = σ₂ v) {x₁ x₂ : Vec ℝ}
    (hx : ∀ i, i < d → affMap d a₁ M₁ x₁ i = affMap d a₂ M₂ x₂ i) {i : Nat} (hi : i < d) : x₁ i = affMap d a M x₂ i := by
  have hsz := simplex_size hs
  have hb : ∀ k, baryV d (affMap d a₁ M₁ x₁) k = baryV d (affMap d a₂ M₂ x₂) k ∨ d < k := by
    intro k
    by_cases hk : d < k
    · exact Or.inr hk
    · left
      by_cases h0 : k = 0
      · subst h0
        simp only [baryV, if_true]
        rw [sum_congr rfl fun r hr => hx r (mem_range.1 hr)]
      · simp only [baryV, h0, if_false]
        exact hx _ (by omega)
  -- the preimage of the coordinate
  have hperm := sigma_perm hs h
  have hmem : i + 1 ∈ (List.range (d + 1)).map σ := hperm.mem_iff.2 (List.mem_range.2 (by omega))
  obtain ⟨v, hv, e⟩ := List.mem_map.1 hmem
  rw [List.mem_range] at hv
  have b1 := bary_affMap hs h₁ x₁ (k := σ v) (by rw [e]; omega)
  have b2 := bary_affMap hs h₂ x₂ (k := v) (by omega)
  have b3 := bary_affMap hs h x₂ (k := v) (by omega)
  rw [hσ v (by omega)] at b1
  have hlt := h₂.lt v (by omega)
  have b4 := (hb (σ₂ v)).resolve_right (by omega)
  have f1 : baryV d x₁ (σ v) = x₁ i := by simp [baryV, e]
  have f2 : baryV d (affMap d a M x₂) (σ v) = affMap d a M x₂ i := by simp [baryV, e]
  rw [← f1, ← f2, b3, ← b1, b4, b2]

theorem embed_congr {m : Nat} (e : Vec ℝ × Mat ℝ) {x y : Vec ℝ} (h : ∀ r, r < m → x r = y r) : embed m e x = embed m e y := by
  funext j
  simp only [embed]
  congr 1
  exact sum_congr rfl fun r hr => by rw [h r (mem_range.1 hr)]

variable {α : Type} [LinearOrder α]

theorem reduce_match {s₁ s₂ : List α} (hp : s₁.Perm s₂) {a b : Nat} {x y : α} (ha : s₁[a]? = some x) (hb : s₂[b]? = some y) :
    (reduceOrder s₁)[a]? = (reduceOrder s₂)[b]? ↔ x = y := by
  simp only [reduceOrder, List.getElem?_map, ha, hb, Option.map_some, Option.some.injEq]
  have hx : x ∈ s₂ := hp.subset (List.mem_of_getElem? ha)
  have hy : y ∈ s₂ := List.mem_of_getElem? hb
  rw [hp.countP_eq]
  exact below_eq_iff s₂ hx hy

/-- a reduced order of distinct ids as a symmetry -/
theorem reduce_symmetry {m id : Nat} (hs : IsSimplexId m id) {s : List α} (hn : s.Nodup) (hl : s.length = m + 1) :
    ∃ a M, Symmetry m id (fun v => (reduceOrder s).getD v 0) a M := by
  have hlen := length_reduceOrder s
  refine C97_simplex_any m id hs _ (fun k hk => ?_) (fun k k' hk hk' e => ?_)
  · have hk' : k < (reduceOrder s).length := by omega
    have := (C23_range s).2 _ (List.getElem_mem hk')
    rw [List.getD_eq_getElem?_getD, List.getElem?_eq_getElem hk', Option.getD_some]
    omega
  · have h1 : k < (reduceOrder s).length := by omega
    have h2 : k' < (reduceOrder s).length := by omega
    simp only [List.getD_eq_getElem?_getD, List.getElem?_eq_getElem h1, List.getElem?_eq_getElem h2, Option.getD_some] at e
    have hnd : (reduceOrder s).Nodup := (C23_permutation s hn).nodup_iff.2 List.nodup_range
    exact (List.Nodup.getElem_inj_iff hnd).1 e

end Verif.VertexOrder
