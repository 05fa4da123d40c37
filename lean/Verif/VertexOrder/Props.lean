import Verif.VertexOrder.Lemmas

/-! Property C23. -/

namespace Verif.VertexOrder

open Verif.RefTopo

variable {α : Type} [LinearOrder α]

/-- C23: one output per input, all below the number of inputs -/
theorem C23_range (l : List α) : (reduceOrder l).length = l.length ∧ ∀ v ∈ reduceOrder l, v < l.length := by
  refine ⟨length_reduceOrder l, fun v hv => ?_⟩
  obtain ⟨x, hx, rfl⟩ := List.mem_map.1 hv
  exact below_lt_length l hx

/-- C23: the relative order is kept: less iff less, equal iff equal -/
theorem C23_relative_order (l : List α) (i j : Nat) (x y : α) (hi : l[i]? = some x) (hj : l[j]? = some y) :
    ∃ a b, (reduceOrder l)[i]? = some a ∧ (reduceOrder l)[j]? = some b ∧ (a < b ↔ x < y) ∧ (a = b ↔ x = y) := by
  refine ⟨below l x, below l y, by simp [reduceOrder, hi], by simp [reduceOrder, hj], ?_, ?_⟩
  · exact below_lt_iff l (List.mem_of_getElem? hi) (List.mem_of_getElem? hj)
  · exact below_eq_iff l (List.mem_of_getElem? hi) (List.mem_of_getElem? hj)

/-- C23: distinct ids are reduced to a permutation of 0,…,n-1 -/
theorem C23_permutation (l : List α) (h : l.Nodup) : (reduceOrder l).Perm (List.range l.length) := by
  have hn : (reduceOrder l).Nodup := by
    apply List.Nodup.map_on _ h
    intro x hx y hy hxy
    exact (below_eq_iff l hx hy).1 hxy
  apply List.Subperm.perm_of_length_le
  · apply hn.subperm
    intro v hv
    exact List.mem_range.2 ((C23_range l).2 v hv)
  · rw [List.length_range, length_reduceOrder]

/-- C23: reducing twice is reducing once -/
theorem C23_idempotent (l : List α) : reduceOrder (reduceOrder l) = reduceOrder l :=
  reduceOrder_map l (below l) fun _ hx _ hy => below_lt_iff l hx hy

/-- C23: only the relative order of the ids matters -/
theorem C23_invariant {β : Type} [LinearOrder β] (l : List α) (f : α → β) (h : ∀ x ∈ l, ∀ y ∈ l, f x < f y ↔ x < y) :
    reduceOrder (l.map f) = reduceOrder l := reduceOrder_map l f h

/-- C23: what is reported for a sub-entity is the reduction of the original ids of its vertices; `ids` lists the ids
of the vertices of the element -/
theorem C23_subentity (d id c i addr : Nat) (ids : List α) (hid : id < 2 ^ d) (hc : c ≤ d) (hi : i < refSize d id c)
    (hl : ids.length = refSize d id d) (hn : refSize3 d id i c d < 2 ^ 64) :
    ∃ o sub, GeneralVertexOrder.make d id ids addr = some o ∧
      sub.length = refSize3 d id i c d ∧
      (∀ ii, ii < refSize3 d id i c d → ∃ k, subEntity d id i c ii d = some k ∧ sub[ii]? = ids[k]? ∧ k < ids.length) ∧
      o.getReduced c i = some (reduceOrder sub) := by
  have hex : ∀ ii, ii < refSize3 d id i c d → ∃ k, subEntity d id i c ii d = some k ∧ k < ids.length := by
    intro ii h
    obtain ⟨k, h1, h2⟩ := C13_valid d id i c ii d hid hc (le_refl _) hi h
    exact ⟨k, h1, by rw [hl]; exact h2⟩
  choose! num hnum using hex
  let o : GeneralVertexOrder := ⟨d, id, reduceOrder ids, addr⟩
  have hmk : GeneralVertexOrder.make d id ids addr = some o := by
    simp [GeneralVertexOrder.make, hl, o]
  rcases Nat.eq_zero_or_pos ids.length with h0 | hpos
  · -- no vertices at all: then there is no sub-entity vertex either
    have hz : refSize3 d id i c d = 0 := by
      by_contra hne
      have := (hnum 0 (by omega)).2
      omega
    refine ⟨o, [], hmk, by simp [hz], fun ii h => absurd h (by omega), ?_⟩
    simp only [GeneralVertexOrder.getReduced, GeneralVertexOrder.begin, GeneralVertexOrder.end_, o, hz]
    simp [collect, Iter.equals]
    rfl
  · let x0 : α := ids[0]
    let sub : List α := (List.range (refSize3 d id i c d)).map fun ii => ids.getD (num ii) x0
    refine ⟨o, sub, hmk, by simp [sub], ?_, ?_⟩
    · intro ii h
      obtain ⟨h1, h2⟩ := hnum ii h
      refine ⟨num ii, h1, ?_, h2⟩
      simp [sub, h, List.getD_eq_getElem?_getD, h2]
    · have hcol := collect_eq o c i (fun ii => below ids (ids.getD (num ii) x0)) (refSize3 d id i c d) hn (by
        intro k hk
        obtain ⟨h1, h2⟩ := hnum k hk
        simp only [Iter.dereference, o, h1, Option.bind_some]
        simp [reduceOrder, List.getD_eq_getElem?_getD, h2]) (refSize3 d id i c d) 0 (by omega)
      have : o.getReduced c i = some (reduceOrder (sub.map (below ids))) := by
        simp only [GeneralVertexOrder.getReduced, GeneralVertexOrder.begin, GeneralVertexOrder.end_]
        change ((collect (refSize3 d id i c d + 1) ⟨o, c, i, 0⟩ ⟨o, c, i, refSize3 d id i c d⟩).bind _) = _
        rw [hcol]
        simp only [sub, List.map_map, List.range_eq_range']
        rfl
      rw [this, reduceOrder_map]
      have hmem : ∀ x ∈ sub, x ∈ ids := by
        intro x hx
        obtain ⟨ii, hii, rfl⟩ := List.mem_map.1 hx
        obtain ⟨h1, h2⟩ := hnum ii (List.mem_range.1 hii)
        rw [List.getD_eq_getElem _ _ h2]
        exact List.getElem_mem h2
      exact fun x hx y hy => below_lt_iff ids (hmem x hx) (hmem y hy)

/-- C23: iterators are equal exactly if they belong to the same object, the same sub-entity and the same position -/
theorem C23_equals (a b : Iter) : a.equals b = true ↔
    a.order.addr = b.order.addr ∧ a.codim = b.codim ∧ a.subEntity = b.subEntity ∧ a.vertex = b.vertex := by
  simp only [Iter.equals, Bool.and_eq_true, beq_iff_eq, and_assoc]

example (o o' : GeneralVertexOrder) (h : o.addr ≠ o'.addr) : (o.begin 0 0).equals (o'.begin 0 0) = false := by
  rw [← Bool.not_eq_true, C23_equals]
  exact fun h' => h h'.1

/-- C23: the iterator satisfies the laws of random access iterators, as long as positions stay below 2^63 and are not
negative -/
theorem C23_iterator (a b : Iter) (n m : ℤ) (hab : a.order = b.order) (hc : a.codim = b.codim)
    (hs : a.subEntity = b.subEntity) (ha : a.vertex < 2 ^ 63) (hb : b.vertex < 2 ^ 63)
    (hn : 0 ≤ a.vertex + n ∧ a.vertex + n < 2 ^ 63)
    (hm : 0 ≤ a.vertex + n + m ∧ a.vertex + n + m < 2 ^ 63) :
    (∃ k, a.distanceTo b = some k ∧ a.advance k = b) ∧
    a.distanceTo (a.advance n) = some n ∧
    (a.advance n).advance m = a.advance (n + m) ∧
    a.elementAt n = (a.advance n).dereference ∧
    a.increment = a.advance 1 ∧ (0 < a.vertex → a.decrement.increment = a) ∧ a.increment.decrement = a := by
  obtain ⟨o, c, s, v⟩ := a
  obtain ⟨o', c', s', w⟩ := b
  simp only at hab hc hs ha hb hn hm
  subst hab; subst hc; subst hs
  have hadd : ∀ (k : ℤ), 0 ≤ (v : ℤ) + k → (v : ℤ) + k < 2 ^ 63 → addSize v k = ((v : ℤ) + k).toNat := by
    intro k h1 h2
    rw [addSize, Int.emod_eq_of_lt h1 (by omega)]
  refine ⟨?_, ?_, ?_, rfl, rfl, ?_, ?_⟩
  · simp only [Iter.distanceTo, beq_self_eq_true, Bool.and_true, Bool.not_true, Bool.false_eq_true, if_false]
    split
    · refine ⟨_, rfl, ?_⟩
      simp only [Iter.advance, Iter.mk.injEq, true_and]
      rw [hadd _ (by omega) (by omega)]; omega
    · refine ⟨_, rfl, ?_⟩
      simp only [Iter.advance, Iter.mk.injEq, true_and]
      rw [hadd _ (by omega) (by omega)]; omega
  · simp only [Iter.distanceTo, Iter.advance, beq_self_eq_true, Bool.and_true, Bool.not_true, Bool.false_eq_true,
      if_false]
    have hv := hadd n hn.1 hn.2
    by_cases hlt : v < addSize v n
    · refine (if_pos hlt).trans ?_; congr 1; omega
    · refine (if_neg hlt).trans ?_; congr 1; omega
  · simp only [Iter.advance, Iter.mk.injEq, true_and]
    rw [hadd n hn.1 hn.2, hadd (n + m) (by omega) (by omega), addSize, Int.toNat_of_nonneg hn.1,
      Int.emod_eq_of_lt hm.1 (by omega), add_assoc]
  · intro hpos
    have hpos : 0 < v := hpos
    simp only [Iter.decrement, Iter.increment, Iter.mk.injEq, true_and]
    rw [hadd (-1) (by omega) (by omega), addSize, Int.toNat_of_nonneg (by omega), Int.emod_eq_of_lt (by omega) (by omega)]
    omega
  · simp only [Iter.decrement, Iter.increment, Iter.mk.injEq, true_and]
    rw [addSize, addSize, Int.emod_eq_of_lt (a := (v : ℤ) + 1) (by omega) (by omega), Int.toNat_of_nonneg (by omega),
      Int.emod_eq_of_lt (by omega) (by omega)]
    omega

example : reduceOrder [30, 10, 20, 10] = [3, 0, 2, 0] := by decide

-- facet 2 of the pyramid has the vertices 1, 3, 4
example : ((GeneralVertexOrder.make 3 3 [50, 40, 30, 20, 35] 0).bind fun o => o.getReduced 1 2) =
    some (reduceOrder [40, 20, 35]) ∧ 2 < refSize 3 3 1 ∧ refSize 3 3 3 = 5 := by decide

example : (Iter.mk ⟨3, 3, [0, 1, 2, 3, 4], 0⟩ 1 2 2).distanceTo (Iter.mk ⟨3, 3, [0, 1, 2, 3, 4], 0⟩ 1 2 0) = some (-2) := by
  decide

end Verif.VertexOrder
