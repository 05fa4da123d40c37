import Verif.VertexOrder.Model
import Verif.RefTopo.Props
import Mathlib.Data.List.Count
import Mathlib.Data.List.Perm.Subperm
import Mathlib.Data.List.Nodup
import Mathlib.Order.Basic

/-! Counting lemmas for the vertex order. -/

namespace Verif.VertexOrder

open Verif.RefTopo

variable {α β : Type} [LinearOrder α] [LinearOrder β]

/-- the number of elements of `l` below `x` -/
abbrev below (l : List α) (x : α) : Nat := l.countP fun v => decide (v < x)

theorem below_mono (l : List α) {x y : α} (h : x ≤ y) : below l x ≤ below l y :=
  List.countP_mono_left fun v _ hv => by
    simp only [decide_eq_true_eq] at hv ⊢
    exact lt_of_lt_of_le hv h

theorem below_strict (l : List α) {x y : α} (hx : x ∈ l) (h : x < y) : below l x < below l y := by
  induction l with
  | nil => simp at hx
  | cons a l ih =>
    have hm := below_mono l h.le
    simp only [below, List.countP_cons, decide_eq_true_eq] at hm ⊢
    rcases List.mem_cons.1 hx with rfl | hx
    · rw [if_neg (lt_irrefl _), if_pos h]; omega
    · have := ih hx
      simp only [below] at this
      split
      · rename_i h1
        rw [if_pos (h1.trans h)]; omega
      · split <;> omega

theorem below_lt_iff (l : List α) {x y : α} (hx : x ∈ l) (hy : y ∈ l) : below l x < below l y ↔ x < y := by
  constructor
  · intro h
    by_contra hc
    have := below_mono l (le_of_not_gt hc)
    omega
  · exact below_strict l hx

theorem below_eq_iff (l : List α) {x y : α} (hx : x ∈ l) (hy : y ∈ l) : below l x = below l y ↔ x = y := by
  constructor
  · intro h
    rcases lt_trichotomy x y with h1 | h1 | h1
    · have := below_strict l hx h1; omega
    · exact h1
    · have := below_strict l hy h1; omega
  · rintro rfl; rfl

theorem below_lt_length (l : List α) {x : α} (hx : x ∈ l) : below l x < l.length := by
  have h := List.countP_lt_length_iff (p := fun v => decide (v < x)) (l := l)
  apply h.2
  exact ⟨x, hx, by simp⟩

/-- an order embedding on the elements of the list does not change the reduction -/
theorem reduceOrder_map (l : List α) (f : α → β) (h : ∀ x ∈ l, ∀ y ∈ l, f x < f y ↔ x < y) :
    reduceOrder (l.map f) = reduceOrder l := by
  simp only [reduceOrder, List.map_map]
  apply List.map_congr_left
  intro x hx
  simp only [Function.comp, List.countP_map]
  apply List.countP_congr
  intro y hy
  simp only [Function.comp, decide_eq_true_eq]
  exact h y hy x hx

theorem length_reduceOrder (l : List α) : (reduceOrder l).length = l.length := by simp [reduceOrder]

theorem getElem_reduceOrder (l : List α) (i : Nat) (h : i < (reduceOrder l).length) :
    (reduceOrder l)[i] = below l (l[i]'(by rwa [length_reduceOrder] at h)) := by
  simp [reduceOrder]

/-- the traversal reads the elements one after the other -/
theorem collect_eq (o : GeneralVertexOrder) (codim sub : Nat) (f : Nat → Nat) (n : Nat) (hn : n < 2 ^ 64)
    (h : ∀ k, k < n → (Iter.mk o codim sub k).dereference = some (f k)) :
    ∀ m k, k + m = n → collect (m + 1) ⟨o, codim, sub, k⟩ ⟨o, codim, sub, n⟩ = some ((List.range' k m).map f) := by
  intro m
  induction m with
  | zero =>
    intro k hk
    obtain rfl : k = n := by omega
    simp [collect, Iter.equals]
  | succ m ih =>
    intro k hk
    have hne : (Iter.mk o codim sub k).equals ⟨o, codim, sub, n⟩ = false := by
      simp [Iter.equals]; omega
    have hinc : (Iter.mk o codim sub k).increment = ⟨o, codim, sub, k + 1⟩ := by
      simp only [Iter.increment, addSize, Iter.mk.injEq, true_and]
      have : ((k : ℤ) + 1) % 2 ^ 64 = ((k + 1 : Nat) : ℤ) := by
        rw [Int.emod_eq_of_lt (by omega) (by omega)]; push_cast; ring
      rw [this]; rfl
    rw [collect, hne, h k (by omega), hinc, ih (k + 1) (by omega)]
    rfl

end Verif.VertexOrder
