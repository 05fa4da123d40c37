import Verif.Refine.ElementProps
import Mathlib.Algebra.Order.BigOperators.Group.Finset

/-! The maps between the reference simplex and the Kuhn simplices. -/

namespace Verif.Refine

open Function Finset
open Equiv (Perm)

/-! ### closed forms -/

theorem r2kLoop_eq {K : Type} [AddCommMonoid K] (q : Perm Nat) (m : Nat) (x : Nat → K) (j : Nat) :
    r2kLoop q m x (q j) = if j ≤ m then ∑ k ∈ Icc j m, x (q k) else x (q j) := by
  induction m generalizing x with
  | zero =>
    rw [r2kLoop]
    split
    · obtain rfl : j = 0 := by omega
      simp
    · rfl
  | succ m ih =>
    rw [r2kLoop, ih]
    by_cases h : j ≤ m
    · rw [if_pos h, if_pos (by omega), ← Finset.insert_Icc_right_eq_Icc_add_one (by omega), sum_insert (by simp),
        ← Finset.sum_erase_add _ _ (show m ∈ Icc j m by simp [h]), update_self,
        ← Finset.sum_erase_add (Icc j m) (fun k => x (q k)) (show m ∈ Icc j m by simp [h])]
      rw [sum_congr rfl fun k hk => update_of_ne (q.injective.ne (ne_of_mem_erase hk)) _ _, ← add_assoc, add_comm]
    · rw [if_neg h, update_of_ne (q.injective.ne (by omega))]
      split
      · obtain rfl : j = m + 1 := by omega
        simp
      · rfl

/-- the coordinates of the Kuhn point are the partial sums of the reference coordinates -/
theorem referenceToKuhn_eq {K : Type} [AddCommMonoid K] (d : Nat) (q : Perm Nat) (x : Nat → K) (j : Nat) (hj : j < d) :
    referenceToKuhn d x q (q j) = ∑ k ∈ Ico j d, x (q k) := by
  rw [referenceToKuhn, r2kLoop_eq, if_pos (by omega)]
  refine sum_congr ?_ fun _ _ => rfl
  ext k
  simp only [mem_Icc, mem_Ico]
  omega

theorem referenceToKuhn_ge {K : Type} [AddCommMonoid K] (d : Nat) (hd : 0 < d) (q : Perm Nat) (hq : ∀ k, d ≤ k → q k = k) (x : Nat → K)
    (j : Nat) (hj : d ≤ j) : referenceToKuhn d x q j = x j := by
  rw [← hq j hj, referenceToKuhn, r2kLoop_eq, if_neg (by omega)]

theorem kuhnToReference_eq {K : Type} [Sub K] (d : Nat) (q : Perm Nat) (y : Nat → K) (j : Nat) :
    kuhnToReference d y q (q j) = if j + 1 < d then y (q j) - y (q (j + 1)) else y (q j) := by
  have key : ∀ k, (List.range k).foldl (fun (point : Nat → K) i => update point (q i) (point (q i) - point (q (i + 1)))) y =
      fun i => if q.symm i < k then y i - y (q (q.symm i + 1)) else y i := by
    intro k
    induction k with
    | zero => simp
    | succ k ih =>
      rw [List.range_succ, List.foldl_append, ih]
      funext i
      simp only [List.foldl_cons, List.foldl_nil]
      by_cases h : i = q k
      · subst h
        rw [update_self, Equiv.symm_apply_apply, Equiv.symm_apply_apply, if_neg (by omega), if_neg (by omega), if_pos (by omega)]
      · rw [update_of_ne h]
        have : q.symm i ≠ k := fun he => h (by rw [← he, Equiv.apply_symm_apply])
        by_cases h2 : q.symm i < k
        · rw [if_pos h2, if_pos (by omega)]
        · rw [if_neg h2, if_neg (by omega)]
  rw [kuhnToReference, key]
  simp only [Equiv.symm_apply_apply]
  by_cases h : j < d - 1
  · rw [if_pos h, if_pos (by omega)]
  · rw [if_neg h, if_neg (by omega)]

/-- the differences of neighbouring coordinates, the last one is kept -/
def diff {K : Type} [Sub K] (d : Nat) (y : Nat → K) : Nat → K := fun i => if i + 1 < d then y i - y (i + 1) else y i

theorem diff_inj {K : Type} [AddGroup K] (d : Nat) (y z : Nat → K) (h : ∀ i, i < d → diff d y i = diff d z i) (i : Nat) (hi : i < d) :
    y i = z i := by
  obtain ⟨m, rfl⟩ : ∃ m, i + m + 1 = d := ⟨d - 1 - i, by omega⟩
  induction m generalizing i with
  | zero =>
    have := h i hi
    simpa [diff] using this
  | succ m ih =>
    have h1 := ih (i + 1) (by rw [show i + 1 + m + 1 = i + (m + 1) + 1 by omega]; exact h) (by omega)
    have h2 := h i hi
    rw [diff, diff, if_pos (by omega), if_pos (by omega), h1] at h2
    exact sub_left_injective h2

theorem diff_div {K : Type} [DivisionRing K] (d : Nat) (y : Nat → K) (a : K) : diff d (fun i => y i / a) = fun i => diff d y i / a := by
  funext i
  rw [diff, diff]
  split
  · rw [sub_div]
  · rfl

theorem symm_lt {d : Nat} {q : Perm Nat} (hq : ∀ k, d ≤ k → q k = k) {i : Nat} (hi : i < d) : q.symm i < d := by
  by_contra hh
  have := hq (q.symm i) (by omega)
  rw [Equiv.apply_symm_apply] at this
  omega

theorem perm_lt {d : Nat} {q : Perm Nat} (hq : ∀ k, d ≤ k → q k = k) {i : Nat} (hi : i < d) : q i < d := by
  by_contra hh
  have := q.injective (hq (q i) (by omega))
  omega

section
variable {K : Type} [Add K] [Sub K] [Div K] [NatCast K]

/-- the element's map: the Kuhn coordinates are shifted by the origin and scaled -/
theorem global_eq (d : Nat) (it : ElementIterator) (p : Nat → Nat) (hp : getPermutation d it.kuhnIndex = some p) (x : Nat → K) :
    it.global d x = some (diff d fun i => (referenceToKuhn d x p i + it.origin i) / it.size) := by
  rw [ElementIterator.global, hp, Option.bind_some, C39_identity, Option.map_some, kuhnToReference_id]
  rfl

end

/-! ### corners -/

/-- number of the corner of `geometry()` that is the `r`-th corner on the Kuhn path -/
def pathOrder (p : Nat → Nat) (r : Nat) : Nat := if r = 0 then 0 else p (r - 1) + 1

theorem r2k_corner {K : Type} [Semiring K] (d : Nat) (q : Perm Nat) (hq : ∀ k, d ≤ k → q k = k) (r : Nat) (hr : r ≤ d) (i : Nat) (hi : i < d) :
    referenceToKuhn d (fun k => if k + 1 = pathOrder q r then (1 : K) else 0) q i = if q.symm i < r then 1 else 0 := by
  obtain ⟨j, rfl⟩ : ∃ j, q j = i := ⟨q.symm i, Equiv.apply_symm_apply q i⟩
  have hj : j < d := by
    have := symm_lt hq hi
    rwa [Equiv.symm_apply_apply] at this
  rw [referenceToKuhn_eq d q _ j hj, Equiv.symm_apply_apply, pathOrder]
  rcases Nat.eq_zero_or_pos r with rfl | h
  · simp
  · rw [if_neg (by omega)]
    have : ∀ k, (if q k + 1 = q (r - 1) + 1 then (1 : K) else 0) = if k = r - 1 then 1 else 0 := by
      intro k
      by_cases hk : k = r - 1
      · rw [if_pos hk, if_pos (by rw [hk])]
      · rw [if_neg hk, if_neg fun he => hk (q.injective (by omega))]
    rw [sum_congr rfl fun k _ => this k, sum_ite_eq']
    refine if_congr ?_ rfl rfl
    rw [mem_Ico]
    omega

theorem pathLoop_spec (d : Nat) (q : Perm Nat) (o : Nat → Nat) (k i : Nat) (idx : Nat → Nat) (j : Nat) :
    ElementIterator.pathLoop d q (List.range' i k) (pathCorner o q i) idx j =
      if i < j ∧ j ≤ i + k then pointIndex d (pathCorner o q j) else idx j := by
  induction k generalizing i idx with
  | zero => rw [List.range'_zero, ElementIterator.pathLoop, if_neg (by omega)]
  | succ k ih =>
    rw [List.range'_succ, ElementIterator.pathLoop]
    have hc : update (pathCorner o q i) (q i) (pathCorner o q i (q i) + 1) = pathCorner o q (i + 1) := by
      funext m
      by_cases h : m = q i
      · subst h
        simp only [update_self, pathCorner, exists_lt_iff, Equiv.symm_apply_apply]
        simp
      · rw [update_of_ne h]
        simp only [pathCorner, exists_lt_iff]
        have : q.symm m ≠ i := fun he => h (by rw [← he, Equiv.apply_symm_apply])
        by_cases h2 : q.symm m < i
        · rw [if_pos h2, if_pos (by omega)]
        · rw [if_neg h2, if_neg (by omega)]
    simp only [hc]
    rw [ih]
    by_cases h1 : j = i + 1
    · subst h1
      rw [if_neg (by omega), if_pos (by omega), update_self]
    · rw [update_of_ne h1]
      by_cases h2 : i + 1 < j ∧ j ≤ i + 1 + k
      · rw [if_pos h2, if_pos (by omega)]
      · rw [if_neg h2, if_neg (by omega)]

theorem reverse_spec (d : Nat) (idx : Nat → Nat) (m : Nat) (hm : 2 * m ≤ d + 1) (j : Nat) :
    (List.range m).foldl (fun (indices : Nat → Nat) i =>
        update (update indices i (indices (d - i))) (d - i) (indices i)) idx j =
      if j < m ∨ d < j + m ∧ j ≤ d then idx (d - j) else idx j := by
  induction m generalizing j with
  | zero => rw [List.range_zero, List.foldl_nil, if_neg (by omega)]
  | succ m ih =>
    have ih := ih (by omega)
    rw [List.range_succ, List.foldl_append, List.foldl_cons, List.foldl_nil]
    by_cases h1 : j = d - m
    · subst h1
      rw [update_self, ih, if_neg (by omega), if_pos (by omega), show d - (d - m) = m by omega]
    · rw [update_of_ne h1]
      by_cases h2 : j = m
      · subst h2
        rw [update_self, ih, if_neg (by omega), if_pos (by omega)]
      · rw [update_of_ne h2, ih]
        by_cases h3 : j < m ∨ d < j + m ∧ j ≤ d
        · rw [if_pos h3, if_pos (by omega)]
        · rw [if_neg h3, if_neg (by omega)]

/-- the indices listed are those of the corners on the Kuhn path, backwards for odd Kuhn index -/
theorem vertexIndices_eq (d : Nat) (it : ElementIterator) (q : Perm Nat) (hp : getPermutation d it.kuhnIndex = some ⇑q) :
    ∃ idx, it.vertexIndices d = some idx ∧ ∀ r, r ≤ d →
      idx r = pointIndex d (pathCorner it.origin q (if it.kuhnIndex % 2 = 1 then d - r else r)) := by
  have h0 : pathCorner it.origin q 0 = it.origin := by funext k; simp [pathCorner]
  have key : ∀ idx0 : Nat → Nat, idx0 0 = pointIndex d it.origin → ∀ j, j ≤ d →
      ElementIterator.pathLoop d q (List.range d) it.origin idx0 j = pointIndex d (pathCorner it.origin q j) := by
    intro idx0 hi j hj
    have := pathLoop_spec d q it.origin d 0 idx0 j
    rw [h0, ← List.range_eq_range'] at this
    rw [this]
    rcases Nat.eq_zero_or_pos j with rfl | h
    · rw [if_neg (by omega), h0, hi]
    · rw [if_pos (by omega)]
  rw [ElementIterator.vertexIndices, hp, Option.map_some]
  refine ⟨_, rfl, fun r hr => ?_⟩
  by_cases hodd : it.kuhnIndex % 2 = 1
  · simp only [if_pos hodd]
    refine (reverse_spec d _ ((d + 1) / 2) (by omega) r).trans ?_
    by_cases h : r < (d + 1) / 2 ∨ d < r + (d + 1) / 2 ∧ r ≤ d
    · rw [if_pos h]
      exact key _ rfl _ (by omega)
    · rw [if_neg h, show d - r = r by omega]
      exact key _ rfl _ (by omega)
  · simp only [if_neg hodd]
    exact key _ rfl _ hr

end Verif.Refine
