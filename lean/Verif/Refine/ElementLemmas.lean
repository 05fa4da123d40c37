import Verif.Refine.VertexLemmas
import Mathlib.Data.Fin.Tuple.Sort
import Mathlib.Data.Nat.Count
import Mathlib.Order.OrderDual

/-! Lemmas on the Kuhn sub-simplices of a refined simplex. -/

namespace Verif.Refine

open Function (update)
open Equiv (Perm)
open Finset

/-- the corner of the Kuhn simplex reached after `i` steps: from `o` one unit in the directions `p 0, …, p (i-1)` -/
def pathCorner (o p : Nat → Nat) (i : Nat) : Nat → Nat := fun k => o k + if ∃ s, s < i ∧ p s = k then 1 else 0

/-- criterion for all corners of a Kuhn simplex to lie in the Kuhn cone -/
def InsideQ (d : Nat) (o : Nat → Nat) (q : Perm Nat) : Prop := ∀ j, j + 1 < d → o (j + 1) < o j ∨ q.symm j < q.symm (j + 1)

theorem outsideLoop_iff (q : Perm Nat) (k i : Nat) (c : Nat → Nat) :
    outsideLoop q (List.range' i k) c = false ↔ ∀ j, i ≤ j → j < i + k → q j > 0 →
      c (q j) + 1 ≤ c (q j - 1) + if i ≤ q.symm (q j - 1) ∧ q.symm (q j - 1) < j then 1 else 0 := by
  induction k generalizing i c with
  | zero => simp [outsideLoop]; intros; omega
  | succ k ih =>
    rw [List.range'_succ, outsideLoop]
    simp only [Function.update_self]
    have hne : q i > 0 → update c (q i) (c (q i) + 1) (q i - 1) = c (q i - 1) :=
      fun h => Function.update_of_ne (by omega) _ _
    by_cases hout : q i > 0 ∧ c (q i) + 1 > update c (q i) (c (q i) + 1) (q i - 1)
    · rw [if_pos hout]
      simp only [Bool.true_eq_false, false_iff]
      intro h
      have h1 := h i le_rfl (by omega) hout.1
      rw [if_neg (by omega), ← hne hout.1] at h1
      omega
    · rw [if_neg hout, ih]
      have key : ∀ j, i < j → q j > 0 →
          ((update c (q i) (c (q i) + 1) (q j) + 1 ≤ update c (q i) (c (q i) + 1) (q j - 1) +
            if i + 1 ≤ q.symm (q j - 1) ∧ q.symm (q j - 1) < j then 1 else 0) ↔
          (c (q j) + 1 ≤ c (q j - 1) + if i ≤ q.symm (q j - 1) ∧ q.symm (q j - 1) < j then 1 else 0)) := by
        intro j hij hj
        have e1 : update c (q i) (c (q i) + 1) (q j) = c (q j) :=
          Function.update_of_ne (fun h => by have := q.injective h; omega) _ _
        rw [e1]
        by_cases hs : q.symm (q j - 1) = i
        · have hq : q j - 1 = q i := by rw [← hs, Equiv.apply_symm_apply]
          rw [hs, hq, Function.update_self, if_neg (by omega), if_pos (by omega)]
        · have hq : q j - 1 ≠ q i := fun h => hs (by rw [h, Equiv.symm_apply_apply])
          rw [Function.update_of_ne hq]
          have : (i + 1 ≤ q.symm (q j - 1) ∧ q.symm (q j - 1) < j) ↔ (i ≤ q.symm (q j - 1) ∧ q.symm (q j - 1) < j) := by omega
          simp only [this]
      constructor
      · intro h j h1 h2 h3
        rcases Nat.lt_or_eq_of_le h1 with h4 | h4
        · exact (key j h4 h3).1 (h j h4 (by omega) h3)
        · subst h4
          rw [if_neg (by omega)]
          rw [← hne h3]
          have := not_and.1 hout h3
          omega
      · intro h j h1 h2 h3
        exact (key j h1 h3).2 (h j (by omega) (by omega) h3)

theorem outside_iff (d : Nat) (q : Perm Nat) (hq : ∀ k, d ≤ k → q k = k) (o : Nat → Nat) (ho : Decreasing d o) :
    outsideLoop q (List.range d) o = false ↔ InsideQ d o q := by
  have hlt : ∀ i, i < d → q.symm i < d := by
    intro i hi
    by_contra hh
    have := hq (q.symm i) (by omega)
    rw [Equiv.apply_symm_apply] at this
    omega
  have hlt' : ∀ i, i < d → q i < d := by
    intro i hi
    by_contra hh
    have := q.injective (hq (q i) (by omega))
    omega
  rw [List.range_eq_range', outsideLoop_iff]
  constructor
  · intro h j hj
    have h1 := h (q.symm (j + 1)) (Nat.zero_le _) (by have := hlt _ hj; omega) (by rw [Equiv.apply_symm_apply]; omega)
    rw [Equiv.apply_symm_apply, Nat.add_sub_cancel] at h1
    by_cases hc : 0 ≤ q.symm j ∧ q.symm j < q.symm (j + 1)
    · exact Or.inr hc.2
    · rw [if_neg hc] at h1
      exact Or.inl (by omega)
  · intro h j _ hj hpos
    obtain ⟨m, hm⟩ : ∃ m, q j = m + 1 := ⟨q j - 1, by omega⟩
    have hmd : m + 1 < d := by rw [← hm]; exact hlt' j (by omega)
    rw [hm, Nat.add_sub_cancel]
    rcases h m hmd with h1 | h1
    · have : o (m + 1) + 1 ≤ o m := h1
      omega
    · rw [← hm, Equiv.symm_apply_apply] at h1
      rw [if_pos ⟨Nat.zero_le _, h1⟩]
      have := ho m hmd
      omega

theorem exists_lt_iff (q : Perm Nat) (i k : Nat) : (∃ s, s < i ∧ q s = k) ↔ q.symm k < i :=
  ⟨fun ⟨s, h1, h2⟩ => by rw [← h2, Equiv.symm_apply_apply]; exact h1, fun h => ⟨q.symm k, h, Equiv.apply_symm_apply q k⟩⟩

/-- all corners lie in the cone exactly when the criterion holds -/
theorem inside_iff (d : Nat) (q : Perm Nat) (hq : ∀ k, d ≤ k → q k = k) (o : Nat → Nat) :
    (∀ i, i ≤ d → Decreasing d (pathCorner o q i)) ↔ Decreasing d o ∧ InsideQ d o q := by
  have hlt : ∀ i, i < d → q.symm i < d := by
    intro i hi
    by_contra hh
    have := hq (q.symm i) (by omega)
    rw [Equiv.apply_symm_apply] at this
    omega
  simp only [Decreasing, pathCorner, exists_lt_iff]
  constructor
  · intro h
    refine ⟨fun j hj => by simpa using h 0 (Nat.zero_le d) j hj, fun j hj => ?_⟩
    have h1 := h (q.symm (j + 1) + 1) (hlt _ hj) j hj
    rw [if_pos (by omega)] at h1
    by_cases hc : q.symm j < q.symm (j + 1) + 1
    · have hne : q.symm j ≠ q.symm (j + 1) := fun h => by have := q.symm.injective h; omega
      exact Or.inr (by omega)
    · rw [if_neg hc] at h1
      exact Or.inl (by omega)
  · rintro ⟨ho, h⟩ i _ j hj
    have h1 := ho j hj
    rcases h j hj with h2 | h2
    · split <;> split <;> omega
    · split <;> split <;> omega

/-! ### the states of the element iterator, numbered -/

/-- origin and Kuhn index of the state with number `x` -/
def stO (d x : Nat) : Nat → Nat := (incLoop d)^[x / d.factorial] fun _ => 0
def stK (d x : Nat) : Nat := x % d.factorial

theorem stK_lt (d x : Nat) : stK d x < d.factorial := Nat.mod_lt _ (Nat.factorial_pos d)

theorem step_eq (d x n idx : Nat) : step d ⟨stO d x, stK d x, n, idx⟩ = ⟨stO d (x + 1), stK d (x + 1), n, idx⟩ := by
  have hpos := Nat.factorial_pos d
  have hx := Nat.div_add_mod x d.factorial
  have hlt := Nat.mod_lt x hpos
  rw [step]
  by_cases h : x % d.factorial + 1 = d.factorial
  · have e : x + 1 = (x / d.factorial + 1) * d.factorial := by
      rw [Nat.add_mul, Nat.one_mul, Nat.mul_comm]; omega
    refine (if_pos h).trans ?_
    have e1 : stK d (x + 1) = 0 := by rw [stK, e, Nat.mul_mod_left]
    have e2 : stO d (x + 1) = incLoop d (stO d x) := by
      rw [stO, e, Nat.mul_div_cancel _ hpos, Function.iterate_succ_apply']; rfl
    rw [e1, e2]
  · have e1 : (x + 1) / d.factorial = x / d.factorial :=
      Nat.div_eq_of_lt_le (by rw [Nat.mul_comm]; omega) (by rw [Nat.succ_mul, Nat.mul_comm]; omega)
    have e2 : (x + 1) % d.factorial = x % d.factorial + 1 := by
      have := Nat.div_add_mod (x + 1) d.factorial
      rw [e1] at this
      omega
    refine (if_neg h).trans ?_
    rw [stO, stK, stO, stK, e1, e2]

/-- the state with number `x` is inside the cone -/
def Good (d x : Nat) : Prop := outside d (stO d x) (stK d x) = some false

instance (d : Nat) : DecidablePred (Good d) := fun x => inferInstanceAs (Decidable (outside d (stO d x) (stK d x) = some false))

theorem stO_cone (d : Nat) (hd : 0 < d) (x : Nat) : Cone d (stO d x) ∧ pointIndex d (stO d x) = x / d.factorial :=
  iterate_cone d hd _

theorem good_iff (d : Nat) (hd : 0 < d) (x : Nat) : ∃ q : Perm Nat, (∀ k, d ≤ k → q k = k) ∧
    getPermutation d (stK d x) = some ⇑q ∧ (Good d x ↔ InsideQ d (stO d x) q) := by
  obtain ⟨q, h1, h2⟩ := getPermutation_perm d (stK d x) (stK_lt d x)
  refine ⟨q, h1, h2, ?_⟩
  rw [Good, outside, h2, Option.map_some, Option.some.injEq]
  exact outside_iff d q h1 _ (stO_cone d hd x).1.dec

theorem good_mul (d : Nat) (hd : 0 < d) (y : Nat) : Good d (y * d.factorial) := by
  obtain ⟨q, h1, h2, h3⟩ := good_iff d hd (y * d.factorial)
  rw [h3]
  rw [stK, Nat.mul_mod_left, C39_identity] at h2
  have hq : ∀ k, q k = k := fun k => (congrFun (Option.some.inj h2) k).symm
  have hs : ∀ k, q.symm k = k := fun k => by rw [Equiv.symm_apply_eq, hq]
  intro j _
  exact Or.inr (by rw [hs, hs]; omega)

theorem search_eq (d : Nat) (hd : 0 < d) (fuel x n idx : Nat) (h : ∃ y, x < y ∧ y ≤ x + fuel ∧ Good d y) :
    ∃ y, x < y ∧ Good d y ∧ (∀ z, x < z → z < y → ¬ Good d z) ∧
      search d fuel ⟨stO d x, stK d x, n, idx⟩ = some ⟨stO d y, stK d y, n, idx⟩ := by
  induction fuel generalizing x with
  | zero => obtain ⟨y, h1, h2, _⟩ := h; omega
  | succ fuel ih =>
    rw [search, step_eq]
    by_cases hg : Good d (x + 1)
    · refine ⟨x + 1, by omega, hg, fun z h1 h2 => by omega, ?_⟩
      have hg' := hg
      rw [Good] at hg'
      simp only [hg', Option.bind_some]
      rfl
    · obtain ⟨y, h1, h2, h3⟩ := h
      have hne : y ≠ x + 1 := fun h => hg (h ▸ h3)
      obtain ⟨y', h4, h5, h6, h7⟩ := ih (x + 1) ⟨y, by omega, by omega, h3⟩
      refine ⟨y', by omega, h5, fun z hz1 hz2 => ?_, ?_⟩
      · by_cases hz : z = x + 1
        · rw [hz]; exact hg
        · exact h6 z (by omega) hz2
      · have ho : outside d (stO d (x + 1)) (stK d (x + 1)) = some true := by
          obtain ⟨q, _, hq2, _⟩ := good_iff d hd (x + 1)
          rw [Good, outside, hq2, Option.map_some, Option.some.injEq, Bool.not_eq_false] at hg
          rw [outside, hq2, Option.map_some, hg]
        simp only [ho, Option.bind_some, if_true]
        exact h7

/-- a pass of the search suffices -/
theorem exists_good (d : Nat) (hd : 0 < d) (x : Nat) : ∃ y, x < y ∧ y ≤ x + d.factorial ∧ Good d y := by
  have hpos := Nat.factorial_pos d
  have hx := Nat.div_add_mod x d.factorial
  have hlt := Nat.mod_lt x hpos
  refine ⟨(x / d.factorial + 1) * d.factorial, ?_, ?_, good_mul d hd _⟩
  · rw [Nat.add_mul, Nat.one_mul, Nat.mul_comm]; omega
  · rw [Nat.add_mul, Nat.one_mul, Nat.mul_comm]; omega

theorem count_next (d x y : Nat) (hx : Good d x) (hxy : x < y) (h : ∀ z, x < z → z < y → ¬ Good d z) :
    Nat.count (Good d) y = Nat.count (Good d) x + 1 := by
  obtain ⟨k, rfl⟩ : ∃ k, y = x + 1 + k := ⟨y - (x + 1), by omega⟩
  clear hxy
  induction k with
  | zero => rw [Nat.add_zero, Nat.count_succ, if_pos hx]
  | succ k ih =>
    rw [← Nat.add_assoc, Nat.count_succ, if_neg (h _ (by omega) (by omega)), ih fun z h1 h2 => h z h1 (by omega)]

/-- number of a state, given origin and Kuhn index -/
theorem st_of (d : Nat) (hd : 0 < d) (o : Nat → Nat) (ho : Cone d o) (κ : Nat) (hκ : κ < d.factorial) :
    stO d (pointIndex d o * d.factorial + κ) = o ∧ stK d (pointIndex d o * d.factorial + κ) = κ := by
  have hpos := Nat.factorial_pos d
  constructor
  · rw [stO, Nat.add_comm, Nat.add_mul_div_right _ _ hpos, Nat.div_eq_of_lt hκ, Nat.zero_add, iterate_index d hd o ho]
  · rw [stK, Nat.add_comm, Nat.add_mul_mod_self_right, Nat.mod_eq_of_lt hκ]

theorem st_inj (d : Nat) (x y : Nat) (hd : 0 < d) (ho : stO d x = stO d y) (hk : stK d x = stK d y) : x = y := by
  have h1 := (stO_cone d hd x).2
  rw [ho, (stO_cone d hd y).2] at h1
  rw [← Nat.div_add_mod x d.factorial, ← Nat.div_add_mod y d.factorial, h1]
  congr 1

/-- the states of width at most `c` -/
theorem st_lt_iff (d : Nat) (hd : 0 < d) (c x : Nat) : x < nVertices d c * d.factorial ↔ stO d x 0 ≤ c := by
  rw [← pointIndex_lt_iff d hd _ (stO_cone d hd x).1, (stO_cone d hd x).2, Nat.div_lt_iff_lt_mul (Nat.factorial_pos d)]

theorem decreasing_le {d : Nat} {o : Nat → Nat} (h : Decreasing d o) {i j : Nat} (hij : i ≤ j) (hj : j < d) : o j ≤ o i := by
  induction j with
  | zero => rw [show i = 0 by omega]
  | succ j ih =>
    rcases Nat.lt_or_eq_of_le hij with h1 | h1
    · exact (h j hj).trans (ih (by omega) (by omega))
    · rw [h1]

theorem insideQ_chain {d : Nat} {o : Nat → Nat} {q : Perm Nat} (ho : Decreasing d o) (h : InsideQ d o q) {i j : Nat}
    (hij : i < j) (hj : j < d) (he : o i = o j) : q.symm i < q.symm j := by
  induction j with
  | zero => omega
  | succ j ih =>
    have h1 : o (j + 1) ≤ o j := ho j hj
    have h2 : o j ≤ o i := decreasing_le ho (by omega) (by omega)
    have h3 := (h j hj).resolve_left (by omega)
    rcases Nat.lt_or_eq_of_le (Nat.lt_succ_iff.1 hij) with h4 | h4
    · exact (ih h4 (by omega) (by omega)).trans h3
    · rw [h4]; exact h3

theorem σ_inv {d : Nat} (σ : Perm (Fin d)) (j : Fin d) : σ (σ⁻¹ j) = j := Equiv.apply_symm_apply σ j

theorem inv_σ {d : Nat} (σ : Perm (Fin d)) (j : Fin d) : σ⁻¹ (σ j) = j := Equiv.symm_apply_apply σ j

/-- the tuple of the origin coordinates, in the order of the permutation, determines the sub-simplex: the permutation is
the one that sorts the tuple -/
theorem sort_of_inside {d : Nat} {o : Nat → Nat} {q : Perm Nat} {σ : Perm (Fin d)} (hσ : ∀ i : Fin d, (σ i : Nat) = q i)
    (ho : Decreasing d o) (h : InsideQ d o q) (f : Fin d → Nat) (hf : ∀ i, f i = o (q i)) :
    σ⁻¹ = Tuple.sort (fun i => OrderDual.toDual (f i)) := by
  have hinv : ∀ j : Fin d, ((σ⁻¹ j : Fin d) : Nat) = q.symm j := by
    intro j
    rw [Equiv.eq_symm_apply, ← hσ, σ_inv σ]
  have hfo : ∀ j : Fin d, f (σ⁻¹ j) = o j := by
    intro j
    rw [hf, hinv, Equiv.apply_symm_apply]
  rw [Tuple.eq_sort_iff]
  constructor
  · intro i j hij
    change f (σ⁻¹ j) ≤ f (σ⁻¹ i)
    rw [hfo, hfo]
    exact decreasing_le ho hij j.2
  · intro i j hij he
    have he' : f (σ⁻¹ i) = f (σ⁻¹ j) := OrderDual.toDual.injective he
    rw [hfo, hfo] at he'
    rw [Fin.lt_def, hinv, hinv]
    exact insideQ_chain ho h hij j.2 he'

/-- the number of sub-simplices inside a simplex with `n` intervals -/
theorem count_good (d n : Nat) (hd : 0 < d) : Nat.count (Good d) (nVertices d n * d.factorial) = (n + 1) ^ d := by
  have hcard : (n + 1) ^ d = (univ : Finset (Fin d → Fin (n + 1))).card := by
    rw [card_univ, Fintype.card_fun, Fintype.card_fin, Fintype.card_fin]
  rw [Nat.count_eq_card_filter_range, hcard]
  choose q hq1 hq2 hq3 using good_iff d hd
  have hlt : ∀ x, x ∈ filter (Good d) (range (nVertices d n * d.factorial)) → ∀ i : Fin d, stO d x (q x i) < n + 1 := by
    intro x hx i
    have h1 := (st_lt_iff d hd n x).1 (mem_range.1 (mem_filter.1 hx).1)
    obtain ⟨σ, hσ⟩ := restrict d (q x) (hq1 x)
    have h2 : q x i < d := by rw [← hσ]; exact (σ i).2
    have := decreasing_le (stO_cone d hd x).1.dec (Nat.zero_le _) h2
    omega
  refine card_bij (fun x hx i => ⟨stO d x (q x i), hlt x hx i⟩) (fun _ _ => mem_univ _) ?_ ?_
  · intro x hx y hy hxy
    have hxy' : ∀ i : Fin d, stO d x (q x i) = stO d y (q y i) := fun i => congrArg Fin.val (congrFun hxy i)
    obtain ⟨σ, hσ⟩ := restrict d (q x) (hq1 x)
    obtain ⟨τ, hτ⟩ := restrict d (q y) (hq1 y)
    have e1 := sort_of_inside hσ (stO_cone d hd x).1.dec ((hq3 x).1 (mem_filter.1 hx).2) (fun i => stO d x (q x i)) fun _ => rfl
    have e2 := sort_of_inside hτ (stO_cone d hd y).1.dec ((hq3 y).1 (mem_filter.1 hy).2) (fun i => stO d x (q x i)) hxy'
    have e : σ = τ := inv_injective (e1.trans e2.symm)
    have hqq : ∀ i, i < d → q x i = q y i := fun i hi => by
      have h1 := hσ ⟨i, hi⟩
      have h2 := hτ ⟨i, hi⟩
      rw [e] at h1
      exact h1.symm.trans h2
    refine st_inj d x y hd ?_ (C39_injective d _ _ (stK_lt d x) (stK_lt d y) _ _ (hq2 x) (hq2 y) hqq)
    funext j
    by_cases hj : j < d
    · have h1 := hxy' (σ⁻¹ ⟨j, hj⟩)
      have h2 : q x (σ⁻¹ ⟨j, hj⟩ : Fin d) = j := by rw [← hσ, σ_inv σ]
      rwa [← hqq _ (Fin.is_lt _), h2] at h1
    · rw [(stO_cone d hd x).1.zero j (by omega), (stO_cone d hd y).1.zero j (by omega)]
  · intro f _
    let σ : Perm (Fin d) := Tuple.sort fun i => OrderDual.toDual (f i : Nat)
    obtain ⟨hmono, htie⟩ := Tuple.eq_sort_iff.1 (show σ = Tuple.sort fun i => OrderDual.toDual (f i : Nat) from rfl)
    let o : Nat → Nat := fun j => if h : j < d then f (σ ⟨j, h⟩) else 0
    have ho : Cone d o := by
      refine ⟨fun j hj => ?_, fun j hj => dif_neg (by omega)⟩
      have h1 : (f (σ ⟨j + 1, hj⟩) : Nat) ≤ f (σ ⟨j, by omega⟩) :=
        hmono (show (⟨j, by omega⟩ : Fin d) ≤ ⟨j + 1, hj⟩ from Nat.le_succ j)
      change (if h : j + 1 < d then _ else 0) ≤ (if h : j < d then _ else 0)
      rw [dif_pos hj, dif_pos (show j < d by omega)]
      exact h1
    obtain ⟨κ, hκ, p, hp1, hp2⟩ := exists_index d σ⁻¹
    obtain ⟨e1, e2⟩ := st_of d hd o ho κ hκ
    set x := pointIndex d o * d.factorial + κ with hx
    have hqx : ∀ i : Fin d, q x i = (σ⁻¹ i : Fin d) := by
      intro i
      have h1 := hq2 x
      rw [e2, hp1] at h1
      rw [← hp2 i, Option.some.inj h1]
    have hsymm : ∀ j (hj : j < d), (q x).symm j = σ ⟨j, hj⟩ := by
      intro j hj
      rw [Equiv.symm_apply_eq, hqx, inv_σ σ]
    have hgood : Good d x := by
      rw [hq3, e1]
      intro j hj
      by_cases he : o (j + 1) < o j
      · exact Or.inl he
      · right
        have h1 : o j = o (j + 1) := by have := ho.dec j hj; omega
        rw [hsymm j (by omega), hsymm (j + 1) hj]
        refine htie ⟨j, by omega⟩ ⟨j + 1, hj⟩ (Nat.lt_succ_self j) ?_
        change (if h : j < d then (f (σ ⟨j, h⟩) : Nat) else 0) = (if h : j + 1 < d then (f (σ ⟨j + 1, h⟩) : Nat) else 0) at h1
        rw [dif_pos hj, dif_pos (show j < d by omega)] at h1
        exact congrArg OrderDual.toDual h1
    have hwidth : x < nVertices d n * d.factorial := by
      rw [st_lt_iff d hd, e1]
      change (if h : 0 < d then (f (σ ⟨0, h⟩) : Nat) else 0) ≤ n
      rw [dif_pos hd]
      have := (f (σ ⟨0, hd⟩)).2
      omega
    refine ⟨x, mem_filter.2 ⟨mem_range.2 hwidth, hgood⟩, ?_⟩
    funext i
    apply Fin.ext
    change stO d x (q x i) = f i
    rw [e1, hqx]
    change (if h : ((σ⁻¹ i : Fin d) : Nat) < d then (f (σ ⟨_, h⟩) : Nat) else 0) = f i
    rw [dif_pos (Fin.is_lt _)]
    simp

end Verif.Refine
