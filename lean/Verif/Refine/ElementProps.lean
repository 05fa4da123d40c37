import Verif.Refine.ElementLemmas
import Mathlib.Tactic.FinCases

/-! Property C41: the elements of the refined simplex. -/

namespace Verif.Refine

open Equiv (Perm)

/-! ### specification

A Kuhn sub-simplex is given by the lattice point `o` it starts from and the order `p` of its directions; its corners are
`o`, `o + e_(p 0)`, `o + e_(p 0) + e_(p 1)`, … (`pathCorner`).  The refined simplex in Kuhn coordinates is
`n ≥ x_0 ≥ x_1 ≥ … ≥ 0`. -/

/-- all corners of the Kuhn simplex `(o, p)` lie in the refined simplex -/
def SubSimplex (d n : Nat) (o p : Nat → Nat) : Prop :=
  ∀ i, i ≤ d → (∀ j, j + 1 < d → pathCorner o p i (j + 1) ≤ pathCorner o p i j) ∧ pathCorner o p i 0 ≤ n

/-- the iterator after `k` increments, starting with `eBegin` -/
def eAt (d n : Nat) : Nat → Option ElementIterator
  | 0 => some (eBegin n)
  | k + 1 => (eAt d n k).bind (ElementIterator.increment d)

/-! ### C41 -/

theorem eAt_eq (d n : Nat) (hd : 0 < d) (k : Nat) (hk : k ≤ nElements d n) :
    ∃ x, Good d x ∧ Nat.count (Good d) x = k ∧ eAt d n k = some ⟨stO d x, stK d x, n, k⟩ := by
  induction k with
  | zero =>
    refine ⟨0, by simpa using good_mul d hd 0, Nat.count_zero _, ?_⟩
    rw [eAt, eBegin, stO, stK, Nat.zero_div, Nat.zero_mod]
    rfl
  | succ k ih =>
    obtain ⟨x, h1, h2, h3⟩ := ih (by omega)
    obtain ⟨y, h4, h5, h6, h7⟩ := search_eq d hd d.factorial x n (k + 1) (exists_good d hd x)
    refine ⟨y, h5, by rw [count_next d x y h1 h4 h6, h2], ?_⟩
    rw [eAt, h3, Option.bind_some, ElementIterator.increment]
    obtain ⟨n, rfl⟩ : ∃ m, n = m + 1 := by
      refine ⟨n - 1, ?_⟩
      rcases Nat.eq_zero_or_pos n with h | h
      · rw [h, nElements, zero_pow (by omega)] at hk; omega
      · omega
    have hlt : stO d x 0 < n + 1 := by
      rw [Nat.lt_succ_iff, ← st_lt_iff d hd]
      by_contra hge
      have := Nat.count_monotone (Good d) (not_lt.1 hge)
      rw [count_good d n hd, h2] at this
      rw [nElements] at hk
      omega
    exact (if_pos hlt).trans h7

/-- C41: `index()` counts 0, 1, 2, … and all increments up to `nElements()` are defined -/
theorem C41_index (d n : Nat) (hd : 0 < d) (k : Nat) (hk : k ≤ nElements d n) :
    ∃ it, eAt d n k = some it ∧ it.index = k ∧ it.size = n := by
  obtain ⟨x, _, _, h3⟩ := eAt_eq d n hd k hk
  exact ⟨_, h3, rfl, rfl⟩

/-- C41: the loop from `eBegin` to `eEnd` makes exactly `nElements()` passes -/
theorem C41_end (d n : Nat) (hd : 0 < d) (k : Nat) (hk : k ≤ nElements d n) (it : ElementIterator)
    (h : eAt d n k = some it) : it.equals (eEnd d n) ↔ k = nElements d n := by
  obtain ⟨x, _, _, h3⟩ := eAt_eq d n hd k hk
  rw [h3] at h
  obtain rfl := Option.some.inj h
  exact ⟨fun h => h.2, fun h => ⟨rfl, h⟩⟩

/-- C41: after the last increment the iterator is in the state `eEnd` constructs -/
theorem C41_end_state (d n : Nat) (hd : 0 < d) (hn : 0 < n) : eAt d n (nElements d n) = some (eEnd d n) := by
  obtain ⟨x, h1, h2, h3⟩ := eAt_eq d n hd _ le_rfl
  obtain ⟨n, rfl⟩ : ∃ m, n = m + 1 := ⟨n - 1, by omega⟩
  have hx : x = nVertices d n * d.factorial :=
    Nat.count_injective h1 (good_mul d hd _) (by rw [h2, count_good d n hd]; rfl)
  rw [h3, eEnd]
  have hpos := Nat.factorial_pos d
  have e1 : stK d x = 0 := by rw [stK, hx, Nat.mul_mod_left]
  have e2 : stO d x = fun i => if i = 0 then n + 1 else 0 := by
    refine pointIndex_inj d (stO_cone d hd x).1 ⟨fun j hj => ?_, fun j hj => if_neg (by omega)⟩ ?_
    · simp
    · rw [(stO_cone d hd x).2, hx, Nat.mul_div_cancel _ hpos, pointIndex_first d hd]
  rw [e1, e2]

theorem pathCorner_last (d : Nat) (hd : 0 < d) (q : Perm Nat) (hq : ∀ k, d ≤ k → q k = k) (o : Nat → Nat) (n : Nat) :
    (∀ i, i ≤ d → pathCorner o q i 0 ≤ n) ↔ o 0 < n := by
  have hlt : q.symm 0 < d := by
    by_contra hh
    have := hq (q.symm 0) (by omega)
    rw [Equiv.apply_symm_apply] at this
    omega
  simp only [pathCorner, exists_lt_iff]
  constructor
  · intro h
    have := h d le_rfl
    rw [if_pos hlt] at this
    omega
  · intro h i _
    split <;> omega

theorem subSimplex_iff (d n : Nat) (hd : 0 < d) (q : Perm Nat) (hq : ∀ k, d ≤ k → q k = k) (o : Nat → Nat) :
    SubSimplex d n o q ↔ Decreasing d o ∧ InsideQ d o q ∧ o 0 < n := by
  have h1 := inside_iff d q hq o
  have h2 := pathCorner_last d hd q hq o n
  constructor
  · intro h
    obtain ⟨h3, h4⟩ := h1.1 fun i hi => (h i hi).1
    exact ⟨h3, h4, h2.1 fun i hi => (h i hi).2⟩
  · rintro ⟨h3, h4, h5⟩ i hi
    exact ⟨h1.2 ⟨h3, h4⟩ i hi, h2.2 h5 i hi⟩

/-- C41: every element visited is a Kuhn sub-simplex of the refined simplex -/
theorem C41_inside (d n : Nat) (hd : 0 < d) (k : Nat) (hk : k < nElements d n) :
    ∃ it p, eAt d n k = some it ∧ getPermutation d it.kuhnIndex = some p ∧ SubSimplex d n it.origin p := by
  obtain ⟨x, h1, h2, h3⟩ := eAt_eq d n hd k hk.le
  obtain ⟨q, hq1, hq2, hq3⟩ := good_iff d hd x
  refine ⟨_, _, h3, hq2, (subSimplex_iff d n hd q hq1 _).2 ⟨(stO_cone d hd x).1.dec, hq3.1 h1, ?_⟩⟩
  obtain ⟨n, rfl⟩ : ∃ m, n = m + 1 := by
    refine ⟨n - 1, ?_⟩
    rcases Nat.eq_zero_or_pos n with h | h
    · rw [h, nElements, zero_pow (by omega)] at hk; omega
    · omega
  change stO d x 0 < n + 1
  rw [Nat.lt_succ_iff, ← st_lt_iff d hd]
  by_contra hge
  have := Nat.count_monotone (Good d) (not_lt.1 hge)
  rw [count_good d n hd, h2] at this
  rw [nElements] at hk
  omega

theorem pathCorner_congr {d : Nat} {o o' p p' : Nat → Nat} (ho : ∀ i, i < d → o i = o' i) (hp : ∀ i, i < d → p i = p' i) {i k : Nat}
    (hi : i ≤ d) (hk : k < d) : pathCorner o p i k = pathCorner o' p' i k := by
  rw [pathCorner, pathCorner, ho k hk]
  have : (∃ s, s < i ∧ p s = k) ↔ (∃ s, s < i ∧ p' s = k) :=
    exists_congr fun s => and_congr_right fun hs => by rw [hp s (by omega)]
  simp only [this]

/-- C41: every Kuhn sub-simplex of the refined simplex is visited exactly once -/
theorem C41_once (d n : Nat) (hd : 0 < d) (o p : Nat → Nat) (σ : Perm (Fin d)) (hp : ∀ i : Fin d, p i = σ i)
    (h : SubSimplex d n o p) : ∃! k, k < nElements d n ∧ ∃ it p', eAt d n k = some it ∧
      getPermutation d it.kuhnIndex = some p' ∧ (∀ i, i < d → it.origin i = o i) ∧ ∀ i, i < d → p' i = p i := by
  obtain ⟨q, hq1, hq2⟩ := extend d σ
  obtain ⟨κ, hκ, p0, hp1, hp2⟩ := exists_index d σ
  have hpq : ∀ i, i < d → p i = q i := fun i hi => (hp ⟨i, hi⟩).trans (hq2 ⟨i, hi⟩).symm
  have hp0 : ∀ i, i < d → p0 i = p i := fun i hi => (hp2 ⟨i, hi⟩).trans (hp ⟨i, hi⟩).symm
  let o' : Nat → Nat := fun i => if i < d then o i else 0
  have ho : ∀ i, i < d → o i = o' i := fun i hi => (if_pos hi).symm
  have h' : SubSimplex d n o' q := by
    intro i hi
    obtain ⟨h1, h2⟩ := h i hi
    refine ⟨fun j hj => ?_, ?_⟩
    · rw [← pathCorner_congr ho hpq hi hj, ← pathCorner_congr ho hpq hi (show j < d by omega)]
      exact h1 j hj
    · rw [← pathCorner_congr ho hpq hi hd]; exact h2
  obtain ⟨h1, h2, h3⟩ := (subSimplex_iff d n hd q hq1 o').1 h'
  have hc : Cone d o' := ⟨h1, fun j hj => if_neg (by omega)⟩
  obtain ⟨e1, e2⟩ := st_of d hd o' hc κ hκ
  set x := pointIndex d o' * d.factorial + κ
  obtain ⟨q', hq1', hq2', hq3'⟩ := good_iff d hd x
  have hqq : ∀ i, i < d → q' i = q i := by
    intro i hi
    rw [e2, hp1] at hq2'
    rw [← Option.some.inj hq2', hp0 i hi, hpq i hi]
  have hqe : q' = q := Equiv.ext fun i => by
    by_cases hi : i < d
    · exact hqq i hi
    · rw [hq1 i (by omega), hq1' i (by omega)]
  have hgood : Good d x := by rw [hq3', e1, hqe]; exact h2
  obtain ⟨n, rfl⟩ : ∃ m, n = m + 1 := ⟨n - 1, by omega⟩
  have hlt : x < nVertices d n * d.factorial := by rw [st_lt_iff d hd, e1]; omega
  have hk : Nat.count (Good d) x < nElements d (n + 1) := by
    rw [nElements, ← count_good d n hd]
    exact Nat.count_strict_mono hgood hlt
  refine ⟨Nat.count (Good d) x, ⟨hk, ?_⟩, ?_⟩
  · obtain ⟨y, hy1, hy2, hy3⟩ := eAt_eq d (n + 1) hd _ hk.le
    have hyx : y = x := Nat.count_injective hy1 hgood hy2
    refine ⟨_, p0, hy3, by rw [hyx, e2]; exact hp1, fun i hi => ?_, hp0⟩
    change stO d y i = o i
    rw [hyx, e1, ho i hi]
  · rintro k ⟨hk', it, p', h4, h5, h6, h7⟩
    obtain ⟨y, hy1, hy2, hy3⟩ := eAt_eq d (n + 1) hd k hk'.le
    rw [hy3] at h4
    obtain rfl := Option.some.inj h4
    rw [← hy2]
    congr 1
    refine st_inj d y x hd ?_ ?_
    · rw [e1]
      funext i
      by_cases hi : i < d
      · rw [← ho i hi]; exact h6 i hi
      · rw [(stO_cone d hd y).1.zero i (by omega), hc.zero i (by omega)]
    · rw [e2]
      exact C39_injective d _ _ (stK_lt d y) hκ _ _ h5 hp1 fun i hi => (h7 i hi).trans (hp0 i hi).symm

/-- C41: the search in `increment` needs no more than `dimension!` passes: allowing more changes nothing -/
theorem C41_increment (d n : Nat) (hd : 0 < d) (k : Nat) (hk : k < nElements d n) (fuel : Nat) (hf : d.factorial ≤ fuel)
    (it : ElementIterator) (h : eAt d n k = some it) :
    it.increment d = search d fuel { it with index_ := it.index_ + 1 } ∧ (it.increment d).isSome := by
  obtain ⟨it', h1, _⟩ := C41_index d n hd (k + 1) hk
  rw [eAt, h, Option.bind_some] at h1
  refine ⟨?_, by rw [h1]; rfl⟩
  have h2 := h1
  rw [ElementIterator.increment] at h1
  split at h1
  · rename_i hlt
    rw [h2]
    suffices ∀ (fuel' extra : Nat) (it it' : ElementIterator), search d fuel' it = some it' → search d (fuel' + extra) it = some it' by
      have := this _ (fuel - d.factorial) _ _ h1
      rw [Nat.add_sub_cancel' hf] at this
      exact this.symm
    intro fuel'
    induction fuel' with
    | zero => intro extra it it' h; simp [search] at h
    | succ fuel' ih =>
      intro extra it it' h
      rw [show fuel' + 1 + extra = fuel' + extra + 1 by omega, search]
      rw [search] at h
      rcases ho : outside d (step d it).origin (step d it).kuhnIndex with _ | b
      · rw [ho] at h; simp at h
      · rw [ho] at h
        simp only [Option.bind_some] at h ⊢
        cases b
        · exact h
        · exact ih extra _ _ h
  · simp at h1

/-- the four elements of a triangle with two intervals: origin and Kuhn index -/
example : (List.range 5).map (fun k => (eAt 2 2 k).map fun it => (it.origin 0, it.origin 1, it.kuhnIndex, it.index_)) =
    [some (0, 0, 0, 0), some (1, 0, 0, 1), some (1, 0, 1, 2), some (1, 1, 0, 3), some (2, 0, 0, 4)] := by decide +kernel

example : SubSimplex 2 2 (fun i => if i = 0 then 1 else 0) (fun i => 1 - i) := by
  intro i hi
  obtain rfl | rfl | rfl : i = 0 ∨ i = 1 ∨ i = 2 := by omega
  · refine ⟨fun j hj => ?_, ?_⟩
    · obtain rfl : j = 0 := by omega
      simp [pathCorner]
    · simp [pathCorner]
  · refine ⟨fun j hj => ?_, ?_⟩
    · obtain rfl : j = 0 := by omega
      simp [pathCorner]
    · simp [pathCorner]
  · refine ⟨fun j hj => ?_, ?_⟩
    · obtain rfl : j = 0 := by omega
      have h1 : ∃ s, s < 2 ∧ 1 - s = 0 := ⟨1, by omega, rfl⟩
      have h2 : ∃ s, s < 2 ∧ 1 - s = 0 + 1 := ⟨0, by omega, rfl⟩
      rw [pathCorner, pathCorner, if_pos h1, if_pos h2]
      simp
    · have h1 : ∃ s, s < 2 ∧ 1 - s = 0 := ⟨1, by omega, rfl⟩
      rw [pathCorner, if_pos h1]
      simp

end Verif.Refine
