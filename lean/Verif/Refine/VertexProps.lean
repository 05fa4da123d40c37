import Verif.Refine.VertexLemmas
import Mathlib.Algebra.Field.Rat
import Mathlib.Algebra.CharZero.Defs
import Mathlib.Tactic.FieldSimp
import Mathlib.Tactic.NormNum

/-! Property C40: the vertices of the refined simplex. -/

namespace Verif.Refine

open Finset

/-! ### specification -/

/-- the iterator after `k` increments, starting with `vBegin` -/
def vAt (d n : Nat) : Nat → Option VertexIterator
  | 0 => some (vBegin n)
  | k + 1 => (vAt d n k).bind (VertexIterator.increment d)

/-- `q / n` is a lattice point of the reference simplex -/
def Lattice (d n : Nat) (q : Nat → Nat) : Prop := ∑ i ∈ range d, q i ≤ n

/-! ### C40 -/

theorem vAt_eq (d n : Nat) (hd : 0 < d) (k : Nat) (hk : k ≤ nVertices d n) :
    vAt d n k = some ⟨n, (incLoop d)^[k] fun _ => 0⟩ := by
  induction k with
  | zero => rfl
  | succ k ih =>
    rw [vAt, ih (by omega), Option.bind_some, VertexIterator.increment, Function.iterate_succ_apply']
    have h := iterate_cone d hd k
    exact if_pos ((pointIndex_lt_iff d hd _ h.1 n).1 (by rw [h.2]; omega))

/-- C40: `index()` counts 0, 1, 2, … and all increments up to `nVertices()` are defined -/
theorem C40_index (d n : Nat) (hd : 0 < d) (k : Nat) (hk : k ≤ nVertices d n) :
    ∃ it, vAt d n k = some it ∧ it.index d = k :=
  ⟨_, vAt_eq d n hd k hk, (iterate_cone d hd k).2⟩

/-- C40: the loop from `vBegin` to `vEnd` makes exactly `nVertices()` passes -/
theorem C40_end (d n : Nat) (hd : 0 < d) (k : Nat) (hk : k ≤ nVertices d n) (it : VertexIterator)
    (h : vAt d n k = some it) : it.equals d (vEnd n) ↔ k = nVertices d n := by
  rw [vAt_eq d n hd k hk] at h
  obtain rfl := Option.some.inj h
  have hc := iterate_cone d hd k
  constructor
  · rintro ⟨_, h2⟩
    rw [← hc.2, ← pointIndex_first d hd n, pointIndex_eq, pointIndex_eq]
    exact tailIndex_congr fun j _ hj => h2 j (by omega)
  · intro hk
    refine ⟨rfl, fun i _ => ?_⟩
    refine congrFun (pointIndex_inj d hc.1 (w := (vEnd n).vertex) ⟨fun j hj => ?_, fun j hj => if_neg (by omega)⟩ ?_) i
    · change (if j + 1 = 0 then n + 1 else 0) ≤ _
      rw [if_neg (Nat.succ_ne_zero j)]
      omega
    · rw [hc.2, hk]
      exact (pointIndex_first d hd n).symm

variable {K : Type} [Field K]

theorem coords_eq (d : Nat) (it : VertexIterator) (h : Decreasing d it.vertex) :
    it.coords (K := K) d = some fun i => ((if i + 1 < d then it.vertex i - it.vertex (i + 1) else it.vertex i : Nat) : K) / it.size := by
  rw [VertexIterator.coords, C39_identity, Option.map_some, kuhnToReference_id]
  congr 1
  funext i
  congr 1
  by_cases hi : i + 1 < d
  · simp only [if_pos hi]
    rw [Nat.cast_sub (h i hi)]
    push_cast
    rfl
  · simp only [if_neg hi]
    push_cast
    rfl

theorem sum_diff (d : Nat) (hd : 0 < d) (v : Nat → Nat) (h : Decreasing d v) :
    ∑ i ∈ range d, (if i + 1 < d then v i - v (i + 1) else v i) = v 0 := by
  suffices ∀ k, k < d → ∑ i ∈ range k, (v i - v (i + 1)) + v k = v 0 by
    obtain ⟨k, rfl⟩ : ∃ k, d = k + 1 := ⟨d - 1, by omega⟩
    rw [sum_range_succ, if_neg (by omega), ← this k (by omega)]
    congr 1
    exact sum_congr rfl fun i hi => if_pos (by have := mem_range.1 hi; omega)
  intro k
  induction k with
  | zero => simp
  | succ k ih =>
    intro hk
    rw [sum_range_succ, ← ih (by omega)]
    have := h k hk
    omega

/-- C40: every vertex visited is a lattice point of the reference simplex -/
theorem C40_inside (d n : Nat) (hd : 0 < d) (k : Nat) (hk : k < nVertices d n) :
    ∃ it x q, vAt d n k = some it ∧ it.coords (K := K) d = some x ∧ Lattice d n q ∧ ∀ i, i < d → x i = q i / n := by
  have hc := iterate_cone d hd k
  refine ⟨_, _, _, vAt_eq d n hd k hk.le, coords_eq d _ hc.1.dec, ?_, fun i _ => rfl⟩
  rw [Lattice, sum_diff d hd _ hc.1.dec]
  exact (pointIndex_lt_iff d hd _ hc.1 n).1 (by rw [hc.2]; exact hk)

/-- C40: every lattice point of the reference simplex is visited exactly once -/
theorem C40_lattice [CharZero K] (d n : Nat) (hd : 0 < d) (hn : 0 < n) (q : Nat → Nat) (hq : Lattice d n q) :
    ∃! k, k < nVertices d n ∧ ∃ it x, vAt d n k = some it ∧ it.coords (K := K) d = some x ∧ ∀ i, i < d → x i = q i / n := by
  have hn' : (n : K) ≠ 0 := Nat.cast_ne_zero.2 (by omega)
  -- the vertex with these differences
  let v : Nat → Nat := fun i => ∑ j ∈ Ico i d, q j
  have hstep : ∀ i, i < d → v i = q i + v (i + 1) := fun i hi => sum_eq_sum_Ico_succ_bot hi q
  have hv : Cone d v := ⟨fun i hi => by rw [hstep i (by omega)]; exact Nat.le_add_left _ _, fun j hj => by simp [v, hj]⟩
  have hvq : ∀ i, i < d → (if i + 1 < d then v i - v (i + 1) else v i) = q i := by
    intro i hi
    rw [hstep i hi]
    by_cases h : i + 1 < d
    · rw [if_pos h, Nat.add_sub_cancel]
    · rw [if_neg h, hv.zero (i + 1) (by omega), Nat.add_zero]
  have hlt : pointIndex d v < nVertices d n := by
    rw [pointIndex_lt_iff d hd v hv n]
    have : v 0 = ∑ i ∈ range d, q i := by simp [v]
    rw [this]; exact hq
  refine ⟨pointIndex d v, ⟨hlt, _, _, vAt_eq d n hd _ hlt.le, coords_eq d _ (iterate_cone d hd _).1.dec, fun i hi => ?_⟩, ?_⟩
  · rw [iterate_index d hd v hv]
    simp only [hvq i hi]
  · rintro k ⟨hk, it, x, h1, h2, h3⟩
    rw [vAt_eq d n hd k hk.le] at h1
    obtain rfl := Option.some.inj h1
    have hc := iterate_cone d hd k
    rw [coords_eq d _ hc.1.dec] at h2
    obtain rfl := Option.some.inj h2
    suffices (incLoop d)^[k] (fun _ => 0) = v by rw [← this, hc.2]
    generalize hw : (incLoop d)^[k] (fun _ => 0) = w at hc h3 ⊢
    have h4 : ∀ i, i < d → (if i + 1 < d then w i - w (i + 1) else w i) = q i := by
      intro i hi
      have h5 := h3 i hi
      simp only at h5
      have := (div_left_inj' hn').1 h5
      exact_mod_cast this
    -- from the last entry down
    have h6 : ∀ j, j ≤ d → w (d - j) = v (d - j) := by
      intro j
      induction j with
      | zero => intro _; rw [hc.1.zero _ (by omega), hv.zero _ (by omega)]
      | succ j ih =>
        intro hj
        have h7 := h4 (d - (j + 1)) (by omega)
        have h8 := ih (by omega)
        rw [hstep _ (by omega), show d - (j + 1) + 1 = d - j by omega, ← h8]
        rw [show d - (j + 1) + 1 = d - j by omega] at h7
        by_cases hlast : d - j < d
        · rw [if_pos hlast] at h7
          have := hc.1.dec (d - (j + 1)) (by omega)
          rw [show d - (j + 1) + 1 = d - j by omega] at this
          omega
        · rw [if_neg hlast] at h7
          rw [hc.1.zero (d - j) (by omega)]
          omega
    funext i
    by_cases hi : i < d
    · have := h6 (d - i) (by omega)
      rwa [show d - (d - i) = i by omega] at this
    · rw [hc.1.zero i (by omega), hv.zero i (by omega)]

/-- the six vertices of a triangle with two intervals, in order -/
example : (List.range 6).map (fun k => ((vAt 2 2 k).bind (VertexIterator.coords (K := ℚ) 2)).map fun x => [x 0, x 1]) =
    [some [0, 0], some [1/2, 0], some [0, 1/2], some [1, 0], some [1/2, 1/2], some [0, 1]] := by decide +kernel

/-- the point (1/2, 1/2) is visited -/
example : ∃! k, k < 6 ∧ ∃ it x, vAt 2 2 k = some it ∧ it.coords (K := ℚ) 2 = some x ∧ ∀ i, i < 2 → x i = (1 : Nat) / (2 : Nat) :=
  C40_lattice 2 2 (by decide) (by decide) (fun _ => 1) (by unfold Lattice; decide)

end Verif.Refine
