import Verif.Refine.TriangModel
import Verif.Refine.HCubeModel
import Mathlib.Data.Nat.Choose.Basic

/-! Property C46: numbers of intervals and counts. -/

namespace Verif.Refine

/-- C46: `refinementLevels(l)` is `refinementIntervals(2^l)`, as long as `2^l` is a 32 bit `int` -/
theorem C46_levels (l : Nat) (h : l < 31) : refinementLevels l = some (refinementIntervals (2 ^ l)) := by
  rw [refinementLevels, if_pos h, refinementIntervals, Nat.one_shiftLeft]

/-- C46: larger levels leave the range of `int` -/
theorem C46_levels_range (l : Nat) : (refinementLevels l).isSome ↔ 2 ^ l < 2 ^ 31 := by
  rw [refinementLevels, Nat.pow_lt_pow_iff_right (by omega)]
  split
  · simp_all
  · simp_all

theorem choose_mono (d n m : Nat) (h : n ≤ m) : nVertices d n ≤ nVertices d m := Nat.choose_le_choose d (by omega)

/-- C46: all counts are monotone in the number of intervals -/
theorem C46_monotone {K : Type} [Field K] (d n m : Nat) (s : Triang.Scheme K) (h : n ≤ m) :
    nVertices d n ≤ nVertices d m ∧ nElements d n ≤ nElements d m ∧
    HCube.nVertices d n ≤ HCube.nVertices d m ∧ HCube.nElements d n ≤ HCube.nElements d m ∧
    Triang.nVertices s n ≤ Triang.nVertices s m ∧ Triang.nElements s n ≤ Triang.nElements s m :=
  ⟨choose_mono d n m h, Nat.pow_le_pow_left h d, Nat.pow_le_pow_left (by omega) d, Nat.pow_le_pow_left h d,
    Nat.mul_le_mul_right _ (choose_mono _ n m h), Nat.mul_le_mul_right _ (Nat.pow_le_pow_left h _)⟩

/-- C46: and strictly monotone in positive dimension -/
theorem C46_strict {K : Type} [Field K] (d n m : Nat) (hd : 0 < d) (s : Triang.Scheme K) (hs : 0 < s.dimension)
    (hk : 0 < s.nKuhnSimplices) (h : n < m) :
    nVertices d n < nVertices d m ∧ nElements d n < nElements d m ∧
    HCube.nVertices d n < HCube.nVertices d m ∧ HCube.nElements d n < HCube.nElements d m ∧
    Triang.nVertices s n < Triang.nVertices s m ∧ Triang.nElements s n < Triang.nElements s m := by
  have key : ∀ d, 0 < d → nVertices d n < nVertices d m := by
    intro d hd
    refine lt_of_lt_of_le ?_ (choose_mono d (n + 1) m h)
    obtain ⟨e, rfl⟩ : ∃ e, d = e + 1 := ⟨d - 1, by omega⟩
    rw [nVertices, nVertices, ← Nat.add_assoc, Nat.choose_succ_succ']
    have : 0 < (e + 1 + n).choose e := Nat.choose_pos (by omega)
    omega
  exact ⟨key d hd, Nat.pow_lt_pow_left h (by omega), Nat.pow_lt_pow_left (by omega) (by omega), Nat.pow_lt_pow_left h (by omega),
    Nat.mul_lt_mul_of_pos_right (key _ hs) hk, Nat.mul_lt_mul_of_pos_right (Nat.pow_lt_pow_left h (by omega)) hk⟩

/-- C46: refining by `l` levels gives `2^(l d)` elements (simplex and cube): one level multiplies the count by `2^d`, and the count
is an `int` only while `l d < 31` -/
theorem C46_count (d l : Nat) (r : RefinementIntervals) (h : refinementLevels l = some r) :
    nElements d r.intervals = 2 ^ (l * d) ∧ HCube.nElements d r.intervals = 2 ^ (l * d) ∧
      (nElements d r.intervals < 2 ^ 31 ↔ l * d < 31) := by
  have h1 : r.intervals = 2 ^ l := by
    rw [refinementLevels] at h
    split at h
    · obtain rfl := Option.some.inj h
      exact Nat.one_shiftLeft l
    · simp at h
  rw [nElements, HCube.nElements, h1, ← Nat.pow_mul, Nat.pow_lt_pow_iff_right (by omega)]
  exact ⟨rfl, rfl, Iff.rfl⟩

example : refinementLevels 3 = some (refinementIntervals 8) := C46_levels 3 (by omega)
example : nElements 3 8 = 512 ∧ nVertices 3 2 = 10 := by decide

end Verif.Refine
