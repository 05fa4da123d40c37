import Verif.Refine.ShapeLemmas

/-! Property C95: refinement does not degenerate.  The elements of a refinement with `n` intervals are, up to translation and
the factor `1 / n`, finitely many simplices that do not depend on `n`; their edges are as long as the mesh width `1 / n`, up to
constants. -/

namespace Verif.Refine

open Function Finset
open Equiv (Perm)

variable {K : Type} [Field K] [LinearOrder K] [IsStrictOrderedRing K]

/-! ### specification -/

/-- squared length of the edge between the corners `i` and `j` -/
def len2 (d : Nat) (c : Nat → Nat → K) (i j : Nat) : K := ∑ l ∈ range d, (c i l - c j l) ^ 2

/-- the simplices with corners `c` and `c'` are similar: after renumbering, the edges are proportional -/
def Similar (d : Nat) (c c' : Nat → Nat → K) : Prop :=
  ∃ r : K, 0 < r ∧ ∃ f : Perm (Fin (d + 1)), ∀ i j : Fin (d + 1), len2 d c i j = r * len2 d c' (f i) (f j)

/-- `c` are the corners of `geometry()` of element number `k` of the simplex refined with `n` intervals -/
def ElementCorners (d n k : Nat) (c : Nat → Nat → K) : Prop :=
  k < nElements d n ∧ ∃ it corners, eAt d n k = some it ∧ it.geometry d = some corners ∧ ∀ i, i ≤ d → corners[i]? = some (c i)

/-! ### from the entries of the edges to their lengths -/

theorem len2_bounds {d n : Nat} (hn : 0 < n) {c : Nat → Nat → K} {i j B : Nat} (h1 : ∀ l, l < d → ∃ m : ℤ, |m| ≤ B ∧ c i l - c j l = m / n)
    (h2 : ∃ l, l < d ∧ c i l ≠ c j l) : 1 / (n : K) ^ 2 ≤ len2 d c i j ∧ len2 d c i j ≤ (d * B ^ 2 : Nat) / (n : K) ^ 2 := by
  have hn0 : (0 : K) < n := Nat.cast_pos.2 hn
  have hn2 : (0 : K) < (n : K) ^ 2 := by positivity
  constructor
  · obtain ⟨l, hl, hne⟩ := h2
    obtain ⟨m, -, e⟩ := h1 l hl
    have hm : m ≠ 0 := by
      rintro rfl
      rw [Int.cast_zero, zero_div, sub_eq_zero] at e
      exact hne e
    have hm1 : 1 ≤ m ^ 2 := by
      have := Int.one_le_abs hm
      nlinarith [abs_mul_abs_self m, abs_nonneg m]
    have hm2 : (1 : K) ≤ (m : K) ^ 2 := by exact_mod_cast hm1
    calc 1 / (n : K) ^ 2 ≤ (m : K) ^ 2 / (n : K) ^ 2 := by gcongr
      _ = (c i l - c j l) ^ 2 := by rw [e, div_pow]
      _ ≤ len2 d c i j := single_le_sum (f := fun l => (c i l - c j l) ^ 2) (fun l _ => sq_nonneg _) (mem_range.2 hl)
  · have : ∀ l ∈ range d, (c i l - c j l) ^ 2 ≤ (B : K) ^ 2 / (n : K) ^ 2 := fun l hl => by
      obtain ⟨m, hm, e⟩ := h1 l (mem_range.1 hl)
      have hm1 : m ^ 2 ≤ (B : ℤ) ^ 2 := sq_le_sq' (by linarith [neg_abs_le m]) (le_trans (le_abs_self m) hm)
      have hm2 : (m : K) ^ 2 ≤ (B : K) ^ 2 := by exact_mod_cast hm1
      rw [e, div_pow]
      gcongr
    calc len2 d c i j ≤ ∑ _l ∈ range d, (B : K) ^ 2 / (n : K) ^ 2 := sum_le_sum this
      _ = (d * B ^ 2 : Nat) / (n : K) ^ 2 := by
        rw [sum_const, card_range, nsmul_eq_mul]
        push_cast
        ring

theorem element_pos {d n k : Nat} (hd : 0 < d) (hk : k < nElements d n) : 0 < n := Nat.pos_of_ne_zero fun h => by
  rw [nElements, h, zero_pow (by omega)] at hk
  omega

/-! ### the simplex -/

theorem simplex_edge {d n k : Nat} (hd : 0 < d) {c : Nat → Nat → K} (h : ElementCorners d n k c) {i j : Nat} (hi : i ≤ d) (hj : j ≤ d) :
    ∃ q : Perm Nat, ∃ a b, (∀ m, d ≤ m → q m = m) ∧ a ≤ d ∧ b ≤ d ∧ pathOrder q a = i ∧ pathOrder q b = j ∧
      ∀ l, l < d → c i l - c j l = (diff d (pathEdge q a b) l : ℤ) / n := by
  obtain ⟨hk, it, corners, h1, h2, h3⟩ := h
  obtain ⟨q, -, -, P⟩ := pieceS d n k hd hk it h1 corners h2 c h3
  obtain ⟨a, ha, rfl⟩ := pathOrder_surj P.hq hi
  obtain ⟨b, hb, rfl⟩ := pathOrder_surj P.hq hj
  refine ⟨q, a, b, P.hq, ha, hb, rfl, rfl, fun l hl => ?_⟩
  rw [P.corner (fun x y h => diff_congr h) ha l hl, P.corner (fun x y h => diff_congr h) hb l hl, r2k_one, r2k_one, diff_edge]

theorem simplex_inj {d n k : Nat} (hd : 0 < d) {c : Nat → Nat → K} (h : ElementCorners d n k c) {i j : Nat} (hi : i ≤ d) (hj : j ≤ d)
    (hij : i ≠ j) : ∃ l, l < d ∧ c i l ≠ c j l := by
  obtain ⟨hk, it, corners, h1, h2, h3⟩ := h
  obtain ⟨q, -, -, P⟩ := pieceS d n k hd hk it h1 corners h2 c h3
  by_contra hc
  push Not at hc
  exact hij (P.corner_inj (element_pos hd hk) (fun x y h => diff_congr h) (fun x y h => diff_inj d x y h) hi hj hc)

/-- C95: the edges of every element of a refined simplex have only the coordinates `-1/n`, `0` and `1/n`, and no edge is
degenerate -/
theorem C95_simplex_edges (d n k : Nat) (hd : 0 < d) (c : Nat → Nat → K) (h : ElementCorners d n k c) (i j : Nat) (hi : i ≤ d) (hj : j ≤ d) :
    (∀ l, l < d → c i l - c j l = -(1 / n) ∨ c i l - c j l = 0 ∨ c i l - c j l = 1 / n) ∧ (i ≠ j → ∃ l, l < d ∧ c i l ≠ c j l) := by
  refine ⟨fun l hl => ?_, simplex_inj hd h hi hj⟩
  obtain ⟨q, a, b, -, -, -, -, -, e⟩ := simplex_edge hd h hi hj
  rw [e l hl]
  rcases diff_pathEdge d q a b l with h | h | h <;> rw [h]
  · left; push_cast; ring
  · right; left; simp
  · right; right; push_cast; rfl

/-- C95: the length of every edge lies between `1/n` and `√d / n`: the longest edge of an element is at most `√d` times as
long as its shortest edge, whatever the refinement -/
theorem C95_simplex_length (d n k : Nat) (hd : 0 < d) (c : Nat → Nat → K) (h : ElementCorners d n k c) (i j : Nat) (hi : i ≤ d) (hj : j ≤ d)
    (hij : i ≠ j) : 1 / (n : K) ^ 2 ≤ len2 d c i j ∧ len2 d c i j ≤ d / (n : K) ^ 2 := by
  have := len2_bounds (B := 1) (element_pos hd h.1) (fun l hl => ?_) (simplex_inj hd h hi hj hij)
  · simpa using this
  · obtain ⟨q, a, b, -, -, -, -, -, e⟩ := simplex_edge hd h hi hj
    refine ⟨_, ?_, e l hl⟩
    rcases diff_pathEdge d q a b l with h | h | h <;> rw [h] <;> simp

/-- C95: the elements have at most `d!` shapes, given by `S`: an element is a translate of one of these, scaled by `1/n`.  The
shape does not depend on `n` -/
theorem C95_simplex_shapes (d : Nat) (hd : 0 < d) : ∃ S : Nat → Nat → Nat → K, ∀ n k (c : Nat → Nat → K), ElementCorners d n k c →
    ∃ κ, κ < d.factorial ∧ ∀ i, i ≤ d → ∀ l, l < d → c i l = c 0 l + S κ i l / n := by
  refine ⟨fun κ i => diff d (referenceToKuhn d (unit i) ((getPermutation d κ).getD fun m => m)), fun n k c h => ?_⟩
  obtain ⟨hk, it, corners, h1, h2, h3⟩ := h
  obtain ⟨q, hκ, hq, P⟩ := pieceS d n k hd hk it h1 corners h2 c h3
  refine ⟨it.kuhnIndex, hκ, fun i hi l hl => ?_⟩
  beta_reduce
  rw [hq, Option.getD_some, ← interp_corner c hi l, ← interp_corner c (Nat.zero_le d) l, P.map _ l hl, P.map _ l hl, r2k_one, r2k_one]
  have hz : ∀ j, j < d → referenceToKuhn d (unit (K := K) 0) q j = 0 := fun j hj => by
    rw [← Equiv.apply_symm_apply q j, referenceToKuhn_eq d q _ _ (symm_lt P.hq hj)]
    exact sum_const_zero
  simp only [diff]
  split
  · rename_i h
    rw [hz _ hl, hz _ h]
    ring
  · rw [hz _ hl]
    ring

/-- C95: every element of a refined triangle is similar to the reference triangle, with the ratio `1/n` -/
theorem C95_triangle (n k : Nat) (c : Nat → Nat → K) (h : ElementCorners 2 n k c) : Similar 2 c unit := by
  obtain ⟨hk, it, corners, h1, h2, h3⟩ := h
  obtain ⟨q, -, -, P⟩ := pieceS 2 n k (by omega) hk it h1 corners h2 c h3
  have hn : (0 : K) < n := Nat.cast_pos.2 (element_pos (by omega) hk)
  have corner : ∀ a b, a ≤ 2 → b ≤ 2 → ∀ l, l < 2 → c (pathOrder q a) l - c (pathOrder q b) l = (diff 2 (pathEdge q a b) l : ℤ) / n := by
    intro a b ha hb l hl
    rw [P.corner (fun x y h => diff_congr h) ha l hl, P.corner (fun x y h => diff_congr h) hb l hl, r2k_one, r2k_one, diff_edge]
  have len : ∀ a b, a ≤ 2 → b ≤ 2 → len2 2 c (pathOrder q a) (pathOrder q b) =
      ((diff 2 (pathEdge q a b) 0 : ℤ) ^ 2 + (diff 2 (pathEdge q a b) 1 : ℤ) ^ 2) * (1 / (n : K) ^ 2) := by
    intro a b ha hb
    rw [len2, sum_range_succ, sum_range_one, corner a b ha hb 0 (by omega), corner a b ha hb 1 (by omega)]
    ring
  have s0 := symm_lt P.hq (show 0 < 2 by omega)
  have s1 := symm_lt P.hq (show 1 < 2 by omega)
  have s01 : q.symm 0 ≠ q.symm 1 := fun h => by simpa using q.symm.injective h
  refine ⟨1 / (n : K) ^ 2, by positivity, ?_⟩
  have cases : q.symm 0 = 0 ∧ q.symm 1 = 1 ∨ q.symm 0 = 1 ∧ q.symm 1 = 0 := by omega
  rcases cases with ⟨e0, e1⟩ | ⟨e0, e1⟩
  · have f0 : q 0 = 0 := by rw [← e0, Equiv.apply_symm_apply, e0]
    have f1 : q 1 = 1 := by rw [← e1, Equiv.apply_symm_apply, e1]
    refine ⟨1, fun i j => ?_⟩
    have hp : ∀ i, i ≤ 2 → pathOrder q i = i := fun i hi => by interval_cases i <;> simp [pathOrder, f0, f1]
    have := len i j (by omega) (by omega)
    rw [hp i (by omega), hp j (by omega)] at this
    rw [this, mul_comm]
    congr 1
    simp only [diff, pathEdge, e0, e1, len2, sum_range_succ, sum_range_zero, unit]
    fin_cases i <;> fin_cases j <;> norm_num
  · have f0 : q 0 = 1 := by rw [← e1, Equiv.apply_symm_apply]
    have f1 : q 1 = 0 := by rw [← e0, Equiv.apply_symm_apply]
    refine ⟨⟨![1, 0, 2], ![1, 0, 2], by decide, by decide⟩, fun i j => ?_⟩
    have hp : ∀ i : Fin 3, pathOrder q (![0, 2, 1] i) = i := fun i => by
      fin_cases i <;> simp [pathOrder, f0, f1]
    have hl : ∀ i : Fin 3, (![0, 2, 1] i : Nat) ≤ 2 := fun i => by fin_cases i <;> simp
    have := len (![0, 2, 1] i) (![0, 2, 1] j) (hl i) (hl j)
    rw [hp i, hp j] at this
    rw [this, mul_comm]
    congr 1
    simp only [diff, pathEdge, e0, e1, len2, sum_range_succ, sum_range_zero, unit, Equiv.coe_fn_mk]
    fin_cases i <;> fin_cases j <;> norm_num

/-- C95: in dimension three this is not so: element 2 of the tetrahedron with two intervals has edges of length `1/2` and
`√3/2`, and is not similar to the reference tetrahedron -/
theorem C95_tetrahedron_counterexample : ∃ c : Nat → Nat → ℚ, ElementCorners 3 2 2 c ∧ ¬ Similar 3 c unit := by
  have e : ((eAt 3 2 2).bind fun it => it.geometry (K := ℚ) 3).map (fun l => l.map fun x => [x 0, x 1, x 2]) =
      some [[1 / 2, 0, 0], [1 / 2, 1 / 2, 0], [0, 1 / 2, 0], [1 / 2, 0, 1 / 2]] := by decide +kernel
  obtain ⟨it, corners, c, h1, h2, h3⟩ := C42_determinant (K := ℚ) 3 2 2 (by omega) (by decide)
  have hcc := h3.1
  rw [h1, Option.bind_some, h2, Option.map_some, Option.some.injEq] at e
  have hx : ∀ i, i ≤ 3 → (corners.map fun x => [x 0, x 1, x 2])[i]? = some [c i 0, c i 1, c i 2] := fun i hi => by
    rw [List.getElem?_map, hcc i hi, Option.map_some]
  rw [e] at hx
  have x0 := hx 0 (by omega)
  have x1 := hx 1 (by omega)
  have x2 := hx 2 (by omega)
  have x3 := hx 3 (by omega)
  simp only [List.getElem?_cons_zero, List.getElem?_cons_succ, Option.some.injEq, List.cons.injEq, and_true] at x0 x1 x2 x3
  refine ⟨c, ⟨by decide, it, corners, h1, h2, hcc⟩, fun ⟨r, hr, f, hf⟩ => ?_⟩
  have l01 : len2 3 c 0 1 = 1 / 4 := by
    rw [len2, sum_range_succ, sum_range_succ, sum_range_one, ← x0.1, ← x0.2.1, ← x0.2.2, ← x1.1, ← x1.2.1, ← x1.2.2]
    norm_num
  have l23 : len2 3 c 2 3 = 3 / 4 := by
    rw [len2, sum_range_succ, sum_range_succ, sum_range_one, ← x2.1, ← x2.2.1, ← x2.2.2, ← x3.1, ← x3.2.1, ← x3.2.2]
    norm_num
  have hu : ∀ i j : Fin 4, len2 3 (unit (K := ℚ)) i j = 0 ∨ len2 3 (unit (K := ℚ)) i j = 1 ∨ len2 3 (unit (K := ℚ)) i j = 2 := by
    decide +kernel
  have a := hf 0 1
  have b := hf 2 3
  have a' : len2 3 c (0 : Fin 4) (1 : Fin 4) = 1 / 4 := l01
  have b' : len2 3 c (2 : Fin 4) (3 : Fin 4) = 3 / 4 := l23
  rw [a'] at a
  rw [b'] at b
  rcases hu (f 0) (f 1) with h | h | h <;> rw [h] at a <;> rcases hu (f 2) (f 3) with g | g | g <;> rw [g] at b <;> linarith

/-- there is such an element for every number in range -/
theorem exists_corners (d n k : Nat) (hd : 0 < d) (hk : k < nElements d n) : ∃ c : Nat → Nat → K, ElementCorners d n k c := by
  obtain ⟨it, corners, c, h1, h2, h3, -⟩ := C42_determinant (K := K) d n k hd hk
  exact ⟨c, hk, it, corners, h1, h2, h3⟩

example : ∃ c : Nat → Nat → ℚ, ElementCorners 4 10 1234 c ∧ 1 / 100 ≤ len2 4 c 1 3 ∧ len2 4 c 1 3 ≤ 4 / 100 := by
  obtain ⟨c, hc⟩ := exists_corners (K := ℚ) 4 10 1234 (by omega) (by decide)
  have := C95_simplex_length 4 10 1234 (by omega) c hc 1 3 (by omega) (by omega) (by omega)
  norm_num at this
  exact ⟨c, hc, by linarith, by linarith⟩

example : ∃ c : Nat → Nat → ℚ, ElementCorners 2 7 48 c ∧ Similar 2 c unit := by
  obtain ⟨c, hc⟩ := exists_corners (K := ℚ) 2 7 48 (by omega) (by decide)
  exact ⟨c, hc, C95_triangle 7 48 c hc⟩

/-! ### the triangulations -/

namespace Triang

/-- `c` are the corners of `geometry()` of element number `k` of the triangulation `s` refined with `n` intervals -/
def ElementCorners (s : Scheme K) (n k : Nat) (c : Nat → Nat → K) : Prop :=
  k < nElements s n ∧ ∃ it corners, eAt s n k = some it ∧ it.geometry s = some corners ∧ ∀ i, i ≤ s.dimension → corners[i]? = some (c i)

theorem hcube_signed (d : Nat) : Signed d (hcube d : Scheme K).transform := fun i hi => ⟨i, hi, .inl fun _ _ => rfl⟩

theorem prism_signed : Signed 3 (prism : Scheme K).transform := fun i hi => by
  interval_cases i
  · exact ⟨1, by omega, .inl fun _ _ => rfl⟩
  · exact ⟨0, by omega, .inr fun x y => by change (1 - x 0) - (1 - y 0) = _; ring⟩
  · exact ⟨2, by omega, .inl fun _ _ => rfl⟩

theorem pyramid_signed : Signed 3 (pyramid : Scheme K).transform := fun i hi => by
  interval_cases i
  · exact ⟨0, by omega, .inr fun x y => by change (1 - x 0) - (1 - y 0) = _; ring⟩
  · exact ⟨1, by omega, .inr fun x y => by change (1 - x 1) - (1 - y 1) = _; ring⟩
  · exact ⟨2, by omega, .inl fun _ _ => rfl⟩

variable {s : Scheme K} {dom : (Nat → K) → Prop}

theorem triang_edges (h : Fits s dom) (hs : Signed s.dimension s.transform) {n k : Nat} {c : Nat → Nat → K} (hc : ElementCorners s n k c)
    {i j : Nat} (hi : i ≤ s.dimension) (hj : j ≤ s.dimension) :
    (∀ l, l < s.dimension → ∃ m : ℤ, |m| ≤ ((s.dimension + 1) / 2 : Nat) ∧ c i l - c j l = m / n) ∧
      (i ≠ j → 1 / (n : K) ^ 2 ≤ len2 s.dimension c i j ∧
        len2 s.dimension c i j ≤ (s.dimension * ((s.dimension + 1) / 2) ^ 2 : Nat) / (n : K) ^ 2) := by
  obtain ⟨hk, it, corners, h1, h2, h3⟩ := hc
  obtain ⟨p, q, b, -, -, P⟩ := pieceT h n k hk it h1 corners h2 c h3
  obtain ⟨hN, -⟩ := kuhn_lt hk
  have hn := intervals_pos h.pos hN
  have key : ∀ l, l < s.dimension → ∃ m : ℤ, |m| ≤ ((s.dimension + 1) / 2 : Nat) ∧ c i l - c j l = m / n :=
    fun l hl => P.edge hs h.congr hi hj hl
  refine ⟨key, fun hij => len2_bounds hn key ?_⟩
  by_contra hc
  push Not at hc
  exact hij (P.corner_inj hn h.congr h.inj hi hj hc)

theorem triang_shapes (h : Fits s dom) (hs : Signed s.dimension s.transform) : ∃ S : Nat → Nat → Nat → Nat → K,
    ∀ n k (c : Nat → Nat → K), ElementCorners s n k c → ∃ κ κ', κ < s.nKuhnSimplices ∧ κ' < s.dimension.factorial ∧
      ∀ i, i ≤ s.dimension → ∀ l, l < s.dimension → c i l = c 0 l + S κ κ' i l / n := by
  refine ⟨fun κ κ' i l => s.transform (referenceToKuhn s.dimension (diff s.dimension (referenceToKuhn s.dimension (unit i)
    ((getPermutation s.dimension κ').getD fun m => m))) ((getPermutation s.dimension (s.permutation κ)).getD fun m => m)) l -
      s.transform (fun _ => 0) l, fun n k c hc => ?_⟩
  obtain ⟨hk, it, corners, h1, h2, h3⟩ := hc
  obtain ⟨p, q, b, hb, hq, P⟩ := pieceT h n k hk it h1 corners h2 c h3
  obtain ⟨hN, a1, a2⟩ := kuhn_lt hk
  obtain ⟨b', q', g1, -, -, -, g5, -, -⟩ := elem s.dimension n h.pos _ a2
  obtain rfl := Option.some.inj (hb.symm.trans g1)
  refine ⟨_, _, a1, g5, fun i hi l hl => ?_⟩
  beta_reduce
  rw [hq, P.hg, Option.getD_some, Option.getD_some, ← P.shape hs hi hl]
  ring

/-- C95: the elements of a triangulated and refined cube: the edges have coordinates that are multiples of `1/n`, at most
`⌊(d+1)/2⌋/n`, so that the lengths are between `1/n` and a constant times that; up to translation and the factor `1/n` there
are at most `d!²` shapes -/
theorem C95_cube (d : Nat) (hd : 0 < d) :
    (∀ n k (c : Nat → Nat → K), ElementCorners (hcube d) n k c → ∀ i j, i ≤ d → j ≤ d →
      (∀ l, l < d → ∃ m : ℤ, |m| ≤ ((d + 1) / 2 : Nat) ∧ c i l - c j l = m / n) ∧
      (i ≠ j → 1 / (n : K) ^ 2 ≤ len2 d c i j ∧ len2 d c i j ≤ (d * ((d + 1) / 2) ^ 2 : Nat) / (n : K) ^ 2)) ∧
    ∃ S : Nat → Nat → Nat → Nat → K, ∀ n k (c : Nat → Nat → K), ElementCorners (hcube d) n k c → ∃ κ κ', κ < d.factorial ∧
      κ' < d.factorial ∧ ∀ i, i ≤ d → ∀ l, l < d → c i l = c 0 l + S κ κ' i l / n :=
  ⟨fun _ _ _ h _ _ hi hj => triang_edges (C44_cube_scheme d hd) (hcube_signed d) h hi hj,
    triang_shapes (C44_cube_scheme d hd) (hcube_signed d)⟩

/-- C95: the same for the prism: at most 18 shapes -/
theorem C95_prism :
    (∀ n k (c : Nat → Nat → K), ElementCorners prism n k c → ∀ i j, i ≤ 3 → j ≤ 3 →
      (∀ l, l < 3 → ∃ m : ℤ, |m| ≤ 2 ∧ c i l - c j l = m / n) ∧
      (i ≠ j → 1 / (n : K) ^ 2 ≤ len2 3 c i j ∧ len2 3 c i j ≤ 12 / (n : K) ^ 2)) ∧
    ∃ S : Nat → Nat → Nat → Nat → K, ∀ n k (c : Nat → Nat → K), ElementCorners prism n k c → ∃ κ κ', κ < 3 ∧ κ' < 6 ∧
      ∀ i, i ≤ 3 → ∀ l, l < 3 → c i l = c 0 l + S κ κ' i l / n :=
  ⟨fun n k c h i j hi hj => by
    have := triang_edges C44_prism_scheme prism_signed h hi hj
    simpa [prism] using this, triang_shapes C44_prism_scheme prism_signed⟩

/-- C95: the same for the pyramid: at most 12 shapes -/
theorem C95_pyramid :
    (∀ n k (c : Nat → Nat → K), ElementCorners pyramid n k c → ∀ i j, i ≤ 3 → j ≤ 3 →
      (∀ l, l < 3 → ∃ m : ℤ, |m| ≤ 2 ∧ c i l - c j l = m / n) ∧
      (i ≠ j → 1 / (n : K) ^ 2 ≤ len2 3 c i j ∧ len2 3 c i j ≤ 12 / (n : K) ^ 2)) ∧
    ∃ S : Nat → Nat → Nat → Nat → K, ∀ n k (c : Nat → Nat → K), ElementCorners pyramid n k c → ∃ κ κ', κ < 2 ∧ κ' < 6 ∧
      ∀ i, i ≤ 3 → ∀ l, l < 3 → c i l = c 0 l + S κ κ' i l / n :=
  ⟨fun n k c h i j hi hj => by
    have := triang_edges C44_pyramid_scheme pyramid_signed h hi hj
    simpa [pyramid] using this, triang_shapes C44_pyramid_scheme pyramid_signed⟩

/-- C95: the constant `⌊(d+1)/2⌋ = 2` is attained: an element of the triangulated cube with two intervals reaches from one
side of the cube to the other, it is twice as wide as the mesh width `1/2` -/
theorem C95_cube_wide : ∃ c : Nat → Nat → ℚ, ElementCorners (hcube 3 : Scheme ℚ) 2 10 c ∧ c 2 0 = 0 ∧ c 3 0 = 1 := by
  have e : ((eAt (hcube 3 : Scheme ℚ) 2 10).bind fun it => it.geometry (hcube 3 : Scheme ℚ)).map (fun l => l.map fun x => [x 0, x 1, x 2]) =
      some [[(1 / 2 : ℚ), 1 / 2, 0], [1 / 2, 1, 0], [0, 1 / 2, 0], [1, 1, 1 / 2]] := by decide +kernel
  obtain ⟨it, corners, c, p, b, h1, h2, h3, hcc, -⟩ := elemT (C44_cube_scheme (K := ℚ) 3 (by omega)) 2 10 (by decide)
  rw [h1, Option.bind_some, h2, Option.map_some, Option.some.injEq] at e
  have hx : ∀ i, i ≤ 3 → (corners.map fun x => [x 0, x 1, x 2])[i]? = some [c i 0, c i 1, c i 2] := fun i hi => by
    rw [List.getElem?_map, hcc i hi, Option.map_some]
  rw [e] at hx
  have x2 := hx 2 (by omega)
  have x3 := hx 3 (by omega)
  simp only [List.getElem?_cons_zero, List.getElem?_cons_succ, Option.some.injEq, List.cons.injEq, and_true] at x2 x3
  exact ⟨c, ⟨by decide, it, corners, h1, h2, hcc⟩, x2.1.symm, x3.1.symm⟩

theorem exists_corners (h : Fits s dom) (n k : Nat) (hk : k < nElements s n) : ∃ c, ElementCorners s n k c := by
  obtain ⟨it, corners, c, p, b, h1, h2, h3, h4, -⟩ := elemT h n k hk
  exact ⟨c, hk, it, corners, h1, h2, h4⟩

example : ∃ c : Nat → Nat → ℚ, ElementCorners prism 5 374 c ∧ 1 / 25 ≤ len2 3 c 0 2 ∧ len2 3 c 0 2 ≤ 12 / 25 := by
  obtain ⟨c, hc⟩ := exists_corners (C44_prism_scheme (K := ℚ)) 5 374 (by decide)
  have := ((C95_prism (K := ℚ)).1 5 374 c hc 0 2 (by omega) (by omega)).2 (by omega)
  norm_num at this
  exact ⟨c, hc, by linarith, by linarith⟩

end Triang

namespace HCube

open Verif.Cube

/-- C95: the elements of a refined cube are cubes with edges of length `1/n` -/
theorem C95_cubes (d n k : Nat) (hn : 0 < n) : ∃ g, (at' (eBegin n) k).eGeometry d = some g ∧
    ∀ i, i < d → g.upper i - g.lower i = 1 / (n : ℝ) := by
  obtain ⟨g, c, h1, h2, h3, h4, h5, h6⟩ := C43_cell d n k hn
  refine ⟨g, h1, fun i hi => ?_⟩
  rw [(h6 i hi).1, (h6 i hi).2]
  ring

end HCube

end Verif.Refine
