import Verif.Refine.IntLemmas

/-! Property C98: the integers of the refinements.  With the 32 bit integers of the machine the refinements count, number and
enumerate as they do with natural numbers as long as the numbers themselves fit; where they do not fit, the loops over the
elements are wrong without notice. -/

namespace Verif.Refine.Machine

open Verif.Typ (intOk)

/-! ### specification: the loops of the user, carried out by the machine -/

/-- the vertex iterator after `k` increments, starting with `vBegin` -/
def vAt (d n : Nat) : Nat → Option VertexIterator
  | 0 => some (Refine.vBegin n)
  | k + 1 => (vAt d n k).bind (vIncrement d)

/-- the element iterator after `k` increments, starting with `eBegin` -/
def eAt (d n : Nat) : Nat → Option ElementIterator
  | 0 => some (Refine.eBegin n)
  | k + 1 => (eAt d n k).bind (eIncrement d)

variable {d n : Nat}

theorem vstate (hd : 0 < d) {k : Nat} (hk : k < Refine.nVertices d n) :
    ∃ v, Refine.vAt d n k = some ⟨n, v⟩ ∧ Cone d v ∧ v 0 ≤ n ∧ Refine.pointIndex d v = k := by
  obtain ⟨h1, h2⟩ := iterate_cone d hd k
  exact ⟨_, Refine.vAt_eq d n hd k hk.le, h1, (pointIndex_lt_iff d hd _ h1 n).1 (by rw [h2]; exact hk), h2⟩

theorem estate (hd : 0 < d) {k : Nat} (hk : k < Refine.nElements d n) :
    ∃ x, Refine.eAt d n k = some ⟨stO d x, stK d x, n, k⟩ ∧ Good d x ∧ stO d x 0 < n := by
  obtain ⟨x, h1, -, h3⟩ := Refine.eAt_eq d n hd k hk.le
  obtain ⟨it, p, g1, g2, g3⟩ := C41_inside d n hd k hk
  cases h3.symm.trans g1
  obtain ⟨q, hq, hp⟩ := getPermutation_perm d (stK d x) (stK_lt d x)
  cases g2.symm.trans hp
  exact ⟨x, h3, h1, ((subSimplex_iff d n hd q hq _).1 g3).2.2⟩

/-! ### simplices -/

/-- C98: the vertices of a refined simplex.  If `(n + 1) (n + 2) … (n + d)` is an `int`, the number of vertices is right, the loop
over all vertices is defined, goes through the same iterators and ends where it should, and the index and the coordinates of
every vertex are right -/
theorem C98_simplex_vertices (d n : Nat) (hd : 0 < d) (h : (n + d).descFactorial d < 2 ^ 31) :
    nVertices d n = some (Refine.nVertices d n) ∧ vEnd n = some (Refine.vEnd n) ∧
    (∀ k, k ≤ Refine.nVertices d n → vAt d n k = Refine.vAt d n k) ∧
    ∀ k, k < Refine.nVertices d n → ∃ it, vAt d n k = some it ∧ vIndex d it = some k ∧
      vCoords (K := ℝ) d it = it.coords d := by
  have hF : Fits d n := h
  have key : ∀ k, k ≤ Refine.nVertices d n → vAt d n k = Refine.vAt d n k := by
    intro k
    induction k with
    | zero => intro _; rfl
    | succ k ih =>
      intro hk
      obtain ⟨v, h1, h2, h3, -⟩ := vstate hd (n := n) (k := k) (by omega)
      rw [vAt, Refine.vAt, ih (by omega), h1, Option.bind_some, Option.bind_some, vIncrement_eq hd hF h2 h3]
  refine ⟨nVertices_eq hd hF, vEnd_eq hd hF, key, fun k hk => ?_⟩
  obtain ⟨v, h1, h2, h3, h4⟩ := vstate hd hk
  refine ⟨_, (key k hk.le).trans h1, ?_, vCoords_eq hd hF h2 h3⟩
  rw [vIndex, pointIndex_eq' hd hF h2 h3, h4]

/-- C98: the elements of a refined simplex, under the same condition -/
theorem C98_simplex_elements_partial (d n : Nat) (hd : 0 < d) (h : (n + d).descFactorial d < 2 ^ 31) :
    nElements d n = some (Refine.nElements d n) ∧ eEnd d n = some (Refine.eEnd d n) ∧
    (∀ k, k ≤ Refine.nElements d n → eAt d n k = Refine.eAt d n k) ∧
    ∀ k, k < Refine.nElements d n → ∃ it, eAt d n k = some it ∧ it.index = k ∧
      vertexIndices d it = it.vertexIndices d := by
  have hF : Fits d n := h
  have key : ∀ k, k ≤ Refine.nElements d n → eAt d n k = Refine.eAt d n k := by
    intro k
    induction k with
    | zero => intro _; rfl
    | succ k ih =>
      intro hk
      obtain ⟨x, h1, h2, h3⟩ := estate hd (n := n) (k := k) (by omega)
      rw [eAt, Refine.eAt, ih (by omega), h1, Option.bind_some, Option.bind_some, eIncrement_eq hd hF (by omega) h3]
  refine ⟨nElements_eq hd hF, eEnd_eq hd hF, key, fun k hk => ?_⟩
  obtain ⟨x, h1, h2, h3⟩ := estate hd hk
  exact ⟨_, (key k hk.le).trans h1, rfl, vertexIndices_eq' hd hF h2 h3⟩

-- the largest numbers of intervals for triangles and tetrahedra, and all levels of refinement below
example : (46339 + 2).descFactorial 2 < 2 ^ 31 ∧ (1288 + 3).descFactorial 3 < 2 ^ 31 ∧ (2 ^ 15 + 2).descFactorial 2 < 2 ^ 31 ∧
    (2 ^ 10 + 3).descFactorial 3 < 2 ^ 31 := by decide +kernel

example : ∃ it, eAt 3 1000 123456789 = some it ∧ it.index = 123456789 ∧ vertexIndices 3 it = it.vertexIndices 3 :=
  (C98_simplex_elements_partial 3 1000 (by omega) (by decide +kernel)).2.2.2 123456789 (by decide)

/-! ### triangulations -/

namespace Triang

open Verif.Refine.Triang

variable {K : Type} (s : Scheme K)

/-- the vertex iterator after `k` increments -/
def vAt (n : Nat) : Nat → Option VIterator
  | 0 => some (Refine.Triang.vBegin n)
  | k + 1 => (vAt n k).bind (vIncrement s)

/-- the element iterator after `k` increments -/
def eAt (n : Nat) : Nat → Option EIterator
  | 0 => some (Refine.Triang.eBegin n)
  | k + 1 => (eAt n k).bind (eIncrement s)

/-- C98: the vertices of a triangulated cube, prism or pyramid, under the same condition -/
theorem C98_triangulation_vertices (n : Nat) (hd : 0 < s.dimension) (hs : s.nKuhnSimplices ≤ s.dimension.factorial)
    (h : (n + s.dimension).descFactorial s.dimension < 2 ^ 31) :
    nVertices s n = some (Refine.Triang.nVertices s n) ∧
    (∀ k, k ≤ Refine.Triang.nVertices s n → vAt s n k = Refine.Triang.vAt s n k) ∧
    ∀ k, k < Refine.Triang.nVertices s n → ∃ it, vAt s n k = some it ∧ vIndex s it = some k := by
  have hF : Fits s.dimension n := h
  have hV : 0 < Refine.nVertices s.dimension n := Nat.choose_pos (by omega)
  have hT : Refine.Triang.nVertices s n < 2 ^ 31 := by
    refine lt_of_le_of_lt ?_ h
    rw [Refine.Triang.nVertices, Nat.descFactorial_eq_factorial_mul_choose, Refine.nVertices, Nat.add_comm n, Nat.mul_comm]
    exact Nat.mul_le_mul_right _ hs
  have hK : s.nKuhnSimplices < 2 ^ 31 := lt_of_le_of_lt (Nat.le_mul_of_pos_left _ hV) hT
  have key : ∀ k, k ≤ Refine.Triang.nVertices s n → vAt s n k = Refine.Triang.vAt s n k := by
    intro k
    induction k with
    | zero => intro _; rfl
    | succ k ih =>
      intro hk
      obtain ⟨b, h1, h2⟩ := Refine.Triang.vAt_eq s hd n k
      obtain ⟨v, g1, g2, g3, -⟩ := vstate hd (n := n) (Nat.mod_lt k hV)
      cases h1.symm.trans g1
      have hκ := (kuhn_lt (a := Refine.nVertices s.dimension n) (b := s.nKuhnSimplices) (k := k) (by
        rw [Refine.Triang.nVertices] at hk; omega)).2.1
      rw [vAt, Refine.Triang.vAt, ih (by omega), h2, Option.bind_some, Option.bind_some, vIncrement, vEnd_eq hd hF, VIterator.increment]
      simp only [Option.bind_eq_bind, Option.bind_some]
      rw [vIncrement_eq hd hF g2 g3]
      cases VertexIterator.increment s.dimension ⟨n, v⟩ with
      | none => rfl
      | some b' =>
        rw [Option.bind_some, Option.map_some]
        split
        · rw [chk_of (by omega)]; rfl
        · rfl
  refine ⟨?_, key, fun k hk => ?_⟩
  · rw [nVertices, factorial_eq hF.fact, nVertices_eq hd hF]
    exact chk_of hT
  · obtain ⟨b, h1, h2⟩ := Refine.Triang.vAt_eq s hd n k
    obtain ⟨v, g1, g2, g3, g4⟩ := vstate hd (n := n) (Nat.mod_lt k hV)
    cases h1.symm.trans g1
    refine ⟨_, (key k hk.le).trans h2, ?_⟩
    have := Nat.div_add_mod' k (Refine.nVertices s.dimension n)
    rw [vIndex]
    dsimp only
    rw [nVertices_eq hd hF]
    simp only [Option.bind_eq_bind, Option.bind_some]
    rw [chk_of (by omega), Option.bind_some, Machine.vIndex, pointIndex_eq' hd hF g2 g3, Option.bind_some, g4, this]
    exact chk_of (by omega)

/-- C98: the elements of a triangulated cube, prism or pyramid; here the number of elements must be an `int`, too -/
theorem C98_triangulation_elements (n : Nat) (hn : 0 < n) (hd : 0 < s.dimension) (hs : s.nKuhnSimplices ≤ s.dimension.factorial)
    (h : (n + s.dimension).descFactorial s.dimension < 2 ^ 31) (h' : n ^ s.dimension * s.nKuhnSimplices < 2 ^ 31) :
    nElements s n = some (Refine.Triang.nElements s n) ∧
    (∀ k, k ≤ Refine.Triang.nElements s n → eAt s n k = Refine.Triang.eAt s n k) ∧
    ∀ k, k < Refine.Triang.nElements s n → ∃ it idx, eAt s n k = some it ∧ eIndex s it = some k ∧
      it.vertexIndices s = some idx ∧ ∀ i, i ≤ s.dimension → vertexIndex s it i = some (idx i) := by
  have hF : Fits s.dimension n := h
  have hT : Refine.Triang.nElements s n < 2 ^ 31 := h'
  have hE : 0 < Refine.nElements s.dimension n := Nat.pow_pos hn
  have hK : s.nKuhnSimplices < 2 ^ 31 := lt_of_le_of_lt (Nat.le_mul_of_pos_left _ hE) hT
  have hV : Refine.nVertices s.dimension n * s.nKuhnSimplices < 2 ^ 31 := by
    refine lt_of_le_of_lt ?_ h
    rw [Nat.descFactorial_eq_factorial_mul_choose, Refine.nVertices, Nat.add_comm n, Nat.mul_comm]
    exact Nat.mul_le_mul_right _ hs
  have key : ∀ k, k ≤ Refine.Triang.nElements s n → eAt s n k = Refine.Triang.eAt s n k := by
    intro k
    induction k with
    | zero => intro _; rfl
    | succ k ih =>
      intro hk
      obtain ⟨b, h1, h2⟩ := Refine.Triang.eAt_eq s hd n hn k
      obtain ⟨x, g1, g2, g3⟩ := estate hd (n := n) (Nat.mod_lt k hE)
      cases h1.symm.trans g1
      have hκ := (kuhn_lt (a := Refine.nElements s.dimension n) (b := s.nKuhnSimplices) (k := k) (by
        rw [Refine.Triang.nElements] at hk; omega)).2.1
      rw [eAt, Refine.Triang.eAt, ih (by omega), h2, Option.bind_some, Option.bind_some, eIncrement, eEnd_eq hd hF, EIterator.increment]
      simp only [Option.bind_eq_bind, Option.bind_some]
      rw [eIncrement_eq hd hF (Nat.mod_lt k hE) g3]
      cases ElementIterator.increment s.dimension _ with
      | none => rfl
      | some b' =>
        rw [Option.bind_some, Option.map_some]
        split
        · rw [chk_of (by omega)]; rfl
        · rfl
  refine ⟨?_, key, fun k hk => ?_⟩
  · rw [nElements, factorial_eq hF.fact, nElements_eq hd hF]
    exact chk_of hT
  · obtain ⟨b, h1, h2⟩ := Refine.Triang.eAt_eq s hd n hn k
    obtain ⟨x, g1, g2, g3⟩ := estate hd (n := n) (Nat.mod_lt k hE)
    cases h1.symm.trans g1
    have hκ := (kuhn_lt (a := Refine.nElements s.dimension n) (b := s.nKuhnSimplices) (k := k) hk).2.1
    obtain ⟨it, p, idx, corners, a1, -, a3, -, -, a6⟩ :=
      C42_order_partial (K := ℚ) s.dimension n (k % Refine.nElements s.dimension n) hd (Nat.mod_lt k hE)
    cases h1.symm.trans a1
    have e := Nat.div_add_mod' k (Refine.nElements s.dimension n)
    refine ⟨_, _, (key k hk.le).trans h2, ?_, by rw [EIterator.vertexIndices, a3, Option.map_some], fun i hi => ?_⟩
    · rw [eIndex]
      dsimp only
      rw [nElements_eq hd hF]
      simp only [Option.bind_eq_bind, Option.bind_some]
      rw [chk_of (by omega), Option.bind_some, ElementIterator.index, e]
      exact chk_of (by omega)
    · have hi' := (a6 i hi).1
      have hm : (k / Refine.nElements s.dimension n + 1) * Refine.nVertices s.dimension n ≤
          Refine.nVertices s.dimension n * s.nKuhnSimplices := by
        rw [Nat.mul_comm (Refine.nVertices s.dimension n)]
        exact Nat.mul_le_mul_right _ hκ
      rw [Nat.add_mul, Nat.one_mul] at hm
      rw [vertexIndex]
      dsimp only
      rw [vertexIndices_eq' hd hF g2 g3, a3, nVertices_eq hd hF]
      simp only [Option.bind_eq_bind, Option.bind_some]
      rw [chk_of (by omega), Option.bind_some]
      exact chk_of (by omega)

-- the conditions hold for all schemes of the library
example (d : Nat) (hd : 0 < d) : 0 < (hcube d : Scheme ℝ).dimension ∧ (hcube d : Scheme ℝ).nKuhnSimplices ≤ (hcube d : Scheme ℝ).dimension.factorial ∧
    (prism : Scheme ℝ).nKuhnSimplices ≤ (prism : Scheme ℝ).dimension.factorial ∧
    (pyramid : Scheme ℝ).nKuhnSimplices ≤ (pyramid : Scheme ℝ).dimension.factorial := ⟨hd, le_rfl, by decide, by decide⟩

example : nElements (hcube 3 : Scheme ℝ) 512 = some 805306368 :=
  (C98_triangulation_elements (hcube 3 : Scheme ℝ) 512 (by omega) (by decide) le_rfl (by decide +kernel) (by decide +kernel)).1

end Triang

/-! ### cubes -/

namespace HCube

open Verif.Refine.HCube

/-- the iterator after `k` increments -/
def at' (it : Iterator) (k : Nat) : Iterator := increment^[k] it

theorem power_mod (m : Nat) : ∀ p, power m p = m ^ p % 2 ^ 32
  | 0 => rfl
  | p + 1 => by
    rw [power, List.range_succ, List.foldl_append]
    change power m p * m % 2 ^ 32 = _
    rw [power_mod m p, Nat.mod_mul_mod, ← pow_succ]

theorem at_eq' (it : Iterator) (h : it.index_ < 2 ^ 32) : ∀ k, at' it k = ⟨(it.index_ + k) % 2 ^ 32, it.nIntervals⟩
  | 0 => by rw [at', Function.iterate_zero, id, Nat.add_zero, Nat.mod_eq_of_lt h]
  | k + 1 => by
    rw [at', Function.iterate_succ_apply']
    change increment (at' it k) = _
    rw [at_eq' it h k, increment]
    dsimp only
    rw [Nat.mod_add_mod, Nat.add_assoc]

theorem vertexIndex_mod (d : Nat) (it : Iterator) (e : Nat → Nat) (i : Nat) :
    vertexIndex d it e i = toInt (it.vertexIndex d e i % 2 ^ 32) := by
  have key : ∀ (l : List Nat) (s t : Nat × Nat), t.1 = s.1 % 2 ^ 32 → t.2 = s.2 % 2 ^ 32 →
      (l.foldl (fun (s : Nat × Nat) d =>
        ((s.1 + (idx2multiidx i d + e d) * s.2) % 2 ^ 32, s.2 * ((it.nIntervals + 1) % 2 ^ 32) % 2 ^ 32)) t).1 =
      (l.foldl (fun (s : Nat × Nat) d => (s.1 + (idx2multiidx i d + e d) * s.2, s.2 * (it.nIntervals + 1))) s).1 % 2 ^ 32 := by
    intro l
    induction l with
    | nil => intro s t h1 _; exact h1
    | cons j l ih =>
      intro s t h1 h2
      rw [List.foldl_cons, List.foldl_cons]
      refine ih _ _ ?_ ?_
      · dsimp only
        rw [h1, h2, Nat.mod_add_mod, Nat.add_mod, Nat.mul_mod_mod, ← Nat.add_mod]
      · dsimp only
        rw [h2, ← Nat.mul_mod]
  rw [vertexIndex, Iterator.vertexIndex, key _ (0, 1) (0, 1) rfl rfl]

variable {d n : Nat}

theorem succ_lt (hd : 0 < d) (h : (n + 1) ^ d < 2 ^ 32) : n + 1 < 2 ^ 32 :=
  lt_of_le_of_lt (Nat.le_self_pow hd.ne' _) h

/-- C98: if the number of vertices is an `unsigned`, the numbers of vertices and elements of a refined cube are right, the loops
go through the same iterators, and the coordinates read off from an index are right -/
theorem C98_cube_loops_partial (d n : Nat) (hd : 0 < d) (h : (n + 1) ^ d < 2 ^ 32) :
    nVertices d n = (n + 1) ^ d ∧ nElements d n = n ^ d ∧ vEnd d n = Refine.HCube.vEnd d n ∧ eEnd d n = Refine.HCube.eEnd d n ∧
    (∀ k, k ≤ (n + 1) ^ d → at' (Refine.HCube.vBegin n) k = Refine.HCube.at' (Refine.HCube.vBegin n) k) ∧
    (∀ k, k ≤ n ^ d → at' (Refine.HCube.eBegin n) k = Refine.HCube.at' (Refine.HCube.eBegin n) k) ∧
    ∀ it, it.nIntervals = n → vertexCoord d it = it.vertexCoord d := by
  have h1 := succ_lt hd h
  have h2 : n ^ d < 2 ^ 32 := lt_of_le_of_lt (Nat.pow_le_pow_left (Nat.le_succ n) d) h
  have e1 : nVertices d n = (n + 1) ^ d := by rw [nVertices, Nat.mod_eq_of_lt h1, power_mod, Nat.mod_eq_of_lt h]
  have e2 : nElements d n = n ^ d := by rw [nElements, power_mod, Nat.mod_eq_of_lt h2]
  refine ⟨e1, e2, by rw [vEnd, e1]; rfl, by rw [eEnd, e2]; rfl, fun k hk => ?_, fun k hk => ?_, fun it hit => ?_⟩
  · rw [at_eq' _ (by norm_num [Refine.HCube.vBegin]), Refine.HCube.at_eq, Nat.mod_eq_of_lt (by simp only [Refine.HCube.vBegin]; omega)]
  · rw [at_eq' _ (by norm_num [Refine.HCube.eBegin]), Refine.HCube.at_eq, Nat.mod_eq_of_lt (by simp only [Refine.HCube.eBegin]; omega)]
  · rw [vertexCoord, hit, Nat.mod_eq_of_lt h1, Iterator.vertexCoord, hit]

/-- C98: if it is an `int`, the indices are right, too -/
theorem C98_cube_indices (d n : Nat) (hd : 0 < d) (h : (n + 1) ^ d ≤ 2 ^ 31) :
    (∀ k, k < (n + 1) ^ d → index (at' (Refine.HCube.vBegin n) k) = k) ∧ (∀ k, k < n ^ d → index (at' (Refine.HCube.eBegin n) k) = k) ∧
    ∀ k, k < n ^ d → ∃ idx, (Refine.HCube.at' (Refine.HCube.eBegin n) k).vertexIndices d = some idx ∧
      vertexIndices d (at' (Refine.HCube.eBegin n) k) = some (idx.map fun m : Nat => (m : Int)) := by
  have h0 : (n + 1) ^ d < 2 ^ 32 := by omega
  have h2 : n ^ d ≤ 2 ^ 31 := (Nat.pow_le_pow_left (Nat.le_succ n) d).trans h
  obtain ⟨-, -, -, -, a5, a6, -⟩ := C98_cube_loops_partial d n hd h0
  refine ⟨fun k hk => ?_, fun k hk => ?_, fun k hk => ?_⟩
  · rw [a5 k hk.le, Refine.HCube.at_eq, index, toInt, if_pos (by simp only [Refine.HCube.vBegin]; omega)]
    simp [Refine.HCube.vBegin]
  · rw [a6 k hk.le, Refine.HCube.at_eq, index, toInt, if_pos (by simp only [Refine.HCube.eBegin]; omega)]
    simp [Refine.HCube.eBegin]
  · have hn : 0 < n := Nat.pos_of_ne_zero fun h => by rw [h, zero_pow hd.ne'] at hk; omega
    obtain ⟨g, idx, g1, g2, g3, g4⟩ := C43_vertexIndices d n k hn hk
    refine ⟨idx, g2, ?_⟩
    rw [a6 k hk.le, vertexIndices]
    rw [Iterator.vertexIndices] at g2
    obtain ⟨e, he, hidx⟩ := Option.map_eq_some_iff.1 g2
    rw [he, Option.map_some, ← hidx, List.map_map, Option.some.injEq]
    refine List.map_congr_left fun i hi => ?_
    rw [vertexIndex_mod]
    have hlen : i < g.corners := by
      rw [← g3, ← hidx, List.length_map, List.length_range]
      exact List.mem_range.1 hi
    obtain ⟨m, x, b1, b2, -⟩ := g4 i hlen
    have : (Refine.HCube.at' (Refine.HCube.eBegin n) k).vertexIndex d e i = m := by
      rw [← hidx, List.getElem?_map, List.getElem?_range (by simpa using hi), Option.map_some] at b1
      exact Option.some.inj b1
    have b2' : m < (n + 1) ^ d := b2
    rw [Function.comp_apply, this, Nat.mod_eq_of_lt (by omega), toInt, if_pos (by omega)]

example : (1289 + 1) ^ 3 ≤ 2 ^ 31 ∧ (2 ^ 15 + 1) ^ 2 ≤ 2 ^ 31 ∧ (2 ^ 10 + 1) ^ 3 ≤ 2 ^ 31 := by decide +kernel

example : index (at' (Refine.HCube.eBegin 1000) 123456789) = 123456789 :=
  (C98_cube_indices 3 1000 (by omega) (by decide +kernel)).2.1 123456789 (by decide)

end HCube

/-! ### numbers that do not fit -/

/-- the full property: every refinement that can be asked for has as many elements as it should have, and the loop over them is not
over before it begins -/
def C98_full : Prop := ∀ d n, 0 < d → 0 < n → n < 2 ^ 31 → nElements d n = some (n ^ d) ∧ HCube.nElements d n = n ^ d ∧
  ¬ (Refine.HCube.eBegin n).equals (HCube.eEnd d n)

/-- C98 fails: `refinementLevels(l)` is accepted for all levels below 31, but in dimension `d` the refined cube has no elements as
soon as `l d ≥ 32` (`eBegin` and `eEnd` agree), and counting the elements of the refined simplex is undefined as soon as
`l d ≥ 31` -/
theorem C98_levels_counterexample : ¬ C98_full ∧
    (∀ d l, l < 31 → 32 ≤ l * d → refinementLevels l = some ⟨2 ^ l⟩ ∧ HCube.nElements d (2 ^ l) = 0 ∧
      (Refine.HCube.eBegin (2 ^ l)).equals (HCube.eEnd d (2 ^ l))) ∧
    ∀ d l, 31 ≤ l * d → nElements d (2 ^ l) = none ∧ eEnd d (2 ^ l) = none := by
  have hc : ∀ d l, l < 31 → 32 ≤ l * d → refinementLevels l = some ⟨2 ^ l⟩ ∧ HCube.nElements d (2 ^ l) = 0 ∧
      (Refine.HCube.eBegin (2 ^ l)).equals (HCube.eEnd d (2 ^ l)) := by
    intro d l hl hld
    have e : HCube.nElements d (2 ^ l) = 0 := by
      rw [HCube.nElements, HCube.power_mod, ← pow_mul]
      exact Nat.mod_eq_zero_of_dvd (pow_dvd_pow 2 hld)
    exact ⟨C46_levels l hl, e, by rw [HCube.eEnd, e]; exact ⟨rfl, rfl⟩⟩
  refine ⟨fun h => ?_, hc, fun d l hld => ?_⟩
  · exact (h 3 (2 ^ 11) (by omega) (by norm_num) (by norm_num)).2.2 (hc 3 11 (by omega) (by omega)).2.2
  · have e : nElements d (2 ^ l) = none := power_overflow (Nat.two_pow_pos l) (by
      rw [← pow_mul]; exact Nat.pow_le_pow_right (by omega) hld)
    exact ⟨e, by rw [eEnd, e]; rfl⟩

/-- C98: between `2 ^ 31` and `2 ^ 32` elements the loop over a refined cube is right, but the indices are negative -/
theorem C98_cube_negative (d n k : Nat) (hd : 0 < d) (h : (n + 1) ^ d < 2 ^ 32) (hk : 2 ^ 31 ≤ k) (hk' : k < n ^ d) :
    HCube.index (HCube.at' (Refine.HCube.eBegin n) k) = (k : Int) - 2 ^ 32 := by
  rw [(HCube.C98_cube_loops_partial d n hd h).2.2.2.2.2.1 k hk'.le, Refine.HCube.at_eq, HCube.index, HCube.toInt,
    if_neg (by simp only [Refine.HCube.eBegin]; omega)]
  simp [Refine.HCube.eBegin]

-- a hexahedron with 1400 intervals, a square with 65000
example : (1400 + 1) ^ 3 < 2 ^ 32 ∧ 2 ^ 31 < 1400 ^ 3 ∧ (65000 + 1) ^ 2 < 2 ^ 32 ∧ 2 ^ 31 < 65000 ^ 2 ∧ 32 ≤ 11 * 3 ∧ 32 ≤ 16 * 2 := by
  decide +kernel

end Verif.Refine.Machine
