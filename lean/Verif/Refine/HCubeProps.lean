import Verif.Refine.HCubeModel
import Verif.Cube.Props
import Mathlib.Algebra.BigOperators.Fin

/-! Property C43: the refinement of cubes into cubes; C58 and C60 for this refinement. -/

namespace Verif.Refine.HCube

open Function Finset Verif.Cube

/-! ### specification -/

/-- the iterator after `k` increments -/
def at' (it : Iterator) (k : Nat) : Iterator := Iterator.increment^[k] it

/-- lattice points with entries less than `w` -/
def Grid (dimension w : Nat) (c : Nat → Nat) : Prop := ∀ i, i < dimension → c i < w

/-! ### lemmas -/

theorem at_eq (it : Iterator) (k : Nat) : at' it k = ⟨it.index_ + k, it.nIntervals⟩ := by
  rw [at']
  induction k with
  | zero => rfl
  | succ k ih => rw [iterate_succ_apply', ih]; rfl

theorem loop_eq (w : Nat) (k i idx : Nat) (c : Nat → Nat) (j : Nat) :
    idx2coordLoop w (List.range' i k) idx c j = if i ≤ j ∧ j < i + k then idx / w ^ (j - i) % w else c j := by
  induction k generalizing i idx c with
  | zero => rw [List.range'_zero, idx2coordLoop, if_neg (by omega)]
  | succ k ih =>
    rw [List.range'_succ, idx2coordLoop, ih]
    by_cases h1 : j = i
    · subst h1
      rw [if_neg (by omega), if_pos (by omega), update_self, Nat.sub_self, pow_zero, Nat.div_one]
    · rw [update_of_ne h1]
      by_cases h2 : i + 1 ≤ j ∧ j < i + 1 + k
      · rw [if_pos h2, if_pos (by omega), Nat.div_div_eq_div_mul, ← pow_succ', show j - (i + 1) + 1 = j - i by omega]
      · rw [if_neg h2, if_neg (by omega)]

theorem idx2coord_eq (d idx w : Nat) (hw : 0 < w) :
    ∃ c, idx2coord d idx w = some c ∧ ∀ j, j < d → c j = idx / w ^ j % w := by
  refine ⟨_, if_neg (by omega), fun j hj => ?_⟩
  rw [List.range_eq_range', loop_eq, if_pos (by omega), Nat.sub_zero]

theorem coord2idx_eq (d : Nat) (c : Nat → Nat) (w : Nat) : coord2idx d c w = ∑ i ∈ range d, c i * w ^ i := by
  have key : ∀ k i, (List.range' i k).foldr (fun d i => i * w + c d) 0 = ∑ j ∈ range k, c (i + j) * w ^ j := by
    intro k
    induction k with
    | zero => intro i; simp
    | succ k ih =>
      intro i
      rw [List.range'_succ, List.foldr_cons, ih, sum_range_succ', sum_mul]
      congr 1
      · refine sum_congr rfl fun j _ => ?_
        rw [pow_succ, show i + 1 + j = i + (j + 1) by omega, mul_assoc]
      · simp
  rw [coord2idx, List.range_eq_range', key]
  simp

theorem vertexIndex_eq (d : Nat) (it : Iterator) (e : Nat → Nat) (i : Nat) :
    it.vertexIndex d e i = ∑ j ∈ range d, ((if i.testBit j then 1 else 0) + e j) * (it.nIntervals + 1) ^ j := by
  have hbit : ∀ j, idx2multiidx i j = if i.testBit j then 1 else 0 := by
    intro j
    rw [idx2multiidx, Nat.and_one_is_mod, Nat.testBit_eq_decide_div_mod_eq, Nat.shiftRight_eq_div_pow]
    have := Nat.mod_two_eq_zero_or_one (i / 2 ^ j)
    rcases this with h | h <;> simp [h]
  have key : ∀ k, (List.range k).foldl (fun (s : Nat × Nat) d =>
      (s.1 + (idx2multiidx i d + e d) * s.2, s.2 * (it.nIntervals + 1))) (0, 1) =
      (∑ j ∈ range k, ((if i.testBit j then 1 else 0) + e j) * (it.nIntervals + 1) ^ j, (it.nIntervals + 1) ^ k) := by
    intro k
    induction k with
    | zero => simp
    | succ k ih =>
      rw [List.range_succ, List.foldl_append, ih, sum_range_succ, List.foldl_cons, List.foldl_nil, hbit, pow_succ]
  rw [Iterator.vertexIndex, key]

/-- digits of a number below `w ^ d` -/
theorem digits (d w k : Nat) (c : Nat → Nat) (hc : Grid d w c) :
    (k < w ^ d ∧ ∀ j, j < d → c j = k / w ^ j % w) ↔ k = ∑ i ∈ range d, c i * w ^ i := by
  constructor
  · rintro ⟨h1, h2⟩
    have := (finFunctionFinEquiv (m := w) (n := d)).apply_symm_apply ⟨k, h1⟩
    have := congrArg Fin.val this
    rw [finFunctionFinEquiv_apply] at this
    refine this.symm.trans ?_
    rw [Finset.sum_range]
    refine sum_congr rfl fun i _ => ?_
    rw [h2 i i.2]
    rfl
  · rintro rfl
    have e : (finFunctionFinEquiv (m := w) (n := d) fun i => ⟨c i, hc i i.2⟩).val = ∑ i ∈ range d, c i * w ^ i := by
      rw [finFunctionFinEquiv_apply, Finset.sum_range]
    refine ⟨e ▸ Fin.is_lt _, fun j hj => ?_⟩
    have := (finFunctionFinEquiv (m := w) (n := d)).symm_apply_apply fun i => ⟨c i, hc i i.2⟩
    have := congrArg Fin.val (congrFun this ⟨j, hj⟩)
    simp only at this
    rw [← this, ← e]
    rfl

theorem digit_grid (d w k : Nat) (hw : 0 < w) : Grid d w fun j => k / w ^ j % w := fun _ _ => Nat.mod_lt _ hw

/-! ### C43 -/

/-- C43: vertices and elements are enumerated in index order, and the loops make `(n+1)^dim` and `n^dim` passes -/
theorem C43_index (d n k : Nat) :
    (at' (vBegin n) k).index = k ∧ (at' (eBegin n) k).index = k ∧
      ((at' (vBegin n) k).equals (vEnd d n) ↔ k = (n + 1) ^ d) ∧ ((at' (eBegin n) k).equals (eEnd d n) ↔ k = n ^ d) := by
  rw [at_eq, at_eq]
  simp [Iterator.index, vBegin, eBegin, Iterator.equals, vEnd, eEnd, nVertices, nElements]

/-- C43: iterators are equal only at the same place of the same refinement -/
theorem C43_equals (n m k j : Nat) :
    ((at' (vBegin n) k).equals (at' (vBegin m) j) ↔ n = m ∧ k = j) ∧
      ((at' (eBegin n) k).equals (at' (eBegin m) j) ↔ n = m ∧ k = j) := by
  rw [at_eq, at_eq, at_eq, at_eq]
  simp [vBegin, eBegin, Iterator.equals, and_comm]

example : (at' (vBegin 3) 2).equals (at' (vBegin 3) 2) ∧ ¬ (at' (vBegin 3) 2).equals (at' (vBegin 4) 2) := by
  simp [C43_equals]

/-- C43: `coord2idx` and `idx2coord` are inverse to each other between the lattice of width `w` and the numbers below `w^d` -/
theorem C43_coord_index (d w : Nat) (hw : 0 < w) :
    (∀ c, Grid d w c → coord2idx d c w < w ^ d ∧ ∃ c', idx2coord d (coord2idx d c w) w = some c' ∧ ∀ j, j < d → c' j = c j) ∧
    (∀ k, k < w ^ d → ∃ c, idx2coord d k w = some c ∧ Grid d w c ∧ coord2idx d c w = k) := by
  refine ⟨fun c hc => ?_, fun k hk => ?_⟩
  · obtain ⟨h1, h2⟩ := (digits d w _ c hc).2 (coord2idx_eq d c w)
    obtain ⟨c', e, h⟩ := idx2coord_eq d (coord2idx d c w) w hw
    exact ⟨h1, c', e, fun j hj => by rw [h j hj, h2 j hj]⟩
  · obtain ⟨c, e, h⟩ := idx2coord_eq d k w hw
    have hg : Grid d w c := fun j hj => by rw [h j hj]; exact Nat.mod_lt _ hw
    exact ⟨c, e, hg, by rw [coord2idx_eq]; exact ((digits d w k c hg).1 ⟨hk, h⟩).symm⟩

example : Grid 2 3 (fun j => 2 - j) ∧ coord2idx 2 (fun j => 2 - j) 3 = 5 := by
  refine ⟨fun j hj => ?_, by decide⟩
  show 2 - j < 3
  omega

/-- C43: every lattice point is visited exactly once -/
theorem C43_vertices (d n : Nat) (hn : 0 < n) (c : Nat → Nat) (hc : Grid d (n + 1) c) :
    ∃! k, k < nVertices d n ∧ ∃ x, (at' (vBegin n) k).vCoords d = some x ∧ ∀ i, i < d → x i = (c i : ℝ) / n := by
  have hn' : (n : ℝ) ≠ 0 := Nat.cast_ne_zero.2 (by omega)
  have key : ∀ k, (k < nVertices d n ∧ ∃ x, (at' (vBegin n) k).vCoords d = some x ∧ ∀ i, i < d → x i = (c i : ℝ) / n) ↔
      k = ∑ i ∈ range d, c i * (n + 1) ^ i := by
    intro k
    rw [← digits d (n + 1) k c hc, nVertices]
    refine and_congr_right fun _ => ?_
    obtain ⟨v, h1, h2⟩ := idx2coord_eq d k (n + 1) (by omega)
    rw [at_eq, Iterator.vCoords, Iterator.vertexCoord]
    simp only [vBegin, Nat.zero_add, h1, Option.map_some, Option.some.injEq, exists_eq_left']
    refine forall_congr' fun i => ?_
    refine forall_congr' fun hi => ?_
    rw [if_pos hi, h2 i hi, div_left_inj' hn', show (1.0 : ℝ) = 1 by norm_num, mul_one, Nat.cast_inj]
    exact eq_comm
  exact ⟨_, (key _).2 rfl, fun k hk => (key k).1 hk⟩

/-- C43: every cell is visited exactly once -/
theorem C43_elements (d n : Nat) (hn : 0 < n) (c : Nat → Nat) (hc : Grid d n c) :
    ∃! k, k < nElements d n ∧ ∃ g, (at' (eBegin n) k).eGeometry d = some g ∧
      ∀ i, i < d → g.lower i = (c i : ℝ) / n ∧ g.upper i = (c i + 1 : ℝ) / n := by
  have hn' : (n : ℝ) ≠ 0 := Nat.cast_ne_zero.2 (by omega)
  have key : ∀ k, (k < nElements d n ∧ ∃ g, (at' (eBegin n) k).eGeometry d = some g ∧
      ∀ i, i < d → g.lower i = (c i : ℝ) / n ∧ g.upper i = (c i + 1 : ℝ) / n) ↔ k = ∑ i ∈ range d, c i * n ^ i := by
    intro k
    rw [← digits d n k c hc, nElements]
    refine and_congr_right fun _ => ?_
    obtain ⟨v, h1, h2⟩ := idx2coord_eq d k n hn
    rw [at_eq, Iterator.eGeometry]
    simp only [eBegin, Nat.zero_add, h1, Option.map_some, Option.some.injEq, exists_eq_left', ofCorners]
    refine forall_congr' fun i => ?_
    refine forall_congr' fun hi => ?_
    rw [h2 i hi, div_left_inj' hn', div_left_inj' hn', Nat.cast_inj, Nat.cast_add, Nat.cast_one, add_left_inj, Nat.cast_inj, and_self]
    exact eq_comm
  exact ⟨_, (key _).2 rfl, fun k hk => (key k).1 hk⟩

/-- C43: every element is a cell of the grid -/
theorem C43_cell (d n k : Nat) (hn : 0 < n) : ∃ g c, (at' (eBegin n) k).eGeometry d = some g ∧ Grid d n c ∧ g.dim = d ∧ g.coorddim = d ∧
    Built g ∧ ∀ i, i < d → g.lower i = (c i : ℝ) / n ∧ g.upper i = (c i + 1 : ℝ) / n := by
  obtain ⟨v, h1, h2⟩ := idx2coord_eq d k n hn
  rw [at_eq, Iterator.eGeometry]
  simp only [eBegin, Nat.zero_add, h1, Option.map_some]
  refine ⟨_, v, rfl, fun i hi => ?_, rfl, rfl, .corners _ _ _, fun i hi => ⟨rfl, ?_⟩⟩
  · rw [h2 i hi]; exact Nat.mod_lt _ hn
  · simp [ofCorners]

/-- C43: vertex number `i` listed by an element has the coordinates of corner `i` of the element's geometry -/
theorem C43_vertexIndices (d n k : Nat) (hn : 0 < n) (hk : k < nElements d n) :
    ∃ g idx, (at' (eBegin n) k).eGeometry d = some g ∧ (at' (eBegin n) k).vertexIndices d = some idx ∧ idx.length = g.corners ∧
      ∀ i, i < g.corners → ∃ m x, idx[i]? = some m ∧ m < nVertices d n ∧ (at' (vBegin n) m).vCoords d = some x ∧
        ∀ j, j < d → x j = g.corner i j := by
  have hn' : (n : ℝ) ≠ 0 := Nat.cast_ne_zero.2 (by omega)
  obtain ⟨v, h1, h2⟩ := idx2coord_eq d k n hn
  rw [at_eq, Iterator.eGeometry, Iterator.vertexIndices, Iterator.cellCoord]
  simp only [eBegin, Nat.zero_add, h1, Option.map_some]
  refine ⟨_, _, rfl, rfl, by simp [AxisAlignedCubeGeometry.corners, ofCorners], fun i hi => ?_⟩
  have hi : i < 1 <<< d := hi
  set c : Nat → Nat := fun j => (if i.testBit j then 1 else 0) + v j with hc
  have hg : Grid d (n + 1) c := by
    intro j hj
    have : v j < n := by rw [h2 j hj]; exact Nat.mod_lt _ hn
    simp only [c]
    split <;> omega
  obtain ⟨h3, h4⟩ := (digits d (n + 1) _ c hg).2 rfl
  obtain ⟨u, h5, h6⟩ := idx2coord_eq d (∑ i ∈ range d, c i * (n + 1) ^ i) (n + 1) (by omega)
  refine ⟨∑ i ∈ range d, c i * (n + 1) ^ i, fun j => if j < d then (u j : ℝ) * 1.0 / n else 0, ?_, h3, ?_, fun j hj => ?_⟩
  · rw [List.getElem?_map, List.getElem?_range hi, Option.map_some, vertexIndex_eq]
  · rw [at_eq, Iterator.vCoords, Iterator.vertexCoord]
    simp only [vBegin, Nat.zero_add, h5, Option.map_some]
  · simp only [if_pos hj]
    have hv := valid_ofCorners d (fun j => (v j : ℝ) / n) (fun j => ((v j + 1 : Nat) : ℝ) / n)
    rw [h6 j hj, ← h4 j hj, corner_spec hv i j hj]
    have hcount : count (ofCorners d (fun j => (v j : ℝ) / n) (fun j => ((v j + 1 : Nat) : ℝ) / n)).axes j = j := by
      change count (fun i => decide (i < d)) j = j
      have : ∀ k, k ≤ d → count (fun i => decide (i < d)) k = k := by
        intro k
        induction k with
        | zero => intro _; rfl
        | succ k ih => intro hk; rw [count_succ, ih (by omega)]; simp; omega
      exact this j hj.le
    rw [hcount]
    have hax : (ofCorners d (fun j => (v j : ℝ) / n) (fun j => ((v j + 1 : Nat) : ℝ) / n)).axes j = true := decide_eq_true hj
    rw [if_pos hax]
    simp only [ofCorners, c, show (1.0 : ℝ) = 1 by norm_num, mul_one]
    split
    · push_cast
      rw [← sub_div, ← add_div]
      congr 1
      linarith
    · push_cast
      rw [zero_add, add_zero]

/-- C43: `coords()` of an element is the centre of its geometry -/
theorem C43_center (d n k : Nat) (hn : 0 < n) :
    ∃ g x, (at' (eBegin n) k).eGeometry d = some g ∧ (at' (eBegin n) k).eCoords d = some x ∧ ∀ i, i < d → x i = g.center i := by
  have hn' : (n : ℝ) ≠ 0 := Nat.cast_ne_zero.2 (by omega)
  obtain ⟨v, h1, h2⟩ := idx2coord_eq d k n hn
  rw [at_eq, Iterator.eGeometry, Iterator.eCoords, Iterator.cellCoord]
  simp only [eBegin, Nat.zero_add, h1, Option.map_some]
  refine ⟨_, _, rfl, rfl, fun i hi => ?_⟩
  rw [center_spec (valid_ofCorners _ _ _) i hi, if_pos hi]
  have hax : (ofCorners d (fun j => (v j : ℝ) / n) (fun j => ((v j + 1 : Nat) : ℝ) / n)).axes i = true := decide_eq_true hi
  rw [if_pos hax]
  simp only [ofCorners]
  push_cast
  field_simp
  norm_num
  ring

/-- C43: the elements have volume `1 / n^dim` -/
theorem C43_volume (d n k : Nat) (hn : 0 < n) : ∃ g, (at' (eBegin n) k).eGeometry d = some g ∧ g.volume = 1 / (n : ℝ) ^ d := by
  have hn' : (n : ℝ) ≠ 0 := Nat.cast_ne_zero.2 (by omega)
  obtain ⟨g, c, h1, h2, h3, h4, h5, h6⟩ := C43_cell d n k hn
  refine ⟨g, h1, ?_⟩
  rw [volume_spec h5.valid, h4, prod_congr rfl (g := fun _ => 1 / (n : ℝ)), prod_const, card_range, div_pow, one_pow]
  intro i hi
  have hi := mem_range.1 hi
  have hax : g.axes i = true := by
    rw [at_eq, Iterator.eGeometry] at h1
    obtain ⟨v, h7, _⟩ := idx2coord_eq d k n hn
    simp only [eBegin, Nat.zero_add, h7, Option.map_some, Option.some.injEq] at h1
    rw [← h1]
    exact decide_eq_true hi
  rw [if_pos hax, (h6 i hi).1, (h6 i hi).2]
  ring

/-- C43 as stated: `geometry()` of a vertex is located at its `coords()` -/
def C43_vertex_geometry_full : Prop := ∀ (d n k : Nat), 0 < d → 0 < n → k < nVertices d n →
  ∃ g x, (at' (vBegin n) k).vGeometry d = some g ∧ (at' (vBegin n) k).vCoords d = some x ∧ ∀ i, i < d → g.corner 0 i = x i

theorem vGeometry_eq (d n k : Nat) (hn : 0 < n) : ∃ g, (at' (vBegin n) k).vGeometry d = some g ∧
    ∀ i, i < d → g.corner 0 i = ((k / n ^ i % n : Nat) : ℝ) / n := by
  obtain ⟨v, h1, h2⟩ := idx2coord_eq d k n hn
  rw [at_eq, Iterator.vGeometry]
  simp only [vBegin, Nat.zero_add, h1, Option.bind_some]
  have hcount : count (fun _ => false) d = 0 := by simp [count]
  obtain ⟨g, hg⟩ : ∃ g, ofAxes 0 d (fun j => (v j : ℝ) / n) (fun j => (v j : ℝ) / n) (fun _ => false) = some g :=
    ⟨_, if_pos hcount⟩
  obtain ⟨h3, h4, h5, h6, h7, _⟩ := valid_ofAxes hg
  refine ⟨g, hg, fun i hi => ?_⟩
  rw [corner_spec h3 0 i (by rw [h5]; exact hi), h6, h7]
  simp only [h2 i hi]
  simp

/-- C43: it is for the first `n` vertices.  (Missing: the other ones, see `C43_vertex_geometry_counterexample`.) -/
theorem C43_vertex_geometry_partial (d n k : Nat) (hk : k < n) :
    ∃ g x, (at' (vBegin n) k).vGeometry d = some g ∧ (at' (vBegin n) k).vCoords d = some x ∧ ∀ i, i < d → g.corner 0 i = x i := by
  obtain ⟨g, h1, h2⟩ := vGeometry_eq d n k (by omega)
  obtain ⟨v, h3, h4⟩ := idx2coord_eq d k (n + 1) (by omega)
  refine ⟨g, fun i => if i < d then (v i : ℝ) * 1.0 / n else 0, h1, ?_, fun i hi => ?_⟩
  · rw [at_eq, Iterator.vCoords, Iterator.vertexCoord]
    simp only [vBegin, Nat.zero_add, h3, Option.map_some]
  · rw [h2 i hi]
    simp only [if_pos hi]
    rw [h4 i hi, show (1.0 : ℝ) = 1 by norm_num, mul_one]
    rcases Nat.eq_zero_or_pos i with rfl | h
    · simp only [pow_zero, Nat.div_one]
      rw [Nat.mod_eq_of_lt hk, Nat.mod_eq_of_lt (by omega)]
    · rw [Nat.div_eq_of_lt (lt_of_lt_of_le hk (Nat.le_self_pow (by omega) _)),
        Nat.div_eq_of_lt (lt_of_lt_of_le (show k < n + 1 by omega) (Nat.le_self_pow (by omega) _)), Nat.zero_mod, Nat.zero_mod]

/-- for the unrefined square (`n = 1`) the geometries of all vertices are located at the origin -/
theorem C43_vertex_geometry_counterexample : ¬ C43_vertex_geometry_full ∧
    ∀ d k, ∃ g, (at' (vBegin 1) k).vGeometry d = some g ∧ ∀ i, i < d → g.corner 0 i = 0 := by
  have key : ∀ d k, ∃ g, (at' (vBegin 1) k).vGeometry d = some g ∧ ∀ i, i < d → g.corner 0 i = 0 := by
    intro d k
    obtain ⟨g, h1, h2⟩ := vGeometry_eq d 1 k (by omega)
    refine ⟨g, h1, fun i hi => ?_⟩
    rw [h2 i hi, Nat.mod_one]
    simp
  refine ⟨fun h => ?_, key⟩
  obtain ⟨g, x, h1, h2, h3⟩ := h 2 1 1 (by omega) (by omega) (by decide)
  obtain ⟨g', h4, h5⟩ := key 2 1
  obtain rfl := Option.some.inj (h1.symm.trans h4)
  have h6 := h3 0 (by omega)
  rw [h5 0 (by omega)] at h6
  obtain ⟨v, h7, h8⟩ := idx2coord_eq 2 1 2 (by omega)
  rw [at_eq, Iterator.vCoords, Iterator.vertexCoord] at h2
  simp only [vBegin, Nat.zero_add, h7, Option.map_some, Option.some.injEq, Nat.reduceAdd] at h2
  rw [← h2] at h6
  simp only [h8 0 (by omega)] at h6
  norm_num at h6

/-- the nine vertices of the square with two intervals -/
example : nVertices 2 2 = 9 ∧ nElements 2 2 = 4 ∧ Grid 2 3 (fun i => i + 1) := by
  refine ⟨by decide, by decide, fun i hi => ?_⟩
  change i + 1 < 3
  omega

/-- vertices listed by element 3 of the square with two intervals -/
example : (at' (eBegin 2) 3).vertexIndices 2 = some [4, 5, 7, 8] := by decide +kernel

/-! ### C60 for cubes -/

/-- C60: every point of the unit cube lies in an element -/
theorem C60_cube_cover (d n : Nat) (hn : 0 < n) (x : Nat → ℝ) (hx : ∀ i, i < d → 0 ≤ x i ∧ x i ≤ 1) :
    ∃ k g, k < nElements d n ∧ (at' (eBegin n) k).eGeometry d = some g ∧ ∀ i, i < d → g.lower i ≤ x i ∧ x i ≤ g.upper i := by
  have hn' : (0 : ℝ) < n := Nat.cast_pos.2 hn
  let c : Nat → Nat := fun i => min ⌊n * x i⌋₊ (n - 1)
  have hc : Grid d n c := fun i _ => lt_of_le_of_lt (min_le_right _ _) (by omega)
  obtain ⟨k, ⟨hk, g, h1, h2⟩, _⟩ := C43_elements d n hn c hc
  refine ⟨k, g, hk, h1, fun i hi => ?_⟩
  obtain ⟨e1, e2⟩ := hx i hi
  rw [(h2 i hi).1, (h2 i hi).2, div_le_iff₀ hn', le_div_iff₀ hn']
  have e3 : (0 : ℝ) ≤ n * x i := mul_nonneg hn'.le e1
  constructor
  · have : (c i : ℝ) ≤ ⌊n * x i⌋₊ := Nat.cast_le.2 (min_le_left _ _)
    have := Nat.floor_le e3
    linarith
  · rcases min_choice ⌊n * x i⌋₊ (n - 1) with h | h
    · have : c i = ⌊n * x i⌋₊ := h
      rw [this]
      have := Nat.lt_floor_add_one (n * x i)
      linarith
    · have : c i = n - 1 := h
      have h3 : ((c i + 1 : Nat) : ℝ) = n := by rw [this, show n - 1 + 1 = n by omega]
      push_cast at h3
      rw [h3]
      have := mul_le_of_le_one_right hn'.le e2
      linarith

/-- C60: a point in the interior of an element lies in no other element -/
theorem C60_cube_disjoint (d n k k' : Nat) (hn : 0 < n) (hk : k < nElements d n) (hk' : k' < nElements d n)
    (g g' : AxisAlignedCubeGeometry) (hg : (at' (eBegin n) k).eGeometry d = some g) (hg' : (at' (eBegin n) k').eGeometry d = some g')
    (x : Nat → ℝ) (hx : ∀ i, i < d → g.lower i < x i ∧ x i < g.upper i) (hx' : ∀ i, i < d → g'.lower i ≤ x i ∧ x i ≤ g'.upper i) :
    k = k' := by
  have hn' : (0 : ℝ) < n := Nat.cast_pos.2 hn
  obtain ⟨g1, c, h1, h2, _, _, _, h3⟩ := C43_cell d n k hn
  obtain ⟨g2, c', h1', _, _, _, _, h3'⟩ := C43_cell d n k' hn
  obtain rfl := Option.some.inj (hg.symm.trans h1)
  obtain rfl := Option.some.inj (hg'.symm.trans h1')
  have hcc : ∀ i, i < d → c i = c' i := by
    intro i hi
    obtain ⟨e1, e2⟩ := hx i hi
    obtain ⟨e3, e4⟩ := hx' i hi
    rw [(h3 i hi).1] at e1
    rw [(h3 i hi).2] at e2
    rw [(h3' i hi).1] at e3
    rw [(h3' i hi).2] at e4
    have a1 := (div_lt_div_iff_of_pos_right hn').1 (e1.trans_le e4)
    have a2 := (div_lt_div_iff_of_pos_right hn').1 (e3.trans_lt e2)
    have b1 : c i < c' i + 1 := by exact_mod_cast a1
    have b2 : c' i < c i + 1 := by exact_mod_cast a2
    omega
  refine (C43_elements d n hn c h2).unique ⟨hk, g, h1, h3⟩ ⟨hk', g', h1', fun i hi => ?_⟩
  rw [(h3' i hi).1, (h3' i hi).2, hcc i hi]
  exact ⟨rfl, rfl⟩

end Verif.Refine.HCube
