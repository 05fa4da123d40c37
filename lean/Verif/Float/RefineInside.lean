import Verif.Float.RefineProps
import Verif.Quad.Tiling

/-! Property C88: refinement of cubes into cubes; the vertices and `checkInside`. -/

namespace Verif.FloatRefine

open Function Finset Verif.Float Verif.Refine Verif.RefTopo Verif.RefGeom Verif.FloatQuad
open Equiv (Perm)

/-! ### Cubes -/

/-- C88: corner `i` of an element of the refined cube has exactly the coordinates of the vertex that the element lists in place `i`;
in particular the elements that share a vertex have it in common. -/
theorem C88_cube (φ : Format) (d n k : Nat) (hn : 0 < n) (hk : k < HCube.nElements d n) :
    ∃ g idx, cubeGeometry φ d (HCube.at' (HCube.eBegin n) k) = some g ∧ (HCube.at' (HCube.eBegin n) k).vertexIndices d = some idx ∧
      idx.length = 2 ^ d ∧ ∀ i, i < 2 ^ d → ∃ m x, idx[i]? = some m ∧ m < HCube.nVertices d n ∧
        cubeVertex φ d (HCube.at' (HCube.vBegin n) m) = some x ∧ ∀ j, j < d → x j = cubeCorner g.1 g.2 i j := by
  obtain ⟨v, h1, h2⟩ := HCube.idx2coord_eq d k n hn
  rw [HCube.at_eq, cubeGeometry, HCube.Iterator.vertexIndices, HCube.Iterator.cellCoord]
  simp only [HCube.eBegin, Nat.zero_add, h1, Option.map_some]
  refine ⟨_, _, rfl, rfl, by simp [Nat.one_shiftLeft], fun i hi => ?_⟩
  rw [← Nat.one_shiftLeft] at hi
  set c : Nat → Nat := fun j => (if i.testBit j then 1 else 0) + v j with hc
  have hg : HCube.Grid d (n + 1) c := by
    intro j hj
    have : v j < n := by rw [h2 j hj]; exact Nat.mod_lt _ hn
    simp only [c]
    split <;> omega
  obtain ⟨h3, h4⟩ := (HCube.digits d (n + 1) _ c hg).2 rfl
  obtain ⟨u, h5, h6⟩ := HCube.idx2coord_eq d (∑ i ∈ range d, c i * (n + 1) ^ i) (n + 1) (by omega)
  refine ⟨∑ i ∈ range d, c i * (n + 1) ^ i, fun j => if j < d then Fl.round φ ((u j : Fl double) * 1 / (n : Fl double)).val else 0, ?_, h3, ?_,
    fun j hj => ?_⟩
  · rw [List.getElem?_map, List.getElem?_range hi, Option.map_some, HCube.vertexIndex_eq]
  · rw [HCube.at_eq, cubeVertex, HCube.Iterator.vertexCoord]
    simp only [HCube.vBegin, Nat.zero_add, h5, Option.map_some]
  · have hb : (i &&& (1 <<< j) ≠ 0) ↔ i.testBit j = true := by
      rw [Nat.one_shiftLeft, ne_eq, Nat.and_two_pow]
      cases i.testBit j <;> simp
    simp only [if_pos hj]
    rw [h6 j hj, ← h4 j hj, cubeCorner, Fl.mul_one]
    simp only [hb, c]
    by_cases ht : i.testBit j = true
    · rw [if_pos ht, if_pos ht, Nat.add_comm]
    · rw [if_neg ht, if_neg ht, Nat.zero_add]

/-- C88: the coordinates of a vertex of the refined cube are the exact coordinates, rounded to `double` and then to the format. -/
theorem C88_cube_value (φ : Format) (d n k : Nat) (hn : n ≤ 2 ^ 53) (hk : k < HCube.nVertices d n) :
    ∃ x y, cubeVertex φ d (HCube.at' (HCube.vBegin n) k) = some x ∧ (HCube.at' (HCube.vBegin n) k).vCoords d = some y ∧
      ∀ i, (x i).val = φ.rd (double.rd (y i)) := by
  obtain ⟨u, h5, h6⟩ := HCube.idx2coord_eq d k (n + 1) (by omega)
  rw [HCube.at_eq, cubeVertex, HCube.Iterator.vCoords, HCube.Iterator.vertexCoord]
  simp only [HCube.vBegin, Nat.zero_add, h5, Option.map_some]
  refine ⟨_, _, rfl, rfl, fun i => ?_⟩
  beta_reduce
  have hex := double_hex hn
  split
  · rename_i hi
    have hu : u i ≤ n := by
      rw [h6 i hi]
      exact Nat.lt_succ_iff.1 (Nat.mod_lt _ (Nat.succ_pos n))
    rw [Fl.mul_one, show ∀ r, (Fl.round φ r).val = φ.rd r from fun _ => rfl, Fl.div_val, cast_exact hex hu, cast_exact hex le_rfl, show (1.0 : ℝ) = 1 by norm_num, mul_one]
  · rw [double.rd_zero, φ.rd_zero, Fl.zero_val]

/-- C88 as stated for the vertices of the refined cube: rounded once, as for simplices -/
def C88_cube_value_full (φ : Format) : Prop := ∀ d n k : Nat, k < HCube.nVertices d n → (∀ m : Nat, m ≤ n → φ.rd m = m) →
  ∃ x y, cubeVertex φ d (HCube.at' (HCube.vBegin n) k) = some x ∧ (HCube.at' (HCube.vBegin n) k).vCoords d = some y ∧ ∀ i, (x i).val = φ.rd (y i)

/-- C88: for `long double` (64 bits) the vertex `1/3` of the line with three intervals has the accuracy of `double` only. -/
theorem C88_cube_value_counterexample : ¬ C88_cube_value_full extended := by
  intro h
  obtain ⟨x, y, h1, h2, h3⟩ := h 1 3 1 (by decide) fun m hm => by
    interval_cases m
    · exact_mod_cast extended.rd_zero
    · exact_mod_cast extended.rd_one
    · exact extended_rd (2 * 2 ^ 55) (by norm_num) (by norm_num)
    · exact extended_rd (3 * 2 ^ 55) (by norm_num) (by norm_num)
  obtain ⟨x', y', h1', h2', h3'⟩ := C88_cube_value extended 1 3 1 (by norm_num) (by decide)
  obtain rfl := Option.some.inj (h1.symm.trans h1')
  obtain rfl := Option.some.inj (h2.symm.trans h2')
  have hy : y 0 = 1 / 3 := by
    obtain ⟨u, h5, h6⟩ := HCube.idx2coord_eq 1 1 4 (by norm_num)
    rw [HCube.at_eq, HCube.Iterator.vCoords, HCube.Iterator.vertexCoord] at h2
    simp only [HCube.vBegin, Nat.zero_add, h5, Nat.reduceAdd, Option.map_some, Option.some.injEq] at h2
    rw [← h2]
    beta_reduce
    rw [if_pos (by norm_num), h6 0 (by norm_num)]
    norm_num
  have e := (h3 0).symm.trans (h3' 0)
  rw [hy, double_third, extended_rd (x := 6004799503160661 / 2 ^ 54) (2 * 6004799503160661) (by norm_num) (by norm_num)] at e
  have h4 := extended.err (1 / 3)
  rw [e] at h4
  have hu : extended.u = 1 / 2 ^ 64 := by
    have := ieee_u 64 (-16445) (by norm_num) (by norm_num)
    norm_num at this ⊢
    exact this
  have hη : 2 ^ 33 * extended.η ≤ extended.u ^ 2 := ieee_η_le 64 (-16445) (by norm_num) (by norm_num)
  rw [hu] at h4 hη
  have hη' : extended.η ≤ 1 / 2 ^ 128 := by norm_num at hη ⊢; linarith
  rw [abs_of_pos (by norm_num : (0 : ℝ) < 1 / 3)] at h4
  rw [abs_le] at h4
  norm_num at h4 hη'
  linarith [h4.1]

/-! ### `checkInside` -/

section
variable (p : ℕ) (emin : ℤ) (hp : 24 ≤ p) (he : emin ≤ -(2 * p + 32))

/-- C88: the reference simplex contains the vertices of its refinement, in the sense of `checkInside`. -/
theorem C88_inside_simplex (d n k : Nat) (hd : 0 < d) (hd' : d ≤ 31) (hk : k < Refine.nVertices d n) (hn : n ≤ 2 ^ p) :
    ∃ it x, Refine.vAt d n k = some it ∧ it.coords (K := Fl (ieee p emin hp he)) d = some x ∧ refCheckInside d 0 x (epsilon p emin hp he) = true := by
  have hex : ∀ m : Nat, m ≤ n → (ieee p emin hp he).rd m = m := fun m hm => ieee_nat p emin hp he m (hm.trans hn)
  obtain ⟨v, h1, h2, h3⟩ := vertex_lattice d n k hd hk
  obtain ⟨it, x, y, a1, a2, a3, a4⟩ := C88_vertex (ieee p emin hp he) d n k hd hk hex
  refine ⟨it, x, a1, a2, ?_⟩
  obtain rfl := Option.some.inj (h1.symm.trans a1)
  rw [coords_lattice h2] at a3
  obtain rfl := Option.some.inj a3
  have hx : x = fun k => Fl.round (ieee p emin hp he) (((refCoord v k : ℤ) : ℝ) / n) := funext fun i => Fl.ext (a4 i)
  rw [hx]
  refine C77_rounded p emin hp he d 0 hd' _ ?_
  refine (mem_domain (rep_simplex d) _ fun k hk => ?_).2 ((Quad.dom_simplex d 1 _ zero_le_one).2 ⟨fun i _ => ?_, ?_⟩)
  · rw [refCoord, h2.zero k hk, Nat.zero_sub]; simp
  · simp only [Int.cast_natCast]; positivity
  · simp only [Int.cast_natCast]
    rw [← sum_div, ← Nat.cast_sum]
    have := sum_refCoord h2 d
    rw [h2.zero _ le_rfl, Nat.add_zero] at this
    rw [this]
    exact div_le_one_of_le₀ (by exact_mod_cast h3) (Nat.cast_nonneg n)

/-- C88: the reference cube contains the vertices of its refinement into cubes. -/
theorem C88_inside_cube (d n k : Nat) (hd' : d ≤ 31) (hk : k < HCube.nVertices d n) (hn : n ≤ 2 ^ 53) :
    ∃ x, cubeVertex (ieee p emin hp he) d (HCube.at' (HCube.vBegin n) k) = some x ∧
      refCheckInside d (2 ^ d - 1) x (epsilon p emin hp he) = true := by
  obtain ⟨x, y, h1, h2, h3⟩ := C88_cube_value (ieee p emin hp he) d n k hn hk
  refine ⟨x, h1, ?_⟩
  have hx : x = fun k => Fl.round (ieee p emin hp he) (double.rd (y k)) := funext fun i => Fl.ext (h3 i)
  obtain ⟨u, h5, h6⟩ := HCube.idx2coord_eq d k (n + 1) (by omega)
  rw [HCube.at_eq, HCube.Iterator.vCoords, HCube.Iterator.vertexCoord] at h2
  simp only [HCube.vBegin, Nat.zero_add, h5, Option.map_some, Option.some.injEq] at h2
  have hy : ∀ i, 0 ≤ y i ∧ y i ≤ 1 := by
    intro i
    rw [← h2]
    simp only
    split
    · rename_i hi
      have hu : u i ≤ n := by
        rw [h6 i hi]
        exact Nat.lt_succ_iff.1 (Nat.mod_lt _ (Nat.succ_pos n))
      rw [show (1.0 : ℝ) = 1 by norm_num, mul_one]
      exact ⟨by positivity, div_le_one_of_le₀ (by exact_mod_cast hu) (Nat.cast_nonneg n)⟩
    · exact ⟨le_rfl, zero_le_one⟩
  rw [hx]
  refine C77_rounded p emin hp he d _ hd' _ ?_
  refine (mem_domain (rep_cube d) _ fun k hk => ?_).2 (dom_cube _ 1 d fun i _ => ?_)
  · rw [← h2]
    beta_reduce
    rw [if_neg (by omega)]
    exact double.rd_zero
  · exact rdBinary_unit (by norm_num) (by norm_num) (hy i).1 (hy i).2

/-- C88: the reference cube contains the vertices of its triangulation. -/
theorem C88_inside_triang_cube (d n k : Nat) (hd : 0 < d) (hd' : d ≤ 30) (hk : k < Triang.nVertices (Triang.hcube d : Triang.Scheme ℝ) n) (hn : n ≤ 2 ^ p) :
    ∃ it x, Triang.vAt (Triang.hcube d : Triang.Scheme ℝ) n k = some it ∧
      it.coords (Triang.hcube d : Triang.Scheme (Fl (ieee p emin hp he))) = some x ∧ refCheckInside d (2 ^ d - 1) x (epsilon p emin hp he) = true := by
  have hex : ∀ m : Nat, m ≤ n → (ieee p emin hp he).rd m = m := fun m hm => ieee_nat p emin hp he m (hm.trans hn)
  obtain ⟨it, v, q, a1, a2, a3, a4, a5, a6, a7, a8⟩ := vertexT (twin_cube (ieee p emin hp he) d hd) n k hk
  refine ⟨it, _, a1, a5, ?_⟩
  have hdim : (Triang.hcube d : Triang.Scheme ℝ).dimension = d := rfl
  simp only [hdim] at a4 a8 ⊢
  have hu := ieee_u_pos p emin hp he
  have hη0 := (ieee p emin hp he).η_nonneg
  have h1u : (1 : ℝ) ≤ 1 + (ieee p emin hp he).u := by linarith
  unfold Float.refCheckInside
  rw [Float.checkInside_iff (rep_cube d)]
  have hr : 0 ≤ (1 + (ieee p emin hp he).u) ^ (0 + 2 * d) - 1 := by linarith [one_le_pow₀ h1u (n := 0 + 2 * d)]
  refine accept_rel (y := referenceToKuhn d (fun i => quot ℝ n (refCoord v i)) q) hr
    (δ := (1 + (ieee p emin hp he).u) ^ (0 + 2 * d) * (d * (ieee p emin hp he).η)) (by positivity) _ _ 1 0 le_rfl zero_le_one le_rfl
    (by simp [Fl.one_val]) (dom_cube _ 1 d a8) ?_ ?_
  · intro i hi
    rw [Topo.dim_cube] at hi
    have h1 := ((r2k_near a4 hη0 (fun i _ => quot_near hex (refCoord_le a2 a3 i)) i hi).mono (l := 0 + 2 * d) (by omega) le_rfl).bound
    exact h1
  · rw [Topo.dim_cube]
    refine lt_of_lt_of_eq (budget_rule hu (ieee_u_le p emin hp he) hη0 (ieee_η_le p emin hp he) d 0 hd' (by norm_num)) ?_
    exact (tolerance_val p emin hp he).symm

/-- the Kuhn coordinates of a vertex, and their reflections -/
theorem kuhn_close {n : Nat} {v : Nat → Nat} {q : Perm Nat} (hex : ∀ m : Nat, m ≤ n → (ieee p emin hp he).rd m = m) (a2 : Cone 3 v) (a3 : v 0 ≤ n)
    (a4 : ∀ j, 3 ≤ j → q j = j) (a7 : InKuhn 3 q (referenceToKuhn 3 (fun i => quot ℝ n (refCoord v i)) q)) (i : Nat) (hi : i < 3) :
    |(referenceToKuhn 3 (fun i => quot (Fl (ieee p emin hp he)) n (refCoord v i)) q i).val - referenceToKuhn 3 (fun i => quot ℝ n (refCoord v i)) q i| ≤
        5 * (ieee p emin hp he).u ∧
      |(1 - referenceToKuhn 3 (fun i => quot (Fl (ieee p emin hp he)) n (refCoord v i)) q i).val -
        (1 - referenceToKuhn 3 (fun i => quot ℝ n (refCoord v i)) q i)| ≤ 5 * (ieee p emin hp he).u := by
  have hη0 := (ieee p emin hp he).η_nonneg
  have h1 := (r2k_near a4 hη0 (fun i _ => quot_near hex (refCoord_le a2 a3 i)) i hi).bound
  have hy : 0 ≤ referenceToKuhn 3 (fun i => quot ℝ n (refCoord v i)) q i ∧ referenceToKuhn 3 (fun i => quot ℝ n (refCoord v i)) q i ≤ 1 := by
    have := a7.2 _ (symm_lt a4 hi)
    rwa [Equiv.apply_symm_apply] at this
  have h2 := Fl.sub_err 1 (referenceToKuhn 3 (fun i => quot (Fl (ieee p emin hp he)) n (refCoord v i)) q i)
  generalize referenceToKuhn 3 (fun i => quot (Fl (ieee p emin hp he)) n (refCoord v i)) q i = x at *
  generalize referenceToKuhn 3 (fun i => quot ℝ n (refCoord v i)) q i = y at *
  have hu := ieee_u_pos p emin hp he
  have hu' := ieee_u_le p emin hp he
  have hη := ieee_η_le p emin hp he
  rw [Fl.one_val] at h2
  set u := (ieee p emin hp he).u
  set η := (ieee p emin hp he).η
  have hη' : η ≤ 1 / 2 ^ 57 * u := by
    have : u ^ 2 ≤ 1 / 2 ^ 24 * u := by rw [sq]; exact mul_le_mul_of_nonneg_right hu' hu.le
    norm_num at this ⊢
    linarith
  have h3 : |x.val - y| ≤ 31 / 10 * u := by
    refine h1.trans ?_
    have h6 : (1 + u) ^ 3 - 1 ≤ 301 / 100 * u := by
      have : u ^ 2 ≤ 1 / 2 ^ 24 * u := by rw [sq]; exact mul_le_mul_of_nonneg_right hu' hu.le
      norm_num at this hu'
      nlinarith
    have h7 : 0 ≤ (1 + u) ^ 3 - 1 := by linarith [one_le_pow₀ (show 1 ≤ 1 + u by linarith) (n := 3)]
    have h8 : ((1 + u) ^ 3 - 1) * y ≤ (1 + u) ^ 3 - 1 := mul_le_of_le_one_right h7 hy.2
    have h9 : (1 + u) ^ 3 * (3 * η) ≤ 2 * (3 * η) := by
      refine mul_le_mul_of_nonneg_right ?_ (by positivity)
      norm_num at hu'
      linarith
    norm_num at hη' h8 ⊢
    linarith
  refine ⟨by linarith, ?_⟩
  have h4 : |1 - x.val| ≤ 1 + 31 / 10 * u := by
    rw [abs_le] at h3 ⊢
    constructor <;> linarith
  have h5 := abs_sub_le (1 - x).val (1 - x.val) (1 - y)
  rw [show 1 - x.val - (1 - y) = -(x.val - y) by ring, abs_neg] at h5
  norm_num at hu'
  nlinarith

theorem accept_five (id : Nat) (x : Nat → Fl (ieee p emin hp he)) (y : Vec ℝ) (hy : y ∈ domain ℝ 3 id)
    (hx : ∀ k, k < 3 → |(x k).val - y k| ≤ 5 * (ieee p emin hp he).u) : refCheckInside 3 id x (epsilon p emin hp he) = true := by
  have hu := ieee_u_pos p emin hp he
  have hu' := ieee_u_le p emin hp he
  refine C77_accept _ 3 id x _ y hy _ (by positivity) hx ?_
  rw [tolerance_val]
  set u := (ieee p emin hp he).u
  have h2 : u ^ 2 ≤ 1 / 2 ^ 24 * u := by rw [sq]; exact mul_le_mul_of_nonneg_right hu' hu.le
  have h3 : (1 + u) ^ 3 ≤ 1 + 4 * u := by
    norm_num at hu' h2
    nlinarith
  have h4 : (1 + u) ^ 3 * (1 + (3 : ℕ) * (5 * u)) ≤ (1 + 4 * u) * (1 + (3 : ℕ) * (5 * u)) := mul_le_mul_of_nonneg_right h3 (by positivity)
  push_cast at h4 ⊢
  norm_num at h2
  nlinarith

/-- C88: the reference prism contains the vertices of its triangulation. -/
theorem C88_inside_prism (n k : Nat) (hk : k < Triang.nVertices (Triang.prism : Triang.Scheme ℝ) n) (hn : n ≤ 2 ^ p) :
    ∃ it x, Triang.vAt (Triang.prism : Triang.Scheme ℝ) n k = some it ∧
      it.coords (Triang.prism : Triang.Scheme (Fl (ieee p emin hp he))) = some x ∧ refCheckInside 3 5 x (epsilon p emin hp he) = true := by
  have hex : ∀ m : Nat, m ≤ n → (ieee p emin hp he).rd m = m := fun m hm => ieee_nat p emin hp he m (hm.trans hn)
  obtain ⟨it, v, q, a1, a2, a3, a4, a5, a6, a7, a8⟩ := vertexT (twin_prism (ieee p emin hp he)) n k hk
  refine ⟨it, _, a1, a5, ?_⟩
  have hc := kuhn_close p emin hp he hex a2 a3 a4 a7
  refine accept_five p emin hp he 5 _ (Triang.prismTransform (referenceToKuhn 3 (fun i => quot ℝ n (refCoord v i)) q))
    ((mem_domain (rep_topoOf 3 5) _ fun k hk => ?_).2 ?_) fun k hk => ?_
  · obtain ⟨m, rfl⟩ := Nat.exists_eq_add_of_le hk
    rw [Nat.add_comm]
    rfl
  · obtain ⟨b1, b2, b3, b4, b5⟩ : Triang.InPrism (Triang.prismTransform (referenceToKuhn 3 (fun i => quot ℝ n (refCoord v i)) q)) := a8
    rw [show topoOf 3 5 = .prism (.pyr (.prism .pt)) by decide]
    exact ⟨b4, b5, b2, le_of_add_le_of_nonneg_right b3 b1, b1, le_sub_iff_add_le.2 b3, trivial⟩
  · interval_cases k
    · exact (hc 1 (by norm_num)).1
    · exact (hc 0 (by norm_num)).2
    · exact (hc 2 (by norm_num)).1

/-- C88: the reference pyramid contains the vertices of its triangulation. -/
theorem C88_inside_pyramid (n k : Nat) (hk : k < Triang.nVertices (Triang.pyramid : Triang.Scheme ℝ) n) (hn : n ≤ 2 ^ p) :
    ∃ it x, Triang.vAt (Triang.pyramid : Triang.Scheme ℝ) n k = some it ∧
      it.coords (Triang.pyramid : Triang.Scheme (Fl (ieee p emin hp he))) = some x ∧ refCheckInside 3 3 x (epsilon p emin hp he) = true := by
  have hex : ∀ m : Nat, m ≤ n → (ieee p emin hp he).rd m = m := fun m hm => ieee_nat p emin hp he m (hm.trans hn)
  obtain ⟨it, v, q, a1, a2, a3, a4, a5, a6, a7, a8⟩ := vertexT (twin_pyramid (ieee p emin hp he)) n k hk
  refine ⟨it, _, a1, a5, ?_⟩
  have hc := kuhn_close p emin hp he hex a2 a3 a4 a7
  refine accept_five p emin hp he 3 _ (Triang.pyramidTransform (referenceToKuhn 3 (fun i => quot ℝ n (refCoord v i)) q))
    ((mem_domain (rep_topoOf 3 3) _ fun k hk => ?_).2 ?_) fun k hk => ?_
  · obtain ⟨m, rfl⟩ := Nat.exists_eq_add_of_le hk
    rw [Nat.add_comm]
    rfl
  · obtain ⟨b1, b2, b3, b4, b5⟩ : Triang.InPyramid (Triang.pyramidTransform (referenceToKuhn 3 (fun i => quot ℝ n (refCoord v i)) q)) := a8
    rw [show topoOf 3 3 = .pyr (.prism (.prism .pt)) by decide]
    exact ⟨b3, le_of_add_le_of_nonneg_right b4 b1, b2, le_sub_iff_add_le.2 b5, b1, le_sub_iff_add_le.2 b4, trivial⟩
  · interval_cases k
    · exact (hc 0 (by norm_num)).2
    · exact (hc 1 (by norm_num)).2
    · exact (hc 2 (by norm_num)).1

end

/-! ### Examples -/

/-- `C88_vertex`, `C88_neighbours`: up to `2 ^ 24` intervals in `float`; the triangle with a thousand intervals -/
example : (∀ m : Nat, m ≤ 1000 → (ieee 24 (-149) (by norm_num) (by norm_num)).rd m = m) ∧ 500000 < Refine.nVertices 2 1000 ∧ 999999 < Refine.nElements 2 1000 :=
  ⟨fun m hm => ieee_nat 24 (-149) (by norm_num) (by norm_num) m (hm.trans (by norm_num)), by decide +kernel, by decide +kernel⟩

/-- `C88_copies`: three intervals, the centre of the triangulated square belongs to both Kuhn simplices, the origin too: vertices 0 and 10 -/
example : 0 < Triang.nVertices (Triang.hcube 2 : Triang.Scheme ℝ) 3 ∧ 10 < Triang.nVertices (Triang.hcube 2 : Triang.Scheme ℝ) 3 := by decide

/-- elements of the triangulations of cube, prism and pyramid -/
example : 89 < Triang.nElements (Triang.hcube 3 : Triang.Scheme ℝ) 3 ∧ 59 < Triang.nVertices (Triang.prism : Triang.Scheme ℝ) 3 ∧
    39 < Triang.nVertices (Triang.pyramid : Triang.Scheme ℝ) 3 := by decide

/-- elements and vertices of the refined cube -/
example : 26 < HCube.nElements 3 3 ∧ 63 < HCube.nVertices 3 3 := by decide

end Verif.FloatRefine
