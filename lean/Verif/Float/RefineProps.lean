import Verif.Float.RefineTriang
import Verif.Float.QuadProps
import Verif.Refine.HCubeProps

/-!
Property C88: the coordinates of the refinements in floating-point arithmetic.

`Fl φ` are the numbers of a format; `hex` says that the integers up to the number of intervals are numbers of the format
(up to `2 ^ 24` intervals for `float`, up to `2 ^ 53` for `double`).  The same iterator yields the exact coordinates when
the coordinate type is `ℝ`.
-/

namespace Verif.FloatRefine

open Function Finset Verif.Float Verif.Refine Verif.RefTopo Verif.RefGeom Verif.FloatQuad
open Equiv (Perm)

/-! ### Simplices -/

/-- C88: the coordinates of a vertex are the exact coordinates, rounded once. -/
theorem C88_vertex (φ : Format) (d n k : Nat) (hd : 0 < d) (hk : k < Refine.nVertices d n) (hex : ∀ m : Nat, m ≤ n → φ.rd m = m) :
    ∃ it x y, Refine.vAt d n k = some it ∧ it.coords (K := Fl φ) d = some x ∧ it.coords (K := ℝ) d = some y ∧
      ∀ i, (x i).val = φ.rd (y i) := by
  obtain ⟨v, h1, h2, h3⟩ := vertex_lattice d n k hd hk
  refine ⟨_, _, _, h1, coords_lattice h2 n, coords_lattice h2 n, fun i => ?_⟩
  rw [Fl.div_val, intCast_val, Int.cast_natCast, hex _ (refCoord_le h2 h3 i), cast_exact hex le_rfl]

/-- C88: a corner that two elements share has the same coordinates in both: if corner `i` of element `k` and corner `i'` of
element `k'` are the same point in exact arithmetic, `geometry()` computes the same numbers for both. -/
theorem C88_neighbours (φ : Format) (d n k k' i i' : Nat) (hd : 0 < d) (hk : k < Refine.nElements d n) (hk' : k' < Refine.nElements d n)
    (hi : i ≤ d) (hi' : i' ≤ d) (hex : ∀ m : Nat, m ≤ n → φ.rd m = m) :
    ∃ it it' corners corners' exact exact', ∃ c c' : Nat → Fl φ, ∃ e e' : Nat → ℝ,
      Refine.eAt d n k = some it ∧ Refine.eAt d n k' = some it' ∧
      geometry d it = some corners ∧ geometry d it' = some corners' ∧ it.geometry d = some exact ∧ it'.geometry d = some exact' ∧
      corners[i]? = some c ∧ corners'[i']? = some c' ∧ exact[i]? = some e ∧ exact'[i']? = some e' ∧
      ((∀ j, j < d → e j = e' j) → ∀ j, j < d → c j = c' j) := by
  obtain ⟨it, corners, A, a1, a2, a3, a4, a5, a6, a7⟩ := corner_spec (K := Fl φ) (lat_float hex) hd hk hi
  obtain ⟨it', corners', A', b1, b2, b3, b4, b5, b6, b7⟩ := corner_spec (K := Fl φ) (lat_float hex) hd hk' hi'
  obtain ⟨it1, exact, A1, c1, c2, c3, c4, c5, -, -⟩ := corner_spec (K := ℝ) (lat_real n) hd hk hi
  obtain ⟨it2, exact', A2, d1, d2, d3, d4, d5, -, -⟩ := corner_spec (K := ℝ) (lat_real n) hd hk' hi'
  obtain rfl := Option.some.inj (a1.symm.trans c1)
  obtain rfl := Option.some.inj (b1.symm.trans d1)
  obtain rfl := Option.some.inj (a4.symm.trans c4)
  obtain rfl := Option.some.inj (b4.symm.trans d4)
  rw [geometry_real] at c2 d2
  refine ⟨it, it', corners, corners', exact, exact', _, _, _, _, a1, b1, a2, b2, c2, d2, a5, b5, c5, d5, fun h => ?_⟩
  have hn : (0 : ℝ) < n := by
    have : 0 < n := Triang.intervals_pos hd (by omega)
    exact_mod_cast this
  have hA : ∀ j, j < d → A j = A' j := by
    intro j hj
    have := diff_inj d _ _ h j hj
    rw [div_left_inj' hn.ne'] at this
    exact_mod_cast this
  intro j hj
  simp only [diff, hA j hj]
  split
  · rename_i hj'
    rw [hA (j + 1) hj']
  · rfl

/-- C88 as stated for the corners: the vertices listed by `vertexIndices()` have, up to the order, the coordinates of the corners of
`geometry()` -/
def C88_corner_full (φ : Format) : Prop := ∀ (d n k : Nat), 0 < d → k < Refine.nElements d n → (∀ m : Nat, m ≤ n → φ.rd m = m) →
  ∃ it idx corners, Refine.eAt d n k = some it ∧ it.vertexIndices d = some idx ∧ geometry (K := Fl φ) d it = some corners ∧
    ∀ c ∈ corners, ∃ r v x, r ≤ d ∧ Refine.vAt d n (idx r) = some v ∧ v.coords (K := Fl φ) d = some x ∧ ∀ i, i < d → c i = x i

/-- the difference of two quotients -/
theorem diff_near {φ : Format} {d n : Nat} (hex : ∀ m : Nat, m ≤ n → φ.rd m = m) {A : Nat → Nat} (hc : Cone d A) (h0 : A 0 ≤ n) (j : Nat) :
    Near φ 2 (2 * φ.η) (diff d (fun j => (A j : Fl φ) / (n : Fl φ)) j).val (diff d (fun j => (A j : ℝ) / n) j) 2 := by
  have hle : ∀ j, A j ≤ n := fun j => (cone_le_zero hc j).trans h0
  have h1 : ∀ j, (A j : ℝ) / n ≤ 1 := fun j => div_le_one_of_le₀ (by exact_mod_cast hle j) (Nat.cast_nonneg n)
  have hq : ∀ j, Near φ 1 φ.η ((A j : Fl φ) / (n : Fl φ)).val ((A j : ℝ) / n) 1 := fun j =>
    (quotient_near hex (hle j) (A j : Fl φ) (cast_exact hex (hle j))).mono_m (h1 j)
  simp only [diff]
  split
  · exact ((hq j).sub (hq (j + 1))).mono (le_refl _) (by linarith) |>.mono_m (by norm_num)
  · exact ((hq j).mono (by norm_num) (by linarith [φ.η_nonneg])).mono_m (by norm_num)

section
variable (p : ℕ) (emin : ℤ) (hp : 24 ≤ p) (he : emin ≤ -(2 * p + 32))

/-- C88: the corners of `geometry()` differ by less than three epsilon from the vertices listed by `vertexIndices()`: corner number
`0, q 0 + 1, …, q (d - 1) + 1` from the vertices in their order, reversed for odd Kuhn index, as C42 states it for exact
arithmetic.  (Missing: they are not equal, see `C88_corner_counterexample`.) -/
theorem C88_corner_partial (d n k : Nat) (hd : 0 < d) (hk : k < Refine.nElements d n) (hn : n ≤ 2 ^ p) :
    ∃ it q idx corners, Refine.eAt d n k = some it ∧ getPermutation d it.kuhnIndex = some q ∧ it.vertexIndices d = some idx ∧
      geometry (K := Fl (ieee p emin hp he)) d it = some corners ∧ corners.length = d + 1 ∧
      ∀ r, r ≤ d → ∃ v x c, Refine.vAt d n (idx r) = some v ∧ v.coords (K := Fl (ieee p emin hp he)) d = some x ∧
        corners[pathOrder q (if it.kuhnIndex % 2 = 1 then d - r else r)]? = some c ∧
        ∀ i, i < d → |(c i).val - (x i).val| ≤ 3 * (epsilon p emin hp he).val := by
  have hex : ∀ m : Nat, m ≤ n → (ieee p emin hp he).rd m = m := fun m hm => ieee_nat p emin hp he m (hm.trans hn)
  obtain ⟨it, q, idx, exact, a1, a2, a3, a4, a5, a6⟩ := C42_order_partial (K := ℝ) d n k hd hk
  obtain ⟨it', q', b1, b2, b3, b4, b5, b6, b7⟩ := elem d n hd k hk
  obtain rfl := Option.some.inj (a1.symm.trans b1)
  obtain rfl := Option.some.inj (a2.symm.trans b6)
  obtain ⟨it1, corners, -, c1, c2, c3, -⟩ := corner_spec (K := Fl (ieee p emin hp he)) (i := 0) (lat_float hex) hd hk (Nat.zero_le d)
  obtain rfl := Option.some.inj (a1.symm.trans c1)
  refine ⟨it, q', idx, corners, a1, a2, a3, c2, c3, fun r hr => ?_⟩
  obtain ⟨e1, v, y, e, e2, e3, e4, e5⟩ := a6 r hr
  set s := if it.kuhnIndex % 2 = 1 then d - r else r
  have hs : s ≤ d := by
    simp only [s]
    split <;> omega
  have hps : pathOrder q' s ≤ d := by
    have := pathOrder_le b4 hs
    omega
  obtain ⟨it2, corners', A, f1, f2, f3, f4, f5, f6, f7⟩ := corner_spec (K := Fl (ieee p emin hp he)) (lat_float hex) hd hk hps
  obtain rfl := Option.some.inj (a1.symm.trans f1)
  obtain rfl := Option.some.inj (c2.symm.trans f2)
  obtain ⟨it3, exact', A', g1, g2, g3, g4, g5, -, -⟩ := corner_spec (K := ℝ) (lat_real n) hd hk hps
  obtain rfl := Option.some.inj (a1.symm.trans g1)
  rw [geometry_real] at g2
  obtain rfl := Option.some.inj (a4.symm.trans g2)
  obtain rfl := Option.some.inj (f4.symm.trans g4)
  obtain rfl := Option.some.inj (g5.symm.trans e4)
  obtain ⟨v', x, y', h1, h2, h3, h4⟩ := C88_vertex (ieee p emin hp he) d n (idx r) hd e1 hex
  obtain rfl := Option.some.inj (e2.symm.trans h1)
  obtain rfl := Option.some.inj (e3.symm.trans h3)
  refine ⟨v, x, _, e2, h2, f5, fun i hi => ?_⟩
  have hnear := (diff_near hex f6 f7 i).bound
  have hround := (ieee p emin hp he).err (y i)
  rw [← h4 i] at hround
  have hu := ieee_u_pos p emin hp he
  have hu' := ieee_u_le p emin hp he
  have hη := ieee_η_le p emin hp he
  have hη0 := (ieee p emin hp he).η_nonneg
  rw [← e5 i hi] at hnear
  have hy : |y i| ≤ 1 := by
    have hle : ∀ j, (A j : ℝ) / n ≤ 1 := fun j =>
      div_le_one_of_le₀ (by exact_mod_cast (cone_le_zero f6 j).trans f7) (Nat.cast_nonneg n)
    have h0 : ∀ j, (0 : ℝ) ≤ (A j : ℝ) / n := fun j => by positivity
    rw [e5 i hi, abs_le]
    simp only [diff]
    split
    · exact ⟨by linarith [hle (i + 1), h0 i], by linarith [hle i, h0 (i + 1)]⟩
    · exact ⟨by linarith [h0 i], hle i⟩
  rw [epsilon_val]
  set u := (ieee p emin hp he).u
  set η := (ieee p emin hp he).η
  have hη' : η ≤ 1 / 2 ^ 57 * u := by
    have : u ^ 2 ≤ 1 / 2 ^ 24 * u := by rw [sq]; exact mul_le_mul_of_nonneg_right hu' hu.le
    norm_num at this ⊢
    linarith
  have h1 : u * |y i| ≤ u := by nlinarith
  have h2 : ((1 + u) ^ 2 - 1) * 2 + (1 + u) ^ 2 * (2 * η) ≤ 49 / 10 * u := by
    have h3 : u ^ 2 ≤ 1 / 2 ^ 24 * u := by rw [sq]; exact mul_le_mul_of_nonneg_right hu' hu.le
    have h4 : (1 + u) ^ 2 ≤ 2 := by norm_num at hu'; nlinarith
    have h5 : (1 + u) ^ 2 * (2 * η) ≤ 2 * (2 * η) := mul_le_mul_of_nonneg_right h4 (by positivity)
    norm_num at h3 hη'
    nlinarith
  have h3 := abs_sub_le (diff d (fun j => (A j : Fl (ieee p emin hp he)) / (n : Fl (ieee p emin hp he))) i).val (y i) (x i).val
  rw [abs_sub_comm (y i)] at h3
  norm_num at hη'
  linarith

end

/-- `1/3` and `2/3` in `double` -/
theorem double_third : double.rd (1 / 3) = 6004799503160661 / 2 ^ 54 := by
  have hl : Int.log 2 |(1 / 3 : ℝ)| = -2 := by
    rw [abs_of_pos (by norm_num)]
    have h1 : -2 ≤ Int.log 2 (1 / 3 : ℝ) := (Int.zpow_le_iff_le_log (b := 2) (by norm_num) (by norm_num)).1 (by norm_num)
    have h2 : Int.log 2 (1 / 3 : ℝ) < -1 := (Int.lt_zpow_iff_log_lt (b := 2) (by norm_num) (by norm_num)).1 (by norm_num)
    omega
  have hb : lastBit 53 (-1074) (1 / 3) = -54 := by rw [lastBit, hl]; norm_num
  have : rdBinary 53 (-1074) (1 / 3) = 6004799503160661 / 2 ^ 54 := by
    rw [rdBinary, hb, roundEven_eq (n := 6004799503160661) (by norm_num [abs_lt])]
    norm_num
  exact this

theorem double_two_thirds : double.rd (2 / 3) = 6004799503160661 / 2 ^ 53 := by
  have hl : Int.log 2 |(2 / 3 : ℝ)| = -1 := by
    rw [abs_of_pos (by norm_num)]
    have h1 : -1 ≤ Int.log 2 (2 / 3 : ℝ) := (Int.zpow_le_iff_le_log (b := 2) (by norm_num) (by norm_num)).1 (by norm_num)
    have h2 : Int.log 2 (2 / 3 : ℝ) < 0 := (Int.lt_zpow_iff_log_lt (b := 2) (by norm_num) (by norm_num)).1 (by norm_num)
    omega
  have hb : lastBit 53 (-1074) (2 / 3) = -53 := by rw [lastBit, hl]; norm_num
  have : rdBinary 53 (-1074) (2 / 3) = 6004799503160661 / 2 ^ 53 := by
    rw [rdBinary, hb, roundEven_eq (n := 6004799503160661) (by norm_num [abs_lt])]
    norm_num
  exact this

theorem double_nat (m : Nat) (hm : m ≤ 2 ^ 53) : double.rd m = m := ieee_nat 53 (-1074) (by norm_num) (by norm_num) m hm

theorem double_hex {n : Nat} (hn : n ≤ 2 ^ 53) (m : Nat) (hm : m ≤ n) : double.rd m = m := double_nat m (hm.trans hn)

/-- the computed difference `3/3 - 2/3` -/
theorem double_diff : double.rd (double.rd ((3 : ℕ) / (3 : ℕ)) - double.rd ((2 : ℕ) / (3 : ℕ))) = 3002399751580331 / 2 ^ 53 := by
  rw [show ((3 : ℕ) : ℝ) / (3 : ℕ) = 1 by norm_num, double.rd_one, show ((2 : ℕ) : ℝ) / (3 : ℕ) = 2 / 3 by norm_num, double_two_thirds]
  refine (rdBinary_exact (p := 53) (emin := -1074) (by norm_num) (m := 3002399751580331) (k := -53) (by norm_num) (by norm_num) (by norm_num)).trans ?_
  norm_num

/-- C88: three intervals, triangle, `double`: the corner `(1/3, 2/3)` of the last element has the first coordinate
`0.33333333333333337 = 1 - 0.6666666666666666`, the vertex has `0.3333333333333333`. -/
theorem C88_corner_counterexample : ¬ C88_corner_full double := by
  intro h
  have hk : 8 < Refine.nElements 2 3 := by decide
  obtain ⟨it, idx, corners, h1, h2, h3, h4⟩ := h 2 3 8 (by norm_num) hk (double_hex (by norm_num))
  obtain ⟨it', corners', A, a1, a2, a3, a4, a5, a6, a7⟩ :=
    corner_spec (K := Fl double) (i := 1) (lat_float (double_hex (n := 3) (by norm_num))) (by norm_num) hk (by norm_num)
  obtain rfl := Option.some.inj (h1.symm.trans a1)
  obtain rfl := Option.some.inj (h3.symm.trans a2)
  have hA : (cornerOf 2 3 8 1).map (fun A => (A 0, A 1)) = some (3, 2) := by decide +kernel
  rw [a4, Option.map_some, Option.some.injEq, Prod.mk.injEq] at hA
  obtain ⟨r, v, x, hr, h5, h6, h7⟩ := h4 _ (List.mem_of_getElem? a5)
  have h8 := congrArg Fl.val (h7 0 (by norm_num))
  have e : (diff 2 (fun j => (A j : Fl double) / ((3 : ℕ) : Fl double)) 0).val = 3002399751580331 / 2 ^ 53 := by
    rw [diff, if_pos (by norm_num), hA.1, hA.2, Fl.sub_val, Fl.div_val, Fl.div_val, cast_exact (double_hex (n := 3) (by norm_num)) (by norm_num),
      cast_exact (double_hex (n := 3) (by norm_num)) (by norm_num)]
    exact double_diff
  rw [e] at h8
  obtain ⟨it2, q, idx', _, b1, -, b3, -, -, b6⟩ := C42_order_partial (K := ℝ) 2 3 8 (by norm_num) hk
  obtain rfl := Option.some.inj (h1.symm.trans b1)
  obtain rfl := Option.some.inj (h2.symm.trans b3)
  obtain ⟨w, c1, c2, c3⟩ := vertex_lattice 2 3 _ (by norm_num) (b6 r hr).1
  obtain rfl := Option.some.inj (h5.symm.trans c1)
  rw [coords_lattice c2] at h6
  obtain rfl := Option.some.inj h6
  have hw := refCoord_le c2 c3 0
  beta_reduce at h8
  rw [Fl.div_val, intCast_val, Int.cast_natCast, double_hex (n := 3) (by norm_num) _ hw, cast_exact (double_hex (n := 3) (by norm_num)) le_rfl] at h8
  generalize refCoord w 0 = m at h8 hw
  interval_cases m
  · rw [Nat.cast_zero, zero_div, double.rd_zero] at h8; norm_num at h8
  · rw [show ((1 : ℕ) : ℝ) / (3 : ℕ) = 1 / 3 by norm_num, double_third] at h8; norm_num at h8
  · rw [show ((2 : ℕ) : ℝ) / (3 : ℕ) = 2 / 3 by norm_num, double_two_thirds] at h8; norm_num at h8
  · rw [show ((3 : ℕ) : ℝ) / (3 : ℕ) = 1 by norm_num, double.rd_one] at h8; norm_num at h8

/-! ### Triangulated cubes, prisms and pyramids -/

section
variable {φ : Format} {s : Triang.Scheme (Fl φ)} {s' : Triang.Scheme ℝ} {dom : (Nat → ℝ) → Prop}

/-- C88: the copies of a vertex in different Kuhn simplices have the same coordinates: two vertices which are the same point in
exact arithmetic have equal coordinates.  `s` and `s'` are the refinements of the cube of any dimension, the prism or the
pyramid (`twin_cube`, `twin_prism`, `twin_pyramid`) with the coordinate types `Fl φ` and `ℝ`. -/
theorem C88_copies (h : Twin s s' dom) (n k k' : Nat) (hk : k < Triang.nVertices s' n) (hk' : k' < Triang.nVertices s' n) (hn : 0 < n) :
    ∃ it it' x x' y y', Triang.vAt s' n k = some it ∧ Triang.vAt s' n k' = some it' ∧ it.coords s = some x ∧ it'.coords s = some x' ∧
      it.coords s' = some y ∧ it'.coords s' = some y' ∧ ((∀ i, i < s'.dimension → y i = y' i) → ∀ i, i < s'.dimension → x i = x' i) := by
  obtain ⟨it, v, q, a1, a2, a3, a4, a5, a6, -, -⟩ := vertexT h n k hk
  obtain ⟨it', v', q', b1, b2, b3, b4, b5, b6, -, -⟩ := vertexT h n k' hk'
  refine ⟨it, it', _, _, _, _, a1, b1, a5, b5, a6, b6, fun hy i hi => ?_⟩
  have hn' : (n : ℝ) ≠ 0 := Nat.cast_ne_zero.2 (by omega)
  refine h.congr _ _ (fun i hi => ?_) i (by rw [h.dimension]; exact hi)
  rw [h.dimension] at hi
  refine chain_unique (fun a => Fl.zero_add a) (fun a => Fl.add_zero a) (quot (Fl φ) n) (quot_zero n) a4 b4 _ _ (fun i hi => ?_) i hi
  have := h.fits.inj _ _ hy i hi
  rw [r2k_quot a4 _ i hi, r2k_quot b4 _ i hi, div_left_inj' hn'] at this
  exact_mod_cast this

end

/-- C88 as stated for the corners of the elements: a corner that two elements share has the same coordinates in both -/
def C88_triang_neighbours_full (φ : Format) : Prop := ∀ d n k k' i i' : Nat, 0 < d → k < Triang.nElements (Triang.hcube d : Triang.Scheme ℝ) n →
  k' < Triang.nElements (Triang.hcube d : Triang.Scheme ℝ) n → i ≤ d → i' ≤ d → (∀ m : Nat, m ≤ n → φ.rd m = m) →
  ∃ it it' corners corners' exact exact', ∃ c c' : Nat → Fl φ, ∃ e e' : Nat → ℝ,
    Triang.eAt (Triang.hcube d : Triang.Scheme ℝ) n k = some it ∧ Triang.eAt (Triang.hcube d : Triang.Scheme ℝ) n k' = some it' ∧
    triangGeometry (Triang.hcube d) it = some corners ∧ triangGeometry (Triang.hcube d) it' = some corners' ∧
    it.geometry (Triang.hcube d) = some exact ∧ it'.geometry (Triang.hcube d) = some exact' ∧
    corners[i]? = some c ∧ corners'[i']? = some c' ∧ exact[i]? = some e ∧ exact'[i']? = some e' ∧
    ((∀ j, j < d → e j = e' j) → ∀ j, j < d → c j = c' j)

/-- C88: three intervals, cube of dimension three, `double`: corner `(1, 1/3, 1)` of element 80 has the second coordinate
`0.33333333333333337 = 1 - 0.6666666666666666`, the same corner of element 89 has `0.3333333333333333`. -/
theorem C88_triang_neighbours_counterexample : ¬ C88_triang_neighbours_full double := by
  intro h
  have hd3 : (Triang.hcube 3 : Triang.Scheme ℝ).dimension = 3 := rfl
  have hex := double_hex (n := 3) (by norm_num)
  have hk : 80 < Triang.nElements (Triang.hcube 3 : Triang.Scheme ℝ) 3 := by decide
  have hk' : 89 < Triang.nElements (Triang.hcube 3 : Triang.Scheme ℝ) 3 := by decide
  obtain ⟨it, it', corners, corners', exact, exact', c, c', e, e', h1, h2, h3, h4, h5, h6, h7, h8, h9, h10, h11⟩ :=
    h 3 3 80 89 2 2 (by norm_num) hk hk' (by norm_num) (by norm_num) hex
  obtain ⟨_, _, _, A, q, a1, a2, a3, a4, a5, a6, a7, a8, -, -⟩ := cornerT (i := 2) (twin_cube double 3 (by norm_num)) hex hk (by rw [hd3]; norm_num)
  obtain ⟨_, _, _, A', q', b1, b2, b3, b4, b5, b6, b7, b8, -, -⟩ := cornerT (i := 2) (twin_cube double 3 (by norm_num)) hex hk' (by rw [hd3]; norm_num)
  obtain rfl := Option.some.inj (h1.symm.trans a1)
  obtain rfl := Option.some.inj (h2.symm.trans b1)
  obtain rfl := Option.some.inj (h3.symm.trans a2)
  obtain rfl := Option.some.inj (h4.symm.trans b2)
  obtain rfl := Option.some.inj (h5.symm.trans a3)
  obtain rfl := Option.some.inj (h6.symm.trans b3)
  obtain rfl := Option.some.inj (h7.symm.trans a7)
  obtain rfl := Option.some.inj (h8.symm.trans b7)
  obtain rfl := Option.some.inj (h9.symm.trans a8)
  obtain rfl := Option.some.inj (h10.symm.trans b8)
  have hA : (cornerOf 3 3 26 2).map (fun A => (A 0, A 1, A 2)) = some (3, 3, 2) := by decide +kernel
  have hA' : (cornerOf 3 3 8 2).map (fun A => (A 0, A 1, A 2)) = some (3, 1, 0) := by decide +kernel
  have hq : (getPermutation 3 2).map (fun p => (p 0, p 1, p 2)) = some (0, 2, 1) := by decide +kernel
  have hq' : (getPermutation 3 3).map (fun p => (p 0, p 1, p 2)) = some (2, 0, 1) := by decide +kernel
  have a4 : cornerOf 3 3 26 2 = some A := a4
  have b4 : cornerOf 3 3 8 2 = some A' := b4
  have a5 : getPermutation 3 2 = some ⇑q := a5
  have b5 : getPermutation 3 3 = some ⇑q' := b5
  rw [a4, Option.map_some, Option.some.injEq, Prod.mk.injEq, Prod.mk.injEq] at hA
  rw [b4, Option.map_some, Option.some.injEq, Prod.mk.injEq, Prod.mk.injEq] at hA'
  rw [a5, Option.map_some, Option.some.injEq, Prod.mk.injEq, Prod.mk.injEq] at hq
  rw [b5, Option.map_some, Option.some.injEq, Prod.mk.injEq, Prod.mk.injEq] at hq'
  obtain ⟨hA0, hA1, hA2⟩ := hA
  obtain ⟨hB0, hB1, hB2⟩ := hA'
  obtain ⟨hq0, hq1, hq2⟩ := hq
  obtain ⟨hp0, hp1, hp2⟩ := hq'
  -- the three sums
  have r1 : ∀ (K : Type) [Add K] (x : Nat → K), referenceToKuhn 3 x q 1 = x 1 ∧ referenceToKuhn 3 x q 2 = x 2 + x 1 ∧
      referenceToKuhn 3 x q 0 = x 0 + (x 2 + x 1) := by
    intro K _ x
    have e2 := r2k_last 3 q x 2 (by norm_num)
    have e1 := r2k_step 3 q x 1 (by norm_num)
    have e0 := r2k_step 3 q x 0 (by norm_num)
    simp only [Nat.reduceAdd, hq0, hq1, hq2] at e0 e1 e2
    rw [e2] at e1
    rw [e1] at e0
    exact ⟨e2, e1, e0⟩
  have r2 : ∀ (K : Type) [Add K] (x : Nat → K), referenceToKuhn 3 x q' 1 = x 1 ∧ referenceToKuhn 3 x q' 0 = x 0 + x 1 ∧
      referenceToKuhn 3 x q' 2 = x 2 + (x 0 + x 1) := by
    intro K _ x
    have e2 := r2k_last 3 q' x 2 (by norm_num)
    have e1 := r2k_step 3 q' x 1 (by norm_num)
    have e0 := r2k_step 3 q' x 0 (by norm_num)
    simp only [Nat.reduceAdd, hp0, hp1, hp2] at e0 e1 e2
    rw [e2] at e1
    rw [e1] at e0
    exact ⟨e2, e1, e0⟩
  have hc := h11 ?_ 1 (by norm_num)
  · have hc := congrArg Fl.val hc
    simp only [Triang.hcube, (r1 _ _).1, (r2 _ _).1] at hc
    simp only [diff, hA1, hA2, hB1, hB2] at hc
    rw [if_pos (by norm_num), if_pos (by norm_num), Fl.sub_val, Fl.sub_val, Fl.div_val, Fl.div_val, Fl.div_val, Fl.div_val, cast_exact hex (by norm_num),
      cast_exact hex (by norm_num), cast_exact hex (by norm_num), cast_exact hex (by norm_num), double_diff, Nat.cast_zero, zero_div, double.rd_zero,
      sub_zero, double.rd_rd, show ((1 : ℕ) : ℝ) / (3 : ℕ) = 1 / 3 by norm_num, double_third] at hc
    norm_num at hc
  · intro j hj
    simp only [Triang.hcube]
    interval_cases j
    · rw [(r1 _ _).2.2, (r2 _ _).2.1]
      norm_num [diff, hA0, hA1, hA2, hB0, hB1, hB2]
    · rw [(r1 _ _).1, (r2 _ _).1]
      norm_num [diff, hA0, hA1, hA2, hB0, hB1, hB2]
    · rw [(r1 _ _).2.1, (r2 _ _).2.2]
      norm_num [diff, hA0, hA1, hA2, hB0, hB1, hB2]

/-- the coordinates with respect to a Kuhn simplex are determined by the point -/
theorem r2k_inj {d : Nat} {q : Perm Nat} (hq : ∀ k, d ≤ k → q k = k) {x y : Nat → ℝ} (h : ∀ i, i < d → referenceToKuhn d x q i = referenceToKuhn d y q i)
    (i : Nat) (hi : i < d) : x i = y i := by
  obtain ⟨j, rfl⟩ : ∃ j, q j = i := ⟨q.symm i, Equiv.apply_symm_apply q i⟩
  have hj : j < d := by
    have := symm_lt hq hi
    rwa [Equiv.symm_apply_apply] at this
  have hl : ∀ k, k < d → q k < d := fun k hk => by
    by_contra hc
    have := hq _ (not_lt.1 hc)
    have := q.injective this
    omega
  rcases Nat.lt_or_ge (j + 1) d with hj' | hj'
  · have h1 := h (q j) hi
    have h2 := h (q (j + 1)) (hl _ hj')
    rw [r2k_step d q x j hj', r2k_step d q y j hj', h2] at h1
    linarith
  · obtain rfl : d = j + 1 := by omega
    have h1 := h (q j) hi
    rwa [r2k_last (j + 1) q x j le_rfl, r2k_last (j + 1) q y j le_rfl] at h1

theorem r2k_const {d : Nat} {q : Perm Nat} (hq : ∀ k, d ≤ k → q k = k) (i : Nat) (hi : i < d) : referenceToKuhn d (fun _ => (2 : ℝ)) q i ≤ 2 * d := by
  have hj := symm_lt hq hi
  rw [← Equiv.apply_symm_apply q i, referenceToKuhn_eq d q _ _ hj, sum_const, Nat.card_Ico, nsmul_eq_mul]
  have : ((d - q.symm i : Nat) : ℝ) ≤ d := by exact_mod_cast Nat.sub_le _ _
  linarith

theorem r2k_congr {K : Type} [Add K] {d : Nat} {q : Perm Nat} (hq : ∀ k, d ≤ k → q k = k) {x y : Nat → K} (h : ∀ i, i < d → x i = y i) (i : Nat) (hi : i < d) :
    referenceToKuhn d x q i = referenceToKuhn d y q i := by
  obtain ⟨j, rfl⟩ : ∃ j, q j = i := ⟨q.symm i, Equiv.apply_symm_apply q i⟩
  have hj : j < d := by
    have := symm_lt hq hi
    rwa [Equiv.symm_apply_apply] at this
  have hl : ∀ k, k < d → q k < d := fun k hk => by
    by_contra hc
    have := hq _ (not_lt.1 hc)
    have := q.injective this
    omega
  obtain ⟨m, hm⟩ : ∃ m, j + 1 + m = d := ⟨d - (j + 1), by omega⟩
  induction m generalizing j with
  | zero => rw [r2k_last d q x j (by omega), r2k_last d q y j (by omega), h _ hi]
  | succ m ih =>
    rw [r2k_step d q x j (by omega), r2k_step d q y j (by omega), h _ hi, ih (j + 1) (hl _ (by omega)) (by omega) (by omega)]

/-- equal corners have equal numbers -/
theorem corner_unique {d n : Nat} (hn : 0 < n) {A A' : Nat → Nat} (h : ∀ j, j < d → diff d (fun j => (A j : ℝ) / n) j = diff d (fun j => (A' j : ℝ) / n) j)
    (j : Nat) (hj : j < d) : A j = A' j := by
  have hn' : (n : ℝ) ≠ 0 := Nat.cast_ne_zero.2 (by omega)
  have := diff_inj d _ _ h j hj
  rw [div_left_inj' hn'] at this
  exact_mod_cast this

/-- the diagonal of the square -/
theorem diagonal {φ : Format} {n : Nat} (hn : 0 < n) (hex : ∀ m : Nat, m ≤ n → φ.rd m = m) {q q' : Perm Nat} (hq : q 0 = 0 ∧ q 1 = 1) (hq' : q' 0 = 1 ∧ q' 1 = 0)
    {A A' : Nat → Nat} (hA : Cone 2 A) (hA' : Cone 2 A')
    (h : ∀ j, j < 2 → referenceToKuhn 2 (diff 2 fun j => (A j : ℝ) / n) q j = referenceToKuhn 2 (diff 2 fun j => (A' j : ℝ) / n) q' j) (j : Nat) (hj : j < 2) :
    referenceToKuhn 2 (diff 2 fun j => (A j : Fl φ) / (n : Fl φ)) q j = referenceToKuhn 2 (diff 2 fun j => (A' j : Fl φ) / (n : Fl φ)) q' j := by
  have hn' : (n : ℝ) ≠ 0 := Nat.cast_ne_zero.2 (by omega)
  have r1 : ∀ (K : Type) [Add K] (x : Nat → K), referenceToKuhn 2 x q 1 = x 1 ∧ referenceToKuhn 2 x q 0 = x 0 + x 1 := by
    intro K _ x
    have e1 := r2k_last 2 q x 1 (by norm_num)
    have e0 := r2k_step 2 q x 0 (by norm_num)
    simp only [Nat.reduceAdd, hq.1, hq.2] at e0 e1
    rw [e1] at e0
    exact ⟨e1, e0⟩
  have r2 : ∀ (K : Type) [Add K] (x : Nat → K), referenceToKuhn 2 x q' 0 = x 0 ∧ referenceToKuhn 2 x q' 1 = x 1 + x 0 := by
    intro K _ x
    have e1 := r2k_last 2 q' x 1 (by norm_num)
    have e0 := r2k_step 2 q' x 0 (by norm_num)
    simp only [Nat.reduceAdd, hq'.1, hq'.2] at e0 e1
    rw [e1] at e0
    exact ⟨e1, e0⟩
  have h0 := h 0 (by norm_num)
  have h1 := h 1 (by norm_num)
  rw [(r1 _ _).2, (r2 _ _).1] at h0
  rw [(r1 _ _).1, (r2 _ _).2] at h1
  simp only [diff, Nat.reduceAdd, Nat.reduceLT, if_true, if_false, zero_add, lt_self_iff_false] at h0 h1
  rw [← sub_div, ← add_div, ← sub_div, div_left_inj' hn'] at h0
  rw [← sub_div, ← add_div, div_left_inj' hn'] at h1
  have c1 := cone_le hA 0
  have c1' : (A 1 : ℝ) ≤ A 0 := by exact_mod_cast c1
  have p1 : (0 : ℝ) ≤ A' 1 := Nat.cast_nonneg _
  have z : A' 1 = 0 := by
    have : (A' 1 : ℝ) = 0 := by linarith
    exact_mod_cast this
  have z0 : A 0 = A' 0 := by
    have : (A 0 : ℝ) = A' 0 := by linarith
    exact_mod_cast this
  have z1 : A 1 = A' 0 := by
    have : (A 1 : ℝ) = A' 0 := by linarith
    exact_mod_cast this
  have hz : ((A' 1 : Nat) : Fl φ) / (n : Fl φ) = 0 := by
    refine Fl.ext ?_
    rw [z, Fl.div_val, cast_exact hex (Nat.zero_le n), Nat.cast_zero, zero_div, φ.rd_zero, Fl.zero_val]
  interval_cases j
  · rw [(r1 _ _).2, (r2 _ _).1]
    simp only [diff, Nat.reduceAdd, Nat.reduceLT, if_true, if_false, zero_add, lt_self_iff_false]
    rw [hz, z0, z1, Fl.sub_self, Fl.zero_add, Fl.sub_zero]
  · rw [(r1 _ _).1, (r2 _ _).2]
    simp only [diff, Nat.reduceAdd, Nat.reduceLT, if_true, if_false, zero_add, lt_self_iff_false]
    rw [hz, z1, Fl.sub_zero, Fl.zero_add]

section
variable (p : ℕ) (emin : ℤ) (hp : 24 ≤ p) (he : emin ≤ -(2 * p + 32))

/-- C88: a corner that two elements of the triangulated cube share has the same coordinates in both if both elements are in the
same Kuhn simplex or the dimension is at most two; in any case the coordinates differ by less than `3 d (d + 1)` epsilon.
(Missing: they are not always equal, see `C88_triang_neighbours_counterexample`.) -/
theorem C88_triang_neighbours_partial (d n k k' i i' : Nat) (hd : 0 < d) (hd' : d ≤ 30) (hk : k < Triang.nElements (Triang.hcube d : Triang.Scheme ℝ) n)
    (hk' : k' < Triang.nElements (Triang.hcube d : Triang.Scheme ℝ) n) (hi : i ≤ d) (hi' : i' ≤ d) (hn : n ≤ 2 ^ p) :
    ∃ it it' corners corners' exact exact', ∃ c c' : Nat → Fl (ieee p emin hp he), ∃ e e' : Nat → ℝ,
      Triang.eAt (Triang.hcube d : Triang.Scheme ℝ) n k = some it ∧ Triang.eAt (Triang.hcube d : Triang.Scheme ℝ) n k' = some it' ∧
      triangGeometry (Triang.hcube d) it = some corners ∧ triangGeometry (Triang.hcube d) it' = some corners' ∧
      it.geometry (Triang.hcube d) = some exact ∧ it'.geometry (Triang.hcube d) = some exact' ∧
      corners[i]? = some c ∧ corners'[i']? = some c' ∧ exact[i]? = some e ∧ exact'[i']? = some e' ∧
      ((∀ j, j < d → e j = e' j) →
        (k / Refine.nElements d n = k' / Refine.nElements d n ∨ d ≤ 2 → ∀ j, j < d → c j = c' j) ∧
        ∀ j, j < d → |(c j).val - (c' j).val| ≤ 3 * d * (d + 1) * (epsilon p emin hp he).val) := by
  have hex : ∀ m : Nat, m ≤ n → (ieee p emin hp he).rd m = m := fun m hm => ieee_nat p emin hp he m (hm.trans hn)
  have hdim : (Triang.hcube d : Triang.Scheme ℝ).dimension = d := rfl
  obtain ⟨it, corners, exact, A, q, a1, a2, a3, a4, a5, a6, a7, a8, a9, a10⟩ := cornerT (twin_cube (ieee p emin hp he) d hd) hex hk hi
  obtain ⟨it', corners', exact', A', q', b1, b2, b3, b4, b5, b6, b7, b8, b9, b10⟩ := cornerT (twin_cube (ieee p emin hp he) d hd) hex hk' hi'
  refine ⟨it, it', corners, corners', exact, exact', _, _, _, _, a1, b1, a2, b2, a3, b3, a7, b7, a8, b8, fun h => ⟨fun hs => ?_, fun j hj => ?_⟩⟩
  · obtain ⟨hN, -, -⟩ := Triang.kuhn_lt hk
    have hn0 := Triang.intervals_pos hd hN
    rw [hdim] at a5 b5 a6 b6 a9 b9
    simp only [Triang.hcube] at a5 b5 h ⊢
    by_cases hs' : k / Refine.nElements d n = k' / Refine.nElements d n
    · rw [hs'] at a5
      have e : q = q' := Equiv.coe_fn_injective (Option.some.inj (a5.symm.trans b5))
      subst e
      have hA := corner_unique hn0 (r2k_inj a6 h)
      intro j hj
      have : ∀ j, j < d → diff d (fun j => (A j : Fl (ieee p emin hp he)) / (n : Fl (ieee p emin hp he))) j =
          diff d (fun j => (A' j : Fl (ieee p emin hp he)) / (n : Fl (ieee p emin hp he))) j := by
        intro j hj
        simp only [diff, hA j hj]
        split
        · rename_i hj'; rw [hA (j + 1) hj']
        · rfl
      exact r2k_congr a6 this j hj
    · have hd2 : d ≤ 2 := hs.resolve_left hs'
      have l1 : k / Refine.nElements d n < d.factorial := (Triang.kuhn_lt hk).2.1
      have l2 : k' / Refine.nElements d n < d.factorial := (Triang.kuhn_lt hk').2.1
      generalize k / Refine.nElements d n = κ at a5 l1 hs'
      generalize k' / Refine.nElements d n = κ' at b5 l2 hs'
      obtain rfl | rfl : d = 1 ∨ d = 2 := by omega
      · simp only [Nat.factorial_one] at l1 l2
        omega
      · have p0 : (getPermutation 2 0).map (fun p => (p 0, p 1)) = some (0, 1) := by decide +kernel
        have p1 : (getPermutation 2 1).map (fun p => (p 0, p 1)) = some (1, 0) := by decide +kernel
        simp only [Nat.factorial_two] at l1 l2
        obtain ⟨rfl, rfl⟩ | ⟨rfl, rfl⟩ : (κ = 0 ∧ κ' = 1) ∨ (κ = 1 ∧ κ' = 0) := by omega
        · rw [a5, Option.map_some, Option.some.injEq, Prod.mk.injEq] at p0
          rw [b5, Option.map_some, Option.some.injEq, Prod.mk.injEq] at p1
          exact diagonal hn0 hex p0 p1 a9 b9 h
        · rw [b5, Option.map_some, Option.some.injEq, Prod.mk.injEq] at p0
          rw [a5, Option.map_some, Option.some.injEq, Prod.mk.injEq] at p1
          exact fun j hj => (diagonal hn0 hex p0 p1 b9 a9 (fun j hj => (h j hj).symm) j hj).symm
  · have h1 := (r2k_near a6 (by have := (ieee p emin hp he).η_nonneg; positivity) (fun i _ => diff_near hex a9 a10 i) j hj).bound
    have h2 := (r2k_near b6 (by have := (ieee p emin hp he).η_nonneg; positivity) (fun i _ => diff_near hex b9 b10 i) j hj).bound
    have hj' := h j hj
    simp only [Triang.hcube] at h1 h2 hj' ⊢
    have w1 := r2k_const a6 j hj
    have w2 := r2k_const b6 j hj
    simp only [hdim] at h1 h2 w1 w2
    rw [show 2 + (d - 1) = d + 1 by omega] at h1 h2
    rw [← hj'] at h2
    have h3 := abs_sub_le (referenceToKuhn d (diff d fun j => (A j : Fl (ieee p emin hp he)) / (n : Fl (ieee p emin hp he))) q j).val
      (referenceToKuhn d (diff d fun j => (A j : ℝ) / n) q j)
      (referenceToKuhn d (diff d fun j => (A' j : Fl (ieee p emin hp he)) / (n : Fl (ieee p emin hp he))) q' j).val
    rw [abs_sub_comm (referenceToKuhn d (diff d fun j => (A j : ℝ) / n) q j)] at h3
    have hu := ieee_u_pos p emin hp he
    have hu' := ieee_u_le p emin hp he
    have hη := ieee_η_le p emin hp he
    have hη0 := (ieee p emin hp he).η_nonneg
    rw [epsilon_val]
    set u := (ieee p emin hp he).u
    set η := (ieee p emin hp he).η
    have hd1 : (1 : ℝ) ≤ d := by exact_mod_cast hd
    have hd30 : (d : ℝ) ≤ 30 := by exact_mod_cast hd'
    have hη' : η ≤ 1 / 2 ^ 57 * u := by
      have : u ^ 2 ≤ 1 / 2 ^ 24 * u := by rw [sq]; exact mul_le_mul_of_nonneg_right hu' hu.le
      norm_num at this ⊢
      linarith
    have hpow := one_add_pow_le hu.le (d + 1) (by push_cast; norm_num at hu'; nlinarith)
    have hpow1 : 1 ≤ (1 + u) ^ (d + 1) := one_le_pow₀ (by linarith)
    push_cast at hpow
    have hk1 : ((d : ℝ) + 1) * u ≤ 31 / 2 ^ 24 := by norm_num at hu' ⊢; nlinarith
    have hP : (1 + u) ^ (d + 1) - 1 ≤ (1 + 31 / 2 ^ 24) * (((d : ℝ) + 1) * u) := by
      have : ((d : ℝ) + 1) ^ 2 * u ^ 2 ≤ 31 / 2 ^ 24 * (((d : ℝ) + 1) * u) := by
        rw [← mul_pow, sq]
        exact mul_le_mul_of_nonneg_right hk1 (by positivity)
      linarith
    have hP2 : (1 + u) ^ (d + 1) ≤ 2 := by norm_num at hP hk1; linarith
    have t1 : ∀ w : ℝ, w ≤ 2 * d → ((1 + u) ^ (d + 1) - 1) * w ≤ 2 * d * ((1 + 31 / 2 ^ 24) * (((d : ℝ) + 1) * u)) := by
      intro w hw
      calc ((1 + u) ^ (d + 1) - 1) * w ≤ ((1 + u) ^ (d + 1) - 1) * (2 * d) := mul_le_mul_of_nonneg_left hw (by linarith)
        _ ≤ (1 + 31 / 2 ^ 24) * (((d : ℝ) + 1) * u) * (2 * d) := mul_le_mul_of_nonneg_right hP (by positivity)
        _ = _ := by ring
    have t2 : (1 + u) ^ (d + 1) * (d * (2 * η)) ≤ 4 * d * η := by
      have := mul_le_mul_of_nonneg_right hP2 (show 0 ≤ d * (2 * η) by positivity)
      linarith
    have t3 : 4 * d * η ≤ 1 / 4 * (d * ((d + 1) * u)) := by
      have : 4 * η ≤ 1 / 4 * ((d + 1) * u) := by norm_num at hη'; nlinarith
      nlinarith
    have t4 : 0 ≤ (d : ℝ) * ((d + 1) * u) := by positivity
    have t5 := t1 _ w1
    have t6 := t1 _ w2
    generalize (1 + u) ^ (d + 1) = P at *
    norm_num at t5 t6
    linarith

end

end Verif.FloatRefine
