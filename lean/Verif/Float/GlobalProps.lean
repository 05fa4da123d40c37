import Verif.Float.Global
import Verif.Float.InsideProps

/-!
C78: which geometries reproduce their corners exactly in floating-point arithmetic.
C79: error bounds of the maps in floating-point arithmetic; the exact values are those of the model over `ℝ`, applied to the values
of the data.
-/

namespace Verif.Float

open Verif.Typ Verif.RefTopo Verif.RefGeom
open Verif.MultiLinear (nv ML)

variable {φ : Format}

/-- the exact values of computed coordinates -/
def vals (x : Nat → Fl φ) : Nat → ℝ := fun k => (x k).val

/-! ### C78 -/

/-- C78: `global` of a multilinear geometry maps the corners of the reference element to the corners of the geometry without any
rounding error, for every topology, whatever the memory of the result contained before. -/
theorem C78_multilinear (g : MultiLinearGeometry (Fl φ)) (hid : g.id < 2 ^ g.mydim) (ht : 0 ≤ g.tol.val) (ht1 : g.tol.val < 1)
    (y₀ : Nat → Fl φ) (i : Nat) (p : Nat → Fl φ) (hp : (referenceCorners g.mydim g.id)[i]? = some p) :
    g.global y₀ p = g.corners_ i := by
  have h1 : (RefGeom.referenceCorners (K := ℝ) g.mydim g.id)[i]? = some fun r => (p r).val := by
    rw [← corners_val (φ := φ), List.getElem?_map, hp]; rfl
  rw [cornersOf_eq (rep_topoOf _ _), ← MultiLinear.sub_self hid] at h1
  rw [MultiLinearGeometry.global, globalS_corner g ht ht1 p g.mydim (le_refl _) false 0 y₀ (by simp) i _ h1 fun _ _ => rfl]
  simp

/-- a geometry in `double` built from corners has these corners -/
def C78_affine_full : Prop :=
  ∀ (mydim id : Nat), IsSimplexId mydim id → id < 2 ^ mydim → ∀ (coordVector : Nat → Nat → Fl double) (i : Nat), i ≤ mydim →
    affineCorner mydim id coordVector i = some (coordVector i)

/-- `global` of an axis-aligned cube in `double` maps the corners of the reference element to `corner(k)` -/
def C78_cube_full : Prop :=
  ∀ (dim k : Nat) (lower upper : Nat → Fl double) (i : Nat), i < dim → k < 2 ^ dim →
    ∀ p : Nat → Fl double, (referenceCorners dim (2 ^ dim - 1))[k]? = some p → cubeGlobal lower upper p i = cubeCorner lower upper k i

/-- C78: the first corner of an affine geometry is exact, the corner with the smallest coordinates of a cube is exact. -/
theorem C78_origin_partial (mydim : Nat) (origin : Nat → Fl φ) (jt : Nat → Nat → Fl φ) (lower upper : Nat → Fl φ) :
    affineGlobal mydim origin jt (fun _ => 0) = origin ∧ cubeGlobal lower upper (fun _ => 0) = lower := by
  constructor
  · funext j
    rw [affineGlobal]
    generalize List.range' 0 (mydim - 0) = l
    induction l with
    | nil => rfl
    | cons a l ih => rw [List.foldl_cons, Fl.mul_zero, Fl.add_zero]; exact ih
  · funext j
    rw [cubeGlobal, Fl.zero_mul, Fl.add_zero]

/-- `2^-60` -/
noncomputable def tiny : Fl double :=
  ⟨2 ^ (-60 : ℤ), rdBinary_exact (by norm_num) (m := 1) (k := -60) (by norm_num) (by norm_num) (by norm_num)⟩

/-- one plus a bit less than epsilon is one -/
theorem tiny_sub : tiny - (-1 : Fl double) = 1 := by
  apply Fl.ext
  rw [Fl.sub_val, Fl.neg_val, Fl.one_val]
  change rdBinary 53 (-1074) ((2:ℝ) ^ (-60 : ℤ) - -1) = 1
  have hlog : Int.log 2 |(2:ℝ) ^ (-60 : ℤ) - -1| = 0 := by
    rw [Int.log_of_one_le_right _ (by norm_num)]
    have : ⌊|(2:ℝ) ^ (-60 : ℤ) - -1|⌋₊ = 1 := by
      rw [Nat.floor_eq_iff (by positivity)]; norm_num
    rw [this]; rfl
  have hb : lastBit 53 (-1074) ((2:ℝ) ^ (-60 : ℤ) - -1) = -52 := by
    rw [lastBit, hlog]; norm_num
  have hfl : ⌊((2:ℝ) ^ (-60 : ℤ) - -1) / 2 ^ (-52 : ℤ)⌋ = 2 ^ 52 := by
    rw [Int.floor_eq_iff]; norm_num
  have hr : roundEven (((2:ℝ) ^ (-60 : ℤ) - -1) / 2 ^ (-52 : ℤ)) = 2 ^ 52 := by
    rw [roundEven, if_neg, round_eq, Int.floor_eq_iff]
    · norm_num
    · rw [Int.fract, hfl]; norm_num
  rw [rdBinary, hb, hr]
  norm_num

theorem one_add_neg : (-1 : Fl double) + 1 = 0 := by
  apply Fl.ext
  rw [Fl.add_val, Fl.neg_val, Fl.one_val, Fl.zero_val, neg_add_cancel]
  exact double.rd_zero

theorem tiny_ne : (0 : Fl double) ≠ tiny := by
  intro h
  have := congrArg Fl.val h
  rw [Fl.zero_val] at this
  exact (two_zpow_pos (-60)).ne this

/-- C78: an affine geometry built from corners does not have these corners: the segment from -1 to 2^-60 ends in 0. -/
theorem C78_affine_counterexample : ¬ C78_affine_full := by
  intro h
  have h1 := h 1 0 (fun k h1 h2 => absurd h2 (by omega)) (by norm_num) (fun k _ => if k = 0 then -1 else tiny) 1 (le_refl _)
  simp only [affineCorner, position, referenceCorners] at h1
  have hp : implIsPrism 0 (0 + 1) 0 = true := by decide
  rw [hp] at h1
  simp only [if_true, List.map_cons, List.map_nil, List.cons_append, List.nil_append, List.getElem?_cons_succ, List.getElem?_cons_zero,
    Option.map_some, Option.some.injEq] at h1
  have h2 := congrFun h1 0
  simp [affineGlobal, affineJt, List.range', tiny_sub, Fl.mul_one, one_add_neg] at h2
  exact tiny_ne h2

/-- C78: `global` of the right corner of the interval from -1 to 2^-60 is not `corner(1)`. -/
theorem C78_cube_counterexample : ¬ C78_cube_full := by
  intro h
  have hp : implIsPrism 1 (0 + 1) 0 = true := by decide
  have h1 := h 1 1 (fun _ => -1) (fun _ => tiny) 0 (by norm_num) (by norm_num) (fun j => if j = 0 then 1 else 0)
    (by simp [referenceCorners, hp])
  simp [cubeGlobal, cubeCorner, tiny_sub, Fl.one_mul, one_add_neg] at h1
  exact tiny_ne h1

/-! ### C79 -/

/-- C79: error of `AffineGeometry::global`. -/
theorem C79_affine (mydim : Nat) (origin : Nat → Fl φ) (jt : Nat → Nat → Fl φ) (x : Nat → Fl φ) (j : Nat) :
    |(affineGlobal mydim origin jt x j).val - affineGlobal mydim (vals origin) (fun i => vals (jt i)) (vals x) j| ≤
      ((1 + φ.u) ^ (mydim + 1) - 1) * (|(origin j).val| + ((List.range mydim).map fun i => |(jt i j).val| * |(x i).val|).sum) +
        (1 + φ.u) ^ (mydim + 1) * (mydim * φ.η) := by
  have key : ∀ (n : Nat) (s k : ℕ) (S m b : ℝ) (a : Fl φ), 1 ≤ k → Near φ k S a.val b m →
      Near φ (k + n) (S + n * φ.η) ((List.range' s n).foldl (fun y i => y + jt i j * x i) a).val
        ((List.range' s n).foldl (fun y i => y + (jt i j).val * (x i).val) b)
        (m + ((List.range' s n).map fun i => |(jt i j).val| * |(x i).val|).sum) := by
    intro n
    induction n with
    | zero => intro s k S m b a _ h; simpa using h
    | succ n ih =>
      intro s k S m b a hk h
      have h1 : Near φ k φ.η (jt s j * x s).val ((jt s j).val * (x s).val) (|(jt s j).val| * |(x s).val|) :=
        ((Near.exact (φ := φ) (jt s j).val).mul (Near.exact (φ := φ) (x s).val)).mono (by omega) (by simp)
      have h2 := ih (s + 1) (k + 1) _ _ _ _ (by omega) (h.add h1)
      rw [List.range'_succ, List.foldl_cons, List.foldl_cons, List.map_cons, List.sum_cons]
      convert h2 using 1
      · omega
      · push_cast; ring
      · ring
  have h := key mydim 0 1 0 _ _ (origin j) (le_refl _) ((Near.exact (φ := φ) (origin j).val).mono (by omega) (le_refl _))
  have hb := h.bound
  rw [← List.range_eq_range', Nat.add_comm 1, zero_add] at hb
  simpa [affineGlobal, vals, List.range_eq_range'] using hb

/-- C79: error of `AxisAlignedCubeGeometry::global`. -/
theorem C79_cube_global (lower upper x : Nat → Fl φ) (i : Nat) :
    |(cubeGlobal lower upper x i).val - cubeGlobal (vals lower) (vals upper) (vals x) i| ≤
      ((1 + φ.u) ^ 3 - 1) * (|(lower i).val| + |(x i).val| * |(upper i).val - (lower i).val|) + (1 + φ.u) ^ 3 * φ.η := by
  have h1 := (Near.exact (φ := φ) (x i).val).mul (Near.sub_exact (upper i) (lower i))
  have h2 := ((Near.exact (φ := φ) (lower i).val).mono (l := 2) (by omega) (le_refl _)).add h1
  have h3 := h2.bound
  simpa [cubeGlobal, vals] using h3

/-- C79: error of `AxisAlignedCubeGeometry::local`: four roundings, relative to the result. -/
theorem C79_cube_local (hu : φ.u ≤ 1 / 2) (lower upper y : Nat → Fl φ) (i : Nat) (h : (lower i).val ≠ (upper i).val) :
    |(cubeLocal lower upper y i).val - cubeLocal (vals lower) (vals upper) (vals y) i| ≤
      ((1 + φ.u) ^ 4 - 1) * |cubeLocal (vals lower) (vals upper) (vals y) i| + (1 + φ.u) ^ 4 * φ.η := by
  have h1 := (Near.sub_exact (y i) (lower i)).div hu (sub_ne_zero.2 h.symm) (Fl.sub_err (upper i) (lower i))
  have h2 := h1.bound
  simpa [cubeLocal, vals, abs_div] using h2

/-- C79: `local` of `global` gives the point back up to rounding errors; these are amplified by the distance of the cube from the
origin of the coordinates relative to its size. -/
theorem C79_cube_roundtrip (hu : φ.u ≤ 1 / 2) (lower upper x : Nat → Fl φ) (i : Nat) (h : (lower i).val < (upper i).val) :
    |(cubeLocal lower upper (cubeGlobal lower upper x) i).val - (x i).val| ≤
      ((1 + φ.u) ^ 7 - 1) * (2 * |(lower i).val| / ((upper i).val - (lower i).val) + |(x i).val|) +
        (1 + φ.u) ^ 7 * (φ.η / ((upper i).val - (lower i).val) + φ.η) := by
  have hH : 0 < (upper i).val - (lower i).val := sub_pos.2 h
  have h1 := (Near.exact (φ := φ) (x i).val).mul (Near.sub_exact (upper i) (lower i))
  have h2 := ((Near.exact (φ := φ) (lower i).val).mono (l := 2) (by omega) (le_refl _)).add h1
  have h3 := h2.sub ((Near.exact (φ := φ) (lower i).val).mono (l := 3) (by omega) (le_refl _))
  have h4 := (h3.div hu hH.ne' (Fl.sub_err (upper i) (lower i))).bound
  rw [abs_of_pos hH] at h4
  have e1 : ((lower i).val + (x i).val * ((upper i).val - (lower i).val) - (lower i).val) / ((upper i).val - (lower i).val) = (x i).val := by
    field_simp; ring
  have e2 : (|(lower i).val| + |(x i).val| * ((upper i).val - (lower i).val) + |(lower i).val|) / ((upper i).val - (lower i).val) =
      2 * |(lower i).val| / ((upper i).val - (lower i).val) + |(x i).val| := by
    field_simp; ring
  rw [e1, e2] at h4
  simpa [cubeLocal, cubeGlobal] using h4

theorem allPrism_of_isCubeId {id : Nat} : ∀ {d : Nat}, IsCubeId d id → AllPrism (MultiLinear.sub id d)
  | 0, _ => trivial
  | d + 1, h => by
    have hp : implIsPrism id (d + 1) (d + 1 - (d + 1)) = true := by
      rw [Nat.sub_self, implIsPrism_eq]
      by_cases hd : d = 0
      · simp [hd]
      · simp [h d (by omega) (by omega)]
    rw [(MultiLinear.sub_succ id d (d + 1) (by omega)).1 hp]
    exact allPrism_of_isCubeId (d := d) fun k h1 h2 => h k h1 (by omega)

/-- C79: error of `MultiLinearGeometry::global` on cubes of any dimension, for points of the element; `C` bounds the coordinates of the
corners. -/
theorem C79_multilinear_cube (g : MultiLinearGeometry (Fl φ)) (hid : g.id < 2 ^ g.mydim) (hcube : IsCubeId g.mydim g.id)
    (y₀ x : Nat → Fl φ) (hx : ∀ r, r < g.mydim → 0 ≤ (x r).val ∧ (x r).val ≤ 1) (j : Nat) (C : ℝ)
    (hC : ∀ k, k < 2 ^ g.mydim → |(g.corners_ k j).val| ≤ C) :
    |(g.global y₀ x j).val - MultiLinear.MultiLinearGeometry.global ⟨g.mydim, g.cdim, g.id, fun k => vals (g.corners_ k), g.tol.val⟩ (vals x) j| ≤
      ((1 + φ.u) ^ (2 * g.mydim + 1 + 2 ^ g.mydim) - 1) * C +
        (1 + φ.u) ^ (2 * g.mydim + 1 + 2 ^ g.mydim) * (2 ^ g.mydim * (g.mydim * C + 1) * φ.η) := by
  have hC0 : 0 ≤ C := (abs_nonneg _).trans (hC 0 (Nat.two_pow_pos _))
  have hall : AllPrism (MultiLinear.sub g.id g.mydim) := allPrism_of_isCubeId hcube
  have hnv : nv (MultiLinear.sub g.id g.mydim) ≤ 2 ^ g.mydim := by
    have := sz_le (MultiLinear.sub g.id g.mydim)
    rw [MultiLinear.sub_dim] at this
    rwa [nv, MultiLinear.sub_dim]
  have hone : Near φ 0 0 (1 : Fl φ).val 1 1 := by have := Near.exact (φ := φ) (1 : Fl φ).val; rwa [Fl.one_val, abs_one] at this
  have h := (globalS_near g g.tol.val x j C hC0 g.mydim (le_refl _) hall hx false 0
    (fun k hk => by rw [Nat.zero_add]; exact hC k (by omega)) 1 0 (2 * g.mydim + 1) 0 0 1 0 0 hone y₀ (by omega) (le_refl _)
    (by simp) (by simp)).2
  have hM := (ML_bounds g.tol.val C (z := vals x) (MultiLinear.sub g.id g.mydim) hall (by rw [MultiLinear.sub_dim]; exact hx)
    (fun k => (g.corners_ k j).val) (fun k hk => hC k (by omega))).1
  have h2 := (h.mono_m (n := C) (by rw [zero_add, one_mul]; simp only [Nat.zero_add]; exact hM)).bound
  have he := (MultiLinear.globalS_eq ⟨g.mydim, g.cdim, g.id, fun k => vals (g.corners_ k), g.tol.val⟩ (vals x) g.mydim (le_refl _)
    false 0 1 1 (MatHelp.garbage 0)).2 j
  rw [MultiLinear.MultiLinearGeometry.global, he]
  convert h2 using 1
  · simp [MultiLinearGeometry.global, vals]
  · ring

/-! ### Examples -/

/-- the corners of a pyramid in three dimensions are reproduced, at the apex too -/
example (c : Nat → Nat → Fl double) (y₀ : Nat → Fl double) : ∃ p : Nat → Fl double, (referenceCorners 3 0b011)[4]? = some p ∧
    (⟨3, 3, 0b011, c, epsilon 53 (-1074) (by norm_num) (by norm_num)⟩ : MultiLinearGeometry (Fl double)).global y₀ p = c 4 := by
  have h : ∃ p : Nat → Fl double, (referenceCorners 3 0b011)[4]? = some p := by
    have h1 : (4 : Nat) < (RefGeom.referenceCorners (K := ℝ) 3 0b011).length := by
      rw [C17_count]; decide
    rw [← corners_val (φ := double), List.length_map] at h1
    exact ⟨_, List.getElem?_eq_getElem h1⟩
  obtain ⟨p, hp⟩ := h
  refine ⟨p, hp, C78_multilinear _ (by norm_num) ?_ ?_ y₀ 4 p hp⟩
  · change 0 ≤ (2:ℝ) ^ (1 - 53 : ℤ); positivity
  · change (2:ℝ) ^ (1 - 53 : ℤ) < 1; norm_num

/-- a hexahedron in `double` with coordinates up to 100: the error is below 2e-13 -/
example (g : MultiLinearGeometry (Fl double)) (h3 : g.mydim = 3) (hid : g.id = 7) (y₀ x : Nat → Fl double)
    (hx : ∀ r, r < 3 → 0 ≤ (x r).val ∧ (x r).val ≤ 1) (j : Nat) (hC : ∀ k, k < 8 → |(g.corners_ k j).val| ≤ 100) :
    |(g.global y₀ x j).val - MultiLinear.MultiLinearGeometry.global ⟨g.mydim, g.cdim, g.id, fun k => vals (g.corners_ k), g.tol.val⟩ (vals x) j| ≤
      2 / 10 ^ 13 := by
  have h := C79_multilinear_cube g (by rw [h3, hid]; norm_num) (by rw [h3, hid]; intro k h1 h2; interval_cases k <;> rfl) y₀ x
    (by rw [h3]; exact hx) j 100 (by rw [h3]; exact hC)
  refine h.trans ?_
  rw [h3]
  have hu : double.u = 2 ^ (-(53:ℤ)) := rfl
  have hη : double.η = 2 ^ (-1074 : ℤ) / 2 := rfl
  have hη' : double.η ≤ 2 ^ (-200 : ℤ) := by
    rw [hη]
    have h1 : (2:ℝ) ^ (-1074 : ℤ) ≤ 2 ^ (-200 : ℤ) := zpow_le_zpow_right₀ (by norm_num) (by norm_num)
    exact (half_le_self (two_zpow_pos _).le).trans h1
  have hη0 := double.η_nonneg
  rw [hu]
  norm_num at hη' ⊢
  nlinarith

/-- the interval from 1 to 2 in `double`: `local(global(x))` is `x` up to 10 epsilon -/
example (x : Nat → Fl double) (hx : 0 ≤ (x 0).val ∧ (x 0).val ≤ 1) :
    |(cubeLocal (fun _ => 1) (fun _ => ⟨2, rdBinary_exact (by norm_num) (m := 1) (k := 1) (by norm_num) (by norm_num) (by norm_num)⟩)
      (cubeGlobal (fun _ => 1) (fun _ => ⟨2, rdBinary_exact (by norm_num) (m := 1) (k := 1) (by norm_num) (by norm_num) (by norm_num)⟩) x) 0 : Fl double).val -
      (x 0).val| ≤ 11 * 2 ^ (-52 : ℤ) := by
  have hu : double.u = 2 ^ (-(53:ℤ)) := rfl
  have h := C79_cube_roundtrip (φ := double) (by rw [hu]; norm_num) (fun _ => 1)
    (fun _ => ⟨2, rdBinary_exact (by norm_num) (m := 1) (k := 1) (by norm_num) (by norm_num) (by norm_num)⟩) x 0
    (by rw [Fl.one_val]; norm_num)
  refine h.trans ?_
  have hη : double.η = 2 ^ (-1074 : ℤ) / 2 := rfl
  have hη' : double.η ≤ 2 ^ (-200 : ℤ) := by
    rw [hη]
    have h1 : (2:ℝ) ^ (-1074 : ℤ) ≤ 2 ^ (-200 : ℤ) := zpow_le_zpow_right₀ (by norm_num) (by norm_num)
    exact (half_le_self (two_zpow_pos _).le).trans h1
  have hη0 := double.η_nonneg
  rw [abs_of_nonneg hx.1, hu, Fl.one_val]
  norm_num at hη' ⊢
  nlinarith [hx.2]

end Verif.Float
