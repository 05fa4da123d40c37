import Verif.Locate.Lemmas
import Verif.Compare.Lemmas

/-! Property theorems: location of points (C103).

The usual way to find out whether a point `y` of the space lies in an element is
`referenceElement(geometry).checkInside(geometry.local(y))`. -/

namespace Verif.Locate

open Verif.Typ Verif.RefTopo Verif.RefGeom Verif.MatHelp Verif.Affine Verif.MultiLinear Verif.Quad
open MultiLinearGeometry (newton local_ LocalResult two_norm2)
open Matrix hiding vec ext
open Finset hiding ext

/-! ### Specification -/

/-- `referenceElement(g).checkInside(g.local(y))` ends and answers `true`; `epsilon` is `numeric_limits::epsilon()` -/
def Found (g : MultiLinearGeometry) (epsilon : ℝ) (y : Vec ℝ) : Prop :=
  ∃ fuel x, g.local_ fuel y = some (some (.point x)) ∧ refCheckInside g.mydim g.id x epsilon = true

/-- C103, full statement for MultiLinearGeometry with the tolerance of the traits class: on an element of full dimension, on
which the map is one-to-one and the Jacobian invertible, every point of the element is found. -/
def C103_full : Prop := ∀ (g : MultiLinearGeometry) (epsilon : ℝ), Legal g → g.tol = 16 * epsilon → g.tol ≤ 1 / 64 →
  g.cdim = g.mydim → Set.InjOn (multiLinearMap g) (refSet g.mydim g.id) →
  (∀ x ∈ refSet g.mydim g.id, (g.jacobianInverseTransposed (ext x)).isSome) →
  ∀ x ∈ refSet g.mydim g.id, Found g epsilon (g.global (ext x))

/-! ### The tolerance of `checkInside` -/

/-- C103: a point that passes the public test is close to a point of the reference element, in all dimensions and for all types:
each coordinate differs by at most `64 (d + 2)` epsilon. -/
theorem C103_tolerance (d id : Nat) (epsilon : ℝ) (he : 0 ≤ epsilon) (x : Vec ℝ) (h : refCheckInside d id x epsilon = true) :
    ∃ z ∈ domain ℝ d id, ∀ k, k < d → |x k - z k| ≤ (d + 2) * (64 * epsilon) := by
  have hr := rep_topoOf d id
  set t := 64 * epsilon with ht
  have ht0 : 0 ≤ t := by linarith
  have h1 := inside_dom ht0 _ _ _ ((checkInside_iff hr x t 1).1 h)
  rw [hr.dim_eq] at h1
  set c := 1 + ((d + 1 : Nat) : ℝ) * t with hc
  have hc1 : 1 ≤ c := by rw [hc]; have : 0 ≤ ((d + 1 : Nat) : ℝ) * t := by positivity
                         linarith
  have h2 := dom_scale _ (c := c⁻¹) (by positivity) h1
  rw [inv_mul_cancel₀ (by linarith)] at h2
  have hb := Quad.dom_bounds _ _ _ h2
  refine ⟨fun k => if k < d then c⁻¹ * (x k + t) else 0, ?_, fun k hk => ?_⟩
  · rw [mem_domain hr _ fun k hk => if_neg (by omega)]
    exact dom_congr _ _ (fun k hk => by rw [hr.dim_eq] at hk; rw [if_pos hk]) h2
  · simp only [if_pos hk]
    obtain ⟨b0, b1⟩ := hb k (by rw [hr.dim_eq]; exact hk)
    set v := c⁻¹ * (x k + t) with hv
    have e : x k = c * v - t := by rw [hv, mul_inv_cancel_left₀ (by linarith)]; ring
    have e2 : x k - v = (c - 1) * v - t := by rw [e]; ring
    rw [e2, abs_le]
    have e3 : c - 1 = (d + 1) * t := by rw [hc]; push_cast; ring
    rw [e3]
    have h4 : 0 ≤ ((d:ℝ) + 1) * t := by positivity
    constructor <;> nlinarith

/-! ### AffineGeometry -/

section affine

variable {m n id : Nat} {o : Vec ℝ} {jt : Mat ℝ} {g : AffineGeometry}

theorem local_refl (hmn : m ≤ n) (hg : AffineGeometry.ofJacobian m n id o jt = some g) (x : Vec ℝ) (k : Nat) (hk : k < m) :
    g.local_ (g.global x) k = x k := congrFun (C28_local_global m n id o jt hmn g hg x) ⟨k, hk⟩

/-- C103: every point of an affine element is found, also on surfaces and curves. -/
theorem C103_affine_found (m n id : Nat) (o : Vec ℝ) (jt : Mat ℝ) (hmn : m ≤ n) (g : AffineGeometry)
    (hg : AffineGeometry.ofJacobian m n id o jt = some g) (epsilon : ℝ) (he : 0 < epsilon) (x : Vec ℝ)
    (hx : x ∈ domain ℝ m id) : refCheckInside m id (g.local_ (g.global x)) epsilon = true := by
  rw [refCheckInside, checkInside_congr (y := x) fun k hk => local_refl hmn hg x k hk]
  exact C18_public m id x (domain_zero hx) epsilon he hx

/-- C103: what is decided when the tolerance goes to zero: whether the point of the plane of the element that is closest to `y`
lies in the element. -/
theorem C103_affine_closest (m n id : Nat) (o : Vec ℝ) (jt : Mat ℝ) (hmn : m ≤ n) (g : AffineGeometry)
    (hg : AffineGeometry.ofJacobian m n id o jt = some g) (y : Vec ℝ) :
    (∀ epsilon : ℝ, 0 < epsilon → refCheckInside m id (g.local_ y) epsilon = true) ↔
    ∃ x ∈ domain ℝ m id, ∀ z : Vec ℝ, ∑ j ∈ range n, (g.global x j - y j) ^ 2 ≤ ∑ j ∈ range n, (g.global z j - y j) ^ 2 := by
  have hgood := ofJacobian_good hmn hg
  have hglob : ∀ x x' : Vec ℝ, (∀ k, k < m → x k = x' k) → g.global x = g.global x' := by
    intro x x' h
    funext j
    rw [C28_global m n id o jt hmn g hg, C28_global m n id o jt hmn g hg]
    rw [sum_congr rfl fun k hk => by rw [h k (mem_range.1 hk)]]
  obtain ⟨horth, hmin⟩ := C28_projection m n id o jt hmn g hg y
  constructor
  · intro h
    set x : Vec ℝ := fun k => if k < m then g.local_ y k else 0 with hx
    have hk : ∀ k, k < m → x k = g.local_ y k := fun k hk => if_pos hk
    refine ⟨x, ?_, ?_⟩
    · rw [C18_hull m id x fun k hk => if_neg (by omega)]
      intro tol ht
      have := h (tol / 64) (by positivity)
      rw [refCheckInside, mul_div_cancel₀ _ (by norm_num : (64:ℝ) ≠ 0)] at this
      rw [checkInside_congr hk]
      exact this
    · rw [hglob _ _ hk]
      exact hmin
  · rintro ⟨x, hx, hle⟩ epsilon he
    -- the closest point is unique
    have hsum : ∑ j ∈ range n, (g.global (g.local_ y) j - y j) * (g.global x j - g.global (g.local_ y) j) = 0 := by
      have e : ∀ j, g.global x j - g.global (g.local_ y) j = ∑ i ∈ range m, jt i j * (x i - g.local_ y i) := by
        intro j
        rw [C28_global m n id o jt hmn g hg, C28_global m n id o jt hmn g hg, add_sub_add_left_eq_sub, ← sum_sub_distrib]
        exact sum_congr rfl fun i _ => by ring
      simp only [e, mul_sum]
      rw [sum_comm]
      refine sum_eq_zero fun i hi => ?_
      have := horth i (mem_range.1 hi)
      rw [← MulZeroClass.mul_zero (x i - g.local_ y i), ← this, mul_sum]
      exact sum_congr rfl fun j _ => by ring
    have hpyth : ∑ j ∈ range n, (g.global x j - y j) ^ 2 = ∑ j ∈ range n, (g.global (g.local_ y) j - y j) ^ 2 +
        ∑ j ∈ range n, (g.global x j - g.global (g.local_ y) j) ^ 2 := by
      have : ∀ j, (g.global x j - y j) ^ 2 = (g.global (g.local_ y) j - y j) ^ 2 + (g.global x j - g.global (g.local_ y) j) ^ 2 +
        2 * ((g.global (g.local_ y) j - y j) * (g.global x j - g.global (g.local_ y) j)) := fun j => by ring
      rw [sum_congr rfl fun j _ => this j, sum_add_distrib, sum_add_distrib, ← mul_sum, hsum]
      ring
    have hz : ∑ j ∈ range n, (g.global x j - g.global (g.local_ y) j) ^ 2 = 0 :=
      le_antisymm (by linarith [hle (g.local_ y)]) (sum_nonneg fun j _ => sq_nonneg _)
    rw [sum_eq_zero_iff_of_nonneg fun j _ => sq_nonneg _] at hz
    have heq : vec n (g.global x) = vec n (g.global (g.local_ y)) := by
      funext j
      have := hz j (mem_range.2 j.2)
      rw [sq_eq_zero_iff] at this
      exact sub_eq_zero.1 this
    have h1 : vec m (g.local_ (g.global x)) = vec m (g.local_ (g.global (g.local_ y))) := by
      obtain ⟨rfl, rfl, _⟩ := hgood
      rw [local_eq, local_eq, heq]
    rw [C28_local_global m n id o jt hmn g hg, C28_local_global m n id o jt hmn g hg] at h1
    rw [refCheckInside, checkInside_congr (y := x) fun k hk => (congrFun h1 ⟨k, hk⟩).symm]
    exact C18_public m id x (domain_zero hx) epsilon he hx

/-- with as many coordinates as dimensions `global` inverts `local` -/
theorem global_local (hg : AffineGeometry.ofJacobian m m id o jt = some g) (y : Vec ℝ) (j : Nat) (hj : j < m) :
    g.global (g.local_ y) j = y j := by
  obtain ⟨rfl, hc, rfl, rfl, rfl, h⟩ := ofJacobian_good (le_refl m) hg
  have horth := (C28_projection _ _ _ _ _ (le_refl _) g hg y).1
  have hli := (C28_constructible _ _ _ _ _ (le_refl _)).1 ⟨g, hg⟩
  have h0 : mat g.mydim g.mydim g.jt *ᵥ vec g.mydim (fun j => g.global (g.local_ y) j - y j) = 0 := by
    funext i
    have := horth i i.2
    rw [← Fin.sum_univ_eq_sum_range (fun j => g.jt i j * (g.global (g.local_ y) j - y j)) g.mydim] at this
    exact this
  have hu : IsUnit (mat g.mydim g.mydim g.jt) := linearIndependent_rows_iff_isUnit.1 hli
  have h1 := (Matrix.mulVec_injective_iff_isUnit.2 hu) (h0.trans (Matrix.mulVec_zero _).symm)
  have := congrFun h1 ⟨j, hj⟩
  exact sub_eq_zero.1 this

/-- C103: for elements of full dimension the test decides, when the tolerance goes to zero, whether `y` is a point of the
element. -/
theorem C103_affine_iff (m id : Nat) (o : Vec ℝ) (jt : Mat ℝ) (g : AffineGeometry)
    (hg : AffineGeometry.ofJacobian m m id o jt = some g) (y : Vec ℝ) :
    (∀ epsilon : ℝ, 0 < epsilon → refCheckInside m id (g.local_ y) epsilon = true) ↔
    ∃ x ∈ domain ℝ m id, ∀ j, j < m → g.global x j = y j := by
  rw [C103_affine_closest m m id o jt (le_refl m) g hg y]
  constructor
  · rintro ⟨x, hx, hle⟩
    refine ⟨x, hx, fun j hj => ?_⟩
    have h0 : ∑ j ∈ range m, (g.global (g.local_ y) j - y j) ^ 2 = 0 :=
      sum_eq_zero fun j hj => by rw [global_local hg y j (mem_range.1 hj)]; ring
    have h1 := h0 ▸ hle (g.local_ y)
    have h2 := (sum_eq_zero_iff_of_nonneg fun j _ => sq_nonneg (g.global x j - y j)).1
      (le_antisymm h1 (sum_nonneg fun j _ => sq_nonneg _)) j (mem_range.2 hj)
    rw [sq_eq_zero_iff] at h2
    exact sub_eq_zero.1 h2
  · rintro ⟨x, hx, he⟩
    refine ⟨x, hx, fun z => ?_⟩
    rw [sum_eq_zero fun j hj => by rw [he j (mem_range.1 hj)]; ring]
    exact sum_nonneg fun j _ => sq_nonneg _

/-- C103: with the tolerance of the library: a point that is found is close to a point of the element; the distance is at most
`64 (m + 2)` epsilon times the size of the element. -/
theorem C103_affine_sound (m id : Nat) (o : Vec ℝ) (jt : Mat ℝ) (g : AffineGeometry)
    (hg : AffineGeometry.ofJacobian m m id o jt = some g) (epsilon : ℝ) (he : 0 ≤ epsilon) (y : Vec ℝ)
    (h : refCheckInside m id (g.local_ y) epsilon = true) :
    ∃ z ∈ domain ℝ m id, ∀ j, j < m → |g.global z j - y j| ≤ (m + 2) * (64 * epsilon) * ∑ i ∈ range m, |jt i j| := by
  obtain ⟨z, hz, hd⟩ := C103_tolerance m id epsilon he _ h
  refine ⟨z, hz, fun j hj => ?_⟩
  rw [← global_local hg y j hj, C28_global m m id o jt (le_refl m) g hg, C28_global m m id o jt (le_refl m) g hg,
    add_sub_add_left_eq_sub, ← sum_sub_distrib, mul_sum]
  refine (abs_sum_le_sum_abs _ _).trans (sum_le_sum fun i hi => ?_)
  rw [← mul_sub, abs_mul, abs_sub_comm, mul_comm]
  exact mul_le_mul_of_nonneg_right (hd i (mem_range.1 hi)) (abs_nonneg _)

/-- C103: elements of smaller dimension than the space: points at any distance are found, `local` projects them. -/
theorem C103_surface_counterexample (R : ℝ) : ∃ (g : AffineGeometry) (y : Vec ℝ),
    AffineGeometry.ofJacobian 1 2 1 (fun _ => 0) (fun _ j => if j = 0 then 1 else 0) = some g ∧
    (∀ epsilon : ℝ, 0 < epsilon → refCheckInside 1 1 (g.local_ y) epsilon = true) ∧
    ∀ x : Vec ℝ, R ^ 2 ≤ ∑ j ∈ range 2, (g.global x j - y j) ^ 2 := by
  have hli : LinearIndependent ℝ (mat 1 2 (fun _ j => if j = 0 then (1:ℝ) else 0)).row := by
    rw [linearIndependent_unique_iff]
    intro h
    have := congrFun h 0
    simp [mat, Matrix.row] at this
  obtain ⟨g, hg⟩ := (C28_constructible 1 2 1 (fun _ => 0) _ (by norm_num)).2 hli
  have hglob : ∀ x : Vec ℝ, g.global x 0 = x 0 ∧ g.global x 1 = 0 := by
    intro x
    constructor <;> rw [C28_global 1 2 1 _ _ (by norm_num) g hg] <;> simp
  refine ⟨g, fun j => if j = 1 then R else 0, hg, ?_, fun x => ?_⟩
  · rw [C103_affine_closest 1 2 1 _ _ (by norm_num) g hg]
    refine ⟨fun _ => 0, ?_, fun z => ?_⟩
    · rw [C18_hull 1 1 _ fun _ _ => rfl]
      intro tol ht
      simp [checkInside, ht]
      linarith
    · rw [sum_range_succ, sum_range_one, sum_range_succ, sum_range_one, (hglob _).1, (hglob _).2, (hglob _).1, (hglob _).2]
      simp
      nlinarith [sq_nonneg (z 0)]
  · rw [sum_range_succ, sum_range_one, (hglob _).1, (hglob _).2]
    simp
    nlinarith [sq_nonneg (x 0)]

end affine

/-! ### AxisAlignedCubeGeometry -/

theorem cube_inside (d : Nat) : ∀ (x : Vec ℝ) (t : ℝ), Inside t (Topo.cube d) 1 x ↔ ∀ k, k < d → -t < x k ∧ x k < 1 + t := by
  induction d with
  | zero => intro x t; simp [Topo.cube, Inside]
  | succ d ih =>
    intro x t
    have hd : (Topo.cube d).dim = d := by
      clear ih
      induction d with
      | zero => rfl
      | succ d ih => simp [Topo.cube, Topo.dim, ih]
    simp only [Topo.cube, Inside, hd, ih]
    constructor
    · rintro ⟨h1, h2, h3⟩ k hk
      rcases Nat.lt_succ_iff_lt_or_eq.1 hk with h | rfl
      · exact h3 k h
      · exact ⟨h1, by linarith⟩
    · intro h
      have := h d (by omega)
      exact ⟨this.1, by linarith [this.2], fun k hk => h k (by omega)⟩

open Verif.Cube in
/-- C103: for axis-aligned cubes the test compares the coordinates of `y` in the directions of the cube with the bounds, up to 64
epsilon times the length of the edge.  The other coordinates are not looked at. -/
theorem C103_axis_aligned (g : AxisAlignedCubeGeometry) (hb : Built g) (ho : Ordered g) (epsilon : ℝ) (y : Vec ℝ) :
    refCheckInside g.dim (2 ^ g.dim - 1) (g.local_ y) epsilon = true ↔
    ∀ i, i < g.coorddim → g.axes i = true →
      g.lower i - 64 * epsilon * (g.upper i - g.lower i) < y i ∧ y i < g.upper i + 64 * epsilon * (g.upper i - g.lower i) := by
  have hv := hb.valid
  rw [refCheckInside, checkInside_iff (rep_topoOf _ _), topoOf_cube _ _ (Cube.isCubeId g.dim), cube_inside]
  set t := 64 * epsilon
  have one : ∀ i, i < g.coorddim → g.axes i = true →
      ((-t < g.local_ y (count g.axes i) ∧ g.local_ y (count g.axes i) < 1 + t) ↔
      (g.lower i - t * (g.upper i - g.lower i) < y i ∧ y i < g.upper i + t * (g.upper i - g.lower i))) := by
    intro i hi ha
    have hpos : 0 < g.upper i - g.lower i := by linarith [ho i hi ha]
    rw [local_spec hv y i hi ha, lt_div_iff₀ hpos, div_lt_iff₀ hpos]
    constructor <;> rintro ⟨a, b⟩ <;> constructor <;> linarith
  constructor
  · intro h i hi ha
    refine (one i hi ha).1 (h _ ?_)
    rw [← hv.count]
    exact count_lt _ hi ha
  · intro h k hk
    obtain ⟨i, hi, ha, rfl⟩ := exists_axis g.axes g.coorddim k (by rw [hv.count]; exact hk)
    exact (one i hi ha).2 (h i hi ha)

/-! ### MultiLinearGeometry, exactly affine -/

/-- C103: elements whose corners are the images of the reference corners under an affine map: all points of the element are
found, whatever the type (the tolerance has to be below one over the number of corners). -/
theorem C103_multilinear_affine (g : MultiLinearGeometry) (hg : Legal g) (a : Vec ℝ) (M : Mat ℝ) (h : ImageOf g a M)
    (hr : FullRank g M) (htol : g.tol * refSize g.mydim g.id g.mydim < 1) (epsilon : ℝ) (he : 0 < epsilon) (y x : Vec ℝ)
    (hx : x ∈ domain ℝ g.mydim g.id) (hy : ∀ j, j < g.cdim → y j = a j + ∑ r ∈ range g.mydim, M j r * x r) :
    Found g epsilon y := by
  obtain ⟨p, hp, hin⟩ := Compare.center_inner g.mydim g.id hg.id_lt
  obtain ⟨x', h1, -, h3⟩ := C35_affine g hg a M h hr p hp (hin _ hg.tol_pos.le htol) y 0
  refine ⟨1, x', h1, ?_⟩
  rw [refCheckInside, checkInside_congr (y := x) fun k hk => h3 x hy k hk]
  exact C18_public _ _ x (domain_zero hx) epsilon he hx

/-! ### MultiLinearGeometry, quadrilaterals in the plane -/

/-- C103: quadrilaterals that do not report affine: every point of the element is found, with the tolerances of the library
(`local` stops at corrections whose square is 16 epsilon, `checkInside` allows for 64 epsilon).  The result of `local` leaves
the square by at most 32 epsilon, although it may be further away from the point.  Missing: quadrilaterals that report affine,
and dimension three, where the code is wrong. -/
theorem C103_quadrilateral_partial (g : MultiLinearGeometry) (hg : Legal g) (htol : g.tol ≤ 1 / 64) (h2 : g.mydim = 2)
    (hc : IsCubeId g.mydim g.id) (hcd : g.cdim = g.mydim) (haff : g.affine = false)
    (hjit : ∀ x ∈ refSet g.mydim g.id, (g.jacobianInverseTransposed (ext x)).isSome) (epsilon : ℝ) (he : g.tol = 16 * epsilon)
    (x : Fin g.mydim → ℝ) (hx : x ∈ refSet g.mydim g.id) : Found g epsilon (g.global (ext x)) ∧
      ∃ fuel x', g.local_ fuel (g.global (ext x)) = some (some (.point x')) ∧
        ∀ k, k < 2 → -(2 * g.tol) ≤ x' k ∧ x' k ≤ 1 + 2 * g.tol := by
  obtain ⟨fuel, x', hloc, herr⟩ := C76_quadrilateral_partial g hg htol h2 hc hcd haff hjit x hx
  obtain ⟨cs, id, tol, rfl, hid, hc, ht, hreg⟩ := quad_regular hg h2 hc hcd hjit
  have hb := refSet_bounds hx
  change Fin 2 → ℝ at x
  change tol ≤ 1 / 64 at htol
  change tol = 16 * epsilon at he
  have z0 : ext x 0 = x 0 := by simp [ext]
  have z1 : ext x 1 = x 1 := by simp [ext]
  have hz0 : 0 ≤ ext x 0 ∧ ext x 0 ≤ 1 := by rw [z0]; exact hb 0
  have hz1 : 0 ≤ ext x 1 ∧ ext x 1 ≤ 1 := by rw [z1]; exact hb 1
  have herr' : (x' 0 - ext x 0) ^ 2 + (x' 1 - ext x 1) ^ 2 ≤ tol := by
    rw [z0, z1]
    exact (Fin.sum_univ_two (fun i : Fin 2 => (x' i - x i) ^ 2)).symm.trans_le herr
  suffices hkey : (-(2 * tol) ≤ x' 0 ∧ x' 0 ≤ 1 + 2 * tol) ∧ -(2 * tol) ≤ x' 1 ∧ x' 1 ≤ 1 + 2 * tol by
    refine ⟨⟨fuel, x', hloc, ?_⟩, fuel, x', hloc, fun k hk => ?_⟩
    · change checkInside 2 id x' (64 * epsilon) 1 = true
      rw [square_inside hc]
      have : 64 * epsilon = 4 * tol := by linarith
      rw [this]
      obtain ⟨⟨a, b⟩, c, d⟩ := hkey
      exact ⟨⟨by linarith, by linarith⟩, by linarith, by linarith⟩
    · change -(2 * tol) ≤ x' k ∧ x' k ≤ 1 + 2 * tol
      interval_cases k
      · exact hkey.1
      · exact hkey.2
  -- the first step
  set m : Vec ℝ := ext fun _ : Fin 2 => (1 / 2 : ℝ) with hm
  have m0 : m 0 = 1 / 2 := by simp [hm, ext]
  have m1 : m 1 = 1 / 2 := by simp [hm, ext]
  have hpos : position (K := ℝ) (quad cs id tol).mydim (quad cs id tol).id 0 0 = some m := square_center hid hc
  have hnm : quadDet cs m ≠ 0 := hreg m (by rw [m0]; norm_num) (by rw [m0]; norm_num) (by rw [m1]; norm_num) (by rw [m1]; norm_num)
  obtain ⟨dx, h1, h2, h3⟩ := quad_step (tol := tol) hid hc m (ext x) hnm
  obtain ⟨hbal, -⟩ := first_step m (ext x) m0 m1 hreg hz0 hz1 dx h2 h3
  obtain _ | n := fuel
  · rw [local_, hpos] at hloc; simp [newton] at hloc
  rw [local_, hpos] at hloc
  simp only at hloc
  rw [haff, newton, h1] at hloc
  simp only [Bool.false_eq_true, if_false] at hloc
  by_cases hn : two_norm2 2 dx > tol
  · rw [if_pos hn] at hloc
    obtain ⟨xl, dl, hl, rfl, hdl, e0, e1⟩ := last_step hid hc (ext x) x' n _ hbal hloc
    obtain ⟨θ, t0, t1, f0, f1⟩ := balanced_error hl e0 e1
    -- the ends of the lines through the point
    have d0 : ∀ s : ℝ, 0 ≤ s → s ≤ 1 → 0 < quadDet cs (ext x) * (quadDet cs (ext x) + quadDet0 cs * (s - ext x 0)) := by
      intro s s0 s1
      have h := det_same hreg (ext x) (fun k => if k = 0 then s else ext x k) hz0 hz1 ⟨by simpa using s0, by simpa using s1⟩ (by simpa using hz1)
      have e : quadDet cs (fun k => if k = 0 then s else ext x k) = quadDet cs (ext x) + quadDet0 cs * (s - ext x 0) := by
        rw [quadDet_sub _ (ext x)]; simp
      rwa [e] at h
    have d1 : ∀ s : ℝ, 0 ≤ s → s ≤ 1 → 0 < quadDet cs (ext x) * (quadDet cs (ext x) + quadDet1 cs * (s - ext x 1)) := by
      intro s s0 s1
      have h := det_same hreg (ext x) (fun k => if k = 1 then s else ext x k) hz0 hz1 (by simpa using hz0) ⟨by simpa using s0, by simpa using s1⟩
      have e : quadDet cs (fun k => if k = 1 then s else ext x k) = quadDet cs (ext x) + quadDet1 cs * (s - ext x 1) := by
        rw [quadDet_sub _ (ext x)]; simp
      rwa [e] at h
    have q0 := overshoot t0 t1 f0 hz0.1 hz0.2 (by have := d0 0 (le_refl _) zero_le_one; rw [zero_sub, mul_neg, ← sub_eq_add_neg] at this; exact this)
      (d0 1 zero_le_one (le_refl _)) (by linarith [sq_nonneg (dl 1)])
      (by linarith [sq_nonneg (xl 1 - dl 1 - ext x 1)]) htol
    have q1 := overshoot t0 t1 f1 hz1.1 hz1.2 (by have := d1 0 (le_refl _) zero_le_one; rw [zero_sub, mul_neg, ← sub_eq_add_neg] at this; exact this)
      (d1 1 zero_le_one (le_refl _)) (by linarith [sq_nonneg (dl 0)])
      (by linarith [sq_nonneg (xl 0 - dl 0 - ext x 0)]) htol
    rw [add_sub_cancel] at q0 q1
    exact ⟨q0, q1⟩
  · rw [if_neg hn] at hloc
    simp only [Option.some.injEq, LocalResult.point.injEq] at hloc
    rw [two_norm2_two, not_lt] at hn
    have b0 := abs_le.1 (abs_le_of_sq_le_sq (a := dx 0) (b := 1 / 8) (by norm_num; linarith [sq_nonneg (dx 1)]) (by norm_num))
    have b1 := abs_le.1 (abs_le_of_sq_le_sq (a := dx 1) (b := 1 / 8) (by norm_num; linarith [sq_nonneg (dx 0)]) (by norm_num))
    rw [← hloc]
    simp only [m0, m1]
    refine ⟨⟨?_, ?_⟩, ?_, ?_⟩ <;> linarith

/-- the image of the result differs from `y` by the second difference of the corners times the product of the two components of
the last correction -/
theorem quad_residual {cs : Nat → Vec ℝ} {id : Nat} {tol : ℝ} (hid : id < 2 ^ 2) (hc : IsCubeId 2 id) (y x₀ dx : Vec ℝ)
    (h : xTRightInvA 2 2 ((quad cs id tol).jacobianTransposed x₀) (fun i => (quad cs id tol).global x₀ i - y i) = some (true, dx))
    (j : Nat) (hj : j < 2) : (quad cs id tol).global (fun i => x₀ i - dx i) j - y j =
      (cs 3 j - cs 2 j - cs 1 j + cs 0 j) * (dx 0 * dx 1) := by
  have hli : LinearIndependent ℝ (mat 2 2 ((quad cs id tol).jacobianTransposed x₀)).row := by
    by_contra hn
    obtain ⟨dx', h'⟩ := ((C35_correction_meaning (quad cs id tol) (le_refl _) x₀
      (fun i => (quad cs id tol).global x₀ i - y i)).2).2 hn
    have := h'.symm.trans h
    simp at this
  obtain ⟨dx', h1, h2⟩ := xTRightInvA_square (fun i => (quad cs id tol).global x₀ i - y i) hli
  obtain rfl : dx' = dx := by
    have := h1.symm.trans h
    simpa using this
  have c : dx' 0 * (quad cs id tol).jacobianTransposed x₀ 0 j + dx' 1 * (quad cs id tol).jacobianTransposed x₀ 1 j =
      (quad cs id tol).global x₀ j - y j := by
    simpa [Matrix.vecMul, dotProduct, Fin.sum_univ_two, vec, mat] using congrFun h2 ⟨j, hj⟩
  rw [(quad_jt hid hc x₀ j).1, (quad_jt hid hc x₀ j).2, quad_global hid hc] at c
  rw [quad_global hid hc]
  linear_combination -c

/-- moving a point into the square changes the image by at most the size of the element times the tolerance -/
theorem quad_clamp {cs : Nat → Vec ℝ} {id : Nat} {tol t : ℝ} (hid : id < 2 ^ 2) (hc : IsCubeId 2 id) (h0 : 0 ≤ t) (h1 : t ≤ 1)
    (x : Vec ℝ) (hx : checkInside 2 id x t 1 = true) : ∃ z ∈ domain ℝ 2 id, ∀ j,
      |(quad cs id tol).global z j - (quad cs id tol).global x j| ≤
        t * (|cs 1 j - cs 0 j| + |cs 2 j - cs 0 j| + 3 * |cs 3 j - cs 2 j - cs 1 j + cs 0 j|) := by
  rw [square_inside hc] at hx
  obtain ⟨⟨a0, a1⟩, b0, b1⟩ := hx
  have clamp : ∀ s : ℝ, -t < s → s < 1 + t → ∃ z, 0 ≤ z ∧ z ≤ 1 ∧ |z - s| ≤ t := by
    intro s h2 h3
    refine ⟨max 0 (min 1 s), le_max_left _ _, max_le zero_le_one (min_le_left _ _), ?_⟩
    rcases le_total 1 s with h | h
    · rw [min_eq_left h, max_eq_right zero_le_one, abs_le]; constructor <;> linarith
    · rw [min_eq_right h]
      rcases le_total 0 s with h' | h'
      · rw [max_eq_right h', _root_.sub_self, abs_zero]; exact h0
      · rw [max_eq_left h', abs_le]; constructor <;> linarith
  obtain ⟨u, u0, u1, hu⟩ := clamp (x 0) a0 a1
  obtain ⟨v, v0, v1, hv⟩ := clamp (x 1) b0 b1
  refine ⟨fun k => if k = 0 then u else if k = 1 then v else 0, ?_, fun j => ?_⟩
  · rw [mem_domain (rep_topoOf 2 id) _ (fun k hk => by rw [if_neg (by omega), if_neg (by omega)]), topoOf_cube 2 id hc]
    simp [Topo.cube, Dom, Topo.dim, u0, u1, v0, v1]
  · rw [quad_global hid hc, quad_global hid hc]
    simp only [if_true, one_ne_zero, if_false]
    set c := cs 3 j - cs 2 j - cs 1 j + cs 0 j
    have e : cs 0 j + (cs 1 j - cs 0 j) * u + (cs 2 j - cs 0 j) * v + c * (u * v) -
        (cs 0 j + (cs 1 j - cs 0 j) * x 0 + (cs 2 j - cs 0 j) * x 1 + c * (x 0 * x 1)) =
        (cs 1 j - cs 0 j) * (u - x 0) + (cs 2 j - cs 0 j) * (v - x 1) + c * ((u - x 0) * x 1 + u * (v - x 1)) := by ring
    rw [e]
    have hx1 : |x 1| ≤ 2 := by rw [abs_le]; constructor <;> linarith
    have p : |(u - x 0) * x 1 + u * (v - x 1)| ≤ 3 * t := by
      refine (abs_add_le _ _).trans ?_
      rw [abs_mul, abs_mul, abs_of_nonneg u0]
      have p1 := mul_le_mul hu hx1 (abs_nonneg _) h0
      have p2 := mul_le_mul u1 hv (abs_nonneg _) zero_le_one
      linarith
    refine (abs_add_le _ _).trans ?_
    have q0 := (abs_add_le ((cs 1 j - cs 0 j) * (u - x 0)) ((cs 2 j - cs 0 j) * (v - x 1)))
    rw [abs_mul, abs_mul] at q0
    rw [abs_mul c]
    have q1 := mul_le_mul_of_nonneg_left hu (abs_nonneg (cs 1 j - cs 0 j))
    have q2 := mul_le_mul_of_nonneg_left hv (abs_nonneg (cs 2 j - cs 0 j))
    have q3 := mul_le_mul_of_nonneg_left p (abs_nonneg c)
    linarith

/-- C103: a point that is found in a quadrilateral that does not report affine is a point of the element up to 64 epsilon times
the size of the element; no regularity is needed. -/
theorem C103_quadrilateral_sound (cs : Nat → Vec ℝ) (id : Nat) (tol : ℝ) (hid : id < 2 ^ 2) (hc : IsCubeId 2 id)
    (haff : (quad cs id tol).affine = false) (epsilon : ℝ) (he : 0 ≤ epsilon) (he1 : 64 * epsilon ≤ 1) (ht : tol = 16 * epsilon)
    (y : Vec ℝ) (h : Found (quad cs id tol) epsilon y) : ∃ z ∈ domain ℝ 2 id, ∀ j, j < 2 →
      |(quad cs id tol).global z j - y j| ≤
        64 * epsilon * (|cs 1 j - cs 0 j| + |cs 2 j - cs 0 j| + 4 * |cs 3 j - cs 2 j - cs 1 j + cs 0 j|) := by
  obtain ⟨fuel, x, h1, h2⟩ := h
  obtain ⟨x₀, dx, e1, rfl, e2, -⟩ := C35_last_correction _ _ _ _ h1
  have hdx : dx 0 ^ 2 + dx 1 ^ 2 ≤ tol := by
    have := e2 haff
    rwa [← two_norm2_eq, two_norm2_two] at this
  obtain ⟨z, hz, hd⟩ := quad_clamp (cs := cs) (tol := tol) hid hc (by linarith) he1 _ h2
  refine ⟨z, hz, fun j hj => ?_⟩
  have hres := quad_residual hid hc y x₀ dx e1 j hj
  have hd := hd j
  set c := cs 3 j - cs 2 j - cs 1 j + cs 0 j
  have hp : |dx 0 * dx 1| ≤ 8 * epsilon := by
    rw [abs_le]
    constructor <;> nlinarith [sq_nonneg (dx 0 + dx 1), sq_nonneg (dx 0 - dx 1)]
  have hr : |(quad cs id tol).global (fun i => x₀ i - dx i) j - y j| ≤ 64 * epsilon * |c| := by
    rw [hres, abs_mul]
    have := mul_le_mul_of_nonneg_left hp (abs_nonneg c)
    have := mul_nonneg he (abs_nonneg c)
    nlinarith
  have := abs_sub_le ((quad cs id tol).global z j) ((quad cs id tol).global (fun i => x₀ i - dx i) j) (y j)
  linarith

/-- C103: a point that is found in a quadrilateral that reports affine is a point of the element up to half the second difference
of the corners; the square of this difference is below the tolerance, so the error may be of the order of the square root of
epsilon. -/
theorem C103_quadrilateral_sound_affine (cs : Nat → Vec ℝ) (id : Nat) (tol : ℝ) (hid : id < 2 ^ 2) (hc : IsCubeId 2 id)
    (haff : (quad cs id tol).affine = true) (epsilon : ℝ) (he : 0 ≤ epsilon) (he1 : 64 * epsilon ≤ 1 / 8)
    (y : Vec ℝ) (h : Found (quad cs id tol) epsilon y) :
    (cs 3 0 - cs 2 0 - cs 1 0 + cs 0 0) ^ 2 + (cs 3 1 - cs 2 1 - cs 1 1 + cs 0 1) ^ 2 < tol ∧
    ∃ z ∈ domain ℝ 2 id, ∀ j, j < 2 → |(quad cs id tol).global z j - y j| ≤ |cs 3 j - cs 2 j - cs 1 j + cs 0 j| / 2 +
        64 * epsilon * (|cs 1 j - cs 0 j| + |cs 2 j - cs 0 j| + 3 * |cs 3 j - cs 2 j - cs 1 j + cs 0 j|) := by
  refine ⟨quad_affine hid hc haff, ?_⟩
  obtain ⟨fuel, x, h1, h2⟩ := h
  obtain ⟨x₀, dx, e1, rfl, -, e2⟩ := C35_last_correction _ _ _ _ h1
  have hx0 : x₀ = ext fun _ : Fin 2 => (1 / 2 : ℝ) := by
    have : position (K := ℝ) 2 id 0 0 = some x₀ := e2 haff
    rw [square_center hid hc] at this
    exact (Option.some.inj this).symm
  have m0 : x₀ 0 = 1 / 2 := by simp [hx0, ext]
  have m1 : x₀ 1 = 1 / 2 := by simp [hx0, ext]
  obtain ⟨z, hz, hd⟩ := quad_clamp (cs := cs) (tol := tol) hid hc (by linarith) (by linarith) _ h2
  refine ⟨z, hz, fun j hj => ?_⟩
  have hres := quad_residual hid hc y x₀ dx e1 j hj
  have hd := hd j
  set c := cs 3 j - cs 2 j - cs 1 j + cs 0 j
  have hin : checkInside 2 id (fun i => x₀ i - dx i) (64 * epsilon) 1 = true := h2
  rw [square_inside hc] at hin
  simp only [m0, m1] at hin
  obtain ⟨⟨a0, a1⟩, b0, b1⟩ := hin
  have k0 : |dx 0| ≤ 5 / 8 := by rw [abs_le]; constructor <;> linarith
  have k1 : |dx 1| ≤ 5 / 8 := by rw [abs_le]; constructor <;> linarith
  have hp : |dx 0 * dx 1| ≤ 1 / 2 := by
    rw [abs_mul]
    have := mul_le_mul k0 k1 (abs_nonneg _) (by norm_num)
    linarith
  have hr : |(quad cs id tol).global (fun i => x₀ i - dx i) j - y j| ≤ |c| / 2 := by
    rw [hres, abs_mul]
    have := mul_le_mul_of_nonneg_left hp (abs_nonneg c)
    linarith
  have := abs_sub_le ((quad cs id tol).global z j) ((quad cs id tol).global (fun i => x₀ i - dx i) j) (y j)
  linarith

/-! ### The counterexamples -/

/-- the unit square with the last corner moved up by `17 tol` -/
noncomputable def nearly (tol : ℝ) : Nat → Vec ℝ := fun k j =>
  if j = 0 then (if k = 1 ∨ k = 3 then 1 else 0) else if k = 2 then 1 else if k = 3 then 1 + 17 * tol else 0

section nearly

variable {tol : ℝ}

theorem nearly_det (x : Vec ℝ) : quadDet (nearly tol) x = 1 + 17 * tol * x 0 := by
  simp only [quadDet, nearly]; norm_num

theorem nearly_global (x : Vec ℝ) : (quad (nearly tol) 3 tol).global x 0 = x 0 ∧
    (quad (nearly tol) 3 tol).global x 1 = x 1 + 17 * tol * (x 0 * x 1) := by
  constructor <;> rw [quad_global (by norm_num) isCubeId23] <;> simp only [nearly] <;> norm_num

theorem nearly_affine (h0 : 0 < tol) (h1 : tol ≤ 1 / 300) : (quad (nearly tol) 3 tol).affine = true := by
  rw [affine_iff _ (by norm_num : (3:Nat) < 2 ^ 2), topoOf_cube 2 3 isCubeId23]
  have e1 : nv (.prism .pt) = 2 := rfl
  have e2 : nv .pt = 1 := rfl
  simp only [Topo.cube, IsAff, gap, Topo.dim, zero_add, range_one, sum_singleton, sum_range_succ, ajt, if_true, e1, e2, nearly]
  norm_num
  exact ⟨h0, by nlinarith⟩

theorem nearly_legal (h0 : 0 < tol) (h1 : tol ≤ 1 / 300) : Legal (quad (nearly tol) 3 tol) :=
  ⟨by change 3 < 2 ^ 2; norm_num, h0, by change tol < 1; linarith⟩

theorem nearly_inj (h0 : 0 < tol) : Set.InjOn (multiLinearMap (quad (nearly tol) 3 tol)) (refSet 2 3) := by
  intro x hx y hy h
  change Fin 2 → ℝ at x y
  have bx := refSet_bounds (d := 2) hx 0
  have hz : ∀ x : Fin 2 → ℝ, ext x 0 = x 0 ∧ ext x 1 = x 1 := fun x => by simp [ext]
  have h0' : x 0 = y 0 := by
    have := congrFun h 0
    change (quad (nearly tol) 3 tol).global (ext x) 0 = (quad (nearly tol) 3 tol).global (ext y) 0 at this
    rw [(nearly_global _).1, (nearly_global _).1, (hz x).1, (hz y).1] at this
    exact this
  have h1' : x 1 = y 1 := by
    have := congrFun h 1
    change (quad (nearly tol) 3 tol).global (ext x) 1 = (quad (nearly tol) 3 tol).global (ext y) 1 at this
    rw [(nearly_global _).2, (nearly_global _).2, (hz x).1, (hz y).1, (hz x).2, (hz y).2, ← h0'] at this
    have hp : 1 + 17 * tol * x 0 ≠ 0 := by have := mul_nonneg h0.le bx.1; linarith
    apply mul_left_cancel₀ hp
    linear_combination this
  funext i
  fin_cases i
  · exact h0'
  · exact h1'

theorem nearly_regular (h0 : 0 < tol) (x : Fin 2 → ℝ) (hx : x ∈ refSet 2 3) :
    ((quad (nearly tol) 3 tol).jacobianInverseTransposed (ext x)).isSome := by
  have bx := refSet_bounds (d := 2) hx 0
  have hz : ext x 0 = x 0 := by simp [ext]
  obtain ⟨R, h, _⟩ := C26_rightInvA 2 2 _ (le_refl _) ((quad_li (cs := nearly tol) (tol := tol) (by norm_num) isCubeId23 (ext x)).2 (by
    rw [nearly_det, hz]; have := mul_nonneg h0.le bx.1; linarith))
  have : (quad (nearly tol) 3 tol).jacobianInverseTransposed (ext x) = _ := h
  rw [this]; rfl

/-- the pre-image that `local` returns for the corner 3 -/
theorem nearly_local (h0 : 0 < tol) (h1 : tol ≤ 1 / 300) (fuel : Nat) (y : Vec ℝ) (y0 : y 0 = 1) (y1 : y 1 = 1 + 17 * tol) :
    ∃ x', (quad (nearly tol) 3 tol).local_ (fuel + 1) y = some (some (.point x')) ∧ x' 0 = 1 ∧
      (1 + 17 * tol / 2) * (x' 1 - 1) = 17 * tol / 4 := by
  set m : Vec ℝ := ext fun _ : Fin 2 => (1 / 2 : ℝ) with hm
  have m0 : m 0 = 1 / 2 := by simp [hm, ext]
  have m1 : m 1 = 1 / 2 := by simp [hm, ext]
  have hpos : position (K := ℝ) (quad (nearly tol) 3 tol).mydim (quad (nearly tol) 3 tol).id 0 0 = some m :=
    square_center (by norm_num) isCubeId23
  obtain ⟨dx, e1, e2⟩ := xTRightInvA_square (fun i => (quad (nearly tol) 3 tol).global m i - y i)
    ((quad_li (cs := nearly tol) (tol := tol) (by norm_num) isCubeId23 m).2 (by rw [nearly_det, m0]; linarith))
  have c : ∀ j : Fin 2, dx 0 * (quad (nearly tol) 3 tol).jacobianTransposed m 0 j + dx 1 * (quad (nearly tol) 3 tol).jacobianTransposed m 1 j =
      (quad (nearly tol) 3 tol).global m j - y j := fun j => by
    simpa [Matrix.vecMul, dotProduct, Fin.sum_univ_two, vec, mat] using congrFun e2 j
  have c0 := c 0
  have c1 := c 1
  simp only [Fin.val_zero, Fin.val_one] at c0 c1
  rw [(quad_jt (by norm_num) isCubeId23 m 0).1, (quad_jt (by norm_num) isCubeId23 m 0).2, (nearly_global m).1, m0, m1, y0] at c0
  rw [(quad_jt (by norm_num) isCubeId23 m 1).1, (quad_jt (by norm_num) isCubeId23 m 1).2, (nearly_global m).2, m0, m1, y1] at c1
  simp only [nearly] at c0 c1
  norm_num at c0 c1
  refine ⟨fun i => m i - dx i, ?_, ?_, ?_⟩
  · rw [local_, hpos]
    simp only
    rw [nearly_affine h0 h1, newton]
    have e1' : xTRightInvA (quad (nearly tol) 3 tol).mydim (quad (nearly tol) 3 tol).cdim ((quad (nearly tol) 3 tol).jacobianTransposed m)
      (fun i => (quad (nearly tol) 3 tol).global m i - y i) = some (true, dx) := e1
    rw [e1']
    rfl
  · simp only [m0]; linarith
  · simp only [m1]
    rw [c0] at c1
    linear_combination -c1

/-- C103: the full statement fails, whatever the tolerance, for two reasons.  A convex quadrilateral whose second difference is
as small as `17 tol` (272 epsilon) reports affine; `local` then takes one step only, and the test says that the corner 3 is not
in the element.  On the twisted hexahedron of C76, `local` converges to another point; the test says that the corner 7 is not in
the element. -/
theorem C103_counterexample : ¬ C103_full ∧
    (∀ tol epsilon : ℝ, 0 < tol → tol ≤ 1 / 300 → tol = 16 * epsilon → ∃ y, (quad (nearly tol) 3 tol).corner 3 = some y ∧
      ∀ fuel, ∃ x', (quad (nearly tol) 3 tol).local_ (fuel + 1) y = some (some (.point x')) ∧
        refCheckInside 2 3 x' epsilon = false) ∧
    (∀ tol epsilon : ℝ, 0 < tol → tol ≤ 1 / 300 → tol = 16 * epsilon → ∃ y, (twisted tol).corner 7 = some y ∧
      ∀ fuel, ∃ x', (twisted tol).local_ (fuel + 2) y = some (some (.point x')) ∧
        refCheckInside 3 7 x' epsilon = false) := by
  have key : ∀ (tol epsilon : ℝ) (h0 : 0 < tol) (h1 : tol ≤ 1 / 300) (he : tol = 16 * epsilon) (x' : Vec ℝ),
      (1 + 17 * tol / 2) * (x' 1 - 1) = 17 * tol / 4 → refCheckInside 2 3 x' epsilon = false := by
    intro tol epsilon h0 h1 he x' hx
    rw [← Bool.not_eq_true, refCheckInside, square_inside isCubeId23]
    rintro ⟨-, -, h⟩
    have : 64 * epsilon = 4 * tol := by linarith
    rw [this] at h
    nlinarith
  refine ⟨fun hfull => ?_, fun tol epsilon h0 h1 he => ?_, fun tol epsilon h0 h1 he => ?_⟩
  · have h0 : (0:ℝ) < 1 / 300 := by norm_num
    have hone : (fun _ : Fin 2 => (1:ℝ)) ∈ refSet 2 3 := by
      rw [refSet_eq (rep_topoOf 2 3), topoOf_cube 2 3 isCubeId23]
      simp [Topo.cube, Dom, ext, Topo.dim]
    obtain ⟨fuel, x', h2, h3⟩ := hfull (quad (nearly (1 / 300)) 3 (1 / 300)) (1 / 4800) (nearly_legal h0 (le_refl _))
      (by change (1:ℝ) / 300 = _; norm_num) (by change (1:ℝ) / 300 ≤ _; norm_num) rfl (nearly_inj h0)
      (fun x hx => nearly_regular h0 x hx) (fun _ => 1) hone
    have o : ext (fun _ : Fin 2 => (1:ℝ)) 0 = 1 ∧ ext (fun _ : Fin 2 => (1:ℝ)) 1 = 1 := by simp [ext]
    obtain ⟨x'', h4, -, h5⟩ := nearly_local (tol := 1 / 300) h0 (le_refl _) fuel _ ((nearly_global (tol := 1 / 300) (ext fun _ : Fin 2 => (1:ℝ))).1.trans o.1)
      ((nearly_global (tol := 1 / 300) (ext fun _ : Fin 2 => (1:ℝ))).2.trans (by rw [o.1, o.2]; ring))
    have h6 := (C35_fuel _ _ fuel 1 _ h2).symm.trans h4
    simp only [Option.some.injEq, LocalResult.point.injEq] at h6
    rw [h6] at h3
    have h7 := key _ (1 / 4800) h0 (le_refl _) (by norm_num) x'' h5
    have h3' : refCheckInside 2 3 x'' (1 / 4800) = true := h3
    rw [h7] at h3'
    exact nomatch h3'
  · refine ⟨nearly tol 3, if_pos (by change 3 < refSize 2 3 2; decide), fun fuel => ?_⟩
    obtain ⟨x', h2, -, h3⟩ := nearly_local h0 h1 fuel (nearly tol 3) (by simp [nearly]) (by simp [nearly])
    exact ⟨x', h2, key tol epsilon h0 h1 he x' h3⟩
  · obtain ⟨-, -, -, y, h2, h3⟩ := C76_inverse_counterexample.2 tol h0 (by linarith)
    refine ⟨y, h2, fun fuel => ?_⟩
    obtain ⟨x', h4, h5, -, -⟩ := h3 fuel
    refine ⟨x', h4, ?_⟩
    rw [← Bool.not_eq_true, refCheckInside, checkInside_iff (rep_topoOf 3 7), topoOf_cube 3 7 frustum_cube, cube_inside]
    intro h
    have := (h 0 (by norm_num)).2
    rw [h5] at this
    linarith

end nearly

/-! ### Examples -/

-- an affine triangle
example : ∃ g, AffineGeometry.ofJacobian 2 2 0 (fun _ => 1) (fun i j => if i = j then 2 else if i = 0 then 1 else 0) = some g ∧
    (fun k => if k < 2 then 1 / 3 else 0) ∈ domain ℝ 2 0 := by
  constructor
  constructor
  · exact ((C28_constructible 2 2 0 (fun _ => 1) _ (le_refl _)).2 (by
      rw [linearIndependent_rows_iff_isUnit, isUnit_iff_isUnit_det, det_fin_two, isUnit_iff_ne_zero]
      simp [mat])).choose_spec
  · rw [C18_hull 2 0 _ fun k hk => if_neg (by omega)]
    intro tol ht
    have e : implIsPrism 0 2 0 = false := by decide
    have e' : implIsPrism (implBaseTopologyId 0 2 1) 1 0 = true := by decide
    simp only [checkInside, e, e', if_true, Bool.false_eq_true, if_false]
    rw [if_pos ⟨by norm_num; linarith, by norm_num; linarith⟩, if_pos ⟨by norm_num; linarith, by norm_num; linarith⟩]

-- a cube
open Verif.Cube in
example : Built (ofCorners 2 (fun _ => 0) fun _ => 3) ∧ Ordered (ofCorners 2 (fun _ => 0) fun _ => 3) :=
  ⟨Built.corners _ _ _, fun i _ _ => by norm_num [ofCorners]⟩

-- the kite of NewtonProps.lean satisfies the hypotheses of `C103_quadrilateral_partial` (see the example in InverseProps.lean)
example : kite.tol = 16 * (kite.tol / 16) := by ring

end Verif.Locate
