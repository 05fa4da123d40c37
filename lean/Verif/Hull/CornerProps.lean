import Verif.Hull.Props
import Verif.Hull.CornerLemmas
import Verif.Hull.CubeLemmas

/-! Property theorems: an element can be judged by its corners (C100); quadrilaterals fill the convex hull of their corners (C99). -/

namespace Verif.Hull

open Verif.Typ Verif.RefTopo Verif.RefGeom Verif.MatHelp Verif.MultiLinear
open Verif.Quad (quad quadDet quad_det quad_global quad_jt quadDet_sub ie_of_li)
open Finset

/-! ### Specification -/

/-- the determinant of the Jacobian, for elements of full dimension -/
noncomputable def jacDet (g : MultiLinearGeometry) (x : Vec ℝ) : ℝ := (mat g.mydim g.mydim (g.jacobianTransposed x)).det

/-- C100, full statement: if the determinant is positive at all corners it is positive in the whole element. -/
def C100_corners_full : Prop := ∀ g : MultiLinearGeometry, Legal g → g.cdim = g.mydim →
  (∀ p ∈ referenceCorners (K := ℝ) g.mydim g.id, 0 < jacDet g p) → ∀ x ∈ domain ℝ g.mydim g.id, 0 < jacDet g x

/-! ### What positive determinants give -/

theorem li_of_det {g : MultiLinearGeometry} {x : Vec ℝ} (h : jacDet g x ≠ 0) :
    LinearIndependent ℝ (mat g.mydim g.mydim (g.jacobianTransposed x)).row :=
  Matrix.linearIndependent_rows_iff_isUnit.2 ((Matrix.isUnit_iff_isUnit_det _).2 (isUnit_iff_ne_zero.2 h))

/-- C100: where the determinant is positive it is the integration element, and the inverse of the Jacobian exists. -/
theorem C100_regular (g : MultiLinearGeometry) (hcd : g.cdim = g.mydim) (x : Vec ℝ) (h : 0 < jacDet g x) :
    g.integrationElement x = some (jacDet g x) ∧ (g.jacobianInverseTransposed x).isSome := by
  constructor
  · rw [ie_of_li hcd (li_of_det h.ne'), Matrix.det_transpose, ← jacDet, abs_of_pos h]
  · rw [MultiLinearGeometry.jacobianInverseTransposed, hcd]
    obtain ⟨r, hr⟩ := (Affine.C28_constructible g.mydim g.mydim 0 (fun _ => 0) (g.jacobianTransposed x) (le_refl _)).2 (li_of_det h.ne')
    rw [Affine.AffineGeometry.ofJacobian] at hr
    cases hm : rightInvA g.mydim g.mydim (g.jacobianTransposed x) with
    | none => rw [hm] at hr; cases hr
    | some r => rfl

/-! ### Quadrilaterals -/

theorem quad_cases {g : MultiLinearGeometry} (hg : Legal g) (h2 : g.mydim = 2) (hc : IsCubeId g.mydim g.id) (hcd : g.cdim = g.mydim) :
    ∃ cs id tol, g = quad cs id tol ∧ id < 2 ^ 2 ∧ IsCubeId 2 id := by
  obtain ⟨m, cd, id, cs, tol⟩ := g
  obtain rfl : m = 2 := h2
  obtain rfl : cd = 2 := hcd
  exact ⟨cs, id, tol, rfl, hg.id_lt, hc⟩

theorem quad_dom {id : Nat} (hc : IsCubeId 2 id) {x : Vec ℝ} (hx : x ∈ domain ℝ 2 id) :
    0 ≤ x 0 ∧ x 0 ≤ 1 ∧ 0 ≤ x 1 ∧ x 1 ≤ 1 := by
  have h := (mem_domain (rep_topoOf 2 id) x (domain_zero hx)).1 hx
  rw [topoOf_cube 2 id hc] at h
  obtain ⟨h1, h2, h3, h4, -⟩ := h
  exact ⟨h3, h4, h1, h2⟩

theorem quad_corner {id : Nat} (hc : IsCubeId 2 id) (i : Nat) (hi : i < 4) :
    (fun k => if i.testBit k then (1 : ℝ) else 0) ∈ referenceCorners (K := ℝ) 2 id := by
  rw [C17_cube 2 id hc]
  exact List.mem_map.2 ⟨i, List.mem_range.2 hi, rfl⟩

/-- the four values at the corners, and the interpolation between them -/
theorem quad_interpolate {cs : Nat → Vec ℝ} (x : Vec ℝ) :
    quadDet cs x = (1 - x 0) * (1 - x 1) * quadDet cs (fun k => if (0 : Nat).testBit k then 1 else 0) +
      x 0 * (1 - x 1) * quadDet cs (fun k => if (1 : Nat).testBit k then 1 else 0) +
      (1 - x 0) * x 1 * quadDet cs (fun k => if (2 : Nat).testBit k then 1 else 0) +
      x 0 * x 1 * quadDet cs (fun k => if (3 : Nat).testBit k then 1 else 0) := by
  have t00 : (0 : Nat).testBit 0 = false := rfl
  have t01 : (0 : Nat).testBit 1 = false := rfl
  have t10 : (1 : Nat).testBit 0 = true := rfl
  have t11 : (1 : Nat).testBit 1 = false := rfl
  have t20 : (2 : Nat).testBit 0 = false := rfl
  have t21 : (2 : Nat).testBit 1 = true := rfl
  have t30 : (3 : Nat).testBit 0 = true := rfl
  have t31 : (3 : Nat).testBit 1 = true := rfl
  simp only [quadDet, t00, t01, t10, t11, t20, t21, t30, t31, if_true, Bool.false_eq_true, if_false]
  ring

/-- C100: quadrilaterals in the plane: all values of the determinant lie between those at the corners. -/
theorem C100_quadrilateral_bounds (g : MultiLinearGeometry) (hg : Legal g) (h2 : g.mydim = 2) (hc : IsCubeId g.mydim g.id)
    (hcd : g.cdim = g.mydim) (a b : ℝ) (h : ∀ p ∈ referenceCorners (K := ℝ) g.mydim g.id, a ≤ jacDet g p ∧ jacDet g p ≤ b)
    (x : Vec ℝ) (hx : x ∈ domain ℝ g.mydim g.id) : a ≤ jacDet g x ∧ jacDet g x ≤ b := by
  obtain ⟨cs, id, tol, rfl, hid, hc⟩ := quad_cases hg h2 hc hcd
  obtain ⟨x0, x0', x1, x1'⟩ := quad_dom hc hx
  have e : ∀ y, jacDet (quad cs id tol) y = quadDet cs y := fun y => quad_det hid hc y
  simp only [e] at h ⊢
  rw [quad_interpolate]
  exact bilinear_bounds (h _ (quad_corner hc 0 (by norm_num))) (h _ (quad_corner hc 1 (by norm_num)))
    (h _ (quad_corner hc 2 (by norm_num))) (h _ (quad_corner hc 3 (by norm_num))) x0 x0' x1 x1'

theorem pos_of_corners {g : MultiLinearGeometry} {x : Vec ℝ}
    (hb : ∀ a b : ℝ, (∀ p ∈ referenceCorners (K := ℝ) g.mydim g.id, a ≤ jacDet g p ∧ jacDet g p ≤ b) → a ≤ jacDet g x ∧ jacDet g x ≤ b)
    (h : ∀ p ∈ referenceCorners (K := ℝ) g.mydim g.id, 0 < jacDet g p) : 0 < jacDet g x := by
  classical
  set s := (referenceCorners (K := ℝ) g.mydim g.id).toFinset with hs
  have hne : s.Nonempty := by
    have := C17_count (K := ℝ) g.mydim g.id
    have hpos : 0 < (referenceCorners (K := ℝ) g.mydim g.id).length := by
      rw [this, size_nv]; exact Topo.sz_pos _ _ (le_refl _)
    exact ⟨_, List.mem_toFinset.2 (List.getElem_mem hpos)⟩
  have hmem : ∀ p ∈ referenceCorners (K := ℝ) g.mydim g.id, s.inf' hne (jacDet g) ≤ jacDet g p ∧ jacDet g p ≤ s.sup' hne (jacDet g) :=
    fun p hp => ⟨inf'_le _ (List.mem_toFinset.2 hp), le_sup' _ (List.mem_toFinset.2 hp)⟩
  refine lt_of_lt_of_le ?_ (hb _ _ hmem).1
  rw [lt_inf'_iff]
  exact fun p hp => h p (List.mem_toFinset.1 hp)

/-- C100: quadrilaterals in the plane. -/
theorem C100_quadrilateral (g : MultiLinearGeometry) (hg : Legal g) (h2 : g.mydim = 2) (hc : IsCubeId g.mydim g.id)
    (hcd : g.cdim = g.mydim) (h : ∀ p ∈ referenceCorners (K := ℝ) g.mydim g.id, 0 < jacDet g p)
    (x : Vec ℝ) (hx : x ∈ domain ℝ g.mydim g.id) : 0 < jacDet g x :=
  pos_of_corners (fun a b hab => C100_quadrilateral_bounds g hg h2 hc hcd a b hab x hx) h

/-- C100: then no two points of the element coincide. -/
theorem C100_quadrilateral_injective (g : MultiLinearGeometry) (hg : Legal g) (h2 : g.mydim = 2) (hc : IsCubeId g.mydim g.id)
    (hcd : g.cdim = g.mydim) (h : ∀ p ∈ referenceCorners (K := ℝ) g.mydim g.id, 0 < jacDet g p) :
    Set.InjOn (fun x => vec g.cdim (g.global x)) (domain ℝ g.mydim g.id) := by
  intro x hx y hy hxy
  have hm : (fun k => x k * (1 / 2) + y k * (1 / 2)) ∈ domain ℝ g.mydim g.id := by
    have := (convex_convexHull ℝ _) hx hy (by norm_num : (0 : ℝ) ≤ 1 / 2) (by norm_num : (0 : ℝ) ≤ 1 / 2) (by norm_num)
    rw [domain]
    convert this using 1
    funext k
    simp [mul_comm]
  have hd := C100_quadrilateral g hg h2 hc hcd h _ hm
  obtain ⟨cs, id, tol, rfl, hid, hc'⟩ := quad_cases hg h2 hc hcd
  have e : ∀ y, jacDet (quad cs id tol) y = quadDet cs y := fun y => quad_det hid hc' y
  rw [e] at hd
  have c0 : (quad cs id tol).global x 0 = (quad cs id tol).global y 0 := congrFun hxy (0 : Fin 2)
  have c1 : (quad cs id tol).global x 1 = (quad cs id tol).global y 1 := congrFun hxy (1 : Fin 2)
  rw [quad_global hid hc', quad_global hid hc'] at c0 c1
  set D := quadDet cs (fun k => x k * (1 / 2) + y k * (1 / 2)) with hD
  have k0 : D * (x 0 - y 0) = 0 := by
    simp only [hD, quadDet]
    linear_combination (cs 2 1 - cs 0 1 + (cs 3 1 - cs 2 1 - cs 1 1 + cs 0 1) * (x 0 * (1 / 2) + y 0 * (1 / 2))) * c0 -
      (cs 2 0 - cs 0 0 + (cs 3 0 - cs 2 0 - cs 1 0 + cs 0 0) * (x 0 * (1 / 2) + y 0 * (1 / 2))) * c1
  have k1 : D * (x 1 - y 1) = 0 := by
    simp only [hD, quadDet]
    linear_combination (cs 1 0 - cs 0 0 + (cs 3 0 - cs 2 0 - cs 1 0 + cs 0 0) * (x 1 * (1 / 2) + y 1 * (1 / 2))) * c1 -
      (cs 1 1 - cs 0 1 + (cs 3 1 - cs 2 1 - cs 1 1 + cs 0 1) * (x 1 * (1 / 2) + y 1 * (1 / 2))) * c0
  have h0 := (mul_eq_zero.1 k0).resolve_left hd.ne'
  have h1 := (mul_eq_zero.1 k1).resolve_left hd.ne'
  funext k
  by_cases hk : k < 2
  · interval_cases k <;> linarith
  · rw [domain_zero hx k (by change 2 ≤ k; omega), domain_zero hy k (by change 2 ≤ k; omega)]

/-- the sign of the position of `p` relative to the line from `a` to `b` -/
def side (a b p : Nat → ℝ) : ℝ := (b 0 - a 0) * (p 1 - a 1) - (b 1 - a 1) * (p 0 - a 0)

theorem hull_side {g : MultiLinearGeometry} (hn : 1 < g.cdim) (a b : Nat → ℝ)
    (h : ∀ k, k < g.corners → 0 ≤ side a b (g.corners_ k)) {q : Fin g.cdim → ℝ} (hq : q ∈ convexHull ℝ (cornerSet g)) :
    0 ≤ (b 0 - a 0) * (q ⟨1, hn⟩ - a 1) - (b 1 - a 1) * (q ⟨0, by omega⟩ - a 0) := by
  have hs : convexHull ℝ (cornerSet g) ⊆
      {q | 0 ≤ (b 0 - a 0) * (q ⟨1, hn⟩ - a 1) - (b 1 - a 1) * (q ⟨0, by omega⟩ - a 0)} := by
    refine convexHull_min ?_ ?_
    · rintro p ⟨i, c, hc, rfl⟩
      rw [MultiLinearGeometry.corner] at hc
      split at hc
      · rename_i hi
        obtain rfl := Option.some.inj hc
        exact h i hi
      · cases hc
    · intro p hp q hq s t hs ht hst
      simp only [Set.mem_ofPred_eq, Pi.add_apply, Pi.smul_apply, smul_eq_mul] at hp hq ⊢
      have e := add_nonneg (mul_nonneg hs hp) (mul_nonneg ht hq)
      obtain rfl : t = 1 - s := by linarith
      linarith
  exact hs hq

/-- C99: a quadrilateral in the plane whose determinant is positive at the corners is the convex hull of its corners. -/
theorem C99_quadrilateral (g : MultiLinearGeometry) (hg : Legal g) (h2 : g.mydim = 2) (hc : IsCubeId g.mydim g.id)
    (hcd : g.cdim = g.mydim) (h : ∀ p ∈ referenceCorners (K := ℝ) g.mydim g.id, 0 < jacDet g p) :
    (fun x => vec g.cdim (g.global x)) '' domain ℝ g.mydim g.id = convexHull ℝ (cornerSet g) := by
  refine Set.Subset.antisymm ?_ fun q hq => ?_
  · rintro _ ⟨x, hx, rfl⟩
    exact C99_hull_cube g hg hc x hx
  obtain ⟨cs, id, tol, rfl, hid, hc'⟩ := quad_cases hg h2 hc hcd
  have e : ∀ y, jacDet (quad cs id tol) y = quadDet cs y := fun y => quad_det hid hc' y
  simp only [e] at h
  have d0 := h _ (quad_corner hc' 0 (by norm_num))
  have d1 := h _ (quad_corner hc' 1 (by norm_num))
  have d2 := h _ (quad_corner hc' 2 (by norm_num))
  have d3 := h _ (quad_corner hc' 3 (by norm_num))
  have t00 : (0 : Nat).testBit 0 = false := rfl
  have t01 : (0 : Nat).testBit 1 = false := rfl
  have t10 : (1 : Nat).testBit 0 = true := rfl
  have t11 : (1 : Nat).testBit 1 = false := rfl
  have t20 : (2 : Nat).testBit 0 = false := rfl
  have t21 : (2 : Nat).testBit 1 = true := rfl
  have t30 : (3 : Nat).testBit 0 = true := rfl
  have t31 : (3 : Nat).testBit 1 = true := rfl
  simp only [quadDet, t00, t01, t10, t11, t20, t21, t30, t31, if_true, Bool.false_eq_true, if_false] at d0 d1 d2 d3
  have hcor : (quad cs id tol).corners = 4 := by
    rw [MultiLinearGeometry.corners, size_nv, topoOf_cube 2 id hc', nv_cube]; norm_num
  have hsd : ∀ a b : Nat → ℝ, (∀ k, k < 4 → 0 ≤ side a b (cs k)) →
      0 ≤ (b 0 - a 0) * (q (1 : Fin 2) - a 1) - (b 1 - a 1) * (q (0 : Fin 2) - a 0) := fun a b hk =>
    hull_side (g := quad cs id tol) (by norm_num) a b (fun k hkk => hk k (by rw [hcor] at hkk; exact hkk)) hq
  set q0 := q (0 : Fin 2) with hq0
  set q1 := q (1 : Fin 2) with hq1
  have b1 := hsd (cs 0) (cs 1) (fun k hk => by interval_cases k <;> simp only [side] <;> nlinarith)
  have b2 := hsd (cs 3) (cs 2) (fun k hk => by interval_cases k <;> simp only [side] <;> nlinarith)
  have b3 := hsd (cs 2) (cs 0) (fun k hk => by interval_cases k <;> simp only [side] <;> nlinarith)
  have b4 := hsd (cs 1) (cs 3) (fun k hk => by interval_cases k <;> simp only [side] <;> nlinarith)
  clear hsd
  -- the horizontal line at height `y` through the element
  let A : ℝ → Nat → ℝ := fun y j => (1 - y) * cs 0 j + y * cs 2 j
  let B : ℝ → Nat → ℝ := fun y j => (1 - y) * cs 1 j + y * cs 3 j
  let σ : ℝ → ℝ := fun y => (B y 0 - A y 0) * (q1 - A y 1) - (B y 1 - A y 1) * (q0 - A y 0)
  have hσ : Continuous σ := by
    simp only [σ, A, B]
    fun_prop
  have hσ0 : 0 ≤ σ 0 := by simp only [σ, A, B]; linarith
  have hσ1 : σ 1 ≤ 0 := by simp only [σ, A, B]; linarith
  obtain ⟨y, ⟨y0, y1⟩, hy⟩ := intermediate_value_Icc' zero_le_one hσ.continuousOn ⟨hσ1, hσ0⟩
  have hL : 0 < (cs 0 0 - cs 2 0) * (B y 1 - A y 1) - (cs 0 1 - cs 2 1) * (B y 0 - A y 0) := by
    have : (cs 0 0 - cs 2 0) * (B y 1 - A y 1) - (cs 0 1 - cs 2 1) * (B y 0 - A y 0) = (1 - y) *
        ((cs 1 0 - cs 0 0) * (cs 2 1 - cs 0 1) - (cs 1 1 - cs 0 1) * (cs 2 0 - cs 0 0)) +
        y * ((cs 3 0 - cs 2 0) * (cs 2 1 - cs 0 1) - (cs 3 1 - cs 2 1) * (cs 2 0 - cs 0 0)) := by
      simp only [A, B]; ring
    rw [this]
    rcases y0.eq_or_lt with rfl | hy0
    · linarith
    · have := mul_pos hy0 (show 0 < (cs 3 0 - cs 2 0) * (cs 2 1 - cs 0 1) - (cs 3 1 - cs 2 1) * (cs 2 0 - cs 0 0) by linarith)
      have := mul_nonneg (sub_nonneg.2 y1)
        (show 0 ≤ (cs 1 0 - cs 0 0) * (cs 2 1 - cs 0 1) - (cs 1 1 - cs 0 1) * (cs 2 0 - cs 0 0) by linarith)
      linarith
  have hR : 0 < (cs 3 0 - cs 1 0) * (A y 1 - B y 1) - (cs 3 1 - cs 1 1) * (A y 0 - B y 0) := by
    have : (cs 3 0 - cs 1 0) * (A y 1 - B y 1) - (cs 3 1 - cs 1 1) * (A y 0 - B y 0) = (1 - y) *
        ((cs 1 0 - cs 0 0) * (cs 3 1 - cs 1 1) - (cs 1 1 - cs 0 1) * (cs 3 0 - cs 1 0)) +
        y * ((cs 3 0 - cs 2 0) * (cs 3 1 - cs 1 1) - (cs 3 1 - cs 2 1) * (cs 3 0 - cs 1 0)) := by
      simp only [A, B]; ring
    rw [this]
    rcases y0.eq_or_lt with rfl | hy0
    · linarith
    · have := mul_pos hy0 (show 0 < (cs 3 0 - cs 2 0) * (cs 3 1 - cs 1 1) - (cs 3 1 - cs 2 1) * (cs 3 0 - cs 1 0) by linarith)
      have := mul_nonneg (sub_nonneg.2 y1)
        (show 0 ≤ (cs 1 0 - cs 0 0) * (cs 3 1 - cs 1 1) - (cs 1 1 - cs 0 1) * (cs 3 0 - cs 1 0) by linarith)
      linarith
  -- the position on that line
  set E := (cs 0 0 - cs 2 0) * (B y 1 - A y 1) - (cs 0 1 - cs 2 1) * (B y 0 - A y 0) with hE
  set N := (cs 0 0 - cs 2 0) * (q1 - A y 1) - (cs 0 1 - cs 2 1) * (q0 - A y 0) with hN
  have hy : (B y 0 - A y 0) * (q1 - A y 1) - (B y 1 - A y 1) * (q0 - A y 0) = 0 := hy
  have p0 : E * (q0 - A y 0) = N * (B y 0 - A y 0) := by rw [hE, hN]; linear_combination (-(cs 0 0 - cs 2 0)) * hy
  have p1 : E * (q1 - A y 1) = N * (B y 1 - A y 1) := by rw [hE, hN]; linear_combination (-(cs 0 1 - cs 2 1)) * hy
  have hN0 : 0 ≤ N := by
    rw [hN]; simp only [A]
    linarith
  have hNE : N ≤ E := by
    -- on the right of the point lies the right edge
    have hM : 0 ≤ (cs 3 0 - cs 1 0) * (q1 - B y 1) - (cs 3 1 - cs 1 1) * (q0 - B y 0) := by
      simp only [B]; linarith
    have e1 : E * ((cs 3 0 - cs 1 0) * (q1 - B y 1) - (cs 3 1 - cs 1 1) * (q0 - B y 0)) =
        (E - N) * ((cs 3 0 - cs 1 0) * (A y 1 - B y 1) - (cs 3 1 - cs 1 1) * (A y 0 - B y 0)) := by
      linear_combination (cs 3 0 - cs 1 0) * p1 - (cs 3 1 - cs 1 1) * p0
    by_contra hn
    have := mul_nonneg hL.le hM
    rw [e1] at this
    have := mul_pos (show 0 < N - E by linarith) hR
    linarith
  refine ⟨fun k => if k = 0 then N / E else if k = 1 then y else 0, ?_, ?_⟩
  · change _ ∈ domain ℝ 2 id
    rw [mem_domain (rep_topoOf 2 id) _ (fun k hk => by rw [if_neg (by omega), if_neg (by omega)]), topoOf_cube 2 id hc']
    refine ⟨?_, ?_, ?_, ?_, trivial⟩
    · simpa [Topo.dim, Topo.cube] using y0
    · simpa [Topo.dim, Topo.cube] using y1
    · simpa [Topo.dim, Topo.cube] using div_nonneg hN0 hL.le
    · simpa [Topo.dim, Topo.cube] using (div_le_one hL).2 hNE
  · have g0 : q0 = A y 0 + N / E * (B y 0 - A y 0) := by
      field_simp
      linear_combination p0
    have g1 : q1 = A y 1 + N / E * (B y 1 - A y 1) := by
      field_simp
      linear_combination p1
    funext j
    change (quad cs id tol).global _ (j : Nat) = q j
    rw [quad_global hid hc']
    simp only [if_true, if_neg (show (1 : Nat) ≠ 0 by norm_num)]
    have hj : j = (0 : Fin 2) ∨ j = (1 : Fin 2) := by
      rcases j with ⟨j, hj⟩
      change j < 2 at hj
      interval_cases j
      · exact Or.inl rfl
      · exact Or.inr rfl
    rcases hj with rfl | rfl
    · rw [← hq0, g0]
      simp only [A, B]
      change cs 0 0 + (cs 1 0 - cs 0 0) * (N / E) + (cs 2 0 - cs 0 0) * y + (cs 3 0 - cs 2 0 - cs 1 0 + cs 0 0) * (N / E * y) = _
      ring
    · rw [← hq1, g1]
      simp only [A, B]
      change cs 0 1 + (cs 1 1 - cs 0 1) * (N / E) + (cs 2 1 - cs 0 1) * y + (cs 3 1 - cs 2 1 - cs 1 1 + cs 0 1) * (N / E * y) = _
      ring

/-! ### Pyramids -/

theorem mem_corners {d id : Nat} {t : Topo} (h : topoOf d id = t) (v : Face t) (hv : v.codim = d) :
    orig (K := ℝ) v ∈ referenceCorners (K := ℝ) d id := by
  subst h
  exact List.mem_of_getElem? (corner_face (rep_topoOf d id) v hv)

theorem solid_cases {g : MultiLinearGeometry} (h3 : g.mydim = 3) (hcd : g.cdim = g.mydim) :
    ∃ cs id tol, g = solid cs id tol := by
  obtain ⟨m, cd, id, cs, tol⟩ := g
  obtain rfl : m = 3 := h3
  obtain rfl : cd = 3 := hcd
  exact ⟨cs, id, tol, rfl⟩

theorem pyr_dom {id : Nat} (hid : id ||| 1 = 3) {x : Vec ℝ} (hx : x ∈ domain ℝ 3 id) :
    (0 ≤ x 2 ∧ x 2 ≤ 1) ∧ (0 ≤ x 0 ∧ x 0 ≤ 1 - x 2) ∧ 0 ≤ x 1 ∧ x 1 ≤ 1 - x 2 := by
  have h := (mem_domain (rep_topoOf 3 id) x (domain_zero hx)).1 hx
  rw [pyr_topo hid] at h
  obtain ⟨h1, h2, h3, h4, h5, h6, -⟩ := h
  exact ⟨⟨h1, h2⟩, ⟨h5, h6⟩, h3, h4⟩

theorem scale_le {tol a b : ℝ} (h0 : 0 ≤ tol) (ha : a ≤ 1) (hb : 0 ≤ b) (hab : b ≤ 1 - a) :
    0 ≤ scale tol a * b ∧ scale tol a * b ≤ 1 := by
  by_cases h : far tol (1 - a)
  · have hp : 0 < 1 - a := by rcases h with h | h <;> linarith
    rw [scale_far h, one_div, inv_mul_eq_div]
    exact ⟨div_nonneg hb hp.le, (div_le_one hp).2 hab⟩
  · rw [scale_near h]; norm_num

theorem scale_zero {tol : ℝ} (h1 : tol < 1) : scale tol 0 = 1 := by
  rw [scale_far (Or.inl (by linarith))]; norm_num

/-- C100: pyramids in space: all values of the determinant lie between those at the corners, also next to the tip. -/
theorem C100_pyramid_bounds (g : MultiLinearGeometry) (hg : Legal g) (h3 : g.mydim = 3) (hid : g.id ||| 1 = 3)
    (hcd : g.cdim = g.mydim) (a b : ℝ) (h : ∀ p ∈ referenceCorners (K := ℝ) g.mydim g.id, a ≤ jacDet g p ∧ jacDet g p ≤ b)
    (x : Vec ℝ) (hx : x ∈ domain ℝ g.mydim g.id) : a ≤ jacDet g x ∧ jacDet g x ≤ b := by
  obtain ⟨cs, id, tol, rfl⟩ := solid_cases h3 hcd
  have e : ∀ y, jacDet (solid cs id tol) y = pyrDet cs (scale tol (y 2) * y 0) (scale tol (y 2) * y 1) := fun y => pyr_det hid y
  obtain ⟨⟨x2, x2'⟩, ⟨x0, x0'⟩, x1, x1'⟩ := pyr_dom hid hx
  have s0 := scale_zero hg.tol_lt
  have m : ∀ v : Face (.pyr (.prism (.prism .pt))), v.codim = 3 → orig (K := ℝ) v ∈ referenceCorners (K := ℝ) 3 id :=
    fun v hv => mem_corners (pyr_topo hid) v hv
  simp only [e] at h ⊢
  have m0 := h _ (m (.base (.bot (.bot .pt))) rfl)
  have m1 := h _ (m (.base (.bot (.top .pt))) rfl)
  have m2 := h _ (m (.base (.top (.bot .pt))) rfl)
  have m3 := h _ (m (.base (.top (.top .pt))) rfl)
  simp [orig, setV, Topo.dim, s0] at m0 m1 m2 m3
  rw [pyrDet_bilinear]
  obtain ⟨u0, u1⟩ := scale_le hg.tol_pos.le x2' x0 x0'
  obtain ⟨v0, v1⟩ := scale_le hg.tol_pos.le x2' x1 x1'
  exact bilinear_bounds m0 m1 m2 m3 u0 u1 v0 v1

/-- C100: pyramids in space. -/
theorem C100_pyramid (g : MultiLinearGeometry) (hg : Legal g) (h3 : g.mydim = 3) (hid : g.id ||| 1 = 3)
    (hcd : g.cdim = g.mydim) (h : ∀ p ∈ referenceCorners (K := ℝ) g.mydim g.id, 0 < jacDet g p)
    (x : Vec ℝ) (hx : x ∈ domain ℝ g.mydim g.id) : 0 < jacDet g x :=
  pos_of_corners (fun a b hab => C100_pyramid_bounds g hg h3 hid hcd a b hab x hx) h

/-- C100: then no two points outside the tolerance of the tip coincide. -/
theorem C100_pyramid_injective (g : MultiLinearGeometry) (hg : Legal g) (h3 : g.mydim = 3) (hid : g.id ||| 1 = 3)
    (hcd : g.cdim = g.mydim) (h : ∀ p ∈ referenceCorners (K := ℝ) g.mydim g.id, 0 < jacDet g p) :
    Set.InjOn (fun x => vec g.cdim (g.global x)) {x | x ∈ domain ℝ g.mydim g.id ∧ g.tol < 1 - x 2} := by
  rintro x ⟨hx, tx⟩ y ⟨hy, ty⟩ hxy
  have hpos := C100_pyramid g hg h3 hid hcd h
  obtain ⟨cs, id, tol, rfl⟩ := solid_cases h3 hcd
  have e : ∀ y, jacDet (solid cs id tol) y = pyrDet cs (scale tol (y 2) * y 0) (scale tol (y 2) * y 1) := fun y => pyr_det hid y
  have t0 : 0 < tol := hg.tol_pos
  change tol < 1 - x 2 at tx
  change tol < 1 - y 2 at ty
  have px : 0 < 1 - x 2 := t0.trans tx
  have py : 0 < 1 - y 2 := t0.trans ty
  obtain ⟨⟨x2, x2'⟩, ⟨x0, x0'⟩, x1, x1'⟩ := pyr_dom hid hx
  obtain ⟨⟨y2, y2'⟩, ⟨y0, y0'⟩, y1, y1'⟩ := pyr_dom hid hy
  have hj : ∀ j, j < 3 → (1 - x 2) * (base cs (x 0 / (1 - x 2)) (x 1 / (1 - x 2)) j - cs 4 j) =
      (1 - y 2) * (base cs (y 0 / (1 - y 2)) (y 1 / (1 - y 2)) j - cs 4 j) := by
    intro j hj
    have := congrFun hxy (⟨j, hj⟩ : Fin 3)
    change (solid cs id tol).global x j = (solid cs id tol).global y j at this
    rw [pyr_global hid x tx, pyr_global hid y ty] at this
    linarith
  have hd : ∀ u v : ℝ, 0 ≤ u → u ≤ 1 → 0 ≤ v → v ≤ 1 → 0 < pyrDet cs u v := by
    intro u v u0 u1 v0 v1
    have hm : (fun k => if k = 0 then u else if k = 1 then v else 0) ∈ domain ℝ 3 id := by
      rw [mem_domain (rep_topoOf 3 id) _ (fun k hk => by rw [if_neg (by omega), if_neg (by omega)]), pyr_topo hid]
      refine ⟨?_, ?_, ?_, ?_, ?_, ?_, trivial⟩ <;> simp [Topo.dim, u0, u1, v0, v1]
    have := hpos _ hm
    rw [e] at this
    simpa [scale_zero hg.tol_lt] using this
  obtain ⟨r0, r1, r2⟩ := pyr_ray px py hj fun t ht0 ht1 => by
    have a0 := (div_le_one px).2 x0'
    have a1 := (div_le_one px).2 x1'
    have b0 := (div_le_one py).2 y0'
    have b1 := (div_le_one py).2 y1'
    have a0' := div_nonneg x0 px.le
    have a1' := div_nonneg x1 px.le
    have b0' := div_nonneg y0 py.le
    have b1' := div_nonneg y1 py.le
    refine (hd _ _ ?_ ?_ ?_ ?_).ne' <;> nlinarith
  have q2 : x 2 = y 2 := by linarith
  rw [q2] at r0 r1
  have q0 : x 0 = y 0 := (div_left_inj' py.ne').1 r0
  have q1 : x 1 = y 1 := (div_left_inj' py.ne').1 r1
  funext k
  by_cases hk : k < 3
  · interval_cases k <;> assumption
  · rw [domain_zero hx k (by change 3 ≤ k; omega), domain_zero hy k (by change 3 ≤ k; omega)]

/-! ### Prisms -/

theorem prism_dom {id : Nat} (hid : id ||| 1 = 5) {x : Vec ℝ} (hx : ∀ k, 3 ≤ k → x k = 0) :
    x ∈ domain ℝ 3 id ↔ (0 ≤ x 2 ∧ x 2 ≤ 1) ∧ 0 ≤ x 0 ∧ 0 ≤ x 1 ∧ x 0 + x 1 ≤ 1 := by
  rw [mem_domain (rep_topoOf 3 id) x hx, prism_topo hid]
  constructor
  · rintro ⟨h1, h2, h3, h4, h5, h6, -⟩
    simp only [Topo.dim] at h1 h2 h3 h4 h5 h6
    exact ⟨⟨h1, h2⟩, h5, h3, by linarith⟩
  · rintro ⟨⟨h1, h2⟩, h3, h4, h5⟩
    refine ⟨h1, h2, h4, ?_, h3, ?_, trivial⟩ <;> simp only [Topo.dim] <;> linarith

/-- the point of the prism over `(u,v)` at height `z` -/
def above (u v z : ℝ) : Vec ℝ := fun k => if k = 0 then u else if k = 1 then v else if k = 2 then z else 0

/-- C100: prisms in space.  The determinant is positive on the prism (outside the tolerance of the tip of the triangle, and on the
edge over the tip) exactly if on each of the three vertical edges the values at the ends are positive and the value in the middle is
larger than a quarter of the square of the difference of the square roots. -/
theorem C100_prism (g : MultiLinearGeometry) (hg : Legal g) (h3 : g.mydim = 3) (hid : g.id ||| 1 = 5) (hcd : g.cdim = g.mydim) :
    (∀ x ∈ domain ℝ g.mydim g.id, g.tol < 1 - x 1 ∨ (x 0 = 0 ∧ x 1 = 1) → 0 < jacDet g x) ↔
    ∀ u v : ℝ, (u = 0 ∧ v = 0) ∨ (u = 1 ∧ v = 0) ∨ (u = 0 ∧ v = 1) →
      0 < jacDet g (above u v 0) ∧ 0 < jacDet g (above u v 1) ∧
      (Real.sqrt (jacDet g (above u v 0)) - Real.sqrt (jacDet g (above u v 1))) ^ 2 < 4 * jacDet g (above u v (1 / 2)) := by
  obtain ⟨cs, id, tol, rfl⟩ := solid_cases h3 hcd
  have t1 : tol < 1 := hg.tol_lt
  have e : ∀ y : Vec ℝ, tol < 1 - y 1 ∨ (y 0 = 0 ∧ y 1 = 1) → jacDet (solid cs id tol) y = prismDet cs (y 0) (y 1) (y 2) :=
    fun y hy => prism_det hid hg.tol_pos.le y hy
  have ea : ∀ u v z : ℝ, (u = 0 ∧ v = 0) ∨ (u = 1 ∧ v = 0) ∨ (u = 0 ∧ v = 1) →
      jacDet (solid cs id tol) (above u v z) = prismDet cs u v z := by
    intro u v z h
    refine e _ ?_
    rcases h with ⟨rfl, rfl⟩ | ⟨rfl, rfl⟩ | ⟨rfl, rfl⟩ <;> simp [above, t1]
  have hm : ∀ u v z : ℝ, (u = 0 ∧ v = 0) ∨ (u = 1 ∧ v = 0) ∨ (u = 0 ∧ v = 1) → 0 ≤ z → z ≤ 1 →
      above u v z ∈ domain ℝ 3 id := by
    intro u v z h z0 z1
    rw [prism_dom hid (fun k hk => by simp [above, show k ≠ 0 by omega, show k ≠ 1 by omega, show k ≠ 2 by omega])]
    rcases h with ⟨rfl, rfl⟩ | ⟨rfl, rfl⟩ | ⟨rfl, rfl⟩ <;> simp [above, z0, z1]
  have hw : ∀ u v z : ℝ, (u = 0 ∧ v = 0) ∨ (u = 1 ∧ v = 0) ∨ (u = 0 ∧ v = 1) →
      tol < 1 - above u v z 1 ∨ (above u v z 0 = 0 ∧ above u v z 1 = 1) := by
    intro u v z h
    rcases h with ⟨rfl, rfl⟩ | ⟨rfl, rfl⟩ | ⟨rfl, rfl⟩ <;> simp [above, t1]
  constructor
  · intro h u v huv
    simp only [ea u v _ huv]
    rw [← prism_edge]
    intro z z0 z1
    have := h _ (hm u v z huv z0 z1) (hw u v z huv)
    rwa [ea u v z huv] at this
  · intro h x hx hxt
    obtain ⟨⟨x2, x2'⟩, x0, x1, x01⟩ := (prism_dom hid (domain_zero hx)).1 hx
    rw [e x hxt, prismDet_affine]
    have hp : ∀ u v : ℝ, (u = 0 ∧ v = 0) ∨ (u = 1 ∧ v = 0) ∨ (u = 0 ∧ v = 1) → 0 < prismDet cs u v (x 2) := by
      intro u v huv
      have := h u v huv
      simp only [ea u v _ huv] at this
      exact (prism_edge u v).2 this (x 2) x2 x2'
    have p0 := hp 0 0 (Or.inl ⟨rfl, rfl⟩)
    have p1 := hp 1 0 (Or.inr (Or.inl ⟨rfl, rfl⟩))
    have p2 := hp 0 1 (Or.inr (Or.inr ⟨rfl, rfl⟩))
    have w0 : 0 ≤ 1 - x 0 - x 1 := by linarith
    rcases x0.eq_or_lt with hx0 | hx0
    · rcases x1.eq_or_lt with hx1 | hx1
      · rw [← hx0, ← hx1]; linarith
      · have := mul_pos hx1 p2
        have := mul_nonneg w0 p0.le
        have := mul_nonneg x0 p1.le
        linarith
    · have := mul_pos hx0 p1
      have := mul_nonneg w0 p0.le
      have := mul_nonneg x1 p2.le
      linarith

/-! ### Cubes of every dimension -/

/-- choose an edge in every direction, `r k` the number of its lower end; the determinant of the edges -/
noncomputable def edgeDet (g : MultiLinearGeometry) (r : Nat → Nat) : ℝ :=
  (Matrix.of fun k j : Fin g.mydim => g.corners_ (r k + 2 ^ (k : Nat)) j - g.corners_ (r k) j).det

/-- a legal choice of edges -/
def EdgeChoice (d : Nat) (r : Nat → Nat) : Prop := ∀ k, k < d → r k < 2 ^ d ∧ (r k).testBit k = false

theorem cube_dom {d id : Nat} (hc : IsCubeId d id) {x : Vec ℝ} (hx : x ∈ domain ℝ d id) (r : Nat) (hr : r < d) :
    0 ≤ x r ∧ x r ≤ 1 := by
  have h := (mem_domain (rep_topoOf d id) x (domain_zero hx)).1 hx
  rw [topoOf_cube d id hc] at h
  have : ∀ n, Dom (Topo.cube n) 1 x → ∀ r, r < n → 0 ≤ x r ∧ x r ≤ 1 := by
    intro n
    induction n with
    | zero => intro _ r hr; omega
    | succ n ih =>
      rintro ⟨h1, h2, h3⟩ r hr
      rw [dim_cube] at h1 h2
      rcases Nat.lt_succ_iff_lt_or_eq.1 hr with h | rfl
      · exact ih h3 r h
      · exact ⟨h1, h2⟩
  exact this d h r hr

theorem rows_bounds {g : MultiLinearGeometry} (hg : Legal g) (a b : ℝ)
    (h : ∀ r, EdgeChoice g.mydim r → a ≤ edgeDet g r ∧ edgeDet g r ≤ b) (z : Fin g.mydim → Vec ℝ)
    (hz : ∀ k r, r < g.mydim → 0 ≤ z k r ∧ z k r ≤ 1) :
    a ≤ (Matrix.of fun k j : Fin g.mydim => MLd g.tol (Topo.cube g.mydim) (fun i => g.corners_ i j) (z k) k).det ∧
    (Matrix.of fun k j : Fin g.mydim => MLd g.tol (Topo.cube g.mydim) (fun i => g.corners_ i j) (z k) k).det ≤ b := by
  choose w w0 w1 w2 using fun k : Fin g.mydim => cube_edges hg.tol_pos.le hg.tol_lt g.mydim (z k) (hz k) k k.2
  refine det_average (fun k => edges g.mydim k) w (fun k i j => g.corners_ (i + 2 ^ (k : Nat)) j - g.corners_ i j) a b w0 w1
    (fun r hr => ?_) _ fun k j => w2 k _
  have := h (fun k => if hk : k < g.mydim then r ⟨k, hk⟩ else 0) (fun k hk => by
    beta_reduce
    rw [dif_pos hk]
    have := mem_filter.1 (hr ⟨k, hk⟩)
    exact ⟨mem_range.1 this.1, this.2⟩)
  simpa [edgeDet] using this

/-- C100: cubes of every dimension: the values of the determinant lie between the least and the largest determinant of edges. -/
theorem C100_cube_bounds (g : MultiLinearGeometry) (hg : Legal g) (hc : IsCubeId g.mydim g.id) (a b : ℝ)
    (h : ∀ r, EdgeChoice g.mydim r → a ≤ edgeDet g r ∧ edgeDet g r ≤ b) (x : Vec ℝ) (hx : x ∈ domain ℝ g.mydim g.id) :
    a ≤ jacDet g x ∧ jacDet g x ≤ b := by
  have e : mat g.mydim g.mydim (g.jacobianTransposed x) =
      Matrix.of fun k j : Fin g.mydim => MLd g.tol (Topo.cube g.mydim) (fun i => g.corners_ i j) x k := by
    funext k j
    change g.jacobianTransposed x k j = _
    rw [jt_eq g hg.id_lt x k j k.2, topoOf_cube _ _ hc]; rfl
  rw [jacDet, e]
  exact rows_bounds hg a b h (fun _ => x) fun _ => cube_dom hc hx

theorem edge_least {g : MultiLinearGeometry} (h : ∀ r, EdgeChoice g.mydim r → 0 < edgeDet g r) :
    ∃ a b, 0 < a ∧ ∀ r, EdgeChoice g.mydim r → a ≤ edgeDet g r ∧ edgeDet g r ≤ b := by
  obtain ⟨a, b, h0, hab⟩ := det_least (d := g.mydim) (fun k => edges g.mydim k)
    (fun r => edgeDet g fun k => if hk : k < g.mydim then r ⟨k, hk⟩ else 0)
    (fun r hr => h _ fun k hk => by
      rw [dif_pos hk]
      have := mem_filter.1 (hr ⟨k, hk⟩)
      exact ⟨mem_range.1 this.1, this.2⟩)
    (fun k => ⟨0, mem_filter.2 ⟨mem_range.2 (by positivity), Nat.zero_testBit _⟩⟩)
  refine ⟨a, b, h0, fun r hr => ?_⟩
  have := hab (fun k => r k) fun k => mem_filter.2 ⟨mem_range.2 (hr k k.2).1, (hr k k.2).2⟩
  simpa [edgeDet] using this

/-- C100: cubes of every dimension: if all determinants of edges are positive the element is regular. -/
theorem C100_cube (g : MultiLinearGeometry) (hg : Legal g) (hc : IsCubeId g.mydim g.id)
    (h : ∀ r, EdgeChoice g.mydim r → 0 < edgeDet g r) (x : Vec ℝ) (hx : x ∈ domain ℝ g.mydim g.id) : 0 < jacDet g x := by
  obtain ⟨a, b, h0, hab⟩ := edge_least h
  exact lt_of_lt_of_le h0 (C100_cube_bounds g hg hc a b hab x hx).1

/-- C100: and no two of its points coincide. -/
theorem C100_cube_injective (g : MultiLinearGeometry) (hg : Legal g) (hc : IsCubeId g.mydim g.id) (hcd : g.cdim = g.mydim)
    (h : ∀ r, EdgeChoice g.mydim r → 0 < edgeDet g r) :
    Set.InjOn (fun x => vec g.cdim (g.global x)) (domain ℝ g.mydim g.id) := by
  intro x hx y hy hxy
  obtain ⟨a, b, h0, hab⟩ := edge_least h
  have hpos := lt_of_lt_of_le h0 (rows_bounds hg a b hab (fun k r => if r < (k : Nat) then y r else x r) (fun k r hr => by
    split
    · exact cube_dom hc hy r hr
    · exact cube_dom hc hx r hr)).1
  have hv := Matrix.eq_zero_of_vecMul_eq_zero hpos.ne' (v := fun k : Fin g.mydim => x k - y k) (by
    funext j
    have e := congrFun hxy ⟨j, by rw [hcd]; exact j.2⟩
    change g.global x j = g.global y j at e
    rw [global_eq g hg.id_lt, global_eq g hg.id_lt, topoOf_cube _ _ hc] at e
    have := cube_path g.tol g.mydim (fun i => g.corners_ i j) x y
    rw [e, _root_.sub_self, ← Fin.sum_univ_eq_sum_range
      (fun k => (x k - y k) * MLd g.tol (Topo.cube g.mydim) (fun i => g.corners_ i j) (fun r => if r < k then y r else x r) k)] at this
    exact this.symm)
  funext k
  by_cases hk : k < g.mydim
  · exact sub_eq_zero.1 (congrFun hv ⟨k, hk⟩)
  · rw [domain_zero hx k (by omega), domain_zero hy k (by omega)]

/-! ### Affine images and simplices -/

/-- C100: affine images of the reference element: the determinant is constant, away from the tips. -/
theorem C100_affine (g : MultiLinearGeometry) (hg : Legal g) (hcd : g.cdim = g.mydim) (a : Vec ℝ) (M : Mat ℝ) (h : ImageOf g a M)
    (x : Vec ℝ) (hx : TipsClear g.tol g.mydim g.id x) : jacDet g x = (mat g.mydim g.mydim M).det := by
  rw [jacDet, ← Matrix.det_transpose (mat g.mydim g.mydim M)]
  congr 1
  funext r j
  change g.jacobianTransposed x r j = M j r
  rw [jt_eq g hg.id_lt x r j r.2]
  exact MLd_exact hg.tol_pos.le _ _ _ _ x (exact_of_imageOf h j (by rw [hcd]; exact j.2)) (away_of_clear _ _ _ hx) r
    (by rw [topo_dim]; exact r.2)

theorem clear_zero {tol : ℝ} (h1 : tol < 1) : ∀ d id, TipsClear tol d id fun _ => 0
  | 0, _ => trivial
  | d + 1, id => by
    rw [TipsClear]
    split
    · exact clear_zero h1 d _
    · refine ⟨by linarith, ?_⟩
      have := clear_zero h1 d (id % 2 ^ d)
      simpa using this

theorem zero_mem_corners (d id : Nat) : (fun _ => 0) ∈ referenceCorners (K := ℝ) d id := by
  induction d generalizing id with
  | zero => simp [referenceCorners]
  | succ d ih =>
    rw [referenceCorners]
    split <;> exact List.mem_append_left _ (ih _)

/-- C100, partial.  Missing: points within the tolerance of a tip (except in the pyramid, where they are included), prisms, for which
the corners are not enough (`C100_prism` has the exact criterion), and cubes of dimension three and higher (`C100_cube` has a
criterion on the edges); the full statement is wrong (`C100_corners_counterexample`). -/
theorem C100_corners_partial (g : MultiLinearGeometry) (hg : Legal g) (hcd : g.cdim = g.mydim)
    (h : ∀ p ∈ referenceCorners (K := ℝ) g.mydim g.id, 0 < jacDet g p) (x : Vec ℝ) (hx : x ∈ domain ℝ g.mydim g.id)
    (ht : (g.mydim = 2 ∧ IsCubeId g.mydim g.id) ∨ (g.mydim = 3 ∧ g.id ||| 1 = 3) ∨
      (IsSimplexId g.mydim g.id ∧ TipsClear g.tol g.mydim g.id x)) : 0 < jacDet g x := by
  rcases ht with ⟨h2, hc⟩ | ⟨h3, hid⟩ | ⟨hs, hx⟩
  · exact C100_quadrilateral g hg h2 hc hcd h x hx
  · exact C100_pyramid g hg h3 hid hcd h x hx
  · have h0 := h _ (zero_mem_corners _ _)
    rw [C100_affine g hg hcd _ _ (imageOf_simplex g hs) _ (clear_zero hg.tol_lt _ _)] at h0
    rwa [C100_affine g hg hcd _ _ (imageOf_simplex g hs) _ hx]

/-! ### Hexahedra and prisms that the corners do not show to be degenerate -/

/-- the unit cube, the top turned by 180 degrees -/
def twisted (tol : ℝ) : MultiLinearGeometry where
  mydim := 3
  cdim := 3
  id := 7
  corners_ := fun k j =>
    if j = 2 then if k < 4 then 0 else 1
    else if k < 4 then if k.testBit j then 1 else 0
    else if k.testBit j then 0 else 1
  tol := tol

theorem twisted_legal {tol : ℝ} (h0 : 0 < tol) (h1 : tol < 1) : Legal (twisted tol) := ⟨by norm_num [twisted], h0, h1⟩

theorem twisted_global (tol : ℝ) (x : Vec ℝ) : (twisted tol).global x 0 = x 0 + x 2 - 2 * x 0 * x 2 ∧
    (twisted tol).global x 1 = x 1 + x 2 - 2 * x 1 * x 2 ∧ (twisted tol).global x 2 = x 2 := by
  have ht : topoOf (twisted tol).mydim (twisted tol).id = .prism (.prism (.prism .pt)) := by
    change topoOf 3 7 = _; decide
  have n1 : nv .pt = 1 := rfl
  have n2 : nv (.prism .pt) = 2 := rfl
  have n3 : nv (.prism (.prism .pt)) = 4 := rfl
  have hid : (twisted tol).id < 2 ^ (twisted tol).mydim := by norm_num [twisted]
  refine ⟨?_, ?_, ?_⟩ <;> rw [global_eq _ hid, ht] <;> simp [ML, Topo.dim, n1, n2, n3, twisted, Nat.testBit] <;> ring

theorem twisted_jt (tol : ℝ) (x : Vec ℝ) : jacDet (twisted tol) x = (1 - 2 * x 2) ^ 2 := by
  have ht : topoOf (twisted tol).mydim (twisted tol).id = .prism (.prism (.prism .pt)) := by
    change topoOf 3 7 = _; decide
  have n1 : nv .pt = 1 := rfl
  have n2 : nv (.prism .pt) = 2 := rfl
  have n3 : nv (.prism (.prism .pt)) = 4 := rfl
  have hid : (twisted tol).id < 2 ^ (twisted tol).mydim := by norm_num [twisted]
  have e : ∀ r j, r < 3 → (twisted tol).jacobianTransposed x r j =
      MLd tol (.prism (.prism (.prism .pt))) (fun k => (twisted tol).corners_ k j) x r := fun r j hr => by
    rw [jt_eq _ hid _ _ _ hr, ht]; rfl
  rw [jacDet]
  refine (det_three _).trans ?_
  simp only [det3, e 0 _ (by norm_num), e 1 _ (by norm_num), e 2 _ (by norm_num)]
  simp [ML, MLd, Topo.dim, n1, n2, n3, twisted, Nat.testBit]
  ring

theorem twisted_center (tol : ℝ) : ∃ p, position (K := ℝ) (twisted tol).mydim (twisted tol).id 0 0 = some p ∧ p 2 = 1 / 2 := by
  obtain ⟨p, hp, hm⟩ := C21_mean (K := ℝ) 3 7 0 0 (by norm_num) (by norm_num) (by decide)
  refine ⟨p, hp, ?_⟩
  have := hm 2
  have h3 : refSize3 3 7 0 0 3 = 8 := by decide
  have h4 : subEntities 3 7 0 0 3 = [0, 1, 2, 3, 4, 5, 6, 7] := by decide
  rw [h3, h4] at this
  have hc := C17_cube (K := ℝ) 3 7 (by intro k h1 h2; interval_cases k <;> rfl)
  simp [RefGeom.corner, hc, List.range_succ, Nat.testBit] at this
  linarith

/-- C100: a hexahedron, for every tolerance: the determinant is one at all corners, but the whole section half way up is mapped to
one point; `volume()` is zero and the Jacobian has no inverse in the centre. -/
theorem C100_hexahedron_counterexample (tol : ℝ) (h0 : 0 < tol) (h1 : tol < 1) : Legal (twisted tol) ∧
    (∀ p ∈ referenceCorners (K := ℝ) (twisted tol).mydim (twisted tol).id, jacDet (twisted tol) p = 1) ∧
    (∀ x, x 2 = 1 / 2 → vec 3 ((twisted tol).global x) = fun _ => 1 / 2) ∧
    (∀ x, x 2 = 1 / 2 → jacDet (twisted tol) x = 0 ∧ (twisted tol).jacobianInverseTransposed x = none) ∧
    (twisted tol).volume = some 0 := by
  have hs : ∀ x : Vec ℝ, x 2 = 1 / 2 → jacDet (twisted tol) x = 0 := fun x hx => by rw [twisted_jt, hx]; norm_num
  have hn : ∀ x : Vec ℝ, x 2 = 1 / 2 → ¬ LinearIndependent ℝ (mat 3 3 ((twisted tol).jacobianTransposed x)).row := fun x hx hl =>
    (isUnit_iff_ne_zero.1 ((Matrix.isUnit_iff_isUnit_det _).1 (Matrix.linearIndependent_rows_iff_isUnit.1 hl))) (hs x hx)
  refine ⟨twisted_legal h0 h1, fun p hp => ?_, fun x hx => ?_, fun x hx => ⟨hs x hx, ?_⟩, ?_⟩
  · change p ∈ referenceCorners (K := ℝ) 3 7 at hp
    rw [C17_cube 3 7 (fun k h1 h2 => by interval_cases k <;> rfl)] at hp
    obtain ⟨i, hi, rfl⟩ := List.mem_map.1 hp
    rw [twisted_jt]
    by_cases hb : i.testBit 2 = true <;> simp [hb]; norm_num
  · obtain ⟨a, b, c⟩ := twisted_global tol x
    funext j
    fin_cases j
    · change (twisted tol).global x 0 = 1 / 2
      rw [a, hx]; ring
    · change (twisted tol).global x 1 = 1 / 2
      rw [b, hx]; ring
    · change (twisted tol).global x 2 = 1 / 2
      rw [c, hx]
  · exact rightInvA_none (le_refl 3) (hn x hx)
  · obtain ⟨p, hp, hp2⟩ := twisted_center tol
    rw [MultiLinearGeometry.volume, hp]
    have hie : (twisted tol).integrationElement p = some 0 := by
      refine (C27_sqrtDetAAT_partial 3 3 _ (Or.inr (Or.inr (Or.inr (Or.inl ⟨rfl, rfl⟩))))).trans ?_
      rw [Quad.sqrt_det_square, Matrix.det_transpose]
      have := hs p hp2
      rw [jacDet] at this
      rw [show (mat 3 3 ((twisted tol).jacobianTransposed p)).det = 0 from this, abs_zero]
    simp only [Option.bind_eq_bind, Option.bind_some, hie]
    simp

/-- C100: the full statement is wrong. -/
theorem C100_corners_counterexample : ¬ C100_corners_full := by
  intro h
  obtain ⟨a, b, c, d, -⟩ := C100_hexahedron_counterexample (1 / 2) (by norm_num) (by norm_num)
  have := h (twisted (1 / 2)) a rfl (fun p hp => by rw [b p hp]; norm_num) (fun k => if k = 2 then 1 / 2 else 0) (by
    change _ ∈ domain ℝ 3 7
    rw [mem_domain (rep_topoOf 3 7) _ (fun k hk => if_neg (by omega)), topoOf_cube 3 7 (fun k h1 h2 => by interval_cases k <;> rfl)]
    exact dom_cube 3 _ fun r hr => by split <;> norm_num)
  rw [(d _ (by simp)).1] at this
  exact lt_irrefl _ this

/-- a prism over a triangle, the top turned by 180 degrees -/
def twistedPrism (tol : ℝ) : MultiLinearGeometry :=
  solid (fun k j => if j = 2 then if k < 3 then 0 else 1 else if k = j + 1 then 1 else if k = j + 4 then -1 else 0) 5 tol

/-- C100: a prism, for every tolerance: the determinant is one at all corners, and zero half way up. -/
theorem C100_prism_counterexample (tol : ℝ) (h0 : 0 < tol) (h1 : tol < 1) : Legal (twistedPrism tol) ∧
    (∀ u v z : ℝ, (u = 0 ∧ v = 0) ∨ (u = 1 ∧ v = 0) ∨ (u = 0 ∧ v = 1) → z = 0 ∨ z = 1 →
      jacDet (twistedPrism tol) (above u v z) = 1) ∧
    ∀ u v : ℝ, tol < 1 - v → jacDet (twistedPrism tol) (above u v (1 / 2)) = 0 := by
  have hl : Legal (twistedPrism tol) := ⟨by norm_num [twistedPrism], h0, h1⟩
  have e : ∀ u v z : ℝ, tol < 1 - v ∨ (u = 0 ∧ v = 1) → jacDet (twistedPrism tol) (above u v z) = (1 - 2 * z) ^ 2 := by
    intro u v z h
    have := prism_det (cs := (twistedPrism tol).corners_) (id := 5) (by decide) h0.le (above u v z) h
    refine this.trans ?_
    simp [prismDet, prismRow0, prismRow1, prismRow2, det3, twistedPrism, above]
    ring
  refine ⟨hl, fun u v z huv hz => ?_, fun u v hv => ?_⟩
  · rw [e u v z (by rcases huv with ⟨rfl, rfl⟩ | ⟨rfl, rfl⟩ | ⟨rfl, rfl⟩ <;> simp [h1])]
    rcases hz with rfl | rfl <;> norm_num
  · rw [e u v _ (Or.inl hv)]; norm_num

/-! ### Examples -/

/-- the hypotheses of `C100_quadrilateral` and `C99_quadrilateral`: a trapezoid that is not a parallelogram -/
example : ∃ g : MultiLinearGeometry, Legal g ∧ g.mydim = 2 ∧ IsCubeId g.mydim g.id ∧ g.cdim = g.mydim ∧
    (∀ p ∈ referenceCorners (K := ℝ) g.mydim g.id, 0 < jacDet g p) ∧ jacDet g (fun _ => 0) ≠ jacDet g (fun k => if k = 1 then 1 else 0) := by
  have hc : IsCubeId 2 3 := fun k h1 h2 => by interval_cases k; rfl
  let cs : Nat → Vec ℝ := fun k j => if k = 1 ∧ j = 0 then 2 else if k.testBit j then 1 else 0
  have e : ∀ y, jacDet (quad cs 3 (1 / 2)) y = quadDet cs y := fun y => quad_det (by norm_num) hc y
  have e' : ∀ y, jacDet (quad cs 3 (1 / 2)) y = 2 - y 1 := fun y => by
    rw [e]; simp [quadDet, cs, Nat.testBit]; ring
  refine ⟨quad cs 3 (1 / 2), ⟨by norm_num, by norm_num, by norm_num⟩, rfl, hc, rfl, fun p hp => ?_, ?_⟩
  · change p ∈ referenceCorners (K := ℝ) 2 3 at hp
    rw [C17_cube 2 3 hc] at hp
    obtain ⟨i, hi, rfl⟩ := List.mem_map.1 hp
    rw [e']
    by_cases hb : i.testBit 1 = true <;> norm_num [hb]
  · rw [e', e']; norm_num

/-- the hypotheses of `C100_cube`: the unit cube with one corner moved -/
example : ∃ g : MultiLinearGeometry, Legal g ∧ g.mydim = 3 ∧ IsCubeId g.mydim g.id ∧ g.cdim = g.mydim ∧
    (∀ r, EdgeChoice g.mydim r → 0 < edgeDet g r) ∧ edgeDet g (fun _ => 0) ≠ edgeDet g (fun k => 7 - 2 ^ k) := by
  let cs : Nat → Vec ℝ := fun k j => if k = 7 then 2 else if k / 2 ^ j % 2 = 1 then 1 else 0
  have hc : IsCubeId 3 7 := fun k h1 h2 => by interval_cases k <;> rfl
  have e : ∀ r, edgeDet (solid cs 7 (1 / 2)) r = det3 (fun j => cs (r 0 + 1) j - cs (r 0) j) (fun j => cs (r 1 + 2) j - cs (r 1) j)
      (fun j => cs (r 2 + 4) j - cs (r 2) j) := fun r => det_three (fun k j => cs (r k + 2 ^ k) j - cs (r k) j)
  refine ⟨solid cs 7 (1 / 2), ⟨by norm_num, by norm_num, by norm_num⟩, rfl, hc, rfl, fun r hr => ?_, ?_⟩
  · rw [e]
    obtain ⟨a0, b0⟩ := hr 0 (by norm_num)
    obtain ⟨a1, b1⟩ := hr 1 (by norm_num)
    obtain ⟨a2, b2⟩ := hr 2 (by norm_num)
    have key : ∀ k, k < 3 → ∀ i, i < 8 → i.testBit k = false → ∃ s : ℝ, (s = 0 ∨ s = 1) ∧
        ∀ j, j < 3 → cs (i + 2 ^ k) j - cs i j = (if j = k then 1 else 0) + s := by
      intro k hk i hi hb
      refine ⟨if i + 2 ^ k = 7 then 1 else 0, by split <;> simp, fun j hj => ?_⟩
      interval_cases k <;> interval_cases i <;> first | (exfalso; revert hb; decide) | skip
      all_goals interval_cases j <;> norm_num [cs]
    obtain ⟨s0, c0, d0⟩ := key 0 (by norm_num) (r 0) a0 b0
    obtain ⟨s1, c1, d1⟩ := key 1 (by norm_num) (r 1) a1 b1
    obtain ⟨s2, c2, d2⟩ := key 2 (by norm_num) (r 2) a2 b2
    simp only [pow_zero, pow_one, show (2 : Nat) ^ 2 = 4 from rfl] at d0 d1 d2
    simp only [det3, d0 0 (by norm_num), d0 1 (by norm_num), d0 2 (by norm_num), d1 0 (by norm_num), d1 1 (by norm_num),
      d1 2 (by norm_num), d2 0 (by norm_num), d2 1 (by norm_num), d2 2 (by norm_num)]
    rcases c0 with rfl | rfl <;> rcases c1 with rfl | rfl <;> rcases c2 with rfl | rfl <;> norm_num
  · rw [e, e]; norm_num [det3, cs]

/-- the hypotheses of `C100_pyramid`: the pyramid over a trapezoid -/
example : ∃ g : MultiLinearGeometry, Legal g ∧ g.mydim = 3 ∧ g.id ||| 1 = 3 ∧ g.cdim = g.mydim ∧
    (∀ p ∈ referenceCorners (K := ℝ) g.mydim g.id, 0 < jacDet g p) ∧ jacDet g (fun _ => 0) ≠ jacDet g (fun k => if k = 1 then 1 else 0) := by
  let cs : Nat → Vec ℝ := fun k j => if k = 4 then (if j = 2 then 1 else 0) else if k = 1 ∧ j = 0 then 2 else if k.testBit j then 1 else 0
  have hid : (3 : Nat) ||| 1 = 3 := by decide
  have e : ∀ y, jacDet (solid cs 3 (1 / 2)) y = pyrDet cs (scale (1 / 2) (y 2) * y 0) (scale (1 / 2) (y 2) * y 1) := fun y => pyr_det hid y
  have e' : ∀ y, jacDet (solid cs 3 (1 / 2)) y = 2 - scale (1 / 2) (y 2) * y 1 := fun y => by
    rw [e]; simp [pyrDet, pyrRow0, pyrRow1, pyrRow2, base, det3, cs, Nat.testBit]; ring
  have s0 : scale (1 / 2) 0 = 1 := scale_zero (by norm_num)
  refine ⟨solid cs 3 (1 / 2), ⟨by norm_num, by norm_num, by norm_num⟩, rfl, hid, rfl, fun p hp => ?_, ?_⟩
  · obtain ⟨⟨x2, x2'⟩, -, x1, x1'⟩ := pyr_dom (id := 3) hid (subset_convexHull ℝ _ hp)
    rw [e']
    have := (scale_le (tol := 1 / 2) (by norm_num) x2' x1 x1').2
    linarith
  · rw [e', e']; norm_num [s0]

/-- the right hand side of `C100_prism`: the reference prism stretched at the top -/
example : ∃ g : MultiLinearGeometry, Legal g ∧ g.mydim = 3 ∧ g.id ||| 1 = 5 ∧ g.cdim = g.mydim ∧
    ∀ u v : ℝ, (u = 0 ∧ v = 0) ∨ (u = 1 ∧ v = 0) ∨ (u = 0 ∧ v = 1) →
      0 < jacDet g (above u v 0) ∧ 0 < jacDet g (above u v 1) ∧
      (Real.sqrt (jacDet g (above u v 0)) - Real.sqrt (jacDet g (above u v 1))) ^ 2 < 4 * jacDet g (above u v (1 / 2)) := by
  let cs : Nat → Vec ℝ := fun k j => if j = 2 then if k < 3 then 0 else 1 else if k = j + 1 then 1 else if k = j + 4 then 2 else 0
  refine ⟨solid cs 5 (1 / 2), ⟨by norm_num, by norm_num, by norm_num⟩, rfl, by decide, rfl, fun u v huv => ?_⟩
  have e : ∀ z : ℝ, jacDet (solid cs 5 (1 / 2)) (above u v z) = (1 + z) ^ 2 := by
    intro z
    refine (prism_det (cs := cs) (id := 5) (by decide) (by norm_num) (above u v z) ?_).trans ?_
    · rcases huv with ⟨rfl, rfl⟩ | ⟨rfl, rfl⟩ | ⟨rfl, rfl⟩ <;> norm_num [above]
    · simp [prismDet, prismRow0, prismRow1, prismRow2, det3, cs, above]; ring
  rw [e, e, e, Real.sqrt_sq (by norm_num), Real.sqrt_sq (by norm_num)]
  norm_num

end Verif.Hull
