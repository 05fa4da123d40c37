import Verif.Quad.InverseProps

/-! Determinants of the Jacobians of quadrilaterals, pyramids and prisms. -/

namespace Verif.Hull

open Verif.Typ Verif.RefTopo Verif.RefGeom Verif.MatHelp Verif.MultiLinear

/-- determinant of three rows -/
def det3 (a b c : Nat → ℝ) : ℝ :=
  a 0 * b 1 * c 2 - a 0 * b 2 * c 1 - a 1 * b 0 * c 2 + a 1 * b 2 * c 0 + a 2 * b 0 * c 1 - a 2 * b 1 * c 0

theorem det_three (A : Mat ℝ) : (mat 3 3 A).det = det3 (A 0) (A 1) (A 2) := by
  rw [Matrix.det_fin_three]
  rfl

theorem det3_smul_left (r : ℝ) (a b c : Nat → ℝ) : det3 (fun j => r * a j) b c = r * det3 a b c := by
  simp only [det3]; ring

theorem det3_smul_right (r : ℝ) (a b c : Nat → ℝ) : det3 a b (fun j => r * c j) = r * det3 a b c := by
  simp only [det3]; ring

/-! ### Quadratic polynomials -/

/-- positive on the unit interval: ends and middle decide -/
theorem quadratic_pos (p q r : ℝ) :
    (∀ z, 0 ≤ z → z ≤ 1 → 0 < p + q * z + r * z ^ 2) ↔
    0 < p ∧ 0 < p + q + r ∧ (Real.sqrt p - Real.sqrt (p + q + r)) ^ 2 < 4 * (p + q * (1 / 2) + r * (1 / 2) ^ 2) := by
  have key : ∀ z, 0 ≤ p → 0 ≤ p + q + r → p + q * z + r * z ^ 2 = (Real.sqrt p * (1 - z) - Real.sqrt (p + q + r) * z) ^ 2 +
      (4 * (p + q * (1 / 2) + r * (1 / 2) ^ 2) - (Real.sqrt p - Real.sqrt (p + q + r)) ^ 2) * (z * (1 - z)) := by
    intro z h1 h2
    have e1 := Real.sq_sqrt h1
    have e2 := Real.sq_sqrt h2
    linear_combination (-(1 - z) ^ 2 + z * (1 - z)) * e1 + (-z ^ 2 + z * (1 - z)) * e2
  constructor
  · intro h
    have h1 : 0 < p := by simpa using h 0 (le_refl _) zero_le_one
    have h2 : 0 < p + q + r := by simpa using h 1 zero_le_one (le_refl _)
    refine ⟨h1, h2, ?_⟩
    have s1 := Real.sqrt_pos.2 h1
    have s2 := Real.sqrt_pos.2 h2
    have hz1 : 0 < Real.sqrt p / (Real.sqrt p + Real.sqrt (p + q + r)) := by positivity
    have hz2 : Real.sqrt p / (Real.sqrt p + Real.sqrt (p + q + r)) < 1 := by rw [div_lt_one (by positivity)]; linarith
    have h3 := h _ hz1.le hz2.le
    rw [key _ h1.le h2.le] at h3
    have e : Real.sqrt p * (1 - Real.sqrt p / (Real.sqrt p + Real.sqrt (p + q + r))) -
        Real.sqrt (p + q + r) * (Real.sqrt p / (Real.sqrt p + Real.sqrt (p + q + r))) = 0 := by field_simp; ring
    rw [e] at h3
    have h4 := (pos_iff_pos_of_mul_pos (by simpa using h3)).2 (mul_pos hz1 (by linarith))
    linarith
  · rintro ⟨h1, h2, h3⟩ z hz0 hz1
    rw [key z h1.le h2.le]
    rcases hz0.eq_or_lt with rfl | hz0
    · have := Real.sqrt_pos.2 h1
      have : 0 < Real.sqrt p ^ 2 := by positivity
      simpa using this
    rcases hz1.eq_or_lt with rfl | hz1
    · have := Real.sqrt_pos.2 h2
      have : 0 < Real.sqrt (p + q + r) ^ 2 := by positivity
      simpa using this
    · exact add_pos_of_nonneg_of_pos (sq_nonneg _) (mul_pos (by linarith) (mul_pos hz0 (by linarith)))

/-! ### Pyramids -/

section pyramid

variable (cs : Nat → Vec ℝ) (id : Nat) (tol : ℝ)

/-- an element of dimension three in space -/
abbrev solid : MultiLinearGeometry := ⟨3, 3, id, cs, tol⟩

variable {cs id tol}

/-- the base, a bilinear patch -/
def base (cs : Nat → Vec ℝ) (u v : ℝ) (j : Nat) : ℝ :=
  cs 0 j + (cs 1 j - cs 0 j) * u + (cs 2 j - cs 0 j) * v + (cs 3 j - cs 2 j - cs 1 j + cs 0 j) * (u * v)

/-- the rows of the Jacobian -/
def pyrRow0 (cs : Nat → Vec ℝ) (v : ℝ) (j : Nat) : ℝ := cs 1 j - cs 0 j + (cs 3 j - cs 2 j - cs 1 j + cs 0 j) * v

def pyrRow1 (cs : Nat → Vec ℝ) (u : ℝ) (j : Nat) : ℝ := cs 2 j - cs 0 j + (cs 3 j - cs 2 j - cs 1 j + cs 0 j) * u

def pyrRow2 (cs : Nat → Vec ℝ) (u v : ℝ) (j : Nat) : ℝ := cs 4 j - cs 0 j + (cs 3 j - cs 2 j - cs 1 j + cs 0 j) * (u * v)

def pyrDet (cs : Nat → Vec ℝ) (u v : ℝ) : ℝ := det3 (pyrRow0 cs v) (pyrRow1 cs u) (pyrRow2 cs u v)

theorem pyr_topo (hid : id ||| 1 = 3) : topoOf 3 id = .pyr (.prism (.prism .pt)) := by
  have h : id < 4 := by
    by_contra hn
    have : 4 ≤ id ||| 1 := le_trans (by omega) Nat.left_le_or
    omega
  interval_cases id <;> first | decide | (revert hid; decide)

theorem pyr_lt (hid : id ||| 1 = 3) : id < 2 ^ 3 := lt_of_le_of_lt Nat.left_le_or (by rw [hid]; norm_num)

theorem pyr_global (hid : id ||| 1 = 3) (x : Vec ℝ) (hx : tol < 1 - x 2) (j : Nat) :
    (solid cs id tol).global x j = (1 - x 2) * base cs (x 0 / (1 - x 2)) (x 1 / (1 - x 2)) j + x 2 * cs 4 j := by
  have h1 : nv (.prism (.prism .pt)) = 4 := rfl
  have h2 : nv (.prism .pt) = 2 := rfl
  have h3 : nv .pt = 1 := rfl
  rw [MultiLinear.global_eq _ (pyr_lt hid), pyr_topo hid, ML_pyr_far (Or.inl hx)]
  simp only [ML, Topo.dim, h1, h2, h3, base]
  ring

theorem pyr_jt (hid : id ||| 1 = 3) (x : Vec ℝ) (j : Nat) :
    (solid cs id tol).jacobianTransposed x 0 j = pyrRow0 cs (scale tol (x 2) * x 1) j ∧
    (solid cs id tol).jacobianTransposed x 1 j = pyrRow1 cs (scale tol (x 2) * x 0) j ∧
    (solid cs id tol).jacobianTransposed x 2 j = pyrRow2 cs (scale tol (x 2) * x 0) (scale tol (x 2) * x 1) j := by
  have h1 : nv (.prism (.prism .pt)) = 4 := rfl
  have h2 : nv (.prism .pt) = 2 := rfl
  have h3 : nv .pt = 1 := rfl
  refine ⟨?_, ?_, ?_⟩ <;>
  · rw [jt_eq _ (pyr_lt hid) _ _ _ (by norm_num), pyr_topo hid]
    simp [MLd, ML, Topo.dim, h1, h2, h3, pyrRow0, pyrRow1, pyrRow2, Finset.sum_range_succ]
    try ring

theorem pyr_det (hid : id ||| 1 = 3) (x : Vec ℝ) :
    (mat 3 3 ((solid cs id tol).jacobianTransposed x)).det = pyrDet cs (scale tol (x 2) * x 0) (scale tol (x 2) * x 1) := by
  rw [det_three, pyrDet]
  congr 1 <;> funext j
  · exact (pyr_jt hid x j).1
  · exact (pyr_jt hid x j).2.1
  · exact (pyr_jt hid x j).2.2

/-- the determinant is bilinear in the projection to the base -/
theorem pyrDet_bilinear (u v : ℝ) : pyrDet cs u v = (1 - u) * (1 - v) * pyrDet cs 0 0 + u * (1 - v) * pyrDet cs 1 0 +
    (1 - u) * v * pyrDet cs 0 1 + u * v * pyrDet cs 1 1 := by
  simp only [pyrDet, det3, pyrRow0, pyrRow1, pyrRow2]; ring

theorem bilinear_bounds {a b D0 D1 D2 D3 u v : ℝ} (h0 : a ≤ D0 ∧ D0 ≤ b) (h1 : a ≤ D1 ∧ D1 ≤ b) (h2 : a ≤ D2 ∧ D2 ≤ b)
    (h3 : a ≤ D3 ∧ D3 ≤ b) (u0 : 0 ≤ u) (u1 : u ≤ 1) (v0 : 0 ≤ v) (v1 : v ≤ 1) :
    a ≤ (1 - u) * (1 - v) * D0 + u * (1 - v) * D1 + (1 - u) * v * D2 + u * v * D3 ∧
    (1 - u) * (1 - v) * D0 + u * (1 - v) * D1 + (1 - u) * v * D2 + u * v * D3 ≤ b := by
  have w0 : 0 ≤ (1 - u) * (1 - v) := mul_nonneg (by linarith) (by linarith)
  have w1 : 0 ≤ u * (1 - v) := mul_nonneg u0 (by linarith)
  have w2 : 0 ≤ (1 - u) * v := mul_nonneg (by linarith) v0
  have w3 : 0 ≤ u * v := mul_nonneg u0 v0
  constructor
  · have e0 := mul_le_mul_of_nonneg_left h0.1 w0
    have e1 := mul_le_mul_of_nonneg_left h1.1 w1
    have e2 := mul_le_mul_of_nonneg_left h2.1 w2
    have e3 := mul_le_mul_of_nonneg_left h3.1 w3
    nlinarith
  · have e0 := mul_le_mul_of_nonneg_left h0.2 w0
    have e1 := mul_le_mul_of_nonneg_left h1.2 w1
    have e2 := mul_le_mul_of_nonneg_left h2.2 w2
    have e3 := mul_le_mul_of_nonneg_left h3.2 w3
    nlinarith

/-- the determinant in terms of the cone over the base seen from the tip -/
theorem pyrDet_cone (u v : ℝ) :
    pyrDet cs u v = -det3 (pyrRow0 cs v) (pyrRow1 cs u) (fun j => base cs u v j - cs 4 j) := by
  simp only [pyrDet, det3, pyrRow0, pyrRow1, pyrRow2, base]; ring

/-- two points of the base on one ray from the tip: between them the Jacobian is singular -/
theorem pyr_ray {s s' u v u' v' : ℝ} (hs : 0 < s) (hs' : 0 < s')
    (h : ∀ j, j < 3 → s * (base cs u v j - cs 4 j) = s' * (base cs u' v' j - cs 4 j))
    (hd : ∀ t, 0 ≤ t → t ≤ 1 → pyrDet cs (u + t * (u' - u)) (v + t * (v' - v)) ≠ 0) : u = u' ∧ v = v' ∧ s = s' := by
  set r := Real.sqrt (s / s') with hr
  have hr0 : 0 < r := Real.sqrt_pos.2 (by positivity)
  have hr2 : r ^ 2 = s / s' := Real.sq_sqrt (by positivity)
  set t := 1 / (1 + r) with ht
  have ht0 : 0 < t := by positivity
  have ht1 : t < 1 := by rw [ht, div_lt_one (by positivity)]; linarith
  have hroot : 1 - 2 * t - (s / s' - 1) * t ^ 2 = 0 := by
    rw [← hr2, ht]; field_simp; ring
  have hP := hd t ht0.le ht1.le
  rw [pyrDet_cone, neg_ne_zero] at hP
  set U := u + t * (u' - u) with hU
  set V := v + t * (v' - v) with hV
  have hray : ∀ j, j < 3 → (1 - 2 * t) * (base cs U V j - cs 4 j) =
      t * (1 - t) * ((u' - u) * pyrRow0 cs V j + (v' - v) * pyrRow1 cs U j) := by
    intro j hj
    have h' : base cs u' v' j - cs 4 j = s / s' * (base cs u v j - cs 4 j) := by
      rw [div_mul_eq_mul_div, h j hj, mul_div_cancel_left₀ _ hs'.ne']
    have e : (1 - 2 * t) * (base cs U V j - cs 4 j) - t * (1 - t) * ((u' - u) * pyrRow0 cs V j + (v' - v) * pyrRow1 cs U j) =
        (1 - 2 * t - (s / s' - 1) * t ^ 2) * (base cs u v j - cs 4 j) -
          t ^ 2 * (base cs u' v' j - cs 4 j - s / s' * (base cs u v j - cs 4 j)) := by
      simp only [hU, hV, base, pyrRow0, pyrRow1]; ring
    rw [hroot, h'] at e
    linarith
  have htt : t * (1 - t) ≠ 0 := mul_ne_zero ht0.ne' (by linarith)
  set q : Nat → ℝ := fun j => base cs U V j - cs 4 j with hq
  have hray : ∀ j, j < 3 → (1 - 2 * t) * q j = t * (1 - t) * ((u' - u) * pyrRow0 cs V j + (v' - v) * pyrRow1 cs U j) := hray
  have r0 := hray 0 (by norm_num)
  have r1 := hray 1 (by norm_num)
  have r2 := hray 2 (by norm_num)
  have hu : u = u' := by
    have : t * (1 - t) * (u' - u) * det3 (pyrRow0 cs V) (pyrRow1 cs U) q = 0 := by
      simp only [det3]
      linear_combination (-(pyrRow1 cs U 1 * q 2 - pyrRow1 cs U 2 * q 1)) * r0 + (pyrRow1 cs U 0 * q 2 - pyrRow1 cs U 2 * q 0) * r1 -
        (pyrRow1 cs U 0 * q 1 - pyrRow1 cs U 1 * q 0) * r2
    have := (mul_eq_zero.1 this).resolve_right hP
    have := (mul_eq_zero.1 this).resolve_left htt
    linarith
  have hv : v = v' := by
    have : t * (1 - t) * (v' - v) * det3 (pyrRow0 cs V) (pyrRow1 cs U) q = 0 := by
      simp only [det3]
      linear_combination (pyrRow0 cs V 1 * q 2 - pyrRow0 cs V 2 * q 1) * r0 - (pyrRow0 cs V 0 * q 2 - pyrRow0 cs V 2 * q 0) * r1 +
        (pyrRow0 cs V 0 * q 1 - pyrRow0 cs V 1 * q 0) * r2
    have := (mul_eq_zero.1 this).resolve_right hP
    have := (mul_eq_zero.1 this).resolve_left htt
    linarith
  refine ⟨hu, hv, ?_⟩
  subst hu hv
  by_contra hne
  have hz : ∀ j, j < 3 → base cs u v j - cs 4 j = 0 := by
    intro j hj
    have : (s - s') * (base cs u v j - cs 4 j) = 0 := by linear_combination h j hj
    exact (mul_eq_zero.1 this).resolve_left (sub_ne_zero.2 hne)
  apply hP
  have eU : U = u := by rw [hU]; ring
  have eV : V = v := by rw [hV]; ring
  have q0 : q 0 = 0 := by rw [hq, eU, eV]; exact hz 0 (by norm_num)
  have q1 : q 1 = 0 := by rw [hq, eU, eV]; exact hz 1 (by norm_num)
  have q2 : q 2 = 0 := by rw [hq, eU, eV]; exact hz 2 (by norm_num)
  simp only [det3, q0, q1, q2]; ring

end pyramid

/-! ### Prisms -/

section prism

variable {cs : Nat → Vec ℝ} {id : Nat} {tol : ℝ}

def prismRow0 (cs : Nat → Vec ℝ) (z : ℝ) (j : Nat) : ℝ := (1 - z) * (cs 1 j - cs 0 j) + z * (cs 4 j - cs 3 j)

def prismRow1 (cs : Nat → Vec ℝ) (z : ℝ) (j : Nat) : ℝ := (1 - z) * (cs 2 j - cs 0 j) + z * (cs 5 j - cs 3 j)

def prismRow2 (cs : Nat → Vec ℝ) (x y : ℝ) (j : Nat) : ℝ :=
  cs 3 j - cs 0 j + (cs 4 j - cs 3 j - (cs 1 j - cs 0 j)) * x + (cs 5 j - cs 3 j - (cs 2 j - cs 0 j)) * y

def prismDet (cs : Nat → Vec ℝ) (x y z : ℝ) : ℝ := det3 (prismRow0 cs z) (prismRow1 cs z) (prismRow2 cs x y)

theorem prism_topo (hid : id ||| 1 = 5) : topoOf 3 id = .prism (.pyr (.prism .pt)) := by
  have h : id < 6 := lt_of_le_of_lt Nat.left_le_or (by rw [hid]; norm_num)
  interval_cases id <;> first | decide | (revert hid; decide)

theorem prism_lt (hid : id ||| 1 = 5) : id < 2 ^ 3 := lt_of_le_of_lt Nat.left_le_or (by rw [hid]; norm_num)

theorem scale_far {tol a : ℝ} (h : far tol (1 - a)) : scale tol a = 1 / (1 - a) := if_pos h

theorem scale_near {tol a : ℝ} (h : ¬ far tol (1 - a)) : scale tol a = 0 := if_neg h

/-- the triangle, away from its tip or at it -/
theorem tri_ML (h0 : 0 ≤ tol) (c : Nat → ℝ) (x : Vec ℝ) (hx : tol < 1 - x 1 ∨ (x 0 = 0 ∧ x 1 = 1)) :
    ML tol (.pyr (.prism .pt)) c x = c 0 + (c 1 - c 0) * x 0 + (c 2 - c 0) * x 1 := by
  have h2 : nv (.prism .pt) = 2 := rfl
  have h3 : nv .pt = 1 := rfl
  rcases hx with hx | ⟨hx0, hx1⟩
  · rw [ML_pyr_far (Or.inl hx)]
    simp only [ML, Topo.dim, h2, h3]
    have : 1 - x 1 ≠ 0 := by linarith
    field_simp
    ring
  · rw [ML_pyr_near (by simp only [Topo.dim, hx1, _root_.sub_self]; exact not_far_zero h0)]
    simp only [Topo.dim, h2, hx0, hx1]
    ring

theorem tri_MLd (c : Nat → ℝ) (x : Vec ℝ) : MLd tol (.pyr (.prism .pt)) c x 0 = c 1 - c 0 ∧
    MLd tol (.pyr (.prism .pt)) c x 1 = c 2 - c 0 := by
  have h2 : nv (.prism .pt) = 2 := rfl
  have h3 : nv .pt = 1 := rfl
  constructor
  · simp [MLd, ML, Topo.dim, h3]
  · simp [MLd, ML, Topo.dim, h2, h3]
    ring

theorem prism_jt (hid : id ||| 1 = 5) (h0 : 0 ≤ tol) (x : Vec ℝ) (hx : tol < 1 - x 1 ∨ (x 0 = 0 ∧ x 1 = 1)) (j : Nat) :
    (solid cs id tol).jacobianTransposed x 0 j = prismRow0 cs (x 2) j ∧
    (solid cs id tol).jacobianTransposed x 1 j = prismRow1 cs (x 2) j ∧
    (solid cs id tol).jacobianTransposed x 2 j = prismRow2 cs (x 0) (x 1) j := by
  have h1 : nv (.pyr (.prism .pt)) = 3 := rfl
  have hd : (Topo.pyr (.prism .pt)).dim = 2 := rfl
  refine ⟨?_, ?_, ?_⟩
  · rw [jt_eq _ (prism_lt hid) _ _ _ (by norm_num), prism_topo hid, MLd, hd, h1, if_neg (by norm_num), (tri_MLd _ _).1,
      (tri_MLd _ _).1, prismRow0]
  · rw [jt_eq _ (prism_lt hid) _ _ _ (by norm_num), prism_topo hid, MLd, hd, h1, if_neg (by norm_num), (tri_MLd _ _).2,
      (tri_MLd _ _).2, prismRow1]
  · rw [jt_eq _ (prism_lt hid) _ _ _ (by norm_num), prism_topo hid, MLd, hd, h1, if_pos rfl]
    change ML tol _ _ x - ML tol _ _ x = _
    rw [tri_ML h0 _ _ hx, tri_ML h0 _ _ hx, prismRow2]
    ring

theorem prism_det (hid : id ||| 1 = 5) (h0 : 0 ≤ tol) (x : Vec ℝ) (hx : tol < 1 - x 1 ∨ (x 0 = 0 ∧ x 1 = 1)) :
    (mat 3 3 ((solid cs id tol).jacobianTransposed x)).det = prismDet cs (x 0) (x 1) (x 2) := by
  rw [det_three, prismDet]
  congr 1 <;> funext j
  · exact (prism_jt hid h0 x hx j).1
  · exact (prism_jt hid h0 x hx j).2.1
  · exact (prism_jt hid h0 x hx j).2.2

theorem prismDet_affine (x y z : ℝ) :
    prismDet cs x y z = (1 - x - y) * prismDet cs 0 0 z + x * prismDet cs 1 0 z + y * prismDet cs 0 1 z := by
  simp only [prismDet, det3, prismRow2]; ring

/-- along a vertical edge the determinant is a quadratic polynomial -/
theorem prismDet_quadratic (x y z : ℝ) :
    prismDet cs x y z = prismDet cs x y 0 +
      (4 * prismDet cs x y (1 / 2) - 3 * prismDet cs x y 0 - prismDet cs x y 1) * z +
      (2 * prismDet cs x y 0 + 2 * prismDet cs x y 1 - 4 * prismDet cs x y (1 / 2)) * z ^ 2 := by
  simp only [prismDet, det3, prismRow0, prismRow1]; ring

/-- positive along a vertical edge -/
theorem prism_edge (x y : ℝ) : (∀ z, 0 ≤ z → z ≤ 1 → 0 < prismDet cs x y z) ↔
    0 < prismDet cs x y 0 ∧ 0 < prismDet cs x y 1 ∧
      (Real.sqrt (prismDet cs x y 0) - Real.sqrt (prismDet cs x y 1)) ^ 2 < 4 * prismDet cs x y (1 / 2) := by
  have h := quadratic_pos (prismDet cs x y 0) (4 * prismDet cs x y (1 / 2) - 3 * prismDet cs x y 0 - prismDet cs x y 1)
    (2 * prismDet cs x y 0 + 2 * prismDet cs x y 1 - 4 * prismDet cs x y (1 / 2))
  simp only [← prismDet_quadratic] at h
  rw [h]
  have e : prismDet cs x y 0 + (4 * prismDet cs x y (1 / 2) - 3 * prismDet cs x y 0 - prismDet cs x y 1) +
      (2 * prismDet cs x y 0 + 2 * prismDet cs x y 1 - 4 * prismDet cs x y (1 / 2)) = prismDet cs x y 1 := by ring
  rw [e]

end prism

end Verif.Hull
