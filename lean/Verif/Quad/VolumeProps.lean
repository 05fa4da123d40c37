import Verif.Quad.MappedRuleProps
import Verif.MultiLinear.NewtonProps

/-! Property theorems: `volume()` of affine and multilinear geometries is the measure of the image (C75).

`volume.real` is Lebesgue measure. -/

namespace Verif.Quad

open Verif.Typ Verif.RefTopo Verif.RefGeom Verif.MatHelp Verif.Affine Verif.MultiLinear MeasureTheory
open Matrix hiding vec ext
open Finset hiding ext

theorem refSet_volume (d id : Nat) (hd : d ≤ 13) : ∫ _ in refSet d id, (1:ℝ) = referenceVolume d id := by
  rw [C19_volume_partial d id hd, ← mom_zero (rep_topoOf d id), ← integral_refSet (rep_topoOf d id)]
  congr 1
  funext x
  simp [mono]

theorem real_volume_eq {d : Nat} (S : Set (Fin d → ℝ)) : volume.real S = ∫ _ in S, (1:ℝ) := by
  rw [setIntegral_const, smul_eq_mul, mul_one]

/-! ### AffineGeometry -/

/-- C75: affine geometries over any reference element, up to dimension 13. -/
theorem C75_affine (m id : Nat) (hm : m ≤ 13) (o : Vec ℝ) (jt : Mat ℝ) (g : AffineGeometry)
    (hg : AffineGeometry.ofJacobian m m id o jt = some g) : volume.real (affineMap m g '' refSet m id) = g.volume := by
  rw [real_volume_eq, C72_affine_integral m id o jt g hg]
  obtain ⟨rfl, _, rfl, -⟩ := ofJacobian_good (le_refl m) hg
  simp only [one_mul]
  have := refSet_volume g.mydim g.id hm
  rw [AffineGeometry.volume, ← this, ← integral_const_mul]
  simp

/-! ### MultiLinearGeometry -/

/-- the integration element is the absolute value of the determinant -/
theorem ie_of_li {g : MultiLinearGeometry} (hcd : g.cdim = g.mydim) {x : Vec ℝ}
    (h : LinearIndependent ℝ (mat g.mydim g.mydim (g.jacobianTransposed x)).row) :
    g.integrationElement x = some |(mat g.mydim g.mydim (g.jacobianTransposed x))ᵀ.det| := by
  rw [MultiLinearGeometry.integrationElement, hcd, C27_sqrtDetAAT_partial _ _ _ (Or.inl h), sqrt_det_square]

theorem li_of_jit {g : MultiLinearGeometry} (hcd : g.cdim = g.mydim) {x : Vec ℝ}
    (h : (g.jacobianInverseTransposed x).isSome) :
    LinearIndependent ℝ (mat g.mydim g.mydim (g.jacobianTransposed x)).row := by
  by_contra hn
  rw [MultiLinearGeometry.jacobianInverseTransposed, hcd, C26_rightInvA_singular _ _ _ (le_refl _) hn] at h
  simp at h

theorem det_ne_of_li {m : Nat} {A : Matrix (Fin m) (Fin m) ℝ} (h : LinearIndependent ℝ A.row) : Aᵀ.det ≠ 0 := by
  rw [det_transpose]
  exact isUnit_iff_ne_zero.1 ((isUnit_iff_isUnit_det _).1 (linearIndependent_rows_iff_isUnit.1 h))

/-- C75: multilinear geometries whose corners are the images of the reference corners under an affine map, over any reference
element: the measure of the image under this map. -/
theorem C75_multilinear_affine (g : MultiLinearGeometry) (hg : Legal g) (hd : g.mydim ≤ 13) (hcd : g.cdim = g.mydim)
    (a : Vec ℝ) (M : Mat ℝ) (h : ImageOf g a M) (hr : FullRank g M) (p : Vec ℝ) (hp : position g.mydim g.id 0 0 = some p)
    (hin : Inner g p) :
    g.volume = some (volume.real
      ((fun x : Fin g.mydim → ℝ => vec g.mydim a + mat g.mydim g.mydim M *ᵥ x) '' refSet g.mydim g.id)) := by
  have e := jt_mat_exact hg h hin
  rw [FullRank] at hr
  rw [hcd] at e hr
  have hie := ie_of_li hcd (x := p) (by rw [e]; exact hr)
  rw [e, transpose_transpose] at hie
  have hne := det_ne_of_li hr
  rw [transpose_transpose] at hne
  have hder : ∀ x, HasFDerivAt (fun x : Fin g.mydim → ℝ => vec g.mydim a + mat g.mydim g.mydim M *ᵥ x)
      (Matrix.toLin' (mat g.mydim g.mydim M)).toContinuousLinearMap x := fun x =>
    (ContinuousLinearMap.hasFDerivAt (Matrix.toLin' (mat g.mydim g.mydim M)).toContinuousLinearMap).const_add _
  have hinj : Set.InjOn (fun x : Fin g.mydim → ℝ => vec g.mydim a + mat g.mydim g.mydim M *ᵥ x) (refSet g.mydim g.id) := by
    intro x _ y _ hxy
    exact mulVec_injective_of_isUnit ((isUnit_iff_isUnit_det _).2 (isUnit_iff_ne_zero.2 hne)) (add_left_cancel hxy)
  rw [real_volume_eq, integral_image hder hinj, MultiLinearGeometry.volume, hp]
  simp only [one_mul]
  have hv := refSet_volume g.mydim g.id hd
  change (g.integrationElement p).bind _ = _
  rw [hie, Option.bind_some, ← hv, ← integral_const_mul]
  simp

/-- the centre of the square -/
theorem square_center {id : Nat} (hid : id < 2 ^ 2) (hc : IsCubeId 2 id) :
    position (K := ℝ) 2 id 0 0 = some (ext fun _ : Fin 2 => (1 / 2 : ℝ)) := by
  have h : id = 2 ∨ id = 3 := by
    have := hc 1 (by norm_num) (by norm_num)
    interval_cases id <;> first | exact absurd this (by decide) | simp
  obtain ⟨p, hp, hm⟩ := C21_mean (K := ℝ) 2 id 0 0 hid (by norm_num) (by rw [refSize, size_zero]; exact one_pos)
  rw [hp]
  congr 1
  have h3 : refSize3 2 id 0 0 2 = 4 := by rcases h with rfl | rfl <;> decide
  have h4 : subEntities 2 id 0 0 2 = [0, 1, 2, 3] := by rcases h with rfl | rfl <;> decide
  have hq := C17_cube (K := ℝ) 2 id hc
  funext k
  have := hm k
  rw [h3, h4] at this
  simp [RefGeom.corner, hq, List.range_succ] at this
  have t : ∀ i : ℕ, i < 4 → Nat.testBit i k = decide (i / 2 ^ k % 2 = 1) := fun i _ => by
    rw [Nat.testBit_eq_decide_div_mod_eq]
  rcases k with _ | _ | k
  · simp [ext] at this ⊢
    linarith
  · simp [ext, t] at this ⊢
    linarith
  · have z : ∀ i : ℕ, i < 4 → Nat.testBit i (k + 2) = false := fun i hi =>
      Nat.testBit_lt_two_pow (hi.trans_le (by rw [pow_add]; have := Nat.one_le_two_pow (n := k); omega))
    simp only [show k + 1 + 1 = k + 2 from rfl, z 1 (by omega), z 2 (by omega), z 3 (by omega)] at this
    simp [ext] at this ⊢
    linarith

theorem midpoint_square {id : Nat} (hc : IsCubeId 2 id) (Q : MvPolynomial (Fin 2) ℝ) (hQ : Q.totalDegree ≤ 1) :
    ∫ x in refSet 2 id, Q.eval x = Q.eval fun _ => 1 / 2 := by
  have ht : topoOf 2 id = .prism (.prism .pt) := topoOf_cube 2 id hc
  rw [integral_poly (rep_topoOf 2 id), MvPolynomial.eval_eq', ht]
  refine sum_congr rfl fun s hs => ?_
  congr 1
  have h := (MvPolynomial.le_totalDegree hs).trans hQ
  rw [Finsupp.sum_fintype _ _ (fun _ => rfl), Fin.sum_univ_two] at h
  have h2 : (s 0 = 0 ∧ s 1 = 0) ∨ (s 0 = 1 ∧ s 1 = 0) ∨ (s 0 = 0 ∧ s 1 = 1) := by omega
  rcases h2 with ⟨h0, h1⟩ | ⟨h0, h1⟩ | ⟨h0, h1⟩ <;> simp [mom, expo, Topo.dim, Fin.prod_univ_two, h0, h1] <;> norm_num

theorem det_linear (g : MultiLinearGeometry) (h2 : g.mydim = 2) : (jacPoly (mlPoly g)).det.totalDegree ≤ 1 := by
  obtain ⟨m, cd, id, cs, tol⟩ := g
  obtain rfl : m = 2 := h2
  let g : MultiLinearGeometry := ⟨2, cd, id, cs, tol⟩
  have t : ∀ k r : ℕ, Nat.testBit k r = decide (k / 2 ^ r % 2 = 1) := fun k r => by
    rw [Nat.testBit_eq_decide_div_mod_eq]
  have e : ∀ j : Fin 2, mlPoly g j = MvPolynomial.C (cs 0 j) + MvPolynomial.C (cs 1 j - cs 0 j) * MvPolynomial.X (0 : Fin 2) +
      MvPolynomial.C (cs 2 j - cs 0 j) * MvPolynomial.X (1 : Fin 2) +
      MvPolynomial.C (cs 3 j - cs 2 j - cs 1 j + cs 0 j) * (MvPolynomial.X (0 : Fin 2) * MvPolynomial.X (1 : Fin 2)) := by
    intro j
    simp only [mlPoly, g, Fin.prod_univ_two]
    simp only [show (2:ℕ) ^ 2 = 4 from rfl, sum_range_succ, range_zero, sum_empty, t]
    simp only [map_sub, map_add]
    norm_num
    ring
  have hj0 : ∀ j : Fin 2, (jacPoly (mlPoly g) : Matrix (Fin 2) (Fin 2) _) j 0 = MvPolynomial.C (cs 1 j - cs 0 j) +
      MvPolynomial.C (cs 3 j - cs 2 j - cs 1 j + cs 0 j) * MvPolynomial.X (1 : Fin 2) := by
    intro j
    refine (congrArg (MvPolynomial.pderiv (0 : Fin 2)) (e j)).trans ?_
    simp [MvPolynomial.pderiv_X]
  have hj1 : ∀ j : Fin 2, (jacPoly (mlPoly g) : Matrix (Fin 2) (Fin 2) _) j 1 = MvPolynomial.C (cs 2 j - cs 0 j) +
      MvPolynomial.C (cs 3 j - cs 2 j - cs 1 j + cs 0 j) * MvPolynomial.X (0 : Fin 2) := by
    intro j
    refine (congrArg (MvPolynomial.pderiv (1 : Fin 2)) (e j)).trans ?_
    simp [MvPolynomial.pderiv_X]
  have hd : (jacPoly (mlPoly g)).det = MvPolynomial.C ((cs 1 0 - cs 0 0) * (cs 2 1 - cs 0 1) - (cs 2 0 - cs 0 0) * (cs 1 1 - cs 0 1)) +
      (MvPolynomial.C ((cs 1 0 - cs 0 0) * (cs 3 1 - cs 2 1 - cs 1 1 + cs 0 1) -
        (cs 3 0 - cs 2 0 - cs 1 0 + cs 0 0) * (cs 1 1 - cs 0 1)) * MvPolynomial.X (0 : Fin 2) +
      MvPolynomial.C ((cs 3 0 - cs 2 0 - cs 1 0 + cs 0 0) * (cs 2 1 - cs 0 1) -
        (cs 2 0 - cs 0 0) * (cs 3 1 - cs 2 1 - cs 1 1 + cs 0 1)) * MvPolynomial.X (1 : Fin 2)) := by
    refine (det_fin_two (jacPoly (mlPoly g) : Matrix (Fin 2) (Fin 2) _)).trans ?_
    rw [hj0 0, hj0 1, hj1 0, hj1 1]
    simp only [map_sub, map_add, map_mul]
    simp only [Fin.val_zero, Fin.val_one]
    ring
  change (jacPoly (mlPoly g)).det.totalDegree ≤ 1
  rw [hd]
  have hx : ∀ (a : ℝ) (i : Fin 2), (MvPolynomial.C a * MvPolynomial.X i : MvPolynomial (Fin 2) ℝ).totalDegree ≤ 1 := by
    intro a i
    refine (degLike_total.mul _ _).trans ?_
    rw [degLike_total.const, MvPolynomial.totalDegree_X]
  refine (degLike_total.add _ _).trans (max_le (by rw [degLike_total.const]; omega) ?_)
  exact (degLike_total.add _ _).trans (max_le (hx _ _) (hx _ _))

/-- C75, full statement for multilinear geometries of cubes: injective with invertible Jacobian. -/
def C75_multilinear_full : Prop := ∀ g : MultiLinearGeometry, Legal g → g.mydim ≤ 13 → IsCubeId g.mydim g.id →
  g.cdim = g.mydim → Set.InjOn (multiLinearMap g) (refSet g.mydim g.id) →
  (∀ x ∈ refSet g.mydim g.id, (g.jacobianInverseTransposed (ext x)).isSome) →
  g.volume = some (volume.real (multiLinearMap g '' refSet g.mydim g.id))

/-- C75: quadrilaterals in the plane.  Missing: dimension three and higher, where the code is wrong. -/
theorem C75_quadrilateral_partial (g : MultiLinearGeometry) (hg : Legal g) (h2 : g.mydim = 2) (hc : IsCubeId g.mydim g.id)
    (hcd : g.cdim = g.mydim) (hinj : Set.InjOn (multiLinearMap g) (refSet g.mydim g.id))
    (hjit : ∀ x ∈ refSet g.mydim g.id, (g.jacobianInverseTransposed (ext x)).isSome) :
    g.volume = some (volume.real (multiLinearMap g '' refSet g.mydim g.id)) := by
  have hder := multiLinearMap_hasFDerivAt hg hc hcd
  have hdl := det_linear g h2
  have hdet := fun x => eval_jacPoly (mlPoly_eval hg hc) (hder x)
  have hne := fun x hx => det_ne_of_li (li_of_jit hcd (hjit x hx))
  rw [real_volume_eq, integral_image hder hinj]
  obtain ⟨s, hs⟩ : ∃ s : ℝ, ∀ x ∈ refSet g.mydim g.id, |((mat g.mydim g.mydim (g.jacobianTransposed (ext x)))ᵀ).det| =
      s * (jacPoly (mlPoly g)).det.eval x := by
    simp only [← hdet] at hne ⊢
    have hcont : Continuous fun x => (jacPoly (mlPoly g)).det.eval x :=
      continuous_iff_continuousAt.2 fun x => (hasFDerivAt_eval _ x).continuousAt
    rcases sign_const hcont hne with hs | hs
    · exact ⟨1, fun x hx => by rw [hs x hx, one_mul]⟩
    · exact ⟨-1, fun x hx => by rw [hs x hx, neg_one_mul]⟩
  have hcen : position (K := ℝ) g.mydim g.id 0 0 = some (ext fun _ : Fin g.mydim => (1 / 2 : ℝ)) ∧
      (fun _ : Fin g.mydim => (1 / 2 : ℝ)) ∈ refSet g.mydim g.id ∧ referenceVolume (K := ℝ) g.mydim g.id = 1 ∧
      ∫ x in refSet g.mydim g.id, (jacPoly (mlPoly g)).det.eval x = (jacPoly (mlPoly g)).det.eval fun _ => 1 / 2 := by
    have hid := hg.id_lt
    generalize (jacPoly (mlPoly g)).det = Q at hdl
    clear hne hdet hder hs hinj hjit hg hcd
    obtain ⟨m, cd, id, cs, tol⟩ := g
    obtain rfl : m = 2 := h2
    simp only at hc hid hdl Q ⊢
    refine ⟨square_center hid hc, ?_, ?_, midpoint_square hc Q hdl⟩
    · rw [refSet_eq (rep_topoOf 2 id), topoOf_cube 2 id hc]
      simp [Topo.cube, Dom, ext, Topo.dim]
      norm_num
    · rw [C19_volume_partial 2 id (by norm_num), (C19_simplex_cube 2 id).2 hc]
  obtain ⟨h3, h4, h5, h6⟩ := hcen
  have hie := ie_of_li hcd (li_of_jit hcd (hjit _ h4))
  rw [MultiLinearGeometry.volume, h3]
  change (g.integrationElement _).bind _ = _
  rw [hie, Option.bind_some, h5, mul_one, hs _ h4]
  simp only [one_mul]
  rw [setIntegral_congr_fun (measurableSet_refSet _ _) hs, integral_const_mul, h6]
  rfl

/-! ### The counterexample -/

/-- the frustum: image of the unit cube under `(x, y, z) ↦ (x(1+z), y(1+z), z)` -/
noncomputable def frustum : MultiLinearGeometry where
  mydim := 3
  cdim := 3
  id := 7
  corners_ := fun k j => if j = 2 then (if k.testBit 2 then 1 else 0) else
    (if k.testBit j then 1 else 0) * (if k.testBit 2 then 2 else 1)
  tol := 1 / 1000

theorem frustum_legal : Legal frustum := by
  constructor <;> norm_num [frustum]

theorem frustum_cube : IsCubeId frustum.mydim frustum.id := by
  intro k h1 h2
  change k < 3 at h2
  interval_cases k <;> rfl

/-- the components of the map as polynomials -/
noncomputable def frustumPoly : Fin 3 → MvPolynomial (Fin 3) ℝ :=
  ![MvPolynomial.X 0 * (1 + MvPolynomial.X 2), MvPolynomial.X 1 * (1 + MvPolynomial.X 2), MvPolynomial.X 2]

theorem frustum_map (x : Fin 3 → ℝ) (j : Fin 3) : multiLinearMap frustum x j = (frustumPoly j).eval x := by
  have h0 : ext x 0 = x 0 := by simp [ext]
  have h1 : ext x 1 = x 1 := by simp [ext]
  have h2 : ext x 2 = x 2 := by simp [ext]
  have t : ∀ k r : ℕ, Nat.testBit k r = decide (k / 2 ^ r % 2 = 1) := fun k r => by
    rw [Nat.testBit_eq_decide_div_mod_eq]
  have key : multiLinearMap frustum x j = ∑ k ∈ range 8, (∏ r ∈ range 3, if k.testBit r then ext x r else 1 - ext x r) *
      frustum.corners_ k j := C31_cube_formula frustum frustum_legal frustum_cube (ext x) j
  rw [key]
  fin_cases j <;>
    simp [Finset.sum_range_succ, Finset.prod_range_succ, h0, h1, h2, t, frustum, frustumPoly] <;> ring

theorem frustum_det (x : Fin 3 → ℝ) :
    ((mat 3 3 (frustum.jacobianTransposed (ext x)))ᵀ).det = (1 + x 2) ^ 2 := by
  have h := eval_jacPoly frustum_map (multiLinearMap_hasFDerivAt frustum_legal frustum_cube rfl x)
  refine h.symm.trans ?_
  rw [det_fin_three]
  simp [jacPoly, frustumPoly, MvPolynomial.pderiv_X]
  ring

theorem frustum_bounds {x : Fin 3 → ℝ} (hx : x ∈ refSet 3 7) : 0 < 1 + x 2 := by
  have := (refSet_bounds hx 2).1
  linarith

theorem frustum_li {x : Fin 3 → ℝ} (hx : x ∈ refSet 3 7) :
    LinearIndependent ℝ (mat 3 3 (frustum.jacobianTransposed (ext x))).row := by
  refine linearIndependent_rows_of_isUnit ((isUnit_iff_isUnit_det _).2 (isUnit_iff_ne_zero.2 ?_))
  rw [← det_transpose, frustum_det]
  have := frustum_bounds hx
  positivity

theorem frustum_inj : Set.InjOn (multiLinearMap frustum) (refSet frustum.mydim frustum.id) := by
  intro x hx y _ h
  change Fin 3 → ℝ at x y
  have e : ∀ j : Fin 3, (frustumPoly j).eval x = (frustumPoly j).eval y := fun j =>
    (frustum_map x j).symm.trans ((congrFun h j).trans (frustum_map y j))
  have h2 := e 2
  have h0 := e 0
  have h1 := e 1
  simp only [frustumPoly, cons_val_zero, cons_val_one, Matrix.cons_val, map_mul, map_add, map_one, MvPolynomial.eval_X] at h0 h1 h2
  have hb := (frustum_bounds hx).ne'
  rw [← h2] at h0 h1
  funext i
  change Fin 3 at i
  fin_cases i
  · exact mul_right_cancel₀ hb h0
  · exact mul_right_cancel₀ hb h1
  · exact h2

theorem frustum_integral : ∫ x in refSet 3 7, (1 + x 2) ^ 2 = 7 / 3 := by
  have hr := rep_topoOf 3 7
  have ht : topoOf 3 7 = .prism (.prism (.prism .pt)) := topoOf_cube 3 7 frustum_cube
  have e : ∀ n : ℕ, ∫ x in refSet 3 7, x 2 ^ n = 1 / ((n : ℝ) + 1) := by
    intro n
    have h := integral_refSet hr fun k => if k = 2 then n else 0
    rw [ht] at h
    have e1 : ∀ x : Fin 3 → ℝ, mono 3 (fun k => if k = 2 then n else 0) (ext x) = x 2 ^ n := by
      intro x; simp [mono, ext]
    simp only [e1] at h
    rw [h]
    simp [mom, Topo.dim]
  have hi : ∀ n, IntegrableOn (fun x : Fin 3 → ℝ => x 2 ^ n) (refSet 3 7) := fun n =>
    integrableOn_refSet ((continuous_apply 2).pow n)
  have e2 : ∀ x : Fin 3 → ℝ, (1 + x 2) ^ 2 = x 2 ^ 0 + 2 * x 2 ^ 1 + x 2 ^ 2 := fun x => by ring
  simp only [e2]
  have h01 : IntegrableOn (fun x : Fin 3 → ℝ => x 2 ^ 0 + 2 * x 2 ^ 1) (refSet 3 7) := (hi 0).add ((hi 1).const_mul 2)
  rw [integral_add h01 (hi 2), integral_add (hi 0) ((hi 1).const_mul 2), integral_const_mul,
    e, e, e]
  norm_num

theorem cube3_center : ∃ p, position (K := ℝ) 3 7 0 0 = some (ext p) ∧ p ∈ refSet 3 7 ∧ p 2 = 1 / 2 := by
  obtain ⟨q, hq, hm⟩ := C21_mean (K := ℝ) 3 7 0 0 (by norm_num) (by norm_num) (by decide)
  obtain ⟨q', hq', ho⟩ := C70_position (K := ℝ) 3 7 0 0 (by norm_num) (by norm_num) (by norm_num) (by decide)
  rw [hq] at hq'
  obtain rfl := Option.some.inj hq'
  obtain ⟨s1, s2⟩ := C70_subset (K := ℝ) 3 7 0 0 (by norm_num) (by norm_num) (by norm_num) (by decide)
  have hdom := s2 (s1 ho)
  have hext : ext (fun i : Fin 3 => q i) = q := by
    funext k
    by_cases hk : k < 3
    · rw [ext, dif_pos hk]
    · rw [ext, dif_neg hk, domain_zero hdom k (by omega)]
  refine ⟨fun i : Fin 3 => q i, by rw [hext]; exact hq, ?_, ?_⟩
  · rw [refSet, Set.mem_ofPred_eq, hext]; exact hdom
  · have := hm 2
    have h3 : refSize3 3 7 0 0 3 = 8 := by decide
    have h4 : subEntities 3 7 0 0 3 = [0, 1, 2, 3, 4, 5, 6, 7] := by decide
    have hq := C17_cube (K := ℝ) 3 7 frustum_cube
    have t : ∀ k r : ℕ, Nat.testBit k r = decide (k / 2 ^ r % 2 = 1) := fun k r => by
      rw [Nat.testBit_eq_decide_div_mod_eq]
    rw [h3, h4] at this
    simp [RefGeom.corner, hq, List.range_succ, t] at this
    change q 2 = 1 / 2
    linarith

/-- C75: the full statement fails, for the frustum: `volume()` is 9/4, the measure 7/3. -/
theorem C75_multilinear_counterexample : ¬ C75_multilinear_full ∧ frustum.volume = some (9 / 4) ∧
    volume.real (multiLinearMap frustum '' refSet frustum.mydim frustum.id) = 7 / 3 := by
  have hv : frustum.volume = some (9 / 4) := by
    obtain ⟨p, h1, h2, h3⟩ := cube3_center
    have hie : frustum.integrationElement (ext p) = some |(mat 3 3 (frustum.jacobianTransposed (ext p)))ᵀ.det| :=
      ie_of_li (g := frustum) rfl (frustum_li h2)
    have hr : referenceVolume (K := ℝ) 3 7 = 1 := by
      rw [C19_volume_partial 3 7 (by norm_num), (C19_simplex_cube 3 7).2 frustum_cube]
    have : frustum.volume = (frustum.integrationElement (ext p)).bind fun ie => some (ie * referenceVolume (K := ℝ) 3 7) := by
      rw [MultiLinearGeometry.volume]
      have : position (K := ℝ) frustum.mydim frustum.id 0 0 = some (ext p) := h1
      rw [this]
      rfl
    rw [this, hie, Option.bind_some, hr, frustum_det, h3]
    norm_num
  have hm : volume.real (multiLinearMap frustum '' refSet frustum.mydim frustum.id) = 7 / 3 := by
    rw [real_volume_eq, integral_image (multiLinearMap_hasFDerivAt frustum_legal frustum_cube rfl) frustum_inj,
      ← frustum_integral]
    change ∫ x in refSet 3 7, _ = _
    refine setIntegral_congr_fun (measurableSet_refSet _ _) fun x _ => ?_
    rw [one_mul]
    refine (congrArg abs (frustum_det x)).trans (abs_of_nonneg (sq_nonneg _))
  refine ⟨fun hfull => ?_, hv, hm⟩
  have := hfull frustum frustum_legal (by decide) frustum_cube rfl frustum_inj (fun x hx => by
    obtain ⟨R, h, _⟩ := C26_rightInvA 3 3 _ (le_refl _) (frustum_li hx)
    have : frustum.jacobianInverseTransposed (ext x) = _ := h
    rw [this]; rfl)
  rw [hv, hm] at this
  have := Option.some.inj this
  norm_num at this

/-! ### Examples -/

-- the trapezoid has area 3/2
example : ∃ v, trapezoid.volume = some v ∧ v = volume.real (multiLinearMap trapezoid '' refSet trapezoid.mydim trapezoid.id) := by
  obtain ⟨jit, ie, h1, h2, h3, h4, h5, h6, h7, h8⟩ := trapezoid_hyps
  exact ⟨_, C75_quadrilateral_partial trapezoid h1 rfl h2 h3 h6 (fun x hx => by rw [h7 x hx]; rfl), rfl⟩

-- a triangle: corners (0,0), (2,0), (1,1)
example : (∃ g, AffineGeometry.ofJacobian 2 2 0 (fun _ => 0) (fun i j => if i = 0 then (if j = 0 then 2 else 0) else 1) = some g) ∧ 2 ≤ 13 := by
  refine ⟨(C28_constructible 2 2 0 _ _ (by norm_num)).2 ?_, by norm_num⟩
  have : mat 2 2 (fun i j => if i = 0 then (if j = 0 then (2:ℝ) else 0) else 1) = !![2, 0; 1, 1] := by
    refine Matrix.ext fun i j => ?_
    fin_cases i <;> fin_cases j <;> simp [mat]
  rw [this]
  refine linearIndependent_rows_of_isUnit ((isUnit_iff_isUnit_det _).2 ?_)
  rw [det_fin_two_of]
  norm_num

/-- the interval from 1 to 4 -/
noncomputable def sampleInterval : MultiLinearGeometry where
  mydim := 1
  cdim := 1
  id := 0
  corners_ := fun k _ => 3 * k + 1
  tol := 1 / 1000

example : Legal sampleInterval ∧ sampleInterval.mydim ≤ 13 ∧ sampleInterval.cdim = sampleInterval.mydim ∧
    ImageOf sampleInterval (fun _ => 1) (fun _ _ => 3) ∧ FullRank sampleInterval (fun _ _ => 3) ∧
    ∃ p, position sampleInterval.mydim sampleInterval.id 0 0 = some p ∧ Inner sampleInterval p := by
  have hleg : Legal sampleInterval := by constructor <;> norm_num [sampleInterval]
  refine ⟨hleg, by decide, rfl, ?_, ?_, ?_⟩
  · have hs : IsSimplexId sampleInterval.mydim sampleInterval.id := by
      intro k h1 h2
      have : sampleInterval.mydim = 1 := rfl
      omega
    intro k p hp j hj
    have := imageOf_simplex sampleInterval hs k p hp j hj
    rw [this]
    have hm : sampleInterval.mydim = 1 := rfl
    rw [hm, sum_range_one, sum_range_one]
    simp [sampleInterval]
  · change LinearIndependent ℝ (fun _ : Fin 1 => (fun _ : Fin 1 => (3 : ℝ)))
    rw [linearIndependent_unique_iff]
    intro h
    have := congrFun h 0
    simp at this
  · obtain ⟨p, hp, hm⟩ := C21_mean (K := ℝ) 1 0 0 0 (by norm_num) (by norm_num) (by decide)
    refine ⟨p, hp, ?_⟩
    have := hm 0
    have h3 : refSize3 1 0 0 0 1 = 2 := by decide
    have h4 : subEntities 1 0 0 0 1 = [0, 1] := by decide
    have hc := C17_simplex (K := ℝ) 1 0 (by intro k h1 h2; omega)
    rw [h3, h4] at this
    simp [RefGeom.corner, hc] at this
    rw [MultiLinear.Inner, checkInside_iff (rep_topoOf _ _)]
    have ht : topoOf sampleInterval.mydim sampleInterval.id = .prism .pt := by change topoOf 1 0 = _; decide
    rw [ht]
    refine ⟨?_, ?_, trivial⟩ <;> simp only [sampleInterval, Topo.dim] <;> linarith

end Verif.Quad
