import Verif.Compare.Props
import Verif.Quad.VolumeProps

/-! C82: where the geometry classes are not interchangeable, and examples. -/

namespace Verif.Compare

open Verif.RefGeom Verif.MatHelp Verif.Typ Verif.RefTopo Verif.Lfe Verif.Mapped Verif.GaussNewton Finset
open Matrix hiding vec

noncomputable section

variable {m n : Nat}

/-- `LocalFiniteElementGeometry` with tensor product elements on the corners of `b` -/
def q1Of (b : MultiLinear.MultiLinearGeometry) (tol : ℝ) : LFEGeometry b.mydim b.cdim :=
  ⟨b.id, q1LocalFE b.mydim, List.ofFn fun k : Fin (2 ^ b.mydim) => vec b.cdim (b.corners_ k), none, tol⟩

/-- LocalFiniteElementGeometry on a cube whose map is not affine in one corner -/
theorem affineImpl_false {d : Nat} (g : LFEGeometry d d) (hd : 2 ≤ d) (hm : d < 32) (hid : g.id < 2 ^ d) (hb : g.id.testBit 1 = true)
    (G : (Fin d → ℝ) → (Fin d → ℝ)) (hG : ∀ x, g.global x = some (G x)) (h0 : G 0 = 0)
    (h1 : ∀ r : Fin d, G (Pi.single r 1) = Pi.single r 1) (i : Nat) (hi : i < refSize d g.id d)
    (hfar : g.tol < Real.sqrt (∑ j, (vec d (RefGeom.corner d g.id i) j - G (vec d (RefGeom.corner d g.id i)) j) ^ 2)) :
    g.affineImpl = some false := by
  have hth : ∀ x, through G x = x := by
    intro x
    rw [through, h0]
    funext j
    simp [h1, Pi.single_apply, Finset.sum_apply]
  have h32 : g.id < 2 ^ 32 := hid.trans_le (Nat.pow_le_pow_right (by norm_num) (by omega))
  obtain ⟨v, h2, h3⟩ := C38_affineImpl g (le_refl d) (by omega) hid h32 G hG (by
    simp only [h0, h1, _root_.sub_zero]
    have : (fun r : Fin d => (Pi.single r 1 : Fin d → ℝ)) = (1 : Matrix (Fin d) (Fin d) ℝ).row := by
      funext r j; simp [Matrix.row, Matrix.one_apply, Pi.single_apply, eq_comm]
    rw [this]
    exact linearIndependent_rows_of_isUnit isUnit_one)
  rw [h2]
  congr 1
  by_contra hne
  have hv : v = true := by simpa using hne
  rcases h3.1 hv with h | ⟨_, h | h | h⟩
  · omega
  · omega
  · have := h 1 (by norm_num) (by omega)
    rw [hb] at this
    exact absurd this (by simp)
  · have := h i hi
    rw [hth] at this
    exact absurd this (not_le.2 hfar)

/-- C82: the classes decide differently what is affine.  With the tolerances of the library (`16 * epsilon` and
`sqrt(epsilon)`) there is for every `epsilon` a quadrilateral that `MultiLinearGeometry` calls affine and
`LocalFiniteElementGeometry` does not, although the maps agree; they never pass `compareGeometries`. -/
theorem C82_flag_counterexample (eps : ℝ) (h0 : 0 < eps) (h1 : eps < 1 / 64) :
    ∃ (b : MultiLinear.MultiLinearGeometry) (g : LFEGeometry b.mydim b.cdim), MultiLinear.Legal b ∧ IsCubeId b.mydim b.id ∧
      b.tol = 16 * eps ∧ g = q1Of b (Real.sqrt eps) ∧
      (∀ x, g.global x = some (vec b.cdim (b.global (RefGeom.ext x)))) ∧
      b.affine = true ∧ g.affine.map (·.1) = some false ∧
      ∀ rules opts tol points, compareGeometries (ofMultiLinear b.mydim b.cdim b) (ofLfe g rules opts) tol points ≠ some true := by
  let b := MultiLinear.bentSquare (16 * eps)
  let g := q1Of b (Real.sqrt eps)
  have hb : MultiLinear.Legal b := ⟨by change 3 < 2 ^ 2; norm_num, by change 0 < 16 * eps; linarith, by change 16 * eps < 1; linarith⟩
  have hc : IsCubeId b.mydim b.id := by
    intro k h1 h2
    change k < 2 at h2
    interval_cases k
    change Nat.testBit 3 1 = true
    decide
  have hG : ∀ x, g.global x = some (vec b.cdim (b.global (RefGeom.ext x))) :=
    C38_q1 b hb hc g _ (q1_evaluates b.mydim) rfl
  have hs : Real.sqrt (16 * eps) = 4 * Real.sqrt eps := by
    rw [Real.sqrt_mul (by norm_num), show (16 : ℝ) = 4 ^ 2 by norm_num, Real.sqrt_sq (by norm_num)]
  have hse : 0 < Real.sqrt eps := Real.sqrt_pos.2 h0
  have hform : ∀ (x : Fin 2 → ℝ) (j : Fin 2), vec 2 (b.global (RefGeom.ext x)) j =
      if j = 0 then x 0 + 2 * Real.sqrt eps * (x 0 * x 1) else x 1 := by
    intro x j
    rw [vec, MultiLinear.C31_cube_formula b hb hc]
    change ∑ k ∈ range 4, (∏ r ∈ range 2, _) * _ = _
    have e0 : RefGeom.ext x 0 = x 0 := by simp [RefGeom.ext]
    have e1 : RefGeom.ext x 1 = x 1 := by simp [RefGeom.ext]
    have t : ∀ k r : ℕ, Nat.testBit k r = decide (k / 2 ^ r % 2 = 1) := fun k r => by
      rw [Nat.testBit_eq_decide_div_mod_eq]
    fin_cases j <;> simp [Finset.sum_range_succ, Finset.prod_range_succ, e0, e1, t, b, MultiLinear.bentSquare, hs] <;> ring
  have hcor : vec 2 (RefGeom.corner (K := ℝ) 2 3 3) = fun _ => 1 := by
    rw [cubeCorner_eq (m := 2) (id := 3) hc (by norm_num)]
    funext r; fin_cases r <;> rfl
  have haff : g.affineImpl = some false := by
    refine affineImpl_false (d := 2) g (le_refl 2) (by norm_num) (by change 3 < 2 ^ 2; norm_num) (by change Nat.testBit 3 1 = true; decide)
      (fun x => vec 2 (b.global (RefGeom.ext x))) hG ?_ ?_ 3 (by change 3 < refSize 2 3 2; decide) ?_
    · funext j; rw [hform]; simp
    · intro r
      funext j; rw [hform]
      fin_cases r <;> fin_cases j <;> simp
    · have e : vec 2 (RefGeom.corner (K := ℝ) 2 g.id 3) = fun _ => 1 := hcor
      rw [e]
      simp only [hform]
      rw [Fin.sum_univ_two]
      change Real.sqrt eps < _
      simp only [if_true, one_ne_zero, if_false]
      rw [show ((1 : ℝ) - (1 + 2 * Real.sqrt eps * (1 * 1))) ^ 2 + (1 - 1) ^ 2 = (2 * Real.sqrt eps) ^ 2 by ring,
        Real.sqrt_sq (by positivity)]
      linarith
  refine ⟨b, g, hb, hc, rfl, rfl, hG, MultiLinear.bentSquare_affine _ hb.tol_pos, ?_, ?_⟩
  · rw [LFEGeometry.affine]
    change (g.affineImpl.bind _).map _ = _
    rw [haff]; rfl
  · intro rules opts tol points hcmp
    obtain ⟨⟨a, h2, h3⟩, _⟩ := (C82_compare _ _ _ _).1 hcmp
    have h4 : some b.affine = some a := h2
    rw [show b.affine = true from MultiLinear.bentSquare_affine _ hb.tol_pos] at h4
    obtain rfl := Option.some.inj h4
    change g.affine.map _ = _ at h3
    rw [LFEGeometry.affine] at h3
    change (g.affineImpl.bind _).map _ = _ at h3
    rw [haff] at h3
    exact absurd h3 (by simp)

/-- C82 as one would like it: a multi-linear geometry and a finite element geometry with the same map and the default tolerances
pass the comparison -/
def C82_interchangeable_full : Prop := ∀ eps : ℝ, 0 < eps → eps < 1 / 64 →
  ∀ (b : MultiLinear.MultiLinearGeometry) (l : LFEGeometry b.mydim b.cdim), MultiLinear.Legal b → b.tol = 16 * eps →
    l.tol = Real.sqrt eps → (∀ x, Both (some (vec b.cdim (b.global (RefGeom.ext x)))) (l.global x)) →
    ∃ rules opts, ∀ tol, 0 < tol → compareGeometries (ofMultiLinear b.mydim b.cdim b) (ofLfe l rules opts) tol [] = some true

theorem C82_interchangeable_counterexample : ¬ C82_interchangeable_full := by
  intro h
  obtain ⟨b, g, hb, _, h1, h2, hG, _, _, hne⟩ := C82_flag_counterexample (1 / 100) (by norm_num) (by norm_num)
  obtain ⟨rules, opts, hc⟩ := h (1 / 100) (by norm_num) (by norm_num) b g hb h1 (by rw [h2]; rfl) (fun x => ⟨_, rfl, hG x⟩)
  exact hne rules opts 1 [] (hc 1 one_pos)

/-- C82: the volumes differ even if the map, all Jacobians, the corners and the center agree.  `MultiLinearGeometry::volume` uses
the integration element in the center of the frustum (property C75), `LocalFiniteElementGeometry::volume` uses quadrature until
two orders give the same: 9/4 and 7/3.  The rule of order 1 is the midpoint rule, the rules of order 2 and 3 integrate 1, z, z²
exactly. -/
theorem C82_volume_counterexample (tolL : ℝ) (ht : tolL < 1) (rules : Nat → Option (Rule 3)) (rule : Rule 3)
    (h1 : rules 1 = some [(fun _ => 1 / 2, 1)]) (h2 : rules 2 = some rule) (h3 : rules 3 = some rule)
    (hin : ∀ q ∈ rule, ∀ r, 0 ≤ q.1 r ∧ q.1 r ≤ 1) (hw0 : (rule.map (·.2)).sum = 1)
    (hw1 : (rule.map fun q => q.2 * q.1 2).sum = 1 / 2) (hw2 : (rule.map fun q => q.2 * q.1 2 ^ 2).sum = 1 / 3)
    (opts : ConvergenceOptions) (hit : 4 ≤ opts.maxIt) (habs : 0 < opts.absTol) (habs' : opts.absTol ≤ 1 / 12) :
    ∃ g : LFEGeometry 3 3, g = q1Of Quad.frustum tolL ∧
      SameMap {x | ∀ r, 0 ≤ x r ∧ x r ≤ 1} (ofMultiLinear 3 3 Quad.frustum) (ofLfe g rules opts) ∧
      (ofMultiLinear 3 3 Quad.frustum).volume = some (9 / 4) ∧ (ofLfe g rules opts).volume = some (7 / 3) ∧
      ∀ tol points, tol < 1 / 12 → compareGeometries (ofMultiLinear 3 3 Quad.frustum) (ofLfe g rules opts) tol points ≠ some true := by
  obtain ⟨g, hg, hs⟩ := C82_q1 Quad.frustum Quad.frustum_legal Quad.frustum_cube (le_refl 3) tolL rules opts
  have hgq : q1Of Quad.frustum tolL = g := by
    rw [LFEGeometry.ofVertices, if_pos (by simp [q1LocalFE])] at hg
    exact Option.some.inj hg
  subst hgq
  let G : LFEGeometry 3 3 := q1Of Quad.frustum tolL
  have hdet : ∀ x : Fin 3 → ℝ, (∀ r, 0 ≤ x r ∧ x r ≤ 1) →
      LinearIndependent ℝ (mat 3 3 (Quad.frustum.jacobianTransposed (RefGeom.ext x))).row := by
    intro x hx
    refine linearIndependent_rows_of_isUnit ((isUnit_iff_isUnit_det _).2 (isUnit_iff_ne_zero.2 ?_))
    rw [← det_transpose, Quad.frustum_det]
    have := (hx 2).1
    positivity
  have hs' : SameMap {x | ∀ r, 0 ≤ x r ∧ x r ≤ 1} (ofMultiLinear 3 3 Quad.frustum) (ofLfe G rules opts) :=
    ⟨hs.type, hs.corners, hs.corner, hs.center, fun x hx => hs.at_ x (hdet x hx)⟩
  have hie : ∀ x : Fin 3 → ℝ, (∀ r, 0 ≤ x r ∧ x r ≤ 1) →
      G.integrationElement x = some ((1 + x 2) ^ 2) := by
    intro x hx
    obtain ⟨y, e1, e2⟩ := (hs'.at_ x hx).integrationElement
    have e3 : Quad.frustum.integrationElement (RefGeom.ext x) = some y := e1
    rw [Quad.ie_of_li (g := Quad.frustum) rfl (hdet x hx)] at e3
    have e4 : G.integrationElement x = some y := e2
    rw [e4, ← e3]
    exact congrArg some ((congrArg abs (Quad.frustum_det x)).trans (abs_of_nonneg (sq_nonneg _)))
  have hvm : Quad.frustum.volume = some (9 / 4) := Quad.C75_multilinear_counterexample.2.1
  have hG : ∀ x : Fin 3 → ℝ, G.global x = some (vec 3 (Quad.frustum.global (RefGeom.ext x))) :=
    C38_q1 Quad.frustum Quad.frustum_legal Quad.frustum_cube _ _ (q1_evaluates 3) rfl
  have hform : ∀ (x : Fin 3 → ℝ) (j : Fin 3), vec 3 (Quad.frustum.global (RefGeom.ext x)) j =
      if j = 2 then x 2 else x j * (1 + x 2) := by
    intro x j
    refine (Quad.frustum_map x j).trans ?_
    fin_cases j <;> simp [Quad.frustumPoly]
  have haff : G.affineImpl = some false := by
    refine affineImpl_false (d := 3) G (by norm_num) (by norm_num) (by change 7 < 2 ^ 3; norm_num)
      (by change Nat.testBit 7 1 = true; decide) (fun x => vec 3 (Quad.frustum.global (RefGeom.ext x))) hG ?_ ?_ 7
      (by change 7 < refSize 3 7 3; decide) ?_
    · funext j; rw [hform]; simp
    · intro r
      funext j; rw [hform]
      fin_cases r <;> fin_cases j <;> simp
    · have e : vec 3 (RefGeom.corner (K := ℝ) 3 G.id 7) = fun _ => 1 := by
        have : vec 3 (RefGeom.corner (K := ℝ) 3 7 7) = fun _ => 1 := by
          rw [cubeCorner_eq (m := 3) (id := 7) Quad.frustum_cube (by norm_num)]
          funext r; fin_cases r <;> rfl
        exact this
      rw [e]
      simp only [hform]
      rw [Fin.sum_univ_three]
      change tolL < _
      refine ht.trans_le (Real.le_sqrt_of_sq_le ?_)
      simp
  have hv1 : G.volumeOf [(fun _ => 1 / 2, 1)] = some (9 / 4) := by
    rw [LFEGeometry.volumeOf, List.foldlM_cons, hie (fun _ => 1 / 2) fun r => by norm_num]
    simp
    norm_num
  have hv2 : G.volumeOf rule = some (7 / 3) := by
    have : ∀ (l : Rule 3) (v : ℝ), (∀ q ∈ l, ∀ r, 0 ≤ q.1 r ∧ q.1 r ≤ 1) →
        l.foldlM (fun vol qp => do return vol + (← G.integrationElement qp.1) * qp.2) v =
          some (v + (l.map (·.2)).sum + 2 * (l.map fun q => q.2 * q.1 2).sum + (l.map fun q => q.2 * q.1 2 ^ 2).sum) := by
      intro l
      induction l with
      | nil => intro v _; simp
      | cons q l ih =>
        intro v hl
        rw [List.foldlM_cons, hie _ (hl q List.mem_cons_self)]
        change List.foldlM _ (v + (1 + q.1 2) ^ 2 * q.2) l = _
        rw [ih _ fun q' hq' => hl q' (List.mem_cons_of_mem _ hq')]
        simp only [List.map_cons, List.sum_cons]
        congr 1; ring
    rw [LFEGeometry.volumeOf, this rule 0 hin, hw0, hw1, hw2]
    norm_num
  have hvl : (ofLfe G rules opts).volume = some (7 / 3) := by
    change (G.volume rules opts).bind _ = _
    rw [LFEGeometry.volume, LFEGeometry.affine]
    change (((G.affineImpl.bind _).bind _).bind _ : Option ℝ) = _
    rw [haff]
    change (adaptiveVolume _ false opts).value = _
    have e1 : (rules 1).bind G.volumeOf = some (9 / 4) := by rw [h1]; exact hv1
    have e2 : (rules 2).bind G.volumeOf = some (7 / 3) := by rw [h2]; exact hv2
    have e3 : (rules 3).bind G.volumeOf = some (7 / 3) := by rw [h3]; exact hv2
    rw [adaptiveVolume, e1]
    obtain ⟨k, hk⟩ : ∃ k, (opts.maxIt - 2).toNat = k + 1 + 1 := ⟨(opts.maxIt - 2).toNat - 2, by omega⟩
    simp only [Bool.false_eq_true, if_false, hk]
    rw [volumeLoop, e2]
    have n1 : ¬ |(7 : ℝ) / 3 - 9 / 4| < opts.absTol := by
      rw [not_lt]; refine habs'.trans ?_; norm_num [abs_of_pos]
    simp only [n1, if_false]
    rw [volumeLoop, e3]
    simp [habs]
  refine ⟨G, rfl, hs', hvm, hvl, fun tol points htol hcmp => ?_⟩
  obtain ⟨_, _, _, _, _, ⟨v, w, h4, h5, h6⟩, _⟩ := (C82_compare _ _ _ _).1 hcmp
  rw [hvl] at h5
  have h4' : Quad.frustum.volume = some v := h4
  rw [hvm] at h4'
  rw [← Option.some.inj h4', ← Option.some.inj h5, absDiff, abs_of_neg (by norm_num)] at h6
  linarith

/-! ### examples -/

-- such rules exist: two points on the line through the center
example : ∃ rule : Rule 3, (∀ q ∈ rule, ∀ r, 0 ≤ q.1 r ∧ q.1 r ≤ 1) ∧ (rule.map (·.2)).sum = 1 ∧
    (rule.map fun q => q.2 * q.1 2).sum = 1 / 2 ∧ (rule.map fun q => q.2 * q.1 2 ^ 2).sum = 1 / 3 := by
  have h3 : Real.sqrt 3 ^ 2 = 3 := Real.sq_sqrt (by norm_num)
  have h2 : Real.sqrt 3 ≤ 2 := Real.sqrt_le_iff.2 ⟨by norm_num, by norm_num⟩
  have h0 := Real.sqrt_nonneg (3 : ℝ)
  refine ⟨[(fun _ => 1 / 2 - Real.sqrt 3 / 6, 1 / 2), (fun _ => 1 / 2 + Real.sqrt 3 / 6, 1 / 2)], ?_, ?_, ?_, ?_⟩
  · intro q hq r
    simp only [List.mem_cons, List.not_mem_nil, or_false] at hq
    rcases hq with rfl | rfl <;> constructor <;> simp only <;> linarith
  · simp; norm_num
  · simp; ring
  · simp; nlinarith

/-- the multi-linear geometry on the images of the reference corners -/
def imageGeometry (d n id : Nat) (a : Vec ℝ) (M : Mat ℝ) (tol : ℝ) : MultiLinear.MultiLinearGeometry :=
  ⟨d, n, id, fun k j => a j + ∑ r ∈ range d, M j r * RefGeom.corner d id k r, tol⟩

theorem imageGeometry_image (d n id : Nat) (a : Vec ℝ) (M : Mat ℝ) (tol : ℝ) :
    MultiLinear.ImageOf (imageGeometry d n id a M tol) a M := by
  intro k p hp j _
  have hp' : (referenceCorners (K := ℝ) d id)[k]? = some p := hp
  have : RefGeom.corner d id k = p := by rw [RefGeom.corner, List.getD_eq_getElem?_getD, hp']; rfl
  change a j + ∑ r ∈ range d, M j r * RefGeom.corner d id k r = _
  rw [this]; rfl

theorem twice_li : LinearIndependent ℝ (mat 3 3 fun i j => if i = j then (2 : ℝ) else 0).col := by
  have : mat 3 3 (fun i j => if i = j then (2 : ℝ) else 0) = (2 : ℝ) • 1 := by
    funext i j; simp [mat, Matrix.one_apply, Fin.ext_iff]
  rw [this]
  refine Matrix.linearIndependent_cols_iff_isUnit.2 ((isUnit_iff_isUnit_det _).2 ?_)
  simp

-- a pyramid of twice the size, shifted: affine and multi-linear geometry are the same, and pass the comparison in the center
example : ∃ A, Affine.AffineGeometry.ofJacobian 3 3 3 (fun _ => 1) (fun i j => if j = i then (2 : ℝ) else 0) = some A ∧
    compareGeometries (ofAffine 3 3 A)
      (ofMultiLinear 3 3 (imageGeometry 3 3 3 (fun _ => 1) (fun i j => if i = j then (2 : ℝ) else 0) (1 / 1000))) 0
      [fun _ => 1 / 4] = some true := by
  obtain ⟨A, h1, h2, _⟩ := C82_multilinear (imageGeometry 3 3 3 (fun _ => 1) (fun i j => if i = j then (2 : ℝ) else 0) (1 / 1000))
    ⟨by change 3 < 2 ^ 3; norm_num, by change (0 : ℝ) < 1 / 1000; norm_num, by change (1 : ℝ) / 1000 < 1; norm_num⟩
    (by
      have : refSize 3 3 3 = 5 := by decide
      change (1 : ℝ) / 1000 * (refSize 3 3 3 : ℕ) < 1
      rw [this]; norm_num) _ _ (imageGeometry_image _ _ _ _ _ _) twice_li
  refine ⟨A, h1, C82_passes _ _ _ h2 0 (le_refl 0) _ fun x hx => ?_⟩
  obtain rfl := List.eq_of_mem_singleton hx
  change checkInside 3 3 _ (-(1 / 1000)) 1 = true
  rw [checkInside_iff (rep_topoOf _ _)]
  have : topoOf 3 3 = .pyr (.prism (.prism .pt)) := by decide
  rw [this]
  refine ⟨?_, ?_, ?_, ?_, ?_, ?_, trivial⟩ <;> norm_num [Topo.dim, RefGeom.ext, imageGeometry]

-- a triangle as linear finite element, with the midpoint rule
example : ∃ g A, LFEGeometry.ofVertices 0 (p1LocalFE 2) (List.ofFn ![![0, 0], ![2, 0], ![1, 3]]) (1 / 100) = some g ∧
    Affine.AffineGeometry.ofCorners 2 2 0 ((List.ofFn ![![0, 0], ![2, 0], ![1, 3]]).map RefGeom.ext) = some A ∧
    Same Set.univ (ofAffine 2 2 A) (ofLfe g (fun _ => some [(fun _ => 1 / 3, 1 / 2)]) ⟨100, 1 / 100⟩) := by
  refine C82_p1 (m := 2) 0 (by norm_num) (by norm_num) (by norm_num) (fun k _ _ => by simp) _ ?_ _ (by norm_num) _ _ rfl ?_ _
  · have : (fun r : Fin 2 => (![![0, 0], ![2, 0], ![1, 3]] : Fin 3 → Fin 2 → ℝ) r.succ - (![![0, 0], ![2, 0], ![1, 3]] : Fin 3 → Fin 2 → ℝ) 0) =
        (!![2, 0; 1, 3] : Matrix (Fin 2) (Fin 2) ℝ).row := by
      funext r j
      fin_cases r <;> fin_cases j <;> simp [Matrix.row]
    rw [this]
    refine linearIndependent_rows_of_isUnit ((isUnit_iff_isUnit_det _).2 ?_)
    rw [det_fin_two_of]; norm_num
  · have : referenceVolume (K := ℝ) 2 0 = 1 / 2 := by
      rw [C19_volume_partial 2 0 (by norm_num), (C19_simplex_cube 2 0).1 fun k _ _ => by simp]
      norm_num [Nat.factorial]
    rw [this]; simp

-- every finite element function gives a `MappedGeometry`
example (id : Nat) (v : Fin (2 ^ m) → (Fin n → ℝ)) (tol : ℝ) : ∃ mg : MappedGeometry m m n,
    (∀ x, functionValue (q1LocalFE m) (List.ofFn v) x = some (mg.mapping x)) ∧
    (∀ x, functionDerivative (q1LocalFE m) (List.ofFn v) x = some (mg.dMapping x)) ∧
    mg.geometry = referenceElementGeometry m id ∧ mg.affine_ = false := by
  let g : LFEGeometry m n := ⟨id, q1LocalFE m, List.ofFn v, none, tol⟩
  choose J hJ _ using fun x => Lfe.jacobian_mat g (q1_evaluates m) v rfl x
  exact ⟨⟨_, J, referenceElementGeometry m id, false⟩, fun x => C38_global g (q1_evaluates m) v rfl x, hJ, rfl, rfl⟩

-- a flat box in space
example : ∃ g, Cube.ofAxes 2 3 (fun _ => 0) (fun _ => 2) (fun i => i != 1) = some g ∧ Cube.Built g ∧ Cube.Ordered g := by
  refine ⟨_, rfl, .axes 2 3 (fun _ => 0) (fun _ => 2) (fun i => i != 1) _ rfl, fun i hi ha => ?_⟩
  change i < 3 at hi
  have ha' : (i != 1) = true := ha
  interval_cases i
  · simp [setV, List.range_succ]
  · exact absurd ha' (by decide)
  · simp [setV, List.range_succ]

end

end Verif.Compare
