import Verif.Check.Spec
import Verif.Affine.Props

/-! C80: what `checkGeometry` accepts. -/

namespace Verif.Check

open Verif.RefGeom Verif.RefTopo Verif.MatHelp Verif.Affine Finset
open scoped Matrix

theorem dist_eq (n : Nat) (x y : Vec ℝ) : dist n x y = euclid n x y := by
  rw [dist, euclid, addLoop_eq, zero_add, range_eq_Ico]
  congr 1
  exact sum_congr rfl fun i _ => by ring

theorem mat_toFieldMatrix (m n : Nat) (f : Vec ℝ → Vec ℝ) : mat m n (toFieldMatrix f) = matrixOf m n f := rfl

theorem mat_product (m n : Nat) (A B : Mat ℝ) : mat m m (product n A B) = mat m n A * mat n m B := by
  ext i j
  simp only [mat, product, Matrix.of_apply, Matrix.mul_apply, addLoop_eq, zero_add, ← range_eq_Ico]
  rw [Finset.sum_range]

theorem mat_gram (m n : Nat) (A : Mat ℝ) : mat m m (gram n A) = mat m n A * (mat m n A)ᵀ := by
  ext i j
  simp only [mat, gram, Matrix.of_apply, Matrix.mul_apply, addLoop_eq, zero_add, ← range_eq_Ico,
    Matrix.transpose_apply]
  rw [Finset.sum_range]

theorem isIdentity_iff (n : Nat) (m : Mat ℝ) (tol : ℝ) :
    isIdentity n m tol = true ↔ ∀ i j, |mat n n m i j - (1 : Matrix _ _ ℝ) i j| < tol := by
  simp only [isIdentity, List.all_eq_true, List.mem_range, Bool.not_eq_true', decide_eq_false_iff_not, not_le, ge_iff_le]
  constructor
  · intro h i j
    have := h i i.2 j j.2
    simpa [mat, Matrix.one_apply, Fin.ext_iff] using this
  · intro h i hi j hj
    have := h ⟨i, hi⟩ ⟨j, hj⟩
    simpa [mat, Matrix.one_apply, Fin.ext_iff] using this

theorem isTransposed_iff (m n : Nat) (A B : Mat ℝ) : isTransposed m n A B = true ↔ mat m n A = (mat n m B)ᵀ := by
  simp only [isTransposed, List.all_eq_true, List.mem_range, decide_eq_true_eq, sub_eq_zero]
  constructor
  · intro h; ext i j; exact h i i.2 j j.2
  · intro h i hi j hj; exact congrFun (congrFun h ⟨i, hi⟩) ⟨j, hj⟩

theorem checkPoint_iff (g : TestGeometry) (tol : ℝ) (x : Vec ℝ) : checkPoint g tol x = true ↔ PointOk g tol x := by
  simp only [checkPoint, Bool.and_eq_true, isIdentity_iff, isTransposed_iff, mat_product, mat_gram, mat_toFieldMatrix,
    Bool.not_eq_true', Bool.and_eq_false_iff, decide_eq_false_iff_not, not_lt, gt_iff_lt, dist_eq]
  constructor
  · rintro ⟨⟨⟨⟨⟨⟨⟨h1, h2⟩, h3⟩, h4⟩, h5⟩, h6⟩, h7⟩, h8⟩
    refine ⟨h1, h2, h3, h4, h5, h6, ?_, fun ha => ?_⟩
    · rw [h4, Matrix.transpose_transpose] at h7; exact h7
    · rcases h8 with h8 | h8
      · rw [ha] at h8; cases h8
      · exact h8
  · rintro ⟨h1, h2, h3, h4, h5, h6, h7, h8⟩
    refine ⟨⟨⟨⟨⟨⟨⟨h1, h2⟩, h3⟩, h4⟩, h5⟩, h6⟩, ?_⟩, ?_⟩
    · rw [h4, Matrix.transpose_transpose]; exact h7
    · cases ha : g.affine
      · exact Or.inl rfl
      · exact Or.inr (h8 ha)

theorem mapM_range {α : Type} (n : Nat) (f : Nat → Option α) (c : Nat → α) (h : ∀ i, i < n → f i = some (c i)) :
    (List.range n).mapM f = some ((List.range n).map c) := by
  induction n with
  | zero => rfl
  | succ n ih =>
    rw [List.range_succ, List.mapM_append, ih fun i hi => h i (by omega)]
    simp [h n (by omega)]

theorem checkCorners_iff (g : TestGeometry) (tol : ℝ) (c : Nat → Vec ℝ) (z : Vec ℝ) (h0 : g.corners ≠ 0) :
    (checkCorners g tol ((List.range g.corners).map c) z && !decide (g.volume < tol)) = true ↔
      NotDegenerate g tol c z := by
  have havg : (fun r => ((List.range g.corners).map c).foldl (fun acc c => acc + c r) 0 / (g.corners : ℝ)) =
      mean g.corners c := by
    funext r
    rw [mean]; congr 1
    generalize g.corners = n
    induction n with
    | zero => rfl
    | succ n ih => rw [List.range_succ, List.map_append, List.foldl_append, ih, sum_range_succ]; rfl
  simp only [checkCorners, havg, dist_eq, Bool.and_eq_true, Bool.not_eq_true', decide_eq_false_iff_not, not_lt]
  by_cases h1 : g.corners > 1
  · simp only [if_pos h1, List.all_map, List.all_eq_true, List.mem_range, Function.comp, Bool.and_eq_true,
      Bool.not_eq_true', decide_eq_false_iff_not, not_le]
    exact ⟨fun h => ⟨fun _ => h.1, fun h2 => by omega, h.2⟩, fun h => ⟨h.several h1, h.volume⟩⟩
  · simp only [if_neg h1, Bool.not_eq_true', decide_eq_false_iff_not, not_lt, gt_iff_lt]
    exact ⟨fun h => ⟨fun h2 => absurd h2 h1, fun _ => h.1, h.2⟩, fun h => ⟨h.single (by omega), h.volume⟩⟩

theorem positions (m id : Nat) :
    (List.range (refSize m id m)).mapM (fun i => position (K := ℝ) m id i m) =
      some ((List.range (refSize m id m)).map fun i => corner m id i) := by
  apply mapM_range
  intro i hi
  rw [C21_vertex, corner, List.getD_eq_getElem?_getD]
  have : i < (referenceCorners (K := ℝ) m id).length := by rw [C17_count]; exact hi
  rw [List.getElem?_eq_getElem this]; rfl

/-- C80: the result, for a geometry with corners `c`, center `z` and a type different from `none` whose reference
element has the barycenter `b` -/
theorem C80_checkGeometry (g : TestGeometry) (tol : ℝ) (pts : List (Vec ℝ)) (c : Nat → Vec ℝ) (z b : Vec ℝ)
    (hd : Defined g c z) (hn : g.isNone = false) (hb : position g.mydim g.id 0 0 = some b) :
    (checkGeometry g tol pts = .error .throw ↔ g.corners = 0 ∨ tol < euclid g.coorddim z (g.global b)) ∧
    (checkGeometry g tol pts = .ok true ↔ g.corners ≠ 0 ∧ euclid g.coorddim z (g.global b) ≤ tol ∧
      NotDegenerate g tol c z ∧ Consistent g tol c ∧ ∀ x ∈ pts, PointOk g tol x) ∧
    checkGeometry g tol pts ≠ .error .ub := by
  by_cases h0 : g.corners = 0
  · simp [checkGeometry, h0]
  have hc := mapM_range _ _ c hd.corner
  have e : checkGeometry g tol pts = if dist g.coorddim z (g.global b) > tol then .error .throw else
      (if refSize g.mydim g.id g.mydim = g.corners then
        .ok (((checkCorners g tol ((List.range g.corners).map c) z && !decide (g.volume < tol)) &&
          (((List.range g.corners).map c).zip ((List.range g.corners).map (corner g.mydim g.id))).all
            fun (c, p) => !decide (dist g.coorddim c (g.global p) > tol)) && pts.all (checkPoint g tol))
      else .ok false) := by
    rw [checkGeometry, if_neg h0, hc, hd.center, hb, hn]
    simp only [get, bind, Except.bind, pure, Except.pure]
    by_cases h1 : dist g.coorddim z (g.global b) > tol
    · simp [h1]
    · by_cases h2 : refSize g.mydim g.id g.mydim = g.corners
      · have hp := positions g.mydim g.id
        rw [h2] at hp
        simp only [h1, h2, if_true, if_false, hp]
        rfl
      · simp [h1, h2]
  rw [e, dist_eq]
  by_cases h1 : euclid g.coorddim z (g.global b) > tol
  · simp [h1, h0]
  have h1' := not_lt.1 h1
  by_cases h2 : refSize g.mydim g.id g.mydim = g.corners
  · simp only [if_neg h1, if_pos h2, reduceCtorEq, h0, false_or, false_iff, ne_eq, not_false_eq_true, and_true]
    refine ⟨h1, ?_⟩
    rw [Except.ok.injEq, Bool.and_eq_true, Bool.and_eq_true, checkCorners_iff g tol c z h0, List.all_eq_true,
      List.all_eq_true]
    simp only [checkPoint_iff]
    constructor
    · rintro ⟨⟨h3, h4⟩, h5⟩
      refine ⟨trivial, h1', h3, ⟨h2.symm, fun i hi => ?_⟩, h5⟩
      have := h4 (c i, corner g.mydim g.id i) (by
        rw [List.zip_map', List.mem_map]; exact ⟨i, List.mem_range.2 hi, rfl⟩)
      simpa [dist_eq] using this
    · rintro ⟨-, -, h3, h4, h5⟩
      refine ⟨⟨h3, ?_⟩, h5⟩
      rw [List.zip_map']
      intro p hp
      obtain ⟨i, hi, rfl⟩ := List.mem_map.1 hp
      simpa [dist_eq] using h4.corner i (List.mem_range.1 hi)
  · simp only [if_neg h1, if_neg h2, reduceCtorEq, h0, false_or, false_iff, ne_eq, not_false_eq_true, and_true]
    refine ⟨h1, ?_⟩
    simp only [Except.ok.injEq, Bool.false_eq_true, false_iff]
    rintro ⟨-, -, -, h4, -⟩
    exact h2 h4.count.symm

/-- C80: for type `none` only corners, center and volume are looked at -/
theorem C80_none (g : TestGeometry) (tol : ℝ) (pts : List (Vec ℝ)) (c : Nat → Vec ℝ) (z : Vec ℝ)
    (hd : Defined g c z) (hn : g.isNone = true) :
    (checkGeometry g tol pts = .error .throw ↔ g.corners = 0) ∧
    (checkGeometry g tol pts = .ok true ↔ g.corners ≠ 0 ∧ NotDegenerate g tol c z) ∧
    checkGeometry g tol pts ≠ .error .ub := by
  by_cases h0 : g.corners = 0
  · simp [checkGeometry, h0]
  have hc := mapM_range _ _ c hd.corner
  have e : checkGeometry g tol pts =
      .ok (checkCorners g tol ((List.range g.corners).map c) z && !decide (g.volume < tol)) := by
    rw [checkGeometry, if_neg h0, hc, hd.center, hn]
    rfl
  rw [e]
  simp only [reduceCtorEq, h0, ne_eq, not_false_eq_true, and_true, true_and]
  rw [Except.ok.injEq, checkCorners_iff g tol c z h0]

theorem matrixOf_mv (m n : Nat) (A : Mat ℝ) :
    matrixOf m n (fun v i => addLoop 0 0 n fun j => A i j * v j) = mat m n A := by
  ext i j
  simp [matrixOf, mat, addLoop_eq]

theorem euclid_self (n : Nat) (x : Vec ℝ) : euclid n x x = 0 := by simp [euclid]

theorem euclid_congr {n : Nat} {x y z : Vec ℝ} (h : ∀ r, r < n → y r = z r) : euclid n x y = euclid n x z := by
  rw [euclid, euclid]; congr 1
  exact sum_congr rfl fun r hr => by rw [h r (mem_range.1 hr)]

theorem euclid_eq_zero {n : Nat} {x y : Vec ℝ} (h : ∀ r, r < n → x r = y r) : euclid n x y = 0 := by
  rw [← euclid_congr (x := x) h, euclid_self]

/-- C80: every regular affine geometry that is large enough compared with the tolerance is accepted, whatever the
quadrature points are -/
theorem C80_affine (m n id : Nat) (o : Vec ℝ) (jt : Mat ℝ) (hmn : m ≤ n) (hid : id < 2 ^ m) (g : AffineGeometry)
    (hg : AffineGeometry.ofJacobian m n id o jt = some g) (tol : ℝ) (htol : 0 < tol) (pts : List (Vec ℝ)) (z : Vec ℝ)
    (hz : g.center = some z)
    (hsep : 1 < g.corners → ∀ i c, g.corner i = some c → tol < euclid n c z) (hvol : tol ≤ g.volume) :
    checkGeometry (ofAffine g) tol pts = .ok true := by
  have hgl := C28_global m n id o jt hmn g hg
  have hlg := C28_local_global m n id o jt hmn g hg
  obtain ⟨hcs, hcorner, b', hb', hmean⟩ := C28_corner_center m n id o jt hmn hid g hg
  obtain ⟨-, hJ, hJi, hinv1, hinv2⟩ := C29_jacobians m n id o jt hmn g hg
  obtain ⟨hie, hpos, hv⟩ := C29_integrationElement m n id o jt hmn g hg
  obtain ⟨rfl, rfl, rfl, -, -, -⟩ := ofJacobian_good hmn hg
  have hpos0 : 0 < refSize g.mydim g.id g.mydim := by
    rw [refSize, size_eq (rep_topoOf g.mydim g.id) g.mydim (le_refl _)]
    exact Topo.sz_pos _ _ (by rw [(rep_topoOf g.mydim g.id).dim_eq])
  have hN : g.corners ≠ 0 := by omega
  have hNR : (g.corners : ℝ) ≠ 0 := by exact_mod_cast hN
  -- the center is the mean of the corners
  obtain ⟨b, hb, hgb⟩ : ∃ b, position g.mydim g.id 0 0 = some b ∧ g.global b = z := by
    have := hz
    rw [AffineGeometry.center, Option.map_eq_some_iff] at this
    exact this
  have hzb : g.global b' = z := by rw [hb'] at hz; exact Option.some.inj hz
  have hmz : ∀ r, r < g.cdim → mean g.corners (fun i => g.global (corner g.mydim g.id i)) r = z r := by
    intro r _
    rw [← hzb, hgl, mean, div_eq_iff hNR]
    simp only [hgl]
    rw [sum_add_distrib, sum_const, card_range, nsmul_eq_mul, sum_comm, add_mul, sum_mul]
    congr 1
    · ring
    · refine sum_congr rfl fun k _ => ?_
      rw [← mul_sum, ← hmean k]; ring
  refine (C80_checkGeometry (ofAffine g) tol pts (fun i => g.global (corner g.mydim g.id i)) z b
    ⟨hcorner, hz⟩ rfl hb).2.1.2 ⟨hN, ?_, ⟨fun h i hi => ?_, fun h => ?_, hvol⟩, ⟨hcs, fun i _ => ?_⟩, fun x _ => ?_⟩
  · change euclid g.cdim z (g.global b) ≤ tol
    rw [hgb, euclid_self]; exact htol.le
  · have h1 := hsep h i _ (hcorner i hi)
    refine ⟨h1, ?_⟩
    change tol < euclid g.cdim _ (mean g.corners _)
    rw [euclid_congr hmz]; exact h1
  · change euclid g.cdim z (mean g.corners _) ≤ tol
    rw [euclid_congr hmz, euclid_self]; exact htol.le
  · change euclid g.cdim (g.global (corner g.mydim g.id i)) (g.global (corner g.mydim g.id i)) ≤ tol
    rw [euclid_self]; exact htol.le
  · have e1 : matrixOf g.mydim g.cdim ((ofAffine g).jacobianTransposed x) = mat g.mydim g.cdim g.jacobianTransposed :=
      matrixOf_mv _ _ _
    have e2 : matrixOf g.cdim g.mydim ((ofAffine g).jacobianInverseTransposed x) =
      mat g.cdim g.mydim g.jacobianInverseTransposed := matrixOf_mv _ _ _
    have e3 : matrixOf g.cdim g.mydim ((ofAffine g).jacobian x) = mat g.cdim g.mydim g.jacobian := matrixOf_mv _ _ _
    have e4 : matrixOf g.mydim g.cdim ((ofAffine g).jacobianInverse x) = mat g.mydim g.cdim g.jacobianInverse :=
      matrixOf_mv _ _ _
    refine ⟨?_, fun i j => ?_, fun i j => ?_, ?_, ?_, hpos.le, ?_, fun _ => ?_⟩
    · change euclid g.mydim x (g.local_ (g.global x)) ≤ tol
      rw [euclid_eq_zero fun r hr => (congrFun (hlg x) ⟨r, hr⟩).symm]; exact htol.le
    · change |(matrixOf g.mydim g.cdim _ * matrixOf g.cdim g.mydim _) i j - _| < tol
      rw [e1, e2, hinv2]
      change |(1 : Matrix (Fin g.mydim) (Fin g.mydim) ℝ) i j - (1 : Matrix (Fin g.mydim) (Fin g.mydim) ℝ) i j| < tol
      rw [sub_self, abs_zero]; exact htol
    · change |(matrixOf g.mydim g.cdim _ * matrixOf g.cdim g.mydim _) i j - _| < tol
      rw [e3, e4, hinv1]
      change |(1 : Matrix (Fin g.mydim) (Fin g.mydim) ℝ) i j - (1 : Matrix (Fin g.mydim) (Fin g.mydim) ℝ) i j| < tol
      rw [sub_self, abs_zero]; exact htol
    · change matrixOf g.mydim g.cdim _ = (matrixOf g.cdim g.mydim _)ᵀ
      rw [e1, e3, hJ, Matrix.transpose_transpose]
    · change matrixOf g.cdim g.mydim _ = (matrixOf g.mydim g.cdim _)ᵀ
      rw [e2, e4, hJi, Matrix.transpose_transpose]
    · change |Real.sqrt ((matrixOf g.cdim g.mydim _)ᵀ * matrixOf g.cdim g.mydim _).det - g.integrationElement| ≤ tol
      rw [e3, ← hie, sub_self, abs_zero]; exact htol.le
    · change |g.volume - referenceVolume g.mydim g.id * g.integrationElement| ≤ tol
      rw [hv, mul_comm, sub_self, abs_zero]; exact htol.le

/-- the segment from 0 to `h` -/
theorem segment_li {h : ℝ} (hh : h ≠ 0) : LinearIndependent ℝ (mat 1 1 (fun _ _ => h)).row := by
  rw [Fintype.linearIndependent_iff]
  intro a ha i
  have := congrFun ha 0
  simp [mat] at this
  rcases this with h1 | h1
  · rw [Subsingleton.elim i 0]; exact h1
  · exact absurd h1 hh

theorem segment (h : ℝ) (hh : 0 < h) : ∃ g z, AffineGeometry.ofJacobian 1 1 0 (fun _ => 0) (fun _ _ => h) = some g ∧
    g.volume = h ∧ g.corners = 2 ∧ g.center = some z ∧ z 0 = h / 2 ∧
    ∀ i, i < 2 → ∃ c, g.corner i = some c ∧ c 0 = h * i := by
  obtain ⟨g, hg⟩ := (C28_constructible 1 1 0 (fun _ => 0) (fun _ _ => h) (le_refl 1)).2 (segment_li hh.ne')
  obtain ⟨hcs, hcorner, b, hb, hmean⟩ := C28_corner_center 1 1 0 _ _ (le_refl 1) (by norm_num) g hg
  have hgl := C28_global 1 1 0 _ _ (le_refl 1) g hg
  obtain ⟨hie, hpos, hv⟩ := C29_integrationElement 1 1 0 _ _ (le_refl 1) g hg
  obtain ⟨hJt, hJ, -⟩ := C29_jacobians 1 1 0 _ _ (le_refl 1) g hg
  have hs : refSize 1 0 1 = 2 := by decide
  have hc : ∀ i, i < 2 → corner (K := ℝ) 1 0 i 0 = i := by
    intro i hi
    interval_cases i <;> simp [corner, referenceCorners, Typ.implIsPrism, setV]
  rw [hs] at hcs
  rw [hcs] at hmean hcorner
  refine ⟨g, _, hg, ?_, hcs, hb, ?_, fun i hi => ⟨_, hcorner i hi, ?_⟩⟩
  · rw [hv, hie, hJ, hJt]
    have : referenceVolume (K := ℝ) 1 0 = 1 := by simp [referenceVolume, referenceVolumeInverse, Typ.implIsPrism]
    rw [this, mul_one, Matrix.det_fin_one]
    simp [Matrix.mul_apply, mat, Real.sqrt_mul_self hh.le]
  · have h2 := hmean 0
    rw [sum_range_succ, sum_range_one, hc 0 (by omega), hc 1 (by omega)] at h2
    rw [hgl, sum_range_one]
    push_cast at h2
    linear_combination h / 2 * h2
  · rw [hgl, sum_range_one, hc i hi, zero_add]

/-- C80: regular geometries smaller than the tolerance are rejected: `checkGeometry` must not be used on fine grids -/
theorem C80_small_counterexample (tol : ℝ) (htol : 0 < tol) :
    ∃ g, AffineGeometry.ofJacobian 1 1 0 (fun _ => 0) (fun _ _ => tol / 2) = some g ∧
      ∀ pts, checkGeometry (ofAffine g) tol pts ≠ .ok true := by
  obtain ⟨g, z, hg, hv, hcs, hz, -, hc⟩ := segment (tol / 2) (by linarith)
  refine ⟨g, hg, fun pts h => ?_⟩
  obtain ⟨-, hcorner, b, hb, -⟩ := C28_corner_center 1 1 0 _ _ (le_refl 1) (by norm_num) g hg
  have hb2 := hz
  rw [AffineGeometry.center, Option.map_eq_some_iff] at hb2
  obtain ⟨b2, hb2, -⟩ := hb2
  have := ((C80_checkGeometry (ofAffine g) tol pts _ z b2 ⟨hcorner, hz⟩ rfl hb2).2.1.1 h).2.2.1.volume
  change tol ≤ g.volume at this
  rw [hv] at this; linarith

/-- the segment of length 1 with tolerance 2⁻²⁶ meets the hypotheses of C80_affine -/
example (pts : List (Vec ℝ)) : ∃ g, AffineGeometry.ofJacobian 1 1 0 (fun _ => 0) (fun _ _ => 1) = some g ∧
    checkGeometry (ofAffine g) (2⁻¹ ^ 26) pts = .ok true := by
  obtain ⟨g, z, hg, hv, hcs, hz, hz0, hc⟩ := segment 1 one_pos
  refine ⟨g, hg, C80_affine 1 1 0 _ _ (le_refl 1) (by norm_num) g hg _ (by norm_num) pts z hz (fun _ i c hic => ?_) ?_⟩
  · by_cases hi : i < 2
    · obtain ⟨c', hc', h0⟩ := hc i hi
      obtain rfl : c' = c := by rw [hc'] at hic; exact Option.some.inj hic
      rw [euclid, sum_range_one, h0, hz0]
      interval_cases i <;> (rw [Real.sqrt_sq_eq_abs]; norm_num)
    · have hm := (ofJacobian_good (le_refl 1) hg)
      rw [AffineGeometry.corner, hm.1, hm.2.2.1, C21_vertex, List.getElem?_eq_none] at hic
      · simp at hic
      · rw [C17_count]; have : refSize 1 0 1 = 2 := by decide
        omega
  · rw [hv]; norm_num

/-- the identity of the unit interval whose Jacobian, integration element and volume are claimed to be 2 -/
noncomputable def liar : TestGeometry where
  mydim := 1
  coorddim := 1
  corners := 2
  corner i := some fun _ => i
  center := some fun _ => 1 / 2
  volume := 2
  isNone := false
  id := 0
  global := _root_.id
  local_ := _root_.id
  jacobianTransposed _ v := fun i => 2 * v i
  jacobianInverseTransposed _ v := fun i => 1 / 2 * v i
  jacobian _ v := fun i => 2 * v i
  jacobianInverse _ v := fun i => 1 / 2 * v i
  integrationElement _ := 2
  affine := true

/-- C80: the Jacobian is never compared with `global`: a geometry with a wrong Jacobian, integration element and volume
is accepted -/
theorem C80_jacobian_counterexample (tol : ℝ) (htol : 0 < tol) (h2 : tol < 1 / 2) (pts : List (Vec ℝ)) :
    checkGeometry liar tol pts = .ok true ∧
    (∀ x : Vec ℝ, HasDerivAt (fun t : ℝ => liar.global (fun _ => t) 0) 1 (x 0) ∧
      liar.jacobian x (fun _ => 1) 0 = 2 ∧ liar.integrationElement x = 2) := by
  have hb : ∃ b, position (K := ℝ) 1 0 0 0 = some b ∧ b 0 = 1 / 2 := by
    obtain ⟨g, z, hg, hv, hcs, hz, hz0, hc⟩ := segment 1 one_pos
    have hm := ofJacobian_good (le_refl 1) hg
    rw [AffineGeometry.center, hm.1, hm.2.2.1, Option.map_eq_some_iff] at hz
    obtain ⟨b, h1, h2⟩ := hz
    refine ⟨b, h1, ?_⟩
    rw [← hz0, ← h2, C28_global 1 1 0 _ _ (le_refl 1) g hg, sum_range_one]; ring
  obtain ⟨b, hb, hb0⟩ := hb
  have hcor : ∀ i, i < 2 → corner (K := ℝ) 1 0 i 0 = i := by
    intro i hi
    interval_cases i <;> simp [corner, referenceCorners, Typ.implIsPrism, setV]
  have hs : refSize 1 0 1 = 2 := by decide
  have hv : referenceVolume (K := ℝ) 1 0 = 1 := by simp [referenceVolume, referenceVolumeInverse, Typ.implIsPrism]
  constructor
  · refine (C80_checkGeometry liar tol pts (fun i _ => i) (fun _ => 1 / 2) b ⟨fun _ _ => rfl, rfl⟩ rfl hb).2.1.2
      ⟨by simp [liar], ?_, ⟨fun _ i hi => ?_, fun h => ?_, ?_⟩, ⟨hs.symm, fun i hi => ?_⟩, fun x _ => ?_⟩
    · change euclid 1 _ b ≤ tol
      rw [euclid_eq_zero]
      · exact htol.le
      · intro r hr; obtain rfl : r = 0 := by omega
        exact hb0.symm
    · change i < 2 at hi
      change tol < euclid 1 _ _ ∧ tol < euclid 1 _ _
      have hm : mean liar.corners (fun i _ => (i : ℝ)) = fun _ => 1 / 2 := by
        funext r
        change (∑ i ∈ range 2, (i : ℝ)) / ((2 : ℕ) : ℝ) = _
        norm_num [sum_range_succ]
      rw [hm, and_self, euclid, sum_range_one, Real.sqrt_sq_eq_abs]
      interval_cases i <;> norm_num <;> (try rw [abs_of_pos (by norm_num)]) <;> linarith
    · simp [liar] at h
    · change tol ≤ 2; linarith
    · change i < 2 at hi
      change euclid 1 _ (corner 1 0 i) ≤ tol
      rw [euclid_eq_zero]
      · exact htol.le
      · intro r hr; obtain rfl : r = 0 := by omega
        exact (hcor i hi).symm
    · have e1 : ∀ a : ℝ, matrixOf 1 1 (fun v i => a * v i) = Matrix.of fun _ _ => a := by
        intro a; ext i j
        rw [Subsingleton.elim i 0, Subsingleton.elim j 0]; simp [matrixOf]
      refine ⟨?_, fun (i j : Fin 1) => ?_, fun (i j : Fin 1) => ?_, ?_, ?_, ?_, ?_, fun _ => ?_⟩
      · change euclid 1 x x ≤ tol
        rw [euclid_self]; exact htol.le
      · change |(matrixOf 1 1 (fun v i => 2 * v i) * matrixOf 1 1 (fun v i => 1 / 2 * v i)) (i : Fin 1) (j : Fin 1) -
          (1 : Matrix (Fin 1) (Fin 1) ℝ) i j| < tol
        rw [e1, e1, Subsingleton.elim i (0 : Fin 1), Subsingleton.elim j (0 : Fin 1)]
        simpa [Matrix.mul_apply] using htol
      · change |(matrixOf 1 1 (fun v i => 1 / 2 * v i) * matrixOf 1 1 (fun v i => 2 * v i)) (i : Fin 1) (j : Fin 1) -
          (1 : Matrix (Fin 1) (Fin 1) ℝ) i j| < tol
        rw [e1, e1, Subsingleton.elim i (0 : Fin 1), Subsingleton.elim j (0 : Fin 1)]
        simpa [Matrix.mul_apply] using htol
      · change matrixOf 1 1 (fun v i => 2 * v i) = (matrixOf 1 1 (fun v i => 2 * v i))ᵀ
        rw [e1]; rfl
      · change matrixOf 1 1 (fun v i => 1 / 2 * v i) = (matrixOf 1 1 (fun v i => 1 / 2 * v i))ᵀ
        rw [e1]; rfl
      · change (0 : ℝ) ≤ 2; norm_num
      · change |Real.sqrt ((matrixOf 1 1 (fun v i => 2 * v i))ᵀ * matrixOf 1 1 (fun v i => 2 * v i)).det - 2| ≤ tol
        rw [e1, Matrix.det_fin_one]
        have : Real.sqrt (2 * 2) = 2 := Real.sqrt_mul_self (by norm_num)
        simpa [Matrix.mul_apply, this] using htol.le
      · change |2 - referenceVolume (K := ℝ) 1 0 * 2| ≤ tol
        rw [hv]; simpa using htol.le
  · intro x
    exact ⟨hasDerivAt_id _, by simp [liar], rfl⟩

end Verif.Check
