import Verif.Cube.Lemmas

/-!
Property C30 of AxisAlignedCubeGeometry.

`Built` collects what the three constructors deliver.  The bounds are required to be in order on the axes of the
geometry (documented precondition "lower left corner, upper right corner").
-/

namespace Verif.Cube

open Verif.RefGeom Verif.MatHelp Verif.RefTopo Verif.Typ Verif.Affine Finset
open Matrix hiding vec

/-- an object delivered by one of the constructors -/
inductive Built : AxisAlignedCubeGeometry → Prop
  | corners (n : Nat) (lower upper : Vec ℝ) : Built (ofCorners n lower upper)
  | axes (dim cd : Nat) (lower upper : Vec ℝ) (axes : Nat → Bool) (g : AxisAlignedCubeGeometry)
      (h : ofAxes dim cd lower upper axes = some g) : Built g
  | point (cd : Nat) (lower : Vec ℝ) : Built (ofPoint cd lower)

theorem Built.valid {g : AxisAlignedCubeGeometry} (h : Built g) : Valid g := by
  cases h with
  | corners n l u => exact valid_ofCorners n l u
  | axes dim cd l u ax g h => exact (valid_ofAxes h).1
  | point cd l => exact valid_ofPoint cd l

/-- the bounds are in order -/
def Ordered (g : AxisAlignedCubeGeometry) : Prop := ∀ i, i < g.coorddim → g.axes i = true → g.lower i < g.upper i

/-! ### auxiliary facts -/

theorem mat_apply (m n : Nat) (M : Mat ℝ) (i : Fin m) (j : Fin n) : mat m n M i j = M i j := rfl

/-- enumeration of the axes -/
theorem axes_enum {g : AxisAlignedCubeGeometry} (h : Valid g) :
    ∃ ax : Fin g.dim → Fin g.coorddim, Function.Injective ax ∧
      (∀ r, g.axes (ax r) = true ∧ count g.axes (ax r) = r) ∧
      ∀ (c : Nat) (r : Fin g.dim), c < g.coorddim → (c = ax r ↔ g.axes c = true ∧ count g.axes c = r) := by
  have hex : ∀ r : Fin g.dim, ∃ i : Fin g.coorddim, g.axes i = true ∧ count g.axes i = r := by
    intro r
    obtain ⟨i, h1, h2, h3⟩ := exists_axis g.axes g.coorddim r (by rw [h.count]; exact r.2)
    exact ⟨⟨i, h1⟩, h2, h3⟩
  choose ax hax using hex
  refine ⟨ax, fun r s hrs => ?_, hax, fun c r hc => ⟨fun e => ?_, fun e => ?_⟩⟩
  · have h1 := (hax r).2
    rw [hrs, (hax s).2] at h1
    exact Fin.ext h1.symm
  · rw [e]; exact hax r
  · exact count_inj g.axes e.1 (hax r).1 (e.2.trans (hax r).2.symm)

theorem prod_axes {g : AxisAlignedCubeGeometry} (h : Valid g) (f : Nat → ℝ) (ax : Fin g.dim → Fin g.coorddim)
    (hinj : Function.Injective ax)
    (hax : ∀ (c : Nat) (r : Fin g.dim), c < g.coorddim → (c = ax r ↔ g.axes c = true ∧ count g.axes c = r)) :
    ∏ i ∈ range g.coorddim, (if g.axes i then f i else 1) = ∏ r, f (ax r) := by
  rw [← prod_filter]
  symm
  refine prod_bij (fun r _ => (ax r : Nat)) (fun r _ => ?_) (fun r _ s _ e => hinj (Fin.ext e)) (fun i hi => ?_)
    (fun _ _ => rfl)
  · rw [mem_filter, mem_range]
    exact ⟨(ax r).2, ((hax _ r (ax r).2).1 rfl).1⟩
  · rw [mem_filter, mem_range] at hi
    have := count_lt g.axes hi.1 hi.2
    rw [h.count] at this
    exact ⟨⟨_, this⟩, mem_univ _, ((hax i ⟨_, this⟩ hi.1).2 ⟨hi.2, rfl⟩).symm⟩

theorem isCubeId (d : Nat) : IsCubeId d (2 ^ d - 1) := by
  intro k _ hk
  rw [Nat.testBit_two_pow_sub_one]; simpa using hk

theorem volumeInverse_cube : ∀ d, referenceVolumeInverse d (2 ^ d - 1) = 1
  | 0 => rfl
  | d + 1 => by
    have hm : (2 ^ (d + 1) - 1) % 2 ^ d = 2 ^ d - 1 := by
      apply Nat.eq_of_testBit_eq
      intro i
      rw [Nat.testBit_mod_two_pow, Nat.testBit_two_pow_sub_one, Nat.testBit_two_pow_sub_one]
      by_cases h : i < d <;> simp [h]; omega
    have hp : d = 0 ∨ (2 ^ (d + 1) - 1).testBit d = true := by
      right; rw [Nat.testBit_two_pow_sub_one]; simp
    simp only [referenceVolumeInverse, implBase_eq, isPrism_of_rep hp, if_true, Nat.add_sub_cancel, hm]
    rw [volumeInverse_cube d]; rfl

theorem refSize_cube (d : Nat) : refSize d (2 ^ d - 1) d = 2 ^ d := by
  rw [← C17_count (K := ℝ), C17_cube d _ (isCubeId d), List.length_map, List.length_range]

theorem corner_cube (d k r : Nat) (hk : k < 2 ^ d) :
    corner (K := ℝ) d (2 ^ d - 1) k r = if k.testBit r then 1 else 0 := by
  rw [corner, C17_cube d _ (isCubeId d), List.getD_eq_getElem?_getD, List.getElem?_map, List.getElem?_range hk]
  rfl

theorem sum_bits (d r : Nat) (hr : r < d) :
    2 * ∑ k ∈ range (2 ^ d), (if k.testBit r then (1 : ℝ) else 0) = 2 ^ d := by
  induction d with
  | zero => omega
  | succ d ih =>
    rw [pow_succ 2 d, mul_two (2 ^ d), sum_range_add]
    rcases Nat.lt_or_ge r d with h | h
    · have e : ∑ x ∈ range (2 ^ d), (if (2 ^ d + x).testBit r = true then (1 : ℝ) else 0) =
          ∑ k ∈ range (2 ^ d), (if k.testBit r then (1 : ℝ) else 0) :=
        sum_congr rfl fun x _ => by rw [Nat.testBit_two_pow_add_gt h]
      rw [e, mul_add, ih h, pow_succ, mul_two]
    · obtain rfl : r = d := by omega
      have e1 : ∑ x ∈ range (2 ^ r), (if x.testBit r = true then (1 : ℝ) else 0) = 0 :=
        sum_eq_zero fun x hx => by rw [Nat.testBit_lt_two_pow (mem_range.1 hx)]; rfl
      have e2 : ∑ x ∈ range (2 ^ r), (if (2 ^ r + x).testBit r = true then (1 : ℝ) else 0) = 2 ^ r := by
        rw [sum_congr rfl (g := fun _ => (1 : ℝ)) fun x hx => by
          rw [Nat.testBit_two_pow_add_eq, Nat.testBit_lt_two_pow (mem_range.1 hx)]; rfl]
        simp
      rw [e1, e2, zero_add, pow_succ, mul_comm]

/-! ### C30 -/

/-- C30: `global` maps the unit cube onto the box spanned by the two corners -/
theorem C30_box (g : AxisAlignedCubeGeometry) (hb : Built g) (ho : Ordered g) (y : Vec ℝ) :
    (∃ x : Vec ℝ, (∀ r, r < g.dim → 0 ≤ x r ∧ x r ≤ 1) ∧ ∀ i, i < g.coorddim → g.global x i = y i) ↔
    ∀ i, i < g.coorddim →
      if g.axes i then g.lower i ≤ y i ∧ y i ≤ g.upper i else y i = g.lower i := by
  have hv := hb.valid
  constructor
  · rintro ⟨x, hx, hxy⟩ i hi
    rw [← hxy i hi, global_spec hv x i hi]
    by_cases ha : g.axes i = true
    · rw [if_pos ha, if_pos ha]
      have hr := count_lt g.axes hi ha
      rw [hv.count] at hr
      have h1 := hx _ hr
      have h2 := ho i hi ha
      constructor <;> nlinarith
    · rw [if_neg ha, if_neg ha, add_zero]
  · intro h
    refine ⟨g.local_ y, fun r hr => ?_, fun i hi => ?_⟩
    · obtain ⟨i, hi, ha, rfl⟩ := exists_axis g.axes g.coorddim r (by rw [hv.count]; exact hr)
      rw [local_spec hv y i hi ha]
      have h1 := h i hi
      rw [if_pos ha] at h1
      have h2 := ho i hi ha
      constructor
      · exact div_nonneg (by linarith [h1.1]) (by linarith)
      · rw [div_le_one (by linarith)]; linarith [h1.2]
    · rw [global_spec hv _ i hi]
      have h1 := h i hi
      by_cases ha : g.axes i = true
      · rw [if_pos ha, local_spec hv y i hi ha, div_mul_cancel₀ _ (by linarith [ho i hi ha])]; ring
      · rw [if_neg ha] at h1 ⊢
        rw [h1, add_zero]

/-- C30: `local` and `global` are inverse to each other -/
theorem C30_inverse (g : AxisAlignedCubeGeometry) (hb : Built g) (ho : Ordered g) :
    (∀ (x : Vec ℝ) (r : Nat), r < g.dim → g.local_ (g.global x) r = x r) ∧
    ∀ y : Vec ℝ, (∀ i, i < g.coorddim → g.axes i = false → y i = g.lower i) →
      ∀ i, i < g.coorddim → g.global (g.local_ y) i = y i := by
  have hv := hb.valid
  refine ⟨fun x r hr => ?_, fun y hy i hi => ?_⟩
  · obtain ⟨i, hi, ha, rfl⟩ := exists_axis g.axes g.coorddim r (by rw [hv.count]; exact hr)
    rw [local_spec hv _ i hi ha, global_spec hv _ i hi, if_pos ha, add_sub_cancel_left,
      mul_div_cancel_right₀ _ (by linarith [ho i hi ha])]
  · rw [global_spec hv _ i hi]
    by_cases ha : g.axes i = true
    · rw [if_pos ha, local_spec hv y i hi ha, div_mul_cancel₀ _ (by linarith [ho i hi ha])]; ring
    · rw [if_neg ha, hy i hi (by simpa using ha), add_zero]

/-- C30: volume and integration element are the product of the edge lengths -/
theorem C30_volume (g : AxisAlignedCubeGeometry) (hb : Built g) :
    g.volume = ∏ i ∈ (range g.coorddim).filter (fun i => g.axes i = true), (g.upper i - g.lower i) ∧
    g.integrationElement = g.volume := by
  refine ⟨?_, rfl⟩
  rw [volume_spec hb.valid, prod_filter]

open MeasureTheory in
/-- C30: in full dimension the volume is the Lebesgue measure of the box -/
theorem C30_lebesgue (n : Nat) (lower upper : Vec ℝ) (h : ∀ i, i < n → lower i < upper i) :
    ENNReal.ofReal (ofCorners n lower upper).volume = volume (Set.Icc (vec n lower) (vec n upper)) := by
  have hv := valid_ofCorners n lower upper
  rw [volume_spec hv, Real.volume_Icc_pi, ← ENNReal.ofReal_prod_of_nonneg]
  · congr 1
    change ∏ i ∈ range n, (if decide (i < n) = true then upper i - lower i else 1) = _
    rw [prod_congr rfl (g := fun i => upper i - lower i) fun i hi => by simp [mem_range.1 hi], prod_range]
    rfl
  · intro i _
    have := h i i.2
    simp only [vec]; linarith

/-- C30: every method agrees with the AffineGeometry of the cube with the same origin and Jacobian -/
theorem C30_affine (g : AxisAlignedCubeGeometry) (hb : Built g) (ho : Ordered g) :
    ∃ a : AffineGeometry,
      AffineGeometry.ofJacobian g.dim g.coorddim (2 ^ g.dim - 1) g.lower g.jacobianTransposed = some a ∧
      (∀ x : Vec ℝ, vec g.coorddim (g.global x) = vec g.coorddim (a.global x)) ∧
      (∀ y : Vec ℝ, vec g.dim (g.local_ y) = vec g.dim (a.local_ y)) ∧
      mat g.coorddim g.dim g.jacobianInverseTransposed = mat g.coorddim g.dim a.jacobianInverseTransposed ∧
      mat g.coorddim g.dim g.jacobian = mat g.coorddim g.dim a.jacobian ∧
      mat g.dim g.coorddim g.jacobianInverse = mat g.dim g.coorddim a.jacobianInverse ∧
      g.integrationElement = a.integrationElement ∧
      g.volume = a.volume ∧
      g.corners = a.corners ∧
      (∀ k, k < g.corners → ∃ c, a.corner k = some c ∧ vec g.coorddim (g.corner k) = vec g.coorddim c) ∧
      ∃ c, a.center = some c ∧ vec g.coorddim g.center = vec g.coorddim c := by
  have hv := hb.valid
  obtain ⟨ax, hinj, hax1, hax⟩ := axes_enum hv
  set w : Fin g.dim → ℝ := fun r => g.upper (ax r) - g.lower (ax r) with hw
  have hwpos : ∀ r, 0 < w r := fun r => by
    have := ho _ (ax r).2 (hax1 r).1
    simp only [hw]; linarith
  set A := mat g.dim g.coorddim g.jacobianTransposed with hA
  have hAe : ∀ (r : Fin g.dim) (c : Fin g.coorddim), A r c = if c = ax r then w r else 0 := by
    intro r c
    rw [hA, mat_apply, jt_spec hv r c c.2]
    have h1 := hax c r c.2
    by_cases hc : c = ax r
    · rw [if_pos hc, if_pos (h1.1 (by rw [hc])), hc]
    · rw [if_neg hc, if_neg (fun h => hc (Fin.ext (h1.2 h)))]
  have hAAT : A * Aᵀ = diagonal fun r => w r * w r := by
    funext r s
    rw [mul_apply, diagonal_apply]
    simp only [transpose_apply, hAe]
    by_cases hrs : r = s
    · subst hrs; simp
    · rw [if_neg hrs]
      apply sum_eq_zero
      intro c _
      by_cases hc : c = ax r
      · have : c ≠ ax s := fun h => hrs (hinj (hc.symm.trans h))
        rw [if_neg this, mul_zero]
      · rw [if_neg hc, zero_mul]
  have hli : LinearIndependent ℝ A.row := by
    rw [← aat_posDef_iff, hAAT]
    exact PosDef.diagonal fun r => mul_pos (hwpos r) (hwpos r)
  have hle : g.dim ≤ g.coorddim := by
    have := count_le g.axes g.coorddim
    rwa [hv.count] at this
  obtain ⟨a, ha, h1, h2, h3, h4, h5, hgood⟩ := ofJacobian_eq (id := 2 ^ g.dim - 1) (o := g.lower) hle hli
  have hglobal : ∀ x : Vec ℝ, vec g.coorddim (g.global x) = vec g.coorddim (a.global x) := by
    intro x
    funext i
    rw [vec, vec, C28_global _ _ _ _ _ hle a ha x i, global_spec hv x i i.2]
    congr 1
    by_cases hi : g.axes i = true
    · have hr := count_lt g.axes i.2 hi
      rw [hv.count] at hr
      rw [if_pos hi, sum_eq_single (count g.axes i)]
      · rw [jt_spec hv _ _ i.2, if_pos ⟨hi, rfl⟩, mul_comm]
      · intro r _ hne
        rw [jt_spec hv _ _ i.2, if_neg (fun h => hne h.2.symm), zero_mul]
      · intro h; exact absurd (mem_range.2 hr) h
    · rw [if_neg hi]
      symm
      apply sum_eq_zero
      intro r _
      rw [jt_spec hv _ _ i.2, if_neg (fun h => hi h.1), zero_mul]
  have hjit : mat g.coorddim g.dim g.jacobianInverseTransposed = mat g.coorddim g.dim a.jacobianInverseTransposed := by
    have hi := hgood.inv
    change _ = mat g.coorddim g.dim a.jit
    rw [h1, h2, h5] at hi
    refine Eq.trans ?_ hi.symm
    change _ = Aᵀ * (A * Aᵀ)⁻¹
    have hinv : (A * Aᵀ)⁻¹ = diagonal fun r => (w r * w r)⁻¹ := by
      apply inv_eq_left_inv
      rw [hAAT, diagonal_mul_diagonal, ← diagonal_one]
      congr 1
      funext r
      exact inv_mul_cancel₀ (mul_pos (hwpos r) (hwpos r)).ne'
    rw [hinv]
    funext c r
    rw [mul_diagonal, transpose_apply, hAe, mat_apply, jit_spec hv r c c.2]
    have h1 := hax c r c.2
    by_cases hc : c = ax r
    · rw [if_pos hc, if_pos (h1.1 (by rw [hc])), hc]
      change 1 / w r = _
      have := (hwpos r).ne'
      field_simp
    · rw [if_neg hc, if_neg (fun h => hc (Fin.ext (h1.2 h))), zero_mul]
  have hlocal : ∀ y : Vec ℝ, vec g.dim (g.local_ y) = vec g.dim (a.local_ y) := by
    intro y
    have he := local_eq a y
    rw [h1, h2, h4] at he
    have hj : mat g.coorddim g.dim a.jit = mat g.coorddim g.dim g.jacobianInverseTransposed := hjit.symm
    rw [he, hj]
    funext r
    rw [mulVec, dotProduct, sum_eq_single (ax r)]
    · have h6 := local_spec hv y (ax r) (ax r).2 (hax1 r).1
      rw [(hax1 r).2] at h6
      rw [vec, h6, transpose_apply, mat_apply, jit_spec hv r _ (ax r).2, if_pos (hax1 r)]
      simp only [Pi.sub_apply, vec]
      rw [one_div, div_eq_inv_mul]
    · intro c _ hne
      rw [transpose_apply, mat_apply, jit_spec hv r c c.2,
        if_neg (fun h => hne (Fin.ext ((hax c r c.2).2 h))), zero_mul]
    · intro h; exact absurd (mem_univ _) h
  have hie : g.integrationElement = a.integrationElement := by
    have hd := hgood.det
    rw [h1, h2, h5] at hd
    rw [hd]
    change _ = Real.sqrt (A * Aᵀ).det
    rw [hAAT, det_diagonal, prod_mul_distrib, Real.sqrt_mul_self (prod_nonneg fun r _ => (hwpos r).le)]
    rw [AxisAlignedCubeGeometry.integrationElement, volume_spec hv, prod_axes hv _ ax hinj hax]
  have hcorners : g.corners = a.corners := by
    rw [AxisAlignedCubeGeometry.corners, AffineGeometry.corners, h1, h3, refSize_cube, Nat.one_shiftLeft]
  have hidlt : 2 ^ g.dim - 1 < 2 ^ g.dim := by have := Nat.two_pow_pos g.dim; omega
  obtain ⟨-, hc1, b, hc2, hc3⟩ := C28_corner_center _ _ _ _ _ hle hidlt a ha
  refine ⟨a, ha, hglobal, hlocal, hjit, ?_, ?_, hie, ?_, hcorners, ?_, ?_⟩
  · funext c r
    simp only [mat, AxisAlignedCubeGeometry.jacobian, AffineGeometry.jacobian, h5]
  · funext r c
    exact congrFun (congrFun hjit c) r
  · have hv1 : referenceVolume (K := ℝ) a.mydim a.id = 1 := by
      rw [h1, h3, referenceVolume, volumeInverse_cube]; norm_num
    rw [AffineGeometry.volume, hv1, mul_one]
    exact hie
  · intro k hk
    refine ⟨_, hc1 k (by rw [← hcorners]; exact hk), ?_⟩
    rw [← hglobal]
    rw [AxisAlignedCubeGeometry.corners, Nat.one_shiftLeft] at hk
    funext i
    rw [vec, vec, corner_spec hv k i i.2, global_spec hv _ i i.2, corner_cube _ _ _ hk]
    congr 2
    split <;> simp
  · refine ⟨_, hc2, ?_⟩
    rw [← hglobal]
    funext i
    rw [vec, vec, center_spec hv i i.2, global_spec hv _ i i.2]
    congr 1
    by_cases hi : g.axes i = true
    · rw [if_pos hi, if_pos hi]
      have hr := count_lt g.axes i.2 hi
      rw [hv.count] at hr
      have h6 := hc3 (count g.axes i)
      have h7 := sum_bits g.dim _ hr
      have h8 : a.corners = 2 ^ g.dim := by rw [← hcorners, AxisAlignedCubeGeometry.corners, Nat.one_shiftLeft]
      rw [h8, sum_congr rfl fun k hk => corner_cube g.dim k (count g.axes i) (mem_range.1 hk)] at h6
      have h9 : (0 : ℝ) < 2 ^ g.dim := by positivity
      push_cast at h6
      have : b (count g.axes i) = 1 / 2 := by
        have : (2 : ℝ) ^ g.dim * (2 * b (count g.axes i)) = 2 ^ g.dim * 1 := by linarith
        have := mul_left_cancel₀ h9.ne' this
        linarith
      rw [this]; ring
    · rw [if_neg hi, if_neg hi]

/-- the Jacobian has the edge lengths on the axes and zeros elsewhere: the derivative of `global` -/
theorem C30_derivative (g : AxisAlignedCubeGeometry) (hb : Built g) (x y : Vec ℝ) (i : Nat) (hi : i < g.coorddim) :
    g.global y i - g.global x i = ∑ r ∈ range g.dim, g.jacobian i r * (y r - x r) := by
  have hv := hb.valid
  rw [global_spec hv _ i hi, global_spec hv _ i hi]
  simp only [AxisAlignedCubeGeometry.jacobian]
  by_cases ha : g.axes i = true
  · have hr := count_lt g.axes hi ha
    rw [hv.count] at hr
    rw [if_pos ha, if_pos ha, sum_eq_single (count g.axes i)]
    · rw [jt_spec hv _ _ hi, if_pos ⟨ha, rfl⟩]; ring
    · intro r _ hne
      rw [jt_spec hv _ _ hi, if_neg (fun h => hne h.2.symm), zero_mul]
    · intro h; exact absurd (mem_range.2 hr) h
  · rw [if_neg ha, if_neg ha, sum_eq_zero fun r _ => by rw [jt_spec hv _ _ hi, if_neg (fun h => ha h.1), zero_mul]]
    ring

/-- C30: the constructor from axes demands exactly `dim` axes, keeps both corners on the axes and ignores `upper` on
the others -/
theorem C30_construct (dim cd : Nat) (lower upper : Vec ℝ) (axes : Nat → Bool) :
    ((∃ g, ofAxes dim cd lower upper axes = some g) ↔ ((range cd).filter fun i => axes i = true).card = dim) ∧
    ∀ g, ofAxes dim cd lower upper axes = some g →
      g.dim = dim ∧ g.coorddim = cd ∧ ∀ i, i < cd → g.axes i = axes i ∧ g.lower i = lower i ∧
        g.upper i = if axes i then upper i else lower i := by
  have hcard : ∀ n, ((range n).filter fun i => axes i = true).card = count axes n := by
    intro n
    induction n with
    | zero => rfl
    | succ n ih =>
      rw [range_add_one, filter_insert, count_succ]
      by_cases ha : axes n = true
      · rw [if_pos ha, card_insert_of_notMem (by simp), ih, if_pos ha]
      · rw [if_neg ha, ih, if_neg ha, add_zero]
  refine ⟨?_, fun g hg => ?_⟩
  · rw [hcard]
    unfold ofAxes
    by_cases h : count axes cd = dim <;> simp [h]
  · obtain ⟨-, h1, h2, h3, h4, h5⟩ := valid_ofAxes hg
    refine ⟨h1, h2, fun i hi => ⟨by rw [h4], by rw [h3], ?_⟩⟩
    by_cases ha : axes i = true
    · rw [if_pos ha, h5 i ha]
    · rw [if_neg ha]
      unfold ofAxes at hg
      split at hg
      · have := Option.some.inj hg
        rw [← this]
        exact (fold_upper axes lower upper cd i).trans (if_pos ⟨hi, by simpa using ha⟩)
      · simp at hg

-- a two-dimensional face (axes 0 and 2) of a box in three dimensions
example : ∃ g, ofAxes 2 3 (fun _ => 0) (fun i => i + 1) (fun i => i != 1) = some g ∧ Built g ∧ Ordered g := by
  have hc : count (fun i => i != 1) 3 = 2 := by decide
  have h : ∃ g, ofAxes 2 3 (fun _ => 0) (fun i => (i : ℝ) + 1) (fun i => i != 1) = some g := by
    unfold ofAxes; rw [if_pos hc]; exact ⟨_, rfl⟩
  obtain ⟨g, hg⟩ := h
  refine ⟨g, hg, .axes _ _ _ _ _ g hg, fun i hi ha => ?_⟩
  obtain ⟨-, -, -, h3, h4, h5⟩ := valid_ofAxes hg
  have ha' : (i != 1) = true := by rw [h4] at ha; exact ha
  rw [h3, h5 i ha']
  positivity

/-- C30: the zero dimensional geometry is its point -/
theorem C30_point (cd : Nat) (p : Vec ℝ) (i : Nat) (hi : i < cd) (x : Vec ℝ) (k : Nat) :
    (ofPoint cd p).dim = 0 ∧ (ofPoint cd p).coorddim = cd ∧ (ofPoint cd p).global x i = p i ∧
    (ofPoint cd p).center i = p i ∧ (ofPoint cd p).corner k i = p i ∧ (ofPoint cd p).corners = 1 ∧
    (ofPoint cd p).volume = 1 := by
  have h : ¬ (0 = cd) := by omega
  have hd : (ofPoint cd p).dim = 0 := rfl
  have hc : (ofPoint cd p).coorddim = cd := rfl
  have hl : (ofPoint cd p).lower = p := rfl
  refine ⟨rfl, rfl, ?_, ?_, ?_, rfl, ?_⟩
  · rw [AxisAlignedCubeGeometry.global, hd, hc, if_neg h, if_pos rfl, hl]
  · rw [AxisAlignedCubeGeometry.center, hd, if_pos rfl, hl]
  · rw [AxisAlignedCubeGeometry.corner, hd, hc, if_neg h, if_pos rfl, hl]
  · rw [AxisAlignedCubeGeometry.volume, hd, hc, if_neg h, if_neg (by simp)]

/-- nothing checks the order of the bounds: reversed bounds give a negative volume and integration element -/
theorem C30_reversed_counterexample :
    (ofCorners 1 (fun _ => 1) (fun _ => 0)).volume < 0 ∧
    (ofCorners 1 (fun _ => 1) (fun _ => 0)).integrationElement < 0 := by
  have : (ofCorners 1 (fun _ => 1) (fun _ => 0)).volume = -1 := by
    rw [volume_spec (valid_ofCorners _ _ _)]
    simp [ofCorners]
  rw [AxisAlignedCubeGeometry.integrationElement, this]; norm_num

end Verif.Cube
