import Verif.Quad.Image
import Verif.Affine.Props
import Verif.MultiLinear.Props
import Verif.Mapped.Props
import Verif.Lfe.Props

/-! Property theorems: integrals and the divergence theorem on mapped elements (C72).

`refSet` is the reference element, `facetIntegral` the integral over the reference element of a facet, `normal` the
integration outer normal, `partialDeriv` the partial derivative. -/

namespace Verif.Quad

open Verif.Typ Verif.RefTopo Verif.RefGeom Verif.MatHelp Verif.Affine Verif.MultiLinear MeasureTheory
open Matrix hiding vec ext
open Finset hiding ext

theorem sqrt_det_square {m : Nat} (A : Matrix (Fin m) (Fin m) ℝ) : Real.sqrt (A * Aᵀ).det = |Aᵀ.det| := by
  rw [det_mul, det_transpose, Real.sqrt_mul_self_eq_abs]

/-! ### AffineGeometry -/

/-- the map of an affine geometry of full dimension -/
noncomputable def affineMap (m : Nat) (g : AffineGeometry) (x : Fin m → ℝ) : Fin m → ℝ := vec m (g.global (ext x))

theorem vec_ext {m : Nat} (x : Fin m → ℝ) : vec m (ext x) = x := by
  funext i; simp [vec, ext]

theorem affineMap_eq {g : AffineGeometry} (h : g.cdim = g.mydim) (x : Fin g.mydim → ℝ) :
    affineMap g.mydim g x = vec g.mydim g.origin + (mat g.mydim g.mydim g.jt)ᵀ *ᵥ x := by
  have := Affine.global_eq g (ext x)
  rw [h, vec_ext] at this
  exact this

theorem affineMap_hasFDerivAt {g : AffineGeometry} (h : g.cdim = g.mydim) (x : Fin g.mydim → ℝ) :
    HasFDerivAt (affineMap g.mydim g) (Matrix.toLin' (mat g.mydim g.mydim g.jt)ᵀ).toContinuousLinearMap x := by
  have e : affineMap g.mydim g = fun x => vec g.mydim g.origin +
      (Matrix.toLin' (mat g.mydim g.mydim g.jt)ᵀ).toContinuousLinearMap x := by
    funext x; rw [affineMap_eq h]; rfl
  rw [e]
  exact (ContinuousLinearMap.hasFDerivAt _).const_add _

theorem affineMap_contDiff {g : AffineGeometry} (h : g.cdim = g.mydim) : ContDiff ℝ 2 (affineMap g.mydim g) := by
  have e : affineMap g.mydim g = fun x => vec g.mydim g.origin +
      (Matrix.toLin' (mat g.mydim g.mydim g.jt)ᵀ).toContinuousLinearMap x := by
    funext x; rw [affineMap_eq h]; rfl
  rw [e]
  exact contDiff_const.add (ContinuousLinearMap.contDiff _)

/-- C72: integrals over the image of the reference element are integrals over the reference element with the integration
element as factor. -/
theorem C72_affine_integral (m id : Nat) (o : Vec ℝ) (jt : Mat ℝ) (g : AffineGeometry)
    (hg : AffineGeometry.ofJacobian m m id o jt = some g) (f : (Fin m → ℝ) → ℝ) :
    ∫ y in affineMap m g '' refSet m id, f y = ∫ x in refSet m id, f (affineMap m g x) * g.integrationElement := by
  have hl := C28_local_global m m id o jt (le_refl m) g hg
  obtain ⟨rfl, hc, rfl, rfl, rfl, h⟩ := ofJacobian_good (le_refl m) hg
  have hdet := h.det
  rw [hc, sqrt_det_square] at hdet
  rw [integral_image (affineMap_hasFDerivAt hc), hdet]
  intro x _ y _ hxy
  have := hl (ext x)
  rw [← vec_ext x, ← hl (ext x), ← vec_ext y, ← hl (ext y), Affine.local_eq, Affine.local_eq]
  congr 2
  rw [hc]
  exact hxy

/-- C72: the divergence theorem on the image, with the normals `jacobianInverseTransposed * normal * integrationElement`. -/
theorem C72_affine_divergence (m id : Nat) (o : Vec ℝ) (jt : Mat ℝ) (g : AffineGeometry)
    (hg : AffineGeometry.ofJacobian m m id o jt = some g) (h0 : 0 < m) (hm : m ≤ 31) (hid : id < 2 ^ m)
    (u : (Fin m → ℝ) → ℝ) (hu : ContDiff ℝ 1 u) (k : Fin m) :
    ∫ y in affineMap m g '' refSet m id, partialDeriv u k y =
      ((List.range (refSize m id 1)).map fun i => facetIntegral m id i fun x => u (affineMap m g x) *
        ((mat m m g.jacobianInverseTransposed *ᵥ fun j => normal m id i j) k * g.integrationElement)).sum := by
  have hl := C28_local_global m m id o jt (le_refl m) g hg
  obtain ⟨rfl, hc, rfl, rfl, rfl, h⟩ := ofJacobian_good (le_refl m) hg
  have hdet := h.det
  rw [hc, sqrt_det_square] at hdet
  have hinv := h.right_inv
  rw [hc] at hinv
  have hne : (mat g.mydim g.mydim g.jt)ᵀ.det ≠ 0 := by
    rw [det_transpose]
    intro h0
    have := congrArg det hinv
    rw [det_mul, h0, zero_mul, det_one] at this
    exact zero_ne_one this
  rw [divergence_image h0 hm hid hu (affineMap_contDiff hc) (affineMap_hasFDerivAt hc) _ (fun _ _ => hne)]
  · rw [hdet, ← transpose_nonsing_inv, transpose_transpose, inv_eq_right_inv hinv]
    rfl
  · intro x _ y _ hxy
    rw [← vec_ext x, ← hl (ext x), ← vec_ext y, ← hl (ext y), Affine.local_eq, Affine.local_eq]
    congr 2
    rw [hc]
    exact hxy

/-! ### MultiLinearGeometry on cubes -/

/-- the map of a multilinear geometry of full dimension -/
noncomputable def multiLinearMap (g : MultiLinearGeometry) (x : Fin g.mydim → ℝ) : Fin g.mydim → ℝ :=
  vec g.mydim (g.global (ext x))

theorem multiLinearMap_contDiff {g : MultiLinearGeometry} (hg : Legal g) (hc : IsCubeId g.mydim g.id) :
    ContDiff ℝ 2 (multiLinearMap g) := by
  refine contDiff_pi.2 fun j => ?_
  have e : (fun x => multiLinearMap g x j) = fun x : Fin g.mydim → ℝ => ∑ k ∈ range (2 ^ g.mydim),
      (∏ r ∈ range g.mydim, if k.testBit r then ext x r else 1 - ext x r) * g.corners_ k j := by
    funext x; exact C31_cube_formula g hg hc (ext x) j
  rw [e]
  have hx : ∀ r, ContDiff ℝ 2 fun x : Fin g.mydim → ℝ => ext x r := by
    intro r
    by_cases h : r < g.mydim
    · simp only [ext, h, dif_pos]; exact contDiff_apply ℝ ℝ _
    · simp only [ext, h, dif_neg, not_false_eq_true]; exact contDiff_const
  refine ContDiff.sum fun k _ => ContDiff.mul (contDiff_prod fun r _ => ?_) contDiff_const
  by_cases hb : k.testBit r = true
  · simp only [hb, if_pos]; exact hx r
  · simp only [hb]; exact contDiff_const.sub (hx r)

theorem multiLinearMap_hasFDerivAt {g : MultiLinearGeometry} (hg : Legal g) (hc : IsCubeId g.mydim g.id)
    (hd : g.cdim = g.mydim) (x : Fin g.mydim → ℝ) :
    HasFDerivAt (multiLinearMap g)
      (Matrix.toLin' (mat g.mydim g.mydim (g.jacobianTransposed (ext x)))ᵀ).toContinuousLinearMap x := by
  have := C32_derivative_cube g hg hc x
  rw [hd] at this
  exact this

/-- C72: integrals over the image of a cube under a multilinear geometry that is injective on it; `ie x` is the value of
`integrationElement(x)`. -/
theorem C72_multilinear_integral (g : MultiLinearGeometry) (hg : Legal g) (hc : IsCubeId g.mydim g.id)
    (hd : g.cdim = g.mydim) (hinj : Set.InjOn (multiLinearMap g) (refSet g.mydim g.id))
    (hjit : ∀ x ∈ refSet g.mydim g.id, (g.jacobianInverseTransposed (ext x)).isSome)
    (ie : (Fin g.mydim → ℝ) → ℝ) (hie : ∀ x ∈ refSet g.mydim g.id, g.integrationElement (ext x) = some (ie x))
    (f : (Fin g.mydim → ℝ) → ℝ) :
    ∫ y in multiLinearMap g '' refSet g.mydim g.id, f y =
      ∫ x in refSet g.mydim g.id, f (multiLinearMap g x) * ie x := by
  rw [integral_image (multiLinearMap_hasFDerivAt hg hc hd) hinj]
  refine setIntegral_congr_fun (measurableSet_refSet _ _) fun x hx => ?_
  have hli : LinearIndependent ℝ (mat g.mydim g.mydim (g.jacobianTransposed (ext x))).row := by
    by_contra hn
    have := hjit x hx
    rw [MultiLinearGeometry.jacobianInverseTransposed, hd, C26_rightInvA_singular _ _ _ (le_refl _) hn] at this
    simp at this
  have h := hie x hx
  rw [MultiLinearGeometry.integrationElement, hd, C27_sqrtDetAAT_partial _ _ _ (Or.inl hli), sqrt_det_square] at h
  rw [← Option.some.inj h]

/-- C72: the divergence theorem on the image of a cube under a multilinear geometry; `jit x` and `ie x` are the values of
`jacobianInverseTransposed(x)` and `integrationElement(x)`. -/
theorem C72_multilinear_divergence (g : MultiLinearGeometry) (hg : Legal g) (hc : IsCubeId g.mydim g.id)
    (hd : g.cdim = g.mydim) (h0 : 0 < g.mydim) (hm : g.mydim ≤ 31)
    (hinj : Set.InjOn (multiLinearMap g) (refSet g.mydim g.id))
    (jit : (Fin g.mydim → ℝ) → ℝ × Mat ℝ) (hjit : ∀ x ∈ refSet g.mydim g.id, g.jacobianInverseTransposed (ext x) = some (jit x))
    (ie : (Fin g.mydim → ℝ) → ℝ) (hie : ∀ x ∈ refSet g.mydim g.id, g.integrationElement (ext x) = some (ie x))
    (u : (Fin g.mydim → ℝ) → ℝ) (hu : ContDiff ℝ 1 u) (k : Fin g.mydim) :
    ∫ y in multiLinearMap g '' refSet g.mydim g.id, partialDeriv u k y =
      ((List.range (refSize g.mydim g.id 1)).map fun i => facetIntegral g.mydim g.id i fun x => u (multiLinearMap g x) *
        ((mat g.mydim g.mydim (jit x).2 *ᵥ fun j => normal g.mydim g.id i j) k * ie x)).sum := by
  have hli : ∀ x ∈ refSet g.mydim g.id, LinearIndependent ℝ (mat g.mydim g.mydim (g.jacobianTransposed (ext x))).row := by
    intro x hx
    by_contra hn
    have := hjit x hx
    rw [MultiLinearGeometry.jacobianInverseTransposed, hd, C26_rightInvA_singular _ _ _ (le_refl _) hn] at this
    simp at this
  have hinv : ∀ x ∈ refSet g.mydim g.id,
      mat g.mydim g.mydim (g.jacobianTransposed (ext x)) * mat g.mydim g.mydim (jit x).2 = 1 := by
    intro x hx
    obtain ⟨R, h1, h2, _⟩ := C26_rightInvA _ _ _ (le_refl _) (hli x hx)
    have := hjit x hx
    rw [MultiLinearGeometry.jacobianInverseTransposed, hd, h1] at this
    rw [← Option.some.inj this]
    exact h2
  rw [divergence_image h0 hm hg.id_lt hu (multiLinearMap_contDiff hg hc) (multiLinearMap_hasFDerivAt hg hc hd) hinj]
  · congr 1
    refine List.map_congr_left fun i hi => ?_
    refine facetIntegral_congr h0 hm hg.id_lt (List.mem_range.1 hi) fun x hx => ?_
    have h := hie x hx
    rw [MultiLinearGeometry.integrationElement, hd, C27_sqrtDetAAT_partial _ _ _ (Or.inl (hli x hx)), sqrt_det_square] at h
    rw [← Option.some.inj h, ← transpose_nonsing_inv, transpose_transpose, inv_eq_right_inv (hinv x hx)]
  · intro x hx
    rw [det_transpose]
    intro h0
    have := congrArg det (hinv x hx)
    rw [det_mul, h0, zero_mul, det_one] at this
    exact zero_ne_one this

/-! ### MappedGeometry -/

theorem li_of_det {m : Nat} {A : Matrix (Fin m) (Fin m) ℝ} (h : A.det ≠ 0) : LinearIndependent ℝ A.col :=
  Matrix.linearIndependent_cols_iff_isUnit.2 ((isUnit_iff_isUnit_det _).2 (isUnit_iff_ne_zero.2 h))

theorem sqrt_det_square' {m : Nat} (A : Matrix (Fin m) (Fin m) ℝ) : Real.sqrt (Aᵀ * A).det = |A.det| := by
  rw [det_mul, det_transpose, Real.sqrt_mul_self_eq_abs]

/-- C72: the two formulas for a mapped geometry of full dimension over any reference element, for mappings that are twice
continuously differentiable, injective and regular; `jit x` and `ie x` are the values of `jacobianInverseTransposed(x)` and
`integrationElement(x)`. -/
theorem C72_mapped {m id : Nat} (g : Mapped.MappedGeometry m m m)
    (h2 : ContDiff ℝ 2 g.global) (hJ : ∀ x, HasFDerivAt g.global (Mapped.lin m m (g.jacobian x)) x)
    (hinj : Set.InjOn g.global (refSet m id)) (hreg : ∀ x ∈ refSet m id, (mat m m (g.jacobian x)).det ≠ 0) :
    ∃ (ie : (Fin m → ℝ) → ℝ) (jit : (Fin m → ℝ) → Mat ℝ),
      (∀ x ∈ refSet m id, g.integrationElement x = some (ie x) ∧ g.jacobianInverseTransposed x = some (jit x)) ∧
      (∀ f : (Fin m → ℝ) → ℝ, ∫ y in g.global '' refSet m id, f y = ∫ x in refSet m id, f (g.global x) * ie x) ∧
      (0 < m → m ≤ 31 → id < 2 ^ m → ∀ (u : (Fin m → ℝ) → ℝ) (k : Fin m), ContDiff ℝ 1 u →
        ∫ y in g.global '' refSet m id, partialDeriv u k y =
          ((List.range (refSize m id 1)).map fun i => facetIntegral m id i fun x => u (g.global x) *
            ((mat m m (jit x) *ᵥ fun j => normal m id i j) k * ie x)).sum) := by
  have hinv := fun x hx => Mapped.C37_inverse g x (li_of_det (hreg x hx))
  have hC : ∀ x ∈ refSet m id, (mat m m ((g.jacobianInverseTransposed x).getD fun _ _ => 0)) = (mat m m (g.jacobian x))⁻¹ᵀ := by
    intro x hx
    obtain ⟨⟨B, _, hB, C, hC, hCB⟩, _⟩ := hinv x hx
    rw [hC, Option.getD_some, hCB, inv_eq_left_inv hB]
  refine ⟨fun x => |(mat m m (g.jacobian x)).det|, fun x => (g.jacobianInverseTransposed x).getD fun _ _ => 0,
    fun x hx => ?_, fun f => integral_image hJ hinj f, fun h0 hm hid u k hu => ?_⟩
  · obtain ⟨⟨B, _, hB, C, hC, hCB⟩, h⟩ := hinv x hx
    exact ⟨by rw [h, sqrt_det_square'], by dsimp only; rw [hC]; rfl⟩
  · rw [divergence_image h0 hm hid hu h2 hJ hinj hreg]
    congr 1
    refine List.map_congr_left fun i hi => ?_
    exact facetIntegral_congr h0 hm hid (List.mem_range.1 hi) fun x hx => by rw [hC x hx]

/-! ### LocalFiniteElementGeometry -/

/-- C72: the same for a geometry parametrised by a local finite element with twice continuously differentiable basis. -/
theorem C72_localFE {m N id : Nat} (g : Lfe.LFEGeometry m m) (ψ : Fin N → (Fin m → ℝ) → ℝ)
    (dψ : Fin N → (Fin m → ℝ) → Fin m → ℝ) (he : Lfe.Evaluates g.localFE ψ dψ) (v : Fin N → Fin m → ℝ)
    (hv : g.vertices = List.ofFn v) (hd : ∀ i x, HasFDerivAt (ψ i) (Lfe.dotL (dψ i x)) x) (h2 : ∀ i, ContDiff ℝ 2 (ψ i))
    (hinj : Set.InjOn (fun x => ∑ i, ψ i x • v i) (refSet m id))
    (hreg : ∀ x ∈ refSet m id, ∀ J, g.jacobian x = some J → (mat m m J).det ≠ 0) :
    ∃ (ie : (Fin m → ℝ) → ℝ) (jit : (Fin m → ℝ) → Mat ℝ) (G : (Fin m → ℝ) → Fin m → ℝ), (∀ x, g.global x = some (G x)) ∧
      (∀ x ∈ refSet m id, g.integrationElement x = some (ie x) ∧ g.jacobianInverseTransposed x = some (jit x)) ∧
      (∀ f : (Fin m → ℝ) → ℝ, ∫ y in G '' refSet m id, f y = ∫ x in refSet m id, f (G x) * ie x) ∧
      (0 < m → m ≤ 31 → id < 2 ^ m → ∀ (u : (Fin m → ℝ) → ℝ) (k : Fin m), ContDiff ℝ 1 u →
        ∫ y in G '' refSet m id, partialDeriv u k y =
          ((List.range (refSize m id 1)).map fun i => facetIntegral m id i fun x => u (G x) *
            ((mat m m (jit x) *ᵥ fun j => normal m id i j) k * ie x)).sum) := by
  have hder := fun x => Lfe.C38_derivative g he v hv x fun i => hd i x
  choose J hJ1 hJ2 _ using hder
  have hreg' : ∀ x ∈ refSet m id, (mat m m (J x)).det ≠ 0 := fun x hx => hreg x hx _ (hJ1 x)
  have hinv := fun x hx => Lfe.C38_inverse g x (J x) (hJ1 x) (li_of_det (hreg' x hx))
  have hC : ∀ x ∈ refSet m id, (mat m m ((g.jacobianInverseTransposed x).getD fun _ _ => 0)) = (mat m m (J x))⁻¹ᵀ := by
    intro x hx
    obtain ⟨⟨B, _, hB, C, hC, hCB⟩, _⟩ := hinv x hx
    rw [hC, Option.getD_some, hCB, inv_eq_left_inv hB]
  refine ⟨fun x => |(mat m m (J x)).det|, fun x => (g.jacobianInverseTransposed x).getD fun _ _ => 0,
    fun x => ∑ i, ψ i x • v i, fun x => Lfe.C38_global g he v hv x,
    fun x hx => ?_, fun f => integral_image hJ2 hinj f, fun h0 hm hid u k hu => ?_⟩
  · obtain ⟨⟨B, _, hB, C, hC, hCB⟩, h⟩ := hinv x hx
    exact ⟨by rw [h, sqrt_det_square'], by dsimp only; rw [hC]; rfl⟩
  · have hG : ContDiff ℝ 2 fun x => ∑ i, ψ i x • v i := ContDiff.sum fun i _ => (h2 i).smul contDiff_const
    rw [divergence_image h0 hm hid hu hG hJ2 hinj hreg']
    congr 1
    refine List.map_congr_left fun i hi => ?_
    exact facetIntegral_congr h0 hm hid (List.mem_range.1 hi) fun x hx => by rw [hC x hx]

/-! ### Examples -/

-- the triangle with corners (0,0), (2,0), (1,1)
example : (∃ g, AffineGeometry.ofJacobian 2 2 0 (fun _ => 0) (fun i j => if i = 0 then (if j = 0 then 2 else 0) else 1) = some g) ∧
    (0:Nat) < 2 ∧ 2 ≤ 31 ∧ 0 < 2 ^ 2 := by
  refine ⟨(C28_constructible 2 2 0 _ _ (by norm_num)).2 ?_, by norm_num, by norm_num, by norm_num⟩
  have : mat 2 2 (fun i j => if i = 0 then (if j = 0 then (2:ℝ) else 0) else 1) = !![2, 0; 1, 1] := by
    refine Matrix.ext fun i j => ?_
    fin_cases i <;> fin_cases j <;> simp [mat]
  rw [this]
  refine linearIndependent_rows_of_isUnit ((isUnit_iff_isUnit_det _).2 ?_)
  rw [det_fin_two_of]
  norm_num

/-- the trapezoid with corners (0,0), (1,0), (0,1), (2,1) -/
noncomputable def trapezoid : MultiLinearGeometry where
  mydim := 2
  cdim := 2
  id := 3
  corners_ := fun k j => if j = 0 then (if k = 1 then 1 else if k = 3 then 2 else 0) else if k = 2 ∨ k = 3 then 1 else 0
  tol := 1 / 1000

theorem trapezoid_legal : Legal trapezoid := by
  constructor <;> norm_num [trapezoid]

theorem trapezoid_cube : IsCubeId trapezoid.mydim trapezoid.id := by
  intro k h1 h2
  change k < 2 at h2
  interval_cases k
  rfl

theorem trapezoid_map (x : Fin 2 → ℝ) :
    trapezoid.global (ext x) 0 = x 0 * (1 + x 1) ∧ trapezoid.global (ext x) 1 = x 1 := by
  have h0 : ext x 0 = x 0 := by simp [ext]
  have h1 : ext x 1 = x 1 := by simp [ext]
  have t : ∀ k r : ℕ, Nat.testBit k r = decide (k / 2 ^ r % 2 = 1) := fun k r => by
    rw [Nat.testBit_eq_decide_div_mod_eq]
  have key : ∀ j, trapezoid.global (ext x) j = ∑ k ∈ range 4, (∏ r ∈ range 2, if k.testBit r then ext x r else 1 - ext x r) *
      trapezoid.corners_ k j := fun j => C31_cube_formula trapezoid trapezoid_legal trapezoid_cube (ext x) j
  constructor
  · rw [key]
    simp [Finset.sum_range_succ, Finset.prod_range_succ, h0, h1, t, trapezoid]; ring
  · rw [key]
    simp [Finset.sum_range_succ, Finset.prod_range_succ, h0, h1, t, trapezoid]; ring

/-- the trapezoid meets the hypotheses -/
theorem trapezoid_hyps : ∃ (jit : (Fin trapezoid.mydim → ℝ) → ℝ × Mat ℝ) (ie : (Fin trapezoid.mydim → ℝ) → ℝ), Legal trapezoid ∧ IsCubeId trapezoid.mydim trapezoid.id ∧ trapezoid.cdim = trapezoid.mydim ∧
    0 < trapezoid.mydim ∧ trapezoid.mydim ≤ 31 ∧
    Set.InjOn (multiLinearMap trapezoid) (refSet trapezoid.mydim trapezoid.id) ∧
    (∀ x ∈ refSet trapezoid.mydim trapezoid.id, trapezoid.jacobianInverseTransposed (ext x) = some (jit x)) ∧
    ∀ x ∈ refSet trapezoid.mydim trapezoid.id, trapezoid.integrationElement (ext x) = some (ie x) := by
  have hb : ∀ x ∈ refSet 2 3, 0 ≤ x 1 := fun x hx => (refSet_bounds hx 1).1
  have hJ : ∀ x ∈ refSet 2 3, LinearIndependent ℝ (mat 2 2 (trapezoid.jacobianTransposed (ext x))).row := by
    intro x hx
    have h1 := multiLinearMap_hasFDerivAt trapezoid_legal trapezoid_cube rfl x
    have e := jac_of_hasFDerivAt h1
    have hd : (mat 2 2 (trapezoid.jacobianTransposed (ext x)))ᵀ = !![1 + x 1, x 0; 0, 1] := by
      refine e.symm.trans ?_
      have h0 : HasFDerivAt (fun x : Fin 2 → ℝ => x 0) (ContinuousLinearMap.proj (R := ℝ) (φ := fun _ => ℝ) 0) x :=
        hasFDerivAt_apply 0 x
      have h1 : HasFDerivAt (fun x : Fin 2 → ℝ => x 1) (ContinuousLinearMap.proj (R := ℝ) (φ := fun _ => ℝ) 1) x :=
        hasFDerivAt_apply 1 x
      have e0 : (fun y : Fin 2 → ℝ => multiLinearMap trapezoid y (0 : Fin 2)) = fun y : Fin 2 → ℝ => y 0 * (1 + y 1) :=
        funext fun y => (trapezoid_map y).1
      have e1 : (fun y : Fin 2 → ℝ => multiLinearMap trapezoid y (1 : Fin 2)) = fun y : Fin 2 → ℝ => y 1 :=
        funext fun y => (trapezoid_map y).2
      have hj0 : ∀ l : Fin 2, jac (m := 2) (multiLinearMap trapezoid) x 0 l = x 0 * Pi.single (M := fun _ => ℝ) l 1 1 + (1 + x 1) * Pi.single (M := fun _ => ℝ) l 1 0 := by
        intro l
        change fderiv ℝ (fun y : Fin 2 → ℝ => multiLinearMap trapezoid y (0 : Fin 2)) x (Pi.single l 1) = _
        rw [e0]
        refine (DFunLike.congr_fun (h0.mul (h1.const_add 1)).fderiv _).trans ?_
        rfl
      have hj1 : ∀ l : Fin 2, jac (m := 2) (multiLinearMap trapezoid) x 1 l = Pi.single (M := fun _ => ℝ) l 1 1 := by
        intro l
        change fderiv ℝ (fun y : Fin 2 → ℝ => multiLinearMap trapezoid y (1 : Fin 2)) x (Pi.single l 1) = _
        rw [e1]
        exact DFunLike.congr_fun h1.fderiv _
      refine Matrix.ext fun i l => ?_
      change Fin 2 at i l
      fin_cases i
      · refine (hj0 l).trans ?_
        fin_cases l <;> simp
      · refine (hj1 l).trans ?_
        fin_cases l <;> simp
    have hdet : IsUnit (mat 2 2 (trapezoid.jacobianTransposed (ext x))).det := by
      rw [← det_transpose, hd, det_fin_two_of]
      have := hb x hx
      exact isUnit_iff_ne_zero.2 (by nlinarith)
    exact linearIndependent_rows_of_isUnit ((isUnit_iff_isUnit_det _).2 hdet)
  refine ⟨fun x => (trapezoid.jacobianInverseTransposed (ext x)).getD (0, fun _ _ => 0),
    fun x => (trapezoid.integrationElement (ext x)).getD 0, trapezoid_legal, trapezoid_cube, rfl, by decide, by decide,
    ?_, ?_, ?_⟩
  · intro x hx y _ h
    change Fin 2 → ℝ at x y
    have h0 : x 0 * (1 + x 1) = y 0 * (1 + y 1) :=
      (trapezoid_map x).1.symm.trans ((congrFun h (0 : Fin 2)).trans (trapezoid_map y).1)
    have h1 : x 1 = y 1 := (trapezoid_map x).2.symm.trans ((congrFun h (1 : Fin 2)).trans (trapezoid_map y).2)
    have := hb x hx
    rw [← h1] at h0
    have h0 := mul_right_cancel₀ (by positivity) h0
    funext i
    change Fin 2 at i
    fin_cases i
    · exact h0
    · exact h1
  · intro x hx
    obtain ⟨R, h, _⟩ := C26_rightInvA 2 2 _ (le_refl _) (hJ x hx)
    have : trapezoid.jacobianInverseTransposed (ext x) = _ := h
    dsimp only; rw [this]; rfl
  · intro x hx
    have h : trapezoid.integrationElement (ext x) = _ := C27_sqrtDetAAT_partial 2 2 _ (Or.inl (hJ x hx))
    dsimp only; rw [h]; rfl

-- stretching the reference line
example : ∃ g : Mapped.MappedGeometry 1 1 1, ContDiff ℝ 2 g.global ∧
    (∀ x, HasFDerivAt g.global (Mapped.lin 1 1 (g.jacobian x)) x) ∧ Set.InjOn g.global (refSet 1 0) ∧
    ∀ x ∈ refSet 1 0, (mat 1 1 (g.jacobian x)).det ≠ 0 := by
  have hj : ∀ x, mat 1 1 ((Mapped.MappedGeometry.mk (fun y : Fin 1 → ℝ => 3 • y) (fun _ _ _ => (3:ℝ))
      ⟨2, fun _ => none, none, fun x : Fin 1 → ℝ => x, fun _ _ _ => (1:ℝ), none⟩ false).jacobian x) = !![3] := by
    intro x
    rw [Mapped.jacobian_mat]
    refine Matrix.ext fun i j => ?_
    fin_cases i; fin_cases j
    simp [mat, Matrix.mul_apply]
  refine ⟨⟨fun y => 3 • y, fun _ _ _ => 3, ⟨2, fun _ => none, none, fun x => x, fun _ _ _ => 1, none⟩, false⟩, ?_, fun x => ?_, ?_, fun x _ => ?_⟩
  · exact contDiff_id.const_smul (3:ℕ)
  · have h : HasFDerivAt (fun y : Fin 1 → ℝ => (3:ℝ) • y) ((3:ℝ) • ContinuousLinearMap.id ℝ (Fin 1 → ℝ)) x :=
      (hasFDerivAt_id x).const_smul (3:ℝ)
    have e : Mapped.lin 1 1 ((Mapped.MappedGeometry.mk (fun y : Fin 1 → ℝ => 3 • y) (fun _ _ _ => (3:ℝ))
      ⟨2, fun _ => none, none, fun x : Fin 1 → ℝ => x, fun _ _ _ => (1:ℝ), none⟩ false).jacobian x) =
        (3:ℝ) • ContinuousLinearMap.id ℝ (Fin 1 → ℝ) := by
      refine ContinuousLinearMap.ext fun z => ?_
      rw [Mapped.lin_apply, hj]
      funext i
      fin_cases i
      simp [mulVec, dotProduct]
    rw [e]
    refine h.congr_of_eventuallyEq (Filter.Eventually.of_forall fun y => ?_)
    change 3 • y = (3:ℝ) • y
    funext i; simp
  · intro x _ y _ h
    have h : 3 • x = 3 • y := h
    funext i
    have := congrFun h i
    simpa using this
  · rw [hj]; simp

/-- the quadrilateral with corners (0,0), (1,0), (0,1), (3,2) and the bilinear basis meets the hypotheses -/
theorem quad_hyps : Lfe.Evaluates Lfe.quad.localFE (fun k : Fin 4 => Lfe.q1 2 k) (fun k : Fin 4 => Lfe.dq1 k) ∧
    Lfe.quad.vertices = List.ofFn (![![0, 0], ![1, 0], ![0, 1], ![3, 2]] : Fin 4 → Fin 2 → ℝ) ∧
    (∀ (i : Fin 4) x, HasFDerivAt (fun x => Lfe.q1 2 i x) (Lfe.dotL (Lfe.dq1 i x)) x) ∧
    (∀ i : Fin 4, ContDiff ℝ 2 fun x => Lfe.q1 2 i x) ∧
    Set.InjOn (fun x => ∑ i : Fin 4, Lfe.q1 2 i x • (![![0, 0], ![1, 0], ![0, 1], ![3, 2]] : Fin 4 → Fin 2 → ℝ) i) (refSet 2 3) ∧
    ∀ x ∈ refSet 2 3, ∀ J, Lfe.quad.jacobian x = some J → (mat 2 2 J).det ≠ 0 := by
  have hb : ∀ x ∈ refSet 2 3, 0 ≤ x 0 ∧ 0 ≤ x 1 := fun x hx => ⟨(refSet_bounds hx 0).1, (refSet_bounds hx 1).1⟩
  have hG : ∀ x : Fin 2 → ℝ, (∑ i : Fin 4, Lfe.q1 2 i x • (![![0, 0], ![1, 0], ![0, 1], ![3, 2]] : Fin 4 → Fin 2 → ℝ) i) =
      ![x 0 + 2 * x 0 * x 1, x 1 + x 0 * x 1] := by
    intro x
    funext j
    rw [Finset.sum_apply, Fin.sum_univ_four]
    fin_cases j <;> simp [Lfe.q1, Fin.prod_univ_two, Nat.testBit] <;> ring
  refine ⟨Lfe.feQ1_evaluates, rfl, fun i x => Lfe.feQ1_gradient i x, fun i => ?_, fun x hx y hy h => ?_, fun x hx J hJ => ?_⟩
  · refine contDiff_prod fun r _ => ?_
    by_cases h : (i : Nat).testBit r = true
    · simp only [h, if_pos]; exact contDiff_apply ℝ ℝ _
    · simp only [h]; exact contDiff_const.sub (contDiff_apply ℝ ℝ _)
  · dsimp only at h
    rw [hG, hG] at h
    have h0 : x 0 + 2 * x 0 * x 1 = y 0 + 2 * y 0 * y 1 := congrFun h 0
    have h1 : x 1 + x 0 * x 1 = y 1 + y 0 * y 1 := congrFun h 1
    obtain ⟨hx0, hx1⟩ := hb x hx
    obtain ⟨hy0, hy1⟩ := hb y hy
    have h2 : x 1 = y 1 := by
      have : (x 1 - y 1) * (1 + x 0 + 2 * y 1) = 0 := by linear_combination h1 - y 1 * (h0 - 2 * h1)
      rcases mul_eq_zero.1 this with h | h
      · linarith
      · linarith
    have h3 : x 0 = y 0 := by linear_combination h0 - 2 * h1 + 2 * h2
    funext i
    fin_cases i
    · exact h3
    · exact h2
  · obtain ⟨J', h1, h2⟩ := Lfe.jacobian_mat Lfe.quad Lfe.feQ1_evaluates
      (![![0, 0], ![1, 0], ![0, 1], ![3, 2]] : Fin 4 → Fin 2 → ℝ) rfl x
    rw [h1] at hJ
    obtain rfl := Option.some.inj hJ
    have e : mat 2 2 J' = !![1 + 2 * x 1, 2 * x 0; x 1, 1 + x 0] := by
      refine Matrix.ext fun i j => ?_
      refine (h2 i j).trans ?_
      rw [Fin.sum_univ_four]
      fin_cases i <;> fin_cases j <;> simp [Lfe.dq1, Nat.testBit] <;> ring
    rw [e, det_fin_two_of]
    have := hb x hx
    nlinarith

end Verif.Quad
