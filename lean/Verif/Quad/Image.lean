import Verif.Quad.Piola
import Verif.RefGeom.StrataProps

/-! Integrals and the divergence theorem on images of reference elements. -/

namespace Verif.Quad

open Verif.Typ Verif.RefTopo Verif.RefGeom MeasureTheory
open Matrix hiding ext
open Finset hiding ext

theorem facetPoint_mem {d id i : Nat} (h0 : 0 < d) (hd : d ≤ 31) (hid : id < 2 ^ d) (hi : i < refSize d id 1)
    {y : Fin (refType d id i 1).dim → ℝ} (hy : y ∈ refSet (refType d id i 1).dim (refType d id i 1).id) :
    facetPoint d id i y ∈ refSet d id := by
  have hr := rep_topoOf d id
  obtain ⟨f, hf, rfl⟩ := exists_face hr h0 hi
  have hT : refType d id f.idx 1 = ⟨d - 1, false, subTopologyId d id 1 f.idx⟩ := refType_eq d id _ _ hd hid h0
  have hTr : Rep (refType d id f.idx 1).dim (refType d id f.idx 1).id f.shape := by
    have := rep_sub hr hid f
    rw [hf] at this
    rw [hT]; exact this
  have he := embedding_face (K := ℝ) hr f
  rw [hf] at he
  have hfd := Face.codim_add_dim f
  rw [hr.dim_eq] at hfd
  have hx : embed (d - 1) ((referenceEmbeddings (K := ℝ) d id 1).getD f.idx (fun _ => 0, fun _ _ => 0)) (ext y) ∈
      closedPiece ℝ d id f.idx f.codim := by
    refine (mem_closedPiece hd hid f _).2 ⟨ext y, ?_, ?_⟩
    · rw [refSet_eq hTr] at hy; exact hy
    · rw [List.getD_eq_getElem?_getD, he, show d - 1 = f.shape.dim by omega]; rfl
  rw [hf] at hx
  have hx := (C70_subset (K := ℝ) d id f.idx 1 hd hid h0 hi).2 hx
  have e : ext (facetPoint d id f.idx y) =
      embed (d - 1) ((referenceEmbeddings (K := ℝ) d id 1).getD f.idx (fun _ => 0, fun _ _ => 0)) (ext y) := by
    funext k
    by_cases hk : k < d
    · rw [ext, dif_pos hk]; rfl
    · rw [ext, dif_neg hk, domain_zero hx k (by omega)]
  rw [refSet, Set.mem_ofPred_eq, e]
  exact hx

theorem facetIntegral_congr {d id i : Nat} (h0 : 0 < d) (hd : d ≤ 31) (hid : id < 2 ^ d) (hi : i < refSize d id 1)
    {f g : (Fin d → ℝ) → ℝ} (h : ∀ x ∈ refSet d id, f x = g x) : facetIntegral d id i f = facetIntegral d id i g :=
  setIntegral_congr_fun (measurableSet_refSet _ _) fun _ hy => h _ (facetPoint_mem h0 hd hid hi hy)

theorem convex_refSet (d id : Nat) : Convex ℝ (refSet d id) := by
  intro x hx y hy a b ha hb hab
  have e : ext (a • x + b • y) = a • ext x + b • ext y := by
    funext k
    by_cases hk : k < d <;> simp [ext, hk]
  rw [refSet, Set.mem_ofPred_eq, e]
  exact convex_convexHull ℝ _ hx hy ha hb hab

/-- a continuous function without zeros on the element has one sign -/
theorem sign_const {d id : Nat} {f : (Fin d → ℝ) → ℝ} (hf : Continuous f) (h : ∀ x ∈ refSet d id, f x ≠ 0) :
    (∀ x ∈ refSet d id, |f x| = f x) ∨ ∀ x ∈ refSet d id, |f x| = - f x := by
  by_contra hc
  push Not at hc
  obtain ⟨⟨x, hx, h1⟩, y, hy, h2⟩ := hc
  have hx0 : f x ≤ 0 := by
    by_contra hlt; exact h1 (abs_of_pos (not_le.1 hlt))
  have hy0 : 0 ≤ f y := by
    by_contra hlt; exact h2 (abs_of_neg (not_le.1 hlt))
  obtain ⟨z, hz, hz0⟩ := (convex_refSet d id).isPreconnected.intermediate_value hx hy hf.continuousOn ⟨hx0, hy0⟩
  exact h z hz hz0

theorem jac_of_hasFDerivAt {m : Nat} {Φ : (Fin m → ℝ) → Fin m → ℝ} {A : Matrix (Fin m) (Fin m) ℝ} {x : Fin m → ℝ}
    (h : HasFDerivAt Φ (Matrix.toLin' A).toContinuousLinearMap x) : jac Φ x = A := by
  ext i l
  have h1 := (hasFDerivAt_pi'.1 h) i
  rw [jac, of_apply, partialDeriv, h1.fderiv]
  change (A *ᵥ Pi.single l 1) i = _
  simp

/-- the transformation formula -/
theorem integral_image {d id : Nat} {Φ : (Fin d → ℝ) → Fin d → ℝ} {A : (Fin d → ℝ) → Matrix (Fin d) (Fin d) ℝ}
    (h : ∀ x, HasFDerivAt Φ (Matrix.toLin' (A x)).toContinuousLinearMap x) (hinj : Set.InjOn Φ (refSet d id))
    (f : (Fin d → ℝ) → ℝ) :
    ∫ y in Φ '' refSet d id, f y = ∫ x in refSet d id, f (Φ x) * |(A x).det| := by
  rw [integral_image_eq_integral_abs_det_fderiv_smul volume (measurableSet_refSet d id)
    (fun x _ => (h x).hasFDerivWithinAt) hinj f]
  congr 1
  funext x
  rw [smul_eq_mul, mul_comm]
  congr 2
  exact LinearMap.det_toLin' (A x)

/-- the divergence theorem on the image of the reference element under a twice continuously differentiable map -/
theorem divergence_image {d id : Nat} (h0 : 0 < d) (hd : d ≤ 31) (hid : id < 2 ^ d) {u : (Fin d → ℝ) → ℝ}
    (hu : ContDiff ℝ 1 u) {Φ : (Fin d → ℝ) → Fin d → ℝ} (hΦ : ContDiff ℝ 2 Φ)
    {A : (Fin d → ℝ) → Matrix (Fin d) (Fin d) ℝ}
    (h : ∀ x, HasFDerivAt Φ (Matrix.toLin' (A x)).toContinuousLinearMap x) (hinj : Set.InjOn Φ (refSet d id))
    (hdet : ∀ x ∈ refSet d id, (A x).det ≠ 0) (k : Fin d) :
    ∫ y in Φ '' refSet d id, partialDeriv u k y =
      ((List.range (refSize d id 1)).map fun i => facetIntegral d id i fun x =>
        u (Φ x) * (((A x)⁻¹ᵀ *ᵥ fun j => normal d id i j) k * |(A x).det|)).sum := by
  have hA : ∀ x, jac Φ x = A x := fun x => jac_of_hasFDerivAt (h x)
  have hc : Continuous fun x => (A x).det := by
    simp only [← hA]
    exact (contDiff_det (contDiff_jac hΦ)).continuous
  have hm := divergence_mapped h0 hd hid hu hΦ k
  simp only [hA] at hm
  rw [integral_image h hinj]
  have key : ∀ s : ℝ, (∀ x ∈ refSet d id, |(A x).det| = s * (A x).det) →
      ∫ x in refSet d id, partialDeriv u k (Φ x) * |(A x).det| =
      ((List.range (refSize d id 1)).map fun i => facetIntegral d id i fun x =>
        u (Φ x) * (((A x)⁻¹ᵀ *ᵥ fun j => normal d id i j) k * |(A x).det|)).sum := by
    intro s hs
    rw [setIntegral_congr_fun (g := fun x => s * ((A x).det * partialDeriv u k (Φ x))) (measurableSet_refSet d id)
      (fun x hx => by simp only [hs x hx]; ring), integral_const_mul, hm, ← List.sum_map_mul_left]
    congr 1
    refine List.map_congr_left fun i hi => ?_
    rw [List.mem_range] at hi
    rw [facetIntegral, ← integral_const_mul]
    refine facetIntegral_congr (f := fun x => s * ∑ j : Fin d, normal d id i j * (u (Φ x) * adjugate (A x) j k))
      h0 hd hid hi fun x hx => ?_
    rw [hs x hx, mulVec, dotProduct, sum_mul, mul_sum, mul_sum]
    refine sum_congr rfl fun j _ => ?_
    rw [transpose_apply, Matrix.inv_def, Matrix.smul_apply, smul_eq_mul, Ring.inverse_eq_inv']
    have := hdet x hx
    field_simp
  rcases sign_const hc hdet with hs | hs
  · exact key 1 fun x hx => by rw [hs x hx, one_mul]
  · exact key (-1) fun x hx => by rw [hs x hx, neg_one_mul]

end Verif.Quad
