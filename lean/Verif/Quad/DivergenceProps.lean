import Verif.Quad.Divergence
import Mathlib.Analysis.Calculus.ContDiff.Operations

/-! Property theorems: the divergence theorem for the integration outer normals (C71). -/

namespace Verif.Quad

open Verif.Typ Verif.RefTopo Verif.RefGeom MeasureTheory
open Finset hiding ext

/-! ### Specification -/

/-- the partial derivative `∂u/∂x_k` -/
noncomputable def partialDeriv {d : Nat} (u : (Fin d → ℝ) → ℝ) (k : Fin d) (x : Fin d → ℝ) : ℝ :=
  fderiv ℝ u x (Pi.single k 1)

/-- component `k` of `integrationOuterNormal(i)` -/
noncomputable def normal (d id i k : Nat) : ℝ :=
  (referenceIntegrationOuterNormals (K := ℝ) d d id).getD i (fun _ => 0) k

/-- `geometry<1>(i).global(y)`, the point of facet `i` with local coordinates `y` -/
noncomputable def facetPoint (d id i : Nat) {m : Nat} (y : Fin m → ℝ) : Fin d → ℝ := fun j =>
  embed (d - 1) ((referenceEmbeddings (K := ℝ) d id 1).getD i (fun _ => 0, fun _ _ => 0)) (ext y) j

/-- the integral of `g` over the reference element of facet `i`, in local coordinates -/
noncomputable def facetIntegral (d id i : Nat) (g : (Fin d → ℝ) → ℝ) : ℝ :=
  ∫ y in refSet (refType d id i 1).dim (refType d id i 1).id, g (facetPoint d id i y)

/-! ### Continuously differentiable functions -/

/-- the first `d` coordinates -/
def restr {d : Nat} (x : Vec ℝ) : Fin d → ℝ := fun i => x i

theorem continuous_restr {d : Nat} : Continuous (restr : Vec ℝ → Fin d → ℝ) :=
  continuous_pi fun i => continuous_apply (i : Nat)

theorem restr_ext {d : Nat} (x : Fin d → ℝ) : restr (ext x) = x := by
  funext i; simp [restr, ext]

theorem continuous_partialDeriv {d : Nat} {u : (Fin d → ℝ) → ℝ} (hu : ContDiff ℝ 1 u) (k : Fin d) :
    Continuous (partialDeriv u k) :=
  (hu.continuous_fderiv (by norm_num)).clm_apply continuous_const

theorem c1_of_contDiff {d : Nat} {u : (Fin d → ℝ) → ℝ} (hu : ContDiff ℝ 1 u) :
    C1 d (fun x => u (restr x)) (fun j x => if h : j < d then partialDeriv u ⟨j, h⟩ (restr x) else 0) := by
  refine ⟨hu.continuous.comp continuous_restr, fun j => ?_, fun γ γ' s hγ => ?_⟩
  · by_cases h : j < d
    · simp only [h, dif_pos]
      exact (continuous_partialDeriv hu _).comp continuous_restr
    · simp only [h, dif_neg, not_false_eq_true]; exact continuous_const
  · have h1 : HasDerivAt (fun r => (restr (γ r) : Fin d → ℝ)) (restr γ') s :=
      hasDerivAt_pi.2 fun i => hγ i
    have h2 : HasFDerivAt u (fderiv ℝ u (restr (γ s))) (restr (γ s)) :=
      ((hu.differentiable (by norm_num)) _).hasFDerivAt
    have h3 := h2.comp_hasDerivAt s h1
    refine h3.congr_deriv ?_
    rw [← Fin.sum_univ_eq_sum_range (fun j => (if h : j < d then partialDeriv u ⟨j, h⟩ (restr (γ s)) else 0) * γ' j) d]
    refine (LinearMap.pi_apply_eq_sum_univ (fderiv ℝ u (restr (γ s))).toLinearMap (restr γ')).trans ?_
    refine sum_congr rfl fun i _ => ?_
    rw [dif_pos i.2, smul_eq_mul, mul_comm, partialDeriv]
    have e : (fun j => if i = j then (1:ℝ) else 0) = Pi.single i 1 := by
      funext j; rw [Pi.single_apply]; simp only [eq_comm]
    rw [e]
    rfl

/-! ### C71 -/

/-- C71: the divergence theorem, one component. -/
theorem C71_divergence (d id : Nat) (h0 : 0 < d) (hd : d ≤ 31) (hid : id < 2 ^ d) (u : (Fin d → ℝ) → ℝ)
    (hu : ContDiff ℝ 1 u) (k : Fin d) :
    ∫ x in refSet d id, partialDeriv u k x =
      ((List.range (refSize d id 1)).map fun i => normal d id i k * facetIntegral d id i u).sum := by
  have h := rep_topoOf d id
  have hc := c1_of_contDiff hu
  have key : ∀ F : Nat → ℝ, ∀ G : Face (topoOf d id) → ℝ, (∀ f : Face (topoOf d id), f.codim = 1 → F f.idx = G f) →
      (List.range (refSize d id 1)).map F = (faces (topoOf d id) 1).map G := by
    intro F G hFG
    have hsz : refSize d id 1 = (topoOf d id).sz 1 := by rw [refSize, size_eq h 1 h0]
    apply List.ext_getElem?
    intro j
    rw [List.getElem?_map, List.getElem?_map]
    by_cases hj : j < (topoOf d id).sz 1
    · rw [hsz, List.getElem?_range hj]
      obtain ⟨f, hf, rfl⟩ := Face.idx_surj _ _ _ hj
      rw [faces_getElem f _ hf]
      simp [hFG f hf]
    · rw [List.getElem?_eq_none (by rw [List.length_range]; omega),
        List.getElem?_eq_none (by rw [length_faces]; omega)]; rfl
  have hdiv := divergence (topoOf d id) (u := fun x => u (restr x)) (by rw [h.dim_eq]; exact hc) k
    (by rw [h.dim_eq]; exact k.2)
  rw [← integral_refSet_iter h (hc.contD k)] at hdiv
  simp only [restr_ext, k.2, dif_pos, Fin.eta] at hdiv
  rw [hdiv, key _ (fun f => nrm f k * iter f.shape fun y => u (restr (emb f y)))]
  intro f hf
  have hT : refType d id f.idx 1 = ⟨d - 1, false, subTopologyId d id 1 f.idx⟩ := refType_eq d id _ _ hd hid h0
  have hTr : Rep (refType d id f.idx 1).dim (refType d id f.idx 1).id f.shape := by
    have := rep_sub h hid f
    rw [hf] at this
    rw [hT]; exact this
  have hn : normal d id f.idx k = nrm f k := by
    rw [normal, List.getD_eq_getElem?_getD, normal_face h f hf]; rfl
  have he := embedding_face (K := ℝ) h f
  rw [hf] at he
  have hfd := Face.codim_add_dim f
  rw [h.dim_eq] at hfd
  rw [hn, facetIntegral, ← integral_refSet_iter hTr (u := fun y => u (restr (emb f y)))
    (hu.continuous.comp (continuous_restr.comp (continuous_emb f)))]
  congr 2
  funext y
  congr 1
  funext j
  simp only [facetPoint, restr, emb]
  rw [List.getD_eq_getElem?_getD, he, show d - 1 = f.shape.dim by omega]
  rfl

theorem facetIntegral_sum {d id i : Nat} {g : Fin d → (Fin d → ℝ) → ℝ} (hg : ∀ k, Continuous (g k)) :
    facetIntegral d id i (fun x => ∑ k, g k x) = ∑ k, facetIntegral d id i (g k) := by
  have hf : Continuous fun y : Fin (refType d id i 1).dim → ℝ => facetPoint d id i y := by
    refine continuous_pi fun j => ?_
    simp only [facetPoint, embed]
    exact continuous_const.add (continuous_finsetSum _ fun r _ =>
      continuous_const.mul ((continuous_apply r).comp continuous_ext))
  exact integral_finsetSum _ fun k _ => integrableOn_refSet ((hg k).comp hf)

/-- C71: the divergence theorem for vector fields: the integral of the divergence is the sum over the facets of the
integrals of the field times the integration outer normal. -/
theorem C71_field (d id : Nat) (h0 : 0 < d) (hd : d ≤ 31) (hid : id < 2 ^ d) (F : (Fin d → ℝ) → Fin d → ℝ)
    (hF : ContDiff ℝ 1 F) :
    ∫ x in refSet d id, ∑ k, partialDeriv (fun x => F x k) k x =
      ((List.range (refSize d id 1)).map fun i => facetIntegral d id i fun x => ∑ k : Fin d, normal d id i k * F x k).sum := by
  have hk : ∀ k, ContDiff ℝ 1 fun x => F x k := contDiff_pi.1 hF
  rw [integral_finsetSum _ fun k _ => integrableOn_refSet (continuous_partialDeriv (hk k) k)]
  rw [sum_congr rfl fun k _ => C71_divergence d id h0 hd hid _ (hk k) k]
  have hc : ∀ i, facetIntegral d id i (fun x => ∑ k : Fin d, normal d id i k * F x k) =
      ∑ k : Fin d, normal d id i k * facetIntegral d id i fun x => F x k := fun i => by
    rw [facetIntegral_sum (g := fun k x => normal d id i k * F x k) fun k => continuous_const.mul (hk k).continuous]
    exact sum_congr rfl fun k _ => integral_const_mul _ _
  simp only [hc]
  generalize List.range (refSize d id 1) = l
  induction l with
  | nil => simp
  | cons a l ih => simp only [List.map_cons, List.sum_cons, sum_add_distrib, ih]

/-- C71: integration by parts. -/
theorem C71_parts (d id : Nat) (h0 : 0 < d) (hd : d ≤ 31) (hid : id < 2 ^ d) (u v : (Fin d → ℝ) → ℝ)
    (hu : ContDiff ℝ 1 u) (hv : ContDiff ℝ 1 v) (k : Fin d) :
    ∫ x in refSet d id, u x * partialDeriv v k x =
      ((List.range (refSize d id 1)).map fun i => normal d id i k * facetIntegral d id i fun x => u x * v x).sum -
      ∫ x in refSet d id, partialDeriv u k x * v x := by
  have h := C71_divergence d id h0 hd hid (fun x => u x * v x) (hu.mul hv) k
  have hi : IntegrableOn (fun x => partialDeriv u k x * v x) (refSet d id) :=
    integrableOn_refSet ((continuous_partialDeriv hu k).mul hv.continuous)
  rw [← h, ← integral_sub (integrableOn_refSet (continuous_partialDeriv (hu.mul hv) k)) hi]
  congr 1
  funext x
  have e := fderiv_fun_mul ((hu.differentiable (by norm_num)) x) ((hv.differentiable (by norm_num)) x)
  simp only [partialDeriv]
  rw [e]
  simp only [add_apply, smul_apply, smul_eq_mul]
  ring

-- the field (x², xy) on the triangle
example : (0 : Nat) < 2 ∧ 2 ≤ 31 ∧ 0 < 2 ^ 2 ∧ ContDiff ℝ 1 (fun x : Fin 2 → ℝ => ![x 0 ^ 2, x 0 * x 1]) := by
  refine ⟨by norm_num, by norm_num, by norm_num, contDiff_pi.2 fun i => ?_⟩
  have h0 : ContDiff ℝ 1 fun x : Fin 2 → ℝ => x 0 := contDiff_apply ℝ ℝ 0
  have h1 : ContDiff ℝ 1 fun x : Fin 2 → ℝ => x 1 := contDiff_apply ℝ ℝ 1
  fin_cases i
  · exact h0.pow 2
  · exact h0.mul h1

end Verif.Quad
