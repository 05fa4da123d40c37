import Verif.Quad.Poly
import Verif.Refine.TriangLemmas
import Mathlib.MeasureTheory.Function.Jacobian
import Mathlib.Analysis.Matrix.Normed
import Mathlib.MeasureTheory.Measure.Lebesgue.EqHaar

/-! The integral over the reference simplex as the sum of the integrals over the sub-simplices of a refinement. -/

namespace Verif.Quad

open Verif.RefGeom Verif.RefTopo Verif.Refine MeasureTheory
open Finset hiding ext

noncomputable section

/-! ### The reference simplex -/

theorem dom_simplex : ∀ (d : Nat) (f : ℝ) (x : Vec ℝ), 0 ≤ f →
    (Dom (Topo.simplex d) f x ↔ (∀ i, i < d → 0 ≤ x i) ∧ ∑ i ∈ range d, x i ≤ f)
  | 0, f, x, hf => by simp [Topo.simplex, Dom, hf]
  | d + 1, f, x, hf => by
    have hdim : (Topo.simplex d).dim = d := (rep_simplex d).dim_eq
    rw [Topo.simplex, Dom, hdim]
    constructor
    · rintro ⟨h1, h2, h3⟩
      obtain ⟨h4, h5⟩ := (dom_simplex d (f - x d) x (by linarith)).1 h3
      refine ⟨fun i hi => ?_, ?_⟩
      · rcases Nat.lt_succ_iff_lt_or_eq.1 hi with h | rfl
        · exact h4 i h
        · exact h1
      · rw [sum_range_succ]; linarith
    · rintro ⟨h1, h2⟩
      have h3 : 0 ≤ ∑ i ∈ range d, x i := sum_nonneg fun i hi => h1 i (by have := mem_range.1 hi; omega)
      rw [sum_range_succ] at h2
      refine ⟨h1 d (by omega), by linarith, (dom_simplex d (f - x d) x (by linarith)).2 ⟨fun i hi => h1 i (by omega), by linarith⟩⟩

theorem mem_refSet_simplex {d id : Nat} (hid : id < 2 ^ d) (h : IsSimplexId d id) (x : Fin d → ℝ) :
    x ∈ refSet d id ↔ InSimplex d (ext x) := by
  rw [refSet_eq (rep_of_isSimplexId hid h)]
  exact dom_simplex d 1 (ext x) zero_le_one

/-- the reference simplex -/
def simplexSet (d : Nat) : Set (Fin d → ℝ) := {x | InSimplex d (ext x)}

theorem mem_simplexSet {d : Nat} (x : Fin d → ℝ) : x ∈ simplexSet d ↔ (∀ i, 0 ≤ x i) ∧ ∑ i, x i ≤ 1 := by
  have e : ∑ i ∈ range d, ext x i = ∑ i, x i := by
    rw [← Fin.sum_univ_eq_sum_range (fun i => ext x i)]
    exact sum_congr rfl fun i _ => dif_pos i.2
  change (∀ i, i < d → 0 ≤ ext x i) ∧ _ ↔ _
  rw [e]
  refine and_congr_left fun _ => ⟨fun h i => ?_, fun h i hi => ?_⟩
  · have := h i i.2
    rwa [ext, dif_pos i.2] at this
  · rw [ext, dif_pos hi]; exact h _

theorem innerSimplex_iff {d : Nat} (x : Fin d → ℝ) : InnerSimplex d (ext x) ↔ (∀ i, 0 < x i) ∧ ∑ i, x i < 1 := by
  have e : ∑ i ∈ range d, ext x i = ∑ i, x i := by
    rw [← Fin.sum_univ_eq_sum_range (fun i => ext x i)]
    exact sum_congr rfl fun i _ => dif_pos i.2
  unfold InnerSimplex
  rw [e]
  refine and_congr_left fun _ => ⟨fun h i => ?_, fun h i hi => ?_⟩
  · have := h i i.2
    rwa [ext, dif_pos i.2] at this
  · rw [ext, dif_pos hi]; exact h _

theorem isCompact_simplexSet (d : Nat) : IsCompact (simplexSet d) := by
  have hc : IsClosed (simplexSet d) := by
    have : simplexSet d = (⋂ i : Fin d, {x | 0 ≤ x i}) ∩ {x | ∑ i, x i ≤ 1} := by
      ext x
      simp only [mem_simplexSet, Set.mem_inter_iff, Set.mem_iInter, Set.mem_ofPred_eq]
    rw [this]
    refine IsClosed.inter (isClosed_iInter fun i => isClosed_le continuous_const (continuous_apply i)) ?_
    exact isClosed_le (continuous_finsetSum _ fun i _ => continuous_apply i) continuous_const
  refine IsCompact.of_isClosed_subset (isCompact_Icc (a := (0 : Fin d → ℝ)) (b := 1)) hc fun x hx => ?_
  obtain ⟨h1, h2⟩ := (mem_simplexSet x).1 hx
  refine ⟨fun i => h1 i, fun i => ?_⟩
  exact (single_le_sum (f := x) (fun j _ => h1 j) (mem_univ i)).trans h2

/-- the boundary has measure zero -/
theorem boundary_null (d : Nat) (hd : 0 < d) : volume {x : Fin d → ℝ | InSimplex d (ext x) ∧ ¬ InnerSimplex d (ext x)} = 0 := by
  have hsub : {x : Fin d → ℝ | InSimplex d (ext x) ∧ ¬ InnerSimplex d (ext x)} ⊆
      (⋃ i : Fin d, {x | x i = 0}) ∪ {x | ∑ i, x i = 1} := by
    rintro x ⟨h1, h2⟩
    obtain ⟨h3, h4⟩ := (mem_simplexSet x).1 h1
    rw [innerSimplex_iff] at h2
    by_cases h5 : ∀ i, 0 < x i
    · right
      by_contra h6
      exact h2 ⟨h5, lt_of_le_of_ne h4 h6⟩
    · left
      push Not at h5
      obtain ⟨i, hi⟩ := h5
      exact Set.mem_iUnion.2 ⟨i, le_antisymm hi (h3 i)⟩
  refine measure_mono_null hsub (measure_union_null (measure_iUnion_null fun i => ?_) ?_)
  · rw [volume_pi]
    exact Measure.pi_hyperplane _ i 0
  · let φ : (Fin d → ℝ) →ₗ[ℝ] ℝ := ∑ i, LinearMap.proj i
    have hφ : ∀ x, φ x = ∑ i, x i := fun x => by simp [φ]
    let p : Fin d → ℝ := Pi.single ⟨0, hd⟩ 1
    have hp : φ p = 1 := by rw [hφ]; simp [p]
    have hs : {x : Fin d → ℝ | ∑ i, x i = 1} = (AffineSubspace.mk' p (LinearMap.ker φ) : Set (Fin d → ℝ)) := by
      ext x
      simp only [Set.mem_ofPred_eq, SetLike.mem_coe, AffineSubspace.mem_mk', vsub_eq_sub, LinearMap.mem_ker]
      rw [map_sub, hp, hφ, sub_eq_zero]
    rw [hs]
    refine Measure.addHaar_affineSubspace _ _ fun h => ?_
    have : (0 : Fin d → ℝ) ∈ AffineSubspace.mk' p (LinearMap.ker φ) := by rw [h]; trivial
    rw [AffineSubspace.mem_mk'] at this
    simp [hp] at this

/-! ### Cells -/

/-- the affine map to the simplex with corners `c` -/
def cellMap (d : Nat) (c : Nat → Nat → ℝ) (x : Fin d → ℝ) : Fin d → ℝ := fun i => interp d c (ext x) i

/-- its linear part -/
def cellMat (d : Nat) (c : Nat → Nat → ℝ) : Matrix (Fin d) (Fin d) ℝ := fun i l => c (l + 1) i - c 0 i

theorem cellMap_eq (d : Nat) (c : Nat → Nat → ℝ) (x : Fin d → ℝ) :
    cellMap d c x = (fun i : Fin d => c 0 i) + Matrix.toLin' (cellMat d c) x := by
  funext i
  rw [cellMap, interp, Pi.add_apply, Matrix.toLin'_apply, Matrix.mulVec, dotProduct, ← Fin.sum_univ_eq_sum_range
    (fun l => ext x l * (c (l + 1) i - c 0 i))]
  congr 1
  refine sum_congr rfl fun l _ => ?_
  rw [ext, dif_pos l.2, mul_comm]
  rfl

theorem hasFDerivAt_cellMap (d : Nat) (c : Nat → Nat → ℝ) (x : Fin d → ℝ) :
    HasFDerivAt (cellMap d c) (LinearMap.toContinuousLinearMap (Matrix.toLin' (cellMat d c))) x := by
  have : cellMap d c = fun x => (fun i : Fin d => c 0 i) + LinearMap.toContinuousLinearMap (Matrix.toLin' (cellMat d c)) x :=
    funext fun x => cellMap_eq d c x
  rw [this]
  exact (ContinuousLinearMap.hasFDerivAt _).const_add _

theorem continuous_cellMap (d : Nat) (c : Nat → Nat → ℝ) : Continuous (cellMap d c) :=
  continuous_iff_continuousAt.2 fun x => (hasFDerivAt_cellMap d c x).continuousAt

theorem cellMap_injective (d : Nat) (c : Nat → Nat → ℝ) (h : (cellMat d c).det ≠ 0) : Function.Injective (cellMap d c) := by
  intro x y hxy
  rw [cellMap_eq, cellMap_eq] at hxy
  have := add_left_cancel hxy
  rw [Matrix.toLin'_apply, Matrix.toLin'_apply] at this
  exact Matrix.mulVec_injective_iff_isUnit.2 ((Matrix.isUnit_iff_isUnit_det _).2 h.isUnit) this

/-- the corners of all sub-simplices -/
theorem cells (d n : Nat) (hd : 0 < d) : ∃ c : Nat → Nat → Nat → ℝ, ∀ k, k < nElements d n →
    ∃ it corners, eAt d n k = some it ∧ it.geometry (K := ℝ) d = some corners ∧ corners.length = d + 1 ∧
      (∀ i, i ≤ d → corners[i]? = some (c k i)) ∧
      (∀ z : Nat → ℝ, ∃ y, it.global d z = some y ∧ ∀ i, i < d → y i = interp d (c k) z i) ∧
      (cellMat d (c k)).det = 1 / (n : ℝ) ^ d := by
  have key : ∀ k, ∃ c : Nat → Nat → ℝ, k < nElements d n →
    ∃ it corners, eAt d n k = some it ∧ it.geometry (K := ℝ) d = some corners ∧ corners.length = d + 1 ∧
      (∀ i, i ≤ d → corners[i]? = some (c i)) ∧
      (∀ z : Nat → ℝ, ∃ y, it.global d z = some y ∧ ∀ i, i < d → y i = interp d c z i) ∧
      (cellMat d c).det = 1 / (n : ℝ) ^ d := by
    intro k
    by_cases hk : k < nElements d n
    · obtain ⟨it, corners, c, h1, h2, h3, h4, h5⟩ := global_interp (K := ℝ) d n k hd hk
      obtain ⟨it', corners', c', g1, g2, g3, g4⟩ := C42_determinant (K := ℝ) d n k hd hk
      obtain rfl := Option.some.inj (h1.symm.trans g1)
      obtain rfl := Option.some.inj (h2.symm.trans g2)
      refine ⟨c, fun _ => ⟨it, corners, h1, h2, h3, h4, h5, ?_⟩⟩
      have e : ∀ i, i ≤ d → c i = c' i := fun i hi => Option.some.inj ((h4 i hi).symm.trans (g3 i hi))
      rw [← g4]
      congr 1
      funext i l
      rw [cellMat, e _ (by omega), e 0 (by omega)]
    · exact ⟨fun _ _ => 0, fun h => absurd h hk⟩
  choose c hc using key
  exact ⟨c, hc⟩

theorem ext_cell {d : Nat} {c : Nat → Nat → ℝ} {x : Fin d → ℝ} {y : Nat → ℝ} (h : ∀ i, i < d → y i = interp d c (ext x) i)
    (i : Nat) (hi : i < d) : ext (cellMap d c x) i = y i := by
  rw [ext, dif_pos hi, h i hi]; rfl

theorem inSimplex_congr {d : Nat} {x y : Nat → ℝ} (h : ∀ i, i < d → x i = y i) : InSimplex d x ↔ InSimplex d y := by
  unfold InSimplex
  rw [sum_congr rfl fun i hi => h i (mem_range.1 hi)]
  exact and_congr_left fun _ => forall_congr' fun i => forall_congr' fun hi => by rw [h i hi]

theorem ext_restrict {d : Nat} (z : Nat → ℝ) (i : Nat) (hi : i < d) : ext (fun j : Fin d => z j) i = z i := dif_pos hi

theorem interp_congr_arg {d : Nat} {c : Nat → Nat → ℝ} {x y : Nat → ℝ} (h : ∀ i, i < d → x i = y i) (i : Nat) :
    interp d c x i = interp d c y i := by
  unfold interp
  congr 1
  exact sum_congr rfl fun l hl => by rw [h l (mem_range.1 hl)]

/-- The integral of a continuous function over the reference simplex is the mean of the integrals of its pullbacks to
the sub-simplices. -/
theorem integral_cells {d n : Nat} (hd : 0 < d) (hn : 0 < n) {c : Nat → Nat → Nat → ℝ}
    (hc : ∀ k, k < nElements d n → ∃ it corners, eAt d n k = some it ∧ it.geometry (K := ℝ) d = some corners ∧
      corners.length = d + 1 ∧ (∀ i, i ≤ d → corners[i]? = some (c k i)) ∧
      (∀ z : Nat → ℝ, ∃ y, it.global d z = some y ∧ ∀ i, i < d → y i = interp d (c k) z i) ∧
      (cellMat d (c k)).det = 1 / (n : ℝ) ^ d) {f : (Fin d → ℝ) → ℝ} (hf : Continuous f) :
    ∫ x in simplexSet d, f x = ∑ k ∈ range (nElements d n), 1 / (n : ℝ) ^ d * ∫ x in simplexSet d, f (cellMap d (c k) x) := by
  have hn' : (0 : ℝ) < 1 / (n : ℝ) ^ d := by positivity
  let T : Fin (nElements d n) → Set (Fin d → ℝ) := fun k => cellMap d (c k) '' simplexSet d
  have hunion : (⋃ k, T k) = simplexSet d := by
    ext y
    rw [Set.mem_iUnion]
    constructor
    · rintro ⟨k, x, hx, rfl⟩
      obtain ⟨it, corners, h1, h2, h3, h4, h5, h6⟩ := hc k k.2
      obtain ⟨it', y, g1, g2, g3⟩ := C60_inside (K := ℝ) d n k hd k.2 (ext x) hx
      obtain rfl := Option.some.inj (h1.symm.trans g1)
      obtain ⟨y', e1, e2⟩ := h5 (ext x)
      obtain rfl := Option.some.inj (e1.symm.trans g2)
      exact (inSimplex_congr (ext_cell e2)).2 g3
    · intro hy
      obtain ⟨k, it, z, y', g1, g2, g3, g4, g5⟩ := C60_cover (K := ℝ) d n hd hn (ext y) hy
      obtain ⟨it', corners, h1, h2, h3, h4, h5, h6⟩ := hc k g1
      obtain rfl := Option.some.inj (h1.symm.trans g2)
      obtain ⟨y'', e1, e2⟩ := h5 z
      obtain rfl := Option.some.inj (e1.symm.trans g4)
      refine ⟨⟨k, g1⟩, fun j => z j, (inSimplex_congr (ext_restrict z)).2 g3, ?_⟩
      funext i
      have e3 := g5 i i.2
      rw [ext, dif_pos i.2] at e3
      rw [cellMap, interp_congr_arg (ext_restrict z), ← e2 i i.2]
      exact e3
  have hcomp : ∀ k, IsCompact (T k) := fun k => (isCompact_simplexSet d).image (continuous_cellMap d (c k))
  have hdisj : Pairwise (Function.onFun (AEDisjoint volume) T) := by
    intro k k' hkk
    refine measure_mono_null ?_ (addHaar_image_eq_zero_of_differentiableOn_of_addHaar_eq_zero volume (f := cellMap d (c k))
      (fun x _ => (hasFDerivAt_cellMap d (c k) x).differentiableAt.differentiableWithinAt) (boundary_null d hd))
    rintro y ⟨⟨x, hx, rfl⟩, x', hx', e⟩
    refine ⟨x, ⟨hx, fun hin => hkk (Fin.ext ?_)⟩, rfl⟩
    obtain ⟨it, corners, h1, h2, h3, h4, h5, h6⟩ := hc k k.2
    obtain ⟨it', corners', h1', h2', h3', h4', h5', h6'⟩ := hc k' k'.2
    obtain ⟨y, e1, e2⟩ := h5 (ext x)
    obtain ⟨y', e1', e2'⟩ := h5' (ext x')
    refine C60_disjoint (K := ℝ) d n k k' hd k.2 k'.2 (ext x) (ext x') hin hx' it it' h1 h1' y y' e1 e1' fun i hi => ?_
    rw [← ext_cell e2 i hi, ← ext_cell e2' i hi, e]
  have hint : IntegrableOn f (⋃ k, T k) := by
    rw [hunion]; exact hf.continuousOn.integrableOn_compact (isCompact_simplexSet d)
  have h1 := integral_iUnion_ae (fun k => (hcomp k).measurableSet.nullMeasurableSet) hdisj hint
  rw [hunion, tsum_fintype] at h1
  rw [h1, ← Fin.sum_univ_eq_sum_range (fun k => 1 / (n : ℝ) ^ d * ∫ x in simplexSet d, f (cellMap d (c k) x))]
  refine sum_congr rfl fun k _ => ?_
  obtain ⟨it, corners, -, -, -, -, -, h6⟩ := hc k k.2
  have hdet : (LinearMap.toContinuousLinearMap (Matrix.toLin' (cellMat d (c k)))).det = 1 / (n : ℝ) ^ d := by
    rw [LinearMap.det_toContinuousLinearMap, LinearMap.det_toLin', h6]
  rw [integral_image_eq_integral_abs_det_fderiv_smul volume (isCompact_simplexSet d).measurableSet
    (fun x _ => (hasFDerivAt_cellMap d (c k) x).hasFDerivWithinAt)
    ((cellMap_injective d (c k) (by rw [h6]; exact hn'.ne')).injOn)]
  simp only [hdet, abs_of_pos hn', smul_eq_mul]
  exact integral_const_mul _ _

end

end Verif.Quad
