import Verif.Image.Props
import Verif.Quad.Image
import Mathlib.MeasureTheory.Measure.Lebesgue.EqHaar
import Mathlib.Analysis.Convex.Measure
import Mathlib.Analysis.Convex.StdSimplex
import Mathlib.MeasureTheory.Integral.Bochner.Set

/-!
Integrals over a mesh of the reference element: the elements of a mesh (C111) tile the reference element up to a null set.
-/

namespace Verif.Image

open Verif.Typ Verif.RefGeom Verif.MatHelp Verif.RefTopo Verif.MultiLinear Verif.Neighbour Verif.Hull Verif.Quad Verif.Refine
open Verif.Refine.Mesh Verif.Refine.Glue Verif.Refine.Virtual
open Finset hiding ext
open MeasureTheory

/-- the points of an element of the mesh -/
def elemSet (d : Nat) (M : Mesh) (idx : List Nat) : Set (Fin d → ℝ) := {x | InElement d M idx (RefGeom.ext x)}

/-- the combination of the corners -/
noncomputable def combo (d : Nat) (M : Mesh) (idx : List Nat) : (Fin idx.length → ℝ) →ₗ[ℝ] (Fin d → ℝ) where
  toFun w := fun i => ∑ j, w j * point M (idx.getD j 0) i
  map_add' w w' := by funext i; simp [add_mul, sum_add_distrib]
  map_smul' c w := by funext i; simp [mul_sum, mul_assoc]

theorem elemSet_eq (d : Nat) (M : Mesh) (idx : List Nat) : elemSet d M idx = combo d M idx '' stdSimplex ℝ (Fin idx.length) := by
  ext x
  constructor
  · rintro ⟨w, h1, h2, h3⟩
    refine ⟨fun j => w j, ⟨fun j => h1 j j.2, ?_⟩, ?_⟩
    · rw [Fin.sum_univ_eq_sum_range]; exact h2
    · funext i
      have := h3 i i.2
      rw [ext_apply x i i.2] at this
      rw [this]
      exact Fin.sum_univ_eq_sum_range (fun j => w j * point M (idx.getD j 0) i) _
  · rintro ⟨w, ⟨h1, h2⟩, rfl⟩
    have e : ∀ j : Fin idx.length, (if h : (j : Nat) < idx.length then w ⟨j, h⟩ else 0) = w j := fun j => dif_pos j.2
    refine ⟨fun j => if h : j < idx.length then w ⟨j, h⟩ else 0, fun j hj => ?_, ?_, fun i hi => ?_⟩
    · simp only [dif_pos hj]; exact h1 _
    · rw [← Fin.sum_univ_eq_sum_range, sum_congr rfl fun j _ => e j]; exact h2
    · rw [← Fin.sum_univ_eq_sum_range (fun j => (if h : j < idx.length then w ⟨j, h⟩ else 0) * _), sum_congr rfl fun j _ => by rw [e j]]
      exact ext_apply _ i hi

theorem elemSet_compact (d : Nat) (M : Mesh) (idx : List Nat) : IsCompact (elemSet d M idx) := by
  rw [elemSet_eq]
  exact (isCompact_stdSimplex ℝ _).image (LinearMap.continuous_of_finiteDimensional _)

theorem elemSet_convex (d : Nat) (M : Mesh) (idx : List Nat) : Convex ℝ (elemSet d M idx) := by
  rw [elemSet_eq]
  exact (convex_stdSimplex ℝ _).linear_image _

/-- interior points are combinations with positive weights -/
theorem interior_strict (d : Nat) (M : Mesh) (idx : List Nat) (h0 : 0 < idx.length) (x : Fin d → ℝ) (hx : x ∈ interior (elemSet d M idx)) :
    InInterior d M idx (RefGeom.ext x) := by
  set m := idx.length with hm
  have hm' : (0 : ℝ) < m := Nat.cast_pos.2 h0
  set b : Fin d → ℝ := combo d M idx fun _ => 1 / m with hb
  have hc : Filter.Tendsto (fun t : ℝ => x + t • (x - b)) (nhds 0) (nhds x) := by
    have : Continuous fun t : ℝ => x + t • (x - b) := by fun_prop
    simpa using this.tendsto 0
  have h1 : ∀ᶠ t in nhds (0 : ℝ), x + t • (x - b) ∈ elemSet d M idx :=
    (hc.eventually (isOpen_interior.mem_nhds hx)).mono fun t ht => interior_subset ht
  obtain ⟨ε, hε, h2⟩ := Metric.eventually_nhds_iff.1 h1
  have ht : (0 : ℝ) < ε / 2 := by positivity
  have h3 := h2 (y := ε / 2) (by rw [Real.dist_eq, sub_zero, abs_of_pos ht]; linarith)
  rw [elemSet_eq] at h3
  obtain ⟨w, ⟨w1, w2⟩, w3⟩ := h3
  set t := ε / 2
  have hx' : x = combo d M idx ((1 / (1 + t)) • w + (t / (1 + t)) • fun _ => 1 / (m : ℝ)) := by
    rw [map_add, map_smul, map_smul, ← hb, w3]
    have : (1 + t) ≠ 0 := by positivity
    funext i
    simp only [Pi.add_apply, Pi.smul_apply, Pi.sub_apply, smul_eq_mul]
    field_simp
    ring
  have e : ∀ j : Fin m, (if h : (j : Nat) < m then 1 / (1 + t) * w ⟨j, h⟩ + t / (1 + t) * (1 / m) else 0) =
    1 / (1 + t) * w j + t / (1 + t) * (1 / m) := fun j => dif_pos j.2
  refine ⟨fun j => if h : j < m then 1 / (1 + t) * w ⟨j, h⟩ + t / (1 + t) * (1 / m) else 0, fun j hj => ?_, ?_, fun i hi => ?_⟩
  · have := w1 ⟨j, hj⟩
    change 0 < (if h : j < m then 1 / (1 + t) * w ⟨j, h⟩ + t / (1 + t) * (1 / m) else 0)
    rw [dif_pos hj]
    positivity
  · rw [← Fin.sum_univ_eq_sum_range, sum_congr rfl fun j _ => e j, sum_add_distrib, ← mul_sum, w2, sum_const, card_univ, Fintype.card_fin,
      nsmul_eq_mul]
    have : (1 + t) ≠ 0 := by positivity
    field_simp
  · rw [← Fin.sum_univ_eq_sum_range (fun j => (if h : j < m then 1 / (1 + t) * w ⟨j, h⟩ + t / (1 + t) * (1 / m) else 0) * _),
      sum_congr rfl fun j _ => by rw [e j]]
    rw [show RefGeom.ext x i = x ⟨i, hi⟩ from ext_apply x i hi]
    exact congrFun hx' ⟨i, hi⟩

theorem elemSet_null {d : Nat} {M : Mesh} {idx idx' : List Nat} (h0 : 0 < idx.length)
    (h : ∀ x, InInterior d M idx x → ¬ InElement d M idx' x) : volume (elemSet d M idx ∩ elemSet d M idx') = 0 := by
  refine measure_mono_null (fun x hx => ?_) ((elemSet_convex d M idx).addHaar_frontier volume)
  exact ⟨subset_closure hx.1, fun hi => h _ (interior_strict d M idx h0 x hi) hx.2⟩

variable {d id cid n : Nat} {M : Mesh}

theorem elements_inj (hv : Valid d id cid n M) {i j : Nat} (hi : i < M.elements.length) (hj : j < M.elements.length)
    (h : M.elements[i] = M.elements[j]) : i = j := by
  have h1 := hv.element_index i _ (List.getElem?_eq_getElem hi)
  have h2 := hv.element_index j _ (List.getElem?_eq_getElem hj)
  rw [h] at h1
  omega

theorem refSet_mesh (hv : Valid d id cid n M) : refSet d id = ⋃ i : Fin M.elements.length, elemSet d M M.elements[i].2 := by
  ext x
  rw [Set.mem_iUnion]
  constructor
  · intro hx
    obtain ⟨e, he, hx⟩ := hv.cover _ hx
    obtain ⟨i, hi, rfl⟩ := List.getElem_of_mem he
    exact ⟨⟨i, hi⟩, hx⟩
  · rintro ⟨i, hx⟩
    exact hv.inside _ (List.getElem_mem i.2) _ (fun k hk => dif_neg (by omega)) hx

/-- integrals over the reference element are sums of integrals over the elements of the mesh -/
theorem integral_mesh (hv : Valid d id cid n M) (h0 : 0 < refSize d cid d) {f : (Fin d → ℝ) → ℝ} (hf : IntegrableOn f (refSet d id)) :
    ∫ x in refSet d id, f x = (M.elements.map fun e => ∫ x in elemSet d M e.2, f x).sum := by
  have hm := refSet_mesh hv
  rw [hm] at hf ⊢
  rw [integral_iUnion_ae (fun i => (elemSet_compact d M _).isClosed.measurableSet.nullMeasurableSet) (fun i j hij => ?_) hf, tsum_fintype]
  · exact Fin.sum_univ_fun_getElem M.elements fun e => ∫ x in elemSet d M e.2, f x
  · refine elemSet_null (h0.trans_eq (hv.corners _ (List.getElem_mem i.2)).1.symm) fun x hx hx' => hij ?_
    exact Fin.ext (elements_inj hv i.2 j.2 (hv.disjoint _ (List.getElem_mem i.2) _ (List.getElem_mem j.2) x hx hx'))

/-- no element is flat -/
theorem elem_positive (hv : Valid d id cid n M) (h0 : 0 < refSize d cid d) (hd : 0 < volume.real (refSet d id)) {e : Nat × List Nat}
    (he : e ∈ M.elements) : 0 < volume.real (elemSet d M e.2) := by
  by_contra hneg
  have hz : volume (elemSet d M e.2) = 0 := by
    have h1 : volume.real (elemSet d M e.2) = 0 := le_antisymm (not_lt.1 hneg) measureReal_nonneg
    rwa [Measure.real, ENNReal.toReal_eq_zero_iff, or_iff_left (elemSet_compact d M e.2).measure_lt_top.ne] at h1
  obtain ⟨i, hi, rfl⟩ := List.getElem_of_mem he
  set L := M.elements[i].2.length with hL
  have hl : 0 < L := h0.trans_eq (hv.corners _ he).1.symm
  -- the centroid is in no other element
  set x0 : Fin d → ℝ := combo d M M.elements[i].2 fun _ => 1 / L with hx0
  have hin : InInterior d M M.elements[i].2 (RefGeom.ext x0) := by
    refine ⟨fun _ => 1 / L, fun j _ => by positivity, ?_, fun k hk => ?_⟩
    · rw [sum_const, card_range, nsmul_eq_mul, ← hL]
      field_simp
    · rw [ext_apply x0 k hk, ← Fin.sum_univ_eq_sum_range (fun j => 1 / (L : ℝ) * _)]
      rfl
  have hmem : x0 ∈ refSet d id := by
    rw [refSet_mesh hv, Set.mem_iUnion]
    obtain ⟨w, w1, w2⟩ := hin
    exact ⟨⟨i, hi⟩, w, fun j hj => (w1 j hj).le, w2⟩
  set U : Set (Fin d → ℝ) := ⋃ j : {j : Fin M.elements.length // j ≠ ⟨i, hi⟩}, elemSet d M M.elements[j.1].2 with hU
  have hUc : IsClosed U := isClosed_iUnion_of_finite fun j => (elemSet_compact d M _).isClosed
  have hxU : x0 ∉ U := by
    rw [hU, Set.mem_iUnion]
    rintro ⟨⟨j, hj⟩, hx⟩
    refine hj (Fin.ext ?_)
    exact (elements_inj hv hi j.2 (hv.disjoint _ he _ (List.getElem_mem j.2) _ hin hx)).symm
  have hsub : refSet d id ∩ Uᶜ ⊆ elemSet d M M.elements[i].2 := by
    rintro x ⟨hx, hxu⟩
    rw [refSet_mesh hv, Set.mem_iUnion] at hx
    obtain ⟨j, hj⟩ := hx
    by_cases hji : j = ⟨i, hi⟩
    · subst hji; exact hj
    · exact absurd (Set.mem_iUnion.2 ⟨⟨j, hji⟩, hj⟩) hxu
  have hconv : Convex ℝ (refSet d id) := convex_refSet d id
  have hne : (interior (refSet d id)).Nonempty := by
    by_contra hem
    rw [Set.not_nonempty_iff_eq_empty] at hem
    have : volume (refSet d id) = 0 := measure_mono_null
      (show refSet d id ⊆ frontier (refSet d id) from fun x hx => ⟨subset_closure hx, by rw [hem]; exact Set.notMem_empty x⟩)
      (hconv.addHaar_frontier volume)
    rw [Measure.real, this] at hd
    exact lt_irrefl _ hd
  have hcl : x0 ∈ closure (interior (refSet d id)) := by
    rw [hconv.closure_interior_eq_closure_of_nonempty_interior hne]
    exact subset_closure hmem
  obtain ⟨y, hy, hy'⟩ := mem_closure_iff.1 hcl Uᶜ hUc.isOpen_compl hxU
  have hopen : IsOpen (Uᶜ ∩ interior (refSet d id)) := hUc.isOpen_compl.inter isOpen_interior
  refine (hopen.measure_pos volume ⟨y, hy, hy'⟩).ne' (measure_mono_null (fun z hz => hsub ⟨interior_subset hz.2, hz.1⟩) hz)

/-! ### elements as images of reference elements -/

open Matrix hiding vec

/-- a cell of the refinement of a cube is a scaled copy of the cube -/
theorem cell_placed {t c : GeometryType} (ht : Regular t) (hc : Regular c) (hcd : c.dim = t.dim) (h1 : 1 ≤ t.dim) (h30 : t.dim ≤ 30)
    (hs : Supported t c .hcube) {n : Nat} (hn : 0 < n) {fuel : Nat} (hV : nVertices t.dim n .hcube < fuel)
    (hE : nElements t.dim n .hcube < fuel) {M : Mesh} (hM : writeMesh t c n fuel = some M) {e : Nat × List Nat} (he : e ∈ M.elements)
    (tol : ℝ) : ∃ lo : Vec ℝ, ImageOf (part t.dim c.id tol M e.2) lo (fun j r => if j = r then 1 / n else 0) ∧
      ∀ z s, s < t.dim → (part t.dim c.id tol M e.2).global z s = lo s + 1 / n * z s := by
  have hcid : c.id < 2 ^ t.dim := by rw [← hcd]; exact hc.valid
  obtain ⟨lo, hlo⟩ := cell_corners ht hc hcd h1 h30 hs hn hV hE hM he
  have hcc : IsCubeId t.dim c.id := fun k a b => hs.2.2 k a (by omega)
  refine ⟨lo, fun k p hp j hj => ?_, fun z s hs' => ?_⟩
  · change (referenceCorners (K := ℝ) t.dim c.id)[k]? = some p at hp
    change j < t.dim at hj
    have hk : k < 2 ^ t.dim := by
      have := (List.getElem?_eq_some_iff.1 hp).1
      rwa [C17_count, cube_size _ _ hcc] at this
    change point M (e.2.getD k 0) j = lo j + ∑ r ∈ range t.dim, (if j = r then 1 / (n : ℝ) else 0) * p r
    have hpj : p j = if k.testBit j then 1 else 0 := by
      rw [← Neighbour.cube_corner t.dim c.id hcc k hk j, RefGeom.corner, List.getD_eq_getElem?_getD, hp]; rfl
    simp only [ite_mul, zero_mul, sum_ite_eq, mem_range, hj, if_true]
    rw [hlo k hk j hj, hpj]
  · rw [MultiLinear.global_eq _ hcid]
    change ML tol (topoOf t.dim c.id) _ z = _
    rw [topoOf_cube _ _ hcc]
    exact ML_coord t.dim lo _ _ hlo z s hs'

theorem imageOf_part {t c : GeometryType} (ht : Regular t) (hc : Regular c) (hcd : c.dim = t.dim) (h1 : 1 ≤ t.dim) (h30 : t.dim ≤ 30)
    {imp : Imp} (hs : Supported t c imp) {n : Nat} (hn : 0 < n) {fuel : Nat} (hV : nVertices t.dim n imp < fuel)
    (hE : nElements t.dim n imp < fuel) {M : Mesh} (hM : writeMesh t c n fuel = some M) {e : Nat × List Nat} (he : e ∈ M.elements)
    (tol : ℝ) : ∃ b B, ImageOf (part t.dim c.id tol M e.2) b B := by
  have key : SimplexShape c → ∃ b B, ImageOf (part t.dim c.id tol M e.2) b B := fun hsc =>
    ⟨_, _, imageOf_simplex (part t.dim c.id tol M e.2) fun k a _ => hsc k a⟩
  cases imp with
  | simplex => exact key hs.2
  | hcubeTriangulation => exact key hs.2.2
  | prismTriangulation => exact key hs.2
  | pyramidTriangulation => exact key hs.2
  | hcube =>
    obtain ⟨lo, h, -⟩ := cell_placed ht hc hcd h1 h30 hs hn hV hE hM he tol
    exact ⟨lo, _, h⟩

theorem elem_image {d cid : Nat} {tol : ℝ} {M : Mesh} {idx : List Nat} {b : Vec ℝ} {B : Mat ℝ} (h : ImageOf (part d cid tol M idx) b B)
    (hl : idx.length = refSize d cid d) :
    elemSet d M idx = (fun x : Fin d → ℝ => vec d b + mat d d B *ᵥ x) '' refSet d cid := by
  have hcorner : ∀ k, k < idx.length → ∃ p, (referenceCorners (K := ℝ) d cid)[k]? = some p ∧ (∀ r, d ≤ r → p r = 0) ∧ ∀ j, j < d →
      point M (idx.getD k 0) j = b j + ∑ r ∈ range d, B j r * p r := fun k hk => by
    have hk' : k < (referenceCorners (K := ℝ) d cid).length := by rw [C17_count]; omega
    refine ⟨_, List.getElem?_eq_getElem hk', ?_, h k _ (List.getElem?_eq_getElem hk')⟩
    exact domain_zero (subset_convexHull ℝ _ (List.getElem_mem hk'))
  choose! p hp hp0 hpj using hcorner
  have hpe : ∀ k, k < idx.length → RefGeom.ext (fun i : Fin d => p k i) = p k := fun k hk => by
    funext r
    by_cases hr : r < d
    · exact ext_apply _ r hr
    · rw [RefGeom.ext, dif_neg hr, hp0 k hk r (by omega)]
  have hpm : ∀ k, k < idx.length → (fun i : Fin d => p k i) ∈ refSet d cid := fun k hk => by
    rw [refSet, Set.mem_ofPred_eq, hpe k hk]
    exact subset_convexHull ℝ _ (List.mem_of_getElem? (hp k hk))
  have himg : ∀ k (hk : k < idx.length), (fun i : Fin d => point M (idx.getD k 0) i) = vec d b + mat d d B *ᵥ fun i : Fin d => p k i := fun k hk => by
    funext j
    rw [hpj k hk j j.2, Pi.add_apply, mulVec, dotProduct]
    exact congrArg (b j + ·) (Fin.sum_univ_eq_sum_range (fun r => B j r * p k r) d).symm
  have hmem : ∀ k, k < idx.length → (fun i : Fin d => point M (idx.getD k 0) i) ∈ elemSet d M idx := fun k hk => by
    rw [elemSet_eq]
    refine ⟨Pi.single ⟨k, hk⟩ 1, single_mem_stdSimplex ℝ _, ?_⟩
    funext i
    change ∑ j : Fin idx.length, (Pi.single (⟨k, hk⟩ : Fin idx.length) (1 : ℝ) : Fin idx.length → ℝ) j * point M (idx.getD j 0) i = _
    rw [sum_eq_single_of_mem ⟨k, hk⟩ (mem_univ _) fun j _ hj => by rw [Pi.single_eq_of_ne hj, zero_mul], Pi.single_eq_same, one_mul]
  ext y
  constructor
  · intro hy
    rw [elemSet_eq] at hy
    obtain ⟨w, ⟨w1, w2⟩, rfl⟩ := hy
    refine ⟨∑ k, w k • fun i : Fin d => p k i, (convex_refSet d cid).sum_mem (fun k _ => w1 k) w2 fun k _ => hpm k k.2, ?_⟩
    have e : combo d M idx w = ∑ k, w k • fun i : Fin d => point M (idx.getD k 0) i := by
      funext i
      rw [Finset.sum_apply]
      rfl
    have e' : ∑ k : Fin idx.length, w k • (fun i : Fin d => point M (idx.getD k 0) i) =
        ∑ k : Fin idx.length, w k • (vec d b + mat d d B *ᵥ fun i : Fin d => p k i) := sum_congr rfl fun k _ => by rw [himg k k.2]
    rw [e, e']
    simp only [smul_add, sum_add_distrib, ← sum_smul, w2, one_smul, mulVec_sum, mulVec_smul]
  · rintro ⟨x, hx, rfl⟩
    have hsub : domain ℝ d cid ⊆ {v | vec d b + mat d d B *ᵥ vec d v ∈ elemSet d M idx} := by
      refine convexHull_min (fun q hq => ?_) fun v hv v' hv' s t h1 h2 h3 => ?_
      · obtain ⟨k, hk, rfl⟩ := List.getElem_of_mem hq
        have hk' : k < idx.length := by rw [C17_count] at hk; omega
        have := Option.some.inj ((hp k hk').symm.trans (List.getElem?_eq_getElem hk))
        rw [← this]
        have h4 := hmem k hk'
        rw [himg k hk'] at h4
        exact h4
      · have := elemSet_convex d M idx hv hv' h1 h2 h3
        have e : vec d b + mat d d B *ᵥ vec d (s • v + t • v') = s • (vec d b + mat d d B *ᵥ vec d v) + t • (vec d b + mat d d B *ᵥ vec d v') := by
          have e1 : vec d (s • v + t • v') = s • vec d v + t • vec d v' := rfl
          rw [e1, mulVec_add, mulVec_smul, mulVec_smul, smul_add, smul_add, add_add_add_comm, ← add_smul, h3, one_smul]
        rwa [← e] at this
    have := hsub hx
    have e : vec d (RefGeom.ext x) = x := by
      funext i
      exact ext_apply x i i.2
    rwa [Set.mem_ofPred_eq, e] at this

/-- integrals over an element of the mesh -/
theorem elem_integral {d cid : Nat} {tol : ℝ} {M : Mesh} {idx : List Nat} {b : Vec ℝ} {B : Mat ℝ} (h : ImageOf (part d cid tol M idx) b B)
    (hl : idx.length = refSize d cid d) (hB : (mat d d B).det ≠ 0) (f : (Fin d → ℝ) → ℝ) :
    ∫ x in elemSet d M idx, f x = |(mat d d B).det| * ∫ x in refSet d cid, f (vec d b + mat d d B *ᵥ x) := by
  have hder : ∀ x, HasFDerivAt (fun x : Fin d → ℝ => vec d b + mat d d B *ᵥ x) (toLin' (mat d d B)).toContinuousLinearMap x := fun x =>
    (ContinuousLinearMap.hasFDerivAt (toLin' (mat d d B)).toContinuousLinearMap).const_add _
  have hinj : Set.InjOn (fun x : Fin d → ℝ => vec d b + mat d d B *ᵥ x) (refSet d cid) := fun x _ y _ hxy =>
    mulVec_injective_of_isUnit ((isUnit_iff_isUnit_det _).2 (isUnit_iff_ne_zero.2 hB)) (add_left_cancel hxy)
  rw [elem_image h hl, integral_image hder hinj, ← integral_const_mul]
  simp only [mul_comm]

theorem elem_det {d id cid n : Nat} {tol : ℝ} {M : Mesh} (hv : Valid d id cid n M) (h0 : 0 < refSize d cid d) (hd : 0 < volume.real (refSet d id))
    {e : Nat × List Nat} (he : e ∈ M.elements) {b : Vec ℝ} {B : Mat ℝ} (h : ImageOf (part d cid tol M e.2) b B) : (mat d d B).det ≠ 0 := by
  intro hz
  have hp := elem_positive hv h0 hd he
  rw [elem_image h (hv.corners e he).1, show (fun x : Fin d → ℝ => vec d b + mat d d B *ᵥ x) =
    (fun x => vec d b + x) ∘ toLin' (mat d d B) from funext fun x => by rw [Function.comp, toLin'_apply], Set.image_comp, Measure.real,
    Set.image_add_left, measure_preimage_add, Measure.addHaar_image_linearMap, LinearMap.det_toLin', hz] at hp
  simp at hp

end Verif.Image
