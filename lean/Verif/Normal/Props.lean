import Verif.Normal.Lemmas

/-!
C104: normals of mapped elements.  Callers obtain the outer normal of a facet of an element as
`integrationElement(x) * jacobianInverseTransposed(x) * referenceElement.integrationOuterNormal(i)`.  The geometry classes
take both factors from `rightInvA` (affinegeometry.hh:101-128, multilineargeometry.hh:350-353, 736-743,
mappedgeometry.hh), modelled in `MatHelp`, `Affine` and `MultiLinear`; the normals of the reference element are those of
`RefGeom`.
-/

namespace Verif.Normal

open Verif.RefGeom Verif.MatHelp Verif.RefTopo Verif.Typ Verif.MultiLinear Verif.Neighbour Verif.Affine
open Finset hiding ext
open Matrix hiding vec

/-! ### the specification -/

/-- the normal that callers compute from the pair (integration element, transposed inverse) and the normal of the
reference element -/
noncomputable def mappedNormal (d : Nat) (r : ℝ × Mat ℝ) (n : Vec ℝ) : Fin d → ℝ := r.1 • (mat d d r.2 *ᵥ vec d n)

/-- `n` and `e` are the normal and the embedding of facet `i` of the reference element -/
structure IsFacet (d id i : Nat) (n : Vec ℝ) (e : Vec ℝ × Mat ℝ) : Prop where
  lt : i < refSize d id 1
  normal : (referenceIntegrationOuterNormals (K := ℝ) d d id)[i]? = some n
  embedding : (referenceEmbeddings (K := ℝ) d id 1)[i]? = some e

/-- the tangents of the facet, one per row -/
def tangents (d : Nat) (e : Vec ℝ × Mat ℝ) : Matrix (Fin (d - 1)) (Fin d) ℝ := mat (d - 1) d e.2

/-! ### helper lemmas -/

theorem dot_eq (d : Nat) (v w : Vec ℝ) : dot d v w = vec d v ⬝ᵥ vec d w := by
  rw [dot, Finset.sum_range]
  rfl

theorem tangent_normal {d id i : Nat} (hd : 0 < d) {n : Vec ℝ} {e : Vec ℝ × Mat ℝ} (hf : IsFacet d id i n e) :
    tangents d e *ᵥ vec d n = 0 := by
  obtain ⟨n', e', h1, h2, h3⟩ := C22_orthogonal (K := ℝ) d id i hd hf.lt
  obtain rfl := Option.some.inj (hf.normal.symm.trans h1)
  obtain rfl := Option.some.inj (hf.embedding.symm.trans h2)
  funext r
  have := h3 r r.2
  rw [dot_eq, dotProduct_comm] at this
  exact this

theorem normal_length {d id i : Nat} (hd : 0 < d) {n : Vec ℝ} {e : Vec ℝ × Mat ℝ} (hf : IsFacet d id i n e) :
    0 < vec d n ⬝ᵥ vec d n ∧ vec d n ⬝ᵥ vec d n = (tangents d e * (tangents d e)ᵀ).det := by
  obtain ⟨n', e', h1, h2, h3, h4⟩ := C22_length (K := ℝ) d id i hd hf.lt
  obtain rfl := Option.some.inj (hf.normal.symm.trans h1)
  obtain rfl := Option.some.inj (hf.embedding.symm.trans h2)
  rw [dot_eq] at h3 h4
  refine ⟨h3, h4.trans ?_⟩
  congr 1
  ext r s
  rw [mul_apply, of_apply, Finset.sum_range]
  rfl

theorem inv_facts {d : Nat} {jt : Mat ℝ} {r : ℝ × Mat ℝ} (hr : rightInvA d d jt = some r) :
    mat d d jt * mat d d r.2 = 1 ∧ r.1 = |(mat d d jt).det| ∧ 0 < r.1 := by
  by_cases hA : LinearIndependent ℝ (mat d d jt).row
  · obtain ⟨R, h1, h2, _⟩ := C26_rightInvA d d jt (le_refl _) hA
    rw [hr] at h1
    obtain rfl := Option.some.inj h1
    have e : Real.sqrt (mat d d jt * (mat d d jt)ᵀ).det = |(mat d d jt).det| := by
      rw [det_mul, det_transpose, Real.sqrt_mul_self_eq_abs]
    refine ⟨h2, e, ?_⟩
    change 0 < Real.sqrt _
    rw [e, abs_pos]
    intro h0
    have := congrArg Matrix.det h2
    rw [det_mul, h0, zero_mul, det_one] at this
    exact zero_ne_one this
  · rw [C26_rightInvA_singular d d jt (le_refl _) hA] at hr
    cases hr

theorem normal_apply {d : Nat} {jt : Mat ℝ} {r : ℝ × Mat ℝ} (hr : rightInvA d d jt = some r) (n : Vec ℝ) (v : Fin d → ℝ) :
    mappedNormal d r n ⬝ᵥ ((mat d d jt)ᵀ *ᵥ v) = r.1 * (vec d n ⬝ᵥ v) := by
  rw [mappedNormal, smul_dotProduct, smul_eq_mul, mulVec_transpose, dotProduct_comm, ← dotProduct_mulVec, mulVec_mulVec,
    (inv_facts hr).1, one_mulVec, dotProduct_comm]

theorem normal_gram {d id i : Nat} (hd : 0 < d) {n : Vec ℝ} {e : Vec ℝ × Mat ℝ} (hf : IsFacet d id i n e) {jt : Mat ℝ}
    {r : ℝ × Mat ℝ} (hr : rightInvA d d jt = some r) :
    ((tangents d e * mat d d jt) * (tangents d e * mat d d jt)ᵀ).det = mappedNormal d r n ⬝ᵥ mappedNormal d r n ∧
    0 < mappedNormal d r n ⬝ᵥ mappedNormal d r n ∧ (tangents d e * mat d d jt) *ᵥ mappedNormal d r n = 0 := by
  obtain ⟨h1, h2, h3⟩ := inv_facts hr
  obtain ⟨p1, p2⟩ := normal_length hd hf
  have hg := facet_gram (m := d - 1) (by omega) (mat d d jt) (mat d d r.2) h1 (tangents d e) (vec d n) (tangent_normal hd hf) p2 p1
  have hN : mappedNormal d r n ⬝ᵥ mappedNormal d r n = r.1 ^ 2 * ((mat d d r.2 *ᵥ vec d n) ⬝ᵥ (mat d d r.2 *ᵥ vec d n)) := by
    rw [mappedNormal, smul_dotProduct, dotProduct_smul, smul_eq_mul, smul_eq_mul]
    ring
  have hw : 0 < (mat d d r.2 *ᵥ vec d n) ⬝ᵥ (mat d d r.2 *ᵥ vec d n) := by
    refine lt_of_le_of_ne (Finset.sum_nonneg fun _ _ => mul_self_nonneg _) fun h => ?_
    have hz := dotProduct_self_eq_zero.1 h.symm
    have := congrArg (mat d d jt *ᵥ ·) hz
    simp only [mulVec_mulVec, h1, one_mulVec, mulVec_zero] at this
    rw [this] at p1
    simp at p1
  refine ⟨?_, by rw [hN]; positivity, ?_⟩
  · rw [hg, hN, h2, sq_abs]
  · rw [mappedNormal, mulVec_smul, mulVec_mulVec, Matrix.mul_assoc, h1, Matrix.mul_one, tangent_normal hd hf, smul_zero]

theorem embed_vec (d : Nat) (e : Vec ℝ × Mat ℝ) (x : Vec ℝ) :
    vec d (embed (d - 1) e x) = vec d e.1 + (tangents d e)ᵀ *ᵥ vec (d - 1) x := by
  funext j
  change e.1 j + ∑ r ∈ range (d - 1), e.2 r j * x r = e.1 j + ∑ r : Fin (d - 1), e.2 r j * x r
  rw [Finset.sum_range]

theorem facet_origin {d id i : Nat} (hd : 0 < d) {n : Vec ℝ} {e : Vec ℝ × Mat ℝ} (hf : IsFacet d id i n e) :
    (referenceOrigins (K := ℝ) d id 1)[i]? = some e.1 := by
  have h := rep_topoOf d id
  obtain ⟨f, hfc, hfi⟩ := exists_face h hd hf.lt
  have he := embedding_face (K := ℝ) h f
  rw [hfc, hfi, hf.embedding] at he
  rw [Option.some.inj he, origins_eq h 1 hd, List.getElem?_map, ← hfi, faces_getElem f 1 hfc]
  rfl

/-- values of the reference normal on the element, seen from a point of the facet -/
theorem outward {d id i : Nat} (hd : 0 < d) (hid : id < 2 ^ d) {n : Vec ℝ} {e : Vec ℝ × Mat ℝ} (hf : IsFacet d id i n e)
    (x : Vec ℝ) :
    (∀ y : Vec ℝ, (∀ k, d ≤ k → y k = 0) → y ∈ domain ℝ d id → vec d n ⬝ᵥ (vec d y - vec d (embed (d - 1) e x)) ≤ 0) ∧
    (∀ y : Vec ℝ, checkInside d id y 0 1 = true → vec d n ⬝ᵥ (vec d y - vec d (embed (d - 1) e x)) < 0) := by
  obtain ⟨n', o, h1, h2, h3, h4, _⟩ := C22_outward (K := ℝ) d id i hid hd hf.lt
  obtain rfl := Option.some.inj (hf.normal.symm.trans h1)
  obtain rfl := Option.some.inj ((facet_origin hd hf).symm.trans h2)
  have key : ∀ y : Vec ℝ, vec d n ⬝ᵥ (vec d y - vec d (embed (d - 1) e x)) = dot d n y - dot d n e.1 := by
    intro y
    rw [embed_vec, dot_eq, dot_eq, dotProduct_sub, dotProduct_add, dotProduct_mulVec, vecMul_transpose, tangent_normal hd hf,
      zero_dotProduct, add_zero]
  refine ⟨fun y hy hy' => ?_, fun y hy => ?_⟩
  · rw [key]; linarith [h3 y hy hy']
  · rw [key]; linarith [h4 y hy]

theorem affine_inv {d id : Nat} {o : Vec ℝ} {jt : Mat ℝ} {g : AffineGeometry}
    (hg : AffineGeometry.ofJacobian d d id o jt = some g) :
    rightInvA d d jt = some (g.integrationElement, g.jacobianInverseTransposed) := by
  rw [AffineGeometry.ofJacobian] at hg
  cases h : rightInvA d d jt with
  | none => rw [h] at hg; cases hg
  | some r =>
    rw [h] at hg
    obtain rfl := Option.some.inj hg
    rfl

theorem affine_global {m n id : Nat} {o : Vec ℝ} {jt : Mat ℝ} {g : AffineGeometry} (hmn : m ≤ n)
    (hg : AffineGeometry.ofJacobian m n id o jt = some g) (x : Vec ℝ) :
    vec n (g.global x) = vec n o + (mat m n jt)ᵀ *ᵥ vec m x := by
  obtain ⟨rfl, rfl, rfl, rfl, rfl, _⟩ := ofJacobian_good hmn hg
  exact Affine.global_eq g x

theorem li_of_gram {m n : Nat} {A : Matrix (Fin m) (Fin n) ℝ} (h : (A * Aᵀ).det ≠ 0) : LinearIndependent ℝ A.row := by
  rw [← Matrix.vecMul_injective_iff]
  intro v w hvw
  have h1 : (v - w) ᵥ* (A * Aᵀ) = 0 := by
    rw [← vecMul_vecMul, sub_vecMul]
    simp only at hvw
    rw [hvw, _root_.sub_self, zero_vecMul]
  exact sub_eq_zero.1 (eq_zero_of_vecMul_eq_zero h h1)

/-! ### C104 -/

/-- C104: the product of the normal with the image of a direction is, up to the positive integration element, the product
of the reference normal with the direction.  `jt` is whatever the geometry class hands to `rightInvA`. -/
theorem C104_direction (d : Nat) (jt : Mat ℝ) (r : ℝ × Mat ℝ) (hr : rightInvA d d jt = some r) (n v : Vec ℝ) :
    mappedNormal d r n ⬝ᵥ ((mat d d jt)ᵀ *ᵥ vec d v) = r.1 * dot d n v ∧ 0 < r.1 := by
  rw [dot_eq]
  exact ⟨normal_apply hr n _, (inv_facts hr).2.2⟩

/-- every facet has a normal and an embedding -/
theorem facet_exists (d id i : Nat) (hd : 0 < d) (hi : i < refSize d id 1) : ∃ n e, IsFacet d id i n e := by
  obtain ⟨n, e, h1, h2, _⟩ := C22_orthogonal (K := ℝ) d id i hd hi
  exact ⟨n, e, hi, h1, h2⟩

/-- the last facet of the pyramid -/
example : ∃ n e, IsFacet 3 3 4 n e := facet_exists 3 3 4 (by norm_num) (by decide)

/-! #### affine elements -/

/-- C104: the normal of an affine element is orthogonal to its facet, not zero, and the element lies behind the facet. -/
theorem C104_affine (d id i : Nat) (hd : 0 < d) (hid : id < 2 ^ d) (o : Vec ℝ) (jt : Mat ℝ) (g : AffineGeometry)
    (hg : AffineGeometry.ofJacobian d d id o jt = some g) (n : Vec ℝ) (e : Vec ℝ × Mat ℝ) (hf : IsFacet d id i n e) :
    (∀ x y : Vec ℝ, mappedNormal d (g.integrationElement, g.jacobianInverseTransposed) n ⬝ᵥ
      (vec d (g.global (embed (d - 1) e y)) - vec d (g.global (embed (d - 1) e x))) = 0) ∧
    0 < mappedNormal d (g.integrationElement, g.jacobianInverseTransposed) n ⬝ᵥ
      mappedNormal d (g.integrationElement, g.jacobianInverseTransposed) n ∧
    (∀ x y : Vec ℝ, (∀ k, d ≤ k → y k = 0) → y ∈ domain ℝ d id →
      mappedNormal d (g.integrationElement, g.jacobianInverseTransposed) n ⬝ᵥ
        (vec d (g.global y) - vec d (g.global (embed (d - 1) e x))) ≤ 0) ∧
    (∀ x y : Vec ℝ, checkInside d id y 0 1 = true →
      mappedNormal d (g.integrationElement, g.jacobianInverseTransposed) n ⬝ᵥ
        (vec d (g.global y) - vec d (g.global (embed (d - 1) e x))) < 0) := by
  have hr := affine_inv hg
  have hdiff := C29_derivative d d id o jt (le_refl _) g hg
  have hj := C29_jacobians d d id o jt (le_refl _) g hg
  have key : ∀ x y : Vec ℝ, mappedNormal d (g.integrationElement, g.jacobianInverseTransposed) n ⬝ᵥ
      (vec d (g.global y) - vec d (g.global x)) = g.integrationElement * (vec d n ⬝ᵥ (vec d y - vec d x)) := by
    intro x y
    rw [hdiff, hj.2.1, hj.1]
    exact normal_apply hr n _
  have hpos : 0 < g.integrationElement := (inv_facts hr).2.2
  refine ⟨fun x y => ?_, (normal_gram hd hf hr).2.1, fun x y hy hy' => ?_, fun x y hy => ?_⟩
  · rw [key, embed_vec, embed_vec, add_sub_add_left_eq_sub, ← mulVec_sub, dotProduct_mulVec, vecMul_transpose,
      tangent_normal hd hf, zero_dotProduct, mul_zero]
  · rw [key]
    exact mul_nonpos_of_nonneg_of_nonpos hpos.le ((outward hd hid hf x).1 y hy hy')
  · rw [key]
    exact mul_neg_of_pos_of_neg hpos ((outward hd hid hf x).2 y hy)

/-- C104: the length of the normal is the integration element of the facet's own geometry: the affine geometry of the
facet's type through the image of the facet. -/
theorem C104_affine_length (d id i : Nat) (hd : 0 < d) (o : Vec ℝ) (jt : Mat ℝ) (g : AffineGeometry)
    (hg : AffineGeometry.ofJacobian d d id o jt = some g) (n : Vec ℝ) (e : Vec ℝ × Mat ℝ) (hf : IsFacet d id i n e) (fid : Nat)
    (o' : Vec ℝ) (jt' : Mat ℝ) (hjt' : mat (d - 1) d jt' = tangents d e * mat d d g.jacobianTransposed) :
    ∃ gf, AffineGeometry.ofJacobian (d - 1) d fid o' jt' = some gf ∧
      gf.integrationElement ^ 2 = mappedNormal d (g.integrationElement, g.jacobianInverseTransposed) n ⬝ᵥ
        mappedNormal d (g.integrationElement, g.jacobianInverseTransposed) n ∧ 0 < gf.integrationElement ∧
      (vec d o' = vec d (g.global e.1) → ∀ x : Vec ℝ, vec d (gf.global x) = vec d (g.global (embed (d - 1) e x))) := by
  have hr := affine_inv hg
  have hj := (C29_jacobians d d id o jt (le_refl _) g hg).1
  rw [hj] at hjt'
  obtain ⟨h1, h2, h3⟩ := normal_gram hd hf hr
  rw [← hjt'] at h1
  have hli : LinearIndependent ℝ (mat (d - 1) d jt').row := li_of_gram (by rw [h1]; exact h2.ne')
  obtain ⟨gf, hgf⟩ := (C28_constructible (d - 1) d fid o' jt' (by omega)).2 hli
  obtain ⟨p1, p2, _⟩ := C29_integrationElement (d - 1) d fid o' jt' (by omega) gf hgf
  have hj' := C29_jacobians (d - 1) d fid o' jt' (by omega) gf hgf
  refine ⟨gf, hgf, ?_, p2, fun ho x => ?_⟩
  · rw [p1, hj'.2.1, hj'.1, transpose_transpose, Real.sq_sqrt, h1]
    rw [h1]; exact h2.le
  · rw [affine_global (by omega) hgf, affine_global (le_refl _) hg, ho, affine_global (le_refl _) hg, embed_vec, mulVec_add,
      hjt', transpose_mul, mulVec_mulVec, add_assoc]

/-- C104: the surface of an affine element is closed: the normals, weighted with the volumes of the reference facets, cancel,
and their products with points of the facets add up to `d` times the volume of the element. -/
theorem C104_affine_closed (d id : Nat) (hd : 0 < d) (hid : id < 2 ^ d) (o : Vec ℝ) (jt : Mat ℝ) (g : AffineGeometry)
    (hg : AffineGeometry.ofJacobian d d id o jt = some g) :
    (∑ i ∈ range (refSize d id 1), exactVolume ℝ (d - 1) (subTopologyId d id 1 i) •
      mappedNormal d (g.integrationElement, g.jacobianInverseTransposed)
        ((referenceIntegrationOuterNormals (K := ℝ) d d id).getD i (fun _ => 0)) = 0) ∧
    (∀ p : Nat → Vec ℝ, (∀ i, i < refSize d id 1 → ∃ e x, (referenceEmbeddings (K := ℝ) d id 1)[i]? = some e ∧
        p i = g.global (embed (d - 1) e x)) →
      ∑ i ∈ range (refSize d id 1), exactVolume ℝ (d - 1) (subTopologyId d id 1 i) *
        (mappedNormal d (g.integrationElement, g.jacobianInverseTransposed)
          ((referenceIntegrationOuterNormals (K := ℝ) d d id).getD i (fun _ => 0)) ⬝ᵥ vec d (p i)) =
      d * (g.integrationElement * exactVolume ℝ d id)) := by
  have hr := affine_inv hg
  obtain ⟨c1, c2⟩ := C22_closed (K := ℝ) d id hid hd
  have toSum : ∀ F : Nat → ℝ, ((List.range (refSize d id 1)).map F).sum = ∑ i ∈ range (refSize d id 1), F i := by
    intro F
    generalize refSize d id 1 = m
    induction m with
    | zero => rfl
    | succ m ih => rw [List.range_succ, List.map_append, List.sum_append, ih, Finset.sum_range_succ]; simp
  simp only [toSum] at c1 c2
  let N : Nat → Vec ℝ := fun i => (referenceIntegrationOuterNormals (K := ℝ) d d id).getD i (fun _ => 0)
  let V : Nat → ℝ := fun i => exactVolume ℝ (d - 1) (subTopologyId d id 1 i)
  have h1 : ∑ i ∈ range (refSize d id 1), V i • mappedNormal d (g.integrationElement, g.jacobianInverseTransposed) (N i) = 0 := by
    have hz : ∑ i ∈ range (refSize d id 1), V i • vec d (N i) = 0 := by
      funext k
      rw [Finset.sum_apply]
      exact c1 k
    have : ∀ i, V i • mappedNormal d (g.integrationElement, g.jacobianInverseTransposed) (N i) =
        g.integrationElement • (mat d d g.jacobianInverseTransposed *ᵥ (V i • vec d (N i))) := by
      intro i
      rw [mappedNormal, mulVec_smul, smul_comm]
    simp only [this]
    rw [← Finset.smul_sum, ← mulVec_sum, hz, mulVec_zero, smul_zero]
  refine ⟨h1, fun p hp => ?_⟩
  have hterm : ∀ i ∈ range (refSize d id 1), V i * (mappedNormal d (g.integrationElement, g.jacobianInverseTransposed) (N i) ⬝ᵥ
      vec d (p i)) = (V i • mappedNormal d (g.integrationElement, g.jacobianInverseTransposed) (N i)) ⬝ᵥ vec d o +
      g.integrationElement * (V i * dot d (N i) ((referenceOrigins (K := ℝ) d id 1).getD i (fun _ => 0))) := by
    intro i hi
    have hi := mem_range.1 hi
    obtain ⟨e, x, he, hpx⟩ := hp i hi
    have hlen : i < (referenceIntegrationOuterNormals (K := ℝ) d d id).length := by rw [C22_count d id hd]; exact hi
    have hn : (referenceIntegrationOuterNormals (K := ℝ) d d id)[i]? = some (N i) := by
      simp only [N, List.getD_eq_getElem?_getD]
      rw [List.getElem?_eq_getElem hlen]
      rfl
    have hf : IsFacet d id i (N i) e := ⟨hi, hn, he⟩
    have ho : (referenceOrigins (K := ℝ) d id 1).getD i (fun _ => 0) = e.1 := by
      rw [List.getD_eq_getElem?_getD, facet_origin hd hf]
      rfl
    rw [hpx, affine_global (le_refl _) hg, dotProduct_add, normal_apply hr, embed_vec, dotProduct_add, dotProduct_mulVec,
      vecMul_transpose, tangent_normal hd hf, zero_dotProduct, add_zero, ho, dot_eq, smul_dotProduct, smul_eq_mul]
    ring
  rw [Finset.sum_congr rfl hterm, Finset.sum_add_distrib, ← Finset.mul_sum, ← sum_dotProduct, h1, zero_dotProduct, zero_add]
  have hc2 : ∑ i ∈ range (refSize d id 1), V i * dot d (N i) ((referenceOrigins (K := ℝ) d id 1).getD i (fun _ => 0)) =
      d * exactVolume ℝ d id := c2
  rw [hc2]
  ring

/-- a sheared triangle: its facet 2 and a legal geometry -/
example : ∃ g n e, AffineGeometry.ofJacobian 2 2 0 (fun _ => 1) (fun i j => if i = j then 2 else if i < j then 1 else 0) = some g ∧
    IsFacet 2 0 2 n e := by
  obtain ⟨n, e, hf⟩ := facet_exists 2 0 2 (by norm_num) (by decide)
  obtain ⟨g, hg⟩ := (C28_constructible 2 2 0 (fun _ => 1) (fun i j => if i = j then 2 else if i < j then 1 else 0)
    (le_refl _)).2 (linearIndependent_rows_of_isUnit ((isUnit_iff_isUnit_det _).2 (isUnit_iff_ne_zero.2 (by
      rw [det_fin_two]; norm_num [mat]))))
  exact ⟨g, n, e, hg, hf⟩

/-! #### multilinear elements -/

/-- C104: the transposed Jacobian of the facet's own geometry is the one of the element, applied to the tangents of the
reference facet.  In any dimension of the world. -/
theorem C104_facet_jacobian (g : MultiLinearGeometry) (hg : Legal g) (hd : g.mydim ≤ 31) (h0 : 0 < g.mydim) (i : Nat)
    (n : Vec ℝ) (e : Vec ℝ × Mat ℝ) (hf : IsFacet g.mydim g.id i n e) (g' : MultiLinearGeometry)
    (hdim : g'.mydim = g.mydim - 1) (hid : g'.id = (refType g.mydim g.id i 1).id)
    (htol : g'.tol = g.tol)
    (hcor : ∀ v k, v < g'.corners → subEntity g.mydim g.id i 1 v g.mydim = some k → g'.corners_ v = g.corners_ k)
    (x : Vec ℝ) (hx : IsCubeId g.mydim g.id ∨ Inner g' x) :
    mat (g.mydim - 1) g.cdim (g'.jacobianTransposed x) =
      tangents g.mydim e * mat g.mydim g.cdim (g.jacobianTransposed (embed (g.mydim - 1) e x)) := by
  have hr := rep_topoOf g.mydim g.id
  obtain ⟨f, hfc, hfi⟩ := exists_face hr h0 hf.lt
  have hfd := Face.codim_add_dim f
  rw [hr.dim_eq] at hfd
  have he := embedding_face (K := ℝ) hr f
  rw [hfc, hfi, hf.embedding] at he
  obtain rfl := Option.some.inj he
  have hrs := rep_sub hr hg.id_lt f
  have hT := refType_eq g.mydim g.id f.idx f.codim hd hg.id_lt (by omega)
  rw [hfc, hfi] at hT
  have hid' : g'.id = subTopologyId g.mydim g.id 1 i := by rw [hid, hT]
  have hlt : g'.id < 2 ^ g'.mydim := by
    rw [hid', hdim]; exact subTopologyId_lt g.mydim g.id 1 i hg.id_lt h0
  rw [hfc, hfi, ← hdim, ← hid'] at hrs
  have hx12 : Away g.tol f.shape x ∧ Away g.tol (topoOf g'.mydim g'.id) x := by
    rcases hx with hc | hx
    · have hp := prisms_shape f (prisms_cube hc)
      rw [topoOf_prisms hrs hp]
      exact ⟨away_prisms _ _ _ hp, away_prisms _ _ _ hp⟩
    · rw [MultiLinear.Inner, htol] at hx
      exact ⟨away_of_checkInside hg.tol_pos.le hrs hx, away_of_checkInside hg.tol_pos.le (rep_topoOf _ _) hx⟩
  obtain ⟨hx1, hx2⟩ := hx12
  have hdc : g.mydim - 1 = f.shape.dim := by omega
  have hx3 := away_facet hg.tol_pos.le hg.tol_lt f x (lines_topoOf _ _) hfc.le hx1
  ext s j
  have hs : (s : Nat) < g'.mydim := by rw [hdim]; exact s.2
  rw [mul_apply]
  change g'.jacobianTransposed x s j = ∑ r : Fin g.mydim, jac f s r * g.jacobianTransposed _ r j
  rw [jt_eq g' hlt x s j hs, htol, MLd_facet hg.tol_pos.le hg.tol_lt f hrs (rep_topoOf _ _) (fun k => g.corners_ k j)
    (fun k => g'.corners_ k j) x ?_ hx1 hx2 hx3 s hs, hr.dim_eq, Finset.sum_range]
  · refine Finset.sum_congr rfl fun r _ => ?_
    have hem : emb f x = embed (g.mydim - 1) (orig f, jac f) x := by rw [hdc]; rfl
    rw [jt_eq g hg.id_lt _ r j r.2, hem]
  · intro w hw
    have hsub := subEntity_eq hr hg.id_lt f w
    rw [show f.codim + w.codim = g.mydim by omega, hfc, hfi] at hsub
    change g'.corners_ w.idx j = g.corners_ _ j
    rw [hcor w.idx _ ?_ hsub]
    rw [MultiLinearGeometry.corners, refSize, size_eq hrs _ (le_refl _), hdim, hdc, ← hw]
    exact Face.idx_lt w

/-- C104: at a point of the facet the normal of a multilinear element is orthogonal to the facet, its length is the
integration element of the facet's own geometry, and the directions into the element have a negative product with it. -/
theorem C104_multilinear (g : MultiLinearGeometry) (hg : Legal g) (hd : g.mydim ≤ 31) (h0 : 0 < g.mydim)
    (hsq : g.cdim = g.mydim) (i : Nat) (n : Vec ℝ) (e : Vec ℝ × Mat ℝ) (hf : IsFacet g.mydim g.id i n e)
    (g' : MultiLinearGeometry) (hdim : g'.mydim = g.mydim - 1) (hcd : g'.cdim = g.cdim)
    (hid : g'.id = (refType g.mydim g.id i 1).id) (htol : g'.tol = g.tol)
    (hcor : ∀ v k, v < g'.corners → subEntity g.mydim g.id i 1 v g.mydim = some k → g'.corners_ v = g.corners_ k)
    (x : Vec ℝ) (hx : IsCubeId g.mydim g.id ∨ Inner g' x) (r : ℝ × Mat ℝ)
    (hr : g.jacobianInverseTransposed (embed (g.mydim - 1) e x) = some r) :
    mat (g.mydim - 1) g.mydim (g'.jacobianTransposed x) *ᵥ mappedNormal g.mydim r n = 0 ∧
    (∃ ie, g'.integrationElement x = some ie ∧ 0 < ie ∧
      ie ^ 2 = mappedNormal g.mydim r n ⬝ᵥ mappedNormal g.mydim r n) ∧
    (∀ y : Vec ℝ, checkInside g.mydim g.id y 0 1 = true → mappedNormal g.mydim r n ⬝ᵥ
      (mat g.mydim g.mydim (g.jacobian (embed (g.mydim - 1) e x)) *ᵥ
        (vec g.mydim y - vec g.mydim (embed (g.mydim - 1) e x))) < 0) := by
  have hj := C104_facet_jacobian g hg hd h0 i n e hf g' hdim hid htol hcor x hx
  rw [hsq] at hj
  rw [MultiLinearGeometry.jacobianInverseTransposed, hsq] at hr
  obtain ⟨p1, p2, p3⟩ := normal_gram h0 hf hr
  rw [← hj] at p1 p3
  refine ⟨p3, ?_, fun y hy => ?_⟩
  · have hli : LinearIndependent ℝ (mat (g.mydim - 1) g.mydim (g'.jacobianTransposed x)).row :=
      li_of_gram (by rw [p1]; exact p2.ne')
    refine ⟨Real.sqrt (mat (g.mydim - 1) g.mydim (g'.jacobianTransposed x) *
      (mat (g.mydim - 1) g.mydim (g'.jacobianTransposed x))ᵀ).det, ?_, ?_, ?_⟩
    · rw [MultiLinearGeometry.integrationElement, hdim, hcd, hsq]
      exact C27_sqrtDetAAT_partial _ _ _ (Or.inl hli)
    · rw [p1]; exact Real.sqrt_pos.2 p2
    · rw [p1, Real.sq_sqrt p2.le]
  · have := normal_apply hr n (vec g.mydim y - vec g.mydim (embed (g.mydim - 1) e x))
    have h2 : mat g.mydim g.mydim (g.jacobian (embed (g.mydim - 1) e x)) =
      (mat g.mydim g.mydim (g.jacobianTransposed (embed (g.mydim - 1) e x)))ᵀ := rfl
    rw [h2, this]
    exact mul_neg_of_pos_of_neg (inv_facts hr).2.2 ((outward h0 hg.id_lt hf x).2 y hy)

/-- helper: cubes have no tips, other types need distance from them -/
theorem neighbours_of (g₁ g₂ : MultiLinearGeometry) (h₁ : Legal g₁) (h₂ : Legal g₂) (d : Nat) (h0 : 0 < d) (hd : d ≤ 31)
    (hd₁ : g₁.mydim = d) (hd₂ : g₂.mydim = d) (hw₁ : g₁.cdim = d) (hw₂ : g₂.cdim = d) (htol : g₂.tol = g₁.tol) (i₁ i₂ : Nat)
    (n₁ n₂ : Vec ℝ) (e₁ e₂ : Vec ℝ × Mat ℝ) (hf₁ : IsFacet d g₁.id i₁ n₁ e₁) (hf₂ : IsFacet d g₂.id i₂ n₂ e₂) (id : Nat)
    (hid₁ : (refType d g₁.id i₁ 1).id = id) (hid₂ : (refType d g₂.id i₂ 1).id = id) (hidm : id < 2 ^ (d - 1))
    (hcov : Covered (d - 1) id) (σ : Nat → Nat) (a : Vec ℝ) (M : Mat ℝ) (hsym : Symmetry (d - 1) id σ a M)
    (hcor : ∀ v, v < refSize (d - 1) id (d - 1) → ∃ k₁ k₂, subEntity d g₁.id i₁ 1 (σ v) d = some k₁ ∧
      subEntity d g₂.id i₂ 1 v d = some k₂ ∧ g₂.corners_ k₂ = g₁.corners_ k₁)
    (x : Vec ℝ) (hx : (IsCubeId d g₁.id ∧ IsCubeId d g₂.id ∧ IsCubeId (d - 1) id) ∨
      checkInside (d - 1) id x (-g₁.tol) 1 = true ∧ checkInside (d - 1) id (affMap (d - 1) a M x) (-g₁.tol) 1 = true) (r₁ r₂ : ℝ × Mat ℝ)
    (hr₁ : g₁.jacobianInverseTransposed (embed (d - 1) e₁ (affMap (d - 1) a M x)) = some r₁)
    (hr₂ : g₂.jacobianInverseTransposed (embed (d - 1) e₂ x) = some r₂) :
    (mappedNormal d r₂ n₂ = mappedNormal d r₁ n₁ ∨ mappedNormal d r₂ n₂ = -mappedNormal d r₁ n₁) ∧
    ((∃ v : Fin d → ℝ, vec d n₂ ⬝ᵥ v < 0 ∧
      0 < mappedNormal d r₁ n₁ ⬝ᵥ (mat d d (g₂.jacobian (embed (d - 1) e₂ x)) *ᵥ v)) →
      mappedNormal d r₂ n₂ = -mappedNormal d r₁ n₁) := by
  subst hd₁
  let gf : MultiLinearGeometry := ⟨g₁.mydim - 1, g₁.mydim, id,
    fun v => g₁.corners_ ((subEntity g₁.mydim g₁.id i₁ 1 v g₁.mydim).getD 0), g₁.tol⟩
  have hgf : Legal gf := ⟨hidm, h₁.tol_pos, h₁.tol_lt⟩
  have j1 := C104_facet_jacobian g₁ h₁ hd h0 i₁ n₁ e₁ hf₁ gf rfl hid₁.symm rfl
    (fun v k _ hk => by change g₁.corners_ _ = _; rw [hk]; rfl) (affMap (g₁.mydim - 1) a M x) (hx.imp (fun h => h.1) fun h => h.2)
  have j2 := C104_facet_jacobian g₂ h₂ (by omega) (by omega) i₂ n₂ e₂ (by rw [hd₂]; exact hf₂) (renumbered gf σ)
    (by rw [hd₂]; rfl) (by rw [hd₂]; exact hid₂.symm) htol.symm
    (fun v k hv hk => by
      rw [hd₂] at hk
      obtain ⟨k₁, k₂, hk₁, hk₂, he⟩ := hcor v hv
      rw [hk] at hk₂
      obtain rfl := Option.some.inj hk₂
      change g₁.corners_ ((subEntity g₁.mydim g₁.id i₁ 1 (σ v) g₁.mydim).getD 0) = _
      rw [hk₁, he]
      rfl) x (hx.imp (fun h => by rw [hd₂]; exact h.2.1) fun h => h.1)
  have haw : ∀ y, IsCubeId (g₁.mydim - 1) id ∨ checkInside (g₁.mydim - 1) id y (-g₁.tol) 1 = true → Away g₁.tol (topoOf (g₁.mydim - 1) id) y :=
    fun y hy => hy.elim (fun h => by rw [topoOf_cube _ _ h]; exact away_cube _ _) fun h => away_of_checkInside h₁.tol_pos.le (rep_topoOf _ _) h
  have j3 := jtT gf hgf hcov hsym x (haw _ (hx.imp (fun h => h.2.2) fun h => h.1)) (haw _ (hx.imp (fun h => h.2.2) fun h => h.2))
  rw [hw₁] at j1
  rw [hw₂, hd₂] at j2
  rw [MultiLinearGeometry.jacobianInverseTransposed, hw₁] at hr₁
  rw [MultiLinearGeometry.jacobianInverseTransposed, hw₂, hd₂] at hr₂
  obtain ⟨p1, p2, p3⟩ := normal_gram h0 hf₁ hr₁
  obtain ⟨q1, q2, q3⟩ := normal_gram h0 hf₂ hr₂
  rw [← j1] at p1 p3
  rw [← j2] at q1 q3
  have habs : |(mat (g₁.mydim - 1) (g₁.mydim - 1) M)ᵀ.det| = 1 := by rw [det_transpose]; exact symmetry_det hsym
  have hdet := det_mul' habs (mat (g₁.mydim - 1) g₁.mydim (gf.jacobianTransposed (affMap (g₁.mydim - 1) a M x)))
  have j3' : mat (g₁.mydim - 1) g₁.mydim ((renumbered gf σ).jacobianTransposed x) =
      (mat (g₁.mydim - 1) (g₁.mydim - 1) M)ᵀ *
        mat (g₁.mydim - 1) g₁.mydim (gf.jacobianTransposed (affMap (g₁.mydim - 1) a M x)) := j3
  have hp : mat (g₁.mydim - 1) g₁.mydim ((renumbered gf σ).jacobianTransposed x) *ᵥ mappedNormal g₁.mydim r₁ n₁ = 0 := by
    rw [j3', ← mulVec_mulVec, p3, mulVec_zero]
  rw [← j3', q1, p1] at hdet
  have hpar := parallel (by omega) _ (by rw [q1]; exact q2.ne') _ _ hp q3 hdet
  refine ⟨hpar, fun ⟨v, hv, hv'⟩ => ?_⟩
  rcases hpar with h | h
  · exfalso
    have ha := normal_apply hr₂ n₂ v
    have hb : mat g₁.mydim g₁.mydim (g₂.jacobian (embed (g₁.mydim - 1) e₂ x)) =
      (mat g₁.mydim g₁.mydim (g₂.jacobianTransposed (embed (g₁.mydim - 1) e₂ x)))ᵀ := rfl
    rw [← hb, h] at ha
    rw [ha] at hv'
    have := (inv_facts hr₂).2.2
    nlinarith
  · exact h

/-- C104: two multilinear elements that share a facet (with corners numbered in different order): at a common point the
normals are equal up to the sign; and opposite as soon as one direction into the second element leads out of the first. -/
theorem C104_neighbours (g₁ g₂ : MultiLinearGeometry) (h₁ : Legal g₁) (h₂ : Legal g₂) (d : Nat) (h0 : 0 < d) (hd : d ≤ 31)
    (hd₁ : g₁.mydim = d) (hd₂ : g₂.mydim = d) (hw₁ : g₁.cdim = d) (hw₂ : g₂.cdim = d) (htol : g₂.tol = g₁.tol) (i₁ i₂ : Nat)
    (n₁ n₂ : Vec ℝ) (e₁ e₂ : Vec ℝ × Mat ℝ) (hf₁ : IsFacet d g₁.id i₁ n₁ e₁) (hf₂ : IsFacet d g₂.id i₂ n₂ e₂) (id : Nat)
    (hid₁ : (refType d g₁.id i₁ 1).id = id) (hid₂ : (refType d g₂.id i₂ 1).id = id) (hidm : id < 2 ^ (d - 1))
    (hcov : Covered (d - 1) id) (σ : Nat → Nat) (a : Vec ℝ) (M : Mat ℝ) (hsym : Symmetry (d - 1) id σ a M)
    (hcor : ∀ v, v < refSize (d - 1) id (d - 1) → ∃ k₁ k₂, subEntity d g₁.id i₁ 1 (σ v) d = some k₁ ∧
      subEntity d g₂.id i₂ 1 v d = some k₂ ∧ g₂.corners_ k₂ = g₁.corners_ k₁)
    (x : Vec ℝ) (hx : checkInside (d - 1) id x (-g₁.tol) 1 = true)
    (hx' : checkInside (d - 1) id (affMap (d - 1) a M x) (-g₁.tol) 1 = true) (r₁ r₂ : ℝ × Mat ℝ)
    (hr₁ : g₁.jacobianInverseTransposed (embed (d - 1) e₁ (affMap (d - 1) a M x)) = some r₁)
    (hr₂ : g₂.jacobianInverseTransposed (embed (d - 1) e₂ x) = some r₂) :
    (mappedNormal d r₂ n₂ = mappedNormal d r₁ n₁ ∨ mappedNormal d r₂ n₂ = -mappedNormal d r₁ n₁) ∧
    ((∃ v : Fin d → ℝ, vec d n₂ ⬝ᵥ v < 0 ∧
      0 < mappedNormal d r₁ n₁ ⬝ᵥ (mat d d (g₂.jacobian (embed (d - 1) e₂ x)) *ᵥ v)) →
      mappedNormal d r₂ n₂ = -mappedNormal d r₁ n₁) :=
  neighbours_of g₁ g₂ h₁ h₂ d h0 hd hd₁ hd₂ hw₁ hw₂ htol i₁ i₂ n₁ n₂ e₁ e₂ hf₁ hf₂ id hid₁ hid₂ hidm hcov σ a M hsym hcor x
    (Or.inr ⟨hx, hx'⟩) r₁ r₂ hr₁ hr₂

theorem square_jt (x : Vec ℝ) : mat 2 2 (unitSquare.jacobianTransposed x) = 1 ∧ mat 2 2 (rightSquare.jacobianTransposed x) = diagonal ![1, -1] := by
  have ht : topoOf 2 3 = .prism (.prism .pt) := rfl
  constructor
  · ext r j
    change unitSquare.jacobianTransposed x r j = _
    rw [jt_eq unitSquare (by change 3 < 2 ^ 2; norm_num) x r j r.2]
    change MLd _ (topoOf 2 3) _ x r = _
    rw [ht]
    fin_cases r <;> fin_cases j <;>
      simp [MLd, ML, nv, Topo.dim, Topo.sz, unitSquare, Nat.testBit, Nat.shiftRight_eq_div_pow]
  · ext r j
    change rightSquare.jacobianTransposed x r j = _
    rw [jt_eq rightSquare (by change 3 < 2 ^ 2; norm_num) x r j r.2]
    change MLd _ (topoOf 2 3) _ x r = _
    rw [ht]
    fin_cases r <;> fin_cases j <;>
      simp [MLd, ML, nv, Topo.dim, Topo.sz, rightSquare, Nat.testBit, Nat.shiftRight_eq_div_pow]

/-- the hypotheses of `C104_multilinear` and `C104_neighbours` at the middle of the common edge of the two squares -/
example : ∃ n₁ n₂ e₁ e₂ r₁ r₂ a M, IsFacet 2 3 1 n₁ e₁ ∧ IsFacet 2 3 0 n₂ e₂ ∧ Symmetry 1 (refType 2 3 1 1).id (fun k => 1 - k) a M ∧
    Covered 1 (refType 2 3 1 1).id ∧ (refType 2 3 1 1).id = (refType 2 3 0 1).id ∧
    (∀ v, v < 2 → ∃ k₁ k₂, subEntity 2 3 1 1 (1 - v) 2 = some k₁ ∧ subEntity 2 3 0 1 v 2 = some k₂ ∧
      rightSquare.corners_ k₂ = unitSquare.corners_ k₁) ∧
    unitSquare.jacobianInverseTransposed (embed 1 e₁ (affMap 1 a M fun _ => 1 / 2)) = some r₁ ∧
    rightSquare.jacobianInverseTransposed (embed 1 e₂ fun _ => 1 / 2) = some r₂ := by
  obtain ⟨n₁, e₁, hf₁⟩ := facet_exists 2 3 1 (by norm_num) (by decide)
  obtain ⟨n₂, e₂, hf₂⟩ := facet_exists 2 3 0 (by norm_num) (by decide)
  have li : ∀ {A : Mat ℝ}, (mat 2 2 A).det ≠ 0 → LinearIndependent ℝ (mat 2 2 A).row := fun h =>
    linearIndependent_rows_of_isUnit ((isUnit_iff_isUnit_det _).2 (isUnit_iff_ne_zero.2 h))
  have hs : IsSimplexId 1 (refType 2 3 1 1).id := fun k h1 h2 => by omega
  obtain ⟨a, M, hsym⟩ := C97_simplex_any 1 (refType 2 3 1 1).id hs (fun k => 1 - k) (fun k h => by omega)
    (fun _ _ _ _ h => by omega)
  obtain ⟨R₁, h₁, _⟩ := C26_rightInvA 2 2 _ (le_refl _) (li (by
    rw [(square_jt (embed 1 e₁ (affMap 1 a M fun _ => 1 / 2))).1, det_one]; norm_num))
  obtain ⟨R₂, h₂, _⟩ := C26_rightInvA 2 2 _ (le_refl _) (li (by
    rw [(square_jt (embed 1 e₂ fun _ => 1 / 2)).2, det_diagonal]; simp))
  refine ⟨n₁, n₂, e₁, e₂, _, _, a, M, hf₁, hf₂, hsym, ?_, by decide, ?_, h₁, h₂⟩
  · exact Or.inl hs
  · intro v hv
    interval_cases v
    · refine ⟨3, 0, by decide, by decide, ?_⟩
      funext j
      simp [rightSquare, unitSquare, Nat.testBit, Nat.shiftRight_eq_div_pow]
      split_ifs <;> first | rfl | omega | (interval_cases j <;> simp_all)
    · refine ⟨1, 2, by decide, by decide, ?_⟩
      funext j
      simp [rightSquare, unitSquare, Nat.testBit, Nat.shiftRight_eq_div_pow]
      split_ifs <;> first | rfl | omega | (interval_cases j <;> simp_all)

end Verif.Normal
