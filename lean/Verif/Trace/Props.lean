import Verif.Trace.Lemmas

/-!
Property theorems: derivatives along sub-entities of every codimension, taken in the element, are those of the sub-entity's own geometry
and agree between elements that share the sub-entity (C122).
-/

namespace Verif.Trace

open Verif.Typ Verif.RefTopo Verif.RefGeom Verif.MatHelp Verif.MultiLinear Verif.Neighbour Verif.Normal Verif.Affine Verif.Piola
open Finset hiding ext
open Matrix hiding vec

/-! ### Specification -/

/-- `e` is the embedding of sub-entity `(i,c)` of the element `g`, and `g'` the geometry spanned by the corners of the sub-entity -/
structure IsPart (g : MultiLinearGeometry) (i c : Nat) (e : Vec ℝ × Mat ℝ) (g' : MultiLinearGeometry) : Prop where
  le : c ≤ g.mydim
  lt : i < refSize g.mydim g.id c
  embedding : (referenceEmbeddings (K := ℝ) g.mydim g.id c)[i]? = some e
  dim : g'.mydim = g.mydim - c
  type : g'.id = (refType g.mydim g.id i c).id
  tol : g'.tol = g.tol
  corners : ∀ v k, v < g'.corners → subEntity g.mydim g.id i c v g.mydim = some k → g'.corners_ v = g.corners_ k

/-- the `m` tangents of the sub-entity in the world of dimension `n`, as the element gives them -/
noncomputable def worldTangents (m n : Nat) (g : MultiLinearGeometry) (e : Vec ℝ × Mat ℝ) (x : Vec ℝ) : Matrix (Fin m) (Fin n) ℝ :=
  mat m g.mydim e.2 * mat g.mydim n (g.jacobianTransposed (embed m e x))

/-- C122, full: on the closed sub-entity the tangents given by the element are those given by the sub-entity's own geometry. -/
def C122_closed_full : Prop :=
  ∀ (g : MultiLinearGeometry), Legal g → g.mydim ≤ 31 → ∀ (i c : Nat) (e : Vec ℝ × Mat ℝ) (g' : MultiLinearGeometry), IsPart g i c e g' →
    ∀ x : Vec ℝ, x ∈ domain ℝ g'.mydim g'.id → mat (g.mydim - c) g.cdim (g'.jacobianTransposed x) = worldTangents (g.mydim - c) g.cdim g e x

/-! ### C122 -/

/-- C122: at the points of the sub-entity that are farther than the tolerance from its boundary the tangents given by the element are those
of the sub-entity's own geometry.  This includes sub-entities that consist of tips, like the last vertical edge of a prism.  For cubes it
holds at every point. -/
theorem C122_jacobian_partial (g : MultiLinearGeometry) (hg : Legal g) (hd : g.mydim ≤ 31) (i c : Nat) (e : Vec ℝ × Mat ℝ)
    (g' : MultiLinearGeometry) (h : IsPart g i c e g') (x : Vec ℝ) (hx : IsCubeId g.mydim g.id ∨ Inner g' x) :
    mat (g.mydim - c) g.cdim (g'.jacobianTransposed x) = worldTangents (g.mydim - c) g.cdim g e x := by
  obtain ⟨hc, hi, he, hdim, hid, htol, hcor⟩ := h
  have hr := rep_topoOf g.mydim g.id
  obtain ⟨f, rfl, rfl⟩ := exists_face hr hc hi
  have hfd := Face.codim_add_dim f
  rw [hr.dim_eq] at hfd
  rw [embedding_face hr f] at he
  obtain rfl := Option.some.inj he
  have hrs := rep_sub hr hg.id_lt f
  have hT := refType_eq g.mydim g.id f.idx f.codim hd hg.id_lt hc
  have hid' : g'.id = subTopologyId g.mydim g.id f.codim f.idx := by rw [hid, hT]
  have hlt : g'.id < 2 ^ g'.mydim := by
    rw [hid', hdim]; exact subTopologyId_lt g.mydim g.id f.codim f.idx hg.id_lt hc
  rw [← hdim, ← hid'] at hrs
  have hdc : g.mydim - f.codim = f.shape.dim := by omega
  have hx12 : Away g.tol f.shape x ∧ Away g.tol (topoOf g'.mydim g'.id) x := by
    rcases hx with hc | hx
    · have hp := prisms_shape f (prisms_cube hc)
      rw [topoOf_prisms hrs hp]
      exact ⟨away_prisms _ _ _ hp, away_prisms _ _ _ hp⟩
    · rw [MultiLinear.Inner, htol] at hx
      exact ⟨away_of_checkInside hg.tol_pos.le hrs hx, away_of_checkInside hg.tol_pos.le (rep_topoOf _ _) hx⟩
  ext s j
  have hs : (s : Nat) < g'.mydim := by rw [hdim]; exact s.2
  rw [worldTangents, mul_apply]
  change g'.jacobianTransposed x s j = ∑ r : Fin g.mydim, RefGeom.jac f s r * g.jacobianTransposed _ r j
  rw [jt_eq g' hlt x s j hs, htol, ← MLd_rep hrs (rep_topoOf _ _) hx12.1 hx12.2,
    ← MLd_face hg.tol_pos.le hg.tol_lt f (fun k => g.corners_ k j) (fun k => g'.corners_ k j) x ?_ hx12.1 s (by omega), hr.dim_eq,
    Finset.sum_range]
  · refine Finset.sum_congr rfl fun r _ => ?_
    have hem : emb f x = embed (g.mydim - f.codim) (orig f, RefGeom.jac f) x := by rw [hdc]; rfl
    rw [jt_eq g hg.id_lt _ r j r.2, hem]
  · intro w hw
    have hsub := subEntity_eq hr hg.id_lt f w
    rw [show f.codim + w.codim = g.mydim by omega] at hsub
    change g'.corners_ w.idx j = g.corners_ _ j
    rw [hcor w.idx _ ?_ hsub]
    rw [MultiLinearGeometry.corners, refSize, size_eq hrs _ (le_refl _), hdim, hdc, ← hw]
    exact Face.idx_lt w

/-- the tangents of a sub-entity of the reference element are independent -/
theorem tangents_independent (g : MultiLinearGeometry) (i c : Nat) (e : Vec ℝ × Mat ℝ) (g' : MultiLinearGeometry) (h : IsPart g i c e g') :
    LinearIndependent ℝ (mat (g.mydim - c) g.mydim e.2).row := by
  obtain ⟨hc, hi, he, -, -, -, -⟩ := h
  have hr := rep_topoOf g.mydim g.id
  obtain ⟨f, rfl, rfl⟩ := exists_face hr hc hi
  have hfd := Face.codim_add_dim f
  rw [hr.dim_eq] at hfd
  rw [embedding_face hr f] at he
  obtain rfl := Option.some.inj he
  rw [Fintype.linearIndependent_iff]
  intro q hq s
  have key : emb f (ext q) = emb f (fun _ => (0 : ℝ)) := by
    funext k
    by_cases hk : k < g.mydim
    · have := congrFun hq ⟨k, hk⟩
      simp only [Finset.sum_apply, Pi.smul_apply, smul_eq_mul, Pi.zero_apply] at this
      simp only [emb, embed]
      congr 1
      simp only [mul_zero, sum_const_zero]
      rw [show f.shape.dim = g.mydim - f.codim by omega, Finset.sum_range, ← this]
      refine Finset.sum_congr rfl fun r _ => ?_
      rw [RefGeom.ext, dif_pos r.2, mul_comm]
      rfl
    · rw [emb_zero f _ k (by rw [hr.dim_eq]; omega), emb_zero f _ k (by rw [hr.dim_eq]; omega)]
  have := emb_inj f key s (by omega)
  rwa [RefGeom.ext, dif_pos s.2] at this

/-- C122: the measure of a sub-entity.  Where the element is regular, the integration element of the sub-entity's own geometry is the Gram
determinant of the tangents given by the element. -/
theorem C122_measure (g : MultiLinearGeometry) (hg : Legal g) (hd : g.mydim ≤ 31) (i c : Nat) (e : Vec ℝ × Mat ℝ)
    (g' : MultiLinearGeometry) (h : IsPart g i c e g') (hcd : g'.cdim = g.cdim) (x : Vec ℝ) (hx : IsCubeId g.mydim g.id ∨ Inner g' x)
    (hli : LinearIndependent ℝ (mat g.mydim g.cdim (g.jacobianTransposed (embed (g.mydim - c) e x))).row) :
    g'.integrationElement x = some (Real.sqrt (worldTangents (g.mydim - c) g.cdim g e x * (worldTangents (g.mydim - c) g.cdim g e x)ᵀ).det) ∧
    0 < (worldTangents (g.mydim - c) g.cdim g e x * (worldTangents (g.mydim - c) g.cdim g e x)ᵀ).det := by
  have hj := C122_jacobian_partial g hg hd i c e g' h x hx
  have hw : LinearIndependent ℝ (worldTangents (g.mydim - c) g.cdim g e x).row := by
    rw [vecMul_injective_iff.symm] at hli ⊢
    have ht := vecMul_injective_iff.2 (tangents_independent g i c e g' h)
    intro p q hpq
    apply ht
    apply hli
    simp only [worldTangents, ← vecMul_vecMul] at hpq
    exact hpq
  refine ⟨?_, ((aat_posDef_iff _).2 hw).det_pos⟩
  rw [MultiLinearGeometry.integrationElement, h.dim, hcd, ← hj]
  rw [← hj] at hw
  exact C27_sqrtDetAAT_partial _ _ _ (Or.inl hw)

/-- C122: circulation along a sub-entity.  The product of a covariant field of the element with a tangent of the sub-entity's own geometry is
the product on the reference element. -/
theorem C122_circulation (g : MultiLinearGeometry) (hg : Legal g) (hd : g.mydim ≤ 31) (hw : g.mydim ≤ g.cdim) (i c : Nat)
    (e : Vec ℝ × Mat ℝ) (g' : MultiLinearGeometry) (h : IsPart g i c e g') (x : Vec ℝ) (hx : IsCubeId g.mydim g.id ∨ Inner g' x)
    (r : ℝ × Mat ℝ) (hr : g.jacobianInverseTransposed (embed (g.mydim - c) e x) = some r) (t : Fin (g.mydim - c) → ℝ)
    (w : Fin g.mydim → ℝ) :
    ((mat (g.mydim - c) g.cdim (g'.jacobianTransposed x))ᵀ *ᵥ t) ⬝ᵥ covariant r w = ((mat (g.mydim - c) g.mydim e.2)ᵀ *ᵥ t) ⬝ᵥ w := by
  rw [C122_jacobian_partial g hg hd i c e g' h x hx, worldTangents, transpose_mul, ← mulVec_mulVec]
  exact C121_circulation g.mydim g.cdim hw _ r hr _ w

/-- the covered types are those of C97; two elements, possibly of different dimension, share a sub-entity of dimension `m` -/
structure Shared (g₁ g₂ : MultiLinearGeometry) (i₁ c₁ i₂ c₂ : Nat) (e₁ e₂ : Vec ℝ × Mat ℝ) (m id : Nat) (σ : Nat → Nat) (a : Vec ℝ)
    (M : Mat ℝ) : Prop where
  legal₁ : Legal g₁
  legal₂ : Legal g₂
  le₁ : g₁.mydim ≤ 31
  le₂ : g₂.mydim ≤ 31
  world : g₂.cdim = g₁.cdim
  tol : g₂.tol = g₁.tol
  codim₁ : c₁ ≤ g₁.mydim
  codim₂ : c₂ ≤ g₂.mydim
  lt₁ : i₁ < refSize g₁.mydim g₁.id c₁
  lt₂ : i₂ < refSize g₂.mydim g₂.id c₂
  embedding₁ : (referenceEmbeddings (K := ℝ) g₁.mydim g₁.id c₁)[i₁]? = some e₁
  embedding₂ : (referenceEmbeddings (K := ℝ) g₂.mydim g₂.id c₂)[i₂]? = some e₂
  dim₁ : g₁.mydim - c₁ = m
  dim₂ : g₂.mydim - c₂ = m
  type₁ : (refType g₁.mydim g₁.id i₁ c₁).id = id
  type₂ : (refType g₂.mydim g₂.id i₂ c₂).id = id
  valid : id < 2 ^ m
  covered : Covered m id
  symmetry : Symmetry m id σ a M
  corners : ∀ v, v < refSize m id m → ∃ k₁ k₂, subEntity g₁.mydim g₁.id i₁ c₁ (σ v) g₁.mydim = some k₁ ∧
    subEntity g₂.mydim g₂.id i₂ c₂ v g₂.mydim = some k₂ ∧ g₂.corners_ k₂ = g₁.corners_ k₁

/-- C122: two elements that share a sub-entity of any codimension give the same tangents, up to the renumbering. -/
theorem C122_shared (g₁ g₂ : MultiLinearGeometry) (i₁ c₁ i₂ c₂ : Nat) (e₁ e₂ : Vec ℝ × Mat ℝ) (m id : Nat) (σ : Nat → Nat) (a : Vec ℝ)
    (M : Mat ℝ) (h : Shared g₁ g₂ i₁ c₁ i₂ c₂ e₁ e₂ m id σ a M) (x : Vec ℝ) (hx : checkInside m id x (-g₁.tol) 1 = true)
    (hx' : checkInside m id (affMap m a M x) (-g₁.tol) 1 = true) :
    worldTangents m g₁.cdim g₂ e₂ x = (mat m m M)ᵀ * worldTangents m g₁.cdim g₁ e₁ (affMap m a M x) := by
  obtain ⟨h₁, h₂, hd₁, hd₂, hw, htol, hc₁, hc₂, hi₁, hi₂, he₁, he₂, hm₁, hm₂, hid₁, hid₂, hidm, hcov, hsym, hcor⟩ := h
  let gf : MultiLinearGeometry := ⟨m, g₁.cdim, id,
    fun v => g₁.corners_ ((subEntity g₁.mydim g₁.id i₁ c₁ v g₁.mydim).getD 0), g₁.tol⟩
  have hgf : Legal gf := ⟨hidm, h₁.tol_pos, h₁.tol_lt⟩
  have r1 := C122_jacobian_partial g₁ h₁ hd₁ i₁ c₁ e₁ gf ⟨hc₁, hi₁, he₁, hm₁.symm, hid₁.symm, rfl,
    fun v k _ hk => by change g₁.corners_ _ = _; rw [hk]; rfl⟩ (affMap m a M x) (Or.inr hx')
  have r2 := C122_jacobian_partial g₂ h₂ hd₂ i₂ c₂ e₂ (renumbered gf σ) ⟨hc₂, hi₂, he₂, hm₂.symm, hid₂.symm, htol.symm,
    fun v k hv hk => by
      obtain ⟨k₁, k₂, hk₁, hk₂, he⟩ := hcor v hv
      rw [hk] at hk₂
      obtain rfl := Option.some.inj hk₂
      change g₁.corners_ ((subEntity g₁.mydim g₁.id i₁ c₁ (σ v) g₁.mydim).getD 0) = _
      rw [hk₁, he]
      rfl⟩ x (Or.inr hx)
  have haw : ∀ y, checkInside m id y (-g₁.tol) 1 = true → Away g₁.tol (topoOf m id) y :=
    fun y h => away_of_checkInside h₁.tol_pos.le (rep_topoOf _ _) h
  have j3 := jtT gf hgf hcov hsym x (haw _ hx) (haw _ hx')
  rw [worldTangents, hw] at r2
  rw [worldTangents] at r1
  subst hm₁
  rw [hm₂] at r2
  rw [worldTangents, worldTangents, ← r1, ← r2]
  exact j3

/-- C122: the tangential component of covariant fields of two elements is the same on a shared sub-entity of any codimension exactly if the
tangential components on the reference elements agree under the renumbering. -/
theorem C122_tangential_continuous (g₁ g₂ : MultiLinearGeometry) (i₁ c₁ i₂ c₂ : Nat) (e₁ e₂ : Vec ℝ × Mat ℝ) (m id : Nat) (σ : Nat → Nat)
    (a : Vec ℝ) (M : Mat ℝ) (h : Shared g₁ g₂ i₁ c₁ i₂ c₂ e₁ e₂ m id σ a M) (hw₁ : g₁.mydim ≤ g₁.cdim) (hw₂ : g₂.mydim ≤ g₁.cdim)
    (x : Vec ℝ) (hx : checkInside m id x (-g₁.tol) 1 = true) (hx' : checkInside m id (affMap m a M x) (-g₁.tol) 1 = true)
    (r₁ r₂ : ℝ × Mat ℝ) (hr₁ : g₁.jacobianInverseTransposed (embed m e₁ (affMap m a M x)) = some r₁)
    (hr₂ : g₂.jacobianInverseTransposed (embed m e₂ x) = some r₂) (w₁ : Fin g₁.mydim → ℝ) (w₂ : Fin g₂.mydim → ℝ) :
    (∀ t : Fin m → ℝ, ((worldTangents m g₁.cdim g₂ e₂ x)ᵀ *ᵥ t) ⬝ᵥ covariant r₁ w₁ =
      ((worldTangents m g₁.cdim g₂ e₂ x)ᵀ *ᵥ t) ⬝ᵥ covariant r₂ w₂) ↔
    (mat m m M)ᵀ *ᵥ (mat m g₁.mydim e₁.2 *ᵥ w₁) = mat m g₂.mydim e₂.2 *ᵥ w₂ := by
  have hj := C122_shared g₁ g₂ i₁ c₁ i₂ c₂ e₁ e₂ m id σ a M h x hx hx'
  rw [MultiLinearGeometry.jacobianInverseTransposed] at hr₁
  rw [MultiLinearGeometry.jacobianInverseTransposed, h.world] at hr₂
  have k1 := (right_inverse hw₁ hr₁).1
  have k2 := (right_inverse hw₂ hr₂).1
  have a1 : worldTangents m g₁.cdim g₂ e₂ x *ᵥ covariant r₁ w₁ = (mat m m M)ᵀ *ᵥ (mat m g₁.mydim e₁.2 *ᵥ w₁) := by
    rw [hj, covariant, worldTangents, ← mulVec_mulVec, ← mulVec_mulVec, mulVec_mulVec _ (mat g₁.mydim g₁.cdim _) (mat g₁.cdim g₁.mydim r₁.2),
      k1, one_mulVec]
  have a2 : worldTangents m g₁.cdim g₂ e₂ x *ᵥ covariant r₂ w₂ = mat m g₂.mydim e₂.2 *ᵥ w₂ := by
    rw [covariant, worldTangents, ← mulVec_mulVec, mulVec_mulVec _ (mat g₂.mydim g₁.cdim _) (mat g₁.cdim g₂.mydim r₂.2), k2, one_mulVec]
  rw [← a1, ← a2]
  constructor
  · intro ht
    refine dotProduct_eq _ _ fun t => ?_
    have := ht t
    rw [mulVec_transpose, ← dotProduct_mulVec, ← dotProduct_mulVec] at this
    rwa [dotProduct_comm, dotProduct_comm _ t]
  · intro ht t
    rw [mulVec_transpose, ← dotProduct_mulVec, ← dotProduct_mulVec, ht]

/-! ### Counterexample -/

/-- a pyramid whose base is not a parallelogram -/
noncomputable def kite (tol : ℝ) : MultiLinearGeometry where
  mydim := 3
  cdim := 3
  id := 3
  corners_ := fun k j => if k = 1 then (if j = 0 then 1 else 0) else if k = 2 then (if j = 1 then 1 else 0) else
    if k = 3 then (if j < 2 then 2 else 0) else if k = 4 then (if j = 2 then 1 else 0) else 0
  tol := tol

/-- its edge from corner 3 to the tip -/
noncomputable def kiteEdge (tol : ℝ) : MultiLinearGeometry where
  mydim := 1
  cdim := 3
  id := (refType 3 3 7 2).id
  corners_ := fun v => (kite tol).corners_ ([3, 4].getD v 0)
  tol := tol

/-- the face that the edge is: the cone over the last vertex of the square -/
def kiteFace : Face (.pyr (.prism (.prism .pt))) := .cone (.top (.top .pt))

theorem kite_part (tol : ℝ) : IsPart (kite tol) 7 2 (orig kiteFace, RefGeom.jac kiteFace) (kiteEdge tol) := by
  have hr : Rep 3 3 (.pyr (.prism (.prism .pt))) := rep_topoOf 3 3
  have hsub : ∀ v, v < 2 → subEntity 3 3 7 2 v 3 = some ([3, 4].getD v 0) := by decide
  refine ⟨by change 2 ≤ 3; norm_num, by change 7 < refSize 3 3 2; decide, embedding_face (K := ℝ) hr kiteFace, rfl, rfl, rfl, fun v k hv hk => ?_⟩
  have hv2 : v < 2 := by
    have : (kiteEdge tol).corners = 2 := by change refSize 1 (refType 3 3 7 2).id 1 = 2; decide
    omega
  change subEntity 3 3 7 2 v 3 = some k at hk
  rw [hsub v hv2] at hk
  obtain rfl := Option.some.inj hk
  rfl

/-- the end of the edge -/
def tipPoint : Vec ℝ := fun k => if k = 0 then 1 else 0

/-- C122: the code disagrees.  At the tip of a pyramid over a kite the derivative along the edge from corner 3, taken in the element, is
`(-1,-1,1)`; the edge's own derivative is `(-2,-2,1)`. -/
theorem C122_closed_counterexample : ¬ C122_closed_full ∧ ∀ tol : ℝ, 0 < tol → tol < 1 →
    Legal (kite tol) ∧ IsPart (kite tol) 7 2 (orig kiteFace, RefGeom.jac kiteFace) (kiteEdge tol) ∧
    tipPoint ∈ domain ℝ (kiteEdge tol).mydim (kiteEdge tol).id ∧ (kiteEdge tol).jacobianTransposed tipPoint 0 0 = -2 ∧
    worldTangents 1 3 (kite tol) (orig kiteFace, RefGeom.jac kiteFace) tipPoint 0 0 = -1 := by
  have hT : topoOf 3 3 = .pyr (.prism (.prism .pt)) := by decide
  have hn1 : nv .pt = 1 := rfl
  have hn2 : nv (.prism .pt) = 2 := rfl
  have hn3 : nv (.prism (.prism .pt)) = 4 := rfl
  have hlt : (refType 3 3 7 2).id < 2 ^ 1 := by decide
  have key : ∀ tol : ℝ, 0 < tol → tol < 1 →
    Legal (kite tol) ∧ IsPart (kite tol) 7 2 (orig kiteFace, RefGeom.jac kiteFace) (kiteEdge tol) ∧
    tipPoint ∈ domain ℝ (kiteEdge tol).mydim (kiteEdge tol).id ∧ (kiteEdge tol).jacobianTransposed tipPoint 0 0 = -2 ∧
    worldTangents 1 3 (kite tol) (orig kiteFace, RefGeom.jac kiteFace) tipPoint 0 0 = -1 := by
    intro tol h0 h1
    have hL : Legal (kite tol) := ⟨by change 3 < 2 ^ 3; norm_num, h0, h1⟩
    have hn : ¬ far tol 0 := not_far_zero h0.le
    refine ⟨hL, kite_part tol, ?_, ?_, ?_⟩
    · change _ ∈ domain ℝ 1 (refType 3 3 7 2).id
      rw [mem_domain (rep_topoOf 1 _) _ fun k hk => by simp only [tipPoint]; rw [if_neg (by omega)]]
      have : topoOf 1 (refType 3 3 7 2).id = .prism .pt := by decide
      rw [this]
      refine ⟨?_, ?_, trivial⟩ <;> simp [tipPoint, Topo.dim]
    · rw [jt_eq _ hlt _ _ _ (by change 0 < 1; norm_num)]
      change MLd tol (topoOf 1 (refType 3 3 7 2).id) _ _ _ = _
      have : topoOf 1 (refType 3 3 7 2).id = .prism .pt := by decide
      rw [this]
      simp [MLd, ML, Topo.dim, hn1, kiteEdge, kite]
    · rw [worldTangents, mul_apply]
      have he : embed 1 (orig kiteFace, RefGeom.jac kiteFace) tipPoint = fun k => if k = 2 then (1 : ℝ) else 0 := by
        funext k
        simp only [embed, kiteFace, orig, RefGeom.jac, tipPoint, setV, setM, Topo.dim, Face.shape, sum_range_succ, sum_range_zero]
        rcases k with _ | _ | _ | k <;> simp
      rw [he]
      change ∑ r : Fin 3, RefGeom.jac kiteFace 0 r * (kite tol).jacobianTransposed _ r 0 = -1
      have hJ : ∀ r : Nat, r < 3 → (kite tol).jacobianTransposed (fun k => if k = 2 then (1 : ℝ) else 0) r 0 = if r = 0 then 1 else 0 := by
        intro r hr
        rw [jt_eq _ hL.id_lt _ _ _ hr]
        change MLd tol (topoOf 3 3) _ _ _ = _
        rw [hT]
        interval_cases r <;> simp [MLd, ML, scale, Topo.dim, hn1, hn2, hn3, kite, hn, sum_range_succ]
      rw [Fin.sum_univ_three]
      simp [hJ, kiteFace, RefGeom.jac, orig, setM, setV, Topo.dim, Face.shape]
  refine ⟨fun hfull => ?_, key⟩
  obtain ⟨k1, k2, k3, k4, k5⟩ := key (1 / 2) (by norm_num) (by norm_num)
  have := congrFun (congrFun (hfull _ k1 (by change 3 ≤ 31; norm_num) 7 2 _ _ k2 _ k3) (0 : Fin 1)) (0 : Fin 3)
  change (kiteEdge (1 / 2)).jacobianTransposed tipPoint 0 0 = worldTangents 1 3 (kite (1 / 2)) (orig kiteFace, RefGeom.jac kiteFace) tipPoint 0 0 at this
  rw [k4, k5] at this
  norm_num at this

/-! ### examples -/

theorem line_inside (id : Nat) (hid : id < 2 ^ 1) (tol : ℝ) (h : tol < 1 / 2) (x : Vec ℝ) (hx : x 0 = 1 / 2) : checkInside 1 id x (-tol) 1 = true := by
  have : topoOf 1 id = .prism .pt := by
    have : id < 2 := hid
    interval_cases id <;> decide
  rw [RefGeom.checkInside_iff (rep_topoOf 1 id), this]
  refine ⟨?_, ?_, trivial⟩ <;> simp only [Topo.dim, hx] <;> linarith

/-- the edge of the kite: its midpoint is inside, and the element is regular there -/
example (tol : ℝ) (h0 : 0 < tol) (h1 : tol < 1 / 2) : Legal (kite tol) ∧ IsPart (kite tol) 7 2 (orig kiteFace, RefGeom.jac kiteFace) (kiteEdge tol) ∧ (kiteEdge tol).cdim = (kite tol).cdim ∧
    MultiLinear.Inner (kiteEdge tol) (fun _ => 1 / 2) ∧
    LinearIndependent ℝ (mat 3 3 ((kite tol).jacobianTransposed (embed 1 (orig kiteFace, RefGeom.jac kiteFace) fun _ => 1 / 2))).row := by
  refine ⟨⟨by change 3 < 2 ^ 3; norm_num, h0, by change tol < 1; linarith⟩, kite_part _, rfl, line_inside _ (by change (refType 3 3 7 2).id < 2 ^ 1; decide) _ h1 _ rfl, ?_⟩
  have hT : topoOf 3 3 = .pyr (.prism (.prism .pt)) := by decide
  have hn1 : nv .pt = 1 := rfl
  have hn2 : nv (.prism .pt) = 2 := rfl
  have hn3 : nv (.prism (.prism .pt)) = 4 := rfl
  have he : embed 1 (orig kiteFace, RefGeom.jac kiteFace) (fun _ => (1 / 2 : ℝ)) = fun k => if k < 3 then (1 / 2 : ℝ) else 0 := by
    funext k
    simp only [embed, kiteFace, orig, RefGeom.jac, setV, setM, Topo.dim, Face.shape, sum_range_succ, sum_range_zero]
    rcases k with _ | _ | _ | k <;> simp <;> norm_num
  have hsc : scale tol (2⁻¹) = 2 := by rw [scale_far (Or.inl (by linarith))]; norm_num
  have hJ : mat 3 3 ((kite tol).jacobianTransposed fun k => if k < 3 then (1 / 2 : ℝ) else 0) = !![2, 1, 0; 1, 2, 0; 1, 1, 1] := by
    have hE : ∀ r j, r < 3 → j < 3 → (kite tol).jacobianTransposed (fun k => if k < 3 then (1 / 2 : ℝ) else 0) r j =
        if r = 0 then (if j = 0 then 2 else if j = 1 then 1 else 0) else if r = 1 then (if j = 0 then 1 else if j = 1 then 2 else 0) else 1 := by
      intro r j hr hj
      rw [jt_eq _ (by change 3 < 2 ^ 3; norm_num) _ _ _ hr]
      change MLd tol (topoOf 3 3) _ _ _ = _
      rw [hT]
      interval_cases r <;> interval_cases j <;> simp [MLd, ML, Topo.dim, hn1, hn2, hn3, kite, sum_range_succ, hsc] <;> norm_num
    funext r j
    refine (hE r j r.2 j.2).trans ?_
    fin_cases r <;> fin_cases j <;> rfl
  rw [he, hJ]
  refine linearIndependent_rows_of_isUnit ((isUnit_iff_isUnit_det _).2 (isUnit_iff_ne_zero.2 ?_))
  simp [det_fin_three]
  norm_num

/-- the last vertical edge of a prism consists of tips of the triangle below -/
example : (referenceEmbeddings (K := ℝ) 3 5 2)[2]? = some (orig (.edge .apex : Face (.prism (.pyr (.prism .pt)))),
      RefGeom.jac (.edge .apex : Face (.prism (.pyr (.prism .pt))))) ∧
    ∀ x : Vec ℝ, embed 1 (orig (.edge .apex : Face (.prism (.pyr (.prism .pt)))), RefGeom.jac (.edge .apex : Face (.prism (.pyr (.prism .pt))))) x 1 = 1 :=
  ⟨embedding_face (K := ℝ) (show Rep 3 5 (.prism (.pyr (.prism .pt))) from rep_topoOf 3 5) (.edge .apex), fun x => by
    simp [embed, orig, RefGeom.jac, setV, setM, Topo.dim, Face.shape]⟩

/-- a triangle in space that shares the edge of the kite, in the opposite direction -/
noncomputable def flap : MultiLinearGeometry where
  mydim := 2
  cdim := 3
  id := 0
  corners_ := fun k => if k = 0 then (kite (1 / 10)).corners_ 4 else if k = 1 then (kite (1 / 10)).corners_ 3 else fun _ => 7
  tol := 1 / 10

example : ∃ e₂, Shared (kite (1 / 10)) flap 7 2 0 1 (orig kiteFace, RefGeom.jac kiteFace) e₂ 1 (refType 3 3 7 2).id (fun k => 1 - k)
      (fun _ => 1) (fun _ _ => -1) ∧
    checkInside 1 (refType 3 3 7 2).id (fun _ => 1 / 2) (-(kite (1 / 10)).tol) 1 = true ∧
    checkInside 1 (refType 3 3 7 2).id (affMap 1 (fun _ => 1) (fun _ _ => -1) fun _ => 1 / 2) (-(kite (1 / 10)).tol) 1 = true := by
  have hlt : (refType 3 3 7 2).id < 2 ^ 1 := by decide
  have hr : Rep 2 0 (.pyr (.prism .pt)) := rep_topoOf 2 0
  have hk := kite_part (1 / 10)
  have hs1 : ∀ v, v < 2 → subEntity 3 3 7 2 (1 - v) 3 = some ([4, 3].getD v 0) := by decide
  have hs2 : ∀ v, v < 2 → subEntity 2 0 0 1 v 2 = some v := by decide
  have hsz : refSize 1 (refType 3 3 7 2).id 1 = 2 := by decide
  refine ⟨(orig (.base (.edge .pt) : Face (.pyr (.prism .pt))), RefGeom.jac (.base (.edge .pt) : Face (.pyr (.prism .pt)))), ⟨⟨by decide, ?_, ?_⟩,
    ⟨by decide, ?_, ?_⟩, by decide, by decide, rfl, rfl, hk.le, by decide, hk.lt, by decide, hk.embedding,
    embedding_face (K := ℝ) hr (.base (.edge .pt)), rfl, rfl, rfl, by decide, hlt, Or.inr (Or.inr (by norm_num)), ⟨?_, ?_, ?_⟩, ?_⟩,
    line_inside _ hlt _ (by norm_num [kite]) _ rfl, line_inside _ hlt _ (by norm_num [kite]) _ ?_⟩
  · norm_num [kite]
  · norm_num [kite]
  · norm_num [flap]
  · norm_num [flap]
  · intro k hk; rw [hsz] at hk ⊢; omega
  · intro k k' hk hk' h; rw [hsz] at hk hk'; omega
  · intro k hk i hi
    rw [hsz] at hk
    obtain rfl : i = 0 := by omega
    have hc : ∀ id, id < 2 → ∀ k, k < 2 → corner (K := ℝ) 1 id k 0 = k := by
      intro id hid k hk
      interval_cases id <;> interval_cases k <;> simp [corner, referenceCorners, setV]
    rw [hc _ hlt _ (by omega), affMap, sum_range_one, hc _ hlt _ hk]
    interval_cases k <;> norm_num
  · intro v hv
    rw [hsz] at hv
    refine ⟨_, _, hs1 v hv, hs2 v hv, ?_⟩
    interval_cases v <;> rfl
  · simp [affMap]; norm_num

end Verif.Trace
