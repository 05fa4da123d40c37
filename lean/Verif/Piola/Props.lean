import Verif.Flux.CubeProps
import Verif.Patch.Props

/-!
Property theorems: vector fields transformed with the Jacobians keep fluxes, circulations and products, and are continuous in the
respective component across common facets (C121).
-/

namespace Verif.Piola

open Verif.Typ Verif.RefTopo Verif.RefGeom Verif.MatHelp Verif.MultiLinear Verif.Neighbour Verif.Normal Verif.Flux Verif.Quad Verif.Affine
open Finset hiding ext
open Matrix hiding vec

/-! ### Specification: what callers compute -/

/-- contravariant transformation, `jacobian * v / integrationElement`, of a vector on the reference element -/
noncomputable def contravariant {m n : Nat} (jt : Mat ℝ) (r : ℝ × Mat ℝ) (v : Fin m → ℝ) : Fin n → ℝ := r.1⁻¹ • ((mat m n jt)ᵀ *ᵥ v)

/-- covariant transformation, `jacobianInverseTransposed * v` -/
noncomputable def covariant {m n : Nat} (r : ℝ × Mat ℝ) (v : Fin m → ℝ) : Fin n → ℝ := mat n m r.2 *ᵥ v

/-- the point is inside the facet, or the elements are cubes -/
def Near (d : Nat) (g₁ g₂ : MultiLinearGeometry) (id : Nat) (a : Vec ℝ) (M : Mat ℝ) (x : Vec ℝ) : Prop :=
  (IsCubeId d g₁.id ∧ IsCubeId d g₂.id ∧ IsCubeId (d - 1) id) ∨
    checkInside (d - 1) id x (-g₁.tol) 1 = true ∧ checkInside (d - 1) id (affMap (d - 1) a M x) (-g₁.tol) 1 = true

/-! ### helper lemmas -/

theorem right_inverse {m n : Nat} {jt : Mat ℝ} {r : ℝ × Mat ℝ} (hmn : m ≤ n) (hr : rightInvA m n jt = some r) :
    mat m n jt * mat n m r.2 = 1 ∧ r.1 = Real.sqrt (mat m n jt * (mat m n jt)ᵀ).det ∧ 0 < r.1 := by
  by_cases hA : LinearIndependent ℝ (mat m n jt).row
  · obtain ⟨R, h1, h2, _⟩ := C26_rightInvA m n jt hmn hA
    rw [hr] at h1
    obtain rfl := Option.some.inj h1
    exact ⟨h2, rfl, Real.sqrt_pos.2 ((aat_posDef_iff _).2 hA).det_pos⟩
  · rw [C26_rightInvA_singular m n jt hmn hA] at hr
    cases hr

/-- the tangents of the common facet, seen from both elements -/
theorem facet_jacobians {d : Nat} {g₁ g₂ : MultiLinearGeometry} {i₁ i₂ : Nat} {n₁ n₂ : Vec ℝ} {e₁ e₂ : Vec ℝ × Mat ℝ} {id : Nat}
    {σ : Nat → Nat} {a : Vec ℝ} {M : Mat ℝ} (h : Common d g₁ g₂ i₁ i₂ n₁ n₂ e₁ e₂ id σ a M) (x : Vec ℝ) (hx : Near d g₁ g₂ id a M x) :
    tangents d e₂ * mat d d (g₂.jacobianTransposed (embed (d - 1) e₂ x)) =
      (mat (d - 1) (d - 1) M)ᵀ * (tangents d e₁ * mat d d (g₁.jacobianTransposed (embed (d - 1) e₁ (affMap (d - 1) a M x)))) := by
  obtain ⟨h₁, h₂, h0, hd, hd₁, hd₂, hw₁, hw₂, htol, hf₁, hf₂, hid₁, hid₂, hidm, hcov, hsym, hcor⟩ := h
  subst hd₁
  let gf : MultiLinearGeometry := ⟨g₁.mydim - 1, g₁.mydim, id,
    fun v => g₁.corners_ ((subEntity g₁.mydim g₁.id i₁ 1 v g₁.mydim).getD 0), g₁.tol⟩
  have hgf : Legal gf := ⟨hidm, h₁.tol_pos, h₁.tol_lt⟩
  have j1 := C104_facet_jacobian g₁ h₁ hd h0 i₁ n₁ e₁ hf₁ gf rfl hid₁.symm rfl
    (fun v k _ hk => by change g₁.corners_ _ = _; rw [hk]; rfl) (affMap (g₁.mydim - 1) a M x) (hx.imp (fun h => h.1) fun h => h.2)
  have j2 := C104_facet_jacobian g₂ h₂ (by omega) (by omega) i₂ n₂ e₂ (by rw [hd₂]; exact hf₂) (renumbered gf σ)
    (by rw [hd₂]; rfl) (by rw [hd₂]; exact hid₂.symm) htol.symm
    (fun v k hv hk => by
      rw [hd₂] at hk
      obtain ⟨k₁, k₂, hk₁, hk₂, he⟩ := hcor v hv
      rw [hk] at hk₂
      obtain rfl := Option.some.inj hk₂
      change g₁.corners_ ((subEntity g₁.mydim g₁.id i₁ 1 (σ v) g₁.mydim).getD 0) = _
      rw [hk₁, he]
      rfl) x (hx.imp (fun h => by rw [hd₂]; exact h.2.1) fun h => h.1)
  have haw : ∀ y, IsCubeId (g₁.mydim - 1) id ∨ checkInside (g₁.mydim - 1) id y (-g₁.tol) 1 = true → Away g₁.tol (topoOf (g₁.mydim - 1) id) y :=
    fun y hy => hy.elim (fun h => by rw [topoOf_cube _ _ h]; exact away_cube _ _) fun h => away_of_checkInside h₁.tol_pos.le (rep_topoOf _ _) h
  have j3 := jtT gf hgf hcov hsym x (haw _ (hx.imp (fun h => h.2.2) fun h => h.1)) (haw _ (hx.imp (fun h => h.2.2) fun h => h.2))
  rw [hw₁] at j1
  rw [hw₂, hd₂] at j2
  rw [← j1, ← j2]
  exact j3

/-! ### C121 -/

/-- C121: products.  For every geometry class, whatever Jacobian it hands to `rightInvA`: the product of a contravariant and a covariant
vector, times the integration element, is the product on the reference element. -/
theorem C121_product (m n : Nat) (hmn : m ≤ n) (jt : Mat ℝ) (r : ℝ × Mat ℝ) (hr : rightInvA m n jt = some r) (v w : Fin m → ℝ) :
    (contravariant jt r v : Fin n → ℝ) ⬝ᵥ covariant r w * r.1 = v ⬝ᵥ w ∧ 0 < r.1 := by
  obtain ⟨h1, -, h3⟩ := right_inverse hmn hr
  refine ⟨?_, h3⟩
  rw [contravariant, covariant, smul_dotProduct, smul_eq_mul, mulVec_transpose, ← dotProduct_mulVec, mulVec_mulVec, h1, one_mulVec,
    mul_right_comm, inv_mul_cancel₀ h3.ne', one_mul]

/-- a triangle in space: the Jacobian has a right inverse -/
example : ∃ r, rightInvA 2 3 (fun i j => if i = 0 then (if j = 0 then 1 else 2) else if j = 1 then 1 else 0) = some r := by
  have hA : LinearIndependent ℝ (mat 2 3 (fun i j => if i = 0 then (if j = 0 then 1 else 2) else if j = 1 then 1 else 0)).row := by
    rw [Fintype.linearIndependent_iff]
    intro c hc
    have h0 := congrFun hc 0
    have h2 := congrFun hc 1
    simp [Fin.sum_univ_two, mat] at h0 h2
    intro i
    fin_cases i
    · exact h0
    · simpa [h0] using h2
  obtain ⟨R, h, _⟩ := C26_rightInvA 2 3 _ (by norm_num) hA
  exact ⟨_, h⟩

/-- C121: circulation.  The product of a covariant vector with the image of a tangent is the product on the reference element. -/
theorem C121_circulation (m n : Nat) (hmn : m ≤ n) (jt : Mat ℝ) (r : ℝ × Mat ℝ) (hr : rightInvA m n jt = some r) (t w : Fin m → ℝ) :
    ((mat m n jt)ᵀ *ᵥ t) ⬝ᵥ covariant r w = t ⬝ᵥ w := by
  rw [covariant, mulVec_transpose, ← dotProduct_mulVec, mulVec_mulVec, (right_inverse hmn hr).1, one_mulVec]

/-- C121: flux.  The product of a contravariant vector with the normal that callers compute is the product with the integration outer
normal of the reference element. -/
theorem C121_flux (d : Nat) (jt : Mat ℝ) (r : ℝ × Mat ℝ) (hr : rightInvA d d jt = some r) (n : Vec ℝ) (v : Fin d → ℝ) :
    mappedNormal d r n ⬝ᵥ contravariant jt r v = vec d n ⬝ᵥ v := by
  rw [contravariant, dotProduct_smul, normal_apply hr, smul_eq_mul, ← mul_assoc, inv_mul_cancel₀ (inv_facts hr).2.2.ne', one_mul]

/-- C121: the flux through a facet of a multilinear element, computed with the unit normal and the integration element of the facet's own
geometry, is the flux through the facet of the reference element, point by point. -/
theorem C121_facet_flux (g : MultiLinearGeometry) (hg : Legal g) (hd : g.mydim ≤ 31) (h0 : 0 < g.mydim) (hsq : g.cdim = g.mydim) (i : Nat)
    (n : Vec ℝ) (e : Vec ℝ × Mat ℝ) (hf : IsFacet g.mydim g.id i n e) (g' : MultiLinearGeometry) (hdim : g'.mydim = g.mydim - 1)
    (hcd : g'.cdim = g.cdim) (hid : g'.id = (refType g.mydim g.id i 1).id) (htol : g'.tol = g.tol)
    (hcor : ∀ v k, v < g'.corners → subEntity g.mydim g.id i 1 v g.mydim = some k → g'.corners_ v = g.corners_ k)
    (x : Vec ℝ) (hx : IsCubeId g.mydim g.id ∨ Inner g' x) (r : ℝ × Mat ℝ)
    (hr : g.jacobianInverseTransposed (embed (g.mydim - 1) e x) = some r) (v : Fin g.mydim → ℝ) :
    ∃ ie, g'.integrationElement x = some ie ∧ 0 < ie ∧
      (ie⁻¹ • mappedNormal g.mydim r n) ⬝ᵥ (ie⁻¹ • mappedNormal g.mydim r n) = 1 ∧
      (ie⁻¹ • mappedNormal g.mydim r n) ⬝ᵥ contravariant (g.jacobianTransposed (embed (g.mydim - 1) e x)) r v * ie = vec g.mydim n ⬝ᵥ v := by
  obtain ⟨-, ⟨ie, h1, h2, h3⟩, -⟩ := C104_multilinear g hg hd h0 hsq i n e hf g' hdim hcd hid htol hcor x hx r hr
  refine ⟨ie, h1, h2, ?_, ?_⟩
  · rw [smul_dotProduct, dotProduct_smul, smul_eq_mul, smul_eq_mul, ← h3]
    field_simp
  · rw [MultiLinearGeometry.jacobianInverseTransposed, hsq] at hr
    rw [smul_dotProduct, C121_flux _ _ _ hr, smul_eq_mul, mul_right_comm, inv_mul_cancel₀ h2.ne', one_mul]

/-- C121: the normal component of contravariant fields is continuous across a common facet if the fluxes on the reference elements are
opposite. -/
theorem C121_normal_continuous (d : Nat) (g₁ g₂ : MultiLinearGeometry) (i₁ i₂ : Nat) (n₁ n₂ : Vec ℝ) (e₁ e₂ : Vec ℝ × Mat ℝ) (id : Nat)
    (σ : Nat → Nat) (a : Vec ℝ) (M : Mat ℝ) (h : Common d g₁ g₂ i₁ i₂ n₁ n₂ e₁ e₂ id σ a M) (x : Vec ℝ) (hx : Near d g₁ g₂ id a M x)
    (ho : Opposite d g₁ g₂ n₁ n₂ e₁ e₂ a M x) (r₁ r₂ : ℝ × Mat ℝ)
    (hr₁ : g₁.jacobianInverseTransposed (embed (d - 1) e₁ (affMap (d - 1) a M x)) = some r₁)
    (hr₂ : g₂.jacobianInverseTransposed (embed (d - 1) e₂ x) = some r₂) (v₁ v₂ : Fin d → ℝ) :
    mappedNormal d r₁ n₁ ⬝ᵥ contravariant (g₁.jacobianTransposed (embed (d - 1) e₁ (affMap (d - 1) a M x))) r₁ v₁ =
      mappedNormal d r₁ n₁ ⬝ᵥ contravariant (g₂.jacobianTransposed (embed (d - 1) e₂ x)) r₂ v₂ ↔
    vec d n₁ ⬝ᵥ v₁ = -(vec d n₂ ⬝ᵥ v₂) := by
  have hn := (neighbours_of g₁ g₂ h.legal₁ h.legal₂ d h.pos h.le h.dim₁ h.dim₂ h.world₁ h.world₂ h.tol i₁ i₂ n₁ n₂ e₁ e₂ h.facet₁ h.facet₂ id
    h.type₁ h.type₂ h.valid h.covered σ a M h.symmetry h.corners x hx r₁ r₂ hr₁ hr₂).2 (ho r₁ hr₁)
  rw [MultiLinearGeometry.jacobianInverseTransposed, h.world₁, h.dim₁] at hr₁
  rw [MultiLinearGeometry.jacobianInverseTransposed, h.world₂, h.dim₂] at hr₂
  rw [C121_flux d _ r₁ hr₁, ← C121_flux d _ r₂ hr₂ n₂ v₂, hn, neg_dotProduct, neg_neg]

/-- the remaining hypotheses (`Common`, `Opposite`, regular Jacobians) are those of the example for `C112_flux`, two squares with a common
edge; all points of the edge are `Near` -/
example (a : Vec ℝ) (M : Mat ℝ) (x : Vec ℝ) : Near 2 (sampleSquare 0) (sampleSquare 1) 1 a M x :=
  Or.inl ⟨square_cube, square_cube, fun k h1 h2 => by omega⟩

/-- C121: the tangential component of covariant fields is continuous across a common facet if the tangential components on the reference
facets agree. -/
theorem C121_tangential_continuous (d : Nat) (g₁ g₂ : MultiLinearGeometry) (i₁ i₂ : Nat) (n₁ n₂ : Vec ℝ) (e₁ e₂ : Vec ℝ × Mat ℝ) (id : Nat)
    (σ : Nat → Nat) (a : Vec ℝ) (M : Mat ℝ) (h : Common d g₁ g₂ i₁ i₂ n₁ n₂ e₁ e₂ id σ a M) (x : Vec ℝ) (hx : Near d g₁ g₂ id a M x)
    (r₁ r₂ : ℝ × Mat ℝ)
    (hr₁ : g₁.jacobianInverseTransposed (embed (d - 1) e₁ (affMap (d - 1) a M x)) = some r₁)
    (hr₂ : g₂.jacobianInverseTransposed (embed (d - 1) e₂ x) = some r₂) (w₁ w₂ : Fin d → ℝ) :
    (∀ t : Fin (d - 1) → ℝ, ((tangents d e₂ * mat d d (g₂.jacobianTransposed (embed (d - 1) e₂ x)))ᵀ *ᵥ t) ⬝ᵥ covariant r₁ w₁ =
      ((tangents d e₂ * mat d d (g₂.jacobianTransposed (embed (d - 1) e₂ x)))ᵀ *ᵥ t) ⬝ᵥ covariant r₂ w₂) ↔
    (mat (d - 1) (d - 1) M)ᵀ *ᵥ (tangents d e₁ *ᵥ w₁) = tangents d e₂ *ᵥ w₂ := by
  have hj := facet_jacobians h x hx
  rw [MultiLinearGeometry.jacobianInverseTransposed, h.world₁, h.dim₁] at hr₁
  rw [MultiLinearGeometry.jacobianInverseTransposed, h.world₂, h.dim₂] at hr₂
  have k1 := (right_inverse (le_refl d) hr₁).1
  have k2 := (right_inverse (le_refl d) hr₂).1
  have a1 : (tangents d e₂ * mat d d (g₂.jacobianTransposed (embed (d - 1) e₂ x))) *ᵥ covariant r₁ w₁ =
      (mat (d - 1) (d - 1) M)ᵀ *ᵥ (tangents d e₁ *ᵥ w₁) := by
    rw [hj, covariant, ← mulVec_mulVec, ← mulVec_mulVec, mulVec_mulVec _ (mat d d _) (mat d d r₁.2), k1, one_mulVec]
  have a2 : (tangents d e₂ * mat d d (g₂.jacobianTransposed (embed (d - 1) e₂ x))) *ᵥ covariant r₂ w₂ = tangents d e₂ *ᵥ w₂ := by
    rw [covariant, ← mulVec_mulVec, mulVec_mulVec _ (mat d d _) (mat d d r₂.2), k2, one_mulVec]
  rw [← a1, ← a2]
  constructor
  · intro ht
    refine dotProduct_eq _ _ fun t => ?_
    have := ht t
    rw [mulVec_transpose, ← dotProduct_mulVec, ← dotProduct_mulVec] at this
    rwa [dotProduct_comm, dotProduct_comm _ t]
  · intro ht t
    rw [mulVec_transpose, ← dotProduct_mulVec, ← dotProduct_mulVec, ht]

end Verif.Piola
