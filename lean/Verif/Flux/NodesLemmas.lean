import Verif.Quad.FacetNodesProps
import Verif.Quad.SymmetricProps
import Verif.Neighbour.Props
import Verif.Hull.CornerProps

/-!
Multilinear maps of cubes: Lipschitz bound, restriction to sub-entities without distance to the tips (cubes have none).
-/

namespace Verif.Flux

open Verif.Typ Verif.RefTopo Verif.RefGeom Verif.Neighbour Verif.MultiLinear
open MultiLinearGeometry (corners)
open Finset hiding ext

/-- the values of a multilinear map on the unit cube lie between those at the corners -/
theorem ML_between {tol lo hi : ℝ} : ∀ (d : Nat) (c : Nat → ℝ) (z : Vec ℝ), (∀ k < 2 ^ d, lo ≤ c k ∧ c k ≤ hi) →
    (∀ r < d, 0 ≤ z r ∧ z r ≤ 1) → lo ≤ ML tol (Topo.cube d) c z ∧ ML tol (Topo.cube d) c z ≤ hi
  | 0, c, z, hc, _ => hc 0 (by norm_num)
  | d + 1, c, z, hc, hz => by
    rw [pow_succ] at hc
    obtain ⟨a1, a2⟩ := ML_between (tol := tol) d c z (fun k hk => hc k (by omega)) fun r hr => hz r (by omega)
    obtain ⟨b1, b2⟩ := ML_between (tol := tol) d (fun k => c (2 ^ d + k)) z (fun k hk => hc _ (by omega)) fun r hr => hz r (by omega)
    obtain ⟨z0, z1⟩ := hz d (by omega)
    rw [Topo.cube, ML, dim_cube, nv_cube]
    constructor <;> nlinarith

/-- Lipschitz bound on the unit cube -/
theorem ML_lipschitz {tol lo hi δ : ℝ} : ∀ (d : Nat) (c : Nat → ℝ) (z z' : Vec ℝ), (∀ k < 2 ^ d, lo ≤ c k ∧ c k ≤ hi) →
    (∀ r < d, 0 ≤ z r ∧ z r ≤ 1) → (∀ r < d, 0 ≤ z' r ∧ z' r ≤ 1) → (∀ r < d, |z r - z' r| ≤ δ) →
    |ML tol (Topo.cube d) c z - ML tol (Topo.cube d) c z'| ≤ d * (hi - lo) * δ
  | 0, c, z, z', _, _, _, _ => by simp [Topo.cube, ML]
  | d + 1, c, z, z', hc, hz, hz', h => by
    rw [pow_succ] at hc
    have ha := ML_lipschitz (tol := tol) d c z z' (fun k hk => hc k (by omega)) (fun r hr => hz r (by omega)) (fun r hr => hz' r (by omega))
      fun r hr => h r (by omega)
    have hb := ML_lipschitz (tol := tol) d (fun k => c (2 ^ d + k)) z z' (fun k hk => hc _ (by omega)) (fun r hr => hz r (by omega))
      (fun r hr => hz' r (by omega)) fun r hr => h r (by omega)
    have a := ML_between (tol := tol) d c z' (fun k hk => hc k (by omega)) fun r hr => hz' r (by omega)
    have b := ML_between (tol := tol) d (fun k => c (2 ^ d + k)) z' (fun k hk => hc _ (by omega)) fun r hr => hz' r (by omega)
    obtain ⟨z0, z1⟩ := hz d (by omega)
    have hd := h d (by omega)
    rw [Topo.cube, ML, ML, dim_cube, nv_cube]
    generalize ML tol (Topo.cube d) c z = A at *
    generalize ML tol (Topo.cube d) c z' = A' at *
    generalize ML tol (Topo.cube d) (fun k => c (2 ^ d + k)) z = B at *
    generalize ML tol (Topo.cube d) (fun k => c (2 ^ d + k)) z' = B' at *
    have e : (1 - z d) * A + z d * B - ((1 - z' d) * A' + z' d * B') =
        (1 - z d) * (A - A') + z d * (B - B') + (z d - z' d) * (B' - A') := by ring
    have h1 : |(1 - z d) * (A - A')| ≤ (1 - z d) * (d * (hi - lo) * δ) := by
      rw [abs_mul, abs_of_nonneg (by linarith : 0 ≤ 1 - z d)]
      exact mul_le_mul_of_nonneg_left ha (by linarith)
    have h2 : |z d * (B - B')| ≤ z d * (d * (hi - lo) * δ) := by
      rw [abs_mul, abs_of_nonneg z0]
      exact mul_le_mul_of_nonneg_left hb z0
    have h3 : |(z d - z' d) * (B' - A')| ≤ δ * (hi - lo) := by
      rw [abs_mul]
      exact mul_le_mul hd (abs_le.2 ⟨by linarith [a.1, a.2, b.1, b.2], by linarith [a.1, a.2, b.1, b.2]⟩) (abs_nonneg _) ((abs_nonneg _).trans hd)
    rw [e]
    refine (abs_add_le _ _).trans ?_
    have := abs_add_le ((1 - z d) * (A - A')) (z d * (B - B'))
    push_cast
    linarith

theorem global_lipschitz {g : MultiLinearGeometry} (hg : Legal g) (hc : IsCubeId g.mydim g.id) {lo hi δ : ℝ} {j : Nat}
    (hk : ∀ k < 2 ^ g.mydim, lo ≤ g.corners_ k j ∧ g.corners_ k j ≤ hi) {z z' : Vec ℝ} (hz : ∀ r < g.mydim, 0 ≤ z r ∧ z r ≤ 1)
    (hz' : ∀ r < g.mydim, 0 ≤ z' r ∧ z' r ≤ 1) (h : ∀ r < g.mydim, |z r - z' r| ≤ δ) :
    |g.global z j - g.global z' j| ≤ g.mydim * (hi - lo) * δ := by
  rw [global_eq g hg.id_lt, global_eq g hg.id_lt, topoOf_cube _ _ hc]
  exact ML_lipschitz _ _ _ _ hk hz hz' h

/-- C57_restriction for sub-entities of cubes, on all points -/
theorem restriction_cube (g : MultiLinearGeometry) (hg : Legal g) (hcube : IsCubeId g.mydim g.id) (hd : g.mydim ≤ 31) (i c : Nat) (hc : c ≤ g.mydim)
    (hi : i < refSize g.mydim g.id c) (e : Vec ℝ × Mat ℝ)
    (he : (referenceEmbeddings (K := ℝ) g.mydim g.id c)[i]? = some e) (g' : MultiLinearGeometry)
    (hdim : g'.mydim = g.mydim - c) (hid : g'.id = (refType g.mydim g.id i c).id) (htol : g'.tol = g.tol)
    (hcor : ∀ v k, v < g'.corners → subEntity g.mydim g.id i c v g.mydim = some k → g'.corners_ v = g.corners_ k)
    (x : Vec ℝ) : g.global (embed (g.mydim - c) e x) = g'.global x := by
  have hT' := topoOf_cube _ _ hcube
  have hr : Rep g.mydim g.id (Topo.cube g.mydim) := hT' ▸ rep_topoOf g.mydim g.id
  obtain ⟨f, rfl, rfl⟩ := exists_face hr hc hi
  have hfd := Face.codim_add_dim f
  rw [hr.dim_eq] at hfd
  rw [embedding_face hr f] at he
  obtain rfl := Option.some.inj he
  have hrs := rep_sub hr hg.id_lt f
  have hT := refType_eq g.mydim g.id f.idx f.codim hd hg.id_lt hc
  have hid' : g'.id = subTopologyId g.mydim g.id f.codim f.idx := by rw [hid, hT]
  have hlt : g'.id < 2 ^ g'.mydim := by
    rw [hid', hdim]; exact subTopologyId_lt g.mydim g.id f.codim f.idx hg.id_lt hc
  have hdc : g.mydim - f.codim = f.shape.dim := by omega
  rw [← hdim, ← hid'] at hrs
  have hrs' : Rep g'.mydim g'.id (Topo.cube g'.mydim) := by
    have := Quad.cube_shape _ f
    rw [this, ← hdc, ← hdim] at hrs
    exact hrs
  have hx1 : Away g'.tol f.shape x := by rw [Quad.cube_shape _ f]; exact away_cube _ _
  have hx2 : Away g'.tol (topoOf g'.mydim g'.id) x := by
    rw [topoOf_cube _ _ (Quad.isCube_of_rep _ _ hrs')]; exact away_cube _ _
  funext j
  rw [global_eq g hg.id_lt, global_eq g' hlt, ← (ML_rep hrs (rep_topoOf _ _) hx1 hx2).2, htol, hT', hdc]
  refine ML_face hg.tol_pos.le hg.tol_lt f _ _ x fun w hw => ?_
  have hsub := subEntity_eq hr hg.id_lt f w
  rw [show f.codim + w.codim = g.mydim by omega] at hsub
  rw [hcor w.idx _ ?_ hsub]
  rw [corners, refSize, size_eq hrs _ (le_refl _), hdim, hdc, ← hw]
  exact Face.idx_lt w

/-- C97_neighbours for cubes, on all points of the face -/
theorem neighbours_cube (g₁ g₂ : MultiLinearGeometry) (h₁ : Legal g₁) (h₂ : Legal g₂) (hq₁ : IsCubeId g₁.mydim g₁.id)
    (hq₂ : IsCubeId g₂.mydim g₂.id) (hd₁ : g₁.mydim ≤ 31)
    (hd₂ : g₂.mydim ≤ 31) (htol : g₂.tol = g₁.tol) (i₁ c₁ i₂ c₂ : Nat) (hc₁ : c₁ ≤ g₁.mydim) (hc₂ : c₂ ≤ g₂.mydim)
    (hi₁ : i₁ < refSize g₁.mydim g₁.id c₁) (hi₂ : i₂ < refSize g₂.mydim g₂.id c₂) (e₁ e₂ : Vec ℝ × Mat ℝ)
    (he₁ : (referenceEmbeddings (K := ℝ) g₁.mydim g₁.id c₁)[i₁]? = some e₁)
    (he₂ : (referenceEmbeddings (K := ℝ) g₂.mydim g₂.id c₂)[i₂]? = some e₂) (m id : Nat) (hm₁ : g₁.mydim - c₁ = m)
    (hm₂ : g₂.mydim - c₂ = m) (hid₁ : (refType g₁.mydim g₁.id i₁ c₁).id = id) (hid₂ : (refType g₂.mydim g₂.id i₂ c₂).id = id)
    (hidm : id < 2 ^ m) (hcov : IsCubeId m id) (σ : Nat → Nat) (a : Vec ℝ) (M : Mat ℝ) (hsym : Symmetry m id σ a M)
    (hcor : ∀ v, v < refSize m id m → ∃ k₁ k₂, subEntity g₁.mydim g₁.id i₁ c₁ (σ v) g₁.mydim = some k₁ ∧
      subEntity g₂.mydim g₂.id i₂ c₂ v g₂.mydim = some k₂ ∧ g₂.corners_ k₂ = g₁.corners_ k₁)
    (x : Vec ℝ) : g₂.global (embed m e₂ x) = g₁.global (embed m e₁ (affMap m a M x)) := by
  let gf : MultiLinearGeometry := ⟨m, g₁.cdim, id,
    fun v => g₁.corners_ ((subEntity g₁.mydim g₁.id i₁ c₁ v g₁.mydim).getD 0), g₁.tol⟩
  have hgf : Legal gf := ⟨hidm, h₁.tol_pos, h₁.tol_lt⟩
  have r1 := restriction_cube g₁ h₁ hq₁ hd₁ i₁ c₁ hc₁ hi₁ e₁ he₁ gf hm₁.symm hid₁.symm rfl
    (fun v k _ hk => by change g₁.corners_ _ = _; rw [hk]; rfl) (affMap m a M x)
  have r2 := restriction_cube g₂ h₂ hq₂ hd₂ i₂ c₂ hc₂ hi₂ e₂ he₂ (renumbered gf σ) hm₂.symm hid₂.symm htol.symm
    (fun v k hv hk => by
      obtain ⟨k₁, k₂, hk₁, hk₂, he⟩ := hcor v hv
      rw [hk] at hk₂
      obtain rfl := Option.some.inj hk₂
      change g₁.corners_ ((subEntity g₁.mydim g₁.id i₁ c₁ (σ v) g₁.mydim).getD 0) = _
      rw [hk₁, he]
      rfl) x
  rw [hm₁] at r1
  rw [hm₂] at r2
  rw [r1, r2]
  exact C97_global gf hgf (Or.inr (Or.inl hcov)) σ a M hsym x (Or.inl hcov) (Or.inl hcov)

/-- embeddings of sub-entities of cubes copy coordinates -/
theorem embed_cube {d id c i : Nat} (hcube : IsCubeId d id) (hc : c ≤ d) (hi : i < refSize d id c) {e : Vec ℝ × Mat ℝ}
    (he : (referenceEmbeddings (K := ℝ) d id c)[i]? = some e) :
    ∀ j < d, (∃ r < d - c, ∀ y : Vec ℝ, embed (d - c) e y j = y r) ∨ (∀ y : Vec ℝ, embed (d - c) e y j = 0) ∨ ∀ y : Vec ℝ, embed (d - c) e y j = 1 := by
  have hr : Rep d id (Topo.cube d) := topoOf_cube _ _ hcube ▸ rep_topoOf d id
  obtain ⟨f, rfl, rfl⟩ := exists_face hr hc hi
  have hfd := Face.codim_add_dim f
  rw [hr.dim_eq] at hfd
  rw [embedding_face hr f] at he
  obtain rfl := Option.some.inj he
  have hdc : d - f.codim = f.shape.dim := by omega
  rw [hdc]
  obtain ⟨ι, h1, h2⟩ := Quad.cube_emb d f
  intro j hj
  rcases h2 j hj with ⟨r, hr, rfl⟩ | h | h
  · exact Or.inl ⟨r, hr, (h1 r hr).2⟩
  · exact Or.inr (Or.inl h)
  · exact Or.inr (Or.inr h)

end Verif.Flux
