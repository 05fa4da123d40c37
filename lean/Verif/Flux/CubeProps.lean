import Verif.Flux.Props
import Verif.Flux.NodesProps

/-!
C112 for cubes, with points on the boundary of the facet allowed (Gauss-Lobatto rules); C57, C97 and C104 for cubes at all points.
-/

namespace Verif.Flux

open Verif.Typ Verif.RefTopo Verif.RefGeom Verif.MatHelp Verif.Neighbour Verif.MultiLinear Verif.Normal Verif.Quad
open MultiLinearGeometry (corners)
open Finset hiding ext
open Matrix hiding vec

/-- C57, for sub-entities of cubes: the element restricted to a sub-entity is the geometry spanned by the corners of the sub-entity, at
every point. -/
theorem C57_restriction_cube (g : MultiLinearGeometry) (hg : Legal g) (hcube : IsCubeId g.mydim g.id) (hd : g.mydim ≤ 31) (i c : Nat)
    (hc : c ≤ g.mydim) (hi : i < refSize g.mydim g.id c) (e : Vec ℝ × Mat ℝ)
    (he : (referenceEmbeddings (K := ℝ) g.mydim g.id c)[i]? = some e) (g' : MultiLinearGeometry)
    (hdim : g'.mydim = g.mydim - c) (hid : g'.id = (refType g.mydim g.id i c).id) (htol : g'.tol = g.tol)
    (hcor : ∀ v k, v < g'.corners → subEntity g.mydim g.id i c v g.mydim = some k → g'.corners_ v = g.corners_ k)
    (x : Vec ℝ) : g.global (embed (g.mydim - c) e x) = g'.global x :=
  restriction_cube g hg hcube hd i c hc hi e he g' hdim hid htol hcor x

/-- C104, for cubes: the normals of two elements on their common facet are equal up to the sign at every point, also on the boundary of
the facet. -/
theorem C104_neighbours_cube (g₁ g₂ : MultiLinearGeometry) (h₁ : Legal g₁) (h₂ : Legal g₂) (d : Nat) (h0 : 0 < d) (hd : d ≤ 30)
    (hd₁ : g₁.mydim = d) (hd₂ : g₂.mydim = d) (hw₁ : g₁.cdim = d) (hw₂ : g₂.cdim = d) (htol : g₂.tol = g₁.tol)
    (hq₁ : IsCubeId d g₁.id) (hq₂ : IsCubeId d g₂.id) (i₁ i₂ : Nat)
    (n₁ n₂ : Vec ℝ) (e₁ e₂ : Vec ℝ × Mat ℝ) (hf₁ : IsFacet d g₁.id i₁ n₁ e₁) (hf₂ : IsFacet d g₂.id i₂ n₂ e₂) (id : Nat)
    (hid₁ : (refType d g₁.id i₁ 1).id = id) (hid₂ : (refType d g₂.id i₂ 1).id = id) (hidm : id < 2 ^ (d - 1))
    (σ : Nat → Nat) (a : Vec ℝ) (M : Mat ℝ) (hsym : Symmetry (d - 1) id σ a M)
    (hcor : ∀ v, v < refSize (d - 1) id (d - 1) → ∃ k₁ k₂, subEntity d g₁.id i₁ 1 (σ v) d = some k₁ ∧
      subEntity d g₂.id i₂ 1 v d = some k₂ ∧ g₂.corners_ k₂ = g₁.corners_ k₁)
    (x : Vec ℝ) (r₁ r₂ : ℝ × Mat ℝ)
    (hr₁ : g₁.jacobianInverseTransposed (embed (d - 1) e₁ (affMap (d - 1) a M x)) = some r₁)
    (hr₂ : g₂.jacobianInverseTransposed (embed (d - 1) e₂ x) = some r₂) :
    (mappedNormal d r₂ n₂ = mappedNormal d r₁ n₁ ∨ mappedNormal d r₂ n₂ = -mappedNormal d r₁ n₁) ∧
    ((∃ v : Fin d → ℝ, vec d n₂ ⬝ᵥ v < 0 ∧
      0 < mappedNormal d r₁ n₁ ⬝ᵥ (mat d d (g₂.jacobian (embed (d - 1) e₂ x)) *ᵥ v)) →
      mappedNormal d r₂ n₂ = -mappedNormal d r₁ n₁) := by
  have hq : IsCubeId (d - 1) id := by
    have hlt := h₁.id_lt
    rw [hd₁] at hlt
    have := sub_isCube hq₁ hlt hd h0 hf₁.lt
    rwa [hid₁] at this
  exact neighbours_of g₁ g₂ h₁ h₂ d h0 (by omega) hd₁ hd₂ hw₁ hw₂ htol i₁ i₂ n₁ n₂ e₁ e₂ hf₁ hf₂ id hid₁ hid₂ hidm (Or.inr (Or.inl hq)) σ a M
    hsym hcor x (Or.inl ⟨hq₁, hq₂, hq⟩) r₁ r₂ hr₁ hr₂

/-- C112, for cubes: what the quadrature lets flow out of a quadrilateral, hexahedron, … through a facet flows into its neighbour.  Rules
of both types and of all orders; the points may lie on the boundary of the facet. -/
theorem C112_flux_cube (env : Env ℝ) (d : Nat) (hd : 1 < d) (hd' : d ≤ 30) (g₁ g₂ : MultiLinearGeometry) (i₁ i₂ : Nat) (n₁ n₂ : Vec ℝ)
    (e₁ e₂ : Vec ℝ × Mat ℝ) (id : Nat) (σ : Nat → Nat) (a : Vec ℝ) (M : Mat ℝ) (h : Common d g₁ g₂ i₁ i₂ n₁ n₂ e₁ e₂ id σ a M)
    (hq₁ : IsCubeId d g₁.id) (hq₂ : IsCubeId d g₂.id) (qt : QType) (hq : qt = .GaussLegendre ∨ qt = .GaussLobatto) (p m : Nat)
    (hm : maxOrder (d - 1) ⟨d - 1, false, id⟩ qt = .ok m) (hp : p ≤ m) :
    ∃ r, rule env (d - 1) ⟨d - 1, false, id⟩ p qt = .ok r ∧
      ((∀ q ∈ r.pts, Opposite d g₁ g₂ n₁ n₂ e₁ e₂ a M q.position) →
        (∀ q ∈ r.pts, (g₂.jacobianInverseTransposed (embed (d - 1) e₂ q.position)).isSome) →
        ∀ (F : Vec ℝ → Vec ℝ) (B ω : ℝ), Smooth (d - 1) (1 / 10 ^ 79) B ω (fluxDensity d g₁ n₁ e₁ F) r.pts →
        ∃ S T, quadrature (fluxDensity d g₁ n₁ e₁ F) r.pts = some S ∧ quadrature (fluxDensity d g₂ n₂ e₂ F) r.pts = some T ∧
          |T + S| ≤ r.pts.length * (1 / 10 ^ 79) * B + absWeights r.pts * ω) := by
  have hd₁ := h.dim₁
  have hd₂ := h.dim₂
  have hqf : IsCubeId (d - 1) id := by
    have hlt := h.legal₁.id_lt
    rw [hd₁] at hlt
    have := sub_isCube hq₁ hlt hd' h.pos h.facet₁.lt
    rwa [h.type₁] at this
  obtain ⟨r, h1, hinv⟩ := C108_cube_partial env (d - 1) id p m qt (by omega) h.valid hqf hq hm (by omega) hp σ a M h.symmetry
  refine ⟨r, h1, fun hop hreg F B ω hF => ?_⟩
  obtain ⟨S, T, h1, h2, h3⟩ := sum_invariant hinv hF (-1) (by simp) (ψ := fluxDensity d g₂ n₂ e₂ F) fun q hq v hv => by
    obtain ⟨r₂, hr₂⟩ := Option.isSome_iff_exists.1 (hreg q hq)
    obtain ⟨r₁, hr₁, rfl⟩ := Option.map_eq_some_iff.1 hv
    have hn := (C104_neighbours_cube g₁ g₂ h.legal₁ h.legal₂ d h.pos hd' h.dim₁ h.dim₂ h.world₁ h.world₂ h.tol hq₁ hq₂ i₁ i₂ n₁ n₂ e₁ e₂
      h.facet₁ h.facet₂ id h.type₁ h.type₂ h.valid σ a M h.symmetry h.corners q.position r₁ r₂ hr₁ hr₂).2 (hop q hq r₁ hr₁)
    have hG := neighbours_cube g₁ g₂ h.legal₁ h.legal₂ (by rw [hd₁]; exact hq₁) (by rw [hd₂]; exact hq₂) (by rw [hd₁]; exact h.le)
      (by rw [hd₂]; exact h.le) h.tol i₁ 1 i₂ 1
      (by rw [hd₁]; exact h.pos) (by rw [hd₂]; exact h.pos) (by rw [hd₁]; exact h.facet₁.lt) (by rw [hd₂]; exact h.facet₂.lt) e₁ e₂
      (by rw [hd₁]; exact h.facet₁.embedding) (by rw [hd₂]; exact h.facet₂.embedding) (d - 1) id (by rw [hd₁]) (by rw [hd₂])
      (by rw [hd₁]; exact h.type₁) (by rw [hd₂]; exact h.type₂) h.valid hqf σ a M h.symmetry
      (fun v hv => by rw [hd₁, hd₂]; exact h.corners v hv) q.position
    rw [fluxDensity, hr₂, Option.map_some, hn, hG, neg_dotProduct, neg_one_mul]
  exact ⟨S, T, h1, h2, by rwa [neg_one_mul, sub_neg_eq_add] at h3⟩

/-- the other hypotheses are met by the two squares in the example for `C112_flux` -/
example : IsCubeId 2 (sampleSquare 0).id ∧ IsCubeId 2 (sampleSquare 1).id ∧ maxOrder 1 ⟨1, false, 1⟩ .GaussLobatto = .ok 31 :=
  ⟨square_cube, square_cube, by decide⟩

end Verif.Flux
