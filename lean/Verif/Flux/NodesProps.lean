import Verif.Flux.NodesLemmas

/-!
Property C118: shared nodes.  Two cubes that share a face, edge or vertex place the nodes of their Gauss-Lobatto rules on it at the same points, however
its corners are numbered.  Codes with continuous spectral elements rely on this when they identify degrees of freedom by their position.
-/

namespace Verif.Flux

open Verif.Typ Verif.RefTopo Verif.RefGeom Verif.Neighbour Verif.MultiLinear Verif.Quad
open Finset hiding ext

/-- the point lies on the sub-entity with embedding `e`, or very near to it -/
def On (d c : Nat) (e : Vec ℝ × Mat ℝ) (x : Vec ℝ) : Prop := ∃ y : Vec ℝ, ∀ j < d, |x j - embed (d - c) e y j| < 1 / 1000

/-- the points of `l₁` that satisfy `P₁` and those of `l₂` that satisfy `P₂` have the same positions, up to `ε` in every coordinate -/
def SamePositions (ε : ℝ) (n : Nat) (x₁ x₂ : QPoint ℝ → Vec ℝ) (P₁ P₂ : QPoint ℝ → Prop) (l₁ l₂ : List (QPoint ℝ)) : Prop :=
  (∀ q₁ ∈ l₁, P₁ q₁ → ∃ q₂ ∈ l₂, P₂ q₂ ∧ ∀ j < n, |x₁ q₁ j - x₂ q₂ j| ≤ ε) ∧
  ∀ q₂ ∈ l₂, P₂ q₂ → ∃ q₁ ∈ l₁, P₁ q₁ ∧ ∀ j < n, |x₁ q₁ j - x₂ q₂ j| ≤ ε

/-- Elements `g₁` and `g₂` share sub-entity `(i₁, c₁)` resp. `(i₂, c₂)` of dimension `m` and type `id`: corner `v` seen from `g₂` is corner `σ v` seen
from `g₁`, where `σ` is a symmetry of the sub-entity -/
structure Share (g₁ g₂ : MultiLinearGeometry) (i₁ c₁ i₂ c₂ m id : Nat) (σ : Nat → Nat) (a : Vec ℝ) (M : Mat ℝ) : Prop where
  cdim : g₂.cdim = g₁.cdim
  tol : g₂.tol = g₁.tol
  codim₁ : c₁ ≤ g₁.mydim
  codim₂ : c₂ ≤ g₂.mydim
  idx₁ : i₁ < refSize g₁.mydim g₁.id c₁
  idx₂ : i₂ < refSize g₂.mydim g₂.id c₂
  dim₁ : g₁.mydim - c₁ = m
  dim₂ : g₂.mydim - c₂ = m
  id₁ : (refType g₁.mydim g₁.id i₁ c₁).id = id
  id₂ : (refType g₂.mydim g₂.id i₂ c₂).id = id
  symmetry : Symmetry m id σ a M
  corner : ∀ v, v < refSize m id m → ∃ k₁ k₂, subEntity g₁.mydim g₁.id i₁ c₁ (σ v) g₁.mydim = some k₁ ∧
    subEntity g₂.mydim g₂.id i₂ c₂ v g₂.mydim = some k₂ ∧ g₂.corners_ k₂ = g₁.corners_ k₁

theorem invariant_dim0 {ε : ℝ} (hε : 0 ≤ ε) (A : Vec ℝ → Vec ℝ) (l : List (QPoint ℝ)) : Invariant 0 ε A l :=
  Multiset.rel_refl_of_refl_on fun q _ => ⟨fun i hi => absurd hi (Nat.not_lt_zero i), by rw [_root_.sub_self, abs_zero]; exact hε⟩

theorem pointsIn_cube {d id : Nat} (hc : IsCubeId d id) {l : List (QPoint ℝ)} (h : PointsIn d id l) : ∀ q ∈ l, ∀ r < d, 0 ≤ q.position r ∧ q.position r ≤ 1 := by
  intro q hq r hr
  have := Hull.cube_dom hc (h q hq) r hr
  simpa only [RefGeom.ext, dif_pos hr] using this

/-- the symmetry maps the unit cube to itself -/
theorem affMap_cube {m id : Nat} (hc : IsCubeId m id) {σ : Nat → Nat} {a : Vec ℝ} {M : Mat ℝ} (h : Symmetry m id σ a M) {x : Vec ℝ}
    (hx : ∀ r < m, 0 ≤ x r ∧ x r ≤ 1) : ∀ r < m, 0 ≤ affMap m a M x r ∧ affMap m a M x r ≤ 1 := by
  intro r hr
  have hdom : (fun i => if i < m then x i else 0) ∈ domain ℝ m id := by
    refine (mem_domain (rep_topoOf m id) _ fun k hk => if_neg (by omega)).2 ?_
    rw [topoOf_cube m id hc]
    exact Hull.dom_cube m _ fun r hr => by simp only [if_pos hr]; exact hx r hr
  have := Hull.cube_dom hc (C97_domain m id σ a M h _ hdom) r hr
  simp only [if_pos hr] at this
  rwa [affMap_congr (y := x) fun r hr => if_pos hr] at this

theorem embed_unit {d id c i : Nat} (hcube : IsCubeId d id) (hc : c ≤ d) (hi : i < refSize d id c) {e : Vec ℝ × Mat ℝ}
    (he : (referenceEmbeddings (K := ℝ) d id c)[i]? = some e) {y : Vec ℝ} (hy : ∀ r < d - c, 0 ≤ y r ∧ y r ≤ 1) :
    ∀ j < d, 0 ≤ embed (d - c) e y j ∧ embed (d - c) e y j ≤ 1 := by
  intro j hj
  rcases embed_cube hcube hc hi he j hj with ⟨r, hr, h⟩ | h | h <;> rw [h]
  · exact hy r hr
  · norm_num
  · norm_num

theorem embed_near {d id c i : Nat} (hcube : IsCubeId d id) (hc : c ≤ d) (hi : i < refSize d id c) {e : Vec ℝ × Mat ℝ}
    (he : (referenceEmbeddings (K := ℝ) d id c)[i]? = some e) {y y' : Vec ℝ} {ε : ℝ} (hε : 0 ≤ ε) (hy : ∀ r < d - c, |y r - y' r| ≤ ε) :
    ∀ j < d, |embed (d - c) e y j - embed (d - c) e y' j| ≤ ε := by
  intro j hj
  rcases embed_cube hcube hc hi he j hj with ⟨r, hr, h⟩ | h | h <;> rw [h, h]
  · exact hy r hr
  · simpa using hε
  · simpa using hε

/-- sub-entities of cubes are cubes -/
theorem sub_isCube {d id c i : Nat} (hq : IsCubeId d id) (hid : id < 2 ^ d) (hd : d ≤ 30) (hc : c ≤ d) (hi : i < refSize d id c) :
    IsCubeId (d - c) (refType d id i c).id := by
  have hr : Rep d id (Topo.cube d) := topoOf_cube _ _ hq ▸ rep_topoOf _ _
  obtain ⟨f, rfl, rfl⟩ := exists_face hr hc hi
  have hsub := rep_sub hr hid f
  have hfd := Face.codim_add_dim f
  rw [hr.dim_eq] at hfd
  rw [cube_shape, show f.shape.dim = d - f.codim by omega] at hsub
  rw [refType_eq d id _ _ (by omega) hid hc]
  exact isCube_of_rep _ _ hsub

theorem shared_aux (env : Env ℝ) (g₁ g₂ : MultiLinearGeometry) (h₁ : Legal g₁) (h₂ : Legal g₂) (hq₁ : IsCubeId g₁.mydim g₁.id)
    (hq₂ : IsCubeId g₂.mydim g₂.id) (hd₁ : g₁.mydim ≤ 30) (hd₂ : g₂.mydim ≤ 30)
    (i₁ c₁ i₂ c₂ m id : Nat) (σ : Nat → Nat) (a : Vec ℝ) (M : Mat ℝ) (hs : Share g₁ g₂ i₁ c₁ i₂ c₂ m id σ a M) (e₁ e₂ : Vec ℝ × Mat ℝ)
    (he₁ : (referenceEmbeddings (K := ℝ) g₁.mydim g₁.id c₁)[i₁]? = some e₁)
    (he₂ : (referenceEmbeddings (K := ℝ) g₂.mydim g₂.id c₂)[i₂]? = some e₂)
    (p m₁ m₂ : Nat) (hm₁ : maxOrder g₁.mydim ⟨g₁.mydim, false, g₁.id⟩ .GaussLobatto = .ok m₁) (hp₁ : p ≤ m₁)
    (hm₂ : maxOrder g₂.mydim ⟨g₂.mydim, false, g₂.id⟩ .GaussLobatto = .ok m₂) (hp₂ : p ≤ m₂)
    (lo : Vec ℝ) (H : ℝ) (hH₁ : ∀ k < 2 ^ g₁.mydim, ∀ j < g₁.cdim, lo j ≤ g₁.corners_ k j ∧ g₁.corners_ k j ≤ lo j + H)
    (hH₂ : ∀ k < 2 ^ g₂.mydim, ∀ j < g₁.cdim, lo j ≤ g₂.corners_ k j ∧ g₂.corners_ k j ≤ lo j + H)
    (r₁ r₂ R : Rule ℝ) (hr₁ : rule env g₁.mydim ⟨g₁.mydim, false, g₁.id⟩ p .GaussLobatto = .ok r₁)
    (hr₂ : rule env g₂.mydim ⟨g₂.mydim, false, g₂.id⟩ p .GaussLobatto = .ok r₂)
    (hR : rule env m ⟨m, false, id⟩ p .GaussLobatto = .ok R) (near : ℝ → Prop) {δ ε : ℝ} (hε : 0 ≤ ε)
    (hn' : ∀ t, 0 ≤ t → t ≤ δ → near t)
    (hN₁ : SameNodes δ g₁.mydim c₁ e₁ near r₁.pts R.pts) (hN₂ : SameNodes δ g₂.mydim c₂ e₂ near r₂.pts R.pts)
    (hinv : Invariant m ε (affMap m a M) R.pts) :
    SamePositions (g₁.mydim * H * (δ + ε) + g₂.mydim * H * δ) g₁.cdim (fun q => g₁.global q.position) (fun q => g₂.global q.position)
      (fun q => ∃ y : Vec ℝ, ∀ j < g₁.mydim, near |q.position j - embed (g₁.mydim - c₁) e₁ y j|)
      (fun q => ∃ y : Vec ℝ, ∀ j < g₂.mydim, near |q.position j - embed (g₂.mydim - c₂) e₂ y j|) r₁.pts r₂.pts := by
  have hT₁ := refType_eq g₁.mydim g₁.id i₁ c₁ (by omega) h₁.id_lt hs.codim₁
  have hidlt : id < 2 ^ m := by
    rw [← hs.id₁, hT₁, ← hs.dim₁]
    exact subTopologyId_lt _ _ _ _ h₁.id_lt hs.codim₁
  have hcube : IsCubeId m id := by
    have := sub_isCube hq₁ h₁.id_lt hd₁ hs.codim₁ hs.idx₁
    rwa [hs.dim₁, hs.id₁] at this
  have hglob := neighbours_cube g₁ g₂ h₁ h₂ hq₁ hq₂ (by omega) (by omega) hs.tol i₁ c₁ i₂ c₂ hs.codim₁ hs.codim₂ hs.idx₁ hs.idx₂ e₁ e₂ he₁ he₂ m id
    hs.dim₁ hs.dim₂ hs.id₁ hs.id₂ hidlt hcube σ a M hs.symmetry hs.corner
  have hq : IsPlain .GaussLobatto := Or.inr (Or.inl rfl)
  obtain ⟨r, x1, x2, -⟩ := C48_rule_partial env g₁.mydim g₁.id p m₁ .GaussLobatto hd₁ h₁.id_lt hq hm₁ hp₁
  obtain rfl := Res.ok.inj (x1.symm.trans hr₁)
  obtain ⟨r', y1, y2, -⟩ := C48_rule_partial env g₂.mydim g₂.id p m₂ .GaussLobatto hd₂ h₂.id_lt hq hm₂ hp₂
  obtain rfl := Res.ok.inj (y1.symm.trans hr₂)
  obtain ⟨mm, hmm, hmm'⟩ := C107_available g₁.mydim g₁.id m₁ .GaussLobatto hd₁ h₁.id_lt hq hm₁ c₁ i₁ hs.codim₁ hs.idx₁
  have hTy : refType g₁.mydim g₁.id i₁ c₁ = ⟨m, false, id⟩ := by
    rw [hT₁, ← hs.dim₁, ← hs.id₁, hT₁]
  rw [hTy] at hmm
  obtain ⟨r'', z1, z2, -⟩ := C48_rule_partial env m id p mm .GaussLobatto (by have := hs.dim₁; omega) hidlt hq hmm (hp₁.trans hmm')
  obtain rfl := Res.ok.inj (z1.symm.trans hR)
  have b₁ := pointsIn_cube hq₁ x2
  have b₂ := pointsIn_cube hq₂ y2
  have b := pointsIn_cube hcube z2
  -- the estimate for a chain of points
  have key : ∀ q₁ ∈ r.pts, ∀ Q ∈ r''.pts, ∀ Q' ∈ r''.pts, ∀ q₂ ∈ r'.pts,
      (∀ j < g₁.mydim, |q₁.position j - embed (g₁.mydim - c₁) e₁ Q.position j| ≤ δ) →
      (∀ i < m, |affMap m a M Q'.position i - Q.position i| ≤ ε) →
      (∀ j < g₂.mydim, |q₂.position j - embed (g₂.mydim - c₂) e₂ Q'.position j| ≤ δ) →
      ∀ j < g₁.cdim, |g₁.global q₁.position j - g₂.global q₂.position j| ≤ g₁.mydim * H * (δ + ε) + g₂.mydim * H * δ := by
    intro q₁ hq₁' Q hQ Q' hQ' q₂ hq₂' u1 u2 u3 j hj
    have w1 := embed_near hq₁ hs.codim₁ hs.idx₁ he₁ hε (y := affMap m a M Q'.position) (y' := Q.position) (by rw [hs.dim₁]; exact u2)
    have v1 := global_lipschitz h₁ hq₁ (δ := δ + ε) (fun k hk => hH₁ k hk j hj) (b₁ q₁ hq₁')
      (embed_unit hq₁ hs.codim₁ hs.idx₁ he₁ (y := affMap m a M Q'.position) (by rw [hs.dim₁]; exact affMap_cube hcube hs.symmetry (b Q' hQ')))
      fun k hk => by
        have t1 := abs_le.1 (u1 k hk)
        have t2 := abs_le.1 (w1 k hk)
        exact abs_le.2 ⟨by linarith, by linarith⟩
    have v2 := global_lipschitz h₂ hq₂ (δ := δ) (fun k hk => hH₂ k hk j hj) (b₂ q₂ hq₂')
      (embed_unit hq₂ hs.codim₂ hs.idx₂ he₂ (y := Q'.position) (by rw [hs.dim₂]; exact b Q' hQ')) u3
    rw [hs.dim₁] at v1
    rw [hs.dim₂, hglob] at v2
    have t1 := abs_le.1 v1
    have t2 := abs_le.1 v2
    have e1 : lo j + H - lo j = H := by ring
    rw [e1] at t1 t2
    exact abs_le.2 ⟨by linarith, by linarith⟩
  have onP : ∀ (d c : Nat) (e : Vec ℝ × Mat ℝ) (q Q : QPoint ℝ), (∀ j < d, |q.position j - embed (d - c) e Q.position j| ≤ δ) →
      ∃ y : Vec ℝ, ∀ j < d, near |q.position j - embed (d - c) e y j| := fun d c e q Q h => ⟨Q.position, fun j hj => hn' _ (abs_nonneg _) (h j hj)⟩
  constructor
  · intro q₁ hq₁' hP
    obtain ⟨Q, hQ, u1⟩ := hN₁.2 q₁ hq₁' hP
    obtain ⟨Q', hQ', u2, -⟩ := Multiset.exists_mem_of_rel_of_mem (Multiset.rel_flip.2 hinv) (Multiset.mem_coe.2 hQ)
    have hQ'' := Multiset.mem_coe.1 hQ'
    obtain ⟨q₂, hq₂', u3⟩ := hN₂.1 Q' hQ''
    exact ⟨q₂, hq₂', onP _ _ _ _ Q' u3, key q₁ hq₁' Q hQ Q' hQ'' q₂ hq₂' u1 u2 u3⟩
  · intro q₂ hq₂' hP
    obtain ⟨Q', hQ', u3⟩ := hN₂.2 q₂ hq₂' hP
    obtain ⟨Q, hQ, u2, -⟩ := Multiset.exists_mem_of_rel_of_mem hinv (Multiset.mem_coe.2 hQ')
    have hQ'' := Multiset.mem_coe.1 hQ
    obtain ⟨q₁, hq₁', u1⟩ := hN₁.1 Q hQ''
    exact ⟨q₁, hq₁', onP _ _ _ _ Q u1, key q₁ hq₁' Q hQ'' Q' hQ' q₂ hq₂' u1 u2 u3⟩

/-- C118: the nodes of both elements on the shared sub-entity have the same positions, up to the rounding of the table: `H` is the extent of the
elements, orders for which both rules exist -/
theorem C118_nodes (env : Env ℝ) (g₁ g₂ : MultiLinearGeometry) (h₁ : Legal g₁) (h₂ : Legal g₂) (hq₁ : IsCubeId g₁.mydim g₁.id)
    (hq₂ : IsCubeId g₂.mydim g₂.id) (h0₁ : 0 < g₁.mydim) (h0₂ : 0 < g₂.mydim) (hd₁ : g₁.mydim ≤ 30) (hd₂ : g₂.mydim ≤ 30)
    (i₁ c₁ i₂ c₂ m id : Nat) (σ : Nat → Nat) (a : Vec ℝ) (M : Mat ℝ) (hs : Share g₁ g₂ i₁ c₁ i₂ c₂ m id σ a M) (e₁ e₂ : Vec ℝ × Mat ℝ)
    (he₁ : (referenceEmbeddings (K := ℝ) g₁.mydim g₁.id c₁)[i₁]? = some e₁)
    (he₂ : (referenceEmbeddings (K := ℝ) g₂.mydim g₂.id c₂)[i₂]? = some e₂)
    (p m₁ m₂ : Nat) (hm₁ : maxOrder g₁.mydim ⟨g₁.mydim, false, g₁.id⟩ .GaussLobatto = .ok m₁) (hp₁ : p ≤ m₁)
    (hm₂ : maxOrder g₂.mydim ⟨g₂.mydim, false, g₂.id⟩ .GaussLobatto = .ok m₂) (hp₂ : p ≤ m₂)
    (lo : Vec ℝ) (H : ℝ) (h0 : 0 ≤ H) (hH₁ : ∀ k < 2 ^ g₁.mydim, ∀ j < g₁.cdim, lo j ≤ g₁.corners_ k j ∧ g₁.corners_ k j ≤ lo j + H)
    (hH₂ : ∀ k < 2 ^ g₂.mydim, ∀ j < g₁.cdim, lo j ≤ g₂.corners_ k j ∧ g₂.corners_ k j ≤ lo j + H) :
    ∃ r₁ r₂, rule env g₁.mydim ⟨g₁.mydim, false, g₁.id⟩ p .GaussLobatto = .ok r₁ ∧
      rule env g₂.mydim ⟨g₂.mydim, false, g₂.id⟩ p .GaussLobatto = .ok r₂ ∧
      SamePositions ((g₁.mydim + g₂.mydim) * H / 10 ^ 78) g₁.cdim (fun q => g₁.global q.position) (fun q => g₂.global q.position)
        (fun q => On g₁.mydim c₁ e₁ q.position) (fun q => On g₂.mydim c₂ e₂ q.position) r₁.pts r₂.pts := by
  have hq : IsPlain .GaussLobatto := Or.inr (Or.inl rfl)
  obtain ⟨r₁, R₁, x1, x2, x3⟩ := C117_near_partial env g₁.mydim g₁.id p m₁ c₁ i₁ h0₁ hd₁ h₁.id_lt hq₁ hm₁ hp₁ hs.codim₁ hs.idx₁ e₁ he₁
  obtain ⟨r₂, R₂, y1, y2, y3⟩ := C117_near_partial env g₂.mydim g₂.id p m₂ c₂ i₂ h0₂ hd₂ h₂.id_lt hq₂ hm₂ hp₂ hs.codim₂ hs.idx₂ e₂ he₂
  have hT₁ := refType_eq g₁.mydim g₁.id i₁ c₁ (by omega) h₁.id_lt hs.codim₁
  have hT₂ := refType_eq g₂.mydim g₂.id i₂ c₂ (by omega) h₂.id_lt hs.codim₂
  have t₁ : refType g₁.mydim g₁.id i₁ c₁ = ⟨m, false, id⟩ := by rw [hT₁, ← hs.dim₁, ← hs.id₁, hT₁]
  have t₂ : refType g₂.mydim g₂.id i₂ c₂ = ⟨m, false, id⟩ := by rw [hT₂, ← hs.dim₂, ← hs.id₂, hT₂]
  rw [t₁] at x2
  rw [t₂] at y2
  obtain rfl : R₁ = R₂ := Res.ok.inj (x2.symm.trans y2)
  have hidlt : id < 2 ^ m := by
    rw [← hs.id₁, hT₁, ← hs.dim₁]
    exact subTopologyId_lt _ _ _ _ h₁.id_lt hs.codim₁
  have hinv : Invariant m (1 / 10 ^ 79) (affMap m a M) R₁.pts := by
    rcases Nat.eq_zero_or_pos m with rfl | hm
    · exact invariant_dim0 (by positivity) _ _
    · obtain ⟨mm, hmm, hmm'⟩ := C107_available g₁.mydim g₁.id m₁ .GaussLobatto hd₁ h₁.id_lt hq hm₁ c₁ i₁ hs.codim₁ hs.idx₁
      rw [t₁] at hmm
      have hcube : IsCubeId m id := by
        have := sub_isCube hq₁ h₁.id_lt hd₁ hs.codim₁ hs.idx₁
        rwa [hs.dim₁, hs.id₁] at this
      obtain ⟨R, z1, z2⟩ := C108_cube_partial env m id p mm .GaussLobatto (by have := hs.dim₁; omega) hidlt hcube (Or.inr rfl) hmm hm (hp₁.trans hmm')
        σ a M hs.symmetry
      obtain rfl : R = R₁ := Res.ok.inj (z1.symm.trans x2)
      exact z2
  have hfin := shared_aux env g₁ g₂ h₁ h₂ hq₁ hq₂ hd₁ hd₂ i₁ c₁ i₂ c₂ m id σ a M hs e₁ e₂ he₁ he₂ p m₁ m₂ hm₁ hp₁ hm₂ hp₂ lo H hH₁ hH₂ r₁ r₂ R₁
    x1 y1 x2 (fun t => t < 1 / 1000) (δ := 1 / 10 ^ 99) (ε := 1 / 10 ^ 79) (by positivity)
    (fun t _ ht => ht.trans_lt (by norm_num)) x3 y3 hinv
  have hb : (g₁.mydim : ℝ) * H * (1 / 10 ^ 99 + 1 / 10 ^ 79) + g₂.mydim * H * (1 / 10 ^ 99) ≤ (g₁.mydim + g₂.mydim) * H / 10 ^ 78 := by
    have a1 : (0 : ℝ) ≤ g₁.mydim * H := by positivity
    have a2 : (0 : ℝ) ≤ g₂.mydim * H := by positivity
    have a3 : (1 : ℝ) / 10 ^ 99 + 1 / 10 ^ 79 ≤ 1 / 10 ^ 78 := by norm_num
    have a4 : (1 : ℝ) / 10 ^ 99 ≤ 1 / 10 ^ 78 := by norm_num
    calc _ ≤ (g₁.mydim : ℝ) * H * (1 / 10 ^ 78) + g₂.mydim * H * (1 / 10 ^ 78) :=
          add_le_add (mul_le_mul_of_nonneg_left a3 a1) (mul_le_mul_of_nonneg_left a4 a2)
      _ = _ := by ring
  refine ⟨r₁, r₂, x1, y1, fun q hq hP => ?_, fun q hq hP => ?_⟩
  · obtain ⟨q', u1, u2, u3⟩ := hfin.1 q hq hP
    exact ⟨q', u1, u2, fun j hj => (u3 j hj).trans hb⟩
  · obtain ⟨q', u1, u2, u3⟩ := hfin.2 q hq hP
    exact ⟨q', u1, u2, fun j hj => (u3 j hj).trans hb⟩

/-- C118: with the same numbering on both sides, and orders whose tables contain both end points, the positions are equal -/
theorem C118_exact (env : Env ℝ) (g₁ g₂ : MultiLinearGeometry) (h₁ : Legal g₁) (h₂ : Legal g₂) (hq₁ : IsCubeId g₁.mydim g₁.id)
    (hq₂ : IsCubeId g₂.mydim g₂.id) (h0₁ : 0 < g₁.mydim) (h0₂ : 0 < g₂.mydim) (hd₁ : g₁.mydim ≤ 30) (hd₂ : g₂.mydim ≤ 30)
    (i₁ c₁ i₂ c₂ m id : Nat) (hs : Share g₁ g₂ i₁ c₁ i₂ c₂ m id (fun v => v) (fun _ => 0) (fun i r => if i = r then 1 else 0)) (e₁ e₂ : Vec ℝ × Mat ℝ)
    (he₁ : (referenceEmbeddings (K := ℝ) g₁.mydim g₁.id c₁)[i₁]? = some e₁)
    (he₂ : (referenceEmbeddings (K := ℝ) g₂.mydim g₂.id c₂)[i₂]? = some e₂)
    (p m₁ m₂ : Nat) (hm₁ : maxOrder g₁.mydim ⟨g₁.mydim, false, g₁.id⟩ .GaussLobatto = .ok m₁) (hp₁ : p ≤ m₁)
    (hm₂ : maxOrder g₂.mydim ⟨g₂.mydim, false, g₂.id⟩ .GaussLobatto = .ok m₂) (hp₂ : p ≤ m₂)
    (hex : p ≤ 9 ∨ p = 14 ∨ p = 15 ∨ p = 18 ∨ p = 19 ∨ p = 30 ∨ p = 31) :
    ∃ r₁ r₂, rule env g₁.mydim ⟨g₁.mydim, false, g₁.id⟩ p .GaussLobatto = .ok r₁ ∧
      rule env g₂.mydim ⟨g₂.mydim, false, g₂.id⟩ p .GaussLobatto = .ok r₂ ∧
      SamePositions 0 g₁.cdim (fun q => g₁.global q.position) (fun q => g₂.global q.position)
        (fun q => ∃ y : Vec ℝ, ∀ j < g₁.mydim, q.position j = embed (g₁.mydim - c₁) e₁ y j)
        (fun q => ∃ y : Vec ℝ, ∀ j < g₂.mydim, q.position j = embed (g₂.mydim - c₂) e₂ y j) r₁.pts r₂.pts := by
  obtain ⟨r₁, R₁, x1, x2, x3⟩ := C117_partial env g₁.mydim g₁.id p m₁ c₁ i₁ h0₁ hd₁ h₁.id_lt hq₁ hm₁ hp₁ hs.codim₁ hs.idx₁ e₁ he₁ hex
  obtain ⟨r₂, R₂, y1, y2, y3⟩ := C117_partial env g₂.mydim g₂.id p m₂ c₂ i₂ h0₂ hd₂ h₂.id_lt hq₂ hm₂ hp₂ hs.codim₂ hs.idx₂ e₂ he₂ hex
  have hT₁ := refType_eq g₁.mydim g₁.id i₁ c₁ (by omega) h₁.id_lt hs.codim₁
  have hT₂ := refType_eq g₂.mydim g₂.id i₂ c₂ (by omega) h₂.id_lt hs.codim₂
  have t₁ : refType g₁.mydim g₁.id i₁ c₁ = ⟨m, false, id⟩ := by rw [hT₁, ← hs.dim₁, ← hs.id₁, hT₁]
  have t₂ : refType g₂.mydim g₂.id i₂ c₂ = ⟨m, false, id⟩ := by rw [hT₂, ← hs.dim₂, ← hs.id₂, hT₂]
  rw [t₁] at x2
  rw [t₂] at y2
  obtain rfl : R₁ = R₂ := Res.ok.inj (x2.symm.trans y2)
  have hinv : Invariant m 0 (affMap m (fun _ => 0) fun i r => if i = r then 1 else 0) R₁.pts :=
    Multiset.rel_refl_of_refl_on fun q _ => ⟨fun i hi => by simp [affMap, hi], by simp⟩
  let B : ℝ := ∑ j ∈ range g₁.cdim, ((∑ k ∈ range (2 ^ g₁.mydim), |g₁.corners_ k j|) + ∑ k ∈ range (2 ^ g₂.mydim), |g₂.corners_ k j|)
  have hB : ∀ j < g₁.cdim, (∑ k ∈ range (2 ^ g₁.mydim), |g₁.corners_ k j|) + ∑ k ∈ range (2 ^ g₂.mydim), |g₂.corners_ k j| ≤ B := fun j hj =>
    single_le_sum (f := fun j => (∑ k ∈ range (2 ^ g₁.mydim), |g₁.corners_ k j|) + ∑ k ∈ range (2 ^ g₂.mydim), |g₂.corners_ k j|)
      (fun j _ => add_nonneg (sum_nonneg fun _ _ => abs_nonneg _) (sum_nonneg fun _ _ => abs_nonneg _)) (mem_range.2 hj)
  have hB₁ : ∀ k < 2 ^ g₁.mydim, ∀ j < g₁.cdim, -B ≤ g₁.corners_ k j ∧ g₁.corners_ k j ≤ -B + 2 * B := fun k hk j hj => by
    have u1 := single_le_sum (f := fun k => |g₁.corners_ k j|) (fun _ _ => abs_nonneg _) (mem_range.2 hk)
    have u2 : 0 ≤ ∑ k ∈ range (2 ^ g₂.mydim), |g₂.corners_ k j| := sum_nonneg fun _ _ => abs_nonneg _
    have u3 := abs_le.1 (show |g₁.corners_ k j| ≤ B by have := hB j hj; linarith)
    exact ⟨u3.1, by linarith [u3.2]⟩
  have hB₂ : ∀ k < 2 ^ g₂.mydim, ∀ j < g₁.cdim, -B ≤ g₂.corners_ k j ∧ g₂.corners_ k j ≤ -B + 2 * B := fun k hk j hj => by
    have u1 := single_le_sum (f := fun k => |g₂.corners_ k j|) (fun _ _ => abs_nonneg _) (mem_range.2 hk)
    have u2 : 0 ≤ ∑ k ∈ range (2 ^ g₁.mydim), |g₁.corners_ k j| := sum_nonneg fun _ _ => abs_nonneg _
    have u3 := abs_le.1 (show |g₂.corners_ k j| ≤ B by have := hB j hj; linarith)
    exact ⟨u3.1, by linarith [u3.2]⟩
  have hfin := shared_aux env g₁ g₂ h₁ h₂ hq₁ hq₂ hd₁ hd₂ i₁ c₁ i₂ c₂ m id _ _ _ hs e₁ e₂ he₁ he₂ p m₁ m₂ hm₁ hp₁ hm₂ hp₂ (fun _ => -B) (2 * B) hB₁ hB₂
    r₁ r₂ R₁ x1 y1 x2 (fun t => t = 0) (δ := 0) (ε := 0) le_rfl (fun t h h' => le_antisymm h' h) x3 y3 hinv
  simp only [add_zero, mul_zero, abs_eq_zero, sub_eq_zero] at hfin
  exact ⟨r₁, r₂, x1, y1, hfin⟩

/-! The hypotheses hold for two squares that share an edge in opposite directions: edge 1 of the unit square and edge 0 of `[1, 2] × [0, 1]`, whose
corners are numbered from the top. -/

/-- the unit square -/
noncomputable def left : MultiLinearGeometry := ⟨2, 2, 3, fun k j => if j = 0 then (if k.testBit 0 then 1 else 0) else if k.testBit 1 then 1 else 0, 1 / 1000⟩

/-- the square `[1, 2] × [0, 1]`, upside down -/
noncomputable def right : MultiLinearGeometry := ⟨2, 2, 3, fun k j => if j = 0 then (if k.testBit 0 then 2 else 1) else if k.testBit 1 then 0 else 1, 1 / 1000⟩

example : ∃ e₁ e₂ : Vec ℝ × Mat ℝ, Share left right 1 1 0 1 1 1 (fun v => 1 - v) (fun _ => 1) (fun _ _ => -1) ∧
    (referenceEmbeddings (K := ℝ) 2 3 1)[1]? = some e₁ ∧ (referenceEmbeddings (K := ℝ) 2 3 1)[0]? = some e₂ ∧ Legal left ∧ Legal right ∧
    IsCubeId 2 3 ∧ maxOrder 2 ⟨2, false, 3⟩ .GaussLobatto = .ok 31 ∧ left.corners_ 1 = right.corners_ 2 ∧ left.corners_ 3 = right.corners_ 0 := by
  have hl : (referenceEmbeddings (K := ℝ) 2 3 1).length = 4 := by rw [(C20_basic 2 3 (by decide)).1 1 (by decide)]; decide
  have c13 : left.corners_ 1 = right.corners_ 2 := by
    funext j
    simp [left, right, show Nat.testBit 2 0 = false from rfl, show Nat.testBit 2 1 = true from rfl, show Nat.testBit 1 1 = false from rfl]
  have c30 : left.corners_ 3 = right.corners_ 0 := by
    funext j
    simp [left, right, show Nat.testBit 3 1 = true from rfl]
  have hk : ∀ k < refSize 1 1 1, k = 0 ∨ k = 1 := fun k hk => by
    have : refSize 1 1 1 = 2 := by decide
    omega
  refine ⟨_, _, ⟨rfl, rfl, by decide, by decide, by decide, by decide, rfl, rfl, by decide, by decide, ⟨by decide, ?_, ?_⟩, ?_⟩,
    List.getElem?_eq_getElem (by omega), List.getElem?_eq_getElem (by omega), ⟨by norm_num [left], by norm_num [left], by norm_num [left]⟩,
    ⟨by norm_num [right], by norm_num [right], by norm_num [right]⟩, isCube_of_rep 2 3 (rep_cube 2), by decide, c13, c30⟩
  · intro k k' h h' e
    rcases hk k h with rfl | rfl <;> rcases hk k' h' with rfl | rfl <;> first | rfl | simp at e
  · intro k h i hi
    obtain rfl : i = 0 := by omega
    have hc : IsCubeId 1 1 := isCube_of_rep 1 1 (rep_cube 1)
    rcases hk k h with rfl | rfl <;> simp [affMap, Neighbour.cube_corner 1 1 hc]
  · intro v hv
    rcases hk v hv with rfl | rfl
    · exact ⟨3, 0, by decide, by decide, c30.symm⟩
    · exact ⟨1, 2, by decide, by decide, c13.symm⟩

end Verif.Flux
