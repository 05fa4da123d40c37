import Verif.Flux.Model

/-!
C112: integrals over a common sub-entity, computed from two elements.
-/

namespace Verif.Flux

open Verif.RefGeom Verif.MatHelp Verif.RefTopo Verif.Typ Verif.MultiLinear Verif.Neighbour Verif.Quad Verif.Normal
open Finset hiding ext
open Matrix hiding vec

/-! ### specification -/

/-- within `ε` of the points of the rule the density exists, is at most `B`, and differs by at most `ω` from its value at the point -/
def Smooth (d : Nat) (ε B ω : ℝ) (density : Vec ℝ → Option ℝ) (pts : List (QPoint ℝ)) : Prop :=
  ∀ q ∈ pts, ∃ v, density q.position = some v ∧ ∀ y : Vec ℝ, (∀ i, i < d → |y i - q.position i| ≤ ε) →
    ∃ u, density y = some u ∧ |u| ≤ B ∧ |u - v| ≤ ω

/-- the sum of the absolute values of the weights -/
noncomputable def absWeights (pts : List (QPoint ℝ)) : ℝ := (pts.map fun q => |q.weight|).sum

/-- the facets `i₁` of `g₁` and `i₂` of `g₂` are the same: both have the type `id`, corner `v` of the one is corner `σ v` of the other,
and `σ` is a symmetry of the type -/
structure Common (d : Nat) (g₁ g₂ : MultiLinearGeometry) (i₁ i₂ : Nat) (n₁ n₂ : Vec ℝ) (e₁ e₂ : Vec ℝ × Mat ℝ) (id : Nat) (σ : Nat → Nat)
    (a : Vec ℝ) (M : Mat ℝ) : Prop where
  legal₁ : Legal g₁
  legal₂ : Legal g₂
  pos : 0 < d
  le : d ≤ 31
  dim₁ : g₁.mydim = d
  dim₂ : g₂.mydim = d
  world₁ : g₁.cdim = d
  world₂ : g₂.cdim = d
  tol : g₂.tol = g₁.tol
  facet₁ : IsFacet d g₁.id i₁ n₁ e₁
  facet₂ : IsFacet d g₂.id i₂ n₂ e₂
  type₁ : (refType d g₁.id i₁ 1).id = id
  type₂ : (refType d g₂.id i₂ 1).id = id
  valid : id < 2 ^ (d - 1)
  covered : Covered (d - 1) id
  symmetry : Symmetry (d - 1) id σ a M
  corners : ∀ v, v < refSize (d - 1) id (d - 1) → ∃ k₁ k₂, subEntity d g₁.id i₁ 1 (σ v) d = some k₁ ∧
    subEntity d g₂.id i₂ 1 v d = some k₂ ∧ g₂.corners_ k₂ = g₁.corners_ k₁

/-- the second element is on the other side: a direction which leads from the facet into the second element leads out of the first -/
def Opposite (d : Nat) (g₁ g₂ : MultiLinearGeometry) (n₁ n₂ : Vec ℝ) (e₁ e₂ : Vec ℝ × Mat ℝ) (a : Vec ℝ) (M : Mat ℝ) (x : Vec ℝ) : Prop :=
  ∀ r₁, g₁.jacobianInverseTransposed (embed (d - 1) e₁ (affMap (d - 1) a M x)) = some r₁ → ∃ v : Fin d → ℝ, vec d n₂ ⬝ᵥ v < 0 ∧
    0 < mappedNormal d r₁ n₁ ⬝ᵥ (mat d d (g₂.jacobian (embed (d - 1) e₂ x)) *ᵥ v)

/-! ### helper lemmas -/

theorem foldlM_eq {α : Type} (f : α → Option ℝ) (v w : α → ℝ) (l : List α) (h : ∀ a ∈ l, f a = some (v a)) (s : ℝ) :
    l.foldlM (fun sum a => (f a).map fun v => sum + v * w a) s = some (s + (l.map fun a => v a * w a).sum) := by
  induction l generalizing s with
  | nil => simp
  | cons a l ih =>
    rw [List.foldlM_cons, h a List.mem_cons_self]
    simp only [Option.map_some, Option.bind_eq_bind, Option.bind_some]
    rw [ih (fun b hb => h b (List.mem_cons_of_mem _ hb)), List.map_cons, List.sum_cons]
    congr 1; ring

theorem quadrature_eq {f : Vec ℝ → Option ℝ} {v : QPoint ℝ → ℝ} {l : List (QPoint ℝ)} (h : ∀ q ∈ l, f q.position = some (v q)) :
    quadrature f l = some (l.map fun q => v q * q.weight).sum := by
  rw [quadrature, foldlM_eq (fun q : QPoint ℝ => f q.position) v (fun q => q.weight) l h, zero_add]

theorem rel_sum {α : Type} {R : α → α → Prop} {f h b : α → ℝ} {s t : Multiset α} (hr : Multiset.Rel R s t)
    (hR : ∀ x ∈ s, ∀ y ∈ t, R x y → |f x - h y| ≤ b y) : |(s.map f).sum - (t.map h).sum| ≤ (t.map b).sum := by
  have h2 := hr.mono hR
  clear hr hR
  induction h2 with
  | zero => simp
  | cons hab _ ih =>
    simp only [Multiset.map_cons, Multiset.sum_cons]
    rw [add_sub_add_comm]
    exact (abs_add_le _ _).trans (add_le_add hab ih)

/-- the sum over the rule of a density and of the density composed with a map that leaves the rule invariant -/
theorem sum_invariant {d : Nat} {ε B ω : ℝ} {A : Vec ℝ → Vec ℝ} {pts : List (QPoint ℝ)} (hinv : Invariant d ε A pts)
    {φ ψ : Vec ℝ → Option ℝ} (hφ : Smooth d ε B ω φ pts) (s : ℝ) (hs : |s| = 1)
    (hψ : ∀ q ∈ pts, ∀ v, φ (A q.position) = some v → ψ q.position = some (s * v)) :
    ∃ S T, quadrature φ pts = some S ∧ quadrature ψ pts = some T ∧ |T - s * S| ≤ pts.length * ε * B + absWeights pts * ω := by
  classical
  choose! v hv hnear using hφ
  have hA : ∀ q ∈ pts, ∃ u, φ (A q.position) = some u := by
    intro q hq
    obtain ⟨q', hq', hc, -⟩ := Multiset.exists_mem_of_rel_of_mem hinv (Multiset.mem_coe.2 hq)
    obtain ⟨u, hu, -⟩ := hnear q' (Multiset.mem_coe.1 hq') _ hc
    exact ⟨u, hu⟩
  choose! u hu using hA
  refine ⟨_, _, quadrature_eq hv, quadrature_eq (v := fun q => s * u q) fun q hq => hψ q hq _ (hu q hq), ?_⟩
  have key := rel_sum (f := fun q : QPoint ℝ => s * u q * q.weight) (h := fun q => s * (v q * q.weight))
    (b := fun q => ε * B + |q.weight| * ω) hinv (fun x hx y hy hxy => by
      obtain ⟨u', h1, h2, h3⟩ := hnear y (Multiset.mem_coe.1 hy) _ hxy.1
      obtain rfl : u' = u x := Option.some.inj (h1.symm.trans (hu x (Multiset.mem_coe.1 hx)))
      have e : s * u x * x.weight - s * (v y * y.weight) = s * (u x * (x.weight - y.weight) + y.weight * (u x - v y)) := by ring
      rw [e, abs_mul, hs, one_mul]
      refine (abs_add_le _ _).trans ?_
      rw [abs_mul, abs_mul]
      refine add_le_add ?_ (mul_le_mul_of_nonneg_left h3 (abs_nonneg _))
      rw [mul_comm]
      exact mul_le_mul hxy.2 h2 (abs_nonneg _) ((abs_nonneg _).trans hxy.2))
  simp only [Multiset.map_coe, Multiset.sum_coe] at key
  have e1 : (pts.map fun q => s * (v q * q.weight)).sum = s * (pts.map fun q => v q * q.weight).sum := by
    rw [List.sum_map_mul_left]
  have e2 : (pts.map fun q => ε * B + |q.weight| * ω).sum = pts.length * ε * B + absWeights pts * ω := by
    rw [List.sum_map_add, List.sum_map_mul_right (f := fun q : QPoint ℝ => |q.weight|), absWeights]
    simp [mul_assoc]
  rw [e1, e2] at key
  exact key

/-- all barycentric coordinates are at least 1/200 -/
def deep (n : Node) : Bool :=
  n.x.length == 2 && n.x.all (fun l => l.den != 0) && (baryL n.x).all fun l => l.den != 0 && decide ((l.den : Int) ≤ 200 * l.num)

theorem blocks_deep : (Simplex2.blocks.all fun r => r.cases == [28] || r.pts.all deep) = true := by decide +kernel

theorem block6_deep : (Simplex2.block6.pts.all fun n => deep n && deep (Node.img 2 [0, 2, 1] n)) = true := by decide +kernel

theorem block6_weight : (Simplex2.block6.pts.all fun n => n.w.den != 0 && decide ((n.w.den : Int) ≤ 100 * n.w.num) && decide (n.w.num ≤ n.w.den)) = true := by
  decide +kernel

theorem deep_bary {n : Node} (h : deep n = true) {k : Nat} (hk : k ≤ 2) : 1 / 200 ≤ baryV 2 (Node.point n).position k := by
  simp only [deep, Bool.and_eq_true, List.all_eq_true, beq_iff_eq, bne_iff_ne, ne_eq, decide_eq_true_eq] at h
  obtain ⟨⟨h1, h2⟩, h3⟩ := h
  rw [← baryL_val h1 h2 hk]
  have hl : k < (baryL n.x).length := by rw [baryL, List.length_cons, h1]; omega
  obtain ⟨h4, h5⟩ := h3 _ (List.getElem_mem hl)
  rw [List.getD_eq_getElem _ _ hl, Lit.val]
  have h6 : (0:ℝ) < (baryL n.x)[k].den := by exact_mod_cast Nat.pos_of_ne_zero h4
  rw [div_le_div_iff₀ (by norm_num) h6]
  have : (((baryL n.x)[k].den : Int) : ℝ) ≤ ((200 * (baryL n.x)[k].num : Int) : ℝ) := by exact_mod_cast h5
  push_cast at this
  linarith

theorem deep_near {n : Node} (h : deep n = true) {t : ℝ} (ht : t ≤ 1 / 250) {y : Vec ℝ}
    (hy : ∀ i, i < 2 → |y i - (Node.point n).position i| ≤ 1 / 10 ^ 12) : checkInside 2 0 y (-t) 1 = true := by
  have b0 := deep_bary h (k := 0) (by omega)
  have b1 := deep_bary h (k := 1) (by omega)
  have b2 := deep_bary h (k := 2) (by omega)
  have y0 := abs_le.1 (hy 0 (by omega))
  have y1 := abs_le.1 (hy 1 (by omega))
  simp only [baryV, if_true, sum_range_succ, sum_range_zero, zero_add, Nat.sub_self, one_ne_zero, if_false, two_ne_zero,
    Nat.reduceSub] at b0 b1 b2
  have e : (1:ℝ) / 10 ^ 12 ≤ 1 / 10000 := by norm_num
  have c1 : y 1 > - -t ∧ 1 - y 1 > - -t := ⟨by linarith [y1.1, y1.2, y0.1, y0.2], by linarith [y1.1, y1.2, y0.1, y0.2]⟩
  have c2 : y 0 > - -t ∧ 1 - y 1 - y 0 > - -t := ⟨by linarith [y1.1, y1.2, y0.1, y0.2], by linarith [y1.1, y1.2, y0.1, y0.2]⟩
  have p1 : implIsPrism 0 (1 + 1) 0 = false := by decide
  simp only [checkInside, p1, Bool.false_eq_true, if_false, if_pos c1, if_pos c2]

/-! ### C112 -/

/-- C112: the sum over the quadrature points of a sub-entity does not depend on the numbering of its corners, up to the accuracy of the rule's
symmetry. -/
theorem C112_surface (g : MultiLinearGeometry) (hg : Legal g) (hmn : g.mydim ≤ g.cdim) (hc : Covered g.mydim g.id) (σ : Nat → Nat) (a : Vec ℝ)
    (M : Mat ℝ) (h : Symmetry g.mydim g.id σ a M) (ε B ω : ℝ) (pts : List (QPoint ℝ)) (hinv : Invariant g.mydim ε (affMap g.mydim a M) pts)
    (hclear : ∀ q ∈ pts, Clear g.tol g.mydim g.id q.position ∧ Clear g.tol g.mydim g.id (affMap g.mydim a M q.position))
    (f : Vec ℝ → ℝ) (hf : Smooth g.mydim ε B ω (surfaceDensity g f) pts) :
    ∃ S T, quadrature (surfaceDensity g f) pts = some S ∧ quadrature (surfaceDensity (renumbered g σ) f) pts = some T ∧
      |T - S| ≤ pts.length * ε * B + absWeights pts * ω := by
  obtain ⟨S, T, h1, h2, h3⟩ := sum_invariant hinv hf 1 abs_one (ψ := surfaceDensity (renumbered g σ) f) fun q hq v hv => by
    obtain ⟨c1, c2⟩ := hclear q hq
    rw [one_mul, ← hv, surfaceDensity, surfaceDensity, C97_integrationElement g hg hmn hc σ a M h _ c1 c2,
      C97_global g hg hc σ a M h _ c1 c2]
  exact ⟨S, T, h1, h2, by rwa [one_mul] at h3⟩

/-- C112: what the quadrature lets flow out of an element through a facet flows into its neighbour, up to the accuracy of the rule's
symmetry. -/
theorem C112_flux (d : Nat) (g₁ g₂ : MultiLinearGeometry) (i₁ i₂ : Nat) (n₁ n₂ : Vec ℝ) (e₁ e₂ : Vec ℝ × Mat ℝ) (id : Nat) (σ : Nat → Nat)
    (a : Vec ℝ) (M : Mat ℝ) (h : Common d g₁ g₂ i₁ i₂ n₁ n₂ e₁ e₂ id σ a M) (ε B ω : ℝ) (pts : List (QPoint ℝ))
    (hinv : Invariant (d - 1) ε (affMap (d - 1) a M) pts)
    (hin : ∀ q ∈ pts, checkInside (d - 1) id q.position (-g₁.tol) 1 = true ∧
      checkInside (d - 1) id (affMap (d - 1) a M q.position) (-g₁.tol) 1 = true)
    (hop : ∀ q ∈ pts, Opposite d g₁ g₂ n₁ n₂ e₁ e₂ a M q.position)
    (hreg : ∀ q ∈ pts, (g₂.jacobianInverseTransposed (embed (d - 1) e₂ q.position)).isSome)
    (F : Vec ℝ → Vec ℝ) (hF : Smooth (d - 1) ε B ω (fluxDensity d g₁ n₁ e₁ F) pts) :
    ∃ S T, quadrature (fluxDensity d g₁ n₁ e₁ F) pts = some S ∧ quadrature (fluxDensity d g₂ n₂ e₂ F) pts = some T ∧
      |T + S| ≤ pts.length * ε * B + absWeights pts * ω := by
  obtain ⟨S, T, h1, h2, h3⟩ := sum_invariant hinv hF (-1) (by simp) (ψ := fluxDensity d g₂ n₂ e₂ F) fun q hq v hv => by
    obtain ⟨c1, c2⟩ := hin q hq
    obtain ⟨r₂, hr₂⟩ := Option.isSome_iff_exists.1 (hreg q hq)
    obtain ⟨r₁, hr₁, rfl⟩ := Option.map_eq_some_iff.1 hv
    have hn := (C104_neighbours g₁ g₂ h.legal₁ h.legal₂ d h.pos h.le h.dim₁ h.dim₂ h.world₁ h.world₂ h.tol i₁ i₂ n₁ n₂ e₁ e₂ h.facet₁
      h.facet₂ id h.type₁ h.type₂ h.valid h.covered σ a M h.symmetry h.corners q.position c1 c2 r₁ r₂ hr₁ hr₂).2 (hop q hq r₁ hr₁)
    have hd₁ := h.dim₁
    have hd₂ := h.dim₂
    have hG := C97_neighbours g₁ g₂ h.legal₁ h.legal₂ (by rw [hd₁]; exact h.le) (by rw [hd₂]; exact h.le) h.tol i₁ 1 i₂ 1
      (by rw [hd₁]; exact h.pos) (by rw [hd₂]; exact h.pos) (by rw [hd₁]; exact h.facet₁.lt) (by rw [hd₂]; exact h.facet₂.lt) e₁ e₂
      (by rw [hd₁]; exact h.facet₁.embedding) (by rw [hd₂]; exact h.facet₂.embedding) (d - 1) id (by rw [hd₁]) (by rw [hd₂])
      (by rw [hd₁]; exact h.type₁) (by rw [hd₂]; exact h.type₂) h.valid h.covered σ a M h.symmetry
      (fun v hv => by rw [hd₁, hd₂]; exact h.corners v hv) q.position c1 c2
    rw [fluxDensity, hr₂, Option.map_some, hn, hG, neg_dotProduct, neg_one_mul]
  exact ⟨S, T, h1, h2, by rwa [neg_one_mul, sub_neg_eq_add] at h3⟩

/-- two unit squares with the common edge from (1,0) to (1,1) -/
noncomputable def sampleSquare (s : ℝ) : MultiLinearGeometry where
  mydim := 2
  cdim := 2
  id := 3
  corners_ k := fun j => (if j = 0 then s else 0) + if k.testBit j then 1 else 0
  tol := 1 / 1000

theorem sampleSquare_legal (s : ℝ) : Legal (sampleSquare s) := ⟨show 3 < 2 ^ 2 by decide, by norm_num [sampleSquare], by norm_num [sampleSquare]⟩

theorem sampleSquare_jacobian (s : ℝ) (x : Vec ℝ) (r j : Nat) (hr : r < 2) (hj : j < 2) :
    (sampleSquare s).jacobianTransposed x r j = if r = j then 1 else 0 := by
  have h : ImageOf (sampleSquare s) (fun j => if j = 0 then s else 0) (fun j r => if j = r then 1 else 0) := by
    intro k p hp j hj
    change j < 2 at hj
    have hc : referenceCorners (K := ℝ) 2 3 = _ := C17_cube 2 3 square_cube
    change (referenceCorners (K := ℝ) 2 3)[k]? = some p at hp
    rw [hc, List.getElem?_map, Option.map_eq_some_iff] at hp
    obtain ⟨k', hk', rfl⟩ := hp
    obtain ⟨h1, h2⟩ := List.getElem?_eq_some_iff.1 hk'
    rw [List.getElem_range] at h2
    subst h2
    simp only [sampleSquare, sum_range_succ, sum_range_zero]
    interval_cases j <;> simp
  have hg := sampleSquare_legal s
  rw [jt_eq (sampleSquare s) hg.id_lt _ _ _ hr]
  refine (MLd_exact hg.tol_pos.le _ _ _ _ x (exact_of_imageOf h j hj) ?_ r (by rw [topo_dim]; exact hr)).trans ?_
  · rw [topoOf_cube _ _ (show IsCubeId (sampleSquare s).mydim (sampleSquare s).id from square_cube)]
    exact away_cube _ _
  · simp only [eq_comm]

theorem sampleSquare_inverse (s : ℝ) (x : Vec ℝ) : ∃ r, (sampleSquare s).jacobianInverseTransposed x = some r ∧ r.1 = 1 ∧
    mat 2 2 r.2 = 1 := by
  have h := sampleSquare_jacobian s x
  rw [MultiLinearGeometry.jacobianInverseTransposed, rightInvA, if_pos ⟨rfl, rfl⟩, inv22]
  simp only [h 0 0 (by omega) (by omega), h 1 1 (by omega) (by omega), h 1 0 (by omega) (by omega), h 0 1 (by omega) (by omega)]
  simp only [zero_ne_one, one_ne_zero, if_false, if_true, mul_one, mul_zero, sub_zero, div_one, abs_one]
  refine ⟨_, rfl, rfl, ?_⟩
  ext i j
  fin_cases i <;> fin_cases j <;> simp [mat]

/-- the hypotheses are met: the right edge of the unit square and the left edge of its neighbour; the flux of a field is its first component -/
theorem squares_common : ∃ n₁ n₂ e₁ e₂ a M, Common 2 (sampleSquare 0) (sampleSquare 1) 1 0 n₁ n₂ e₁ e₂ 1 (fun k => k) a M ∧
    (∀ x, Opposite 2 (sampleSquare 0) (sampleSquare 1) n₁ n₂ e₁ e₂ a M x) ∧
    (∀ F x, fluxDensity 2 (sampleSquare 0) n₁ e₁ F x = some (F ((sampleSquare 0).global (embed 1 e₁ x)) 0)) ∧
    ∀ x, ((sampleSquare 1).jacobianInverseTransposed (embed 1 e₂ x)).isSome := by
  obtain ⟨n₁, e₁, h₁, a0, a1⟩ : ∃ n e, IsFacet 2 3 1 n e ∧ n 0 = 1 ∧ n 1 = 0 := by
    refine ⟨setV (fun _ => 0) 0 1, _, ⟨by decide, rfl, rfl⟩, ?_, ?_⟩ <;> simp [setV]
  obtain ⟨n₂, e₂, h₂, b0, b1⟩ : ∃ n e, IsFacet 2 3 0 n e ∧ n 0 = -1 ∧ n 1 = 0 := by
    refine ⟨setV (fun _ => 0) 0 (-1), _, ⟨by decide, rfl, rfl⟩, ?_, ?_⟩ <;> simp [setV]
  refine ⟨n₁, n₂, e₁, e₂, fun _ => 0, fun i j => if i = j then 1 else 0, ⟨sampleSquare_legal 0, sampleSquare_legal 1, by omega, by omega,
    rfl, rfl, rfl, rfl, rfl, h₁, h₂, by decide, by decide, by decide, Or.inr (Or.inr (by omega)),
    ⟨fun k h => h, fun k k' _ _ h => h, fun k _ i hi => ?_⟩, fun v hv => ?_⟩, fun x r₁ hr₁ => ?_, fun F x => ?_, fun x => ?_⟩
  · obtain rfl : i = 0 := by omega
    simp [affMap]
  · have hv : v < 2 := lt_of_lt_of_eq hv (by decide)
    interval_cases v
    · refine ⟨1, 0, by decide, by decide, funext fun j => ?_⟩
      simp only [sampleSquare]
      rcases j with _ | j
      · simp
      · simp [Nat.testBit_succ]
    · refine ⟨3, 2, by decide, by decide, funext fun j => ?_⟩
      simp only [sampleSquare]
      rcases j with _ | _ | j
      · simp
      · simp [Nat.testBit]
      · have : ∀ m, m < 4 → m.testBit (j + 2) = false := fun m hm =>
          Nat.testBit_lt_two_pow (lt_of_lt_of_le hm (by rw [pow_add]; have := Nat.two_pow_pos j; omega))
        simp [this]
  · obtain ⟨r, k1, k2, k3⟩ := sampleSquare_inverse 0 (embed (2 - 1) e₁ (affMap (2 - 1) (fun _ => 0) (fun i j => if i = j then 1 else 0) x))
    obtain rfl := Option.some.inj (k1.symm.trans hr₁)
    have h := sampleSquare_jacobian 1 (embed (2 - 1) e₂ x)
    refine ⟨![1, 0], ?_, ?_⟩
    · simp [vec, dotProduct, Fin.sum_univ_two, b0]
    · rw [mappedNormal, k2, k3, one_smul, Matrix.one_mulVec]
      simp [vec, mat, dotProduct, mulVec, Fin.sum_univ_two, a0, a1, MultiLinearGeometry.jacobian, h]
  · obtain ⟨r, k1, k2, k3⟩ := sampleSquare_inverse 0 (embed (2 - 1) e₁ x)
    rw [fluxDensity, k1, Option.map_some, mappedNormal, k2, k3, one_smul, Matrix.one_mulVec]
    simp [vec, dotProduct, Fin.sum_univ_two, a0, a1]
  · obtain ⟨r, k1, -⟩ := sampleSquare_inverse 1 (embed 1 e₂ x)
    rw [k1]; rfl

example : ∃ n₁ n₂ e₁ e₂ a M, Common 2 (sampleSquare 0) (sampleSquare 1) 1 0 n₁ n₂ e₁ e₂ 1 (fun k => k) a M ∧
    ∀ x, Opposite 2 (sampleSquare 0) (sampleSquare 1) n₁ n₂ e₁ e₂ a M x := by
  obtain ⟨n₁, n₂, e₁, e₂, a, M, h, h', -⟩ := squares_common
  exact ⟨n₁, n₂, e₁, e₂, a, M, h, h'⟩

/-- C112, for the edges of quadrilaterals, the quadrilaterals of hexahedra, and in general with cubes: the rules of all orders. -/
theorem C112_cube (env : Env ℝ) (g : MultiLinearGeometry) (hg : Legal g) (hmn : g.mydim ≤ g.cdim) (hc : IsCubeId g.mydim g.id)
    (h0 : 0 < g.mydim) (hd : g.mydim ≤ 30) (qt : QType) (hq : qt = .GaussLegendre ∨ qt = .GaussLobatto) (p m : Nat)
    (hm : maxOrder g.mydim ⟨g.mydim, false, g.id⟩ qt = .ok m) (hp : p ≤ m) (σ : Nat → Nat) (a : Vec ℝ) (M : Mat ℝ)
    (h : Symmetry g.mydim g.id σ a M) : ∃ r, rule env g.mydim ⟨g.mydim, false, g.id⟩ p qt = .ok r ∧
      ∀ (f : Vec ℝ → ℝ) (B ω : ℝ), Smooth g.mydim (1 / 10 ^ 79) B ω (surfaceDensity g f) r.pts →
        ∃ S T, quadrature (surfaceDensity g f) r.pts = some S ∧ quadrature (surfaceDensity (renumbered g σ) f) r.pts = some T ∧
          |T - S| ≤ r.pts.length * (1 / 10 ^ 79) * B + absWeights r.pts * ω := by
  obtain ⟨r, h1, h2⟩ := C108_cube_partial env g.mydim g.id p m qt hd hg.id_lt hc hq hm h0 hp σ a M h
  exact ⟨r, h1, fun f B ω hf => C112_surface g hg hmn (Or.inr (Or.inl hc)) σ a M h _ B ω r.pts h2
    (fun q _ => ⟨Or.inl hc, Or.inl hc⟩) f hf⟩

/-- C112, for triangular facets: the orders up to 12, without 6 and 7, for which it is wrong, and without 11, whose rule has points on
the edges. -/
theorem C112_triangle_partial (env : Env ℝ) (p : Nat) (hp : p ≤ 12) (h6 : p ≠ 6) (h7 : p ≠ 7) (h11 : p ≠ 11) (g₁ g₂ : MultiLinearGeometry)
    (i₁ i₂ : Nat) (n₁ n₂ : Vec ℝ) (e₁ e₂ : Vec ℝ × Mat ℝ) (σ : Nat → Nat) (a : Vec ℝ) (M : Mat ℝ)
    (h : Common 3 g₁ g₂ i₁ i₂ n₁ n₂ e₁ e₂ 0 σ a M) (htol : g₁.tol ≤ 1 / 250) :
    ∃ r, rule env 2 ⟨2, false, 0⟩ p .GaussLegendre = .ok r ∧
      ((∀ q ∈ r.pts, Opposite 3 g₁ g₂ n₁ n₂ e₁ e₂ a M q.position) →
        (∀ q ∈ r.pts, (g₂.jacobianInverseTransposed (embed 2 e₂ q.position)).isSome) →
        ∀ (F : Vec ℝ → Vec ℝ) (B ω : ℝ), Smooth 2 (1 / 10 ^ 14) B ω (fluxDensity 3 g₁ n₁ e₁ F) r.pts →
        ∃ S T, quadrature (fluxDensity 3 g₁ n₁ e₁ F) r.pts = some S ∧ quadrature (fluxDensity 3 g₂ n₂ e₂ F) r.pts = some T ∧
          |T + S| ≤ r.pts.length * (1 / 10 ^ 14) * B + absWeights r.pts * ω) := by
  obtain ⟨r, h1, hinv⟩ := C108_triangle_partial env p hp h6 h7 σ a M h.symmetry
  refine ⟨r, h1, fun hop hreg F B ω hF => C112_flux 3 g₁ g₂ i₁ i₂ n₁ n₂ e₁ e₂ 0 σ a M h _ B ω r.pts hinv (fun q hq => ?_) hop hreg F hF⟩
  have hin : ∀ q ∈ r.pts, ∀ y : Vec ℝ, (∀ i, i < 2 → |y i - q.position i| ≤ 1 / 10 ^ 14) → checkInside 2 0 y (-g₁.tol) 1 = true := by
    obtain ⟨row, g1, g2⟩ := triangle_row p hp
    have e := h1.symm.trans ((triangle_rule env p hp).trans g1)
    injection e with e
    subst e
    have hm := List.mem_of_find?_eq_some g2
    rw [List.mem_reverse] at hm
    have hcase := List.find?_some g2
    have hne : row.cases ≠ [28] := by
      intro e
      rw [beq_iff_eq, e] at hcase
      revert hcase
      interval_cases p <;> simp_all [simplex2Index]
    have hdeep := List.all_eq_true.1 blocks_deep row hm
    simp only [Bool.or_eq_true, beq_iff_eq, hne, false_or, List.all_eq_true] at hdeep
    intro q hq y hy
    obtain ⟨n, hn, rfl⟩ := List.mem_map.1 hq
    exact deep_near (hdeep n hn) htol fun i hi => (hy i hi).trans (by norm_num)
  refine ⟨hin q hq _ fun i _ => by rw [_root_.sub_self, abs_zero]; positivity, ?_⟩
  obtain ⟨q', hq', hc, -⟩ := Multiset.exists_mem_of_rel_of_mem hinv (Multiset.mem_coe.2 hq)
  exact hin q' (Multiset.mem_coe.1 hq') _ hc

/-- C112, full statement: for every rule the sum does not depend on the numbering, up to `10^(-12)` in points and weights. -/
def C112_full : Prop :=
  ∀ (env : Env ℝ) (g : MultiLinearGeometry) (p m : Nat) (qt : QType) (r : Rule ℝ) (σ : Nat → Nat) (a : Vec ℝ) (M : Mat ℝ),
    Legal g → g.mydim ≤ g.cdim → g.mydim ≤ 30 → IsPlain qt → maxOrder g.mydim ⟨g.mydim, false, g.id⟩ qt = .ok m → p ≤ m →
    rule env g.mydim ⟨g.mydim, false, g.id⟩ p qt = .ok r → Symmetry g.mydim g.id σ a M →
    (∀ q ∈ r.pts, Clear g.tol g.mydim g.id q.position ∧ Clear g.tol g.mydim g.id (affMap g.mydim a M q.position)) →
    ∀ (f : Vec ℝ → ℝ) (B ω : ℝ), Smooth g.mydim (1 / 10 ^ 12) B ω (surfaceDensity g f) r.pts →
      ∀ S T, quadrature (surfaceDensity g f) r.pts = some S → quadrature (surfaceDensity (renumbered g σ) f) r.pts = some T →
        |T - S| ≤ r.pts.length * (1 / 10 ^ 12) * B + absWeights r.pts * ω

/-- the reference triangle as an element -/
noncomputable def sampleTriangle : MultiLinearGeometry where
  mydim := 2
  cdim := 2
  id := 0
  corners_ k := fun j => if k = j + 1 then 1 else 0
  tol := 1 / 1000

theorem sampleTriangle_legal : Legal sampleTriangle := ⟨by decide, by norm_num [sampleTriangle], by norm_num [sampleTriangle]⟩

theorem sampleTriangle_density (f : Vec ℝ → ℝ) (hf : ∀ x y : Vec ℝ, x 0 = y 0 → x 1 = y 1 → f x = f y) (x : Vec ℝ)
    (hx : checkInside 2 0 x (-(1 / 1000)) 1 = true) : surfaceDensity sampleTriangle f x = some (f x) := by
  have hs : IsSimplexId sampleTriangle.mydim sampleTriangle.id := fun k _ _ => Nat.zero_testBit k
  have h := (C33_simplex sampleTriangle sampleTriangle_legal hs).2 x hx
  have hG : ∀ j, j < 2 → sampleTriangle.global x j = x j := fun j hj => by
    rw [(h j hj).1]
    simp only [sampleTriangle, sum_range_succ, sum_range_zero]
    interval_cases j <;> simp
  have hJ : ∀ j, j < 2 → ∀ r, r < 2 → sampleTriangle.jacobianTransposed x r j = if r = j then 1 else 0 := fun j hj r hr => by
    have := ((h j hj).2 r hr).1
    change sampleTriangle.jacobianTransposed x r j = _ at this
    rw [this]
    simp only [sampleTriangle]
    interval_cases j <;> interval_cases r <;> simp
  rw [surfaceDensity, MultiLinearGeometry.integrationElement, sqrtDetAAT, if_pos ⟨rfl, rfl⟩, hJ 0 (by omega) 0 (by omega), hJ 1 (by omega) 1 (by omega),
    hJ 0 (by omega) 1 (by omega), hJ 1 (by omega) 0 (by omega), Option.map_some, hf _ x (hG 0 (by omega)) (hG 1 (by omega))]
  norm_num

/-- C112 is wrong for the triangle and the orders 6 and 7: the numbering of the corners changes the sum. -/
theorem C112_counterexample : ¬ C112_full := by
  intro h
  obtain ⟨r, a, M, hs, hr, q, hq, hfar⟩ := C108_swap_counterexample ⟨none⟩ 7 (Or.inr rfl)
  obtain ⟨m, hm, hms⟩ := maxOrder_tab (qt := .GaussLegendre) (h := 61) rfl (by omega) (by omega) 1 0 (by omega) (by omega)
  have hpm : 7 ≤ m := by
    rcases hms.2.2 with rfl | ⟨k, hk1, hk2, -, hk⟩ <;> omega
  have hr' := hr
  have e := hr.symm.trans (triangle_seven ⟨none⟩ 7 (Or.inr rfl))
  injection e with e
  have hpts : r.pts = Simplex2.block6.pts.map Node.point := by rw [e]
  have hdeep : ∀ q ∈ r.pts, (∀ y : Vec ℝ, (∀ i, i < 2 → |y i - q.position i| ≤ 1 / 10 ^ 12) → checkInside 2 0 y (-(1 / 1000)) 1 = true) ∧
      checkInside 2 0 (affMap 2 a M q.position) (-(1 / 1000)) 1 = true ∧ 1 / 100 ≤ q.weight ∧ q.weight ≤ 1 := by
    intro q hq
    rw [hpts] at hq
    obtain ⟨n, hn, rfl⟩ := List.mem_map.1 hq
    have h1 := List.all_eq_true.1 block6_deep n hn
    have h2 := List.all_eq_true.1 block6_weight n hn
    have h3 := List.all_eq_true.1 block6_lit n hn
    simp only [Bool.and_eq_true, List.all_eq_true, beq_iff_eq, bne_iff_ne, ne_eq, decide_eq_true_eq] at h1 h2 h3
    refine ⟨fun y hy => deep_near h1.1 (by norm_num) hy, deep_near h1.2 (by norm_num) fun i hi => ?_, ?_, ?_⟩
    · have := simplex_img (id := 0) (fun k _ _ => Nat.zero_testBit k) hs h3.1 h3.2 hi
      have e : (List.range (2 + 1)).map swap12 = [0, 2, 1] := rfl
      rw [e] at this
      rw [this, _root_.sub_self, abs_zero]; positivity
    · have hd : (0:ℝ) < n.w.den := by exact_mod_cast Nat.pos_of_ne_zero h2.1.1
      change (1:ℝ) / 100 ≤ ((n.w.num : ℝ) / n.w.den)
      rw [div_le_div_iff₀ (by norm_num) hd]
      have : ((n.w.den : Int) : ℝ) ≤ ((100 * n.w.num : Int) : ℝ) := by exact_mod_cast h2.1.2
      push_cast at this
      linarith
    · have hd : (0:ℝ) < n.w.den := by exact_mod_cast Nat.pos_of_ne_zero h2.1.1
      change ((n.w.num : ℝ) / n.w.den) ≤ 1
      rw [div_le_one hd]
      exact_mod_cast h2.2
  set P := affMap 2 a M q.position with hP
  let f : Vec ℝ → ℝ := fun x => max (1 - 100 * |x 0 - P 0| - 100 * |x 1 - P 1|) 0
  have hf : ∀ x y : Vec ℝ, x 0 = y 0 → x 1 = y 1 → f x = f y := fun x y h0 h1 => by simp only [f, h0, h1]
  have hf0 : ∀ x, 0 ≤ f x := fun x => le_max_right _ _
  have hf1 : ∀ x, f x ≤ 1 := fun x => max_le (by linarith [abs_nonneg (x 0 - P 0), abs_nonneg (x 1 - P 1)]) zero_le_one
  have hfP : f P = 1 := by simp [f]
  have hdens := fun x hx => sampleTriangle_density f hf x hx
  have hself : ∀ q ∈ r.pts, surfaceDensity sampleTriangle f q.position = some (f q.position) := fun q hq =>
    hdens _ ((hdeep q hq).1 _ fun i _ => by rw [_root_.sub_self, abs_zero]; positivity)
  have hzero : ∀ q ∈ r.pts, f q.position = 0 := by
    intro q' hq'
    obtain ⟨i, hi, hlt⟩ := hfar q' hq'
    refine max_eq_right ?_
    rw [abs_sub_comm] at hlt
    have a0 := abs_nonneg (q'.position 0 - P 0)
    have a1 := abs_nonneg (q'.position 1 - P 1)
    rcases (show i = 0 ∨ i = 1 by omega) with rfl | rfl <;> linarith
  have hclear : ∀ q ∈ r.pts, Clear sampleTriangle.tol 2 0 q.position ∧ Clear sampleTriangle.tol 2 0 (affMap 2 a M q.position) :=
    fun q hq => ⟨Or.inr ((hdeep q hq).1 _ fun i _ => by rw [_root_.sub_self, abs_zero]; positivity), Or.inr (hdeep q hq).2.1⟩
  have hren : ∀ q ∈ r.pts, surfaceDensity (renumbered sampleTriangle swap12) f q.position = some (f (affMap 2 a M q.position)) := by
    intro q hq
    obtain ⟨c1, c2⟩ := hclear q hq
    rw [← hdens _ (hdeep q hq).2.1, surfaceDensity, surfaceDensity]
    have hcov : Covered sampleTriangle.mydim sampleTriangle.id := Or.inl fun k _ _ => Nat.zero_testBit k
    have e1 := C97_integrationElement sampleTriangle sampleTriangle_legal (le_refl _) hcov swap12 a M hs q.position c1 c2
    have e2 := C97_global sampleTriangle sampleTriangle_legal hcov swap12 a M hs q.position c1 c2
    rw [e1, e2]
    rfl
  have hsm : Smooth 2 (1 / 10 ^ 12) 1 (200 / 10 ^ 12) (surfaceDensity sampleTriangle f) r.pts := by
    intro q hq
    refine ⟨_, hself q hq, fun y hy => ⟨_, hdens y ((hdeep q hq).1 y hy), ?_, ?_⟩⟩
    · rw [abs_of_nonneg (hf0 y)]; exact hf1 y
    · refine (abs_max_sub_max_le_abs _ _ _).trans ?_
      have b0 := abs_abs_sub_abs_le_abs_sub (y 0 - P 0) (q.position 0 - P 0)
      have b1 := abs_abs_sub_abs_le_abs_sub (y 1 - P 1) (q.position 1 - P 1)
      rw [sub_sub_sub_cancel_right] at b0 b1
      have c0 := abs_le.1 (b0.trans (hy 0 (by omega)))
      have c1 := abs_le.1 (b1.trans (hy 1 (by omega)))
      rw [abs_le]
      constructor <;> linarith [c0.1, c0.2, c1.1, c1.2]
  have hS := quadrature_eq hself
  have hT := quadrature_eq (v := fun q => f (affMap 2 a M q.position)) hren
  have key := h ⟨none⟩ sampleTriangle 7 m .GaussLegendre r swap12 a M sampleTriangle_legal (le_refl _) (by decide) (Or.inl rfl) hm hpm hr' hs
    hclear f 1 (200 / 10 ^ 12) hsm _ _ hS hT
  have s0 : (r.pts.map fun q => f q.position * q.weight).sum = 0 :=
    List.sum_eq_zero fun x hx => by
      obtain ⟨q, hq, rfl⟩ := List.mem_map.1 hx
      rw [hzero q hq, zero_mul]
  have t0 : q.weight ≤ (r.pts.map fun q => f (affMap 2 a M q.position) * q.weight).sum := by
    have := List.single_le_sum (l := r.pts.map fun q => f (affMap 2 a M q.position) * q.weight) (fun x hx => by
      obtain ⟨q, hq, rfl⟩ := List.mem_map.1 hx
      exact mul_nonneg (hf0 _) (by linarith [(hdeep q hq).2.2.1])) _ (List.mem_map.2 ⟨q, hq, rfl⟩)
    rwa [← hP, hfP, one_mul] at this
  have hlen : r.pts.length = 12 := by rw [hpts, List.length_map]; decide
  have hw : absWeights r.pts ≤ 12 := by
    have := List.sum_le_card_nsmul (r.pts.map fun q => |q.weight|) 1 fun x hx => by
      obtain ⟨q, hq, rfl⟩ := List.mem_map.1 hx
      rw [abs_of_nonneg (by linarith [(hdeep q hq).2.2.1])]
      exact (hdeep q hq).2.2.2
    rw [List.length_map, hlen] at this
    simpa [absWeights] using this
  rw [s0, sub_zero, hlen] at key
  have := (le_abs_self _).trans key
  have hq1 := (hdeep q hq).2.2.1
  push_cast at this
  have : (1:ℝ) / 100 ≤ 12 * (1 / 10 ^ 12) * 1 + 12 * (200 / 10 ^ 12) := by linarith [mul_le_mul_of_nonneg_right hw (show (0:ℝ) ≤ 200 / 10 ^ 12 by positivity)]
  norm_num at this

end Verif.Flux
