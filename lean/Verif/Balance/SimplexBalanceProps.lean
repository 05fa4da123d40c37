import Verif.Balance.TetrahedronProps

/-!
Property theorems: the balance of a mesh of triangles or tetrahedra (C125).
-/

namespace Verif.Balance

open Verif.Typ Verif.RefTopo Verif.RefGeom Verif.MatHelp Verif.Affine Verif.MultiLinear Verif.Normal Verif.Flux Verif.Tip Verif.Neighbour MvPolynomial
open Verif.Quad hiding jac absWeights
open Matrix hiding vec ext
open Finset hiding ext

/-! ### Specification -/

/-- the edges from corner 0, one per column -/
def edges (g : MultiLinearGeometry) : Mat ℝ := fun j r => g.corners_ (r + 1) j - g.corners_ 0 j

/-- triangles in the plane or tetrahedra in space that are not degenerate -/
structure Simplices (d : Nat) (gs : List MultiLinearGeometry) : Prop where
  legal : ∀ g ∈ gs, Legal g
  dim : ∀ g ∈ gs, g.mydim = d
  world : ∀ g ∈ gs, g.cdim = d
  id : ∀ g ∈ gs, g.id = 0
  tol : ∀ g ∈ gs, g.tol ≤ 1 / 1000
  regular : ∀ g ∈ gs, (mat d d (edges g)).det ≠ 0

/-- triangles and orders up to 12, tetrahedra and orders up to 5: the rules given by tables -/
def Tabulated (d p : Nat) : Prop := d = 2 ∧ p ≤ 12 ∨ d = 3 ∧ p ≤ 5

/-- the error of the tables for one simplex; `Q k` are the values of component `k` of the field in the simplex -/
noncomputable def simplexTol (d p : Nat) (g : MultiLinearGeometry) (Q : Fin d → MvPolynomial (Fin d) ℝ) : ℝ :=
  ∑ k, tabTol * ((p + 2 * d * d ^ p) * coeffSum (Q k)) * ∑ j, |adjugate (mat d d (edges g)) j k|

/-! ### helper lemmas -/

theorem simplex_points (env : Env ℝ) {d p : Nat} (hp : Tabulated d p) {g : MultiLinearGeometry} (hid : g.id = 0) (htol : g.tol ≤ 1 / 1000) :
    PointsOk env d p .GaussLegendre g := by
  rcases hp with ⟨rfl, hp⟩ | ⟨rfl, hp⟩
  · exact triangle_points env hp hid htol
  · exact tetrahedron_points env hp hid htol

theorem simplex_order {d p : Nat} (hp : Tabulated d p) : ∃ m, maxOrder d ⟨d, false, 0⟩ .GaussLegendre = .ok m ∧ p ≤ m := by
  rcases hp with ⟨rfl, hp⟩ | ⟨rfl, hp⟩
  · obtain ⟨m, hm, hs⟩ := maxOrder_tab (qt := .GaussLegendre) (h := 61) rfl (by omega) (by omega) 1 0 (by omega) (by omega)
    refine ⟨m, hm, ?_⟩
    rcases hs.2.2 with rfl | ⟨k, hk1, hk2, -, hk⟩ <;> omega
  · obtain ⟨m, hm, hs⟩ := maxOrder_tab (qt := .GaussLegendre) (h := 61) rfl (by omega) (by omega) 2 0 (by omega) (by omega)
    refine ⟨m, hm, ?_⟩
    rcases hs.2.2 with rfl | ⟨k, hk1, hk2, -, hk⟩ <;> omega

theorem Simplices.elements {env : Env ℝ} {d p : Nat} (hp : Tabulated d p) {gs : List MultiLinearGeometry} (h : Simplices d gs) :
    Elements env d p gs := by
  refine ⟨h.legal, h.dim, h.tol, fun g hg => ?_, fun g hg i n e r hf hr q hq => ?_⟩
  · rw [h.id g hg]; exact simplex_order hp
  · have hid := h.id g hg
    have hli : LinearIndependent ℝ (mat d d fun r j => edges g j r).row := by
      rw [linearIndependent_rows_iff_isUnit, isUnit_iff_isUnit_det]
      have e : mat d d (fun r j => edges g j r) = (mat d d (edges g))ᵀ := rfl
      rw [e, det_transpose]
      exact isUnit_iff_ne_zero.2 (h.regular g hg)
    obtain ⟨g', hg', -⟩ := ofJacobian_eq (id := g.id) (o := g.corners_ 0) le_rfl hli
    obtain ⟨⟨r', k1, -⟩, -⟩ := affine_at (h.legal g hg) (h.dim g hg) (h.world g hg) (imageOf_simplex g fun k _ _ => by simp [hid]) hli hg'
      ((simplex_points env hp hid (h.tol g hg)).facet i n e r hf hr q hq)
    rw [k1]; rfl

theorem Simplices.supported {d p : Nat} (hp : Tabulated d p) {gs : List MultiLinearGeometry} (h : Simplices d gs) : Supported d p gs := by
  rcases hp with ⟨rfl, hp⟩ | ⟨rfl, hp⟩
  · exact Or.inl rfl
  · exact Or.inr ⟨rfl, h.id, by omega, by omega, by omega, by omega⟩

theorem quadrature_zero {f : Vec ℝ → Option ℝ} (hf : ∀ x v, f x = some v → v = 0) {l : List (QPoint ℝ)} {v : ℝ} (h : quadrature f l = some v) :
    v = 0 := by
  have : ∀ (l : List (QPoint ℝ)) (s : ℝ) {v}, l.foldlM (fun sum qp => (f qp.position).map fun v => sum + v * qp.weight) s = some v → v = s := by
    intro l
    induction l with
    | nil => intro s v hv; exact (Option.some.inj hv).symm
    | cons q l ih =>
      intro s v hv
      rw [List.foldlM_cons] at hv
      cases hq : f q.position with
      | none => rw [hq] at hv; cases hv
      | some w =>
        rw [hq, hf _ _ hq] at hv
        rw [ih _ hv]; simp
  exact this l 0 h

theorem meshIntegral_zero {env : Env ℝ} {d p : Nat} {qt : QType} {gs : List MultiLinearGeometry} {D : ℝ}
    (h : meshIntegral env d p qt (fun _ => 0) gs = some D) : D = 0 := by
  have : ∀ (l : List MultiLinearGeometry) (s : ℝ) {v},
      l.foldlM (fun sum g => (elementIntegral env d p qt (fun _ => 0) g).map fun v => sum + v) s = some v → v = s := by
    intro l
    induction l with
    | nil => intro s v hv; exact (Option.some.inj hv).symm
    | cons g l ih =>
      intro s v hv
      rw [List.foldlM_cons] at hv
      cases hq : elementIntegral env d p qt (fun _ => 0) g with
      | none => rw [hq] at hv; cases hv
      | some w =>
        have hw : w = 0 := by
          rw [elementIntegral] at hq
          split at hq
          · refine quadrature_zero (fun x v hv => ?_) hq
            rw [surfaceDensity] at hv
            obtain ⟨_, -, h⟩ := Option.map_eq_some_iff.1 hv
            rw [← h, zero_mul]
          · cases hq
        rw [hq, hw] at hv
        rw [ih _ hv]; simp
  exact this gs 0 h

/-! ### C125 -/

/-- C125 for meshes of triangles and of tetrahedra: the divergence theorem of the rules given by tables. -/
theorem C125_simplices (env : Env ℝ) (d p : Nat) (hp : Tabulated d p) (P : Fin d → MvPolynomial (Fin d) ℝ) (hP : ∀ k, (P k).totalDegree ≤ p)
    (K : ℝ) (gs : List MultiLinearGeometry) (h : Simplices d gs) (I : Finset (Fin gs.length × Nat))
    (β : Fin gs.length × Nat → Fin gs.length × Nat) (hc : ConformingTo env d p (polyField P) K gs I β) :
    ∃ (D : ℝ) (S : Fin gs.length × Nat → ℝ) (Q : Fin gs.length → Fin d → MvPolynomial (Fin d) ℝ),
      meshIntegral env d p .GaussLegendre (polyDiv P) gs = some D ∧
      (∀ x ∈ facets d gs, facetFlux env d p .GaussLegendre (polyField P) (gs.get x.1) x.2 = some (S x)) ∧
      (∀ a k x, (Q a k).eval x = (P k).eval fun j : Fin d => (gs.get a).corners_ 0 j + ∑ r : Fin d, edges (gs.get a) j r * x r) ∧
      |D - ∑ x ∈ facets d gs \ I, S x| ≤ ∑ a, simplexTol d p (gs.get a) (Q a) + I.card / 2 * K := by
  have hd : 0 < d ∧ d ≤ 30 := by rcases hp with ⟨rfl, -⟩ | ⟨rfl, -⟩ <;> omega
  obtain ⟨T, S, hT, hS, hb⟩ := C124_simplices env d p (polyField P) K gs (h.elements hp) (h.supported hp) I β hc
  have hel : ∀ a : Fin gs.length, ∃ D Q, elementIntegral env d p .GaussLegendre (polyDiv P) (gs.get a) = some D ∧
      (∀ k x, (Q k).eval x = (P k).eval fun j : Fin d => (gs.get a).corners_ 0 j + ∑ r : Fin d, edges (gs.get a) j r * x r) ∧
      |D - ∑ i ∈ range (refSize d (gs.get a).id 1), S (a, i)| ≤ simplexTol d p (gs.get a) Q := by
    intro a
    have m1 := List.get_mem gs a
    have hid := h.id _ m1
    obtain ⟨m, hm, hpm⟩ := simplex_order hp
    obtain ⟨D, S', Q, e1, e2, e3, e4⟩ := C123_affine env d p m .GaussLegendre (gs.get a) (h.legal _ m1) (h.dim _ m1) (h.world _ m1) hd.1 hd.2
      (Or.inl rfl) (by rw [hid]; exact hm) hpm _ (edges (gs.get a)) (imageOf_simplex _ fun k _ _ => by rw [hid]; simp) (h.regular _ m1)
      (simplex_points env hp hid (h.tol _ m1)) P hP
    refine ⟨D, Q, e1, e3, ?_⟩
    have : ∑ i ∈ range (refSize d (gs.get a).id 1), S (a, i) = ∑ i ∈ range (refSize d (gs.get a).id 1), S' i :=
      sum_congr rfl fun i hi => Option.some.inj ((hS (a, i) (mem_facets.2 (mem_range.1 hi))).symm.trans (e2 i (mem_range.1 hi)))
    rw [this]; exact e4
  choose D Q h1 h2 h3 using hel
  refine ⟨∑ a, D a, S, Q, ?_, hS, h2, ?_⟩
  · rw [meshIntegral, outer_loop gs D (fun a s => by rw [h1 a]; rfl), zero_add]
  · have hT' : T = ∑ x ∈ facets d gs, S x := by
      rw [meshFlux, outer_loop gs (fun a => ∑ i ∈ range (refSize d (gs.get a).id 1), S (a, i)) (fun a s =>
        inner_loop _ (fun i hi => hS (a, i) (mem_facets.2 hi)) s), zero_add, ← sum_facets] at hT
      exact (Option.some.inj hT).symm
    have e : |∑ a, D a - T| ≤ ∑ a, simplexTol d p (gs.get a) (Q a) := by
      rw [hT', sum_facets, ← sum_sub_distrib]
      exact (abs_sum_le_sum_abs _ _).trans (sum_le_sum fun a _ => h3 a)
    exact (abs_sub_le _ T _).trans (add_le_add e hb)

/-- C125 for meshes of triangles and of tetrahedra: a field without divergence has no net flux through the boundary. -/
theorem C125_simplices_solenoidal (env : Env ℝ) (d p : Nat) (hp : Tabulated d p) (P : Fin d → MvPolynomial (Fin d) ℝ)
    (hP : ∀ k, (P k).totalDegree ≤ p) (hdiv : ∑ k, pderiv k (P k) = 0) (K : ℝ) (gs : List MultiLinearGeometry) (h : Simplices d gs)
    (I : Finset (Fin gs.length × Nat)) (β : Fin gs.length × Nat → Fin gs.length × Nat) (hc : ConformingTo env d p (polyField P) K gs I β) :
    ∃ (S : Fin gs.length × Nat → ℝ) (Q : Fin gs.length → Fin d → MvPolynomial (Fin d) ℝ),
      (∀ x ∈ facets d gs, facetFlux env d p .GaussLegendre (polyField P) (gs.get x.1) x.2 = some (S x)) ∧
      (∀ a k x, (Q a k).eval x = (P k).eval fun j : Fin d => (gs.get a).corners_ 0 j + ∑ r : Fin d, edges (gs.get a) j r * x r) ∧
      |∑ x ∈ facets d gs \ I, S x| ≤ ∑ a, simplexTol d p (gs.get a) (Q a) + I.card / 2 * K := by
  obtain ⟨D, S, Q, h1, h2, h3, h4⟩ := C125_simplices env d p hp P hP K gs h I β hc
  refine ⟨S, Q, h2, h3, ?_⟩
  have hz : polyDiv P = fun _ => 0 := by
    funext y
    simp only [polyDiv, partialDeriv_eval]
    rw [← map_sum, hdiv, map_zero]
  rw [hz] at h1
  rwa [meshIntegral_zero h1, zero_sub, abs_neg] at h4

/-- C125 for meshes of triangles and of tetrahedra: the volume is the flux of a coordinate through the boundary. -/
theorem C125_simplices_volume (env : Env ℝ) (d p : Nat) (hp : Tabulated d p) (hp1 : 1 ≤ p) (k : Fin d) (K : ℝ) (gs : List MultiLinearGeometry)
    (h : Simplices d gs) (I : Finset (Fin gs.length × Nat)) (β : Fin gs.length × Nat → Fin gs.length × Nat)
    (hc : ConformingTo env d p (polyField fun i => if i = k then X k else 0) K gs I β) :
    ∃ (V : ℝ) (S : Fin gs.length × Nat → ℝ) (Q : Fin gs.length → Fin d → MvPolynomial (Fin d) ℝ),
      meshIntegral env d p .GaussLegendre (fun _ => 1) gs = some V ∧
      (∀ x ∈ facets d gs, facetFlux env d p .GaussLegendre (polyField fun i => if i = k then X k else 0) (gs.get x.1) x.2 = some (S x)) ∧
      (∀ a x, (Q a k).eval x = (gs.get a).corners_ 0 k + ∑ r : Fin d, edges (gs.get a) k r * x r) ∧ (∀ a i x, i ≠ k → (Q a i).eval x = 0) ∧
      |V - ∑ x ∈ facets d gs \ I, S x| ≤ ∑ a, simplexTol d p (gs.get a) (Q a) + I.card / 2 * K := by
  obtain ⟨D, S, Q, h1, h2, h3, h4⟩ := C125_simplices env d p hp (fun i => if i = k then X k else 0) (fun i => by
    by_cases hi : i = k
    · simp only [if_pos hi, totalDegree_X]; exact hp1
    · simp only [if_neg hi, totalDegree_zero]; omega) K gs h I β hc
  have e2 : polyDiv (fun i => if i = k then X k else 0) = fun _ => (1 : ℝ) := by
    funext y
    simp only [polyDiv, partialDeriv_eval]
    rw [sum_eq_single k]
    · rw [if_pos rfl, pderiv_X_self, map_one]
    · intro i _ hi; rw [if_neg hi, map_zero, map_zero]
    · simp
  rw [e2] at h1
  exact ⟨D, S, Q, h1, h2, fun a x => by rw [h3, if_pos rfl, eval_X], fun a i x hi => by rw [h3, if_neg hi, map_zero], h4⟩

/-! ### The hypotheses can be met -/

/-- the triangle with corners `(o,o)`, `(o+s,o)`, `(o,o+s)` -/
noncomputable def halfSquare (s o : ℝ) : MultiLinearGeometry where
  mydim := 2
  cdim := 2
  id := 0
  corners_ := fun k j => if j < 2 then o + (if k = j + 1 then s else 0) else 0
  tol := 1 / 10 ^ 6

theorem halfSquare_legal (s o : ℝ) : Legal (halfSquare s o) := by constructor <;> norm_num [halfSquare]

theorem halfSquare_jacobian (s o : ℝ) (x : Vec ℝ) (r j : Nat) (hr : r < 2) (hj : j < 2) :
    (halfSquare s o).jacobianTransposed x r j = if r = j then s else 0 := by
  have h := (C119_cone (halfSquare s o) (halfSquare_legal s o) 1 rfl (fun k h1 h2 => by omega) _ _
    (imageOf_simplex (halfSquare s o) fun k _ _ => by simp [halfSquare]) x).1 j r hj hr
  rw [MultiLinearGeometry.jacobian] at h
  rw [h]
  simp only [halfSquare, if_pos hj]
  by_cases hrj : r = j
  · simp [hrj]
  · simp [hrj]

theorem halfSquare_inverse (s o : ℝ) (hs : s * s = 1) (x : Vec ℝ) : ∃ r, (halfSquare s o).jacobianInverseTransposed x = some r ∧ r.1 = 1 ∧
    mat 2 2 r.2 = s • 1 := by
  have h := halfSquare_jacobian s o x
  rw [MultiLinearGeometry.jacobianInverseTransposed, rightInvA, if_pos ⟨rfl, rfl⟩, inv22]
  simp only [h 0 0 (by omega) (by omega), h 1 1 (by omega) (by omega), h 1 0 (by omega) (by omega), h 0 1 (by omega) (by omega)]
  simp only [zero_ne_one, one_ne_zero, if_false, if_true, mul_zero, sub_zero, div_one, abs_one, hs]
  refine ⟨_, rfl, rfl, ?_⟩
  ext i j
  fin_cases i <;> fin_cases j <;> simp [mat]

/-- the two halves of a square; the diagonal is numbered in opposite directions -/
theorem halves_common : ∃ n e a M, Common 2 (halfSquare 1 0) (halfSquare (-1) 1) 2 2 n n e e 0 (fun k => 1 - k) a M ∧
    (∀ x, Opposite 2 (halfSquare 1 0) (halfSquare (-1) 1) n n e e a M x) ∧
    ∀ F x, ∃ z, fluxDensity 2 (halfSquare 1 0) n e F x = some (F z 0 + F z 1) := by
  obtain ⟨n, e, h, n0, n1⟩ : ∃ n e, IsFacet 2 0 2 n e ∧ n 0 = 1 ∧ n 1 = 1 := by
    refine ⟨_, _, ⟨by decide, rfl, rfl⟩, ?_, ?_⟩ <;> simp [setV, dot]
  refine ⟨n, e, fun _ => 1, fun _ _ => -1, ⟨halfSquare_legal _ _, halfSquare_legal _ _, by omega, by omega,
    rfl, rfl, rfl, rfl, rfl, h, h, by decide, by decide, by decide, Or.inr (Or.inr (by omega)),
    ⟨fun k hk => ?_, fun k k' hk hk' h => ?_, fun k hk i hi => ?_⟩, fun v hv => ?_⟩, fun x r₁ hr₁ => ?_, fun F x => ?_⟩
  · have : k < 2 := lt_of_lt_of_eq hk (by decide)
    exact lt_of_lt_of_eq (show 1 - k < 2 by omega) (by decide)
  · have : k < 2 := lt_of_lt_of_eq hk (by decide)
    have : k' < 2 := lt_of_lt_of_eq hk' (by decide)
    change 1 - k = 1 - k' at h
    omega
  · have hk : k < 2 := lt_of_lt_of_eq hk (by decide)
    obtain rfl : i = 0 := by omega
    have c0 : corner (K := ℝ) (2 - 1) 0 0 0 = 0 := rfl
    have c1 : corner (K := ℝ) (2 - 1) 0 1 0 = 1 := rfl
    interval_cases k <;> simp [affMap, c0, c1]
  · have hv : v < 2 := lt_of_lt_of_eq hv (by decide)
    interval_cases v
    · refine ⟨2, 1, by decide, by decide, funext fun j => ?_⟩
      simp only [halfSquare]
      rcases j with _ | _ | j <;> simp
    · refine ⟨1, 2, by decide, by decide, funext fun j => ?_⟩
      simp only [halfSquare]
      rcases j with _ | _ | j <;> simp
  · obtain ⟨r, k1, k2, k3⟩ := halfSquare_inverse 1 0 (by norm_num) (embed (2 - 1) e (affMap (2 - 1) (fun _ => 1) (fun _ _ => -1) x))
    obtain rfl := Option.some.inj (k1.symm.trans hr₁)
    have h := halfSquare_jacobian (-1) 1 (embed (2 - 1) e x)
    refine ⟨![-1, 0], ?_, ?_⟩
    · simp [vec, dotProduct, Fin.sum_univ_two, n0]
    · rw [mappedNormal, k2, k3, one_smul, one_smul, Matrix.one_mulVec]
      simp [vec, mat, dotProduct, mulVec, Fin.sum_univ_two, n0, n1, MultiLinearGeometry.jacobian, h]
  · obtain ⟨r, k1, k2, k3⟩ := halfSquare_inverse 1 0 (by norm_num) (embed (2 - 1) e x)
    refine ⟨(halfSquare 1 0).global (embed (2 - 1) e x), ?_⟩
    rw [fluxDensity, k1, Option.map_some, mappedNormal, k2, k3, one_smul, one_smul, Matrix.one_mulVec]
    simp [vec, dotProduct, Fin.sum_univ_two, n0, n1]

/-- a square cut into two triangles, and a field `(u, -u)`, whose flux through the diagonal vanishes -/
theorem two_halves (env : Env ℝ) (u : MvPolynomial (Fin 2) ℝ) : ∃ K, Tabulated 2 1 ∧ Simplices 2 [halfSquare 1 0, halfSquare (-1) 1] ∧
    ConformingTo env 2 1 (polyField ![u, -u]) K [halfSquare 1 0, halfSquare (-1) 1] {((0 : Fin 2), 2), ((1 : Fin 2), 2)}
      (fun x => if x = ((0 : Fin 2), 2) then ((1 : Fin 2), 2) else ((0 : Fin 2), 2)) := by
  obtain ⟨n, e, a, M, hcom, hop, hflux⟩ := halves_common
  obtain ⟨r, hr, -⟩ := flux_plane env hcom (by norm_num [halfSquare]) (show 1 ≤ 61 by omega)
  have hz : ∀ x, fluxDensity 2 (halfSquare 1 0) n e (polyField ![u, -u]) x = some 0 := by
    intro x
    obtain ⟨z, hz⟩ := hflux (polyField ![u, -u]) x
    rw [hz, polyField, dif_pos (show 0 < 2 by omega), polyField, dif_pos (show 1 < 2 by omega)]
    simp
  have hG : GluedTo env 2 1 (polyField ![u, -u]) (r.pts.length * (1 / 10 ^ 14) * 0 + absWeights r.pts * 0) (halfSquare 1 0)
      (halfSquare (-1) 1) 2 2 :=
    ⟨n, n, e, e, 0, _, a, M, 0, 0, r, hcom, hr, fun q _ => hop _, fun q _ =>
      ⟨0, hz _, fun y _ => ⟨0, hz _, by simp, by simp⟩⟩, le_rfl⟩
  refine ⟨r.pts.length * (1 / 10 ^ 14) * 0 + absWeights r.pts * 0, Or.inl ⟨rfl, by omega⟩, ?_, ?_⟩
  · constructor
    all_goals
      intro g hg
      simp only [List.mem_cons, List.not_mem_nil, or_false] at hg
    · rcases hg with rfl | rfl <;> exact halfSquare_legal _ _
    · rcases hg with rfl | rfl <;> rfl
    · rcases hg with rfl | rfl <;> rfl
    · rcases hg with rfl | rfl <;> rfl
    · rcases hg with rfl | rfl <;> norm_num [halfSquare]
    · rcases hg with rfl | rfl <;> norm_num [halfSquare, edges, mat, Matrix.det_fin_two]
  · have hsz : ∀ a : Fin 2, refSize 2 ([halfSquare 1 0, halfSquare (-1) 1].get a).id 1 = 3 := by
      intro a; fin_cases a <;> decide
    refine ⟨fun x hx => ?_, fun x hx => ?_, fun x hx => ?_, fun x hx => ?_⟩
    · simp only [mem_insert, mem_singleton] at hx
      rcases hx with rfl | rfl <;> exact mem_facets.2 (lt_of_lt_of_eq (show 2 < 3 by omega) (hsz _).symm)
    · simp only [mem_insert, mem_singleton] at hx ⊢
      rcases hx with rfl | rfl <;> simp
    · simp only [mem_insert, mem_singleton] at hx
      rcases hx with rfl | rfl <;> simp
    · simp only [mem_insert, mem_singleton] at hx
      rcases hx with rfl | rfl
      · exact Or.inl hG
      · exact Or.inr hG

/-- the field `(x, -x)` -/
example (env : Env ℝ) : ∃ K I β, Tabulated 2 1 ∧ Simplices 2 [halfSquare 1 0, halfSquare (-1) 1] ∧
    (∀ k, ((![X 0, -X 0] : Fin 2 → MvPolynomial (Fin 2) ℝ) k).totalDegree ≤ 1) ∧
    ConformingTo env 2 1 (polyField ![X 0, -X 0]) K [halfSquare 1 0, halfSquare (-1) 1] I β ∧ I.card = 2 := by
  obtain ⟨K, h1, h2, h3⟩ := two_halves env (X 0)
  exact ⟨K, _, _, h1, h2, fun k => by fin_cases k <;> simp, h3, by decide⟩

/-- a field without divergence: `(x + y, -x - y)` -/
example (env : Env ℝ) : ∃ K I β, (∀ k, ((![X 0 + X 1, -(X 0 + X 1)] : Fin 2 → MvPolynomial (Fin 2) ℝ) k).totalDegree ≤ 1) ∧
    ∑ k, pderiv k ((![X 0 + X 1, -(X 0 + X 1)] : Fin 2 → MvPolynomial (Fin 2) ℝ) k) = 0 ∧
    ConformingTo env 2 1 (polyField ![X 0 + X 1, -(X 0 + X 1)]) K [halfSquare 1 0, halfSquare (-1) 1] I β ∧ I.card = 2 := by
  obtain ⟨K, h1, h2, h3⟩ := two_halves env (X 0 + X 1)
  have hd : (X 0 + X 1 : MvPolynomial (Fin 2) ℝ).totalDegree ≤ 1 := (totalDegree_add _ _).trans (by simp)
  refine ⟨K, _, _, fun k => ?_, ?_, h3, by decide⟩
  · fin_cases k
    · exact hd
    · change (-(X 0 + X 1 : MvPolynomial (Fin 2) ℝ)).totalDegree ≤ 1
      rw [totalDegree_neg]; exact hd
  · simp [Fin.sum_univ_two, pderiv_X]

/-- the area of one triangle -/
example (env : Env ℝ) : ∃ K, Simplices 2 [halfSquare 1 0] ∧
    ConformingTo env 2 1 (polyField fun i => if i = (1 : Fin 2) then X 1 else 0) K [halfSquare 1 0] ∅ (fun x => x) := by
  obtain ⟨-, -, h, -⟩ := two_halves env 0
  have hm : ∀ g ∈ [halfSquare 1 0], g ∈ [halfSquare 1 0, halfSquare (-1) 1] := fun g hg => by
    rw [List.mem_singleton] at hg; rw [hg]; exact List.mem_cons_self
  exact ⟨0, ⟨fun g hg => h.legal g (hm g hg), fun g hg => h.dim g (hm g hg), fun g hg => h.world g (hm g hg), fun g hg => h.id g (hm g hg),
    fun g hg => h.tol g (hm g hg), fun g hg => h.regular g (hm g hg)⟩, by constructor <;> simp⟩

end Verif.Balance
