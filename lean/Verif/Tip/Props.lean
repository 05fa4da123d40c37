import Verif.Tip.Lemmas

/-! Property theorems: the Jacobian of affine elements on the closed element (C119). -/

namespace Verif.Tip

open Verif.Typ Verif.RefTopo Verif.RefGeom Verif.MatHelp Verif.MultiLinear Verif.Hull Verif.Neighbour
open Finset hiding ext
open scoped Matrix

/-! ### Specification -/

/-- wherever the element is a cone, the point is either more than `tol` away from the tip (relative to the section through the
point) or the tip itself -/
def TipsOk (tol : ℝ) : Nat → Nat → Vec ℝ → Prop
  | 0, _, _ => True
  | d + 1, id, x =>
    if d = 0 ∨ id.testBit d = true then TipsOk tol d (id % 2 ^ d) x
    else (tol < 1 - x d ∧ TipsOk tol d (id % 2 ^ d) (fun r => x r / (1 - x d))) ∨ (x d = 1 ∧ ∀ r, r < d → x r = 0)

/-- the property: if the corners are an affine image of the reference corners (always so for simplices), the Jacobian and the
integration element are those of the affine map at every point of the closed element -/
def C119_closed_full : Prop :=
  ∀ (g : MultiLinearGeometry), Legal g → ∀ (a : Vec ℝ) (M : Mat ℝ), ImageOf g a M → ∀ x ∈ domain ℝ g.mydim g.id,
    (∀ k, g.mydim ≤ k → x k = 0) →
    (∀ j r, j < g.cdim → r < g.mydim → g.jacobian x j r = M j r) ∧
    (LinearIndependent ℝ (mat g.cdim g.mydim M)ᵀ.row →
      g.integrationElement x = some (Real.sqrt ((mat g.cdim g.mydim M)ᵀ * mat g.cdim g.mydim M).det))

/-! ### Theorems -/

theorem ok_of_tipsOk {tol : ℝ} : ∀ (d id : Nat) (x : Vec ℝ), TipsOk tol d id x → Ok tol (topoOf d id) x
  | 0, _, _, _ => trivial
  | d + 1, id, x, h => by
    rw [TipsOk] at h
    rw [topoOf]
    split
    · rename_i hb
      rw [if_pos hb] at h
      exact ok_of_tipsOk d _ x h
    · rename_i hb
      rw [if_neg hb] at h
      have hd : (topoOf d (id % 2 ^ d)).dim = d := (rep_topoOf d _).dim_eq
      rw [Ok, hd]
      exact h.imp (fun h => ⟨Or.inl h.1, ok_of_tipsOk d _ _ h.2⟩) fun h => h

theorem tipsOk_congr {tol : ℝ} : ∀ (d id : Nat) {x y : Vec ℝ}, (∀ r, r < d → x r = y r) → TipsOk tol d id x → TipsOk tol d id y
  | 0, _, _, _, _, _ => trivial
  | d + 1, id, x, y, h, hx => by
    rw [TipsOk] at hx ⊢
    split
    · rename_i hb
      rw [if_pos hb] at hx
      exact tipsOk_congr d _ (fun r hr => h r (by omega)) hx
    · rename_i hb
      rw [if_neg hb, h d (by omega)] at hx
      refine hx.imp (fun ⟨h1, h2⟩ => ⟨h1, tipsOk_congr d _ (fun r hr => ?_) h2⟩) fun ⟨h1, h2⟩ => ⟨h1, fun r hr => ?_⟩
      · rw [h r (by omega)]
      · rw [← h r (by omega)]; exact h2 r hr

theorem tipsOk_corners {tol : ℝ} (h1 : tol < 1) : ∀ (d id : Nat) (p : Vec ℝ), p ∈ cornersOf (topoOf d id) → TipsOk tol d id p
  | 0, _, _, _ => trivial
  | d + 1, id, p, h => by
    have hd : (topoOf d (id % 2 ^ d)).dim = d := (rep_topoOf d _).dim_eq
    rw [TipsOk]
    rw [topoOf] at h
    split
    · rename_i hb
      rw [if_pos hb, cornersOf_prism, List.mem_append, List.mem_map] at h
      rcases h with h | ⟨q, hq, rfl⟩
      · exact tipsOk_corners h1 d _ p h
      · exact tipsOk_congr d _ (fun r hr => by rw [setV_ne _ (by omega)]) (tipsOk_corners h1 d _ q hq)
    · rename_i hb
      rw [if_neg hb, cornersOf_pyr, List.mem_append, List.mem_singleton] at h
      rcases h with h | rfl
      · left
        have e : p d = 0 := cornersOf_zero h (le_of_eq hd)
        refine ⟨by rw [e, sub_zero]; exact h1, tipsOk_congr d _ (fun r _ => ?_) (tipsOk_corners h1 d _ p h)⟩
        rw [e, sub_zero, div_one]
      · right
        rw [hd]
        exact ⟨setV_same _ _ _, fun r hr => by rw [setV_ne _ (by omega)]⟩

theorem integrationElement_of_jacobian (g : MultiLinearGeometry) (M : Mat ℝ) (x : Vec ℝ)
    (hJ : ∀ j r, j < g.cdim → r < g.mydim → g.jacobian x j r = M j r)
    (hM : LinearIndependent ℝ (mat g.cdim g.mydim M)ᵀ.row) :
    g.integrationElement x = some (Real.sqrt ((mat g.cdim g.mydim M)ᵀ * mat g.cdim g.mydim M).det) := by
  have e : mat g.mydim g.cdim (g.jacobianTransposed x) = (mat g.cdim g.mydim M)ᵀ := by
    ext r j
    exact hJ j r j.2 r.2
  rw [MultiLinearGeometry.integrationElement, C27_sqrtDetAAT_partial _ _ _ (Or.inl (by rw [e]; exact hM)), e, Matrix.transpose_transpose]

/-- C119, what holds: at all points that are not closer than the tolerance to a tip without being the tip, `global`, the Jacobian
and the integration element are those of the affine map. -/
theorem C119_closed_partial (g : MultiLinearGeometry) (hg : Legal g) (a : Vec ℝ) (M : Mat ℝ) (h : ImageOf g a M) (x : Vec ℝ)
    (hx : TipsOk g.tol g.mydim g.id x) :
    (∀ j, j < g.cdim → g.global x j = a j + ∑ r ∈ range g.mydim, M j r * x r) ∧
    (∀ j r, j < g.cdim → r < g.mydim → g.jacobian x j r = M j r) ∧
    (LinearIndependent ℝ (mat g.cdim g.mydim M)ᵀ.row →
      g.integrationElement x = some (Real.sqrt ((mat g.cdim g.mydim M)ᵀ * mat g.cdim g.mydim M).det)) := by
  have hok := ok_of_tipsOk _ _ _ hx
  have hJ : ∀ j r, j < g.cdim → r < g.mydim → g.jacobian x j r = M j r := fun j r hj hr => by
    rw [MultiLinearGeometry.jacobian, jt_eq g hg.id_lt _ _ _ hr]
    exact MLd_ok hg.tol_pos.le hg.tol_lt _ _ _ _ x (exact_of_imageOf h j hj) hok r (by rw [topo_dim]; exact hr)
  refine ⟨fun j hj => ?_, hJ, integrationElement_of_jacobian g M x hJ⟩
  rw [global_eq g hg.id_lt, ML_ok hg.tol_pos.le _ _ _ _ x (exact_of_imageOf h j hj) hok, topo_dim]

/-- a tetrahedron with edges along the axes -/
noncomputable def sampleTet : MultiLinearGeometry where
  mydim := 3
  cdim := 3
  id := 0
  corners_ := fun k j => 5 + if k = j + 1 then 2 else 0
  tol := 1 / 1000

example : Legal sampleTet ∧ ImageOf sampleTet (sampleTet.corners_ 0) (fun j r => sampleTet.corners_ (r + 1) j - sampleTet.corners_ 0 j) ∧
    TipsOk sampleTet.tol sampleTet.mydim sampleTet.id (fun k => if k = 2 then 1 else 0) ∧
    TipsOk sampleTet.tol sampleTet.mydim sampleTet.id (fun k => if k = 1 ∨ k = 2 then 1 / 2 else 0) ∧
    LinearIndependent ℝ (mat sampleTet.cdim sampleTet.mydim fun j r => sampleTet.corners_ (r + 1) j - sampleTet.corners_ 0 j)ᵀ.row := by
  refine ⟨by constructor <;> norm_num [sampleTet], imageOf_simplex _ fun k _ _ => by simp [sampleTet], ?_, ?_, ?_⟩
  · change TipsOk (1 / 1000) 3 0 _
    rw [TipsOk, if_neg (by decide)]
    right
    exact ⟨by simp, fun r hr => by rw [if_neg (by omega)]⟩
  · change TipsOk (1 / 1000) 3 0 _
    rw [TipsOk, if_neg (by decide)]
    left
    refine ⟨by norm_num, ?_⟩
    rw [TipsOk, if_neg (by decide)]
    right
    exact ⟨by norm_num, fun r hr => by rw [if_neg (by omega)]; simp⟩
  · change LinearIndependent ℝ (mat 3 3 fun j r => sampleTet.corners_ (r + 1) j - sampleTet.corners_ 0 j)ᵀ
    refine Matrix.linearIndependent_rows_of_det_ne_zero ?_
    rw [Matrix.det_transpose, Matrix.det_fin_three]
    norm_num [mat, sampleTet]

/-- C119: in particular at all corners of the reference element. -/
theorem C119_corners (g : MultiLinearGeometry) (hg : Legal g) (a : Vec ℝ) (M : Mat ℝ) (h : ImageOf g a M) (p : Vec ℝ)
    (hp : p ∈ referenceCorners (K := ℝ) g.mydim g.id) :
    (∀ j r, j < g.cdim → r < g.mydim → g.jacobian p j r = M j r) ∧
    (LinearIndependent ℝ (mat g.cdim g.mydim M)ᵀ.row →
      g.integrationElement p = some (Real.sqrt ((mat g.cdim g.mydim M)ᵀ * mat g.cdim g.mydim M).det)) := by
  rw [cornersOf_eq (rep_topoOf _ _)] at hp
  exact (C119_closed_partial g hg a M h p (tipsOk_corners hg.tol_lt _ _ p hp)).2

example : (fun k => if k = 0 then 0 else if k = 1 then 1 else 0) ∈ referenceCorners (K := ℝ) sampleTet.mydim sampleTet.id := by
  have : referenceCorners (K := ℝ) sampleTet.mydim sampleTet.id = _ := C17_simplex 3 0 fun k _ _ => by simp
  rw [this]
  simp only [List.mem_cons]
  right
  rw [List.mem_map]
  exact ⟨1, by simp, by funext k; grind⟩

/-- C119: for elements that are cones over cubes (triangles, pyramids with a parallelogram as base, …) the Jacobian is the right one
at every point, however close to the tip. -/
theorem C119_cone (g : MultiLinearGeometry) (hg : Legal g) (d : Nat) (hd : g.mydim = d + 1) (hc : IsCubeId d (g.id % 2 ^ d))
    (a : Vec ℝ) (M : Mat ℝ) (h : ImageOf g a M) (x : Vec ℝ) :
    (∀ j r, j < g.cdim → r < g.mydim → g.jacobian x j r = M j r) ∧
    (LinearIndependent ℝ (mat g.cdim g.mydim M)ᵀ.row →
      g.integrationElement x = some (Real.sqrt ((mat g.cdim g.mydim M)ᵀ * mat g.cdim g.mydim M).det)) := by
  have hJ : ∀ j r, j < g.cdim → r < g.mydim → g.jacobian x j r = M j r := fun j r hj hr => by
    have hE := exact_of_imageOf h j hj
    rw [MultiLinearGeometry.jacobian, jt_eq g hg.id_lt _ _ _ hr]
    rw [hd] at hE ⊢
    rw [hd] at hr
    rw [topoOf, topoOf_cube _ _ hc] at hE ⊢
    split at hE
    · rename_i hb
      rw [if_pos hb]
      exact MLd_exact hg.tol_pos.le _ _ _ _ x hE (away_cube (d + 1) x) r (by rw [Topo.dim, dim_cube]; exact hr)
    · rename_i hb
      rw [if_neg hb]
      by_cases hf : far g.tol (1 - x (Topo.cube d).dim)
      · exact MLd_exact hg.tol_pos.le _ _ _ _ x hE ⟨hf, away_cube d _⟩ r (by rw [Topo.dim, dim_cube]; exact hr)
      · exact MLd_near hg.tol_pos.le hg.tol_lt hE hf r (by rw [dim_cube]; exact hr)
  exact ⟨hJ, integrationElement_of_jacobian g M x hJ⟩

example : Legal samplePyramid ∧ samplePyramid.mydim = 2 + 1 ∧ IsCubeId 2 (samplePyramid.id % 2 ^ 2) := by
  refine ⟨samplePyramid_legal, rfl, fun k h1 h2 => ?_⟩
  obtain rfl : k = 1 := by omega
  decide

/-- a point of a tetrahedron within the tolerance of the edge between the corners 2 and 3 -/
def edgePoint (tol : ℝ) : Vec ℝ := fun k => if k = 1 then 1 - tol else 0

/-- C119: at the remaining points of the closed element the error is at most the tolerance times the largest corner coordinate,
times a constant that depends on the dimension only (2, 4, 10 in dimension 1, 2, 3). -/
theorem C119_error (g : MultiLinearGeometry) (hg : Legal g) (a : Vec ℝ) (M : Mat ℝ) (h : ImageOf g a M) (C : ℝ)
    (hC : ∀ k j, k < g.corners → j < g.cdim → |g.corners_ k j| ≤ C) (x : Vec ℝ) (hx : x ∈ domain ℝ g.mydim g.id)
    (hx0 : ∀ k, g.mydim ≤ k → x k = 0) (j r : Nat) (hj : j < g.cdim) (hr : r < g.mydim) :
    |g.jacobian x j r - M j r| ≤ errC g.mydim * (g.tol * C) := by
  have hsz : g.corners = nv (topoOf g.mydim g.id) := by
    rw [MultiLinearGeometry.corners, refSize, size_eq (rep_topoOf _ _) _ (le_refl _), nv, topo_dim]
  have hdom := (mem_domain (rep_topoOf _ _) x hx0).1 hx
  have hC0 : 0 ≤ C := by
    refine (abs_nonneg _).trans (hC 0 j ?_ hj)
    rw [hsz]; exact Topo.sz_pos _ _ (le_refl _)
  have := MLd_error hg.tol_pos.le hg.tol_lt _ (fun k => g.corners_ k j) (a j) C (fun r => M j r) x (exact_of_imageOf h j hj)
    (fun k hk => hC k j (by rw [hsz]; exact hk) hj) hC0 hdom r (by rw [topo_dim]; exact hr)
  rw [topo_dim] at this
  rwa [MultiLinearGeometry.jacobian, jt_eq g hg.id_lt _ _ _ hr]

example : edgePoint (1 / 1000) ∈ domain ℝ sampleTet.mydim sampleTet.id ∧ (∀ k, sampleTet.mydim ≤ k → edgePoint (1 / 1000) k = 0) ∧
    ∀ k j, k < sampleTet.corners → j < sampleTet.cdim → |sampleTet.corners_ k j| ≤ 7 := by
  have hT : topoOf 3 0 = .pyr (.pyr (.prism .pt)) := by decide
  have h0 : ∀ k, 3 ≤ k → edgePoint (1 / 1000) k = 0 := fun k hk => by simp only [edgePoint]; rw [if_neg (by omega)]
  refine ⟨?_, h0, fun k j _ _ => ?_⟩
  · change _ ∈ domain ℝ 3 0
    rw [mem_domain (rep_topoOf 3 0) _ h0, hT]
    refine ⟨?_, ?_, ?_, ?_, ?_, ?_, trivial⟩ <;> simp [edgePoint, Topo.dim] <;> norm_num
  · simp only [sampleTet]
    split_ifs <;> norm_num

theorem errC_values : errC 1 = 2 ∧ errC 2 = 4 ∧ errC 3 = 10 := by norm_num [errC]

/-! ### Counterexample -/

/-- the unit tetrahedron, moved by `1 / tol` along the last axis -/
noncomputable def shiftedTet (tol : ℝ) : MultiLinearGeometry where
  mydim := 3
  cdim := 3
  id := 0
  corners_ := fun k j => (if k = j + 1 then 1 else 0) + if j = 2 then 1 / tol else 0
  tol := tol

/-- C119: the code disagrees.  For every tolerance the integration element of the unit tetrahedron, moved by `1 / tol`, is 2 instead
of 1 at a point of the closed element. -/
theorem C119_closed_counterexample : ¬ C119_closed_full ∧ ∀ tol : ℝ, 0 < tol → tol < 1 →
    Legal (shiftedTet tol) ∧ edgePoint tol ∈ domain ℝ 3 0 ∧
    (shiftedTet tol).integrationElement (edgePoint tol) = some 2 ∧
    (shiftedTet tol).integrationElement (fun _ => 0) = some 1 := by
  have hT : topoOf 3 0 = .pyr (.pyr (.prism .pt)) := by decide
  have hn1 : nv .pt = 1 := rfl
  have hn2 : nv (.prism .pt) = 2 := rfl
  have hn3 : nv (.pyr (.prism .pt)) = 3 := rfl
  have hL : ∀ tol : ℝ, 0 < tol → tol < 1 → Legal (shiftedTet tol) := fun tol h0 h1 =>
    ⟨by change 0 < 2 ^ 3; norm_num, h0, h1⟩
  have hdom : ∀ tol : ℝ, 0 < tol → tol < 1 → edgePoint tol ∈ domain ℝ 3 0 := by
    intro tol h0 h1
    rw [mem_domain (rep_topoOf 3 0) _ (fun k hk => by simp only [edgePoint]; rw [if_neg (by omega)]), hT]
    refine ⟨?_, ?_, ?_, ?_, ?_, ?_, trivial⟩ <;> simp [edgePoint, Topo.dim] <;> linarith
  have hjt : ∀ tol : ℝ, 0 < tol → tol < 1 → ∀ r j, r < 3 → j < 3 →
      (shiftedTet tol).jacobianTransposed (edgePoint tol) r j = if r = j then (if j = 2 then 2 else 1) else 0 := by
    intro tol h0 h1 r j hr hj
    have hf : far tol 1 := far_one h1
    have hn : ¬ far tol tol := by rintro (h | h) <;> linarith
    have hne : tol ≠ 0 := h0.ne'
    rw [jt_eq _ (hL tol h0 h1).id_lt _ _ _ hr]
    change MLd tol (topoOf 3 0) _ _ _ = _
    rw [hT]
    interval_cases r <;> interval_cases j <;>
      simp [MLd, ML, scale, Topo.dim, hn1, hn2, hn3, edgePoint, shiftedTet, hf, hn, sum_range_succ] <;> (try field_simp) <;> ring
  have h0J : ∀ tol : ℝ, 0 < tol → tol < 1 → ∀ r j, r < 3 → j < 3 →
      (shiftedTet tol).jacobianTransposed (fun _ => 0) r j = if r = j then 1 else 0 := by
    intro tol h0 h1 r j hr hj
    have hf : far tol 1 := far_one h1
    rw [jt_eq _ (hL tol h0 h1).id_lt _ _ _ hr]
    change MLd tol (topoOf 3 0) _ _ _ = _
    rw [hT]
    interval_cases r <;> interval_cases j <;>
      simp [MLd, ML, scale, Topo.dim, hn1, hn2, hn3, shiftedTet, hf]
  have key : ∀ tol : ℝ, 0 < tol → tol < 1 → (shiftedTet tol).integrationElement (edgePoint tol) = some 2 ∧
      (shiftedTet tol).integrationElement (fun _ => 0) = some 1 := by
    intro tol h0 h1
    constructor
    · change sqrtDetAAT 3 3 _ = _
      simp [sqrtDetAAT, hjt tol h0 h1]
    · change sqrtDetAAT 3 3 _ = _
      simp [sqrtDetAAT, h0J tol h0 h1]
  refine ⟨fun hfull => ?_, fun tol h0 h1 => ⟨hL tol h0 h1, hdom tol h0 h1, key tol h0 h1⟩⟩
  have hl := hL (1 / 2) (by norm_num) (by norm_num)
  have := (hfull _ hl _ _ (imageOf_simplex _ fun k _ _ => by simp [shiftedTet]) _
    (hdom (1 / 2) (by norm_num) (by norm_num)) (fun k hk => by
      have : 3 ≤ k := hk
      simp only [edgePoint]; rw [if_neg (by omega)])).1 2 2 (by decide) (by decide)
  rw [MultiLinearGeometry.jacobian, hjt _ (by norm_num) (by norm_num) 2 2 (by norm_num) (by norm_num)] at this
  norm_num [shiftedTet] at this

end Verif.Tip
