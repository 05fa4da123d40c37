import Verif.RefGeom.Lemmas
import Mathlib.LinearAlgebra.Matrix.Block

/-! Integration outer normals of the facets. -/

namespace Verif.RefGeom

open Verif.Typ Verif.RefTopo Finset

set_option linter.unusedSectionVars false

section algebra

variable {K : Type} [Field K]

theorem dot_succ (n : Nat) (v w : Vec K) : dot (n + 1) v w = dot n v w + v n * w n := by
  simp only [dot, sum_range_succ]

theorem dot_setV (n : Nat) (v w : Vec K) (a : K) : dot (n + 1) (setV v n a) w = dot n v w + a * w n := by
  rw [dot_succ, setV_same]
  congr 1
  exact sum_congr rfl fun k hk => by rw [setV_ne _ (by have := mem_range.1 hk; omega)]

theorem dot_zero_left (n : Nat) (w : Vec K) : dot n (fun _ => (0 : K)) w = 0 := by simp [dot]

theorem dot_unit (n : Nat) (w : Vec K) (a : K) : dot (n + 1) (setV (fun _ => 0) n a) w = a * w n := by
  rw [dot_setV, dot_zero_left, zero_add]

theorem dot_congr_right {n : Nat} (v : Vec K) {w w' : Vec K} (h : ∀ k, k < n → w k = w' k) :
    dot n v w = dot n v w' := sum_congr rfl fun k hk => by rw [h k (mem_range.1 hk)]

theorem dot_add_right (n : Nat) (v w w' : Vec K) : dot n v (fun k => w k + w' k) = dot n v w + dot n v w' := by
  simp only [dot, mul_add, sum_add_distrib]

theorem dot_smul_right (n : Nat) (v w : Vec K) (a : K) : dot n v (fun k => a * w k) = a * dot n v w := by
  simp only [dot, mul_sum]
  exact sum_congr rfl fun k _ => by ring

/-- the normal is orthogonal to the rows of the Jacobian -/
theorem nrm_orthogonal : ∀ {t : Topo} (f : Face t), f.codim = 1 → ∀ r, r < f.shape.dim →
    dot t.dim (nrm (K := K) f) (jac f r) = 0
  | _, .pt, h, _, _ => by simp [Face.codim] at h
  | .prism t, .edge f, h, r, hr => by
    have hfc : f.codim = 1 := h
    simp only [Face.shape, Topo.dim] at hr
    simp only [Topo.dim, nrm, jac]
    rw [dot_succ, nrm_zero f _ (le_refl _), zero_mul, add_zero]
    by_cases he : r = f.shape.dim
    · apply sum_eq_zero
      intro k hk
      have := mem_range.1 hk
      simp only [setM]
      rw [if_neg (by omega), jac_zero f r k (Or.inl (by omega)), mul_zero]
    · have ih := nrm_orthogonal f hfc r (by omega)
      rw [← ih]
      refine dot_congr_right _ fun k hk => ?_
      simp only [setM]; rw [if_neg (by omega)]
  | .prism t, .bot f, h, r, hr => by
    simp only [Topo.dim, nrm, jac]
    rw [dot_unit, jac_zero f r _ (Or.inr (le_refl _)), mul_zero]
  | .prism t, .top f, h, r, hr => by
    simp only [Topo.dim, nrm, jac]
    rw [dot_unit, jac_zero f r _ (Or.inr (le_refl _)), mul_zero]
  | .pyr t, .base f, h, r, hr => by
    simp only [Topo.dim, nrm, jac]
    rw [dot_unit, jac_zero f r _ (Or.inr (le_refl _)), mul_zero]
  | .pyr t, .cone f, h, r, hr => by
    have hfc : f.codim = 1 := h
    simp only [Face.shape, Topo.dim] at hr
    simp only [Topo.dim, nrm, jac]
    rw [dot_setV]
    by_cases he : r = f.shape.dim
    · subst he
      rw [setM_same, mul_one]
      have : dot t.dim (nrm (K := K) f)
          (setM (fun i j => if i = f.shape.dim ∧ j < t.dim then -orig f j else jac f i j) f.shape.dim t.dim 1
            f.shape.dim) = dot t.dim (nrm f) (fun k => (-1) * orig f k) := by
        refine dot_congr_right _ fun k hk => ?_
        simp only [setM]
        rw [if_neg (by omega)]; simp [hk]
      rw [this, dot_smul_right]; ring
    · have ih := nrm_orthogonal f hfc r (by omega)
      have : dot t.dim (nrm (K := K) f)
          (setM (fun i j => if i = f.shape.dim ∧ j < t.dim then -orig f j else jac f i j) f.shape.dim t.dim 1
            r) = dot t.dim (nrm f) (jac f r) := by
        refine dot_congr_right _ fun k hk => ?_
        simp only [setM]
        rw [if_neg (by omega), if_neg (by omega)]
      rw [this, ih]
      simp only [setM]
      rw [if_neg (by omega), if_neg (by omega), jac_zero f r _ (Or.inr (le_refl _))]; ring
  | .pyr t, .apex, h, r, hr => by simp [Face.shape, Topo.dim] at hr

/-- determinant of the matrix with the rows of `J` and the last row `v` -/
def detJ (n : Nat) (J : Mat K) (v : Vec K) : K :=
  Matrix.det (Matrix.of fun (r c : Fin n) => if r.1 + 1 < n then J r.1 c.1 else v c.1)

theorem detJ_congr {n : Nat} {J J' : Mat K} {v v' : Vec K}
    (hJ : ∀ r c, r + 1 < n → c < n → J r c = J' r c) (hv : ∀ c, c < n → v c = v' c) :
    detJ n J v = detJ n J' v' := by
  unfold detJ
  congr 1
  ext r c
  simp only [Matrix.of_apply]
  split
  · rw [hJ _ _ (by assumption) c.2]
  · rw [hv _ c.2]

/-- expansion along the last column -/
theorem detJ_step (m : Nat) (J : Mat K) (u v : Vec K) (J' : Mat K)
    (h1 : ∀ r c, r < m → c < m + 1 → J' r c = J r c) (h2 : ∀ r, r < m → J' r (m + 1) = 0)
    (h3 : ∀ c, c < m + 1 → J' m c = u c) (h4 : J' m (m + 1) = 1) :
    detJ (m + 2) J' v = - detJ (m + 1) J v + v (m + 1) * detJ (m + 1) J u := by
  unfold detJ
  rw [Matrix.det_succ_column _ (Fin.last (m + 1)), Fin.sum_univ_castSucc, Fin.sum_univ_castSucc,
    Finset.sum_eq_zero, zero_add]
  · congr 1
    · have hA : (Matrix.of fun (r c : Fin (m + 2)) => if r.1 + 1 < m + 2 then J' r.1 c.1 else v c.1)
          (Fin.castSucc (Fin.last m)) (Fin.last (m + 1)) = 1 := by
        simp [h4]
      rw [hA]
      have hS : (Matrix.of fun (r c : Fin (m + 2)) => if r.1 + 1 < m + 2 then J' r.1 c.1 else v c.1).submatrix
          (Fin.castSucc (Fin.last m)).succAbove (Fin.last (m + 1)).succAbove =
          Matrix.of fun (r c : Fin (m + 1)) => if r.1 + 1 < m + 1 then J r.1 c.1 else v c.1 := by
        ext r c
        simp only [Matrix.submatrix_apply, Matrix.of_apply, Fin.succAbove_last]
        rcases Nat.lt_or_ge r.1 m with hr | hr
        · have : (Fin.castSucc (Fin.last m)).succAbove r = Fin.castSucc r := by
            apply Fin.succAbove_of_castSucc_lt; simpa [Fin.lt_def] using hr
          rw [this]
          simp only [Fin.val_castSucc]
          rw [if_pos (by omega), if_pos (by omega), h1 _ _ hr c.2]
        · have : (Fin.castSucc (Fin.last m)).succAbove r = r.succ := by
            apply Fin.succAbove_of_le_castSucc; simpa [Fin.le_def] using hr
          rw [this]
          simp only [Fin.val_succ, Fin.val_castSucc]
          rw [if_neg (by omega), if_neg (by omega)]
      rw [hS]
      have hs : ((-1 : K)) ^ ((Fin.castSucc (Fin.last m) : Fin (m + 2)).1 + (Fin.last (m + 1)).1) = -1 := by
        simp only [Fin.val_castSucc, Fin.val_last]
        rw [show m + (m + 1) = 2 * m + 1 by ring, pow_succ, pow_mul]; simp
      rw [hs]; ring
    · have hA : (Matrix.of fun (r c : Fin (m + 2)) => if r.1 + 1 < m + 2 then J' r.1 c.1 else v c.1)
          (Fin.last (m + 1)) (Fin.last (m + 1)) = v (m + 1) := by
        simp
      rw [hA]
      have hS : (Matrix.of fun (r c : Fin (m + 2)) => if r.1 + 1 < m + 2 then J' r.1 c.1 else v c.1).submatrix
          (Fin.last (m + 1)).succAbove (Fin.last (m + 1)).succAbove =
          Matrix.of fun (r c : Fin (m + 1)) => if r.1 + 1 < m + 1 then J r.1 c.1 else u c.1 := by
        ext r c
        simp only [Matrix.submatrix_apply, Matrix.of_apply, Fin.succAbove_last, Fin.val_castSucc]
        rw [if_pos (by omega)]
        rcases Nat.lt_or_ge r.1 m with hr | hr
        · rw [if_pos (by omega), h1 _ _ hr c.2]
        · have : r.1 = m := by omega
          rw [if_neg (by omega), this, h3 _ c.2]
      rw [hS]
      have hs : ((-1 : K)) ^ ((Fin.last (m + 1)).1 + (Fin.last (m + 1)).1) = 1 := by
        rw [← two_mul, pow_mul]; simp
      rw [hs]; ring
  · intro r _
    have : (Matrix.of fun (r c : Fin (m + 2)) => if r.1 + 1 < m + 2 then J' r.1 c.1 else v c.1)
        (Fin.castSucc (Fin.castSucc r)) (Fin.last (m + 1)) = 0 := by
      have := r.2
      simp only [Matrix.of_apply, Fin.val_castSucc, Fin.val_last]
      rw [if_pos (by omega), h2 _ r.2]
    rw [this]; ring

/-- identity rows: only the last entry of `v` matters -/
theorem detJ_id (n : Nat) (v : Vec K) :
    detJ (n + 1) (fun r c => if r = c ∧ r < n then 1 else 0) v = v n := by
  unfold detJ
  rw [Matrix.det_of_isLowerTriangular]
  · rw [Fin.prod_univ_castSucc]
    simp only [Matrix.of_apply, Fin.val_castSucc, Fin.val_last]
    rw [Finset.prod_eq_one, one_mul, if_neg (by omega)]
    intro i _
    rw [if_pos (by omega)]; simp
  · intro i j hij
    have hlt : i.1 < j.1 := hij
    simp only [Matrix.of_apply]
    rw [if_pos (by omega), if_neg (by omega)]

/-- generalised cross product: the normal represents the linear form `v ↦ ± det (jacobian rows, v)` -/
theorem nrm_cofactor : ∀ {t : Topo} (f : Face t), f.codim = 1 →
    ∃ s : K, s * s = 1 ∧ ∀ v : Vec K, detJ t.dim (jac f) v = s * dot t.dim (nrm f) v
  | _, .pt, h => by simp [Face.codim] at h
  | .prism t, .edge f, h => by
    have hfc : f.codim = 1 := h
    have hfd := Face.codim_add_dim f
    obtain ⟨s, hs, hv⟩ := nrm_cofactor f hfc
    obtain ⟨m, hm⟩ : ∃ m, t.dim = m + 1 := ⟨f.shape.dim, by omega⟩
    have hsm : f.shape.dim = m := by omega
    refine ⟨-s, by linear_combination hs, fun v => ?_⟩
    have := detJ_step m (jac (K := K) f) (fun _ => 0) v (jac (Face.edge f))
      (fun r c hr hc => by simp only [jac, setM]; rw [if_neg (by omega)])
      (fun r hr => by simp only [jac, setM]; rw [if_neg (by omega), jac_zero f r _ (Or.inr (by omega))])
      (fun c hc => by simp only [jac, setM]; rw [if_neg (by omega), jac_zero f m c (Or.inl (by omega))])
      (by simp only [jac, setM]; rw [if_pos (by omega)])
    have e0 : detJ (m + 1) (jac (K := K) f) (fun _ => 0) = 0 := by
      rw [← hm, hv]; simp [dot]
    rw [e0, mul_zero, add_zero] at this
    have hvv := hv v
    simp only [Topo.dim, nrm]
    rw [hm] at hvv ⊢
    rw [this, hvv, dot_succ (m + 1), nrm_zero f (m + 1) (by omega)]; ring
  | .prism t, .bot f, h => by
    have hfc : f.codim = 0 := by simpa [Face.codim] using h
    refine ⟨-1, by ring, fun v => ?_⟩
    have hw := Face.eq_whole f hfc
    subst hw
    simp only [jac, nrm, Topo.dim]
    rw [jac_whole, detJ_id, dot_unit]; ring
  | .prism t, .top f, h => by
    have hfc : f.codim = 0 := by simpa [Face.codim] using h
    refine ⟨1, by ring, fun v => ?_⟩
    have hw := Face.eq_whole f hfc
    subst hw
    simp only [jac, nrm, Topo.dim]
    rw [jac_whole, detJ_id, dot_unit]; ring
  | .pyr t, .base f, h => by
    have hfc : f.codim = 0 := by simpa [Face.codim] using h
    refine ⟨-1, by ring, fun v => ?_⟩
    have hw := Face.eq_whole f hfc
    subst hw
    simp only [jac, nrm, Topo.dim]
    rw [jac_whole, detJ_id, dot_unit]; ring
  | .pyr t, .cone f, h => by
    have hfc : f.codim = 1 := h
    have hfd := Face.codim_add_dim f
    obtain ⟨s, hs, hv⟩ := nrm_cofactor f hfc
    obtain ⟨m, hm⟩ : ∃ m, t.dim = m + 1 := ⟨f.shape.dim, by omega⟩
    have hsm : f.shape.dim = m := by omega
    refine ⟨-s, by linear_combination hs, fun v => ?_⟩
    have := detJ_step m (jac (K := K) f) (fun c => (-1) * orig f c) v (jac (Face.cone f))
      (fun r c hr hc => by simp only [jac, setM]; rw [if_neg (by omega), if_neg (by omega)])
      (fun r hr => by
        simp only [jac, setM]; rw [if_neg (by omega), if_neg (by omega), jac_zero f r _ (Or.inr (by omega))])
      (fun c hc => by simp only [jac, setM]; rw [if_neg (by omega), if_pos (by omega)]; ring)
      (by simp only [jac, setM]; rw [if_pos (by omega)])
    have hv' := hv (fun c => (-1) * orig f c)
    rw [dot_smul_right] at hv'
    have hvv := hv v
    simp only [Topo.dim, nrm]
    rw [dot_setV]
    rw [hm] at hv' hvv ⊢
    rw [this, hvv, hv']; ring
  | .pyr t, .apex, h => by
    have ht : t.dim = 0 := by simpa [Face.codim] using h
    refine ⟨1, by ring, fun v => ?_⟩
    simp only [Topo.dim, nrm]
    rw [dot_unit, ht]
    have : detJ 1 (jac (K := K) (.apex : Face (.pyr t))) v = detJ 1 (fun r c => if r = c ∧ r < 0 then 1 else 0) v :=
      detJ_congr (fun r c hr _ => by omega) (fun _ _ => rfl)
    rw [this, detJ_id]; ring

/-- reference volume of a topology -/
def vol : Topo → K
  | .pt => 1
  | .prism t => vol t
  | .pyr t => vol t / ((t.dim : K) + 1)

theorem map_sum_zero {α : Type} (l : List α) (F : α → K) (h : ∀ a ∈ l, F a = 0) : (l.map F).sum = 0 := by
  rw [List.map_congr_left h]; simp

end algebra

section order

variable {K : Type} [Field K] [LinearOrder K] [IsStrictOrderedRing K]

theorem vol_pos : ∀ t : Topo, 0 < vol (K := K) t
  | .pt => zero_lt_one
  | .prism t => vol_pos t
  | .pyr t => div_pos (vol_pos t) (by positivity)

/-- the element lies on the inner side of every facet plane -/
theorem dom_dot_le : ∀ {t : Topo} (f : Face t), f.codim = 1 → ∀ (φ : K) (x : Vec K), Dom t φ x →
    dot t.dim (nrm f) x ≤ φ * dot t.dim (nrm f) (orig f)
  | _, .pt, h, _, _, _ => by simp [Face.codim] at h
  | .prism t, .edge f, h, φ, x, hd => by
    have ih := dom_dot_le f h φ x hd.2.2
    simp only [Topo.dim, nrm, orig]
    rw [dot_succ, dot_succ, nrm_zero f _ (le_refl _)]
    simpa using ih
  | .prism t, .bot f, h, φ, x, hd => by
    simp only [Topo.dim, nrm, orig]
    rw [dot_unit, dot_unit, orig_zero f _ (le_refl _)]
    linarith [hd.1]
  | .prism t, .top f, h, φ, x, hd => by
    simp only [Topo.dim, nrm, orig]
    rw [dot_unit, dot_unit, setV_same]
    linarith [hd.2.1]
  | .pyr t, .base f, h, φ, x, hd => by
    simp only [Topo.dim, nrm, orig]
    rw [dot_unit, dot_unit, orig_zero f _ (le_refl _)]
    linarith [hd.1]
  | .pyr t, .cone f, h, φ, x, hd => by
    have ih := dom_dot_le f h _ x hd.2.2
    simp only [Topo.dim, nrm, orig]
    rw [dot_setV, dot_setV, orig_zero f _ (le_refl _)]
    linarith
  | .pyr t, .apex, h, φ, x, hd => by
    simp only [Topo.dim, nrm, orig]
    rw [dot_unit, dot_unit, setV_same]
    linarith [hd.2.1]

/-- and the interior strictly so -/
theorem inside_dot_lt : ∀ {t : Topo} (f : Face t), f.codim = 1 → ∀ (φ : K) (x : Vec K), Inside 0 t φ x →
    dot t.dim (nrm f) x < φ * dot t.dim (nrm f) (orig f)
  | _, .pt, h, _, _, _ => by simp [Face.codim] at h
  | .prism t, .edge f, h, φ, x, hd => by
    have ih := inside_dot_lt f h φ x hd.2.2
    simp only [Topo.dim, nrm, orig]
    rw [dot_succ, dot_succ, nrm_zero f _ (le_refl _)]
    simpa using ih
  | .prism t, .bot f, h, φ, x, hd => by
    simp only [Topo.dim, nrm, orig]
    rw [dot_unit, dot_unit, orig_zero f _ (le_refl _)]
    linarith [hd.1]
  | .prism t, .top f, h, φ, x, hd => by
    simp only [Topo.dim, nrm, orig]
    rw [dot_unit, dot_unit, setV_same]
    linarith [hd.2.1]
  | .pyr t, .base f, h, φ, x, hd => by
    simp only [Topo.dim, nrm, orig]
    rw [dot_unit, dot_unit, orig_zero f _ (le_refl _)]
    linarith [hd.1]
  | .pyr t, .cone f, h, φ, x, hd => by
    have ih := inside_dot_lt f h _ x hd.2.2
    simp only [Topo.dim, nrm, orig]
    rw [dot_setV, dot_setV, orig_zero f _ (le_refl _)]
    linarith
  | .pyr t, .apex, h, φ, x, hd => by
    simp only [Topo.dim, nrm, orig]
    rw [dot_unit, dot_unit, setV_same]
    linarith [hd.2.1]

theorem eq_pt_of_dim : ∀ {t : Topo}, t.dim = 0 → t = .pt
  | .pt, _ => rfl
  | .prism _, h => by simp [Topo.dim] at h
  | .pyr _, h => by simp [Topo.dim] at h

/-- a vertex lies in the plane of a facet exactly if it is a vertex of the facet -/
theorem vertex_dot : ∀ {t : Topo} (f v : Face t), f.codim = 1 → v.IsVertex →
    (Face.le v f = true → dot t.dim (nrm (K := K) f) (orig v) = dot t.dim (nrm f) (orig f)) ∧
    (Face.le v f = false → dot t.dim (nrm (K := K) f) (orig v) < dot t.dim (nrm f) (orig f))
  | _, .pt, _, h, _ => by simp [Face.codim] at h
  | .prism t, .edge f, v, h, hv => by
    have key : ∀ w : Vec K, dot (t.dim + 1) (nrm f) w = dot t.dim (nrm f) w := by
      intro w; rw [dot_succ, nrm_zero f _ (le_refl _), zero_mul, add_zero]
    cases v with
    | edge v => exact absurd hv Face.not_isVertex_edge
    | bot v =>
      have ih := vertex_dot f v h (Face.isVertex_bot.1 hv)
      simp only [Topo.dim, nrm, orig]; rw [key, key]; exact ih
    | top v =>
      have ih := vertex_dot f v h (Face.isVertex_top.1 hv)
      simp only [Topo.dim, nrm, orig]; rw [key, key]
      have e : dot t.dim (nrm (K := K) f) (setV (orig v) t.dim 1) = dot t.dim (nrm f) (orig v) :=
        dot_congr_right _ fun k hk => setV_ne _ (by omega) _
      rw [e]; exact ih
  | .prism t, .bot f, v, h, hv => by
    have hfc : f.codim = 0 := by simpa [Face.codim] using h
    obtain rfl := Face.eq_whole f hfc
    simp only [Topo.dim, nrm]; rw [dot_unit, dot_unit]
    simp only [orig]
    rw [orig_zero (Face.whole t) _ (le_refl _)]
    cases v with
    | edge v => exact absurd hv Face.not_isVertex_edge
    | bot v =>
      simp only [orig]; rw [orig_zero v _ (le_refl _)]
      exact ⟨fun _ => rfl, fun hl => by simp [Face.le, Face.le_whole] at hl⟩
    | top v =>
      simp only [orig]; rw [setV_same]
      exact ⟨fun hl => by simp [Face.le] at hl, fun _ => by norm_num⟩
  | .prism t, .top f, v, h, hv => by
    have hfc : f.codim = 0 := by simpa [Face.codim] using h
    obtain rfl := Face.eq_whole f hfc
    simp only [Topo.dim, nrm]; rw [dot_unit, dot_unit]
    simp only [orig]
    rw [setV_same]
    cases v with
    | edge v => exact absurd hv Face.not_isVertex_edge
    | top v =>
      simp only [orig]; rw [setV_same]
      exact ⟨fun _ => rfl, fun hl => by simp [Face.le, Face.le_whole] at hl⟩
    | bot v =>
      simp only [orig]; rw [orig_zero v _ (le_refl _)]
      exact ⟨fun hl => by simp [Face.le] at hl, fun _ => by norm_num⟩
  | .pyr t, .base f, v, h, hv => by
    have hfc : f.codim = 0 := by simpa [Face.codim] using h
    obtain rfl := Face.eq_whole f hfc
    simp only [Topo.dim, nrm]; rw [dot_unit, dot_unit]
    simp only [orig]
    rw [orig_zero (Face.whole t) _ (le_refl _)]
    cases v with
    | cone v => exact absurd hv Face.not_isVertex_cone
    | base v =>
      simp only [orig]; rw [orig_zero v _ (le_refl _)]
      exact ⟨fun _ => rfl, fun hl => by simp [Face.le, Face.le_whole] at hl⟩
    | apex =>
      simp only [orig]; rw [setV_same]
      exact ⟨fun hl => by simp [Face.le] at hl, fun _ => by norm_num⟩
  | .pyr t, .cone f, v, h, hv => by
    simp only [Topo.dim, nrm]; rw [dot_setV, dot_setV]
    simp only [orig]
    rw [orig_zero f _ (le_refl _), mul_zero, add_zero]
    cases v with
    | cone v => exact absurd hv Face.not_isVertex_cone
    | base v =>
      have ih := vertex_dot f v h (Face.isVertex_base.1 hv)
      simp only [orig]; rw [orig_zero v _ (le_refl _), mul_zero, add_zero]
      exact ih
    | apex =>
      have e : dot t.dim (nrm (K := K) f) (setV (fun _ => 0) t.dim 1) = 0 := by
        apply sum_eq_zero; intro k hk; rw [setV_ne _ (by have := mem_range.1 hk; omega), mul_zero]
      simp only [orig]; rw [setV_same, e, zero_add, mul_one]
      exact ⟨fun _ => rfl, fun hl => by simp [Face.le] at hl⟩
  | .pyr t, .apex, v, h, hv => by
    have ht : t.dim = 0 := by simpa [Face.codim] using h
    obtain rfl := eq_pt_of_dim ht
    simp only [Topo.dim, nrm]; rw [dot_unit, dot_unit]
    cases v with
    | cone v => exact absurd hv Face.not_isVertex_cone
    | base v =>
      have e0 : orig (K := K) v 0 = 0 := orig_zero v 0 (le_refl _)
      simp only [orig]; rw [e0]
      exact ⟨fun hl => by simp [Face.le] at hl, fun _ => by simp [setV, Topo.dim]⟩
    | apex => exact ⟨fun _ => rfl, fun hl => by simp [Face.le] at hl⟩

/-- squared length of the normal = Gram determinant of the embedding -/
theorem nrm_length {t : Topo} (f : Face t) (h : f.codim = 1) (hne : dot t.dim (nrm (K := K) f) (nrm f) ≠ 0) :
    dot t.dim (nrm (K := K) f) (nrm f) =
      Matrix.det (Matrix.of fun (r s : Fin f.shape.dim) => dot t.dim (jac (K := K) f r.1) (jac f s.1)) := by
  obtain ⟨s, hs, hv⟩ := nrm_cofactor (K := K) f h
  have horth := nrm_orthogonal (K := K) f h
  have hfd := Face.codim_add_dim f
  obtain ⟨m, hm⟩ : ∃ m, t.dim = m + 1 := ⟨f.shape.dim, by omega⟩
  have hsm : f.shape.dim = m := by omega
  clear hfd
  rw [hsm] at horth ⊢
  rw [hm] at hv horth hne ⊢
  set N : K := dot (m + 1) (nrm f) (nrm f) with hN
  have h1 := hv (nrm f)
  rw [← hN] at h1
  set M : Matrix (Fin (m + 1)) (Fin (m + 1)) K :=
    Matrix.of fun (r c : Fin (m + 1)) => if r.1 + 1 < m + 1 then jac f r.1 c.1 else nrm f c.1 with hM
  have h2 : M.det = s * N := h1
  have h3 : (M * M.transpose).det = N * N := by
    rw [Matrix.det_mul, Matrix.det_transpose, h2]; linear_combination N * N * hs
  have hent : ∀ r c : Fin (m + 1), (M * M.transpose) r c =
      dot (m + 1) (if r.1 + 1 < m + 1 then jac f r.1 else nrm f) (if c.1 + 1 < m + 1 then jac f c.1 else nrm f) := by
    intro r c
    rw [Matrix.mul_apply, dot, ← Fin.sum_univ_eq_sum_range
      (fun k => (if r.1 + 1 < m + 1 then jac (K := K) f r.1 else nrm f) k *
        (if c.1 + 1 < m + 1 then jac f c.1 else nrm f) k) (m + 1)]
    refine sum_congr rfl fun k _ => ?_
    simp only [hM, Matrix.transpose_apply, Matrix.of_apply]
    split <;> split <;> rfl
  have h4 : (M * M.transpose).det =
      N * Matrix.det (Matrix.of fun (r s : Fin m) => dot (m + 1) (jac (K := K) f r.1) (jac f s.1)) := by
    rw [Matrix.det_succ_row _ (Fin.last m), Fin.sum_univ_castSucc, Finset.sum_eq_zero, zero_add]
    · have e1 : (M * M.transpose) (Fin.last m) (Fin.last m) = N := by
        rw [hent]; simp only [Fin.val_last]; rw [if_neg (by omega)]
      have e2 : (M * M.transpose).submatrix (Fin.last m).succAbove (Fin.last m).succAbove =
          Matrix.of fun (r s : Fin m) => dot (m + 1) (jac (K := K) f r.1) (jac f s.1) := by
        ext r c
        rw [Matrix.submatrix_apply, hent]
        simp only [Fin.succAbove_last, Fin.val_castSucc, Matrix.of_apply]
        rw [if_pos (by omega), if_pos (by omega)]
      have e3 : ((-1 : K)) ^ ((Fin.last m).1 + (Fin.last m).1) = 1 := by
        rw [← two_mul, pow_mul]; simp
      rw [e1, e2, e3]; ring
    · intro c _
      have e1 : (M * M.transpose) (Fin.last m) (Fin.castSucc c) = 0 := by
        rw [hent]; simp only [Fin.val_last, Fin.val_castSucc]
        rw [if_neg (by omega), if_pos (by omega), horth _ c.2]
      rw [e1]; ring
  rw [h3] at h4
  exact mul_left_cancel₀ hne h4

/-- the surface is closed, and the divergence theorem for the identity field -/
theorem closed_surface : ∀ t : Topo, 0 < t.dim →
    (∀ k, ((faces t 1).map fun f => vol (K := K) f.shape * nrm f k).sum = 0) ∧
    ((faces t 1).map fun f => vol (K := K) f.shape * dot t.dim (nrm f) (orig f)).sum = t.dim * vol t
  | .pt, h => by simp [Topo.dim] at h
  | .prism t, _ => by
    have hw : faces t 0 = [Face.whole t] := by cases t <;> rfl
    have hsh := Face.shape_of_codim_zero _ (Face.codim_whole t)
    have key : (∀ k, ((faces t 1).map fun f => vol (K := K) f.shape * nrm f k).sum = 0) ∧
      ((faces t 1).map fun f => vol (K := K) f.shape * dot t.dim (nrm f) (orig f)).sum = t.dim * vol t := by
      by_cases h : 0 < t.dim
      · exact closed_surface t h
      · obtain rfl := eq_pt_of_dim (t := t) (by omega)
        simp [faces, Topo.dim]
    obtain ⟨h1, h2⟩ := key
    constructor
    · intro k
      simp only [faces, hw, List.map_append, List.map_map, List.map_cons, List.map_nil, List.sum_append,
        List.sum_cons, List.sum_nil, Face.shape, nrm, hsh]
      have e := h1 k
      have e' : (List.map ((fun f : Face (Topo.prism t) => vol (K := K) f.shape * nrm f k) ∘ Face.edge)
          (faces t 1)).sum = 0 := e
      rw [e']
      by_cases hk : k = t.dim
      · subst hk; rw [setV_same, setV_same]; ring
      · rw [setV_ne _ hk, setV_ne _ hk]; ring
    · simp only [faces, hw, List.map_append, List.map_map, List.map_cons, List.map_nil, List.sum_append,
        List.sum_cons, List.sum_nil, Face.shape, nrm, hsh, orig, Topo.dim, vol]
      have e' : (List.map ((fun f : Face (Topo.prism t) => vol (K := K) f.shape * dot (t.dim + 1) (nrm f) (orig f))
          ∘ Face.edge) (faces t 1)).sum = t.dim * vol t := by
        rw [← h2]
        congr 1
        apply List.map_congr_left
        intro f _
        simp only [Function.comp, Face.shape, vol, nrm, orig]
        rw [dot_succ, nrm_zero f _ (le_refl _), zero_mul, add_zero]
      rw [e', dot_unit, dot_unit, setV_same, orig_zero (Face.whole t) _ (le_refl _)]
      push_cast; ring
  | .pyr t, _ => by
    have hw : faces t 0 = [Face.whole t] := by cases t <;> rfl
    have hsh := Face.shape_of_codim_zero _ (Face.codim_whole t)
    by_cases h : 0 < t.dim
    · obtain ⟨h1, h2⟩ := closed_surface t h
      have hd0 : (t.dim : K) ≠ 0 := by
        have : (0 : K) < t.dim := by exact_mod_cast h
        exact ne_of_gt this
      have hshape : ∀ f ∈ faces t 1, vol (K := K) (Face.cone f).shape = vol f.shape * ((t.dim : K))⁻¹ := by
        intro f hf
        have hfd := Face.codim_add_dim f
        rw [(mem_faces f 1).1 hf] at hfd
        simp only [Face.shape, vol]
        rw [← hfd]; push_cast; rw [add_comm (1 : K), div_eq_mul_inv]
      have hsum : ∀ F : Face (.pyr t) → K, ((faces (.pyr t) 1).map F).sum =
          F (Face.base (Face.whole t)) + ((faces t 1).map (fun f => F (Face.cone f))).sum := by
        intro F
        simp only [faces, hw, List.map_append, List.map_map, List.map_cons, List.map_nil, List.sum_append,
          List.sum_cons, List.sum_nil]
        rw [if_neg (by omega)]
        simp only [List.map_nil, List.sum_nil, add_zero]
        rfl
      have hdiv : ((faces t 1).map fun f => vol (K := K) (Face.cone f).shape * dot t.dim (nrm f) (orig f)).sum =
          vol t := by
        have : ((faces t 1).map fun f => vol (K := K) (Face.cone f).shape * dot t.dim (nrm f) (orig f)).sum =
            ((faces t 1).map fun f => (t.dim : K)⁻¹ * (vol (K := K) f.shape * dot t.dim (nrm f) (orig f))).sum := by
          congr 1
          apply List.map_congr_left
          intro f hf
          rw [hshape f hf]; ring
        rw [this, List.sum_map_mul_left, h2, ← mul_assoc, inv_mul_cancel₀ hd0, one_mul]
      constructor
      · intro k
        rw [hsum]
        simp only [Face.shape, nrm, hsh]
        by_cases hk : k = t.dim
        · subst hk
          simp only [setV_same]
          have := hdiv
          simp only [Face.shape] at this
          rw [this]; ring
        · simp only [setV_ne _ hk]
          have : ((faces t 1).map fun f => vol (K := K) (Topo.pyr f.shape) * nrm f k).sum =
              ((faces t 1).map fun f => (t.dim : K)⁻¹ * (vol (K := K) f.shape * nrm f k)).sum := by
            congr 1
            apply List.map_congr_left
            intro f hf
            have := hshape f hf
            simp only [Face.shape] at this
            rw [this]; ring
          rw [this, List.sum_map_mul_left, h1 k]; ring
      · rw [hsum]
        simp only [Topo.dim, nrm, orig, vol]
        rw [dot_unit, orig_zero (Face.whole t) _ (le_refl _)]
        have : ((faces t 1).map fun f => vol (K := K) (Face.cone f).shape *
            dot (t.dim + 1) (setV (nrm f) t.dim (dot t.dim (nrm f) (orig f))) (orig f)).sum = vol t := by
          rw [← hdiv]
          congr 1
          apply List.map_congr_left
          intro f _
          rw [dot_setV, orig_zero f _ (le_refl _), mul_zero, add_zero]
        rw [this]
        have : ((t.dim : K) + 1) ≠ 0 := by positivity
        push_cast; field_simp; ring
    · obtain rfl := eq_pt_of_dim (t := t) (by omega)
      constructor
      · intro k
        simp only [faces, Topo.dim, if_true, List.map_append, List.map_map, List.map_cons, List.map_nil,
          List.sum_append, List.sum_cons, List.sum_nil, Face.whole, Face.shape, vol, nrm]
        by_cases hk : k = 0
        · subst hk; rw [setV_same, setV_same]; ring
        · rw [setV_ne _ hk, setV_ne _ hk]; ring
      · simp only [faces, Topo.dim, if_true, List.map_append, List.map_map, List.map_cons, List.map_nil,
          List.sum_append, List.sum_cons, List.sum_nil, Face.whole, Face.shape, vol, nrm, orig]
        rw [dot_unit, dot_unit, setV_same]; norm_num

end order

end Verif.RefGeom
