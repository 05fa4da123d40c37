import Verif.RefGeom.Spec
import Mathlib.Analysis.Convex.Hull
import Mathlib.Analysis.Convex.Combination
import Mathlib.LinearAlgebra.Matrix.Determinant.Basic
import Mathlib.Tactic.Linarith
import Mathlib.Tactic.Positivity

/-! Geometry of the faces: embeddings, inside test, convex hull, normals. -/

namespace Verif.RefGeom

open Verif.Typ Verif.RefTopo Finset

set_option linter.unusedSectionVars false

section embedding

variable {K : Type} [Field K]

/-- embedding of a face -/
def emb {t : Topo} (f : Face t) (x : Vec K) : Vec K := embed f.shape.dim (orig f, jac f) x

variable {t : Topo}

theorem emb_zero (f : Face t) (x : Vec K) (k : Nat) (h : t.dim ≤ k) : emb f x k = 0 := by
  simp only [emb, embed]
  rw [orig_zero f k h, Finset.sum_eq_zero, add_zero]
  intro r _
  rw [jac_zero f r k (Or.inr h), zero_mul]

theorem emb_congr (f : Face t) {x y : Vec K} (h : ∀ k, k < f.shape.dim → x k = y k) : emb f x = emb f y := by
  funext j
  simp only [emb, embed]
  congr 1
  exact sum_congr rfl fun r hr => by rw [h r (mem_range.1 hr)]

theorem emb_at_zero (f : Face t) : emb (K := K) f (fun _ => 0) = orig f := by
  funext j; simp [emb, embed]

theorem emb_edge (f : Face t) (x : Vec K) :
    emb (.edge f) x = fun j => if j = t.dim then x f.shape.dim else emb f x j := by
  funext j
  simp only [emb, embed, Face.shape, Topo.dim, orig, jac, setM]
  rw [sum_range_succ]
  have e : ∀ r ∈ range f.shape.dim, (if r = f.shape.dim ∧ j = t.dim then (1 : K) else jac f r j) * x r =
      jac f r j * x r := by
    intro r hr
    have := mem_range.1 hr
    rw [if_neg (by omega)]
  rw [sum_congr rfl e]
  by_cases hj : j = t.dim
  · subst hj
    rw [if_pos ⟨rfl, rfl⟩, if_pos rfl, orig_zero f _ (le_refl _), Finset.sum_eq_zero]
    · ring
    · intro r _; rw [jac_zero f r _ (Or.inr (le_refl _)), zero_mul]
  · rw [if_neg (fun h => hj h.2), if_neg hj, jac_zero f _ j (Or.inl (le_refl _))]; ring

theorem emb_bot (f : Face t) (x : Vec K) : emb (.bot f) x = emb f x := rfl
theorem emb_base (f : Face t) (x : Vec K) : emb (.base f) x = emb f x := rfl

theorem emb_top (f : Face t) (x : Vec K) : emb (.top f) x = setV (emb f x) t.dim 1 := by
  funext j
  simp only [emb, embed, Face.shape, orig, jac, setV]
  by_cases hj : j = t.dim
  · subst hj
    rw [if_pos rfl, if_pos rfl, Finset.sum_eq_zero, add_zero]
    intro r _; rw [jac_zero f r _ (Or.inr (le_refl _)), zero_mul]
  · rw [if_neg hj, if_neg hj]

theorem emb_cone (f : Face t) (x : Vec K) :
    emb (.cone f) x =
      fun j => if j = t.dim then x f.shape.dim else emb f x j - x f.shape.dim * orig f j := by
  funext j
  simp only [emb, embed, Face.shape, Topo.dim, orig, jac, setM]
  rw [sum_range_succ]
  have e : ∀ r ∈ range f.shape.dim, (if r = f.shape.dim ∧ j = t.dim then (1 : K) else
      if r = f.shape.dim ∧ j < t.dim then -orig f j else jac f r j) * x r = jac f r j * x r := by
    intro r hr
    have := mem_range.1 hr
    rw [if_neg (by omega), if_neg (by omega)]
  rw [sum_congr rfl e]
  by_cases hj : j = t.dim
  · subst hj
    rw [if_pos ⟨rfl, rfl⟩, if_pos rfl, orig_zero f _ (le_refl _), Finset.sum_eq_zero]
    · ring
    · intro r _; rw [jac_zero f r _ (Or.inr (le_refl _)), zero_mul]
  · rw [if_neg (fun h => hj h.2), if_neg hj]
    by_cases hlt : j < t.dim
    · rw [if_pos ⟨rfl, hlt⟩]; ring
    · rw [if_neg (fun h => hlt h.2), jac_zero f _ j (Or.inl (le_refl _)), orig_zero f j (by omega)]; ring

theorem emb_apex (t : Topo) (x : Vec K) : emb (.apex : Face (.pyr t)) x = setV (fun _ => 0) t.dim 1 := by
  funext j
  simp [emb, embed, Face.shape, Topo.dim, orig]

/-- embedding a combination `y - a z` (the embedding is affine) -/
theorem emb_sub (f : Face t) (y z : Vec K) (a : K) (j : Nat) :
    emb f (fun i => y i - a * z i) j = emb f y j - a * (emb f z j - orig f j) := by
  simp only [emb, embed]
  rw [add_sub_cancel_left, mul_sum, add_sub_assoc, ← sum_sub_distrib]
  congr 1
  exact sum_congr rfl fun r _ => by ring

/-- embeddings compose like the faces do -/
theorem emb_comp (f : Face t) (g : Face f.shape) : ∀ x : Vec K, emb (Face.comp f g) x = emb f (emb g x) := by
  induction f, g using Face.comp_induction with
  | hpt => intro x; funext j; simp [Face.comp, emb, embed, Face.shape, Topo.dim, orig]
  | @hee t f g ih =>
    intro x
    have e1 : Face.comp (Face.edge f) (Face.edge g : Face (.prism f.shape)) = Face.edge (Face.comp f g) := rfl
    have e2 : emb (K := K) (Face.edge f) (emb (Face.edge g : Face (.prism f.shape)) x) =
        fun j => if j = t.dim then (emb (Face.edge g : Face (.prism f.shape)) x) f.shape.dim else
          emb f (emb (Face.edge g : Face (.prism f.shape)) x) j := emb_edge f _
    refine Eq.trans ?_ e2.symm
    rw [e1, emb_edge, Face.shape_comp]
    funext j
    by_cases hj : j = t.dim
    · rw [if_pos hj, if_pos hj, emb_edge]; exact (if_pos rfl).symm
    · rw [if_neg hj, if_neg hj, ih x]
      apply congrFun
      apply emb_congr
      intro k hk
      rw [emb_edge]; exact (if_neg (by omega)).symm
  | @heb t f g ih =>
    intro x
    have e1 : Face.comp (Face.edge f) (Face.bot g : Face (.prism f.shape)) = Face.bot (Face.comp f g) := rfl
    refine Eq.trans ?_ (emb_edge f (emb g x)).symm
    rw [e1, emb_bot, ih x]
    funext j
    by_cases hj : j = t.dim
    · rw [if_pos hj, emb_zero g x _ (le_refl _), emb_zero f _ _ (by omega)]
    · rw [if_neg hj]
  | @het t f g ih =>
    intro x
    have e1 : Face.comp (Face.edge f) (Face.top g : Face (.prism f.shape)) = Face.top (Face.comp f g) := rfl
    refine Eq.trans ?_ (emb_edge f (emb (Face.top g : Face (.prism f.shape)) x)).symm
    rw [e1, emb_top, ih x, emb_top]
    funext j
    by_cases hj : j = t.dim
    · rw [if_pos hj, hj, setV_same, setV_same]
    · rw [if_neg hj, setV_ne _ hj]
      apply congrFun
      apply emb_congr
      intro k hk
      rw [setV_ne _ (by omega)]
  | hb f g ih => intro x; exact ih x
  | @ht t f g ih =>
    intro x
    refine Eq.trans (emb_top (Face.comp f g) x) ?_
    rw [ih x]
    exact (emb_top f _).symm
  | hba f g ih => intro x; exact ih x
  | @hcb t f g ih =>
    intro x
    have e1 : Face.comp (Face.cone f) (Face.base g : Face (.pyr f.shape)) = Face.base (Face.comp f g) := rfl
    refine Eq.trans ?_ (emb_cone f (emb g x)).symm
    rw [e1, emb_base, ih x]
    funext j
    rw [emb_zero g x _ (le_refl _)]
    by_cases hj : j = t.dim
    · rw [if_pos hj, emb_zero f _ _ (by omega)]
    · rw [if_neg hj]; ring
  | @hcc t f g ih =>
    intro x
    have e1 : Face.comp (Face.cone f) (Face.cone g : Face (.pyr f.shape)) = Face.cone (Face.comp f g) := rfl
    refine Eq.trans ?_ (emb_cone f (emb (Face.cone g : Face (.pyr f.shape)) x)).symm
    rw [e1, emb_cone, Face.shape_comp]
    funext j
    have hl : emb (Face.cone g : Face (.pyr f.shape)) x f.shape.dim = x g.shape.dim := by
      rw [emb_cone]; exact if_pos rfl
    rw [hl]
    by_cases hj : j = t.dim
    · rw [if_pos hj, if_pos hj]
    · rw [if_neg hj, if_neg hj, ih x]
      have e3 : emb (K := K) f (emb (Face.cone g : Face (.pyr f.shape)) x) =
          emb f (fun i => emb g x i - x g.shape.dim * orig g i) := by
        apply emb_congr
        intro k hk
        rw [emb_cone]; exact if_neg (by omega)
      rw [e3, emb_sub]
      have e4 : emb (K := K) f (orig g) = orig (Face.comp f g) := by
        rw [← emb_at_zero g, ← ih, emb_at_zero]
      rw [e4]; ring
  | @hca t f =>
    intro x
    have e1 : Face.comp (Face.cone f) (Face.apex : Face (.pyr f.shape)) = Face.apex := rfl
    refine Eq.trans ?_ (emb_cone f (emb (Face.apex : Face (.pyr f.shape)) x)).symm
    rw [e1, emb_apex, emb_apex]
    funext j
    rw [setV_same]
    by_cases hj : j = t.dim
    · rw [if_pos hj, hj, setV_same]
    · rw [if_neg hj, setV_ne _ hj]
      have : emb (K := K) f (setV (fun _ => 0) f.shape.dim 1) = orig f := by
        rw [← emb_at_zero f]; apply emb_congr; intro k hk; rw [setV_ne _ (by omega)]
      rw [this]; ring
  | @ha t =>
    intro x
    have e1 : Face.comp (Face.apex : Face (.pyr t)) (Face.pt : Face .pt) = Face.apex := rfl
    rw [e1]
    exact (emb_apex t x).trans (emb_apex t _).symm

theorem emb_orig (f : Face t) (g : Face f.shape) : emb (K := K) f (orig g) = orig (Face.comp f g) := by
  rw [← emb_at_zero g, ← emb_comp, emb_at_zero]

theorem emb_inj (f : Face t) : ∀ {x y : Vec K}, emb f x = emb f y → ∀ r, r < f.shape.dim → x r = y r := by
  induction f with
  | pt => intro x y _ r hr; simp [Face.shape, Topo.dim] at hr
  | @edge t f ih =>
    intro x y h r hr
    rw [emb_edge, emb_edge] at h
    by_cases he : r = f.shape.dim
    · subst he
      have := congrFun h t.dim
      simpa using this
    · refine ih ?_ r (by simp only [Face.shape, Topo.dim] at hr; omega)
      funext j
      by_cases hj : j = t.dim
      · rw [emb_zero f _ j (by omega), emb_zero f _ j (by omega)]
      · have := congrFun h j
        simpa [hj] using this
  | bot f ih => intro x y h r hr; exact ih h r hr
  | @top t f ih =>
    intro x y h r hr
    rw [emb_top, emb_top] at h
    refine ih ?_ r hr
    funext j
    by_cases hj : j = t.dim
    · rw [emb_zero f _ j (by omega), emb_zero f _ j (by omega)]
    · have := congrFun h j
      rwa [setV_ne _ hj, setV_ne _ hj] at this
  | base f ih => intro x y h r hr; exact ih h r hr
  | @cone t f ih =>
    intro x y h r hr
    rw [emb_cone, emb_cone] at h
    have hl : x f.shape.dim = y f.shape.dim := by
      have := congrFun h t.dim
      simpa using this
    by_cases he : r = f.shape.dim
    · subst he; exact hl
    · refine ih ?_ r (by simp only [Face.shape, Topo.dim] at hr; omega)
      funext j
      by_cases hj : j = t.dim
      · rw [emb_zero f _ j (by omega), emb_zero f _ j (by omega)]
      · have := congrFun h j
        simpa [hj, hl] using this
  | apex => intro x y _ r hr; simp [Face.shape, Topo.dim] at hr

end embedding

section inside

variable {K : Type} [Field K] [LinearOrder K] [IsStrictOrderedRing K]

/-- the closed domain scaled by `f` -/
def Dom : Topo → K → Vec K → Prop
  | .pt, _, _ => True
  | .prism t, f, x => 0 ≤ x t.dim ∧ x t.dim ≤ f ∧ Dom t f x
  | .pyr t, f, x => 0 ≤ x t.dim ∧ x t.dim ≤ f ∧ Dom t (f - x t.dim) x

/-- the test with tolerance -/
def Inside (tol : K) : Topo → K → Vec K → Prop
  | .pt, _, _ => True
  | .prism t, f, x => -tol < x t.dim ∧ -tol < f - x t.dim ∧ Inside tol t f x
  | .pyr t, f, x => -tol < x t.dim ∧ -tol < f - x t.dim ∧ Inside tol t (f - x t.dim) x

theorem checkInside_iff {d id : Nat} {t : Topo} (h : Rep d id t) (x : Vec K) (tol : K) :
    ∀ f : K, checkInside d id x tol f = true ↔ Inside tol t f x := by
  induction h with
  | pt id => intro f; simp [checkInside, Inside]
  | @prism d id t hb hr ih =>
    intro f
    simp only [checkInside, implBase_eq, isPrism_of_rep hb, if_true, Nat.add_sub_cancel, Inside, hr.dim_eq, gt_iff_lt]
    split
    · rename_i h; rw [ih]; exact ⟨fun h' => ⟨h.1, h.2, h'⟩, fun h' => h'.2.2⟩
    · rename_i h
      constructor
      · intro h'; cases h'
      · intro h'; exact absurd ⟨h'.1, h'.2.1⟩ h
  | @pyr d id t hb hr ih =>
    intro f
    by_cases hd : d = 0
    · subst hd
      obtain rfl := rep_zero hr
      simp only [checkInside, isPrism_of_rep (Or.inl rfl), if_true, Inside, Topo.dim, gt_iff_lt]
      split
      · rename_i h; exact ⟨fun _ => ⟨h.1, h.2, trivial⟩, fun _ => rfl⟩
      · rename_i h
        constructor
        · intro h'; cases h'
        · intro h'; exact absurd ⟨h'.1, h'.2.1⟩ h
    · simp only [checkInside, implBase_eq, isPrism_of_rep_pyr hd hb, Bool.false_eq_true, if_false,
        Nat.add_sub_cancel, Inside, hr.dim_eq, gt_iff_lt]
      split
      · rename_i h; rw [ih]; exact ⟨fun h' => ⟨h.1, h.2, h'⟩, fun h' => h'.2.2⟩
      · rename_i h
        constructor
        · intro h'; cases h'
        · intro h'; exact absurd ⟨h'.1, h'.2.1⟩ h

theorem inside_mono {tol tol' : K} (hle : tol ≤ tol') : ∀ (t : Topo) (f : K) (x : Vec K),
    Inside tol t f x → Inside tol' t f x
  | .pt, _, _, _ => trivial
  | .prism t, f, x, h => ⟨by linarith [h.1], by linarith [h.2.1], inside_mono hle t _ x h.2.2⟩
  | .pyr t, f, x, h => ⟨by linarith [h.1], by linarith [h.2.1], inside_mono hle t _ x h.2.2⟩

theorem dom_iff_inside : ∀ (t : Topo) (f : K) (x : Vec K), Dom t f x ↔ ∀ tol, 0 < tol → Inside tol t f x
  | .pt, _, _ => ⟨fun _ _ _ => trivial, fun _ => trivial⟩
  | .prism t, f, x => by
    constructor
    · intro h tol ht
      exact ⟨by linarith [h.1], by linarith [h.2.1], (dom_iff_inside t f x).1 h.2.2 tol ht⟩
    · intro h
      refine ⟨?_, ?_, (dom_iff_inside t f x).2 fun tol ht => (h tol ht).2.2⟩
      · by_contra hc; push Not at hc
        have := (h (-x t.dim) (by linarith)).1; linarith
      · by_contra hc; push Not at hc
        have := (h (x t.dim - f) (by linarith)).2.1; linarith
  | .pyr t, f, x => by
    constructor
    · intro h tol ht
      exact ⟨by linarith [h.1], by linarith [h.2.1], (dom_iff_inside t _ x).1 h.2.2 tol ht⟩
    · intro h
      refine ⟨?_, ?_, (dom_iff_inside t _ x).2 fun tol ht => (h tol ht).2.2⟩
      · by_contra hc; push Not at hc
        have := (h (-x t.dim) (by linarith)).1; linarith
      · by_contra hc; push Not at hc
        have := (h (x t.dim - f) (by linarith)).2.1; linarith

theorem dom_congr {x y : Vec K} : ∀ (t : Topo) (f : K), (∀ k, k < t.dim → x k = y k) → Dom t f x → Dom t f y
  | .pt, _, _, _ => trivial
  | .prism t, f, h, ⟨h1, h2, h3⟩ => by
    have e := h t.dim (by simp [Topo.dim])
    refine ⟨by rw [← e]; exact h1, by rw [← e]; exact h2,
      dom_congr t _ (fun k hk => h k (by simp only [Topo.dim]; omega)) h3⟩
  | .pyr t, f, h, ⟨h1, h2, h3⟩ => by
    have e := h t.dim (by simp [Topo.dim])
    refine ⟨by rw [← e]; exact h1, by rw [← e]; exact h2, ?_⟩
    rw [← e]
    exact dom_congr t _ (fun k hk => h k (by simp only [Topo.dim]; omega)) h3

theorem dom_zero : ∀ (t : Topo) (f : K), 0 ≤ f → Dom t f (fun _ => 0)
  | .pt, _, _ => trivial
  | .prism t, f, h => ⟨le_refl _, h, dom_zero t f h⟩
  | .pyr t, f, h => ⟨le_refl _, h, by simpa using dom_zero t f h⟩

theorem dom_add : ∀ (t : Topo) (f g : K) (x y : Vec K), Dom t f x → Dom t g y →
    Dom t (f + g) (fun k => x k + y k)
  | .pt, _, _, _, _, _, _ => trivial
  | .prism t, f, g, x, y, h1, h2 =>
    ⟨by linarith [h1.1, h2.1], by linarith [h1.2.1, h2.2.1], dom_add t f g x y h1.2.2 h2.2.2⟩
  | .pyr t, f, g, x, y, h1, h2 => by
    refine ⟨by linarith [h1.1, h2.1], by linarith [h1.2.1, h2.2.1], ?_⟩
    have := dom_add t _ _ x y h1.2.2 h2.2.2
    rwa [show f + g - (x t.dim + y t.dim) = f - x t.dim + (g - y t.dim) by ring]

theorem dom_smul {a : K} (ha : 0 ≤ a) : ∀ (t : Topo) (f : K) (x : Vec K), Dom t f x →
    Dom t (a * f) (fun k => a * x k)
  | .pt, _, _, _ => trivial
  | .prism t, f, x, h =>
    ⟨mul_nonneg ha h.1, mul_le_mul_of_nonneg_left h.2.1 ha, dom_smul ha t f x h.2.2⟩
  | .pyr t, f, x, h => by
    refine ⟨mul_nonneg ha h.1, mul_le_mul_of_nonneg_left h.2.1 ha, ?_⟩
    have := dom_smul ha t _ x h.2.2
    rwa [mul_sub] at this

theorem dom_orig : ∀ {t : Topo} (f : Face t), Dom (K := K) t 1 (orig f)
  | _, .pt => trivial
  | .prism t, .edge f => by
    refine ⟨?_, ?_, dom_orig f⟩
    · simp only [orig]; rw [orig_zero f _ (le_refl _)]
    · simp only [orig]; rw [orig_zero f _ (le_refl _)]; exact zero_le_one
  | .prism t, .bot f => by
    refine ⟨?_, ?_, dom_orig f⟩
    · simp only [orig]; rw [orig_zero f _ (le_refl _)]
    · simp only [orig]; rw [orig_zero f _ (le_refl _)]; exact zero_le_one
  | .prism t, .top f => by
    refine ⟨?_, ?_, dom_congr t 1 ?_ (dom_orig f)⟩
    · simp only [orig]; rw [setV_same]; exact zero_le_one
    · simp only [orig]; rw [setV_same]
    · intro k hk; simp only [orig]; rw [setV_ne _ (by omega)]
  | .pyr t, .base f => by
    simp only [Dom, orig]
    rw [orig_zero f _ (le_refl _), sub_zero]
    exact ⟨le_refl _, zero_le_one, dom_orig f⟩
  | .pyr t, .cone f => by
    simp only [Dom, orig]
    rw [orig_zero f _ (le_refl _), sub_zero]
    exact ⟨le_refl _, zero_le_one, dom_orig f⟩
  | .pyr t, .apex => by
    simp only [Dom, orig]
    rw [setV_same, sub_self]
    refine ⟨zero_le_one, le_refl _, dom_congr t 0 ?_ (dom_zero t 0 (le_refl _))⟩
    intro k hk; rw [setV_ne _ (by omega)]

/-! #### convex combinations of the corners -/

/-- coordinate `k` of the combination of the vectors `L` with weights `W` -/
def wsum (W : List K) (L : List (Vec K)) (k : Nat) : K := (List.zipWith (fun w c => w * c k) W L).sum

theorem wsum_append {W1 W2 : List K} {L1 L2 : List (Vec K)} (h : W1.length = L1.length) (k : Nat) :
    wsum (W1 ++ W2) (L1 ++ L2) k = wsum W1 L1 k + wsum W2 L2 k := by
  simp only [wsum]
  rw [List.zipWith_append h, List.sum_append]

theorem wsum_smul (a : K) (W : List K) (L : List (Vec K)) (k : Nat) :
    wsum (W.map (a * ·)) L k = a * wsum W L k := by
  induction W generalizing L with
  | nil => simp [wsum]
  | cons w W ih =>
    cases L with
    | nil => simp [wsum]
    | cons c L =>
      have := ih L
      simp only [wsum] at this ⊢
      simp only [List.map_cons, List.zipWith_cons_cons, List.sum_cons, this]; ring

theorem wsum_setV_ne (W : List K) (L : List (Vec K)) {d k : Nat} (h : k ≠ d) (a : K) :
    wsum W (L.map fun c => setV c d a) k = wsum W L k := by
  simp only [wsum, List.zipWith_map_right]
  congr 2
  funext w c; rw [setV_ne _ h]

theorem wsum_setV_same (W : List K) (L : List (Vec K)) (d : Nat) (h : W.length = L.length) (a : K) :
    wsum W (L.map fun c => setV c d a) d = W.sum * a := by
  induction W generalizing L with
  | nil => simp [wsum]
  | cons w W ih =>
    cases L with
    | nil => simp at h
    | cons c L =>
      have := ih L (by simpa using h)
      simp only [wsum] at this ⊢
      simp only [List.map_cons, List.zipWith_cons_cons, List.sum_cons, this, setV_same]; ring

theorem wsum_of_zero (W : List K) (L : List (Vec K)) (k : Nat) (h : ∀ c ∈ L, c k = 0) : wsum W L k = 0 := by
  induction W generalizing L with
  | nil => simp [wsum]
  | cons w W ih =>
    cases L with
    | nil => simp [wsum]
    | cons c L =>
      have := ih L (fun c hc => h c (List.mem_cons_of_mem _ hc))
      simp only [wsum] at this ⊢
      simp only [List.zipWith_cons_cons, List.sum_cons, this, h c List.mem_cons_self]; ring

/-- the corners of a topology -/
def cornersOf (t : Topo) : List (Vec K) := (faces t t.dim).map orig

theorem cornersOf_prism (t : Topo) :
    cornersOf (K := K) (.prism t) = cornersOf t ++ (cornersOf t).map fun c => setV c t.dim 1 := by
  simp only [cornersOf, Topo.dim, faces]
  rw [faces_nil t (t.dim + 1) (by omega)]
  simp only [List.map_nil, List.nil_append, List.map_append, List.map_map]
  rfl

theorem cornersOf_pyr (t : Topo) :
    cornersOf (K := K) (.pyr t) = cornersOf t ++ [setV (fun _ => 0) t.dim 1] := by
  simp only [cornersOf, Topo.dim, faces]
  rw [faces_nil t (t.dim + 1) (by omega)]
  simp only [List.map_nil, List.nil_append, List.map_append, List.map_map, if_true]
  rfl

theorem cornersOf_zero {t : Topo} {c : Vec K} (h : c ∈ cornersOf t) {k : Nat} (hk : t.dim ≤ k) : c k = 0 := by
  obtain ⟨f, _, rfl⟩ := List.mem_map.1 h
  exact orig_zero f k hk

theorem list_sum_eq_zero {W : List K} (h : ∀ w ∈ W, 0 ≤ w) (hs : W.sum = 0) : ∀ w ∈ W, w = 0 := by
  induction W with
  | nil => intro w hw; cases hw
  | cons a W ih =>
    have h0 := h a List.mem_cons_self
    have h1 := List.sum_nonneg (fun w hw => h w (List.mem_cons_of_mem a hw))
    rw [List.sum_cons] at hs
    intro w hw
    rcases List.mem_cons.1 hw with rfl | hw
    · linarith
    · exact ih (fun w hw => h w (List.mem_cons_of_mem a hw)) (by linarith) w hw

/-- every point of the (scaled) domain is a combination of the corners with nonnegative weights -/
theorem dom_weights : ∀ (t : Topo) (f : K) (x : Vec K), 0 ≤ f → Dom t f x →
    ∃ W : List K, W.length = (cornersOf (K := K) t).length ∧ (∀ w ∈ W, 0 ≤ w) ∧ W.sum = f ∧
      ∀ k, k < t.dim → wsum W (cornersOf t) k = x k
  | .pt, f, x, hf, _ => ⟨[f], by simp [cornersOf, faces, Topo.dim], by simpa using hf, by simp, by simp [Topo.dim]⟩
  | .prism t, f, x, hf, ⟨h1, h2, h3⟩ => by
    obtain ⟨W, hl, hn, hs, hw⟩ := dom_weights t f x hf h3
    -- split the weights between bottom and top
    set a : K := if f = 0 then 0 else x t.dim / f with ha
    have ha0 : 0 ≤ a := by
      rw [ha]; split
      · exact le_refl _
      · exact div_nonneg h1 hf
    have ha1 : a ≤ 1 := by
      rw [ha]; split
      · exact zero_le_one
      · rename_i hne
        exact (div_le_one (lt_of_le_of_ne hf (Ne.symm hne))).2 h2
    have haf : a * f = x t.dim := by
      rw [ha]; split
      · rename_i h; rw [h] at h2; rw [h]; linarith
      · rename_i hne; exact div_mul_cancel₀ _ hne
    refine ⟨W.map ((1 - a) * ·) ++ W.map (a * ·), ?_, ?_, ?_, ?_⟩
    · rw [cornersOf_prism]; simp [hl]
    · intro w hw
      rcases List.mem_append.1 hw with hw | hw <;> obtain ⟨v, hv, rfl⟩ := List.mem_map.1 hw
      · exact mul_nonneg (by linarith) (hn v hv)
      · exact mul_nonneg ha0 (hn v hv)
    · rw [List.sum_append, List.sum_map_mul_left, List.sum_map_mul_left]
      simp only [List.map_id', hs]; ring
    · intro k hk
      rw [cornersOf_prism, wsum_append (by simp [hl]), wsum_smul, wsum_smul]
      by_cases he : k = t.dim
      · subst he
        rw [wsum_setV_same _ _ _ hl, hs, wsum_of_zero _ _ _ (fun c hc => cornersOf_zero hc (le_refl _))]
        rw [← haf]; ring
      · rw [wsum_setV_ne _ _ he, hw k (by simp only [Topo.dim] at hk; omega)]; ring
  | .pyr t, f, x, hf, ⟨h1, h2, h3⟩ => by
    obtain ⟨W, hl, hn, hs, hw⟩ := dom_weights t (f - x t.dim) x (by linarith) h3
    refine ⟨W ++ [x t.dim], ?_, ?_, ?_, ?_⟩
    · rw [cornersOf_pyr]; simp [hl]
    · intro w hw
      rcases List.mem_append.1 hw with hw | hw
      · exact hn w hw
      · rw [List.mem_singleton.1 hw]; exact h1
    · rw [List.sum_append, hs]; simp
    · intro k hk
      rw [cornersOf_pyr, wsum_append hl]
      by_cases he : k = t.dim
      · subst he
        rw [wsum_of_zero _ _ _ (fun c hc => cornersOf_zero hc (le_refl _))]
        simp [wsum, setV_same]
      · rw [hw k (by simp only [Topo.dim] at hk; omega)]
        simp [wsum, setV_ne _ he]

theorem wsum_mem_convexHull (W : List K) (L : List (Vec K)) (hl : W.length = L.length) (hn : ∀ w ∈ W, 0 ≤ w)
    (hs : W.sum = 1) : (fun k => wsum W L k) ∈ convexHull K {c | c ∈ L} := by
  have e : (fun k => wsum W L k) = ∑ i : Fin W.length, W[i.1] • (L[i.1]'(by rw [← hl]; exact i.2)) := by
    funext k
    rw [Finset.sum_apply]
    simp only [Pi.smul_apply, smul_eq_mul, wsum]
    rw [← Fin.sum_univ_getElem]
    have hlen : (List.zipWith (fun w c => w * c k) W L).length = W.length := by simp [hl]
    rw [← (Fin.castOrderIso hlen).toEquiv.sum_comp]
    refine Finset.sum_congr rfl fun i _ => ?_
    rw [List.getElem_zipWith]; rfl
  rw [e]
  refine (convex_convexHull K _).sum_mem (fun i _ => hn _ (List.getElem_mem _)) ?_
    (fun i _ => subset_convexHull K _ (List.getElem_mem _))
  rw [← hs, ← Fin.sum_univ_getElem]

/-- the closed domain is the convex hull of the corners -/
theorem dom_iff_convexHull (t : Topo) (x : Vec K) (hx : ∀ k, t.dim ≤ k → x k = 0) :
    Dom t 1 x ↔ x ∈ convexHull K {c | c ∈ cornersOf (K := K) t} := by
  constructor
  · intro h
    obtain ⟨W, hl, hn, hs, hw⟩ := dom_weights t 1 x zero_le_one h
    have := wsum_mem_convexHull W (cornersOf t) hl hn hs
    have e : (fun k => wsum W (cornersOf t) k) = x := by
      funext k
      by_cases hk : k < t.dim
      · exact hw k hk
      · rw [hx k (by omega), wsum_of_zero _ _ _ (fun c hc => cornersOf_zero hc (by omega))]
    rwa [e] at this
  · intro h
    have hsub : convexHull K {c | c ∈ cornersOf (K := K) t} ⊆ {x | Dom t 1 x} := by
      apply convexHull_min
      · intro c hc
        obtain ⟨f, _, rfl⟩ := List.mem_map.1 hc
        exact dom_orig f
      · intro x hx y hy a b ha hb hab
        have := dom_add t _ _ _ _ (dom_smul ha t 1 x hx) (dom_smul hb t 1 y hy)
        rw [mul_one, mul_one, hab] at this
        exact this
    exact hsub h

/-! #### zero tolerance: interior -/

theorem inside_open : ∀ (t : Topo) (f : K) (x : Vec K), Inside 0 t f x →
    ∃ ε, 0 < ε ∧ ∀ (g : K) (y : Vec K), |g - f| < ε → (∀ k, k < t.dim → |y k - x k| < ε) → Dom t g y
  | .pt, _, _, _ => ⟨1, one_pos, fun _ _ _ _ => trivial⟩
  | .prism t, f, x, ⟨h1, h2, h3⟩ => by
    obtain ⟨ε, he, hd⟩ := inside_open t f x h3
    rw [neg_zero] at h1 h2
    refine ⟨min ε (min (x t.dim) ((f - x t.dim) / 2)), by positivity, ?_⟩
    intro g y hg hy
    have hyd := hy t.dim (by simp [Topo.dim])
    simp only [lt_min_iff] at hg hyd
    have e1 := abs_lt.1 hyd.2.1
    have e2 := abs_lt.1 hyd.2.2
    have e3 := abs_lt.1 hg.2.2
    refine ⟨by linarith [e1.1], by linarith [e2.2, e3.1], hd g y hg.1 fun k hk => ?_⟩
    have := hy k (by simp only [Topo.dim]; omega)
    simp only [lt_min_iff] at this
    exact this.1
  | .pyr t, f, x, ⟨h1, h2, h3⟩ => by
    obtain ⟨ε, he, hd⟩ := inside_open t (f - x t.dim) x h3
    rw [neg_zero] at h1 h2
    refine ⟨min (ε / 2) (min (x t.dim) ((f - x t.dim) / 2)), by positivity, ?_⟩
    intro g y hg hy
    have hyd := hy t.dim (by simp [Topo.dim])
    simp only [lt_min_iff] at hg hyd
    have e1 := abs_lt.1 hyd.2.1
    have e2 := abs_lt.1 hyd.2.2
    have e3 := abs_lt.1 hg.2.2
    have e4 := abs_lt.1 hyd.1
    have e5 := abs_lt.1 hg.1
    refine ⟨by linarith [e1.1], by linarith [e2.2, e3.1], hd _ y ?_ fun k hk => ?_⟩
    · rw [abs_lt]; constructor <;> linarith
    · have := hy k (by simp only [Topo.dim]; omega)
      simp only [lt_min_iff] at this
      linarith [this.1]

theorem inside_of_open : ∀ (t : Topo) (f : K) (x : Vec K),
    (∃ ε, 0 < ε ∧ ∀ (y : Vec K), (∀ k, k < t.dim → |y k - x k| < ε) → Dom t f y) → Inside 0 t f x
  | .pt, _, _, _ => trivial
  | .prism t, f, x, ⟨ε, he, h⟩ => by
    have h1 := h (setV x t.dim (x t.dim - ε / 2)) (by
      intro k hk
      by_cases hkd : k = t.dim
      · subst hkd; rw [setV_same, abs_lt]; constructor <;> linarith
      · rw [setV_ne _ hkd, sub_self, abs_zero]; exact he)
    have h2 := h (setV x t.dim (x t.dim + ε / 2)) (by
      intro k hk
      by_cases hkd : k = t.dim
      · subst hkd; rw [setV_same, abs_lt]; constructor <;> linarith
      · rw [setV_ne _ hkd, sub_self, abs_zero]; exact he)
    simp only [Dom, setV_same] at h1 h2
    refine ⟨by rw [neg_zero]; linarith [h1.1], by rw [neg_zero]; linarith [h2.2.1],
      inside_of_open t f x ⟨ε, he, fun y hy => ?_⟩⟩
    have := h (setV y t.dim (x t.dim)) (by
      intro k hk
      by_cases hkd : k = t.dim
      · subst hkd; rw [setV_same, sub_self, abs_zero]; exact he
      · rw [setV_ne _ hkd]; exact hy k (by simp only [Topo.dim] at hk; omega))
    exact dom_congr t f (fun k hk => setV_ne _ (by omega) _) this.2.2
  | .pyr t, f, x, ⟨ε, he, h⟩ => by
    have h1 := h (setV x t.dim (x t.dim - ε / 2)) (by
      intro k hk
      by_cases hkd : k = t.dim
      · subst hkd; rw [setV_same, abs_lt]; constructor <;> linarith
      · rw [setV_ne _ hkd, sub_self, abs_zero]; exact he)
    have h2 := h (setV x t.dim (x t.dim + ε / 2)) (by
      intro k hk
      by_cases hkd : k = t.dim
      · subst hkd; rw [setV_same, abs_lt]; constructor <;> linarith
      · rw [setV_ne _ hkd, sub_self, abs_zero]; exact he)
    simp only [Dom, setV_same] at h1 h2
    refine ⟨by rw [neg_zero]; linarith [h1.1], by rw [neg_zero]; linarith [h2.2.1],
      inside_of_open t _ x ⟨ε, he, fun y hy => ?_⟩⟩
    have := h (setV y t.dim (x t.dim)) (by
      intro k hk
      by_cases hkd : k = t.dim
      · subst hkd; rw [setV_same, sub_self, abs_zero]; exact he
      · rw [setV_ne _ hkd]; exact hy k (by simp only [Topo.dim] at hk; omega))
    have h3 := this.2.2
    rw [setV_same] at h3
    exact dom_congr t _ (fun k hk => setV_ne _ (by omega) _) h3

end inside

end Verif.RefGeom
