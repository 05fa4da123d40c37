import Verif.Piola.Props

/-! Derivatives of the multilinear map along a face. -/

namespace Verif.Trace

open Verif.RefGeom Verif.MatHelp Verif.RefTopo Verif.Typ Verif.MultiLinear
open Verif.Quad (MLd_congr)
open Finset hiding ext

theorem scale_far {tol a : ℝ} (h : far tol (1 - a)) : scale tol a = 1 / (1 - a) := if_pos h

/-- the two representations of the line do not show -/
theorem MLd_rep {tol : ℝ} {d id : Nat} {t t' : Topo} (h : Rep d id t) (h' : Rep d id t') :
    ∀ {c : Nat → ℝ} {z : Vec ℝ}, Away tol t z → Away tol t' z → ∀ r, MLd tol t c z r = MLd tol t' c z r := by
  have line : ∀ (c : Nat → ℝ) (z : Vec ℝ) (r : Nat), MLd tol (.pyr .pt) c z r = MLd tol (.prism .pt) c z r := by
    intro c z r
    simp only [MLd, ML, Topo.dim, nv, Topo.sz]
    split <;> simp <;> ring
  induction h generalizing t' with
  | pt id => cases h'; intro c z _ _ r; rfl
  | @prism d id t hb hr ih =>
    cases h' with
    | prism hb' hr' =>
      intro c z ha ha' r
      have h1 := ML_rep hr hr' (c := c) ha ha'
      have h2 := ML_rep hr hr' (c := fun k => c (nv t + k)) ha ha'
      rw [MLd, MLd, hr.dim_eq, hr'.dim_eq, h1.2, h2.2, ih hr' (c := c) ha ha' r, ih hr' (c := fun k => c (nv t + k)) ha ha' r, h1.1]
    | pyr hb' hr' =>
      have hd : d = 0 := by
        rcases hb with h | h
        · exact h
        · rcases hb' with h' | h'
          · exact h'
          · rw [h] at h'; cases h'
      subst hd
      obtain rfl := rep_zero hr
      obtain rfl := rep_zero hr'
      intro c z _ _ r; exact (line _ _ r).symm
  | @pyr d id t hb hr ih =>
    cases h' with
    | pyr hb' hr' =>
      intro c z ha ha' r
      obtain ⟨a1, a2⟩ := ha
      obtain ⟨b1, b2⟩ := ha'
      have e1 := hr.dim_eq
      have e2 := hr'.dim_eq
      rw [e1] at a1 a2
      rw [e2] at b2
      have hs : ∀ r, scale tol (z d) * z r = z r / (1 - z d) := fun r => by rw [scale_far a1]; ring
      have h1 := ML_rep hr hr' (c := c) a2 b2
      rw [MLd, MLd, e1, e2]
      simp only [hs]
      rw [h1.2, h1.1, ih hr' (c := c) a2 b2 r, sum_congr rfl fun j _ => by rw [ih hr' (c := c) a2 b2 j]]
    | prism hb' hr' =>
      have hd : d = 0 := by
        rcases hb with h | h
        · exact h
        · rcases hb' with h' | h'
          · exact h'
          · rw [h] at h'; cases h'
      subst hd
      obtain rfl := rep_zero hr
      obtain rfl := rep_zero hr'
      intro c z _ _ r; exact line _ _ r

/-- The derivative along a face, taken in the element, is the derivative taken in the face; faces at the tips included. -/
theorem MLd_face {tol : ℝ} (h0 : 0 ≤ tol) (h1 : tol < 1) {t : Topo} (f : Face t) :
    ∀ (c c' : Nat → ℝ) (x : Vec ℝ), Agree f c c' → Away tol f.shape x → ∀ s, s < f.shape.dim →
    ∑ r ∈ range t.dim, jac f s r * MLd tol t c (emb f x) r = MLd tol f.shape c' x s := by
  induction f with
  | pt => intro c c' x h ha s hs; simp [Face.shape, Topo.dim] at hs
  | @edge t f ih =>
    intro c c' x h ha s hs
    have hx : ∀ r, r < t.dim → (emb (Face.edge f) x) r = emb f x r := by
      intro r hr; rw [emb_edge]; exact if_neg (by omega)
    have hd : emb (Face.edge f) x t.dim = x f.shape.dim := by rw [emb_edge]; exact if_pos rfl
    have hA : Agree f (fun k => c (nv t + k)) (fun k => c' (nv f.shape + k)) := by
      intro g hg
      have := h (Face.top g) (by simp only [Face.shape, Face.codim, Topo.dim, hg])
      rw [Face.comp_edge_top, idx_top _ (comp_vertex f g hg)] at this
      exact (congrArg c' (idx_top g hg).symm).trans this
    have hB : Agree f c c' := by
      intro g hg
      have := h (Face.bot g) (by simp only [Face.shape, Face.codim, Topo.dim, hg])
      rw [Face.comp_edge_bot, idx_bot _ (comp_vertex f g hg)] at this
      exact (congrArg c' (idx_bot g hg).symm).trans this
    change _ = MLd tol (.prism f.shape) c' x s
    simp only [Topo.dim, Face.shape] at hs ⊢
    rw [sum_range_succ]
    rcases Nat.lt_succ_iff_lt_or_eq.1 hs with hs | rfl
    · have e1 : jac (K := ℝ) (Face.edge f) s t.dim = 0 := by
        simp only [jac, setM]
        rw [if_neg (by omega), jac_zero f s t.dim (Or.inr le_rfl)]
      have e2 : ∀ r, r < t.dim → jac (K := ℝ) (Face.edge f) s r * MLd tol (.prism t) c (emb (Face.edge f) x) r =
          (1 - x f.shape.dim) * (jac f s r * MLd tol t c (emb f x) r) +
            x f.shape.dim * (jac f s r * MLd tol t (fun k => c (nv t + k)) (emb f x) r) := by
        intro r hr
        have : jac (K := ℝ) (Face.edge f) s r = jac f s r := by
          simp only [jac, setM]; rw [if_neg (by omega)]
        rw [this, MLd, if_neg (by omega), hd, MLd_congr t c r hx, MLd_congr t (fun k => c (nv t + k)) r hx]
        ring
      rw [e1, zero_mul, add_zero, sum_congr rfl fun r hr => e2 r (mem_range.1 hr), sum_add_distrib, ← mul_sum, ← mul_sum,
        ih c c' x hB ha s hs, ih _ _ x hA ha s hs, MLd, if_neg (by omega)]
    · have e1 : jac (K := ℝ) (Face.edge f) f.shape.dim t.dim = 1 := setM_same _ _ _ _
      have e2 : ∀ r, r < t.dim → jac (K := ℝ) (Face.edge f) f.shape.dim r * MLd tol (.prism t) c (emb (Face.edge f) x) r = 0 := by
        intro r hr
        have : jac (K := ℝ) (Face.edge f) f.shape.dim r = jac f f.shape.dim r := by
          simp only [jac, setM]; rw [if_neg (by omega)]
        rw [this, jac_zero f _ r (Or.inl le_rfl), zero_mul]
      rw [e1, one_mul, sum_congr rfl fun r hr => e2 r (mem_range.1 hr), sum_const_zero, zero_add, MLd, if_pos rfl, MLd, if_pos rfl,
        ML_congr t (c' := c) (fun _ _ => rfl) hx,
        ML_congr t (c := fun k => c (nv t + k)) (c' := fun k => c (nv t + k)) (fun _ _ => rfl) hx,
        ML_face h0 h1 f c c' x hB, ML_face h0 h1 f _ _ x hA]
  | @bot t f ih =>
    intro c c' x h ha s hs
    have hB : Agree f c c' := by
      intro g hg
      have := h g hg
      rw [Face.comp_bot, idx_bot _ (comp_vertex f g hg)] at this
      exact this
    simp only [Topo.dim]
    rw [sum_range_succ]
    have e1 : jac (K := ℝ) (Face.bot f) s t.dim = 0 := jac_zero f s t.dim (Or.inr le_rfl)
    rw [e1, zero_mul, add_zero]
    refine Eq.trans (sum_congr rfl fun r hr => ?_) (ih c c' x hB ha s hs)
    rw [emb_bot, MLd, if_neg (by have := mem_range.1 hr; omega), emb_zero f x t.dim le_rfl]
    change jac f s r * _ = _
    ring
  | @top t f ih =>
    intro c c' x h ha s hs
    have hA : Agree f (fun k => c (nv t + k)) c' := by
      intro g hg
      have := h g hg
      rw [Face.comp_top, idx_top _ (comp_vertex f g hg)] at this
      exact this
    simp only [Topo.dim]
    rw [sum_range_succ]
    have e1 : jac (K := ℝ) (Face.top f) s t.dim = 0 := jac_zero f s t.dim (Or.inr le_rfl)
    rw [e1, zero_mul, add_zero]
    refine Eq.trans (sum_congr rfl fun r hr => ?_) (ih _ c' x hA ha s hs)
    rw [emb_top, MLd, if_neg (by have := mem_range.1 hr; omega), setV_same,
      MLd_congr t (fun k => c (nv t + k)) r fun r hr => setV_ne _ (by omega) _]
    change jac f s r * _ = _
    ring
  | @base t f ih =>
    intro c c' x h ha s hs
    have hB : Agree f c c' := by
      intro g hg
      have := h g hg
      rwa [Face.comp_base] at this
    simp only [Topo.dim]
    rw [sum_range_succ]
    have e1 : jac (K := ℝ) (Face.base f) s t.dim = 0 := jac_zero f s t.dim (Or.inr le_rfl)
    rw [e1, zero_mul, add_zero]
    refine Eq.trans (sum_congr rfl fun r hr => ?_) (ih c c' x hB ha s hs)
    have hz := emb_zero f x t.dim (le_refl _)
    have hsc : scale tol (emb f x t.dim) = 1 := by
      rw [hz, scale_far (by rw [sub_zero]; exact far_one h1)]; norm_num
    rw [emb_base, MLd, if_neg (by have := mem_range.1 hr; omega), hsc]
    simp only [one_mul]
    rfl
  | @cone t f ih =>
    intro c c' x h ha s hs
    obtain ⟨a1, a2⟩ := ha
    have hd : emb (Face.cone f) x t.dim = x f.shape.dim := by rw [emb_cone]; exact if_pos rfl
    have hne := far_ne h0 a1
    have hap : c' (nv f.shape) = c (nv t) := by
      have := h (Face.apex : Face (.pyr f.shape)) (by simp only [Face.shape, Face.codim, Topo.dim])
      rw [Face.comp_cone_apex] at this
      exact this
    have hB : Agree f c c' := by
      intro g hg
      have := h (Face.base g : Face (.pyr f.shape)) (by simp only [Face.shape, Face.codim, Topo.dim, hg])
      rw [Face.comp_cone_base] at this
      exact this
    have hsx : ∀ r, scale tol (x f.shape.dim) * x r = x r / (1 - x f.shape.dim) := fun r => by rw [scale_far a1]; ring
    set y : Vec ℝ := fun r => x r / (1 - x f.shape.dim) with hy
    have hse : ∀ r, r < t.dim → scale tol (x f.shape.dim) * emb (Face.cone f) x r = emb f y r := by
      intro r hr
      have : emb (Face.cone f) x r = emb f x r - x f.shape.dim * orig f r := by
        rw [emb_cone]; exact if_neg (by omega)
      rw [this, scale_far a1]
      simp only [emb, embed, hy]
      rw [one_div, inv_mul_eq_iff_eq_mul₀ hne, mul_add, mul_sum]
      have : ∀ r', (1 - x f.shape.dim) * (jac f r' r * (x r' / (1 - x f.shape.dim))) = jac f r' r * x r' := by
        intro r'; field_simp
      simp only [this]
      ring
    set D : Nat → ℝ := fun r => MLd tol t c (emb f y) r with hD
    have hIH : ∀ s, s < f.shape.dim → ∑ r ∈ range t.dim, jac f s r * D r = MLd tol f.shape c' y s := fun s hs => ih c c' y hB a2 s hs
    have eD : ∀ r, r < t.dim → MLd tol (.pyr t) c (emb (Face.cone f) x) r = D r := by
      intro r hr
      rw [MLd, hd, if_neg (by omega), MLd_congr t c r hse]
    change _ = MLd tol (.pyr f.shape) c' x s
    simp only [Topo.dim, Face.shape] at hs ⊢
    rw [sum_range_succ]
    rcases Nat.lt_succ_iff_lt_or_eq.1 hs with hs | rfl
    · have e1 : jac (K := ℝ) (Face.cone f) s t.dim = 0 := by
        simp only [jac, setM]
        rw [if_neg (by omega), if_neg (by omega), jac_zero f s t.dim (Or.inr le_rfl)]
      rw [e1, zero_mul, add_zero, MLd, if_neg (by omega)]
      simp only [hsx]
      rw [← hIH s hs]
      refine sum_congr rfl fun r hr => ?_
      have hr := mem_range.1 hr
      rw [eD r hr]
      congr 1
      simp only [jac, setM]
      rw [if_neg (by omega), if_neg (by omega)]
    · have e1 : jac (K := ℝ) (Face.cone f) f.shape.dim t.dim = 1 := setM_same _ _ _ _
      have e2 : ∀ r, r < t.dim → jac (K := ℝ) (Face.cone f) f.shape.dim r * MLd tol (.pyr t) c (emb (Face.cone f) x) r = -(orig f r * D r) := by
        intro r hr
        rw [eD r hr]
        simp only [jac, setM]
        rw [if_neg (by omega), if_pos (by simpa using hr), neg_mul]
      have e3 : MLd tol (.pyr t) c (emb (Face.cone f) x) t.dim =
          -ML tol f.shape c' y + c' (nv f.shape) + ∑ j ∈ range t.dim, emb f y j * D j := by
        rw [MLd, hd, if_pos rfl, ML_congr t (c := c) (c' := c) (fun _ _ => rfl) hse, ML_face h0 h1 f c c' y hB, hap]
        congr 1
        exact sum_congr rfl fun j hj => by rw [hse j (mem_range.1 hj), MLd_congr t c j hse]
      have e4 : ∑ j ∈ range t.dim, emb f y j * D j = ∑ j ∈ range t.dim, orig f j * D j + ∑ k ∈ range f.shape.dim, y k * MLd tol f.shape c' y k := by
        have : ∀ k ∈ range f.shape.dim, y k * MLd tol f.shape c' y k = ∑ j ∈ range t.dim, jac f k j * y k * D j := by
          intro k hk
          rw [← hIH k (mem_range.1 hk), mul_sum]
          exact sum_congr rfl fun j _ => by ring
        rw [sum_congr rfl this, sum_comm, ← sum_add_distrib]
        refine sum_congr rfl fun j _ => ?_
        simp only [emb, embed]
        rw [add_mul, sum_mul]
      rw [e1, one_mul, sum_congr rfl fun r hr => e2 r (mem_range.1 hr), e3, e4, sum_neg_distrib, MLd, if_pos rfl]
      simp only [hsx]
      change _ = -ML tol f.shape c' y + c' (nv f.shape) + ∑ j ∈ range f.shape.dim, y j * MLd tol f.shape c' y j
      ring
  | @apex t => intro c c' x h ha s hs; simp [Face.shape, Topo.dim] at hs

end Verif.Trace
