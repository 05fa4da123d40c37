import Verif.MultiLinear.Lemmas

/-! Restriction of the multilinear map to a face. -/

namespace Verif.MultiLinear

open Verif.RefGeom Verif.MatHelp Verif.RefTopo Verif.Typ Finset

theorem idx_bot {t : Topo} (g : Face t) (h : g.codim = t.dim) : (Face.bot g).idx = g.idx := by
  rw [Face.idx, h, Topo.sz_eq_zero t (t.dim + 1) (by omega), zero_add]

theorem idx_top {t : Topo} (g : Face t) (h : g.codim = t.dim) : (Face.top g).idx = nv t + g.idx := by
  rw [Face.idx, h, Topo.sz_eq_zero t (t.dim + 1) (by omega), zero_add, nv]

/-- the index function `c'` of the face agrees with `c` on the vertices of the face -/
def Agree {t : Topo} (f : Face t) (c c' : Nat → ℝ) : Prop :=
  ∀ g : Face f.shape, g.codim = f.shape.dim → c' g.idx = c (Face.comp f g).idx

theorem comp_vertex {t : Topo} (f : Face t) (g : Face f.shape) (h : g.codim = f.shape.dim) :
    (Face.comp f g).codim = t.dim := by
  rw [Face.codim_comp, h, Face.codim_add_dim]

theorem ML_face {tol : ℝ} (h0 : 0 ≤ tol) (h1 : tol < 1) {t : Topo} (f : Face t) :
    ∀ (c c' : Nat → ℝ) (x : Vec ℝ), Agree f c c' → ML tol t c (emb f x) = ML tol f.shape c' x := by
  induction f with
  | pt => intro c c' x h; exact (h .pt rfl).symm
  | @edge t f ih =>
    intro c c' x h
    have hx : ∀ r, r < t.dim → (emb (Face.edge f) x) r = emb f x r := by
      intro r hr; rw [emb_edge]; exact if_neg (by omega)
    have hd : emb (Face.edge f) x t.dim = x f.shape.dim := by rw [emb_edge]; exact if_pos rfl
    rw [ML, hd, ML_congr t (c' := c) (fun _ _ => rfl) hx,
      ML_congr t (c := fun k => c (nv t + k)) (c' := fun k => c (nv t + k)) (fun _ _ => rfl) hx, ih c c' x ?_,
      ih (fun k => c (nv t + k)) (fun k => c' (nv f.shape + k)) x ?_]
    · rfl
    · intro g hg
      have := h (Face.top g) (by simp only [Face.shape, Face.codim, Topo.dim, hg])
      rw [Face.comp_edge_top, idx_top _ (comp_vertex f g hg)] at this
      exact (congrArg c' (idx_top g hg).symm).trans this
    · intro g hg
      have := h (Face.bot g) (by simp only [Face.shape, Face.codim, Topo.dim, hg])
      rw [Face.comp_edge_bot, idx_bot _ (comp_vertex f g hg)] at this
      exact (congrArg c' (idx_bot g hg).symm).trans this
  | @bot t f ih =>
    intro c c' x h
    rw [emb_bot, ML, emb_zero f x t.dim (le_refl _), ih c c' x ?_]
    · rw [Face.shape]; ring
    · intro g hg
      have := h g hg
      rw [Face.comp_bot, idx_bot _ (comp_vertex f g hg)] at this
      exact this
  | @top t f ih =>
    intro c c' x h
    rw [emb_top, ML, setV_same, ML_congr t (c := fun k => c (nv t + k)) (c' := fun k => c (nv t + k))
      (fun _ _ => rfl) (fun r hr => setV_ne _ (by omega) _), ih (fun k => c (nv t + k)) c' x ?_]
    · rw [Face.shape]; ring
    · intro g hg
      have := h g hg
      rw [Face.comp_top, idx_top _ (comp_vertex f g hg)] at this
      exact this
  | @base t f ih =>
    intro c c' x h
    have hz := emb_zero f x t.dim (le_refl _)
    rw [emb_base, ML_pyr_far (by rw [hz, sub_zero]; exact far_one h1), hz]
    have e : (fun r => emb f x r / (1 - 0)) = emb f x := by funext r; simp
    rw [e, ih c c' x ?_]
    · rw [Face.shape]; ring
    · intro g hg
      have := h g hg
      rwa [Face.comp_base] at this
  | @cone t f ih =>
    intro c c' x h
    have hd : emb (Face.cone f) x t.dim = x f.shape.dim := by rw [emb_cone]; exact if_pos rfl
    have hap : c' (nv f.shape) = c (nv t) := by
      have := h (Face.apex : Face (.pyr f.shape)) (by simp only [Face.shape, Face.codim, Topo.dim])
      rw [Face.comp_cone_apex] at this
      exact this
    change ML tol (.pyr t) c (emb (Face.cone f) x) = ML tol (.pyr f.shape) c' x
    by_cases hf : far tol (1 - x f.shape.dim)
    · have hne := far_ne h0 hf
      rw [ML_pyr_far (by rw [hd]; exact hf), ML_pyr_far hf, hd, hap,
        ML_congr t (c' := c) (z' := emb f fun r => x r / (1 - x f.shape.dim)) (fun _ _ => rfl), ih c c' _ ?_]
      · intro g hg
        have := h (Face.base g : Face (.pyr f.shape)) (by simp only [Face.shape, Face.codim, Topo.dim, hg])
        rw [Face.comp_cone_base] at this
        exact this
      · intro r hr
        have : emb (Face.cone f) x r = emb f x r - x f.shape.dim * orig f r := by
          rw [emb_cone]; exact if_neg (by omega)
        rw [this]
        simp only [emb, embed]
        rw [div_eq_iff hne, add_mul, sum_mul]
        have : ∀ r', jac f r' r * (x r' / (1 - x f.shape.dim)) * (1 - x f.shape.dim) = jac f r' r * x r' := by
          intro r'; field_simp
        simp only [this]; ring
    · rw [ML_pyr_near (by rw [hd]; exact hf), ML_pyr_near hf, hd, hap]
  | @apex t =>
    intro c c' x h
    rw [emb_apex, ML_pyr_near (by rw [setV_same, _root_.sub_self]; exact not_far_zero h0), setV_same, one_mul]
    exact (h .pt rfl).symm

end Verif.MultiLinear
