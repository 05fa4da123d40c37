import Verif.Quad.Iterated
import Mathlib.Analysis.Calculus.Deriv.Mul
import Mathlib.Analysis.Calculus.Deriv.Pow

/-! The divergence theorem on the topologies, by induction over their construction. -/

namespace Verif.Quad

open Verif.Typ Verif.RefTopo Verif.RefGeom MeasureTheory
open Finset hiding ext

/-- `u` is continuously differentiable in the first `d` coordinates, with partial derivatives `D` -/
structure C1 (d : Nat) (u : Vec ℝ → ℝ) (D : Nat → Vec ℝ → ℝ) : Prop where
  cont : Continuous u
  contD : ∀ j, Continuous (D j)
  chain : ∀ (γ : ℝ → Vec ℝ) (γ' : Vec ℝ) (s : ℝ), (∀ k, HasDerivAt (fun r => γ r k) (γ' k) s) →
    HasDerivAt (fun r => u (γ r)) (∑ j ∈ range d, D j (γ s) * γ' j) s

theorem hasDerivAt_setV {γ : ℝ → Vec ℝ} {γ' : Vec ℝ} {s : ℝ} (d : Nat) {z : ℝ → ℝ} {z' : ℝ}
    (h : ∀ k, k ≠ d → HasDerivAt (fun r => γ r k) (γ' k) s) (hz : HasDerivAt z z' s) (k : Nat) :
    HasDerivAt (fun r => setV (γ r) d (z r) k) (setV γ' d z' k) s := by
  by_cases hk : k = d
  · subst hk; simpa only [setV_same] using hz
  · simpa only [setV_ne _ hk] using h k hk

theorem sum_setV_zero (d : Nat) (E : Nat → ℝ) (v : Vec ℝ) (a : ℝ) :
    ∑ j ∈ range (d + 1), E j * setV v d a j = (∑ j ∈ range d, E j * v j) + E d * a := by
  rw [sum_range_succ, setV_same]
  congr 1
  exact sum_congr rfl fun j hj => by rw [setV_ne _ (by have := mem_range.1 hj; omega)]

theorem C1.slice {d : Nat} {u : Vec ℝ → ℝ} {D : Nat → Vec ℝ → ℝ} (h : C1 (d + 1) u D) (z : ℝ) :
    C1 d (fun x => u (setV x d z)) (fun j x => D j (setV x d z)) := by
  have hc := h.cont
  have hD := h.contD
  refine ⟨by fun_prop, fun j => by have := hD j; fun_prop, fun γ γ' s hγ => ?_⟩
  have := h.chain (fun r => setV (γ r) d z) (setV γ' d 0) s
    (hasDerivAt_setV d (fun k _ => hγ k) (hasDerivAt_const s z))
  rw [sum_setV_zero d (fun j => D j (setV (γ s) d z)), mul_zero, add_zero] at this
  exact this

theorem C1.cone {d : Nat} {u : Vec ℝ → ℝ} {D : Nat → Vec ℝ → ℝ} (h : C1 (d + 1) u D) (z : ℝ) :
    C1 d (fun x => u (conePt d x z)) (fun j x => (1 - z) * D j (conePt d x z)) := by
  have hc := h.cont
  have hD := h.contD
  refine ⟨by fun_prop, fun j => by have := hD j; fun_prop, fun γ γ' s hγ => ?_⟩
  have := h.chain (fun r => conePt d (γ r) z) (setV (fun k => (1 - z) * γ' k) d 0) s
    (hasDerivAt_setV d (fun k _ => (hγ k).const_mul (1 - z)) (hasDerivAt_const s z))
  rw [sum_setV_zero d (fun j => D j (conePt d (γ s) z)), mul_zero, add_zero] at this
  refine this.congr_deriv (sum_congr rfl fun j _ => ?_)
  ring

theorem C1.mulX {d : Nat} {u : Vec ℝ → ℝ} {D : Nat → Vec ℝ → ℝ} (h : C1 d u D) {j : Nat} (hj : j < d) :
    C1 d (fun x => x j * u x) (fun i x => (if i = j then u x else 0) + x j * D i x) := by
  have hc := h.cont
  have hD := h.contD
  have hx : Continuous fun x : Vec ℝ => x j := continuous_apply j
  refine ⟨hx.mul hc, fun i => Continuous.add ?_ (hx.mul (hD i)), fun γ γ' s hγ => ?_⟩
  · by_cases hi : i = j
    · simpa only [if_pos hi] using hc
    · simpa only [if_neg hi] using continuous_const
  have := (hγ j).mul (h.chain γ γ' s hγ)
  refine this.congr_deriv ?_
  simp only [add_mul, sum_add_distrib, ite_mul, zero_mul]
  rw [sum_ite_eq' (range d) j, if_pos (mem_range.2 hj), mul_sum]
  congr 1
  · ring
  · exact sum_congr rfl fun i _ => by ring

/-- the fundamental theorem along the last coordinate -/
theorem C1.ftc {d : Nat} {u : Vec ℝ → ℝ} {D : Nat → Vec ℝ → ℝ} (h : C1 (d + 1) u D) (x : Vec ℝ) :
    ∫ z in (0:ℝ)..1, D d (setV x d z) = u (setV x d 1) - u (setV x d 0) := by
  have hD := h.contD d
  refine intervalIntegral.integral_eq_sub_of_hasDerivAt (f := fun z => u (setV x d z)) (fun s _ => ?_)
    (Continuous.intervalIntegrable (by fun_prop) _ _)
  have := h.chain (fun r => setV x d r) (setV (fun _ => 0) d 1) s
    (hasDerivAt_setV d (fun k _ => hasDerivAt_const s _) (hasDerivAt_id s))
  rw [sum_setV_zero d (fun j => D j (setV x d s))] at this
  simpa using this

/-- the derivative along the rays of a cone, weighted -/
theorem C1.ray {d : Nat} {u : Vec ℝ → ℝ} {D : Nat → Vec ℝ → ℝ} (h : C1 (d + 1) u D) (hd : 0 < d) (x : Vec ℝ) :
    ∫ z in (0:ℝ)..1, ((1 - z) ^ d * (D d (conePt d x z) - ∑ j ∈ range d, x j * D j (conePt d x z)) -
      d * (1 - z) ^ (d - 1) * u (conePt d x z)) = - u (setV x d 0) := by
  have hD := h.contD
  have hu := h.cont
  have hc : Continuous fun z : ℝ => ((1 - z) ^ d * (D d (conePt d x z) - ∑ j ∈ range d, x j * D j (conePt d x z)) -
      d * (1 - z) ^ (d - 1) * u (conePt d x z)) := by
    have h1 : Continuous fun z : ℝ => ∑ j ∈ range d, x j * D j (conePt d x z) :=
      continuous_finsetSum _ fun j _ => by have := hD j; fun_prop
    have h2 := hD d
    fun_prop
  have hz : (fun k => (1 - (0:ℝ)) * x k) = x := by funext k; ring
  have := intervalIntegral.integral_eq_sub_of_hasDerivAt (a := 0) (b := 1)
    (f := fun z => (1 - z) ^ d * u (conePt d x z)) (fun s _ => ?_) (hc.intervalIntegrable _ _)
  · rw [this, sub_self, zero_pow (by omega), conePt, conePt, hz]; ring
  · have h1 : ∀ k : Nat, HasDerivAt (fun r : ℝ => (1 - r) * x k) (-x k) s := fun k => by
      simpa using ((hasDerivAt_id s).const_sub 1).mul_const (x k)
    have h2 := h.chain (fun r => conePt d x r) (setV (fun k => -x k) d 1) s
      (hasDerivAt_setV d (fun k _ => h1 k) (hasDerivAt_id s))
    rw [sum_setV_zero d (fun j => D j (conePt d x s))] at h2
    have h3 : HasDerivAt (fun z : ℝ => (1 - z) ^ d) ((d : ℝ) * (1 - s) ^ (d - 1) * (-1)) s := by
      have := ((hasDerivAt_id s).const_sub 1).fun_pow d
      simpa using this
    refine (h3.mul h2).congr_deriv ?_
    have : ∑ j ∈ range d, D j (conePt d x s) * -x j = - ∑ j ∈ range d, x j * D j (conePt d x s) := by
      rw [← sum_neg_distrib]
      exact sum_congr rfl fun j _ => by ring
    rw [this]; ring

theorem integral_listSum {α : Type} (l : List α) (F : α → ℝ → ℝ) (h : ∀ a ∈ l, Continuous (F a)) :
    ∫ z in (0:ℝ)..1, (l.map fun a => F a z).sum = (l.map fun a => ∫ z in (0:ℝ)..1, F a z).sum ∧
      Continuous fun z => (l.map fun a => F a z).sum := by
  induction l with
  | nil => simpa using continuous_const
  | cons a l ih =>
    obtain ⟨h1, h2⟩ := ih fun b hb => h b (List.mem_cons_of_mem _ hb)
    have h3 := h a List.mem_cons_self
    simp only [List.map_cons, List.sum_cons]
    refine ⟨?_, h3.add h2⟩
    rw [intervalIntegral.integral_add (h3.intervalIntegrable _ _) (h2.intervalIntegrable _ _), h1]

theorem sum_listSum {α : Type} (n : Nat) (l : List α) (F : Nat → α → ℝ) :
    ∑ j ∈ range n, (l.map fun a => F j a).sum = (l.map fun a => ∑ j ∈ range n, F j a).sum := by
  induction l with
  | nil => simp
  | cons a l ih => simp only [List.map_cons, List.sum_cons, sum_add_distrib, ih]

theorem continuous_emb {t : Topo} (f : Face t) : Continuous (emb (K := ℝ) f) := by
  refine continuous_pi fun j => ?_
  simp only [emb, embed]
  exact continuous_const.add (continuous_finsetSum _ fun r _ => continuous_const.mul (continuous_apply r))

theorem emb_edge_setV {t : Topo} (f : Face t) (y : Vec ℝ) (z : ℝ) :
    emb (.edge f) (setV y f.shape.dim z) = setV (emb f y) t.dim z := by
  rw [emb_edge]
  have e : emb (K := ℝ) f (setV y f.shape.dim z) = emb f y := emb_congr f fun k hk => setV_ne _ (by omega) _
  funext j
  rw [e, setV_same]
  rfl

theorem emb_cone_conePt {t : Topo} (f : Face t) (y : Vec ℝ) (z : ℝ) :
    emb (.cone f) (conePt f.shape.dim y z) = conePt t.dim (emb f y) z := by
  rw [emb_cone]
  have e : emb (K := ℝ) f (conePt f.shape.dim y z) = emb f (fun i => y i - z * y i) :=
    emb_congr f fun k hk => by rw [conePt, setV_ne _ (by omega)]; ring
  funext j
  rw [e, emb_sub]
  simp only [conePt, setV_same]
  by_cases hj : j = t.dim
  · subst hj; rw [if_pos rfl, setV_same]
  · rw [if_neg hj, setV_ne _ hj]; ring

theorem dot_emb {t : Topo} (f : Face t) (h : f.codim = 1) (y : Vec ℝ) :
    dot t.dim (nrm (K := ℝ) f) (emb f y) = dot t.dim (nrm f) (orig f) := by
  have e : emb (K := ℝ) f y = fun k => orig f k + ∑ r ∈ range f.shape.dim, jac f r k * y r := by
    funext k; simp only [emb, embed]
  rw [e, dot_add_right]
  have : dot t.dim (nrm (K := ℝ) f) (fun k => ∑ r ∈ range f.shape.dim, jac f r k * y r) =
      ∑ r ∈ range f.shape.dim, y r * dot t.dim (nrm f) (jac f r) := by
    simp only [dot, mul_sum]
    rw [sum_comm]
    exact sum_congr rfl fun r _ => sum_congr rfl fun k _ => by ring
  rw [this, sum_eq_zero, add_zero]
  intro r hr
  rw [nrm_orthogonal f h r (mem_range.1 hr), mul_zero]

theorem emb_whole {t : Topo} (y : Vec ℝ) (hy : ∀ k, t.dim ≤ k → y k = 0) : emb (Face.whole t) y = y := by
  funext k
  simp only [emb, embed]
  rw [orig_whole, jac_whole, Face.shape_of_codim_zero _ (Face.codim_whole t), zero_add]
  by_cases hk : k < t.dim
  · rw [sum_eq_single k]
    · beta_reduce; rw [if_pos ⟨rfl, hk⟩, one_mul]
    · intro r _ hr; beta_reduce; rw [if_neg (fun h => hr h.1), zero_mul]
    · intro h; exact absurd (mem_range.2 hk) h
  · rw [hy k (by omega)]
    refine sum_eq_zero fun r hr => ?_
    have := mem_range.1 hr
    beta_reduce
    rw [if_neg (by omega), zero_mul]

theorem iter_facet {t : Topo} {u : Vec ℝ → ℝ} {s : Topo} (hs : s = t) {w : Vec ℝ → ℝ}
    (hw : ∀ x : Vec ℝ, (∀ k, t.dim ≤ k → x k = 0) → w x = u x) : iter s w = iter t u := by
  subst hs; exact iter_congr s hw

/-- the divergence theorem -/
theorem divergence : ∀ (t : Topo) {u : Vec ℝ → ℝ} {D : Nat → Vec ℝ → ℝ}, C1 t.dim u D → ∀ k, k < t.dim →
    iter t (D k) = ((faces t 1).map fun f => nrm f k * iter f.shape fun y => u (emb f y)).sum
  | .pt, _, _, _, k, hk => by simp [Topo.dim] at hk
  | .prism t, u, D, h, k, hk => by
    have hw : faces t 0 = [Face.whole t] := by cases t <;> rfl
    have hsh := Face.shape_of_codim_zero _ (Face.codim_whole t)
    have hu := h.cont
    simp only [Topo.dim] at h hk
    simp only [faces, hw, List.map_append, List.map_map, List.map_cons, List.map_nil, List.sum_append,
      List.sum_cons, List.sum_nil, Face.shape, nrm, add_zero]
    have hbot : iter (Face.whole t).shape (fun y => u (emb (Face.bot (Face.whole t)) y)) =
        iter t fun x => u (setV x t.dim 0) := iter_facet hsh fun x hx => by
      rw [emb_bot, emb_whole x hx]
      congr 1
      funext j
      by_cases hj : j = t.dim
      · subst hj; rw [setV_same, hx _ (le_refl _)]
      · rw [setV_ne _ hj]
    have htop : iter (Face.whole t).shape (fun y => u (emb (Face.top (Face.whole t)) y)) =
        iter t fun x => u (setV x t.dim 1) := iter_facet hsh fun x hx => by
      rw [emb_top, emb_whole x hx]
    rw [hbot, htop]
    by_cases hkd : k = t.dim
    · subst hkd
      rw [setV_same, setV_same]
      have hz : (List.map ((fun f : Face (Topo.prism t) => nrm f t.dim * iter f.shape fun y => u (emb f y)) ∘ Face.edge)
          (faces t 1)).sum = 0 := map_sum_zero _ _ fun f _ => by
        simp only [Function.comp, nrm]
        rw [nrm_zero f _ (le_refl _), zero_mul]
      rw [hz]
      simp only [iter]
      have hD := h.contD t.dim
      rw [iter_swap t (by fun_prop)]
      simp only [h.ftc]
      have hsub : (fun x => u (setV x t.dim 1) - u (setV x t.dim 0)) =
          fun x => u (setV x t.dim 1) + (-1) * u (setV x t.dim 0) := by funext x; ring
      rw [hsub, iter_add t (by fun_prop) (by fun_prop), iter_mul]
      ring
    · have hlt : k < t.dim := by omega
      rw [setV_ne _ hkd, setV_ne _ hkd]
      simp only [iter]
      have hs : ∀ z : ℝ, (iter t fun x => D k (setV x t.dim z)) =
          ((faces t 1).map fun f => nrm f k * iter f.shape fun y => u (setV (emb f y) t.dim z)).sum := fun z =>
        divergence t (h.slice z) k hlt
      simp only [hs]
      rw [(integral_listSum _ _ fun f _ => ?_).1]
      · rw [zero_mul, zero_mul, add_zero, add_zero]
        congr 1
        refine List.map_congr_left fun f _ => ?_
        simp only [Function.comp, nrm, Face.shape, iter, emb_edge_setV]
        rw [intervalIntegral.integral_const_mul]
      · refine continuous_const.mul (continuous_iter f.shape (X := ℝ) (u := fun z y => u (setV (emb f y) t.dim z)) ?_)
        have := continuous_emb f
        fun_prop
  | .pyr t, u, D, h, k, hk => by
    have hw : faces t 0 = [Face.whole t] := by cases t <;> rfl
    have hsh := Face.shape_of_codim_zero _ (Face.codim_whole t)
    have hu := h.cont
    simp only [Topo.dim] at h hk
    have hbase : iter (Face.whole t).shape (fun y => u (emb (Face.base (Face.whole t)) y)) =
        iter t fun x => u (setV x t.dim 0) := iter_facet hsh fun x hx => by
      rw [emb_base, emb_whole x hx]
      congr 1
      funext j
      by_cases hj : j = t.dim
      · subst hj; rw [setV_same, hx _ (le_refl _)]
      · rw [setV_ne _ hj]
    by_cases h0 : 0 < t.dim
    · have hsum : ∀ F : Face (.pyr t) → ℝ, ((faces (.pyr t) 1).map F).sum =
          F (Face.base (Face.whole t)) + ((faces t 1).map (fun f => F (Face.cone f))).sum := by
        intro F
        simp only [faces, hw, List.map_append, List.map_map, List.map_cons, List.map_nil, List.sum_append,
          List.sum_cons, List.sum_nil]
        rw [if_neg (by omega)]
        simp only [List.map_nil, List.sum_nil, add_zero]
        rfl
      have hshape : ∀ f ∈ faces t 1, f.codim = 1 ∧ f.shape.dim = t.dim - 1 := by
        intro f hf
        have hfd := Face.codim_add_dim f
        have := (mem_faces f 1).1 hf
        exact ⟨this, by omega⟩
      have hcont : ∀ f : Face t, Continuous fun z : ℝ => iter f.shape fun y => u (conePt t.dim (emb f y) z) := by
        intro f
        refine continuous_iter f.shape (X := ℝ) (u := fun z y => u (conePt t.dim (emb f y) z)) ?_
        have := continuous_emb f
        fun_prop
      have hcone : ∀ f ∈ faces t 1, iter (Face.cone f).shape (fun y => u (emb (Face.cone f) y)) =
          ∫ z in (0:ℝ)..1, (1 - z) ^ (t.dim - 1) * iter f.shape fun y => u (conePt t.dim (emb f y) z) := by
        intro f hf
        simp only [Face.shape, iter, emb_cone_conePt]
        rw [(hshape f hf).2]
      have hpow : Continuous fun z : ℝ => (1 - z) ^ (t.dim - 1) := by fun_prop
      have hp : ∀ z : ℝ, (1 - z) ^ t.dim = (1 - z) ^ (t.dim - 1) * (1 - z) := fun z => by
        rw [← pow_succ]; congr 1; omega
      rw [hsum]
      have hn : ∀ f : Face t, nrm (K := ℝ) (Face.cone f) = setV (nrm f) t.dim (dot t.dim (nrm f) (orig f)) := fun _ => rfl
      have hnb : nrm (K := ℝ) (Face.base (Face.whole t)) = setV (fun _ => 0) t.dim (-1) := rfl
      rw [hnb, show (Face.base (Face.whole t)).shape = (Face.whole t).shape from rfl, hbase]
      simp only [hn]
      by_cases hkd : k = t.dim
      · subst hkd
        simp only [setV_same]
        have hD := h.contD
        have hDs : ∀ z : ℝ, Continuous fun x : Vec ℝ => ∑ j ∈ range t.dim, x j * D j (conePt t.dim x z) := fun z =>
          continuous_finsetSum _ fun j _ => (continuous_apply j).mul (by have := hD j; fun_prop)
        -- the divergence theorem on the base for the radial field
        have hrad : ∀ z : ℝ, t.dim * (iter t fun x => u (conePt t.dim x z)) +
            (1 - z) * (iter t fun x => ∑ j ∈ range t.dim, x j * D j (conePt t.dim x z)) =
            ((faces t 1).map fun f => dot t.dim (nrm f) (orig f) *
              iter f.shape fun y => u (conePt t.dim (emb f y) z)).sum := fun z => by
          have hj : ∀ j ∈ range t.dim, (iter t fun x => u (conePt t.dim x z)) +
              (1 - z) * (iter t fun x => x j * D j (conePt t.dim x z)) =
              ((faces t 1).map fun f => nrm f j *
                iter f.shape fun y => emb f y j * u (conePt t.dim (emb f y) z)).sum := fun j hj => by
            have ih := divergence t ((h.cone z).mulX (mem_range.1 hj)) j (mem_range.1 hj)
            rw [← ih, ← iter_mul, ← iter_add t (by fun_prop) (by have := hD j; fun_prop)]
            refine iter_congr t fun x _ => ?_
            rw [if_pos rfl]; ring
          have hsumj := sum_congr rfl hj
          rw [sum_add_distrib, sum_const, card_range, nsmul_eq_mul, ← mul_sum,
            ← iter_sum t t.dim (u := fun j x => x j * D j (conePt t.dim x z))
              (fun j => (continuous_apply j).mul (by have := hD j; fun_prop))] at hsumj
          rw [hsumj, sum_listSum]
          congr 1
          refine List.map_congr_left fun f hf => ?_
          have hfc := continuous_emb f
          simp only [← iter_mul]
          rw [← iter_sum f.shape t.dim (u := fun j y => nrm f j * (emb f y j * u (conePt t.dim (emb f y) z)))
              (fun j => continuous_const.mul (((continuous_apply j).comp hfc).mul (by fun_prop)))]
          refine iter_congr _ fun y _ => ?_
          rw [← dot_emb f (hshape f hf).1 y, dot, sum_mul]
          exact sum_congr rfl fun j _ => by ring
        have hG : ∀ z : ℝ, (1 - z) ^ t.dim * (iter t fun x => D t.dim (conePt t.dim x z)) =
            (iter t fun x => ((1 - z) ^ t.dim * (D t.dim (conePt t.dim x z) -
              ∑ j ∈ range t.dim, x j * D j (conePt t.dim x z)) -
              t.dim * (1 - z) ^ (t.dim - 1) * u (conePt t.dim x z))) +
            ((faces t 1).map fun f => dot t.dim (nrm f) (orig f) * ((1 - z) ^ (t.dim - 1) *
              iter f.shape fun y => u (conePt t.dim (emb f y) z))).sum := fun z => by
          have e : (fun x : Vec ℝ => ((1 - z) ^ t.dim * (D t.dim (conePt t.dim x z) -
              ∑ j ∈ range t.dim, x j * D j (conePt t.dim x z)) -
              t.dim * (1 - z) ^ (t.dim - 1) * u (conePt t.dim x z))) =
              fun x => (1 - z) ^ t.dim * D t.dim (conePt t.dim x z) +
                ((-(1 - z) ^ t.dim) * (∑ j ∈ range t.dim, x j * D j (conePt t.dim x z)) +
                (-(t.dim * (1 - z) ^ (t.dim - 1))) * u (conePt t.dim x z)) := by funext x; ring
          have h1 := hD t.dim
          have h2 := hDs z
          rw [e, iter_add t (by fun_prop) (by fun_prop), iter_add t (by fun_prop) (by fun_prop), iter_mul, iter_mul,
            iter_mul]
          have e2 : ((faces t 1).map fun f => dot t.dim (nrm f) (orig f) * ((1 - z) ^ (t.dim - 1) *
              iter f.shape fun y => u (conePt t.dim (emb f y) z))).sum =
              (1 - z) ^ (t.dim - 1) * ((faces t 1).map fun f => dot t.dim (nrm f) (orig f) *
              iter f.shape fun y => u (conePt t.dim (emb f y) z)).sum := by
            rw [← List.sum_map_mul_left]
            congr 1
            exact List.map_congr_left fun f _ => by ring
          rw [e2, ← hrad z, hp]; ring
        have hGc : Continuous fun p : ℝ × Vec ℝ => ((1 - p.1) ^ t.dim * (D t.dim (conePt t.dim p.2 p.1) -
              ∑ j ∈ range t.dim, p.2 j * D j (conePt t.dim p.2 p.1)) -
              t.dim * (1 - p.1) ^ (t.dim - 1) * u (conePt t.dim p.2 p.1)) := by
          have h1 := hD t.dim
          have h2 : Continuous fun p : ℝ × Vec ℝ => ∑ j ∈ range t.dim, p.2 j * D j (conePt t.dim p.2 p.1) :=
            continuous_finsetSum _ fun j _ => ((continuous_apply j).comp continuous_snd).mul
              (by have := hD j; fun_prop)
          fun_prop
        have hL := integral_listSum (faces t 1) (fun f z => dot t.dim (nrm f) (orig f) * ((1 - z) ^ (t.dim - 1) *
          iter f.shape fun y => u (conePt t.dim (emb f y) z))) fun f _ => continuous_const.mul (hpow.mul (hcont f))
        simp only [iter, hG]
        rw [intervalIntegral.integral_add ((continuous_iter t hGc).intervalIntegrable _ _)
          (hL.2.intervalIntegrable _ _), hL.1, iter_swap t hGc]
        simp only [h.ray h0]
        congr 1
        · rw [← iter_mul]
          exact iter_congr t fun x _ => by ring
        · congr 1
          refine List.map_congr_left fun f hf => ?_
          rw [hcone f hf, intervalIntegral.integral_const_mul]
      · have hlt : k < t.dim := by omega
        simp only [setV_ne _ hkd, zero_mul, zero_add]
        have hs : ∀ z : ℝ, (1 - z) ^ t.dim * (iter t fun x => D k (conePt t.dim x z)) =
            ((faces t 1).map fun f => nrm f k * ((1 - z) ^ (t.dim - 1) *
              iter f.shape fun y => u (conePt t.dim (emb f y) z))).sum := fun z => by
          have ih := divergence t (h.cone z) k hlt
          rw [iter_mul] at ih
          rw [hp, mul_assoc, ih, ← List.sum_map_mul_left]
          congr 1
          exact List.map_congr_left fun f _ => by ring
        simp only [iter, hs]
        rw [(integral_listSum (faces t 1) (fun f z => nrm f k * ((1 - z) ^ (t.dim - 1) *
          iter f.shape fun y => u (conePt t.dim (emb f y) z))) fun f _ => continuous_const.mul (hpow.mul (hcont f))).1]
        congr 1
        refine List.map_congr_left fun f hf => ?_
        rw [hcone f hf, intervalIntegral.integral_const_mul]
    · obtain rfl := eq_pt_of_dim (t := t) (by omega)
      obtain rfl : k = 0 := by simpa [Topo.dim] using hk
      have := h.ftc fun _ => 0
      simp only [Topo.dim] at this
      simp only [faces, Topo.dim, if_true, List.map_append, List.map_cons, List.map_nil,
        List.sum_append, List.sum_cons, List.sum_nil, Face.whole, Face.shape, nrm, iter, setV_same, conePt, mul_zero,
        pow_zero, one_mul, emb_apex]
      rw [this]
      have e : emb (K := ℝ) (Face.base Face.pt) (fun _ => 0) = setV (fun _ => 0) 0 0 := by
        funext j
        rw [emb_base, emb_at_zero]
        simp [orig, setV]
      rw [e]; ring

end Verif.Quad
