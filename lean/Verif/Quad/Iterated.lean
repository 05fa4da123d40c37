import Verif.Quad.Poly
import Mathlib.MeasureTheory.Measure.Haar.NormedSpace
import Mathlib.MeasureTheory.Integral.DominatedConvergence

/-! Integrals over the reference elements as iterated integrals over intervals. -/

namespace Verif.Quad

open Verif.Typ Verif.RefTopo Verif.RefGeom MeasureTheory
open Finset hiding ext
open scoped Pointwise

/-- the point at height `z` over the point `x` of the base of a cone -/
def conePt (d : Nat) (x : Vec ℝ) (z : ℝ) : Vec ℝ := setV (fun k => (1 - z) * x k) d z

/-- the integral over a reference element as an iterated integral -/
noncomputable def iter : Topo → (Vec ℝ → ℝ) → ℝ
  | .pt, u => u fun _ => 0
  | .prism t, u => ∫ z in (0:ℝ)..1, iter t fun x => u (setV x t.dim z)
  | .pyr t, u => ∫ z in (0:ℝ)..1, (1 - z) ^ t.dim * iter t fun x => u (conePt t.dim x z)

@[fun_prop]
theorem continuous_setV {X : Type} [TopologicalSpace X] {d : Nat} {f : X → Vec ℝ} {z : X → ℝ} (hf : Continuous f)
    (hz : Continuous z) : Continuous fun p => setV (f p) d (z p) := by
  refine continuous_pi fun k => ?_
  by_cases h : k = d
  · subst h; simpa only [setV_same] using hz
  · simp only [setV_ne _ h]; exact (continuous_apply k).comp hf

@[fun_prop]
theorem continuous_conePt {X : Type} [TopologicalSpace X] {d : Nat} {f : X → Vec ℝ} {z : X → ℝ} (hf : Continuous f)
    (hz : Continuous z) : Continuous fun p => conePt d (f p) (z p) := by
  unfold conePt
  refine continuous_setV (continuous_pi fun k => ?_) hz
  exact (continuous_const.sub hz).mul ((continuous_apply k).comp hf)

/-- integrals depend continuously on parameters -/
theorem continuous_iter : ∀ (t : Topo) {X : Type} [TopologicalSpace X] {u : X → Vec ℝ → ℝ},
    Continuous (fun p : X × Vec ℝ => u p.1 p.2) → Continuous fun p => iter t (u p)
  | .pt, X, _, u, hu => by
    have : Continuous fun p : X => (p, (fun _ => 0 : Vec ℝ)) := by fun_prop
    exact hu.comp this
  | .prism t, X, _, u, hu => by
    have h := continuous_iter t (X := X × ℝ) (u := fun q x => u q.1 (setV x t.dim q.2)) (by
      have : Continuous fun p : (X × ℝ) × Vec ℝ => (p.1.1, setV p.2 t.dim p.1.2) := by fun_prop
      exact hu.comp this)
    exact intervalIntegral.continuous_parametric_intervalIntegral_of_continuous'
      (f := fun p z => iter t fun x => u p (setV x t.dim z)) h 0 1
  | .pyr t, X, _, u, hu => by
    have h := continuous_iter t (X := X × ℝ) (u := fun q x => u q.1 (conePt t.dim x q.2)) (by
      have : Continuous fun p : (X × ℝ) × Vec ℝ => (p.1.1, conePt t.dim p.2 p.1.2) := by fun_prop
      exact hu.comp this)
    refine intervalIntegral.continuous_parametric_intervalIntegral_of_continuous'
      (f := fun p z => (1 - z) ^ t.dim * iter t fun x => u p (conePt t.dim x z)) ?_ 0 1
    have h2 : Continuous fun p : X × ℝ => (1 - p.2) ^ t.dim := by fun_prop
    exact h2.mul h

theorem continuous_iter_prism {t : Topo} {u : Vec ℝ → ℝ} (hu : Continuous u) :
    Continuous fun z : ℝ => iter t fun x => u (setV x t.dim z) :=
  continuous_iter t (X := ℝ) (u := fun z x => u (setV x t.dim z)) (by fun_prop)

theorem continuous_iter_pyr {t : Topo} {u : Vec ℝ → ℝ} (d : Nat) (hu : Continuous u) :
    Continuous fun z : ℝ => iter t fun x => u (conePt d x z) :=
  continuous_iter t (X := ℝ) (u := fun z x => u (conePt d x z)) (by fun_prop)

/-- only points with vanishing coordinates from the dimension on matter -/
theorem iter_congr : ∀ (t : Topo) {u v : Vec ℝ → ℝ}, (∀ x : Vec ℝ, (∀ k, t.dim ≤ k → x k = 0) → u x = v x) →
    iter t u = iter t v
  | .pt, _, _, h => h _ fun _ _ => rfl
  | .prism t, u, v, h => by
    simp only [iter]
    congr 1
    funext z
    refine iter_congr t fun x hx => h _ fun k hk => ?_
    simp only [Topo.dim] at hk
    rw [setV_ne _ (by omega), hx k (by omega)]
  | .pyr t, u, v, h => by
    simp only [iter]
    congr 1
    funext z
    congr 1
    refine iter_congr t fun x hx => h _ fun k hk => ?_
    simp only [Topo.dim] at hk
    rw [conePt, setV_ne _ (by omega), hx k (by omega), mul_zero]

theorem iter_mul : ∀ (t : Topo) (c : ℝ) (u : Vec ℝ → ℝ), iter t (fun x => c * u x) = c * iter t u
  | .pt, _, _ => rfl
  | .prism t, c, u => by
    simp only [iter]
    rw [← intervalIntegral.integral_const_mul]
    congr 1; funext z
    exact iter_mul t c _
  | .pyr t, c, u => by
    simp only [iter]
    rw [← intervalIntegral.integral_const_mul]
    congr 1; funext z
    rw [iter_mul t c]; ring

theorem iter_add : ∀ (t : Topo) {u v : Vec ℝ → ℝ}, Continuous u → Continuous v →
    iter t (fun x => u x + v x) = iter t u + iter t v
  | .pt, _, _, _, _ => rfl
  | .prism t, u, v, hu, hv => by
    simp only [iter]
    rw [← intervalIntegral.integral_add ((continuous_iter_prism hu).intervalIntegrable _ _)
      ((continuous_iter_prism hv).intervalIntegrable _ _)]
    congr 1; funext z
    exact iter_add t (by fun_prop) (by fun_prop)
  | .pyr t, u, v, hu, hv => by
    simp only [iter]
    have hp : Continuous fun z : ℝ => (1 - z) ^ t.dim := by fun_prop
    refine Eq.trans ?_ (intervalIntegral.integral_add ((hp.mul (continuous_iter_pyr _ hu)).intervalIntegrable _ _)
      ((hp.mul (continuous_iter_pyr _ hv)).intervalIntegrable _ _))
    congr 1; funext z
    rw [iter_add t (by fun_prop) (by fun_prop)]; ring

theorem iter_zero (t : Topo) : iter t (fun _ => 0) = 0 := by
  have := iter_mul t 0 fun _ => 0
  simpa using this

theorem iter_sum (t : Topo) (n : Nat) {u : Nat → Vec ℝ → ℝ} (hu : ∀ j, Continuous (u j)) :
    iter t (fun x => ∑ j ∈ range n, u j x) = ∑ j ∈ range n, iter t (u j) := by
  induction n with
  | zero => simpa using iter_zero t
  | succ n ih =>
    simp only [sum_range_succ]
    rw [iter_add t (continuous_finsetSum _ fun j _ => hu j) (hu n), ih]

theorem integrableOn_square {F : ℝ × ℝ → ℝ} (hF : Continuous F) :
    IntegrableOn F (Set.uIoc 0 1 ×ˢ Set.uIoc 0 1) := by
  have hc : IsCompact (Set.uIcc (0:ℝ) 1 ×ˢ Set.uIcc (0:ℝ) 1) := isCompact_uIcc.prod isCompact_uIcc
  exact (hF.continuousOn.integrableOn_compact hc).mono_set
    (Set.prod_mono Set.uIoc_subset_uIcc Set.uIoc_subset_uIcc)

/-- Fubini -/
theorem iter_swap : ∀ (t : Topo) {u : ℝ → Vec ℝ → ℝ}, Continuous (fun p : ℝ × Vec ℝ => u p.1 p.2) →
    ∫ s in (0:ℝ)..1, iter t (u s) = iter t fun x => ∫ s in (0:ℝ)..1, u s x
  | .pt, _, _ => rfl
  | .prism t, u, hu => by
    have h := continuous_iter t (X := ℝ × ℝ) (u := fun q x => u q.1 (setV x t.dim q.2)) (by
      have : Continuous fun p : (ℝ × ℝ) × Vec ℝ => (p.1.1, setV p.2 t.dim p.1.2) := by fun_prop
      exact hu.comp this)
    simp only [iter]
    rw [intervalIntegral_intervalIntegral_swap (F := fun s z => iter t fun x => u s (setV x t.dim z))]
    · congr 1; funext z
      exact iter_swap t (u := fun s x => u s (setV x t.dim z)) (by
        have : Continuous fun p : ℝ × Vec ℝ => (p.1, setV p.2 t.dim z) := by fun_prop
        exact hu.comp this)
    · exact integrableOn_square h
  | .pyr t, u, hu => by
    have h := continuous_iter t (X := ℝ × ℝ) (u := fun q x => u q.1 (conePt t.dim x q.2)) (by
      have : Continuous fun p : (ℝ × ℝ) × Vec ℝ => (p.1.1, conePt t.dim p.2 p.1.2) := by fun_prop
      exact hu.comp this)
    simp only [iter]
    rw [intervalIntegral_intervalIntegral_swap (F := fun s z => (1 - z) ^ t.dim * iter t fun x => u s (conePt t.dim x z))]
    · congr 1; funext z
      rw [intervalIntegral.integral_const_mul]
      congr 1
      exact iter_swap t (u := fun s x => u s (conePt t.dim x z)) (by
        have : Continuous fun p : ℝ × Vec ℝ => (p.1, conePt t.dim p.2 z) := by fun_prop
        exact hu.comp this)
    · have h2 : Continuous fun p : ℝ × ℝ => (1 - p.2) ^ t.dim := by fun_prop
      exact integrableOn_square (h2.mul h)

/-! ### Link to Lebesgue integrals -/

theorem ext_snoc {d : Nat} (x : Fin (d + 1) → ℝ) :
    ext x = setV (ext fun i : Fin d => x i.castSucc) d (x (Fin.last d)) := by
  funext k
  rcases Nat.lt_trichotomy k d with h | h | h
  · rw [ext_lt x k h, setV_ne _ (by omega)]
  · subst h; rw [ext_last, setV_same]
  · rw [setV_ne _ (by omega)]; simp only [ext]; rw [dif_neg (by omega), dif_neg (by omega)]

theorem ext_smul {d : Nat} (a : ℝ) (x : Fin d → ℝ) : ext (a • x) = fun k => a * ext x k := by
  funext k
  simp only [ext, Pi.smul_apply, smul_eq_mul]
  split <;> simp

/-- scaling an element -/
theorem integral_scaled (t : Topo) {a : ℝ} (ha : 0 < a) (g : Vec ℝ → ℝ) :
    ∫ x in {x : Fin t.dim → ℝ | Dom t a (ext x)}, g (ext x) =
      a ^ t.dim * ∫ x in {x : Fin t.dim → ℝ | Dom t 1 (ext x)}, g (fun k => a * ext x k) := by
  have h := Measure.setIntegral_comp_smul_of_pos (volume : Measure (Fin t.dim → ℝ)) (fun x => g (ext x))
    {x : Fin t.dim → ℝ | Dom t 1 (ext x)} ha
  simp only [ext_smul] at h
  rw [h]
  have hs : a • {x : Fin t.dim → ℝ | Dom t 1 (ext x)} = {x : Fin t.dim → ℝ | Dom t a (ext x)} := by
    ext x
    rw [Set.mem_smul_set_iff_inv_smul_mem₀ ha.ne']
    simp only [Set.mem_ofPred_eq, ext_smul]
    constructor
    · intro hx
      have := dom_smul ha.le t 1 _ hx
      rw [mul_one] at this
      refine dom_congr t a (fun k _ => ?_) this
      rw [← mul_assoc, mul_inv_cancel₀ ha.ne', one_mul]
    · intro hx
      have := dom_smul (inv_nonneg.2 ha.le) t a _ hx
      rwa [inv_mul_cancel₀ ha.ne'] at this
  rw [hs, smul_eq_mul, ← mul_assoc, Module.finrank_fin_fun, mul_inv_cancel₀ (pow_ne_zero _ ha.ne'), one_mul]

theorem iter_eq : ∀ (t : Topo) {u : Vec ℝ → ℝ}, Continuous u →
    ∫ x in {x : Fin t.dim → ℝ | Dom t 1 (ext x)}, u (ext x) = iter t u
  | .pt, u, _ => by
    have h : {x : Fin Topo.pt.dim → ℝ | Dom .pt 1 (ext x)} = Set.univ := by ext; simp [Dom]
    rw [h]
    have h1 : volume (Set.univ : Set (Fin 0 → ℝ)) = 1 := by simp [volume_pi]
    have h2 : ∀ x : Fin 0 → ℝ, u (ext x) = u fun _ => 0 := fun x => by
      congr 1
    change ∫ x in (Set.univ : Set (Fin 0 → ℝ)), u (ext x) = _
    simp only [h2]
    rw [setIntegral_const, Measure.real, h1]
    simp [iter]
  | .prism t, u, hu => by
    have hm : MeasurableSet {p : ℝ × (Fin t.dim → ℝ) | 0 ≤ p.1 ∧ p.1 ≤ 1 ∧ Dom t 1 (ext p.2)} := by
      have h1 : MeasurableSet {p : ℝ × (Fin t.dim → ℝ) | 0 ≤ p.1} := measurableSet_le measurable_const measurable_fst
      have h2 : MeasurableSet {p : ℝ × (Fin t.dim → ℝ) | p.1 ≤ 1} := measurableSet_le measurable_fst measurable_const
      have m : Measurable fun p : ℝ × (Fin t.dim → ℝ) => ((1 : ℝ), ext p.2) :=
        measurable_const.prodMk (measurable_ext.comp measurable_snd)
      exact h1.inter (h2.inter (m (measurableSet_dom t)))
    have hi : IntegrableOn (fun p : ℝ × (Fin t.dim → ℝ) => u (setV (ext p.2) t.dim p.1))
        {p : ℝ × (Fin t.dim → ℝ) | 0 ≤ p.1 ∧ p.1 ≤ 1 ∧ Dom t 1 (ext p.2)} := by
      refine integrableOn_box _ 1 (fun p hp => ⟨⟨hp.1, hp.2.1⟩, ext_bounds (dom_bounds t 1 _ hp.2.2)⟩) _ ?_
      exact hu.comp (continuous_setV (continuous_ext.comp continuous_snd) continuous_fst)
    have hsplit := integral_split (d := t.dim) {x : Fin (t.dim + 1) → ℝ | Dom (.prism t) 1 (ext x)} _ hm (by
      intro x
      simp only [Set.mem_ofPred_eq, Dom, ext_last]
      rw [dom_congr_iff t 1 (fun k hk => ext_lt x k hk)]) _ hi
    change ∫ x in {x : Fin (t.dim + 1) → ℝ | Dom (.prism t) 1 (ext x)}, u (ext x) = _
    simp only [ext_snoc (d := t.dim)] at hsplit ⊢
    refine hsplit.trans ?_
    have : ∀ y, ∫ x in {x : Fin t.dim → ℝ | (y, x) ∈ {p : ℝ × (Fin t.dim → ℝ) | 0 ≤ p.1 ∧ p.1 ≤ 1 ∧ Dom t 1 (ext p.2)}},
          u (setV (ext x) t.dim y)
        = (Set.Icc 0 1).indicator (fun y => iter t fun x => u (setV x t.dim y)) y := by
      intro y
      by_cases hy : y ∈ Set.Icc 0 1
      · rw [Set.indicator_of_mem hy, ← iter_eq t (by fun_prop)]
        congr 2
        ext x
        simp only [Set.mem_ofPred_eq]
        exact ⟨fun h => h.2.2, fun h => ⟨hy.1, hy.2, h⟩⟩
      · rw [Set.indicator_of_notMem hy]
        have : {x : Fin t.dim → ℝ | (y, x) ∈ {p : ℝ × (Fin t.dim → ℝ) | 0 ≤ p.1 ∧ p.1 ≤ 1 ∧ Dom t 1 (ext p.2)}} = ∅ := by
          ext x
          simp only [Set.mem_ofPred_eq, Set.mem_empty_iff_false, iff_false]
          exact fun h => hy ⟨h.1, h.2.1⟩
        rw [this, setIntegral_empty]
    simp only [this]
    rw [integral_indicator measurableSet_Icc, integral_Icc_eq_integral_Ioc, ← intervalIntegral.integral_of_le zero_le_one]
    rfl
  | .pyr t, u, hu => by
    have hm : MeasurableSet {p : ℝ × (Fin t.dim → ℝ) | 0 ≤ p.1 ∧ p.1 ≤ 1 ∧ Dom t (1 - p.1) (ext p.2)} := by
      have h1 : MeasurableSet {p : ℝ × (Fin t.dim → ℝ) | 0 ≤ p.1} := measurableSet_le measurable_const measurable_fst
      have h2 : MeasurableSet {p : ℝ × (Fin t.dim → ℝ) | p.1 ≤ 1} := measurableSet_le measurable_fst measurable_const
      have m : Measurable fun p : ℝ × (Fin t.dim → ℝ) => (1 - p.1, ext p.2) :=
        (measurable_const.sub measurable_fst).prodMk (measurable_ext.comp measurable_snd)
      exact h1.inter (h2.inter (m (measurableSet_dom t)))
    have hi : IntegrableOn (fun p : ℝ × (Fin t.dim → ℝ) => u (setV (ext p.2) t.dim p.1))
        {p : ℝ × (Fin t.dim → ℝ) | 0 ≤ p.1 ∧ p.1 ≤ 1 ∧ Dom t (1 - p.1) (ext p.2)} := by
      refine integrableOn_box _ 1 (fun p hp => ⟨⟨hp.1, hp.2.1⟩, ext_bounds fun k hk => ?_⟩) _ ?_
      · have := dom_bounds t _ _ hp.2.2 k hk
        exact ⟨this.1, by linarith [this.2, hp.1]⟩
      exact hu.comp (continuous_setV (continuous_ext.comp continuous_snd) continuous_fst)
    have hsplit := integral_split (d := t.dim) {x : Fin (t.dim + 1) → ℝ | Dom (.pyr t) 1 (ext x)} _ hm (by
      intro x
      simp only [Set.mem_ofPred_eq, Dom, ext_last]
      rw [dom_congr_iff t _ (fun k hk => ext_lt x k hk)]) _ hi
    change ∫ x in {x : Fin (t.dim + 1) → ℝ | Dom (.pyr t) 1 (ext x)}, u (ext x) = _
    simp only [ext_snoc (d := t.dim)] at hsplit ⊢
    refine hsplit.trans ?_
    have : ∀ y, y ≠ 1 → ∫ x in {x : Fin t.dim → ℝ | (y, x) ∈ {p : ℝ × (Fin t.dim → ℝ) | 0 ≤ p.1 ∧ p.1 ≤ 1 ∧ Dom t (1 - p.1) (ext p.2)}},
          u (setV (ext x) t.dim y)
        = (Set.Icc 0 1).indicator (fun y => (1 - y) ^ t.dim * iter t fun x => u (conePt t.dim x y)) y := by
      intro y hy1
      by_cases hy : y ∈ Set.Icc 0 1
      · have hlt : 0 < 1 - y := by
          have := lt_of_le_of_ne hy.2 hy1
          linarith
        rw [Set.indicator_of_mem hy, ← iter_eq t (by fun_prop)]
        have e := integral_scaled t hlt fun x => u (setV x t.dim y)
        refine Eq.trans ?_ e
        congr 2
        ext x
        simp only [Set.mem_ofPred_eq]
        exact ⟨fun h => h.2.2, fun h => ⟨hy.1, hy.2, h⟩⟩
      · rw [Set.indicator_of_notMem hy]
        have : {x : Fin t.dim → ℝ | (y, x) ∈ {p : ℝ × (Fin t.dim → ℝ) | 0 ≤ p.1 ∧ p.1 ≤ 1 ∧ Dom t (1 - p.1) (ext p.2)}} = ∅ := by
          ext x
          simp only [Set.mem_ofPred_eq, Set.mem_empty_iff_false, iff_false]
          exact fun h => hy ⟨h.1, h.2.1⟩
        rw [this, setIntegral_empty]
    rw [integral_congr_ae (g := (Set.Icc 0 1).indicator (fun y => (1 - y) ^ t.dim * iter t fun x => u (conePt t.dim x y)))]
    · rw [integral_indicator measurableSet_Icc, integral_Icc_eq_integral_Ioc,
        ← intervalIntegral.integral_of_le zero_le_one]
      rfl
    · have hne : ∀ᵐ y : ℝ, y ≠ 1 := by simp [ae_iff, measure_singleton]
      filter_upwards [hne] with y hy using this y hy

/-- integrals over reference elements -/
theorem integral_refSet_iter {d id : Nat} {t : Topo} (h : Rep d id t) {u : Vec ℝ → ℝ} (hu : Continuous u) :
    ∫ x in refSet d id, u (ext x) = iter t u := by
  rw [refSet_eq h]
  have hd := h.dim_eq
  subst hd
  exact iter_eq t hu

end Verif.Quad
