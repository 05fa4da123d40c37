import Verif.RefGeom.Volume
import Mathlib.MeasureTheory.Integral.Prod
import Mathlib.MeasureTheory.Integral.IntervalIntegral.FundThmCalculus

/-! Lebesgue integrals of monomials over the reference domains. -/

namespace Verif.Quad

open Verif.Typ Verif.RefTopo Verif.RefGeom MeasureTheory
open Finset hiding ext

/-- the integral of `y^k (f-y)^m` -/
theorem integral_beta (k m : Nat) : ∀ f : ℝ,
    ∫ y in (0:ℝ)..f, y ^ k * (f - y) ^ m =
      f ^ (k + m + 1) * ((k.factorial : ℝ) * m.factorial / ((k + m + 1).factorial : ℝ)) := by
  induction m generalizing k with
  | zero =>
    intro f
    simp only [pow_zero, mul_one, integral_pow, Nat.factorial_zero, Nat.cast_one, Nat.add_zero,
      zero_pow (Nat.succ_ne_zero k), sub_zero, Nat.factorial_succ]
    have : (k.factorial : ℝ) ≠ 0 := by positivity
    push_cast
    field_simp
  | succ m ih =>
    intro f
    have hd : ∀ y ∈ Set.uIcc 0 f, HasDerivAt (fun y : ℝ => y ^ (k + 1) * (f - y) ^ (m + 1))
        (((k + 1 : ℕ) : ℝ) * (y ^ k * (f - y) ^ (m + 1)) - ((m + 1 : ℕ) : ℝ) * (y ^ (k + 1) * (f - y) ^ m)) y := by
      intro y _
      have h1 : HasDerivAt (fun y : ℝ => y ^ (k + 1)) (((k + 1 : ℕ) : ℝ) * y ^ k) y := by
        simpa using hasDerivAt_pow (k + 1) y
      have h2 : HasDerivAt (fun y : ℝ => (f - y) ^ (m + 1)) (((m + 1 : ℕ) : ℝ) * (f - y) ^ m * (-1)) y := by
        have := ((hasDerivAt_id y).const_sub f).fun_pow (m + 1)
        simpa using this
      have := h1.mul h2
      refine this.congr_deriv ?_
      ring
    have hi : IntervalIntegrable (fun y : ℝ => ((k + 1 : ℕ) : ℝ) * (y ^ k * (f - y) ^ (m + 1)) -
        ((m + 1 : ℕ) : ℝ) * (y ^ (k + 1) * (f - y) ^ m)) volume 0 f :=
      Continuous.intervalIntegrable (by fun_prop) _ _
    have h := intervalIntegral.integral_eq_sub_of_hasDerivAt hd hi
    rw [intervalIntegral.integral_sub (Continuous.intervalIntegrable (by fun_prop) _ _)
      (Continuous.intervalIntegrable (by fun_prop) _ _), intervalIntegral.integral_const_mul,
      intervalIntegral.integral_const_mul, ih (k + 1) f] at h
    simp only [sub_self, zero_pow (Nat.succ_ne_zero _), mul_zero, zero_mul] at h
    have e : k + 1 + m + 1 = k + (m + 1) + 1 := by ring
    rw [e] at h
    have hk : ((k + 1 : ℕ) : ℝ) ≠ 0 := by positivity
    rw [sub_eq_zero] at h
    apply mul_left_cancel₀ hk
    rw [h, Nat.factorial_succ k, Nat.factorial_succ m]
    push_cast
    ring

/-- the monomial `x_0^{a 0} ... x_{d-1}^{a (d-1)}` -/
def mono {K : Type} [Field K] (d : Nat) (a : Nat → Nat) (x : Vec K) : K := ∏ i ∈ range d, x i ^ a i

/-- its total degree -/
def deg (d : Nat) (a : Nat → Nat) : Nat := ∑ i ∈ range d, a i

/-- closed form of the integral of a monomial over the reference domain -/
def mom (K : Type) [Field K] : Topo → (Nat → Nat) → K
  | .pt, _ => 1
  | .prism t, a => mom K t a * (1 / (a t.dim + 1))
  | .pyr t, a => mom K t a * (((a t.dim).factorial : K) * ((t.dim + deg t.dim a).factorial : K) /
      ((a t.dim + (t.dim + deg t.dim a) + 1).factorial : K))

theorem mono_succ {K : Type} [Field K] (d : Nat) (a : Nat → Nat) (x : Vec K) :
    mono (d + 1) a x = mono d a x * x d ^ a d := prod_range_succ _ _

theorem deg_succ (d : Nat) (a : Nat → Nat) : deg (d + 1) a = deg d a + a d := sum_range_succ _ _

theorem mono_congr {K : Type} [Field K] {d : Nat} {a : Nat → Nat} {x y : Vec K} (h : ∀ k, k < d → x k = y k) :
    mono d a x = mono d a y := prod_congr rfl fun i hi => by rw [h i (by simpa using hi)]

theorem mono_smul {K : Type} [Field K] (d : Nat) (a : Nat → Nat) (c : K) (x : Vec K) :
    mono d a (fun i => c * x i) = c ^ deg d a * mono d a x := by
  simp only [mono, deg, mul_pow, prod_mul_distrib, prod_pow_eq_pow_sum]

theorem dom_bounds : ∀ (t : Topo) (f : ℝ) (x : Vec ℝ), Dom t f x → ∀ k, k < t.dim → 0 ≤ x k ∧ x k ≤ f
  | .pt, _, _, _, _, hk => by simp [Topo.dim] at hk
  | .prism t, f, x, h, k, hk => by
    simp only [Topo.dim] at hk
    rcases Nat.lt_succ_iff_lt_or_eq.mp hk with hk | rfl
    · exact dom_bounds t f x h.2.2 k hk
    · exact ⟨h.1, h.2.1⟩
  | .pyr t, f, x, h, k, hk => by
    simp only [Topo.dim] at hk
    rcases Nat.lt_succ_iff_lt_or_eq.mp hk with hk | rfl
    · have := dom_bounds t _ x h.2.2 k hk
      exact ⟨this.1, by linarith [this.2, h.1]⟩
    · exact ⟨h.1, h.2.1⟩

theorem split_set {d : Nat} (S : Set (Fin (d + 1) → ℝ)) (T : Set (ℝ × (Fin d → ℝ)))
    (h : ∀ x : Fin (d + 1) → ℝ, x ∈ S ↔ (x (Fin.last d), fun i => x (Fin.castSucc i)) ∈ T) :
    S = MeasurableEquiv.piFinSuccAbove (fun _ => ℝ) (Fin.last d) ⁻¹' T := by
  ext x
  rw [h x]
  simp only [Set.mem_preimage, MeasurableEquiv.piFinSuccAbove_apply, Fin.insertNthEquiv, Equiv.symm,
    Equiv.coe_fn_mk]
  have : (fun i : Fin d => x i.castSucc) = Fin.removeNth (Fin.last d) x := by
    funext i; simp [Fin.removeNth]
  rw [this]

/-- Fubini with the last coordinate outside -/
theorem integral_split {d : Nat} (S : Set (Fin (d + 1) → ℝ)) (T : Set (ℝ × (Fin d → ℝ))) (hT : MeasurableSet T)
    (h : ∀ x : Fin (d + 1) → ℝ, x ∈ S ↔ (x (Fin.last d), fun i => x (Fin.castSucc i)) ∈ T)
    (g : ℝ × (Fin d → ℝ) → ℝ) (hg : IntegrableOn g T) :
    ∫ x in S, g (x (Fin.last d), fun i => x (Fin.castSucc i)) = ∫ y, ∫ x in {x | (y, x) ∈ T}, g (y, x) := by
  have e : ∀ x : Fin (d + 1) → ℝ, (x (Fin.last d), fun i => x (Fin.castSucc i)) =
      MeasurableEquiv.piFinSuccAbove (fun _ => ℝ) (Fin.last d) x := by
    intro x
    simp only [MeasurableEquiv.piFinSuccAbove_apply, Fin.insertNthEquiv, Equiv.symm, Equiv.coe_fn_mk]
    have : (fun i : Fin d => x i.castSucc) = Fin.removeNth (Fin.last d) x := by
      funext i; simp [Fin.removeNth]
    rw [this]
  rw [split_set S T h]
  simp only [e]
  rw [(volume_preserving_piFinSuccAbove (fun _ => ℝ) (Fin.last d)).setIntegral_preimage_emb
    (MeasurableEquiv.measurableEmbedding _) g T, ← integral_indicator hT]
  have hgi : Integrable (T.indicator g) (Measure.prod volume volume) := (integrable_indicator_iff hT).mpr hg
  refine (integral_prod _ hgi).trans ?_
  congr 1
  funext y
  have hTy : MeasurableSet {x : Fin d → ℝ | (y, x) ∈ T} := measurable_prodMk_left hT
  rw [← integral_indicator hTy]
  rfl

theorem integrableOn_box {d : Nat} (T : Set (ℝ × (Fin d → ℝ))) (f : ℝ)
    (h : ∀ p ∈ T, (0 ≤ p.1 ∧ p.1 ≤ f) ∧ ∀ i, 0 ≤ p.2 i ∧ p.2 i ≤ f) (g : ℝ × (Fin d → ℝ) → ℝ) (hg : Continuous g) :
    IntegrableOn g T := by
  have hc : IsCompact (Set.Icc ((0, fun _ => 0) : ℝ × (Fin d → ℝ)) (f, fun _ => f)) := isCompact_Icc
  refine (hg.continuousOn.integrableOn_compact hc).mono_set fun p hp => ?_
  have := h p hp
  exact ⟨⟨this.1.1, fun i => (this.2 i).1⟩, ⟨this.1.2, fun i => (this.2 i).2⟩⟩

theorem continuous_ext {d : Nat} : Continuous (ext : (Fin d → ℝ) → Vec ℝ) := by
  apply continuous_pi
  intro k
  unfold ext
  by_cases h : k < d
  · simp only [h, dif_pos]; exact continuous_apply _
  · simp only [h, dif_neg, not_false_eq_true]; exact continuous_const

theorem continuous_mono (d : Nat) (a : Nat → Nat) : Continuous (mono d a : Vec ℝ → ℝ) :=
  continuous_finsetProd _ fun i _ => (continuous_apply i).pow _

theorem ext_bounds {d : Nat} {x : Fin d → ℝ} {f : ℝ} (h : ∀ k, k < d → 0 ≤ ext x k ∧ ext x k ≤ f) (i : Fin d) :
    0 ≤ x i ∧ x i ≤ f := by
  have := h i i.2
  simpa [ext] using this

/-- the integral of a monomial over the scaled domain -/
theorem integral_mono : ∀ (t : Topo) (a : Nat → Nat) (f : ℝ), 0 ≤ f →
    ∫ x in {x : Fin t.dim → ℝ | Dom t f (ext x)}, mono t.dim a (ext x) = f ^ (t.dim + deg t.dim a) * mom ℝ t a
  | .pt, a, f, _ => by
    have h : {x : Fin Topo.pt.dim → ℝ | Dom .pt f (ext x)} = Set.univ := by ext; simp [Dom]
    rw [h]
    have h1 : volume (Set.univ : Set (Fin 0 → ℝ)) = 1 := by simp [volume_pi]
    have h2 : ∀ x : Fin 0 → ℝ, mono 0 a (ext x) = 1 := fun x => by simp [mono]
    change ∫ x in (Set.univ : Set (Fin 0 → ℝ)), mono 0 a (ext x) = _
    simp only [h2]
    rw [setIntegral_const, Measure.real, h1]
    simp [Topo.dim, mom, deg]
  | .prism t, a, f, hf => by
    have hm : MeasurableSet {p : ℝ × (Fin t.dim → ℝ) | 0 ≤ p.1 ∧ p.1 ≤ f ∧ Dom t f (ext p.2)} := by
      have h1 : MeasurableSet {p : ℝ × (Fin t.dim → ℝ) | 0 ≤ p.1} := measurableSet_le measurable_const measurable_fst
      have h2 : MeasurableSet {p : ℝ × (Fin t.dim → ℝ) | p.1 ≤ f} := measurableSet_le measurable_fst measurable_const
      have m : Measurable fun p : ℝ × (Fin t.dim → ℝ) => (f, ext p.2) :=
        measurable_const.prodMk (measurable_ext.comp measurable_snd)
      exact h1.inter (h2.inter (m (measurableSet_dom t)))
    have hi : IntegrableOn (fun p : ℝ × (Fin t.dim → ℝ) => mono t.dim a (ext p.2) * p.1 ^ a t.dim)
        {p : ℝ × (Fin t.dim → ℝ) | 0 ≤ p.1 ∧ p.1 ≤ f ∧ Dom t f (ext p.2)} := by
      refine integrableOn_box _ f (fun p hp => ⟨⟨hp.1, hp.2.1⟩, ext_bounds (dom_bounds t f _ hp.2.2)⟩) _ ?_
      exact ((continuous_mono _ _).comp (continuous_ext.comp continuous_snd)).mul (continuous_fst.pow _)
    have hsplit := integral_split (d := t.dim) {x : Fin (t.dim + 1) → ℝ | Dom (.prism t) f (ext x)} _ hm (by
      intro x
      simp only [Set.mem_ofPred_eq, Dom, ext_last]
      rw [dom_congr_iff t f (fun k hk => ext_lt x k hk)]) _ hi
    have hl : ∀ x : Fin (t.dim + 1) → ℝ, mono (t.dim + 1) a (ext x) =
        mono t.dim a (ext fun i : Fin t.dim => x i.castSucc) * x (Fin.last t.dim) ^ a t.dim := by
      intro x
      rw [mono_succ, ext_last, mono_congr (fun k hk => ext_lt x k hk)]
    change ∫ x in {x : Fin (t.dim + 1) → ℝ | Dom (.prism t) f (ext x)}, mono (t.dim + 1) a (ext x) = _
    simp only [hl]
    refine hsplit.trans ?_
    have : ∀ y, ∫ x in {x : Fin t.dim → ℝ | (y, x) ∈ {p : ℝ × (Fin t.dim → ℝ) | 0 ≤ p.1 ∧ p.1 ≤ f ∧ Dom t f (ext p.2)}},
          mono t.dim a (ext x) * y ^ a t.dim
        = (Set.Icc 0 f).indicator (fun y => f ^ (t.dim + deg t.dim a) * mom ℝ t a * y ^ a t.dim) y := by
      intro y
      by_cases hy : y ∈ Set.Icc 0 f
      · rw [Set.indicator_of_mem hy, ← integral_mono t a f hf, integral_mul_const]
        congr 2
        congr 1
        ext x
        simp only [Set.mem_ofPred_eq]
        exact ⟨fun h => h.2.2, fun h => ⟨hy.1, hy.2, h⟩⟩
      · rw [Set.indicator_of_notMem hy]
        have : {x : Fin t.dim → ℝ | (y, x) ∈ {p : ℝ × (Fin t.dim → ℝ) | 0 ≤ p.1 ∧ p.1 ≤ f ∧ Dom t f (ext p.2)}} = ∅ := by
          ext x
          simp only [Set.mem_ofPred_eq, Set.mem_empty_iff_false, iff_false]
          exact fun h => hy ⟨h.1, h.2.1⟩
        rw [this, setIntegral_empty]
    simp only [this]
    rw [integral_indicator measurableSet_Icc, integral_Icc_eq_integral_Ioc, ← intervalIntegral.integral_of_le hf,
      intervalIntegral.integral_const_mul, integral_pow, zero_pow (Nat.succ_ne_zero _), sub_zero]
    simp only [Topo.dim, mom, deg_succ]
    rw [show t.dim + 1 + (deg t.dim a + a t.dim) = t.dim + deg t.dim a + (a t.dim + 1) by ring, pow_add]
    ring
  | .pyr t, a, f, hf => by
    have hm : MeasurableSet {p : ℝ × (Fin t.dim → ℝ) | 0 ≤ p.1 ∧ p.1 ≤ f ∧ Dom t (f - p.1) (ext p.2)} := by
      have h1 : MeasurableSet {p : ℝ × (Fin t.dim → ℝ) | 0 ≤ p.1} := measurableSet_le measurable_const measurable_fst
      have h2 : MeasurableSet {p : ℝ × (Fin t.dim → ℝ) | p.1 ≤ f} := measurableSet_le measurable_fst measurable_const
      have m : Measurable fun p : ℝ × (Fin t.dim → ℝ) => (f - p.1, ext p.2) :=
        (measurable_const.sub measurable_fst).prodMk (measurable_ext.comp measurable_snd)
      exact h1.inter (h2.inter (m (measurableSet_dom t)))
    have hi : IntegrableOn (fun p : ℝ × (Fin t.dim → ℝ) => mono t.dim a (ext p.2) * p.1 ^ a t.dim)
        {p : ℝ × (Fin t.dim → ℝ) | 0 ≤ p.1 ∧ p.1 ≤ f ∧ Dom t (f - p.1) (ext p.2)} := by
      refine integrableOn_box _ f (fun p hp => ⟨⟨hp.1, hp.2.1⟩, ext_bounds fun k hk => ?_⟩) _ ?_
      · have := dom_bounds t _ _ hp.2.2 k hk
        exact ⟨this.1, by linarith [this.2, hp.1]⟩
      exact ((continuous_mono _ _).comp (continuous_ext.comp continuous_snd)).mul (continuous_fst.pow _)
    have hsplit := integral_split (d := t.dim) {x : Fin (t.dim + 1) → ℝ | Dom (.pyr t) f (ext x)} _ hm (by
      intro x
      simp only [Set.mem_ofPred_eq, Dom, ext_last]
      rw [dom_congr_iff t _ (fun k hk => ext_lt x k hk)]) _ hi
    have hl : ∀ x : Fin (t.dim + 1) → ℝ, mono (t.dim + 1) a (ext x) =
        mono t.dim a (ext fun i : Fin t.dim => x i.castSucc) * x (Fin.last t.dim) ^ a t.dim := by
      intro x
      rw [mono_succ, ext_last, mono_congr (fun k hk => ext_lt x k hk)]
    change ∫ x in {x : Fin (t.dim + 1) → ℝ | Dom (.pyr t) f (ext x)}, mono (t.dim + 1) a (ext x) = _
    simp only [hl]
    refine hsplit.trans ?_
    have : ∀ y, ∫ x in {x : Fin t.dim → ℝ | (y, x) ∈ {p : ℝ × (Fin t.dim → ℝ) | 0 ≤ p.1 ∧ p.1 ≤ f ∧ Dom t (f - p.1) (ext p.2)}},
          mono t.dim a (ext x) * y ^ a t.dim
        = (Set.Icc 0 f).indicator (fun y => mom ℝ t a * (y ^ a t.dim * (f - y) ^ (t.dim + deg t.dim a))) y := by
      intro y
      by_cases hy : y ∈ Set.Icc 0 f
      · rw [Set.indicator_of_mem hy, integral_mul_const]
        have e := integral_mono t a (f - y) (by linarith [hy.2])
        have es : {x : Fin t.dim → ℝ | (y, x) ∈ {p : ℝ × (Fin t.dim → ℝ) | 0 ≤ p.1 ∧ p.1 ≤ f ∧ Dom t (f - p.1) (ext p.2)}}
            = {x : Fin t.dim → ℝ | Dom t (f - y) (ext x)} := by
          ext x
          simp only [Set.mem_ofPred_eq]
          exact ⟨fun h => h.2.2, fun h => ⟨hy.1, hy.2, h⟩⟩
        rw [es, e]; ring
      · rw [Set.indicator_of_notMem hy]
        have : {x : Fin t.dim → ℝ | (y, x) ∈ {p : ℝ × (Fin t.dim → ℝ) | 0 ≤ p.1 ∧ p.1 ≤ f ∧ Dom t (f - p.1) (ext p.2)}} = ∅ := by
          ext x
          simp only [Set.mem_ofPred_eq, Set.mem_empty_iff_false, iff_false]
          exact fun h => hy ⟨h.1, h.2.1⟩
        rw [this, setIntegral_empty]
    simp only [this]
    rw [integral_indicator measurableSet_Icc, integral_Icc_eq_integral_Ioc, ← intervalIntegral.integral_of_le hf,
      intervalIntegral.integral_const_mul, integral_beta]
    simp only [Topo.dim, mom, deg_succ]
    rw [show t.dim + 1 + (deg t.dim a + a t.dim) = a t.dim + (t.dim + deg t.dim a) + 1 by ring]
    ring

end Verif.Quad
