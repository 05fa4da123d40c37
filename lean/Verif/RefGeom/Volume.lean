import Verif.RefGeom.Normals
import Mathlib.MeasureTheory.Constructions.Pi
import Mathlib.MeasureTheory.Measure.Lebesgue.Basic
import Mathlib.Analysis.SpecialFunctions.Integrals.Basic

/-! Lebesgue measure of the scaled reference domain. -/

namespace Verif.RefGeom

open Verif.Typ Verif.RefTopo MeasureTheory

/-- a `FieldVector< double, d >` as a vector of the model -/
def ext {d : Nat} (x : Fin d → ℝ) : Vec ℝ := fun k => if h : k < d then x ⟨k, h⟩ else 0

theorem measurable_ext {d : Nat} : Measurable (ext : (Fin d → ℝ) → Vec ℝ) := by
  apply measurable_pi_lambda
  intro k
  unfold ext
  by_cases h : k < d
  · simp only [h, dif_pos]; exact measurable_pi_apply _
  · simp only [h, dif_neg, not_false_eq_true]; exact measurable_const

theorem measurableSet_dom : ∀ t : Topo, MeasurableSet {p : ℝ × Vec ℝ | Dom t p.1 p.2}
  | .pt => by simp [Dom]
  | .prism t => by
    have m1 : Measurable fun p : ℝ × Vec ℝ => p.2 t.dim := (measurable_pi_apply _).comp measurable_snd
    have h1 : MeasurableSet {p : ℝ × Vec ℝ | 0 ≤ p.2 t.dim} := measurableSet_le measurable_const m1
    have h2 : MeasurableSet {p : ℝ × Vec ℝ | p.2 t.dim ≤ p.1} := measurableSet_le m1 measurable_fst
    exact h1.inter (h2.inter (measurableSet_dom t))
  | .pyr t => by
    have m1 : Measurable fun p : ℝ × Vec ℝ => p.2 t.dim := (measurable_pi_apply _).comp measurable_snd
    have h1 : MeasurableSet {p : ℝ × Vec ℝ | 0 ≤ p.2 t.dim} := measurableSet_le measurable_const m1
    have h2 : MeasurableSet {p : ℝ × Vec ℝ | p.2 t.dim ≤ p.1} := measurableSet_le m1 measurable_fst
    have m2 : Measurable fun p : ℝ × Vec ℝ => (p.1 - p.2 t.dim, p.2) :=
      (measurable_fst.sub m1).prodMk measurable_snd
    exact h1.inter (h2.inter (m2 (measurableSet_dom t)))

/-- splitting off the last coordinate -/
theorem volume_split {d : Nat} (S : Set (Fin (d + 1) → ℝ)) (T : Set (ℝ × (Fin d → ℝ))) (hT : MeasurableSet T)
    (h : ∀ x : Fin (d + 1) → ℝ, x ∈ S ↔ (x (Fin.last d), fun i => x (Fin.castSucc i)) ∈ T) :
    volume S = ∫⁻ y, volume {x | (y, x) ∈ T} := by
  have hS : S = MeasurableEquiv.piFinSuccAbove (fun _ => ℝ) (Fin.last d) ⁻¹' T := by
    ext x
    rw [h x]
    simp only [Set.mem_preimage, MeasurableEquiv.piFinSuccAbove_apply, Fin.insertNthEquiv, Equiv.symm,
      Equiv.coe_fn_mk]
    have : (fun i : Fin d => x i.castSucc) = Fin.removeNth (Fin.last d) x := by
      funext i; simp [Fin.removeNth]
    rw [this]
  rw [hS, (volume_preserving_piFinSuccAbove (fun _ => ℝ) (Fin.last d)).measure_preimage hT.nullMeasurableSet]
  exact Measure.prod_apply hT

theorem ext_last {d : Nat} (x : Fin (d + 1) → ℝ) : ext x d = x (Fin.last d) := by
  simp only [ext]; rw [dif_pos (by omega)]; rfl

theorem ext_lt {d : Nat} (x : Fin (d + 1) → ℝ) (k : Nat) (hk : k < d) :
    ext x k = ext (fun i : Fin d => x i.castSucc) k := by
  simp only [ext]; rw [dif_pos (by omega), dif_pos hk]; rfl

theorem dom_congr_iff (t : Topo) (f : ℝ) {x y : Vec ℝ} (h : ∀ k, k < t.dim → x k = y k) :
    Dom t f x ↔ Dom t f y :=
  ⟨dom_congr t f h, dom_congr t f fun k hk => (h k hk).symm⟩

theorem integral_cone (d : Nat) (f c : ℝ) :
    ∫ y in (0:ℝ)..f, (f - y) ^ d * c = f ^ (d + 1) * (c / (d + 1)) := by
  rw [intervalIntegral.integral_mul_const]
  have := intervalIntegral.integral_comp_sub_left (fun z : ℝ => z ^ d) (a := 0) (b := f) f
  rw [this, sub_self, sub_zero, integral_pow]
  simp only [zero_pow (Nat.succ_ne_zero d), sub_zero]
  ring

theorem volume_dom : ∀ (t : Topo) (f : ℝ), 0 ≤ f →
    volume {x : Fin t.dim → ℝ | Dom t f (ext x)} = ENNReal.ofReal (f ^ t.dim * vol t)
  | .pt, f, _ => by
    have : {x : Fin Topo.pt.dim → ℝ | Dom .pt f (ext x)} = Set.univ := by ext; simp [Dom]
    rw [this]
    have h1 : volume (Set.univ : Set (Fin Topo.pt.dim → ℝ)) = 1 := by
      change volume (Set.univ : Set (Fin 0 → ℝ)) = 1
      simp [volume_pi, Measure.pi_univ]
    rw [h1]; simp [Topo.dim, vol]
  | .prism t, f, hf => by
    have hm : MeasurableSet {p : ℝ × (Fin t.dim → ℝ) | 0 ≤ p.1 ∧ p.1 ≤ f ∧ Dom t f (ext p.2)} := by
      have h1 : MeasurableSet {p : ℝ × (Fin t.dim → ℝ) | 0 ≤ p.1} := measurableSet_le measurable_const measurable_fst
      have h2 : MeasurableSet {p : ℝ × (Fin t.dim → ℝ) | p.1 ≤ f} := measurableSet_le measurable_fst measurable_const
      have m : Measurable fun p : ℝ × (Fin t.dim → ℝ) => (f, ext p.2) :=
        measurable_const.prodMk (measurable_ext.comp measurable_snd)
      exact h1.inter (h2.inter (m (measurableSet_dom t)))
    have hsplit := volume_split (d := t.dim) {x : Fin (t.dim + 1) → ℝ | Dom (.prism t) f (ext x)} _ hm (by
      intro x
      simp only [Set.mem_ofPred_eq, Dom, ext_last]
      rw [dom_congr_iff t f (fun k hk => ext_lt x k hk)])
    refine hsplit.trans ?_
    have : ∀ y, volume {x : Fin t.dim → ℝ | (y, x) ∈ {p : ℝ × (Fin t.dim → ℝ) | 0 ≤ p.1 ∧ p.1 ≤ f ∧ Dom t f (ext p.2)}}
        = (Set.Icc 0 f).indicator (fun _ => ENNReal.ofReal (f ^ t.dim * vol t)) y := by
      intro y
      by_cases hy : y ∈ Set.Icc 0 f
      · rw [Set.indicator_of_mem hy, ← volume_dom t f hf]
        congr 1
        ext x
        simp only [Set.mem_ofPred_eq]
        exact ⟨fun h => h.2.2, fun h => ⟨hy.1, hy.2, h⟩⟩
      · rw [Set.indicator_of_notMem hy]
        have : {x : Fin t.dim → ℝ | (y, x) ∈ {p : ℝ × (Fin t.dim → ℝ) | 0 ≤ p.1 ∧ p.1 ≤ f ∧ Dom t f (ext p.2)}} = ∅ := by
          ext x
          simp only [Set.mem_ofPred_eq, Set.mem_empty_iff_false, iff_false]
          exact fun h => hy ⟨h.1, h.2.1⟩
        rw [this, measure_empty]
    simp only [this]
    rw [lintegral_indicator measurableSet_Icc, setLIntegral_const, Real.volume_Icc, sub_zero,
      ← ENNReal.ofReal_mul (by have := vol_pos (K := ℝ) t; positivity)]
    congr 1
    simp only [Topo.dim, vol]; ring
  | .pyr t, f, hf => by
    have hm : MeasurableSet {p : ℝ × (Fin t.dim → ℝ) | 0 ≤ p.1 ∧ p.1 ≤ f ∧ Dom t (f - p.1) (ext p.2)} := by
      have h1 : MeasurableSet {p : ℝ × (Fin t.dim → ℝ) | 0 ≤ p.1} := measurableSet_le measurable_const measurable_fst
      have h2 : MeasurableSet {p : ℝ × (Fin t.dim → ℝ) | p.1 ≤ f} := measurableSet_le measurable_fst measurable_const
      have m : Measurable fun p : ℝ × (Fin t.dim → ℝ) => (f - p.1, ext p.2) :=
        (measurable_const.sub measurable_fst).prodMk (measurable_ext.comp measurable_snd)
      exact h1.inter (h2.inter (m (measurableSet_dom t)))
    have hsplit := volume_split (d := t.dim) {x : Fin (t.dim + 1) → ℝ | Dom (.pyr t) f (ext x)} _ hm (by
      intro x
      simp only [Set.mem_ofPred_eq, Dom, ext_last]
      rw [dom_congr_iff t _ (fun k hk => ext_lt x k hk)])
    refine hsplit.trans ?_
    have hv := vol_pos (K := ℝ) t
    have : ∀ y, volume {x : Fin t.dim → ℝ | (y, x) ∈ {p : ℝ × (Fin t.dim → ℝ) | 0 ≤ p.1 ∧ p.1 ≤ f ∧ Dom t (f - p.1) (ext p.2)}}
        = (Set.Icc 0 f).indicator (fun y => ENNReal.ofReal ((f - y) ^ t.dim * vol t)) y := by
      intro y
      by_cases hy : y ∈ Set.Icc 0 f
      · rw [Set.indicator_of_mem hy, ← volume_dom t (f - y) (by linarith [hy.2])]
        congr 1
        ext x
        simp only [Set.mem_ofPred_eq]
        exact ⟨fun h => h.2.2, fun h => ⟨hy.1, hy.2, h⟩⟩
      · rw [Set.indicator_of_notMem hy]
        have : {x : Fin t.dim → ℝ | (y, x) ∈ {p : ℝ × (Fin t.dim → ℝ) | 0 ≤ p.1 ∧ p.1 ≤ f ∧ Dom t (f - p.1) (ext p.2)}} = ∅ := by
          ext x
          simp only [Set.mem_ofPred_eq, Set.mem_empty_iff_false, iff_false]
          exact fun h => hy ⟨h.1, h.2.1⟩
        rw [this, measure_empty]
    simp only [this]
    rw [lintegral_indicator measurableSet_Icc, ← ofReal_integral_eq_lintegral_ofReal]
    · rw [integral_Icc_eq_integral_Ioc, ← intervalIntegral.integral_of_le hf, integral_cone]
      rfl
    · apply Continuous.integrableOn_Icc; fun_prop
    · rw [Filter.EventuallyLE, ae_restrict_iff' measurableSet_Icc]
      refine Filter.Eventually.of_forall fun y hy => ?_
      have : 0 ≤ f - y := by linarith [hy.2]
      simp only [Pi.zero_apply]; positivity

/-- the inverse volume as an exact natural number -/
def ivol : Topo → Nat
  | .pt => 1
  | .prism t => ivol t
  | .pyr t => ivol t * (t.dim + 1)

theorem ivol_le : ∀ t : Topo, ivol t ≤ t.dim.factorial
  | .pt => le_refl _
  | .prism t => (ivol_le t).trans (Nat.factorial_le (Nat.le_succ _))
  | .pyr t => by
    simp only [ivol, Topo.dim, Nat.factorial_succ]
    rw [Nat.mul_comm]; exact Nat.mul_le_mul_left _ (ivol_le t)

theorem vol_eq {K : Type} [Field K] : ∀ t : Topo, vol (K := K) t = 1 / (ivol t : K)
  | .pt => by simp [vol, ivol]
  | .prism t => vol_eq t
  | .pyr t => by
    simp only [vol, ivol, vol_eq t]; push_cast; rw [div_div]

theorem volumeInverse_eq {d id : Nat} {t : Topo} (h : Rep d id t) (hd : d ≤ 13) :
    referenceVolumeInverse d id = ivol t := by
  induction h with
  | pt => rfl
  | @prism d id t hb hr ih =>
    have hlt : ivol t < 2 ^ 32 := by
      have h1 := ivol_le t
      rw [hr.dim_eq] at h1
      exact lt_of_le_of_lt (h1.trans (Nat.factorial_le (show d ≤ 12 by omega))) (by decide)
    simp only [referenceVolumeInverse, implBase_eq, isPrism_of_rep hb, if_true, Nat.add_sub_cancel]
    rw [ih (by omega), Nat.mod_eq_of_lt hlt]; rfl
  | @pyr d id t hb hr ih =>
    have hlt : ivol t < 2 ^ 32 := by
      have h1 := ivol_le t
      rw [hr.dim_eq] at h1
      exact lt_of_le_of_lt (h1.trans (Nat.factorial_le (show d ≤ 12 by omega))) (by decide)
    by_cases hd0 : d = 0
    · subst hd0
      obtain rfl := rep_zero hr
      simp [referenceVolumeInverse, isPrism_of_rep (Or.inl rfl), ivol, Topo.dim]
    · simp only [referenceVolumeInverse, implBase_eq, isPrism_of_rep_pyr hd0 hb, Bool.false_eq_true, if_false,
        Nat.add_sub_cancel]
      rw [ih (by omega), Nat.mod_eq_of_lt hlt, ivol, hr.dim_eq, Nat.mod_eq_of_lt]
      calc ivol t * (d + 1) ≤ 2 ^ 32 * 13 := Nat.mul_le_mul hlt.le (by omega)
        _ < 2 ^ 64 := by norm_num

end Verif.RefGeom
