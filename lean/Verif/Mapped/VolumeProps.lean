import Verif.Mapped.Props
import Verif.Lfe.Model

/-! Property C54: the adaptive volume computation of MappedGeometry and LocalFiniteElementGeometry.

`vol p` is the volume computed with the rule of order `p`; `none` where there is no such rule.  That the orders the
library offers end before the default number of iterations is a fact about the quadrature part, where
`C54_counterexample` is instantiated with the real bound. -/

namespace Verif.Mapped

noncomputable section

/-! ### specification -/

/-- the order the run may end with at most -/
def lastOrder (opts : ConvergenceOptions) : Nat := max 1 (opts.maxIt - 1).toNat

/-- two successive values agree to tolerance at order `p` -/
def Agree (V : Nat → ℝ) (opts : ConvergenceOptions) (p : Nat) : Prop := |V p - V (p - 1)| < opts.absTol

/-- the run ends with order `q`: affine geometries need one rule; others stop at the first agreement, or at the end. -/
def EndsAt (V : Nat → ℝ) (affine : Bool) (opts : ConvergenceOptions) (q : Nat) : Prop :=
  (affine = true → q = 1) ∧ (affine = false → 1 ≤ q ∧ q ≤ lastOrder opts ∧ (∀ p, 2 ≤ p → p < q → ¬ Agree V opts p) ∧
    (q = lastOrder opts ∨ 2 ≤ q ∧ Agree V opts q))

/-! ### C54 -/

theorem volumeLoop_run (vol : Nat → Option ℝ) (V : Nat → ℝ) (opts : ConvergenceOptions) (fuel p : Nat) (hp : 1 ≤ p)
    (hv : ∀ q, p < q → q ≤ p + fuel → vol q = some (V q)) :
    ∃ q, p ≤ q ∧ q ≤ p + fuel ∧ volumeLoop vol opts.absTol fuel (p + 1) (V p) =
        ⟨some (V q), (List.range (q - p)).map (· + (p + 1))⟩ ∧
      (∀ r, p < r → r < q → ¬ Agree V opts r) ∧ (q = p + fuel ∨ p < q ∧ Agree V opts q) := by
  induction fuel generalizing p with
  | zero => exact ⟨p, le_rfl, le_rfl, by simp [volumeLoop], fun r h1 h2 => absurd h1 (by omega), Or.inl rfl⟩
  | succ fuel ih =>
    rw [volumeLoop, hv (p + 1) (by omega) (by omega)]
    by_cases h : |V (p + 1) - V p| < opts.absTol
    · refine ⟨p + 1, by omega, by omega, ?_, fun r h1 h2 => absurd h1 (by omega), Or.inr ⟨by omega, h⟩⟩
      simp only [if_pos h]
      simp
    · obtain ⟨q, h1, h2, h3, h4, h5⟩ := ih (p + 1) (by omega) fun q hq1 hq2 => hv q (by omega) (by omega)
      refine ⟨q, by omega, by omega, ?_, fun r hr1 hr2 => ?_, h5.imp (by omega) fun h => ⟨by omega, h.2⟩⟩
      · simp only [if_neg h, h3]
        congr 1
        have e : q - p = (q - (p + 1)) + 1 := by omega
        rw [e, List.range_succ_eq_map, List.map_cons, List.map_map]
        congr 1
        · omega
        · exact List.map_congr_left fun a _ => by simp only [Function.comp, Nat.succ_eq_add_one]; omega
      · rcases Nat.lt_or_eq_of_le (Nat.succ_le_of_lt hr1) with h' | h'
        · exact h4 r h' hr2
        · subst h'; exact h

/-- C54, with every order up to the last one available: the rules of order 1, …, q are asked for in turn, where `q` is
the order the run ends with, and the value is that of the last rule. -/
theorem C54_run_partial (vol : Nat → Option ℝ) (V : Nat → ℝ) (affine : Bool) (opts : ConvergenceOptions)
    (hv : ∀ p, 1 ≤ p → p ≤ lastOrder opts → vol p = some (V p)) :
    ∃ q, EndsAt V affine opts q ∧ adaptiveVolume vol affine opts = ⟨some (V q), (List.range q).map (· + 1)⟩ := by
  have h1 : vol 1 = some (V 1) := hv 1 le_rfl (le_max_left _ _)
  cases affine
  · have hl : lastOrder opts = 1 + (opts.maxIt - 2).toNat := by rw [lastOrder]; omega
    obtain ⟨q, h2, h3, h4, h5, h6⟩ := volumeLoop_run vol V opts (opts.maxIt - 2).toNat 1 le_rfl
      fun q hq1 hq2 => hv q (by omega) (by omega)
    refine ⟨q, ⟨by simp, fun _ => ⟨h2, by omega, h5, by rw [hl]; exact h6⟩⟩, ?_⟩
    rw [adaptiveVolume, h1]
    simp only [Bool.false_eq_true, if_false, h4]
    congr 1
    have e : q = (q - 1) + 1 := by omega
    conv_rhs => rw [e, List.range_succ_eq_map, List.map_cons, List.map_map]
    congr 1
  · exact ⟨1, ⟨fun _ => rfl, by simp⟩, by rw [adaptiveVolume, h1]; rfl⟩

/-- the order a run ends with is unique, so that `C54_run_partial` fixes the result -/
theorem C54_unique (V : Nat → ℝ) (affine : Bool) (opts : ConvergenceOptions) (q q' : Nat) (h : EndsAt V affine opts q)
    (h' : EndsAt V affine opts q') : q = q' := by
  cases affine
  · obtain ⟨_, h2, h3, h4⟩ := h.2 rfl
    obtain ⟨_, h2', h3', h4'⟩ := h'.2 rfl
    rcases lt_trichotomy q q' with hl | hl | hl
    · rcases h4 with h4 | h4
      · omega
      · exact absurd h4.2 (h3' q h4.1 hl)
    · exact hl
    · rcases h4' with h4' | h4'
      · omega
      · exact absurd h4'.2 (h3 q' h4'.1 hl)
  · rw [h.1 rfl, h'.1 rfl]

/-- C54 as stated: no order beyond the available ones is asked for, whatever the options -/
def C54_full : Prop := ∀ (P : Nat) (vol : Nat → Option ℝ) (affine : Bool) (opts : ConvergenceOptions), 1 ≤ P →
  (∀ p, p ≤ P → (vol p).isSome) → ∀ p ∈ (adaptiveVolume vol affine opts).orders, p ≤ P

theorem volumeLoop_beyond (vol : Nat → Option ℝ) (opts : ConvergenceOptions) (P : Nat) (V : Nat → ℝ) (fuel p : Nat) (hp : p ≤ P)
    (hf : P < p + fuel) (hv : ∀ q, q ≤ P → vol q = some (V q)) (hn : vol (P + 1) = none)
    (ha : ∀ q, p < q → q ≤ P → ¬ Agree V opts q) :
    (volumeLoop vol opts.absTol fuel (p + 1) (V p)).value = none ∧
      P + 1 ∈ (volumeLoop vol opts.absTol fuel (p + 1) (V p)).orders := by
  induction fuel generalizing p with
  | zero => omega
  | succ fuel ih =>
    rw [volumeLoop]
    rcases Nat.lt_or_eq_of_le hp with h | h
    · rw [hv (p + 1) h]
      have hna : ¬ |V (p + 1) - V p| < opts.absTol := ha (p + 1) (by omega) h
      obtain ⟨h1, h2⟩ := ih (p + 1) h (by omega) fun q h1 h2 => ha q (by omega) h2
      simp only [if_neg hna]
      exact ⟨h1, List.mem_cons_of_mem _ h2⟩
    · subst h
      rw [hn]
      exact ⟨rfl, List.mem_cons_self⟩

/-- C54: where the rules end at order `P` before the number of iterations does, and the values do not come to agree, the
unavailable order `P + 1` is asked for and the run has no defined value. -/
theorem C54_beyond (vol : Nat → Option ℝ) (opts : ConvergenceOptions) (P : Nat) (V : Nat → ℝ) (hP : 1 ≤ P)
    (hmax : (P : Int) + 1 < opts.maxIt) (hv : ∀ q, q ≤ P → vol q = some (V q)) (hn : vol (P + 1) = none)
    (ha : ∀ q, 2 ≤ q → q ≤ P → ¬ Agree V opts q) :
    (adaptiveVolume vol false opts).value = none ∧ P + 1 ∈ (adaptiveVolume vol false opts).orders := by
  obtain ⟨h1, h2⟩ := volumeLoop_beyond vol opts P V (opts.maxIt - 2).toNat 1 hP (by omega) hv hn fun q h1 h2 => ha q h1 h2
  rw [adaptiveVolume, hv 1 hP]
  simp only [Bool.false_eq_true, if_false]
  exact ⟨h1, List.mem_cons_of_mem _ h2⟩

/-- C54 fails: default number of iterations, tolerance zero, rules up to order 61 -/
theorem C54_counterexample : ¬ C54_full := by
  intro h
  have := h 61 (fun p => if p ≤ 61 then some 0 else none) false ⟨100, 0⟩ (by norm_num) (fun p hp => by simp [hp]) 62
    (C54_beyond _ ⟨100, 0⟩ 61 (fun _ => 0) (by norm_num) (by norm_num) (fun q hq => if_pos hq) (if_neg (by norm_num))
      fun q _ _ => by simp [Agree]).2
  omega

/-- C54 for both classes: the run is that of `adaptiveVolume` -/
theorem C54_classes {m k n : Nat} (g : MappedGeometry m k n) (h : Lfe.LFEGeometry m n) (rules : Nat → Option (Rule m))
    (opts : ConvergenceOptions) :
    g.volume rules opts = adaptiveVolume (fun p => (rules p).bind g.volumeOf) g.affine_ opts ∧
    (∀ b h', h.affine = some (b, h') → h.volume rules opts = some (adaptiveVolume (fun p => (rules p).bind h.volumeOf) b opts)) :=
  ⟨rfl, fun b h' hb => by rw [Lfe.LFEGeometry.volume, hb]; rfl⟩

example : adaptiveVolume (fun p => some (if p < 3 then (p : ℝ) else 7)) false ⟨100, 1 / 2⟩ = ⟨some 7, [1, 2, 3, 4]⟩ := by
  obtain ⟨q, h1, h2⟩ := C54_run_partial (fun p => some (if p < 3 then (p : ℝ) else 7)) (fun p => if p < 3 then (p : ℝ) else 7) false
    ⟨100, 1 / 2⟩ fun _ _ _ => rfl
  have : EndsAt (fun p => if p < 3 then (p : ℝ) else 7) false ⟨100, 1 / 2⟩ 4 := by
    refine ⟨by simp, fun _ => ⟨by norm_num, by decide, fun p hp1 hp2 => ?_, Or.inr ⟨by norm_num, by norm_num [Agree]⟩⟩⟩
    have : p = 2 ∨ p = 3 := by omega
    rcases this with rfl | rfl <;> norm_num [Agree]
  obtain rfl := C54_unique _ _ _ _ _ h1 this
  rw [h2]
  norm_num
  rfl

end

end Verif.Mapped
