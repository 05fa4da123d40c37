import Verif.GaussNewton.Model
import Verif.MatHelp.Props
import Mathlib.Analysis.Calculus.Deriv.Mul
import Mathlib.Analysis.Calculus.Deriv.Comp
import Mathlib.Analysis.Calculus.FDeriv.Prod
import Mathlib.Analysis.Calculus.Deriv.Prod
import Mathlib.Analysis.SpecificLimits.Basic

/-! Property C36: outcome of `gaussNewton`. -/

namespace Verif.GaussNewton

open Verif.RefGeom Verif.MatHelp Finset
open Matrix hiding vec

noncomputable section

section
variable {m n : Nat} (f : (Fin m → ℝ) → (Fin n → ℝ)) (df : (Fin m → ℝ) → Mat ℝ) (y : Fin n → ℝ) (opts : Options)

/-! ### specification -/

/-- the residual `|f(x) - y|` -/
def residual (x : Fin m → ℝ) : ℝ := Real.sqrt (∑ j, (f x j - y j) ^ 2)

/-- the transposed Jacobian has full row rank -/
def Regular (x : Fin m → ℝ) : Prop := LinearIndependent ℝ (mat m n (df x)).row

/-- `dx` solves the normal equations `(JᵀJ) dx = Jᵀ (f(x) - y)`; `df` is the transposed Jacobian -/
def Correction (x dx : Fin m → ℝ) : Prop :=
  (mat m n (df x) * (mat m n (df x))ᵀ) *ᵥ dx = mat m n (df x) *ᵥ (f x - y)

/-- one damped step: the first of the factors `1, θ, θ², …` (at most `maxInnerIt` of them) that reduces the residual -/
def Step (x x' : Fin m → ℝ) : Prop := Regular (n := n) df x ∧ ∃ dx k, Correction f df y x dx ∧ k < opts.maxInnerIt.toNat ∧
  x' = x - opts.theta ^ k • dx ∧ residual f y x' < residual f y x ∧
  ∀ i, i < k → residual f y x ≤ residual f y (x - opts.theta ^ i • dx)

/-- `k` steps lead from one point to the other, and after none of them but the last is the tolerance reached -/
inductive Path : Nat → (Fin m → ℝ) → (Fin m → ℝ) → Prop
  | nil (x) : Path 0 x x
  | cons {x x₁ x' k} : Step f df y opts x x₁ → (k ≠ 0 → opts.absTol ≤ residual f y x₁) → Path k x₁ x' → Path (k + 1) x x'

/-- what the return code says about the point reached after `k` steps -/
def Outcome (k : Nat) (x : Fin m → ℝ) : Code → Prop
  | .ok => 0 < k ∧ k ≤ opts.maxIt.toNat ∧ residual f y x < opts.absTol
  | .jacobianNotInvertible => k < opts.maxIt.toNat ∧ (k ≠ 0 → opts.absTol ≤ residual f y x) ∧ ¬ Regular (n := n) df x
  | .stagnation => k < opts.maxIt.toNat ∧ (k ≠ 0 → opts.absTol ≤ residual f y x) ∧ Regular (n := n) df x ∧
      ∀ dx, Correction f df y x dx → ∀ i, i < opts.maxInnerIt.toNat → residual f y x ≤ residual f y (x - opts.theta ^ i • dx)
  | .toleranceNotReached => k = opts.maxIt.toNat ∧ opts.absTol ≤ residual f y x

/-! ### helper lemmas -/

theorem two_norm_eq (x : Fin m → ℝ) : two_norm (f x - y) = residual f y x := by
  rw [two_norm, residual]
  congr 1
  exact sum_congr rfl fun i _ => by rw [Pi.sub_apply, sq]

theorem residual_nonneg (x : Fin m → ℝ) : 0 ≤ residual f y x := Real.sqrt_nonneg _

theorem vec_ext {n : Nat} (r : Fin n → ℝ) : vec n (ext r) = r := by
  funext i
  simp [vec, RefGeom.ext]

variable {f df y opts}

theorem correction_unique {x a b : Fin m → ℝ} (h : Regular (n := n) df x) (ha : Correction f df y x a)
    (hb : Correction f df y x b) : a = b := by
  have hp := (aat_posDef_iff _).2 h
  have hu := (isUnit_iff_isUnit_det _).1 hp.isUnit
  have : (mat m n (df x) * (mat m n (df x))ᵀ)⁻¹ *ᵥ ((mat m n (df x) * (mat m n (df x))ᵀ) *ᵥ a) =
      (mat m n (df x) * (mat m n (df x))ᵀ)⁻¹ *ᵥ ((mat m n (df x) * (mat m n (df x))ᵀ) *ᵥ b) :=
    congrArg _ (Eq.trans ha (Eq.symm hb))
  rwa [mulVec_mulVec, mulVec_mulVec, nonsing_inv_mul _ hu, one_mulVec, one_mulVec] at this

theorem correction_exists (hmn : m ≤ n) {x : Fin m → ℝ} (h : Regular (n := n) df x) :
    ∃ dx, xTRightInvA m n (df x) (ext (f x - y)) = some (true, dx) ∧ Correction f df y x (vec m dx) := by
  have hp := (aat_posDef_iff _).2 h
  have hu := (isUnit_iff_isUnit_det _).1 hp.isUnit
  have hs : symm m (AAT_L n (df x) garbage) = mat m n (df x) * (mat m n (df x))ᵀ := AAT_L_eq m n (df x) garbage hmn
  obtain ⟨z, h3, h4⟩ := spdInvAx_eq (A := AAT_L n (df x) garbage) (mv m n (df x) (ext (f x - y))) true
    (by rw [hs]; exact hp)
  rw [hs, mv_eq, vec_ext] at h4
  refine ⟨z, h3, ?_⟩
  rw [Correction, h4, mulVec_mulVec, mul_nonsing_inv _ hu, one_mulVec]

theorem lineSearch_spec (x0 dx : Fin m → ℝ) (r0 : ℝ) : ∀ (fuel s : Nat) (x : Fin m → ℝ) (dy : Fin n → ℝ) (r : ℝ),
    (∃ k, s ≤ k ∧ k < s + fuel ∧
      lineSearch f y opts x0 dx r0 fuel (opts.theta ^ s) x dy r = (x0 - opts.theta ^ k • dx,
        f (x0 - opts.theta ^ k • dx) - y, residual f y (x0 - opts.theta ^ k • dx)) ∧
      residual f y (x0 - opts.theta ^ k • dx) < r0 ∧
      ∀ i, s ≤ i → i < k → r0 ≤ residual f y (x0 - opts.theta ^ i • dx)) ∨
    (∀ i, s ≤ i → i < s + fuel → r0 ≤ residual f y (x0 - opts.theta ^ i • dx)) ∧
      (lineSearch f y opts x0 dx r0 fuel (opts.theta ^ s) x dy r = (x, dy, r) ∧ fuel = 0 ∨
        ¬ (lineSearch f y opts x0 dx r0 fuel (opts.theta ^ s) x dy r).2.2 < r0)
  | 0, s, x, dy, r => Or.inr ⟨fun i h1 h2 => by omega, Or.inl ⟨rfl, rfl⟩⟩
  | fuel + 1, s, x, dy, r => by
    rw [lineSearch]
    simp only [two_norm_eq]
    by_cases h : residual f y (x0 - opts.theta ^ s • dx) < r0
    · rw [if_pos h]
      exact Or.inl ⟨s, le_refl _, by omega, rfl, h, fun i h1 h2 => by omega⟩
    · rw [if_neg h, ← pow_succ]
      rcases lineSearch_spec x0 dx r0 fuel (s + 1) (x0 - opts.theta ^ s • dx) (f (x0 - opts.theta ^ s • dx) - y)
        (residual f y (x0 - opts.theta ^ s • dx)) with ⟨k, h1, h2, h3, h4, h5⟩ | ⟨h1, h2⟩
      · refine Or.inl ⟨k, by omega, by omega, h3, h4, fun i h6 h7 => ?_⟩
        rcases Nat.eq_or_lt_of_le h6 with rfl | h6
        · exact not_lt.1 h
        · exact h5 i h6 h7
      · refine Or.inr ⟨fun i h6 h7 => ?_, Or.inr ?_⟩
        · rcases Nat.eq_or_lt_of_le h6 with rfl | h6
          · exact not_lt.1 h
          · exact h1 i h6 (by omega)
        · rcases h2 with ⟨h2, _⟩ | h2
          · rw [h2]; exact h
          · exact h2

/-- one pass of the outer loop -/
theorem loop_succ (hmn : m ≤ n) (hin : 0 < opts.maxInnerIt.toNat) (fuel : Nat) (x : Fin m → ℝ) (r : ℝ) :
    (¬ Regular (n := n) df x ∧
      loop f df y opts (fuel + 1) x x (f x - y) (residual f y x) r = some (.jacobianNotInvertible, x)) ∨
    (Regular (n := n) df x ∧ (∀ dx, Correction f df y x dx → ∀ i, i < opts.maxInnerIt.toNat →
        residual f y x ≤ residual f y (x - opts.theta ^ i • dx)) ∧
      loop f df y opts (fuel + 1) x x (f x - y) (residual f y x) r = some (.stagnation, x)) ∨
    (∃ x₁, Step f df y opts x x₁ ∧ loop f df y opts (fuel + 1) x x (f x - y) (residual f y x) r =
      if residual f y x₁ < opts.absTol then some (.ok, x₁)
      else loop f df y opts fuel x₁ x₁ (f x₁ - y) (residual f y x₁) (residual f y x₁)) := by
  by_cases hr : Regular (n := n) df x
  · obtain ⟨dx, h1, h2⟩ := correction_exists (f := f) (y := y) hmn hr
    have hs := lineSearch_spec (f := f) (y := y) (opts := opts) x (vec m dx) (residual f y x) opts.maxInnerIt.toNat 0 x
      (f x - y) r
    rw [pow_zero] at hs
    rcases hs with ⟨k, _, h4, h5, h6, h7⟩ | ⟨h3, h4⟩
    · refine Or.inr (Or.inr ⟨_, ⟨hr, vec m dx, k, h2, by omega, rfl, h6, fun i hi => h7 i (by omega) hi⟩, ?_⟩)
      rw [loop, h1]
      simp only [h5]
      rw [if_neg (not_not.2 h6)]
    · refine Or.inr (Or.inl ⟨hr, fun dx' hd i hi => ?_, ?_⟩)
      · rw [correction_unique hr hd h2]
        exact h3 i (by omega) (by omega)
      · rw [loop, h1]
        simp only
        rcases h4 with ⟨_, h4⟩ | h4
        · omega
        · rw [if_pos h4]
  · refine Or.inl ⟨hr, ?_⟩
    obtain ⟨z, hz⟩ := C26_xTRightInvA_singular m n (df x) (ext (f x - y)) hmn hr
    rw [loop, hz]

theorem loop_spec (hmn : m ≤ n) (hin : 0 < opts.maxInnerIt.toNat) : ∀ (fuel : Nat) (x : Fin m → ℝ) (r : ℝ),
    (fuel = 0 → r = residual f y x ∧ opts.absTol ≤ r) → ∃ code x' k, Path f df y opts k x x' ∧
      loop f df y opts fuel x x (f x - y) (residual f y x) r = some (code, x') ∧
      Outcome f df y { opts with maxIt := fuel } k x' code
  | 0, x, r, h => by
    obtain ⟨rfl, h⟩ := h rfl
    refine ⟨.toleranceNotReached, x, 0, .nil x, ?_, ?_⟩
    · rw [loop, if_pos (not_lt.2 h)]
    · exact ⟨rfl, h⟩
  | fuel + 1, x, r, _ => by
    rcases loop_succ (f := f) (df := df) (y := y) (opts := opts) hmn hin fuel x r with
      ⟨h1, h2⟩ | ⟨h1, h2, h3⟩ | ⟨x₁, h1, h2⟩
    · exact ⟨_, _, 0, .nil x, h2, by simp, fun h => absurd rfl h, h1⟩
    · exact ⟨_, _, 0, .nil x, h3, by simp, fun h => absurd rfl h, h1, h2⟩
    · rw [h2]
      split_ifs with h
      · exact ⟨_, _, 1, .cons h1 (fun h => absurd rfl h) (.nil _), rfl, by simp, by simp, h⟩
      · have h' := not_lt.1 h
        obtain ⟨code, x', k, h3, h4, h5⟩ := loop_spec hmn hin fuel x₁ (residual f y x₁) (fun _ => ⟨rfl, h'⟩)
        refine ⟨code, x', k + 1, .cons h1 (fun _ => h') h3, h4, ?_⟩
        have hb : k ≠ 0 ∨ x' = x₁ := by
          cases h3
          · exact Or.inr rfl
          · exact Or.inl (by omega)
        cases code with
        | ok => exact ⟨by omega, by have := h5.2.1; simp at this ⊢; omega, h5.2.2⟩
        | jacobianNotInvertible =>
          refine ⟨by have := h5.1; simp at this ⊢; omega, fun _ => ?_, h5.2.2⟩
          rcases hb with hb | rfl
          · exact h5.2.1 hb
          · exact h'
        | stagnation =>
          refine ⟨by have := h5.1; simp at this ⊢; omega, fun _ => ?_, h5.2.2.1, h5.2.2.2⟩
          rcases hb with hb | rfl
          · exact h5.2.1 hb
          · exact h'
        | toleranceNotReached => exact ⟨by have := h5.1; simp at this ⊢; omega, h5.2⟩

theorem step_unique {x a b : Fin m → ℝ} (ha : Step f df y opts x a) (hb : Step f df y opts x b) : a = b := by
  obtain ⟨hr, dx, k, h1, h2, h3, h4, h5⟩ := ha
  obtain ⟨_, dx', k', h1', h2', h3', h4', h5'⟩ := hb
  obtain rfl := correction_unique hr h1 h1'
  rcases lt_trichotomy k k' with h | h | h
  · have := h5' k h
    rw [← h3] at this
    linarith
  · rw [h3, h3', h]
  · have := h5 k' h
    rw [← h3'] at this
    linarith

theorem path_extends {k : Nat} {x a : Fin m → ℝ} (ha : Path f df y opts k x a) : ∀ {l : Nat} {b : Fin m → ℝ},
    Path f df y opts (k + l) x b → Path f df y opts l a b ∧ (k ≠ 0 → l ≠ 0 → opts.absTol ≤ residual f y a) := by
  induction ha with
  | nil x =>
    intro l b hb
    rw [Nat.zero_add] at hb
    exact ⟨hb, fun h => absurd rfl h⟩
  | @cons x x₁ x' k h1 h2 h3 ih =>
    intro l b hb
    rw [show k + 1 + l = (k + l) + 1 by omega] at hb
    cases hb with
    | @cons _ x₂ _ _ h4 h5 h6 =>
      obtain rfl := step_unique h1 h4
      obtain ⟨h7, h8⟩ := ih h6
      refine ⟨h7, fun _ hl => ?_⟩
      by_cases hk : k = 0
      · subst hk
        cases h3
        exact h5 (by omega)
      · exact h8 hk hl

theorem outcome_last {k l : Nat} {a b x : Fin m → ℝ} {c c' : Code} (ha : Path f df y opts k x a)
    (hb : Path f df y opts (k + l) x b) (hc : Outcome f df y opts k a c) (hc' : Outcome f df y opts (k + l) b c') : l = 0 := by
  by_contra hl
  obtain ⟨h1, h2⟩ := path_extends ha hb
  have hle : k + l ≤ opts.maxIt.toNat := by
    cases c' with
    | ok => exact hc'.2.1
    | jacobianNotInvertible => exact hc'.1.le
    | stagnation => exact hc'.1.le
    | toleranceNotReached => exact hc'.1.le
  cases h1 with
  | nil => omega
  | cons hs _ _ =>
    obtain ⟨hr, dx, j, g1, g2, g3, g4, g5⟩ := hs
    cases c with
    | ok => exact absurd hc.2.2 (not_lt.2 (h2 (by have := hc.1; omega) hl))
    | jacobianNotInvertible => exact hc.2.2 hr
    | stagnation =>
      have := hc.2.2.2 dx g1 j g2
      rw [← g3] at this
      linarith
    | toleranceNotReached => have := hc.1; omega

variable (f df y opts)

/-! ### C36 -/

/-- the property as stated: OK means solved, and a solution as start value is accepted -/
def C36_full : Prop := ∀ (m n : Nat) (f : (Fin m → ℝ) → (Fin n → ℝ)) (df : (Fin m → ℝ) → Mat ℝ) (y : Fin n → ℝ)
  (opts : Options) (x0 : Fin m → ℝ), m ≤ n → ∃ code x, gaussNewton f df y opts x0 = some (code, x) ∧
    (code = .ok → residual f y x < opts.absTol) ∧ residual f y x ≤ residual f y x0 ∧
    (residual f y x0 = 0 → 0 < opts.absTol → code = .ok)

/-- C36, for options that allow at least one pass of both loops: `gaussNewton` always returns, its answer is
characterised by the specification, for all functions, derivatives, targets and start values.  Missing for the full
claim: options without passes, and start values that already solve the equation. -/
theorem C36_outcome_partial (hmn : m ≤ n) (h1 : 0 < opts.maxIt) (h2 : 0 < opts.maxInnerIt) (x0 : Fin m → ℝ) :
    (∃ r, gaussNewton f df y opts x0 = some r) ∧ ∀ code x, gaussNewton f df y opts x0 = some (code, x) ↔
      ∃ k, Path f df y opts k x0 x ∧ Outcome f df y opts k x code := by
  have ho : ({ opts with maxIt := (opts.maxIt.toNat : Int) } : Options) = opts := by
    rw [Int.toNat_of_nonneg h1.le]
  obtain ⟨c, x, k, g1, g2, g3⟩ := loop_spec (f := f) (df := df) (y := y) (opts := opts) hmn (by omega) opts.maxIt.toNat x0 0
    (fun h => by omega)
  rw [ho] at g3
  have g2' : gaussNewton f df y opts x0 = some (c, x) := by rw [gaussNewton, two_norm_eq, g2]
  refine ⟨⟨_, g2'⟩, fun code x' => ⟨fun h => ?_, ?_⟩⟩
  · rw [g2'] at h
    obtain ⟨rfl, rfl⟩ := Prod.mk.inj (Option.some.inj h)
    exact ⟨k, g1, g3⟩
  · rintro ⟨k', e1, e2⟩
    have hk : k' = k := by
      rcases Nat.le_total k k' with h | h
      · obtain ⟨l, rfl⟩ := Nat.exists_eq_add_of_le h
        have := outcome_last g1 e1 g3 e2
        omega
      · obtain ⟨l, rfl⟩ := Nat.exists_eq_add_of_le h
        have := outcome_last e1 g1 e2 g3
        omega
    subst hk
    obtain ⟨h3, _⟩ := path_extends (l := 0) g1 e1
    obtain rfl : x = x' := by cases h3; rfl
    have hcc : c = code := by
      cases c <;> cases code <;> try rfl
      all_goals exfalso
      · exact absurd g3.2.2 (not_lt.2 (e2.2.1 (by have := g3.1; omega)))
      · exact absurd g3.2.2 (not_lt.2 (e2.2.1 (by have := g3.1; omega)))
      · exact absurd g3.2.2 (not_lt.2 e2.2)
      · exact absurd e2.2.2 (not_lt.2 (g3.2.1 (by have := e2.1; omega)))
      · exact g3.2.2 e2.2.2.1
      · have := g3.1; have := e2.1; omega
      · exact absurd e2.2.2 (not_lt.2 (g3.2.1 (by have := e2.1; omega)))
      · exact e2.2.2 g3.2.2.1
      · have := g3.1; have := e2.1; omega
      · exact absurd e2.2.2 (not_lt.2 g3.2)
      · have := g3.1; have := e2.1; omega
      · have := g3.1; have := e2.1; omega
    rw [g2', hcc]

theorem path_residual {k : Nat} {x x' : Fin m → ℝ} (h : Path f df y opts k x x') :
    residual f y x' ≤ residual f y x ∧ (k ≠ 0 → residual f y x' < residual f y x) := by
  induction h with
  | nil x => exact ⟨le_refl _, fun h => absurd rfl h⟩
  | cons h1 _ _ ih =>
    obtain ⟨_, _, _, _, _, _, h, _⟩ := h1
    exact ⟨(ih.1.trans_lt h).le, fun _ => ih.1.trans_lt h⟩

/-- C36: OK means that the residual is below the tolerance, and smaller than at the start -/
theorem C36_ok (hmn : m ≤ n) (h1 : 0 < opts.maxIt) (h2 : 0 < opts.maxInnerIt) (x0 x : Fin m → ℝ)
    (h : gaussNewton f df y opts x0 = some (.ok, x)) :
    residual f y x < opts.absTol ∧ residual f y x < residual f y x0 := by
  obtain ⟨k, hp, ho⟩ := ((C36_outcome_partial f df y opts hmn h1 h2 x0).2 _ _).1 h
  exact ⟨ho.2.2, (path_residual f df y opts hp).2 (by have := ho.1; omega)⟩

/-- C36: whatever the options and the return code, the residual at the point returned is not larger than at the start -/
theorem C36_monotone (hmn : m ≤ n) (x0 x : Fin m → ℝ) (code : Code)
    (h : gaussNewton f df y opts x0 = some (code, x)) : residual f y x ≤ residual f y x0 := by
  by_cases h1 : 0 < opts.maxIt
  · by_cases h2 : 0 < opts.maxInnerIt
    · obtain ⟨k, hp, _⟩ := ((C36_outcome_partial f df y opts hmn h1 h2 x0).2 _ _).1 h
      exact (path_residual f df y opts hp).1
    · have e0 : opts.maxInnerIt.toNat = 0 := by omega
      have key : ∀ fuel (dy : Fin n → ℝ) (r0 r : ℝ), loop f df y opts fuel x0 x0 dy r0 r = some (code, x) → x = x0 := by
        intro fuel
        induction fuel with
        | zero =>
          intro dy r0 r h
          rw [loop] at h
          split at h <;> (simp at h; exact h.2.symm)
        | succ fuel ih =>
          intro dy r0 r h
          rw [loop] at h
          split at h
          · simp at h
          · simp at h; exact h.2.symm
          · rw [e0] at h
            by_cases hlt : r < r0
            · have h := (if_neg (not_not.2 hlt)).symm.trans h
              by_cases hlt2 : r < opts.absTol
              · have h := (if_pos hlt2).symm.trans h
                exact (Prod.mk.inj (Option.some.inj h)).2.symm
              · exact ih _ _ _ ((if_neg hlt2).symm.trans h)
            · have h := (if_pos hlt).symm.trans h
              exact (Prod.mk.inj (Option.some.inj h)).2.symm
      rw [gaussNewton] at h
      rw [key _ _ _ _ h]
  · have e0 : opts.maxIt.toNat = 0 := by omega
    rw [gaussNewton, e0, loop] at h
    split at h <;> (simp at h; rw [h.2])

/-- C36: with no outer pass the answer is OK, without looking at the residual -/
theorem C36_no_pass (h1 : opts.maxIt ≤ 0) (h2 : 0 < opts.absTol) (x0 : Fin m → ℝ) :
    gaussNewton f df y opts x0 = some (.ok, x0) := by
  have e0 : opts.maxIt.toNat = 0 := by omega
  rw [gaussNewton, e0, loop, if_neg (not_not.2 h2)]

/-- C36: with no line search step the answer is OK wherever the Jacobian is regular, without moving -/
theorem C36_no_line_search (hmn : m ≤ n) (h1 : 0 < opts.maxIt) (h2 : opts.maxInnerIt ≤ 0) (h3 : 0 < opts.absTol)
    (x0 : Fin m → ℝ) (hr : Regular (n := n) df x0) (hres : 0 < residual f y x0) :
    gaussNewton f df y opts x0 = some (.ok, x0) := by
  have e0 : opts.maxInnerIt.toNat = 0 := by omega
  obtain ⟨k, e1⟩ : ∃ k, opts.maxIt.toNat = k + 1 := ⟨opts.maxIt.toNat - 1, by omega⟩
  obtain ⟨dx, h4, _⟩ := correction_exists (f := f) (y := y) hmn hr
  rw [gaussNewton, e1, loop, h4, two_norm_eq]
  simp only [e0, lineSearch]
  rw [if_neg (not_not.2 hres), if_pos h3]

/-- C36: a start value that solves the equation is rejected -/
theorem C36_exact_start (hmn : m ≤ n) (h1 : 0 < opts.maxIt) (x0 : Fin m → ℝ)
    (hr : Regular (n := n) df x0) (hres : f x0 = y) : gaussNewton f df y opts x0 = some (.stagnation, x0) := by
  have h0 : residual f y x0 = 0 := by simp [residual, hres]
  obtain ⟨k, e1⟩ : ∃ k, opts.maxIt.toNat = k + 1 := ⟨opts.maxIt.toNat - 1, by omega⟩
  obtain ⟨dx, h4, _⟩ := correction_exists (f := f) (y := y) hmn hr
  have hn : ∀ (fuel : Nat) (al : ℝ) (x : Fin m → ℝ) (dy : Fin n → ℝ) (r : ℝ), 0 ≤ r →
      0 ≤ (lineSearch f y opts x0 (vec m dx) 0 fuel al x dy r).2.2 := by
    intro fuel
    induction fuel with
    | zero => intro al x dy r hr; exact hr
    | succ fuel ih =>
      intro al x dy r hr
      rw [lineSearch]
      split_ifs
      · exact Real.sqrt_nonneg _
      · exact ih _ _ _ _ (Real.sqrt_nonneg _)
  rw [gaussNewton, e1, loop, h4, two_norm_eq, h0]
  simp only
  rw [if_pos (not_lt.2 (hn _ _ _ _ _ (le_refl 0)))]

/-- the options the class uses by default (the tolerance is the square root of a small number) -/
def defaultOptions (tol : ℝ) : Options := ⟨100, tol, 10, 1 / 2⟩

theorem regular_one : Regular (m := 1) (n := 1) (fun _ => fun _ _ => 1) x := by
  rw [Regular, ← aat_posDef_iff]
  have : mat 1 1 (fun _ _ => (1 : ℝ)) * (mat 1 1 (fun _ _ => (1 : ℝ)))ᵀ = diagonal fun _ => 1 := by
    funext i j
    have hi : i = 0 := Subsingleton.elim _ _
    have hj : j = 0 := Subsingleton.elim _ _
    subst hi; subst hj
    simp [mat, Matrix.mul_apply]
  rw [this, posDef_diagonal_iff]
  intro i; norm_num

/-- C36 fails: with the default options, the equation `x = 0` and the start value `0` -/
theorem C36_counterexample : ¬ C36_full ∧ ∀ tol, 0 < tol →
    gaussNewton (m := 1) (n := 1) (fun x => x) (fun _ => fun _ _ => 1) 0 (defaultOptions tol) 0 = some (.stagnation, 0) ∧
    gaussNewton (m := 1) (n := 1) (fun x => x) (fun _ => fun _ _ => 1) 0 { defaultOptions tol with maxIt := 0 } (fun _ => tol)
      = some (.ok, fun _ => tol) ∧
    gaussNewton (m := 1) (n := 1) (fun x => x) (fun _ => fun _ _ => 1) 0 { defaultOptions tol with maxInnerIt := 0 }
      (fun _ => tol) = some (.ok, fun _ => tol) ∧ ¬ residual (m := 1) (n := 1) (fun x => x) 0 (fun _ => tol) < tol := by
  have key : ∀ tol, 0 < tol →
    gaussNewton (m := 1) (n := 1) (fun x => x) (fun _ => fun _ _ => 1) 0 (defaultOptions tol) 0 = some (.stagnation, 0) :=
    fun tol ht => C36_exact_start _ _ _ _ (le_refl _) (by norm_num [defaultOptions]) _ regular_one rfl
  refine ⟨fun h => ?_, fun tol ht => ⟨key tol ht, ?_, ?_, ?_⟩⟩
  · obtain ⟨code, x, h1, _, _, h2⟩ := h 1 1 (fun x => x) (fun _ => fun _ _ => 1) 0 (defaultOptions 1) 0 (le_refl _)
    rw [key 1 one_pos] at h1
    obtain ⟨rfl, rfl⟩ := Prod.mk.inj (Option.some.inj h1)
    have := h2 (by simp [residual]) one_pos
    cases this
  · exact C36_no_pass _ _ _ _ (by norm_num) ht _
  · refine C36_no_line_search _ _ _ _ (le_refl _) (by norm_num [defaultOptions]) (by norm_num) ht _ regular_one ?_
    simp [residual, ht]
  · simp [residual, Real.sqrt_sq ht.le]

/-! #### affine functions -/

theorem residual_lt_iff (a b : Fin m → ℝ) :
    residual f y a < residual f y b ↔ (f a - y) ⬝ᵥ (f a - y) < (f b - y) ⬝ᵥ (f b - y) := by
  have e : ∀ c, ∑ j, (f c j - y j) ^ 2 = (f c - y) ⬝ᵥ (f c - y) := fun c => by
    rw [dotProduct]; exact sum_congr rfl fun j _ => by rw [Pi.sub_apply, sq]
  rw [residual, residual, e, e]
  exact Real.sqrt_lt_sqrt_iff (dot_self_nonneg _)

/-- C36: on affine functions of full rank the first step reaches the least squares solution `z`, from everywhere else.
It is accepted if its residual is small enough; otherwise the answer is STAGNATION, although `z` minimises the residual. -/
theorem C36_affine (J : Matrix (Fin n) (Fin m) ℝ) (a : Fin n → ℝ) (hf : ∀ x, f x = a + J *ᵥ x)
    (hd : ∀ x, mat m n (df x) = Jᵀ) (hJ : LinearIndependent ℝ J.col) (h1 : 0 < opts.maxIt) (h2 : 0 < opts.maxInnerIt)
    (z : Fin m → ℝ) (hz : Jᵀ *ᵥ (f z - y) = 0) (x0 : Fin m → ℝ) (hx : x0 ≠ z) :
    (residual f y z < opts.absTol → gaussNewton f df y opts x0 = some (.ok, z)) ∧
    (opts.absTol ≤ residual f y z → opts.maxIt = 1 → gaussNewton f df y opts x0 = some (.toleranceNotReached, z)) ∧
    (opts.absTol ≤ residual f y z → 1 < opts.maxIt → gaussNewton f df y opts x0 = some (.stagnation, z)) ∧
    (∀ x, residual f y z ≤ residual f y x) := by
  have hmn : m ≤ n := by simpa using hJ.fintype_card_le_finrank
  have hreg : ∀ x, Regular (n := n) df x := fun x => by rw [Regular, hd]; exact hJ
  have hinj : ∀ x, J *ᵥ x = 0 → x = 0 := fun x hx => by
    have := Matrix.mulVec_injective_iff.2 hJ
    exact this (by rw [hx, mulVec_zero])
  have hdec : ∀ x, f x - y = (f z - y) + J *ᵥ (x - z) := fun x => by
    rw [hf, hf, mulVec_sub]; abel
  have horth : ∀ x, (f z - y) ⬝ᵥ (J *ᵥ (x - z)) = 0 := fun x => by
    rw [dotProduct_mulVec, ← mulVec_transpose, hz, zero_dotProduct]
  have hcorr : ∀ x, Correction f df y x (x - z) := fun x => by
    rw [Correction, hd, transpose_transpose, hdec x, mulVec_add, hz, zero_add, mulVec_mulVec]
  have hlt : ∀ x, x ≠ z → residual f y z < residual f y x := fun x hx => by
    rw [residual_lt_iff, hdec x, dot_self_add _ _ (horth x)]
    have h0 : 0 ≤ (J *ᵥ (x - z)) ⬝ᵥ (J *ᵥ (x - z)) := dot_self_nonneg _
    rcases h0.lt_or_eq with h0 | h0
    · linarith
    · exact absurd (sub_eq_zero.1 (hinj _ (dotProduct_self_eq_zero.1 h0.symm))) hx
  have hle : ∀ x, residual f y z ≤ residual f y x := fun x => by
    by_cases h : x = z
    · rw [h]
    · exact (hlt x h).le
  have hstep : Step f df y opts x0 z :=
    ⟨hreg x0, x0 - z, 0, hcorr x0, by omega, by rw [pow_zero, one_smul]; abel, hlt x0 hx, fun i hi => by omega⟩
  have hpath : Path f df y opts 1 x0 z := .cons hstep (fun h => absurd rfl h) (.nil z)
  have key := (C36_outcome_partial f df y opts hmn h1 h2 x0).2
  refine ⟨fun h => ?_, fun h hm => ?_, fun h hm => ?_, hle⟩
  · exact (key _ _).2 ⟨1, hpath, by norm_num, by omega, h⟩
  · exact (key _ _).2 ⟨1, hpath, by rw [hm]; rfl, h⟩
  · exact (key _ _).2 ⟨1, hpath, by omega, fun _ => h, hreg z, fun _ _ _ _ => hle _⟩

/-- C36: line search makes progress.  If `df` is the derivative, the Jacobian is regular, the point is not critical and
`0 < θ < 1`, then a step exists as soon as `maxInnerIt` is large enough. -/
theorem C36_descent (x : Fin m → ℝ) (hmn : m ≤ n)
    (hf : HasFDerivAt f (Matrix.toLin' (mat m n (df x))ᵀ).toContinuousLinearMap x) (hr : Regular (n := n) df x)
    (hc : mat m n (df x) *ᵥ (f x - y) ≠ 0) (h0 : 0 < opts.theta) (h1 : opts.theta < 1) :
    ∃ N : Nat, ∀ k : Nat, N ≤ k → ∃ x', Step f df y { opts with maxInnerIt := k } x x' := by
  obtain ⟨dx', _, hdx⟩ := correction_exists (f := f) (y := y) hmn hr
  generalize vec m dx' = dx at hdx
  set A := mat m n (df x) with hA
  have hp := (aat_posDef_iff _).2 hr
  have hdx0 : dx ≠ 0 := by
    rintro rfl
    rw [Correction, mulVec_zero] at hdx
    exact hc hdx.symm
  -- the squared residual along the line
  let φ : ℝ → ℝ := fun α => ∑ j, (f (x - α • dx) j - y j) ^ 2
  have hline : HasDerivAt (fun α : ℝ => x - α • dx) (-dx) 0 := by
    have := ((hasDerivAt_id (0 : ℝ)).smul_const dx).const_sub x
    simpa using this
  have hcomp : HasDerivAt (fun α : ℝ => f (x - α • dx)) (Aᵀ *ᵥ (-dx)) 0 := by
    have hf' : HasFDerivAt f (Matrix.toLin' Aᵀ).toContinuousLinearMap (x - (0 : ℝ) • dx) := by
      rw [zero_smul, sub_zero]; exact hf
    exact hf'.comp_hasDerivAt (0 : ℝ) hline
  have hφ : HasDerivAt φ (∑ j, 2 * (f x j - y j) * (Aᵀ *ᵥ (-dx)) j) 0 := by
    refine HasDerivAt.fun_sum fun j _ => ?_
    have hj := ((hasDerivAt_pi.1 hcomp j).sub_const (y j)).fun_pow 2
    simp only [zero_smul, sub_zero, Nat.cast_ofNat, Nat.add_one_sub_one, pow_one] at hj
    exact hj
  have hneg : ∑ j, 2 * (f x j - y j) * (Aᵀ *ᵥ (-dx)) j < 0 := by
    have e : ∑ j, 2 * (f x j - y j) * (Aᵀ *ᵥ (-dx)) j = -(2 * (dx ⬝ᵥ ((A * Aᵀ) *ᵥ dx))) := by
      rw [show (A * Aᵀ) *ᵥ dx = A *ᵥ (f x - y) from hdx, dotProduct_mulVec, ← mulVec_transpose, dotProduct_comm, dotProduct,
        mul_sum, ← sum_neg_distrib]
      refine sum_congr rfl fun j _ => ?_
      rw [mulVec_neg, Pi.neg_apply, Pi.sub_apply]; ring
    have := hp.dotProduct_mulVec_pos hdx0
    simp only [star_trivial] at this
    rw [e]; linarith
  have htend : Filter.Tendsto (fun k : ℕ => opts.theta ^ k) Filter.atTop (nhdsWithin 0 {0}ᶜ) :=
    tendsto_nhdsWithin_iff.2 ⟨tendsto_pow_atTop_nhds_zero_of_lt_one h0.le h1,
      Filter.Eventually.of_forall fun k => (pow_pos h0 k).ne'⟩
  have hev := ((hasDerivAt_iff_tendsto_slope.1 hφ).comp htend).eventually_lt_const hneg
  obtain ⟨K, hK⟩ := hev.exists
  have hlt : φ (opts.theta ^ K) < φ 0 := by
    have hpos := pow_pos h0 K
    simp only [Function.comp, slope, vsub_eq_sub, sub_zero, smul_eq_mul] at hK
    have := (mul_neg_iff.1 hK).resolve_right (fun h => absurd (inv_pos.2 hpos) (not_lt.2 h.1.le)) |>.2
    linarith
  have hres : ∀ α, residual f y (x - α • dx) = Real.sqrt (φ α) := fun α => rfl
  have hres0 : residual f y x = Real.sqrt (φ 0) := by rw [← hres, zero_smul, sub_zero]
  have hφ0 : ∀ α, 0 ≤ φ α := fun α => sum_nonneg fun j _ => sq_nonneg _
  have hex : ∃ k, residual f y (x - opts.theta ^ k • dx) < residual f y x :=
    ⟨K, by rw [hres, hres0]; exact (Real.sqrt_lt_sqrt_iff (hφ0 _)).2 hlt⟩
  classical
  refine ⟨Nat.find hex + 1, fun k hk => ⟨_, hr, dx, Nat.find hex, hdx, ?_, rfl, Nat.find_spec hex, fun i hi => ?_⟩⟩
  · simp only [Int.toNat_natCast]; omega
  · exact not_lt.1 (Nat.find_min hex hi)

end

/-- Newton's method for `x² = 4`, started at 1: the hypotheses of the theorems above hold -/
example : Regular (m := 1) (n := 1) (fun x => fun _ _ => 2 * x 0) (fun _ => 1) := by
  have h := regular_one (x := fun _ => 1)
  rw [Regular, ← aat_posDef_iff] at h ⊢
  have : mat 1 1 (fun _ _ => 2 * (1 : ℝ)) * (mat 1 1 (fun _ _ => 2 * (1 : ℝ)))ᵀ = diagonal fun _ => 4 := by
    funext i j
    have hi : i = 0 := Subsingleton.elim _ _
    have hj : j = 0 := Subsingleton.elim _ _
    subst hi; subst hj
    simp [mat, Matrix.mul_apply]; norm_num
  rw [this, posDef_diagonal_iff]
  intro i; norm_num

example : gaussNewton (m := 1) (n := 1) (fun x => x) (fun _ => fun _ _ => 1) 0 (defaultOptions 1) (fun _ => 5) =
    some (.ok, 0) := by
  refine (C36_affine (m := 1) (n := 1) (fun x => x) _ 0 _ 1 0 (fun x => by simp) (fun x => ?_) ?_ (by norm_num [defaultOptions])
    (by norm_num [defaultOptions]) 0 (by simp) (fun _ => 5) ?_).1 ?_
  · funext i j
    have hi : i = 0 := Subsingleton.elim _ _
    have hj : j = 0 := Subsingleton.elim _ _
    subst hi; subst hj
    simp [mat]
  · rw [← Matrix.mulVec_injective_iff]
    intro a b h
    simpa using h
  · intro h
    have := congrFun h 0
    norm_num at this
  · simp [residual, defaultOptions]

end

end Verif.GaussNewton
