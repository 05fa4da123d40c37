import Verif.Float.RefineLemmas
import Verif.Float.Near

/-!
The map to a Kuhn simplex in floating-point arithmetic.  The sums run from the smallest coordinate to the largest one; the
result depends only on the values of the exact coordinates, not on the permutation.
-/

namespace Verif.FloatRefine

open Function Verif.Float Verif.Refine
open Equiv (Perm)

section
variable {K : Type} [Zero K] [Add K]

/-- run through the values `1, …, s`, add `F` of the distance at every value that occurs; returns the last value and the sum -/
def walk (S : Nat → Prop) [DecidablePred S] (F : Nat → K) : Nat → Nat × K
  | 0 => (0, 0)
  | s + 1 => if S (s + 1) then (s + 1, F (s + 1 - (walk S F s).1) + (walk S F s).2) else walk S F s

variable {S : Nat → Prop} [DecidablePred S] {F : Nat → K}

theorem walk_self {s : Nat} (h : s = 0 ∨ S s) : (walk S F s).1 = s := by
  rcases s with _ | s
  · rfl
  · rw [walk, if_pos (h.resolve_left (by omega))]

theorem walk_gap {t : Nat} (m : Nat) (h : ∀ r, t < r → r ≤ t + m → ¬ S r) : walk S F (t + m) = walk S F t := by
  induction m with
  | zero => rfl
  | succ m ih => rw [← Nat.add_assoc, walk, if_neg (h _ (by omega) (by omega)), ih fun r h1 h2 => h r h1 (by omega)]

theorem walk_step {s t : Nat} (h : t < s) (hs : S s) (ht : t = 0 ∨ S t) (hn : ∀ r, t < r → r < s → ¬ S r) :
    (walk S F s).2 = F (s - t) + (walk S F t).2 := by
  obtain ⟨m, rfl⟩ : ∃ m, s = t + m + 1 := ⟨s - t - 1, by omega⟩
  rw [walk, if_pos hs, walk_gap m fun r h1 h2 => hn r h1 (by omega), walk_self ht]

end

/-! ### partial sums of integers -/

/-- the values of the exact coordinates -/
def Values (d : Nat) (X : Nat → Nat) (s : Nat) : Prop := ∃ i, i < d ∧ X i = s

section
variable {d : Nat} {q : Perm Nat} (hq : ∀ k, d ≤ k → q k = k) (c : Nat → Nat)
include hq

theorem r2k_antitone {j k : Nat} (hjk : j ≤ k) (hk : k < d) : referenceToKuhn d c q (q k) ≤ referenceToKuhn d c q (q j) := by
  induction k with
  | zero => rw [show j = 0 by omega]
  | succ k ih =>
    rcases Nat.lt_or_ge j (k + 1) with h | h
    · refine le_trans ?_ (ih (by omega) (by omega))
      rw [r2k_step d q c k hk]
      exact Nat.le_add_left _ _
    · rw [show j = k + 1 by omega]

theorem values_split {j r : Nat} (hj : j + 1 < d) (h1 : referenceToKuhn d c q (q (j + 1)) < r) (h2 : r < referenceToKuhn d c q (q j)) :
    ¬ Values d (referenceToKuhn d c q) r := by
  rintro ⟨i, hi, rfl⟩
  obtain ⟨k, rfl⟩ : ∃ k, q k = i := ⟨q.symm i, Equiv.apply_symm_apply q i⟩
  have hk : k < d := by
    have := symm_lt hq hi
    rwa [Equiv.symm_apply_apply] at this
  rcases Nat.lt_or_ge j k with h | h
  · have := r2k_antitone hq c (show j + 1 ≤ k by omega) hk
    omega
  · have := r2k_antitone hq c h (by omega : j < d)
    omega

theorem values_first {r : Nat} (hd : 0 < d) (h2 : r < referenceToKuhn d c q (q (d - 1))) : ¬ Values d (referenceToKuhn d c q) r := by
  rintro ⟨i, hi, rfl⟩
  obtain ⟨k, rfl⟩ : ∃ k, q k = i := ⟨q.symm i, Equiv.apply_symm_apply q i⟩
  have hk : k < d := by
    have := symm_lt hq hi
    rwa [Equiv.symm_apply_apply] at this
  have := r2k_antitone hq c (show k ≤ d - 1 by omega) (by omega)
  omega

open Classical in
/-- the computed coordinate is a function of the exact coordinates -/
theorem chain {K : Type} [Zero K] [Add K] (h0 : ∀ a : K, 0 + a = a) (h0' : ∀ a : K, a + 0 = a) (F : Nat → K) (hF : F 0 = 0)
    (i : Nat) (hi : i < d) :
    referenceToKuhn d (fun i => F (c i)) q i = (walk (Values d (referenceToKuhn d c q)) F (referenceToKuhn d c q i)).2 := by
  obtain ⟨j, rfl⟩ : ∃ j, q j = i := ⟨q.symm i, Equiv.apply_symm_apply q i⟩
  have hj : j < d := by
    have := symm_lt hq hi
    rwa [Equiv.symm_apply_apply] at this
  have hS : ∀ j, j < d → Values d (referenceToKuhn d c q) (referenceToKuhn d c q (q j)) := fun j hj => ⟨q j, perm_lt hq hj, rfl⟩
  obtain ⟨m, hm⟩ : ∃ m, j + 1 + m = d := ⟨d - (j + 1), by omega⟩
  induction m generalizing j with
  | zero =>
    obtain rfl : j = d - 1 := by omega
    have hlast := r2k_last d q c (d - 1) (by omega)
    rw [r2k_last d q _ _ (by omega)]
    rcases Nat.eq_zero_or_pos (c (q (d - 1))) with h | h
    · rw [hlast, h, hF]; rfl
    · rw [walk_step (t := 0) (by rw [hlast]; exact h) (hS _ hj) (Or.inl rfl) fun r _ h2 => values_first hq c (by omega) h2, hlast, Nat.sub_zero]
      exact (h0' _).symm
  | succ m ih =>
    have hstep := r2k_step d q c j (by omega)
    rw [r2k_step d q _ j (by omega), ih (j + 1) (perm_lt hq (by omega)) (by omega) (by omega)]
    rcases Nat.eq_zero_or_pos (c (q j)) with h | h
    · rw [hstep, h, hF, h0, Nat.zero_add]
    · rw [walk_step (t := referenceToKuhn d c q (q (j + 1))) (by omega) (hS _ hj) (Or.inr (hS _ (by omega)))
        fun r h1 h2 => values_split hq c (by omega) h1 h2, hstep, Nat.add_sub_cancel]

end

/-- two Kuhn simplices: equal exact coordinates, equal computed coordinates -/
theorem chain_unique {K : Type} [Zero K] [Add K] (h0 : ∀ a : K, 0 + a = a) (h0' : ∀ a : K, a + 0 = a) (F : Nat → K) (hF : F 0 = 0)
    {d : Nat} {q q' : Perm Nat} (hq : ∀ k, d ≤ k → q k = k) (hq' : ∀ k, d ≤ k → q' k = k) (c c' : Nat → Nat)
    (h : ∀ i, i < d → referenceToKuhn d c q i = referenceToKuhn d c' q' i) (i : Nat) (hi : i < d) :
    referenceToKuhn d (fun i => F (c i)) q i = referenceToKuhn d (fun i => F (c' i)) q' i := by
  classical
  have hS : Values d (referenceToKuhn d c q) = Values d (referenceToKuhn d c' q') := by
    funext s
    exact propext ⟨fun ⟨i, h1, h2⟩ => ⟨i, h1, (h i h1).symm.trans h2⟩, fun ⟨i, h1, h2⟩ => ⟨i, h1, (h i h1).trans h2⟩⟩
  rw [chain hq c h0 h0' F hF i hi, chain hq' c' h0 h0' F hF i hi, h i hi, hS]

/-! ### rounding errors -/

/-- the quotient of a lattice coordinate -/
theorem quotient_near {φ : Format} {n : Nat} (hex : ∀ m : Nat, m ≤ n → φ.rd m = m) {c : Nat} (hc : c ≤ n) (a : Fl φ) (ha : a.val = c) :
    Near φ 1 φ.η (a / (n : Fl φ)).val ((c : ℝ) / n) ((c : ℝ) / n) := by
  have hnn : (0 : ℝ) ≤ (c : ℝ) / n := by positivity
  refine ⟨by rw [abs_of_nonneg hnn], φ.η_nonneg, ?_⟩
  have h := φ.err ((c : ℝ) / n)
  rw [Fl.div_val, ha, cast_exact hex le_rfl, pow_one]
  rw [abs_of_nonneg hnn] at h
  have := mul_nonneg φ.u_nonneg φ.η_nonneg
  nlinarith

theorem r2k_near {φ : Format} {d a : Nat} {t : ℝ} {q : Perm Nat} (hq : ∀ k, d ≤ k → q k = k) {x : Nat → Fl φ} {y w : Nat → ℝ}
    (ht : 0 ≤ t) (h : ∀ i, i < d → Near φ a t (x i).val (y i) (w i)) (i : Nat) (hi : i < d) :
    Near φ (a + (d - 1)) (d * t) (referenceToKuhn d x q i).val (referenceToKuhn d y q i) (referenceToKuhn d w q i) := by
  obtain ⟨j, rfl⟩ : ∃ j, q j = i := ⟨q.symm i, Equiv.apply_symm_apply q i⟩
  have hj : j < d := by
    have := symm_lt hq hi
    rwa [Equiv.symm_apply_apply] at this
  obtain ⟨m, hm⟩ : ∃ m, j + 1 + m = d := ⟨d - (j + 1), by omega⟩
  have key : Near φ (a + m) (((m + 1 : ℕ) : ℝ) * t) (referenceToKuhn d x q (q j)).val (referenceToKuhn d y q (q j)) (referenceToKuhn d w q (q j)) := by
    clear hi
    induction m generalizing j with
    | zero =>
      rw [r2k_last d q x j (by omega), r2k_last d q y j (by omega), r2k_last d q w j (by omega)]
      simpa using h _ (perm_lt hq hj)
    | succ m ih =>
      rw [r2k_step d q x j (by omega), r2k_step d q y j (by omega), r2k_step d q w j (by omega)]
      have h1 := ih (j + 1) (by omega) (by omega)
      have h2 := (h (q j) (perm_lt hq hj)).mono (show a ≤ a + m by omega) le_rfl
      refine (h2.add h1).mono le_rfl (le_of_eq ?_)
      push_cast
      ring
  have hm' : m + 1 ≤ d := by omega
  exact key.mono (by omega) (mul_le_mul_of_nonneg_right (by exact_mod_cast hm') ht)

end Verif.FloatRefine
