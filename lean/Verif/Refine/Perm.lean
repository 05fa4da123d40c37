import Verif.Refine.Model
import Mathlib.Logic.Equiv.Basic
import Mathlib.Logic.Equiv.Fin.Basic
import Mathlib.Data.Fintype.Card
import Mathlib.Data.Fintype.Perm
import Mathlib.Algebra.Group.End
import Mathlib.Tactic.Ring
import Mathlib.Tactic.Linarith

/-! Property C39: the permutations of the Kuhn simplices. -/

namespace Verif.Refine

open Function (update)
open Equiv (Perm swap)

/-! ### helper lemmas -/

theorem base_eq (n : Nat) : (List.range n).foldl (fun base i => base * (i + 1)) 1 = n.factorial := by
  induction n with
  | zero => rfl
  | succ n ih => rw [List.range_succ, List.foldl_append, ih]; simp [Nat.factorial_succ, mul_comm]

theorem update_swap (perm : Nat → Nat) (i j : Nat) :
    update (update perm i (perm j)) j (perm i) = perm ∘ swap i j := by
  funext k
  rw [Function.comp, Equiv.swap_apply_def]
  by_cases h1 : k = i
  · subst h1
    by_cases h2 : k = j
    · subst h2; simp
    · rw [Function.update_of_ne h2, Function.update_self, if_pos rfl]
  · by_cases h2 : k = j
    · subst h2; rw [Function.update_self, if_neg h1, if_pos rfl]
    · rw [Function.update_of_ne h2, Function.update_of_ne h1, if_neg h1, if_neg h2]

/-- the loop multiplies `perm` by a permutation moving numbers below `i` only, and every such permutation belongs to
exactly one `m` -/
theorem permLoop_spec (i : Nat) :
    (∀ m < i.factorial, ∃ q : Perm Nat, (∀ k, i ≤ k → q k = k) ∧
      ∀ perm, permLoop i i.factorial m perm = some (perm ∘ q)) ∧
    (∀ q : Perm Nat, (∀ k, i ≤ k → q k = k) → ∃ m < i.factorial, ∀ perm, permLoop i i.factorial m perm = some (perm ∘ q)) := by
  induction i with
  | zero =>
    refine ⟨fun m _ => ⟨1, fun _ _ => rfl, fun perm => rfl⟩, fun q hq => ⟨0, by decide, fun perm => ?_⟩⟩
    have : q = 1 := Equiv.ext fun k => hq k (Nat.zero_le k)
    subst this
    rfl
  | succ i ih =>
    have hb : (i + 1).factorial / (i + 1) = i.factorial := by
      rw [Nat.factorial_succ, Nat.mul_div_cancel_left _ (Nat.succ_pos i)]
    have hpos := Nat.factorial_pos i
    have step : ∀ m, m / i.factorial ≤ i → ∀ perm, permLoop (i + 1) (i + 1).factorial m perm =
        permLoop i i.factorial (m % i.factorial) (perm ∘ swap i (i - m / i.factorial)) := by
      intro m hm perm
      rw [permLoop, hb, if_pos hm]
      exact congrArg _ (update_swap _ _ _)
    refine ⟨fun m hm => ?_, fun q hq => ?_⟩
    · have hd : m / i.factorial ≤ i := by
        rw [← Nat.lt_succ_iff, Nat.div_lt_iff_lt_mul hpos]
        rwa [Nat.factorial_succ] at hm
      obtain ⟨q, h1, h2⟩ := ih.1 (m % i.factorial) (Nat.mod_lt _ hpos)
      refine ⟨swap i (i - m / i.factorial) * q, fun k hk => ?_, fun perm => ?_⟩
      · have := Nat.sub_le i (m / i.factorial)
        rw [Equiv.Perm.mul_apply, h1 k (by omega), Equiv.swap_apply_of_ne_of_ne (by omega) (by omega)]
      · rw [step m hd, h2]; rfl
    · have hj : q i ≤ i := by
        by_contra h
        have h1 := hq (q i) (by omega)
        have := q.injective h1
        omega
      have hq' : ∀ k, i ≤ k → (swap i (q i) * q) k = k := by
        intro k hk
        rw [Equiv.Perm.mul_apply]
        rcases Nat.lt_or_eq_of_le hk with h | h
        · rw [hq k h, Equiv.swap_apply_of_ne_of_ne (by omega) (by omega)]
        · subst h; rw [Equiv.swap_apply_right]
      obtain ⟨m', h1, h2⟩ := ih.2 _ hq'
      have e1 : ((i - q i) * i.factorial + m') / i.factorial = i - q i := by
        rw [Nat.add_comm, Nat.add_mul_div_right _ _ hpos, Nat.div_eq_of_lt h1, Nat.zero_add]
      have e2 : ((i - q i) * i.factorial + m') % i.factorial = m' := by
        rw [Nat.add_comm, Nat.add_mul_mod_self_right, Nat.mod_eq_of_lt h1]
      refine ⟨(i - q i) * i.factorial + m', ?_, fun perm => ?_⟩
      · rw [Nat.factorial_succ]
        have : (i - q i) * i.factorial ≤ i * i.factorial := Nat.mul_le_mul_right _ (by omega)
        have e : (i + 1) * i.factorial = i * i.factorial + i.factorial := by ring
        omega
      · rw [step _ (by omega), e1, e2, h2]
        have : i - (i - q i) = q i := by omega
        rw [this]
        congr 1
        funext k
        simp [Function.comp]

/-! ### C39 -/

/-- the permutation of `0, …, n-1` with the given values, extended by the identity -/
theorem getPermutation_perm (n m : Nat) (hm : m < n.factorial) :
    ∃ q : Perm Nat, (∀ k, n ≤ k → q k = k) ∧ getPermutation n m = some ⇑q := by
  obtain ⟨q, h1, h2⟩ := (permLoop_spec n).1 m hm
  refine ⟨q, h1, ?_⟩
  rw [getPermutation, base_eq]
  exact (h2 _).trans rfl

/-- restriction of a permutation that fixes everything from `n` on -/
theorem restrict (n : Nat) (q : Perm Nat) (h : ∀ k, n ≤ k → q k = k) : ∃ σ : Perm (Fin n), ∀ i : Fin n, (σ i : Nat) = q i := by
  have hlt : ∀ i, i < n → q i < n := by
    intro i hi
    by_contra hh
    have := q.injective (h (q i) (by omega))
    omega
  have hlt' : ∀ i, i < n → q.symm i < n := by
    intro i hi
    by_contra hh
    have := h (q.symm i) (by omega)
    rw [Equiv.apply_symm_apply] at this
    omega
  exact ⟨⟨fun i => ⟨q i, hlt i i.2⟩, fun i => ⟨q.symm i, hlt' i i.2⟩, fun i => Fin.ext (by simp), fun i => Fin.ext (by simp)⟩,
    fun i => rfl⟩

theorem extend (n : Nat) (σ : Perm (Fin n)) : ∃ q : Perm Nat, (∀ k, n ≤ k → q k = k) ∧ ∀ i : Fin n, q i = σ i := by
  refine ⟨⟨fun i => if h : i < n then σ ⟨i, h⟩ else i, fun i => if h : i < n then σ.symm ⟨i, h⟩ else i, fun i => ?_, fun i => ?_⟩,
    fun k hk => dif_neg (by omega), fun i => ?_⟩
  · by_cases h : i < n
    · simp [h]
    · simp [h]
  · by_cases h : i < n
    · simp [h]
    · simp [h]
  · change (if h : (i : Nat) < n then _ else _) = _
    rw [dif_pos i.2]

/-- C39: every index below `n!` has a permutation of `0, …, n-1` -/
theorem C39_permutation (n m : Nat) (hm : m < n.factorial) :
    ∃ p, getPermutation n m = some p ∧ ∃ σ : Perm (Fin n), ∀ i : Fin n, p i = σ i := by
  obtain ⟨q, h1, h2⟩ := getPermutation_perm n m hm
  obtain ⟨σ, hσ⟩ := restrict n q h1
  exact ⟨q, h2, σ, fun i => (hσ i).symm⟩

theorem exists_index (n : Nat) (σ : Perm (Fin n)) :
    ∃ m < n.factorial, ∃ p, getPermutation n m = some p ∧ ∀ i : Fin n, p i = σ i := by
  obtain ⟨q, h1, h2⟩ := extend n σ
  obtain ⟨m, h3, h4⟩ := (permLoop_spec n).2 q h1
  refine ⟨m, h3, q, ?_, h2⟩
  rw [getPermutation, base_eq]
  exact (h4 _).trans rfl

/-- C39: every permutation is reached by exactly one index -/
theorem C39_bijective (n : Nat) (σ : Perm (Fin n)) :
    ∃! m, m < n.factorial ∧ ∃ p, getPermutation n m = some p ∧ ∀ i : Fin n, p i = σ i := by
  classical
  -- the index map from permutations is injective between sets of the same size
  choose f hf1 p hp1 hp2 using exists_index n
  let F : Perm (Fin n) → Fin n.factorial := fun σ => ⟨f σ, hf1 σ⟩
  have hinj : Function.Injective F := by
    intro σ τ h
    have h' : f σ = f τ := congrArg Fin.val h
    have e : p σ = p τ := Option.some.inj ((hp1 σ).symm.trans (h' ▸ hp1 τ))
    exact Equiv.ext fun i => Fin.ext (by rw [← hp2 σ i, e, hp2 τ i])
  have hcard : Fintype.card (Perm (Fin n)) = Fintype.card (Fin n.factorial) := by
    rw [Fintype.card_perm, Fintype.card_fin, Fintype.card_fin]
  have hsurj : Function.Surjective F := ((Fintype.bijective_iff_injective_and_card F).2 ⟨hinj, hcard⟩).2
  refine ⟨f σ, ⟨hf1 σ, p σ, hp1 σ, hp2 σ⟩, ?_⟩
  rintro m ⟨hm, q, hq1, hq2⟩
  obtain ⟨τ, hτ⟩ := hsurj ⟨m, hm⟩
  have hτ' : f τ = m := congrArg Fin.val hτ
  have e : p τ = q := Option.some.inj ((hp1 τ).symm.trans (hτ' ▸ hq1))
  have : τ = σ := Equiv.ext fun i => Fin.ext (by rw [← hp2 τ i, e, hq2 i])
  rw [← hτ', this]

/-- C39: different indices, different permutations -/
theorem C39_injective (n m m' : Nat) (hm : m < n.factorial) (hm' : m' < n.factorial) (p p' : Nat → Nat)
    (h : getPermutation n m = some p) (h' : getPermutation n m' = some p') (he : ∀ i < n, p i = p' i) : m = m' := by
  obtain ⟨p1, h1, σ, hσ⟩ := C39_permutation n m hm
  obtain rfl := Option.some.inj (h.symm.trans h1)
  exact (C39_bijective n σ).unique ⟨hm, p, h, hσ⟩ ⟨hm', p', h', fun i => (he i i.2).symm.trans (hσ i)⟩

/-- C39: the permutation with index 0 is the identity -/
theorem C39_identity (n : Nat) : getPermutation n 0 = some fun i => i := by
  rw [getPermutation, base_eq]
  suffices ∀ i base, permLoop i base 0 (fun i => i) = some fun i => i from this n _
  intro i
  induction i with
  | zero => intro base; rfl
  | succ i ih =>
    intro base
    rw [permLoop, Nat.zero_div, if_pos (Nat.zero_le i), Nat.zero_mod, Nat.sub_zero]
    have : update (update (fun i : Nat => i) i i) i i = fun i => i := by simp
    exact (congrArg _ this).trans (ih _)

/-- C39: from `n!` on the code reads outside the array -/
theorem C39_range (n m : Nat) (hn : 0 < n) (hm : n.factorial ≤ m) : getPermutation n m = none := by
  obtain ⟨i, rfl⟩ : ∃ i, n = i + 1 := ⟨n - 1, by omega⟩
  rw [getPermutation, base_eq, permLoop, Nat.factorial_succ, Nat.mul_div_cancel_left _ (Nat.succ_pos i), if_neg]
  rw [not_le, ← Nat.succ_le_iff, Nat.le_div_iff_mul_le (Nat.factorial_pos i), ← Nat.factorial_succ]
  exact hm

/-- the six permutations in dimension 3 -/
example : (List.range 6).map (fun m => (getPermutation 3 m).map fun p => [p 0, p 1, p 2]) =
    [some [0, 1, 2], some [1, 0, 2], some [0, 2, 1], some [2, 0, 1], some [2, 1, 0], some [1, 2, 0]] := by decide

end Verif.Refine
