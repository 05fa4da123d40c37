import Verif.Float.NewtonSolve
import Mathlib.LinearAlgebra.FiniteDimensional.Lemmas
import Mathlib.LinearAlgebra.Matrix.ToLin

/-! The inverse of a triangular matrix in floating-point arithmetic (defaultmatrixhelper.hh:239-257, `invL`): the entries it
computes and the residual of the product with the matrix. -/

namespace Verif.FloatInv

open Verif.Float Verif.RefGeom Verif.FloatVol Verif.FloatNewton
open Finset hiding ext

/-! ### The smallest singular value of the transposed matrix -/

theorem transpose_lower (m : Nat) (T : Nat → Nat → ℝ) {s : ℝ} (hs : 0 < s)
    (h : ∀ w : Nat → ℝ, s * ∑ k ∈ range m, w k ^ 2 ≤ ∑ a ∈ range m, (∑ k ∈ range m, w k * T k a) ^ 2) (x : Nat → ℝ) :
    s * ∑ a ∈ range m, x a ^ 2 ≤ ∑ k ∈ range m, (∑ a ∈ range m, T k a * x a) ^ 2 := by
  set M : Matrix (Fin m) (Fin m) ℝ := Matrix.of fun a k => T k a with hM
  have hval : ∀ (w : Fin m → ℝ) (a : Fin m), M.mulVecLin w a = ∑ k : Fin m, w k * T k a := fun w a => by
    rw [Matrix.mulVecLin_apply, Matrix.mulVec, dotProduct]
    exact sum_congr rfl fun k _ => mul_comm _ _
  have hfin : ∀ w : Fin m → ℝ, s * ∑ k, w k ^ 2 ≤ ∑ a, (M.mulVecLin w a) ^ 2 := fun w => by
    have := h fun k => if hk : k < m then w ⟨k, hk⟩ else 0
    rw [sum_range, sum_range] at this
    refine le_trans (le_of_eq ?_) (this.trans (le_of_eq ?_))
    · congr 1
      exact sum_congr rfl fun k _ => by rw [dif_pos k.2]
    · refine sum_congr rfl fun a _ => ?_
      rw [hval, sum_range]
      congr 1
      exact sum_congr rfl fun k _ => by rw [dif_pos k.2]
  have hinj : Function.Injective M.mulVecLin := by
    rw [← LinearMap.ker_eq_bot, LinearMap.ker_eq_bot']
    intro w hw
    have h1 := hfin w
    rw [hw] at h1
    simp only [Pi.zero_apply, ne_eq, OfNat.ofNat_ne_zero, not_false_eq_true, zero_pow, sum_const_zero] at h1
    have h2 : ∑ k, w k ^ 2 ≤ 0 := by
      by_contra hc
      push Not at hc
      have := mul_pos hs hc
      linarith
    funext k
    have h3 := single_le_sum (f := fun k => w k ^ 2) (fun k _ => sq_nonneg _) (mem_univ k)
    have h4 : w k ^ 2 = 0 := le_antisymm (h3.trans h2) (sq_nonneg _)
    simpa using h4
  obtain ⟨w, hw⟩ := (LinearMap.injective_iff_surjective.1 hinj) fun a => x a
  have hx : ∀ a : Fin m, x a = ∑ k : Fin m, w k * T k a := fun a => by rw [← hval, hw]
  have h1 := hfin w
  rw [hw] at h1
  rw [sum_range, sum_range]
  set S := ∑ a : Fin m, x a ^ 2 with hS
  set W := ∑ k : Fin m, w k ^ 2 with hW
  set Q := ∑ k : Fin m, (∑ a ∈ range m, T k a * x a) ^ 2 with hQ
  have hS0 : 0 ≤ S := sum_nonneg fun _ _ => sq_nonneg _
  have hQ0 : 0 ≤ Q := sum_nonneg fun _ _ => sq_nonneg _
  have e : S = ∑ k : Fin m, w k * ∑ a ∈ range m, T k a * x a := by
    have : S = ∑ a : Fin m, ∑ k : Fin m, w k * T k a * x a := sum_congr rfl fun a _ => by rw [sq, ← sum_mul, ← hx a]
    rw [this, sum_comm]
    refine sum_congr rfl fun k _ => ?_
    rw [sum_range, mul_sum]
    exact sum_congr rfl fun a _ => by ring
  have h2 : S ^ 2 ≤ W * Q := by
    rw [e]
    exact sum_mul_sq_le_sq_mul_sq _ _ _
  rcases hS0.eq_or_lt with h0 | h0
  · rw [← h0]; simpa using hQ0
  · have h3 : S * (s * S) ≤ S * Q := by
      calc S * (s * S) = s * S ^ 2 := by ring
        _ ≤ s * (W * Q) := mul_le_mul_of_nonneg_left h2 hs.le
        _ = s * W * Q := by ring
        _ ≤ S * Q := mul_le_mul_of_nonneg_right h1 hQ0
    exact le_of_mul_le_mul_left h3 h0

/-! ### The entries -/

variable {φ : Format}

theorem addLoop_congr (a a' : Fl φ) (f g : Nat → Fl φ) (lo hi : Nat) (ha : a = a') (h : ∀ j, lo ≤ j → j < hi → f j = g j) :
    addLoop a lo hi f = addLoop a' lo hi g := by
  subst ha
  rw [addLoop, addLoop]
  have : ∀ (l : List Nat) (b : Fl φ), (∀ j ∈ l, f j = g j) → l.foldl (fun x k => x + f k) b = l.foldl (fun x k => x + g k) b := by
    intro l
    induction l with
    | nil => intro b _; rfl
    | cons j l ih =>
      intro b hl
      rw [List.foldl_cons, List.foldl_cons, hl j List.mem_cons_self]
      exact ih _ fun k hk => hl k (List.mem_cons_of_mem _ hk)
  refine this _ _ fun j hj => ?_
  rw [List.mem_range'_1] at hj
  exact h j hj.1 (by omega)

theorem invLRow_spec (i : Nat) (a : Fl φ) (L0 : Mat (Fl φ)) : ∀ m, m ≤ i → ∀ r c,
    ((List.range m).foldl
      (fun L j => setM L i j (-a * addLoop (L i j * L j j) (j + 1) i fun k => L i k * L k j)) L0) r c =
      if r = i ∧ c < m then -a * addLoop (L0 i c * L0 c c) (c + 1) i (fun k => L0 i k * L0 k c) else L0 r c := by
  intro m
  induction m with
  | zero => intro _ r c; simp
  | succ m ih =>
    intro hm r c
    rw [List.range_succ, List.foldl_append, List.foldl_cons, List.foldl_nil, setM]
    have ih := ih (by omega)
    by_cases h : r = i ∧ c = m
    · rw [if_pos h, if_pos ⟨h.1, by omega⟩, h.2]
      congr 1
      refine addLoop_congr _ _ _ _ _ _ ?_ fun j h1 h2 => ?_
      · rw [ih, if_neg (by omega), ih, if_neg (by omega)]
      · rw [ih, if_neg (by omega), ih, if_neg (by omega)]
    · rw [if_neg h, ih]
      by_cases h2 : r = i ∧ c < m
      · rw [if_pos h2, if_pos ⟨h2.1, by omega⟩]
      · rw [if_neg h2, if_neg (by omega)]

/-- the entries of the inverse -/
theorem invL_entries (L : Mat (Fl φ)) (n : Nat) :
    (∀ r c, n ≤ r ∨ r < c → (invL n L).2 r c = L r c) ∧
    (∀ r, r < n → (invL n L).2 r r = 1 / L r r) ∧
    ∀ r c, c < r → r < n → (invL n L).2 r c =
      -(1 / L r r) * addLoop (L r c * (invL n L).2 c c) (c + 1) r (fun k => L r k * (invL n L).2 k c) := by
  induction n with
  | zero => exact ⟨fun _ _ _ => rfl, fun _ h => absurd h (by omega), fun _ _ _ h => absurd h (by omega)⟩
  | succ n ih =>
    obtain ⟨h1, h2, h3⟩ := ih
    have hstep : invL (n + 1) L = ((invL n L).1 * (invL n L).2 n n,
        invLRow n (1 / (invL n L).2 n n) (setM (invL n L).2 n n (1 / (invL n L).2 n n))) := by
      rw [invL, List.range_succ, List.foldl_append]; rfl
    set M := (invL n L).2 with hM
    have hnn : M n n = L n n := h1 n n (Or.inl (le_refl _))
    have hrow : ∀ r c, (invL (n + 1) L).2 r c = if r = n ∧ c < n then
        -(1 / L n n) * addLoop (L n c * M c c) (c + 1) n (fun k => L n k * M k c) else if r = n ∧ c = n then 1 / L n n else M r c := by
      intro r c
      rw [hstep]
      simp only [invLRow]
      rw [invLRow_spec n _ _ n (le_refl _), hnn]
      by_cases h : r = n ∧ c < n
      · rw [if_pos h, if_pos h]
        congr 1
        refine addLoop_congr _ _ _ _ _ _ ?_ fun j h4 h5 => ?_
        · rw [setM, if_neg (by omega), setM, if_neg (by omega), h1 n c (Or.inl (le_refl _))]
        · rw [setM, if_neg (by omega), setM, if_neg (by omega), h1 n j (Or.inl (le_refl _))]
      · rw [if_neg h, if_neg h, setM]
    refine ⟨?_, ?_, ?_⟩
    · intro r c h
      rw [hrow, if_neg (by omega), if_neg (by omega), h1 r c (by omega)]
    · intro r hr
      rw [hrow, if_neg (by omega)]
      by_cases h : r = n
      · rw [if_pos ⟨h, h⟩, h]
      · rw [if_neg (by omega), h2 r (by omega)]
    · intro r c hcr hr
      by_cases h : r = n
      · subst h
        rw [hrow, if_pos ⟨rfl, hcr⟩]
        congr 1
        refine addLoop_congr _ _ _ _ _ _ ?_ fun j h4 h5 => ?_
        · rw [hrow, if_neg (by omega), if_neg (by omega)]
        · rw [hrow, if_neg (by omega), if_neg (by omega)]
      · rw [hrow, if_neg (by omega), if_neg (by omega), h3 r c hcr (by omega)]
        congr 1
        refine addLoop_congr _ _ _ _ _ _ ?_ fun j h4 h5 => ?_
        · rw [hrow, if_neg (by omega), if_neg (by omega)]
        · rw [hrow, if_neg (by omega), if_neg (by omega)]

end Verif.FloatInv
