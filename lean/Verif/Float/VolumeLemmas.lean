import Verif.Float.VolumeModel
import Verif.Float.Near
import Mathlib.Algebra.Order.BigOperators.Ring.Finset

/-! Rounding errors of loops, determinants and of the Cholesky factorisation. -/

namespace Verif.FloatVol

open Verif.Float Verif.RefGeom Finset HasSqrt HasAbs

variable {φ : Format}

/-! ### Loops -/

theorem prod_near (a b : Fl φ) : Near φ 1 φ.η (a * b).val (a.val * b.val) (|a.val| * |b.val|) := by
  have h := (Near.exact (φ := φ) a.val).mul (Near.exact (φ := φ) b.val)
  simpa using h

theorem addLoop_near (a : Fl φ) {k : ℕ} {s b m : ℝ} (f g : Nat → Fl φ) (hk : 1 ≤ k) (h : Near φ k s a.val b m) : ∀ (c lo : Nat),
    Near φ (k + c) (s + c * φ.η) ((List.range' lo c).foldl (fun x i => x + f i * g i) a).val
      (b + ∑ i ∈ range c, (f (lo + i)).val * (g (lo + i)).val) (m + ∑ i ∈ range c, |(f (lo + i)).val| * |(g (lo + i)).val|)
  | 0, lo => by simpa using h
  | c + 1, lo => by
    have ih := addLoop_near a f g hk h c lo
    rw [List.range'_concat, List.foldl_append, List.foldl_cons, List.foldl_nil, sum_range_succ, sum_range_succ, ← _root_.add_assoc b, ← _root_.add_assoc m]
    have h2 := (ih.add ((prod_near (f (lo + 1 * c)) (g (lo + 1 * c))).mono (l := k + c) (by omega) le_rfl))
    rw [Nat.one_mul] at h2 ⊢
    have h3 := h2.mono (l := k + (c + 1)) (t := s + (c + 1 : ℕ) * φ.η) (by omega) (by push_cast; linarith)
    exact h3

theorem subLoop_near (a : Fl φ) (f g : Nat → Fl φ) : ∀ c : Nat,
    Near φ (c + 1) (c * φ.η) (subLoop a 0 c fun i => f i * g i).val (a.val - ∑ i ∈ range c, (f i).val * (g i).val)
      (|a.val| + ∑ i ∈ range c, |(f i).val| * |(g i).val|)
  | 0 => by simpa [subLoop] using (Near.exact (φ := φ) a.val).mono (l := 1) (by omega) le_rfl
  | c + 1 => by
    have ih := subLoop_near a f g c
    rw [subLoop] at ih ⊢
    rw [Nat.sub_zero] at ih ⊢
    rw [List.range'_concat, List.foldl_append, List.foldl_cons, List.foldl_nil, sum_range_succ, sum_range_succ, ← _root_.sub_sub, ← _root_.add_assoc]
    have h2 := (ih.sub ((prod_near (f (0 + 1 * c)) (g (0 + 1 * c))).mono (l := c + 1) (by omega) le_rfl))
    rw [Nat.one_mul, Nat.zero_add] at h2 ⊢
    refine h2.mono (by omega) (by push_cast; linarith)

/-! ### The columns of the Cholesky factor -/

/-- the computed entry in row `k` of column `i` -/
noncomputable def colEntry (A ret : Mat (Fl φ)) (i : Nat) (inv : Fl φ) (k : Nat) : Fl φ := inv * subLoop (A k i) 0 i fun j => ret i j * ret k j

theorem subLoop_congr {K : Type} [Sub K] (a : K) (f g : Nat → K) (c : Nat) (h : ∀ j, j < c → f j = g j) : subLoop a 0 c f = subLoop a 0 c g := by
  rw [subLoop, subLoop, Nat.sub_zero]
  induction c with
  | zero => rfl
  | succ c ih =>
    rw [List.range'_concat, List.foldl_append, List.foldl_append, ih fun j hj => h j (by omega)]
    simp [h c (by omega)]

theorem column_eq (n : Nat) (A ret : Mat (Fl φ)) (i : Nat) (inv : Fl φ) (r c : Nat) :
    choleskyColumn n A i inv ret r c = if c = i ∧ i < r ∧ r < n then colEntry A ret i inv r else ret r c := by
  have key : ∀ (l lo : Nat) , i < lo → ∀ r c, (List.range' lo l).foldl
      (fun ret k => setM ret k i (inv * subLoop (A k i) 0 i fun j => ret i j * ret k j)) ret r c =
        if c = i ∧ lo ≤ r ∧ r < lo + l then colEntry A ret i inv r else ret r c := by
    intro l
    induction l with
    | zero => intro lo _ r c; rw [if_neg (by omega)]; rfl
    | succ l ih =>
      intro lo hlo r c
      rw [List.range'_concat, List.foldl_append, List.foldl_cons, List.foldl_nil]
      have e : (fun j => ((List.range' lo l).foldl (fun ret k => setM ret k i (inv * subLoop (A k i) 0 i fun j => ret i j * ret k j)) ret) i j *
          ((List.range' lo l).foldl (fun ret k => setM ret k i (inv * subLoop (A k i) 0 i fun j => ret i j * ret k j)) ret) (lo + 1 * l) j) =
          fun j => (if j = i ∧ lo ≤ i ∧ i < lo + l then colEntry A ret i inv i else ret i j) *
            (if j = i ∧ lo ≤ lo + 1 * l ∧ lo + 1 * l < lo + l then colEntry A ret i inv (lo + 1 * l) else ret (lo + 1 * l) j) := by
        funext j
        rw [ih lo hlo, ih lo hlo]
      rw [setM, e, subLoop_congr _ _ (fun j => ret i j * ret (lo + 1 * l) j) i fun j hj => by rw [if_neg (by omega), if_neg (by omega)], ih lo hlo]
      by_cases h1 : r = lo + 1 * l ∧ c = i
      · rw [if_pos h1, if_pos (by omega), colEntry, h1.1]
      · rw [if_neg h1]
        by_cases h2 : c = i ∧ lo ≤ r ∧ r < lo + l
        · rw [if_pos h2, if_pos (by omega)]
        · rw [if_neg h2, if_neg (by omega)]
  rw [choleskyColumn, key _ _ (by omega)]
  congr 1
  simp only [eq_iff_iff]
  omega

end Verif.FloatVol
