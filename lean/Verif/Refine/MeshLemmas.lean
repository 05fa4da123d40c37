import Verif.Refine.MeshModel
import Verif.Refine.GlueProps

/-! Lemmas for C111: the loop over the wrapper, convex combinations of the corners of a simplex and of a box. -/

namespace Verif.Refine.Mesh

open Verif.Typ Verif.Refine.Virtual
open Finset hiding ext

variable {B O : Type}

theorem pushAll_eq (m : Nat) (f : Nat → Nat) : pushAll m f = (List.range m).map f := by
  induction m with
  | zero => rfl
  | succ m ih =>
    rw [pushAll, List.range_succ, List.foldl_append, List.map_append, ← ih]
    rfl

/-- an iterator that passes through `A 0, …, A N` -/
structure Steps (L : Loop B O) (N : Nat) (A : Nat → B) (o : Nat → O) : Prop where
  first : L.first = A 0
  next : ∀ k, k < N → L.next (A k) = some (A (k + 1))
  stop : ∀ k, k ≤ N → (L.eq (A k) L.last ↔ k = N)
  obs : ∀ k, k < N → L.obs (A k) = some (o k)

theorem loop_eq {L : Loop B O} {N : Nat} {A : Nat → B} {o : Nat → O} (h : Steps L N A o) : ∀ (m k fuel : Nat), k + m = N → m < fuel →
    ∀ (s : State B) (vals : Vals B), Inv s vals → vals 0 = some ⟨0, A k⟩ → vals 1 = some ⟨0, L.last⟩ →
    ∃ s', loop L fuel s = some ((List.range' k m).map o, s') ∧ Inv s' (setVal vals 0 (some ⟨0, A N⟩)) := by
  intro m
  induction m with
  | zero =>
    intro k fuel hk hf s vals hI h0 h1
    obtain ⟨f, rfl⟩ : ∃ f, fuel = f + 1 := ⟨fuel - 1, by omega⟩
    have hkN : k = N := by omega
    subst hkN
    refine ⟨s, ?_, ?_⟩
    · rw [loop, State.equals, hI.read, hI.read, h0, h1]
      have : L.eq (A k) L.last := (h.stop k le_rfl).2 rfl
      simp [this]
    · have : setVal vals 0 (some ⟨0, A k⟩) = vals := by
        funext v
        rw [setVal]
        split
        · rename_i hv; rw [hv, h0]
        · rfl
      rw [this]
      exact hI
  | succ m ih =>
    intro k fuel hk hf s vals hI h0 h1
    obtain ⟨f, rfl⟩ : ∃ f, fuel = f + 1 := ⟨fuel - 1, by omega⟩
    obtain ⟨p, hp, hd⟩ := hI.alive h0
    have hI' := hI.write ⟨0, A (k + 1)⟩ hp hd
    obtain ⟨s', e1, e2⟩ := ih (k + 1) f (by omega) (by omega) _ _ hI' (by simp [setVal]) (by simp [setVal, h1])
    refine ⟨s', ?_, ?_⟩
    · rw [loop, State.equals, hI.read, hI.read, h0, h1]
      have : ¬ L.eq (A k) L.last := fun hc => by
        have := (h.stop k (by omega)).1 hc
        omega
      have hinc : increment (fun _ => L.next) s 0 = some ⟨s.heap.set p (some ⟨0, A (k + 1)⟩), s.var⟩ := by
        rw [increment, hp]
        change (deref s.heap p).bind _ = _
        rw [hd]
        change (L.next (A k)).bind _ = _
        rw [h.next k (by omega)]
        rfl
      simp [this, h.obs k (by omega), hinc, e1, List.range'_succ]
    · have : setVal (setVal vals 0 (some ⟨0, A (k + 1)⟩)) 0 (some ⟨0, A N⟩) = setVal vals 0 (some ⟨0, A N⟩) := by
        funext v
        rw [setVal, setVal, setVal]
        split <;> rfl
      rw [← this]
      exact e2

theorem destroy_eq {s : State B} {vals : Vals B} (h : Inv s vals) {v : Nat} {b : Backend B} (hv : vals v = some b) :
    ∃ s', destroy s v = some s' ∧ Inv s' (setVal vals v none) := by
  obtain ⟨p, hp, hd⟩ := h.alive hv
  refine ⟨_, ?_, h.remove hp hd⟩
  rw [destroy, hp]
  change (delete s.heap p).bind _ = _
  rw [delete, hd]
  rfl

theorem make_eq {s : State B} {v : Nat} (b : Backend B) (h : s.var v = none) :
    make s v b = some ⟨new s.heap b, setVar s.var v (some s.heap.length)⟩ := if_pos h

theorem live_zero {s : State B} (h : ∀ p, deref s.heap p = none) : live s = 0 := by
  rw [live, List.countP_eq_zero]
  intro b hb hs
  obtain ⟨p, hp⟩ := List.getElem?_of_mem hb
  obtain ⟨c, rfl⟩ := Option.isSome_iff_exists.1 hs
  have := h p
  rw [deref, hp] at this
  cases this

theorem traverse_eq {L : Loop B O} {N : Nat} {A : Nat → B} {o : Nat → O} (h : Steps L N A o) (fuel : Nat) (hf : N < fuel) :
    ∃ s, traverse L fuel = some ((List.range N).map o, s) ∧ live s = 0 := by
  have i0 : Inv (initial : State B) fun _ => none := inv_initial
  have i1 := i0.create (v := 0) ⟨0, L.first⟩ rfl
  have i2 := i1.create (v := 1) ⟨0, L.last⟩ rfl
  obtain ⟨s, e1, i3⟩ := loop_eq h N 0 fuel (by omega) hf _ _ i2 (by simp [setVal, h.first]) (by simp [setVal])
  obtain ⟨s', e2, i4⟩ := destroy_eq i3 (v := 1) (b := ⟨0, L.last⟩) (by simp [setVal])
  obtain ⟨s'', e3, i5⟩ := destroy_eq i4 (v := 0) (b := ⟨0, A N⟩) (by simp [setVal])
  refine ⟨s'', ?_, live_zero fun p => ?_⟩
  · rw [traverse]
    have m0 := make_eq (s := (initial : State B)) (v := 0) ⟨0, L.first⟩ rfl
    have m1 := make_eq (s := (⟨new (initial : State B).heap ⟨0, L.first⟩, setVar (initial : State B).var 0
      (some (initial : State B).heap.length)⟩ : State B)) (v := 1) ⟨0, L.last⟩ rfl
    simp only [m0, m1, Option.bind_eq_bind, Option.bind_some, e1, e2, e3, List.range_eq_range', Option.pure_def]
  · rcases hd : deref s''.heap p with _ | b
    · rfl
    · obtain ⟨v, hv⟩ := i5.owned p b hd
      have : setVal (setVal (setVal (setVal (setVal (fun _ => none) 0 (some ⟨0, L.first⟩)) 1 (some ⟨0, L.last⟩)) 0 (some ⟨0, A N⟩)) 1 none) 0 none v
          = none := by
        simp only [setVal]
        split
        · rfl
        · split
          · rfl
          · rfl
      rw [i5.dead.1 this] at hv
      cases hv

theorem steps_of {L : Loop B O} {N : Nat} (f : Nat → Option B) (h0 : f 0 = some L.first) (hs : ∀ k, k < N → f (k + 1) = (f k).bind L.next)
    (o : Nat → O) (ha : ∀ k, k ≤ N → ∃ b, f k = some b ∧ (L.eq b L.last ↔ k = N) ∧ (k < N → L.obs b = some (o k))) :
    ∃ A, Steps L N A o := by
  refine ⟨fun k => (f k).getD L.first, by change L.first = (f 0).getD L.first; rw [h0]; rfl, fun k hk => ?_, fun k hk => ?_, fun k hk => ?_⟩
  · obtain ⟨b, e1, -⟩ := ha k (by omega)
    obtain ⟨b', e2, -⟩ := ha (k + 1) (by omega)
    have := hs k hk
    rw [e1, e2, Option.bind_some] at this
    change L.next ((f k).getD L.first) = some ((f (k + 1)).getD L.first)
    rw [e1, e2, Option.getD_some, Option.getD_some, ← this]
  · obtain ⟨b, e1, e2, -⟩ := ha k hk
    change L.eq ((f k).getD L.first) L.last ↔ k = N
    rw [e1]
    exact e2
  · obtain ⟨b, e1, -, e2⟩ := ha k (by omega)
    change L.obs ((f k).getD L.first) = some (o k)
    rw [e1]
    exact e2 hk

/-! ### convex combinations -/

/-- every point of the unit cube is a convex combination of the corners -/
theorem cube_weights : ∀ (d : Nat) (y : Nat → ℝ), (∀ i, i < d → 0 ≤ y i ∧ y i ≤ 1) → ∃ w : Nat → ℝ, (∀ a, 0 ≤ w a) ∧
    ∑ a ∈ range (2 ^ d), w a = 1 ∧ ∀ i, i < d → ∑ a ∈ range (2 ^ d), w a * (if a.testBit i then 1 else 0) = y i
  | 0, y, _ => ⟨fun _ => 1, fun _ => zero_le_one, by simp, fun i hi => absurd hi (Nat.not_lt_zero i)⟩
  | d + 1, y, h => by
    obtain ⟨w, h1, h2, h3⟩ := cube_weights d y fun i hi => h i (by omega)
    obtain ⟨y0, y1⟩ := h d (by omega)
    refine ⟨fun a => if a < 2 ^ d then (1 - y d) * w a else y d * w (a - 2 ^ d), fun a => ?_, ?_, fun i hi => ?_⟩
    · dsimp only
      split
      · exact mul_nonneg (by linarith) (h1 _)
      · exact mul_nonneg y0 (h1 _)
    · rw [pow_succ, mul_two, sum_range_add]
      have e1 : ∀ a ∈ range (2 ^ d), (if a < 2 ^ d then (1 - y d) * w a else y d * w (a - 2 ^ d)) = (1 - y d) * w a :=
        fun a ha => if_pos (mem_range.1 ha)
      have e2 : ∀ a ∈ range (2 ^ d), (if 2 ^ d + a < 2 ^ d then (1 - y d) * w (2 ^ d + a) else y d * w (2 ^ d + a - 2 ^ d)) = y d * w a :=
        fun a ha => by rw [if_neg (by omega), Nat.add_sub_cancel_left]
      rw [sum_congr rfl e1, sum_congr rfl e2, ← mul_sum, ← mul_sum, h2]
      ring
    · rw [pow_succ, mul_two, sum_range_add]
      have e1 : ∀ a ∈ range (2 ^ d), (if a < 2 ^ d then (1 - y d) * w a else y d * w (a - 2 ^ d)) * (if a.testBit i then 1 else 0) =
          (1 - y d) * (w a * if a.testBit i then 1 else 0) := fun a ha => by rw [if_pos (mem_range.1 ha), mul_assoc]
      have e2 : ∀ a ∈ range (2 ^ d), (if 2 ^ d + a < 2 ^ d then (1 - y d) * w (2 ^ d + a) else y d * w (2 ^ d + a - 2 ^ d)) *
          (if (2 ^ d + a).testBit i then 1 else 0) = y d * (w a * if (2 ^ d + a).testBit i then 1 else 0) :=
        fun a ha => by rw [if_neg (by omega), Nat.add_sub_cancel_left, mul_assoc]
      rw [sum_congr rfl e1, sum_congr rfl e2, ← mul_sum, ← mul_sum]
      by_cases hid : i = d
      · subst hid
        have f1 : ∀ a ∈ range (2 ^ i), (w a * if a.testBit i then (1 : ℝ) else 0) = 0 := fun a ha => by
          rw [Nat.testBit_lt_two_pow (mem_range.1 ha)]
          simp
        have f2 : ∀ a ∈ range (2 ^ i), (w a * if (2 ^ i + a).testBit i then (1 : ℝ) else 0) = w a := fun a ha => by
          rw [Nat.testBit_two_pow_add_eq, Nat.testBit_lt_two_pow (mem_range.1 ha)]
          simp
        rw [sum_congr rfl f1, sum_congr rfl f2, h2]
        simp
      · have hid' : i < d := by omega
        have f2 : ∀ a ∈ range (2 ^ d), (w a * if (2 ^ d + a).testBit i then (1 : ℝ) else 0) = w a * if a.testBit i then (1 : ℝ) else 0 :=
          fun a ha => by rw [Nat.testBit_two_pow_add_gt hid']
        rw [sum_congr rfl f2, h3 i hid']
        ring

/-- with positive weights the combination is in the interior -/
theorem cube_inner (d : Nat) (w : Nat → ℝ) (h1 : ∀ a, a < 2 ^ d → 0 < w a) (h2 : ∑ a ∈ range (2 ^ d), w a = 1) (i : Nat) (hi : i < d) :
    0 < ∑ a ∈ range (2 ^ d), w a * (if a.testBit i then 1 else 0) ∧ ∑ a ∈ range (2 ^ d), w a * (if a.testBit i then 1 else 0) < 1 := by
  have hb : 2 ^ i < 2 ^ d := Nat.pow_lt_pow_right (by norm_num) hi
  constructor
  · refine sum_pos' (fun a ha => mul_nonneg (h1 a (mem_range.1 ha)).le (by split <;> norm_num)) ⟨2 ^ i, mem_range.2 hb, ?_⟩
    rw [Nat.testBit_two_pow_self]
    simpa using h1 _ hb
  · refine lt_of_lt_of_eq ?_ h2
    refine sum_lt_sum (fun a ha => ?_) ⟨0, mem_range.2 (Nat.two_pow_pos d), ?_⟩
    · have := h1 a (mem_range.1 ha)
      split <;> simp [this.le]
    · rw [Nat.zero_testBit]
      simpa using h1 0 (Nat.two_pow_pos d)

theorem cube_outer (d : Nat) (w : Nat → ℝ) (h1 : ∀ a, a < 2 ^ d → 0 ≤ w a) (h2 : ∑ a ∈ range (2 ^ d), w a = 1) (i : Nat) :
    0 ≤ ∑ a ∈ range (2 ^ d), w a * (if a.testBit i then 1 else 0) ∧ ∑ a ∈ range (2 ^ d), w a * (if a.testBit i then 1 else 0) ≤ 1 := by
  constructor
  · exact sum_nonneg fun a ha => mul_nonneg (h1 a (mem_range.1 ha)) (by split <;> norm_num)
  · refine le_of_le_of_eq ?_ h2
    refine sum_le_sum fun a ha => ?_
    have := h1 a (mem_range.1 ha)
    split <;> simp [this]

/-- a convex combination of the corners of a simplex, with weights `w` -/
theorem interp_combo (d : Nat) (c : Nat → Nat → ℝ) (w : Nat → ℝ) (h : ∑ l ∈ range (d + 1), w l = 1) (i : Nat) :
    interp d c (fun l => w (l + 1)) i = ∑ l ∈ range (d + 1), w l * c l i := by
  rw [sum_range_succ'] at h ⊢
  rw [interp]
  have : ∑ l ∈ range d, w (l + 1) * (c (l + 1) i - c 0 i) = ∑ l ∈ range d, w (l + 1) * c (l + 1) i - (∑ l ∈ range d, w (l + 1)) * c 0 i := by
    rw [sum_mul, ← sum_sub_distrib]
    exact sum_congr rfl fun l _ => by ring
  rw [this]
  have : ∑ l ∈ range d, w (l + 1) = 1 - w 0 := by linarith
  rw [this]
  ring

/-- sums over the corners in another order -/
theorem sum_bij {d : Nat} (f : Fin (d + 1) → Fin (d + 1)) (hf : Function.Bijective f) (g : Nat → ℝ) :
    ∑ r : Fin (d + 1), g (f r) = ∑ l ∈ range (d + 1), g l := by
  rw [← Fin.sum_univ_eq_sum_range]
  exact Equiv.sum_comp (Equiv.ofBijective f hf) fun l : Fin (d + 1) => g l

end Verif.Refine.Mesh
