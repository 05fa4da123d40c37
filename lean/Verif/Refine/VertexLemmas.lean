import Verif.Refine.Perm
import Mathlib.Algebra.BigOperators.Group.Finset.Basic
import Mathlib.Algebra.BigOperators.Intervals
import Mathlib.Data.Nat.Choose.Sum

/-! Lemmas on the numbering of the vertices of a Kuhn simplex. -/

namespace Verif.Refine

open Function (update)
open Finset

/-- the coordinates decrease, as in the Kuhn simplex with the identity permutation -/
def Decreasing (d : Nat) (v : Nat → Nat) : Prop := ∀ i, i + 1 < d → v (i + 1) ≤ v i

/-- the part of `pointIndex` that belongs to the `k` entries from `a` on, when these are the last ones -/
def tailIndex (v : Nat → Nat) : (a k : Nat) → Nat
  | _, 0 => 0
  | a, k + 1 => (k + v a).choose (k + 1) + tailIndex v (a + 1) k

theorem foldl_add (l : List Nat) (f : Nat → Nat) (s : Nat) : l.foldl (fun s i => s + f i) s = s + (l.map f).sum := by
  induction l generalizing s with
  | nil => simp
  | cons a l ih => rw [List.foldl_cons, ih, List.map_cons, List.sum_cons, Nat.add_assoc]

theorem tailIndex_sum (v : Nat → Nat) (a k : Nat) :
    tailIndex v a k = ((List.range k).map fun i => (k - i + v (a + i) - 1).choose (k - i)).sum := by
  induction k generalizing a with
  | zero => rfl
  | succ k ih =>
    rw [tailIndex, ih, List.range_succ_eq_map, List.map_cons, List.sum_cons, List.map_map]
    congr 1
    · congr 1
      rw [show a + 0 = a from rfl]
      omega
    · congr 1
      refine List.map_congr_left fun i hi => ?_
      simp only [Function.comp, Nat.succ_eq_add_one]
      rw [show k + 1 - (i + 1) = k - i by omega, show a + (i + 1) = a + 1 + i by omega]

theorem pointIndex_eq (d : Nat) (v : Nat → Nat) : pointIndex d v = tailIndex v 0 d := by
  rw [pointIndex, foldl_add, tailIndex_sum, Nat.zero_add]
  congr 1
  refine List.map_congr_left fun i _ => ?_
  rw [Nat.zero_add]

theorem tailIndex_congr {v w : Nat → Nat} {a k : Nat} (h : ∀ j, a ≤ j → j < a + k → v j = w j) :
    tailIndex v a k = tailIndex w a k := by
  induction k generalizing a with
  | zero => rfl
  | succ k ih => rw [tailIndex, tailIndex, h a le_rfl (by omega), ih fun j h1 h2 => h j (by omega) (by omega)]

theorem tailIndex_const {v : Nat → Nat} {a k c : Nat} (h : ∀ j, a ≤ j → j < a + k → v j = c) :
    tailIndex v a k + 1 = (k + c).choose k := by
  induction k generalizing a with
  | zero => simp [tailIndex]
  | succ k ih =>
    rw [tailIndex, h a le_rfl (by omega), Nat.add_assoc, ih fun j h1 h2 => h j (by omega) (by omega),
      show k + 1 + c = k + c + 1 by omega, Nat.choose_succ_succ]
    exact Nat.add_comm _ _

theorem tailIndex_lt {v : Nat → Nat} {a k : Nat} (h : ∀ j, a ≤ j → j + 1 < a + k + 1 → v (j + 1) ≤ v j) :
    tailIndex v a (k + 1) < (k + 1 + v a).choose (k + 1) := by
  induction k generalizing a with
  | zero => simp [tailIndex]
  | succ k ih =>
    have h1 := ih (a := a + 1) fun j h1 h2 => h j (by omega) (by omega)
    have h2 : (k + 1 + v (a + 1)).choose (k + 1) ≤ (k + 1 + v a).choose (k + 1) :=
      Nat.choose_le_choose _ (by have := h a le_rfl (by omega); omega)
    rw [tailIndex, show k + 1 + 1 + v a = k + 1 + v a + 1 by omega, Nat.choose_succ_succ']
    omega

theorem tailIndex_inj {v w : Nat → Nat} {a k : Nat} (hv : ∀ j, a ≤ j → j + 1 < a + k → v (j + 1) ≤ v j)
    (hw : ∀ j, a ≤ j → j + 1 < a + k → w (j + 1) ≤ w j) (h : tailIndex v a k = tailIndex w a k) :
    ∀ j, a ≤ j → j < a + k → v j = w j := by
  induction k generalizing a with
  | zero => intro j h1 h2; omega
  | succ k ih =>
    have key : ∀ {v w : Nat → Nat}, (∀ j, a ≤ j → j + 1 < a + (k + 1) → v (j + 1) ≤ v j) → v a < w a →
        tailIndex v a (k + 1) < tailIndex w a (k + 1) := by
      intro v w hv hlt
      have h1 := tailIndex_lt (v := v) (a := a) (k := k) fun j h1 h2 => hv j h1 (by omega)
      have h2 : (k + 1 + v a).choose (k + 1) ≤ (k + w a).choose (k + 1) := Nat.choose_le_choose _ (by omega)
      have h3 : (k + w a).choose (k + 1) ≤ tailIndex w a (k + 1) := Nat.le_add_right _ _
      omega
    have ha : v a = w a := by
      rcases lt_trichotomy (v a) (w a) with hlt | he | hlt
      · exact absurd h (key hv hlt).ne
      · exact he
      · exact absurd h (key hw hlt).ne'
    rw [tailIndex, tailIndex, ha] at h
    intro j h1 h2
    rcases Nat.lt_or_eq_of_le h1 with h3 | h3
    · exact ih (fun j h1 h2 => hv j (by omega) (by omega)) (fun j h1 h2 => hw j (by omega) (by omega))
        (Nat.add_left_cancel h) j (by omega) (by omega)
    · subst h3; exact ha

theorem tailIndex_prefix {v w : Nat → Nat} {a p k x : Nat} (h : ∀ j, a ≤ j → j < a + p → v j = w j)
    (ht : tailIndex w (a + p) k = tailIndex v (a + p) k + x) : tailIndex w a (p + k) = tailIndex v a (p + k) + x := by
  induction p generalizing a with
  | zero => simpa using ht
  | succ p ih =>
    rw [show p + 1 + k = p + k + 1 by omega, tailIndex, tailIndex, h a le_rfl (by omega),
      ih (fun j h1 h2 => h j (by omega) (by omega)) (by rw [show a + 1 + p = a + (p + 1) by omega]; exact ht), ← Nat.add_assoc]

/-- what the increment does -/
theorem incLoop_spec (d : Nat) (v : Nat → Nat) (hv : Decreasing d v) (i : Nat) (hi : i < d)
    (hc : ∀ j, i ≤ j → j < d → v j = v i) (u : Nat → Nat) (hu1 : ∀ j, j ≤ i → u j = v j) (hu2 : ∀ j, i < j → u j = 0) :
    ∃ p, p ≤ i ∧ (∀ j, j < p → incLoop (i + 1) u j = v j) ∧ incLoop (i + 1) u p = v p + 1 ∧
      (∀ j, p < j → incLoop (i + 1) u j = 0) ∧ (∀ j, p ≤ j → j < d → v j = v p) ∧ (p = 0 ∨ v p + 1 ≤ v (p - 1)) := by
  induction i generalizing u with
  | zero =>
    refine ⟨0, le_rfl, fun j hj => absurd hj (by omega), ?_, fun j hj => ?_, hc, Or.inl rfl⟩
    · rw [incLoop]; simp [hu1 0 le_rfl]
    · rw [incLoop]; simp [Function.update_of_ne (show j ≠ 0 by omega), hu2 j hj]
  | succ i ih =>
    rw [incLoop]
    have e1 : update u (i + 1) (u (i + 1) + 1) (i + 1) = v (i + 1) + 1 := by rw [Function.update_self, hu1 _ le_rfl]
    have e2 : update u (i + 1) (u (i + 1) + 1) (i + 1 - 1) = v i := by
      rw [Nat.add_sub_cancel, Function.update_of_ne (by omega), hu1 i (by omega)]
    simp only [e1, e2, Nat.succ_ne_zero, false_or]
    by_cases hle : v (i + 1) + 1 ≤ v i
    · refine ⟨i + 1, le_rfl, fun j hj => ?_, ?_, fun j hj => ?_, hc, Or.inr (by simpa using hle)⟩
      · rw [if_pos hle, Function.update_of_ne (by omega), hu1 j (by omega)]
      · rw [if_pos hle, e1]
      · rw [if_pos hle, Function.update_of_ne (by omega), hu2 j hj]
    · have he : v (i + 1) = v i := by have := hv i hi; omega
      obtain ⟨p, h1, h2⟩ := ih (by omega) (fun j hj1 hj2 => by
          rcases Nat.lt_or_eq_of_le hj1 with h | h
          · rw [hc j h hj2, he]
          · rw [← h]) (update (update u (i + 1) (u (i + 1) + 1)) (i + 1) 0)
        (fun j hj => by rw [Function.update_of_ne (by omega), Function.update_of_ne (by omega), hu1 j (by omega)])
        (fun j hj => by
          by_cases hji : j = i + 1
          · subst hji; rw [Function.update_self]
          · rw [Function.update_of_ne hji, Function.update_of_ne hji, hu2 j (by omega)])
      refine ⟨p, by omega, ?_⟩
      rw [if_neg hle]
      exact h2

/-- a vertex of the (infinite) Kuhn cone -/
structure Cone (d : Nat) (v : Nat → Nat) : Prop where
  dec : Decreasing d v
  zero : ∀ j, d ≤ j → v j = 0

theorem cone_zero (d : Nat) : Cone d fun _ => 0 := ⟨fun _ _ => le_rfl, fun _ _ => rfl⟩

theorem incLoop_cone (d : Nat) (hd : 0 < d) (v : Nat → Nat) (h : Cone d v) :
    Cone d (incLoop d v) ∧ pointIndex d (incLoop d v) = pointIndex d v + 1 := by
  obtain ⟨i, rfl⟩ : ∃ i, d = i + 1 := ⟨d - 1, by omega⟩
  obtain ⟨p, h1, h2, h3, h4, h5, h6⟩ := incLoop_spec (i + 1) v h.dec i (by omega)
    (fun j h1 h2 => by rw [show j = i by omega]) v (fun _ _ => rfl) (fun j hj => h.zero j (by omega))
  refine ⟨⟨fun j hj => ?_, fun j hj => h4 j (by omega)⟩, ?_⟩
  · rcases lt_trichotomy (j + 1) p with hl | hl | hl
    · rw [h2 _ hl, h2 j (by omega)]; exact h.dec j hj
    · rw [hl, h3, h2 j (by omega)]
      have := h6.resolve_left (by omega)
      rwa [← hl, Nat.add_sub_cancel, hl] at this
    · rw [h4 _ hl]; exact Nat.zero_le _
  · rw [pointIndex_eq, pointIndex_eq]
    have hk : i + 1 = p + (i - p + 1) := by omega
    rw [hk]
    refine tailIndex_prefix (fun j _ hj => ?_) ?_
    · rw [← hk]; exact (h2 j (by omega)).symm
    · rw [← hk, Nat.zero_add]
      have e1 : tailIndex (incLoop (i + 1) v) (p + 1) (i - p) = 0 := by
        have := tailIndex_const (v := incLoop (i + 1) v) (a := p + 1) (k := i - p) (c := 0) fun j hj _ => h4 j (by omega)
        simp only [add_zero, Nat.choose_self] at this
        omega
      have e2 := tailIndex_const (v := v) (a := p) (k := i - p + 1) (c := v p) fun j hj1 hj2 => h5 j hj1 (by omega)
      rw [tailIndex, h3, e1, Nat.add_zero, e2]
      congr 1
      omega

/-- the number of a vertex determines it -/
theorem pointIndex_inj (d : Nat) {v w : Nat → Nat} (hv : Cone d v) (hw : Cone d w) (h : pointIndex d v = pointIndex d w) :
    v = w := by
  rw [pointIndex_eq, pointIndex_eq] at h
  funext j
  by_cases hj : j < d
  · exact tailIndex_inj (a := 0) (k := d) (fun j _ h => hv.dec j (by omega)) (fun j _ h => hw.dec j (by omega)) h j
      (Nat.zero_le _) (by omega)
  · rw [hv.zero j (by omega), hw.zero j (by omega)]

theorem pointIndex_zero (d : Nat) : pointIndex d (fun _ => 0) = 0 := by
  have := tailIndex_const (v := fun _ => 0) (a := 0) (k := d) (c := 0) fun _ _ _ => rfl
  simp only [add_zero, Nat.choose_self] at this
  rw [pointIndex_eq]
  omega

theorem pointIndex_first (d : Nat) (hd : 0 < d) (c : Nat) :
    pointIndex d (fun i => if i = 0 then c + 1 else 0) = nVertices d c := by
  obtain ⟨k, rfl⟩ : ∃ k, d = k + 1 := ⟨d - 1, by omega⟩
  rw [pointIndex_eq, tailIndex, if_pos rfl]
  have := tailIndex_const (v := fun i => if i = 0 then c + 1 else 0) (a := 1) (k := k) (c := 0) fun j hj _ => if_neg (by omega)
  simp only [add_zero, Nat.choose_self] at this
  rw [Nat.zero_add, show tailIndex (fun i => if i = 0 then c + 1 else 0) 1 k = 0 by omega, Nat.add_zero, nVertices]
  congr 1
  omega

/-- the vertices of width `c` come first -/
theorem pointIndex_lt_iff (d : Nat) (hd : 0 < d) (v : Nat → Nat) (hv : Cone d v) (c : Nat) :
    pointIndex d v < nVertices d c ↔ v 0 ≤ c := by
  obtain ⟨k, rfl⟩ : ∃ k, d = k + 1 := ⟨d - 1, by omega⟩
  rw [pointIndex_eq, nVertices]
  constructor
  · intro h
    by_contra hc
    have h1 : (k + v 0).choose (k + 1) ≤ tailIndex v 0 (k + 1) := Nat.le_add_right _ _
    have h2 : (k + 1 + c).choose (k + 1) ≤ (k + v 0).choose (k + 1) := Nat.choose_le_choose _ (by omega)
    omega
  · intro h
    have h1 := tailIndex_lt (v := v) (a := 0) (k := k) fun j _ hj => hv.dec j (by omega)
    have h2 : (k + 1 + v 0).choose (k + 1) ≤ (k + 1 + c).choose (k + 1) := Nat.choose_le_choose _ (by omega)
    omega

/-- every number belongs to a vertex -/
theorem iterate_cone (d : Nat) (hd : 0 < d) (k : Nat) :
    Cone d ((incLoop d)^[k] fun _ => 0) ∧ pointIndex d ((incLoop d)^[k] fun _ => 0) = k := by
  induction k with
  | zero => exact ⟨cone_zero d, pointIndex_zero d⟩
  | succ k ih =>
    rw [Function.iterate_succ_apply']
    obtain ⟨h1, h2⟩ := incLoop_cone d hd _ ih.1
    exact ⟨h1, by rw [h2, ih.2]⟩

theorem iterate_index (d : Nat) (hd : 0 < d) (v : Nat → Nat) (hv : Cone d v) :
    (incLoop d)^[pointIndex d v] (fun _ => 0) = v :=
  pointIndex_inj d (iterate_cone d hd _).1 hv (iterate_cone d hd _).2

/-- the coordinate differences -/
theorem kuhnToReference_id {K : Type} [Sub K] (d : Nat) (v : Nat → K) :
    kuhnToReference d v (fun i => i) = fun i => if i + 1 < d then v i - v (i + 1) else v i := by
  have key : ∀ k, (List.range k).foldl (fun (point : Nat → K) i => update point i (point i - point (i + 1))) v =
      fun i => if i < k then v i - v (i + 1) else v i := by
    intro k
    induction k with
    | zero => simp
    | succ k ih =>
      rw [List.range_succ, List.foldl_append, ih, List.foldl_cons, List.foldl_nil]
      funext i
      by_cases hi : i = k
      · subst hi; simp
      · rw [Function.update_of_ne hi]
        by_cases hi2 : i < k
        · rw [if_pos hi2, if_pos (by omega)]
        · rw [if_neg hi2, if_neg (by omega)]
  rw [kuhnToReference]
  refine (key (d - 1)).trans ?_
  funext i
  have : i < d - 1 ↔ i + 1 < d := by omega
  simp only [this]

end Verif.Refine
