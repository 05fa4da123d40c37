import Verif.Refine.TriangProps

/-! Kuhn simplices of the integer lattice form a conforming triangulation of space. -/

namespace Verif.Refine

open Function Finset
open Equiv (Perm)

variable {K : Type} [Field K] [LinearOrder K] [IsStrictOrderedRing K]

/-- the coordinates in decreasing order, between one and zero -/
def level (d : Nat) (q : Nat → Nat) (f : Nat → K) (k : Nat) : K := if k = 0 then 1 else if k ≤ d then f (q (k - 1)) else 0

section
omit [LinearOrder K] [IsStrictOrderedRing K]

theorem level_zero (d : Nat) (q : Nat → Nat) (f : Nat → K) : level d q f 0 = 1 := if_pos rfl

theorem level_mid {d : Nat} (q : Nat → Nat) (f : Nat → K) {k : Nat} (h : k < d) : level d q f (k + 1) = f (q k) := by
  rw [level, if_neg (by omega), if_pos (by omega), Nat.add_sub_cancel]

theorem level_top {d : Nat} (q : Nat → Nat) (f : Nat → K) {k : Nat} (h : d < k) : level d q f k = 0 := by
  rw [level, if_neg (by omega), if_neg (by omega)]

end

theorem level_succ {d : Nat} {q : Nat → Nat} {f : Nat → K} (h : InKuhn d q f) (k : Nat) :
    level d q f (k + 1) ≤ level d q f k := by
  rcases Nat.lt_or_ge k d with hk | hk
  · rw [level_mid q f hk]
    rcases k with _ | k
    · rw [level_zero]
      exact (h.2 0 hk).2
    · rw [level_mid q f (by omega)]
      exact h.1 k hk
  · rw [level_top q f (by omega)]
    rcases k with _ | k
    · rw [level_zero]
      exact zero_le_one
    · rcases Nat.lt_or_ge k d with hk' | hk'
      · rw [level_mid q f hk']
        exact (h.2 k hk').1
      · rw [level_top q f (by omega)]

theorem level_anti {d : Nat} {q : Nat → Nat} {f : Nat → K} (h : InKuhn d q f) :
    Antitone (level d q f) := antitone_nat_of_succ_le (level_succ h)

theorem level_ge {d : Nat} {q : Perm Nat} (hq : ∀ k, d ≤ k → q k = k) {f : Nat → K} (h : InKuhn d q f) {k : Nat} {t : K}
    (h1 : level d q f (k + 1) < t) (h2 : t ≤ level d q f k) (i : Nat) (hi : i < d) : t ≤ f i ↔ q.symm i < k := by
  have hj := symm_lt hq hi
  have e : f i = level d q f (q.symm i + 1) := by
    rw [level_mid q f hj, Equiv.apply_symm_apply]
  rw [e]
  constructor
  · intro h3
    by_contra h4
    have := level_anti h (show k + 1 ≤ q.symm i + 1 by omega)
    exact absurd (h3.trans this) (not_le.2 h1)
  · intro h3
    exact h2.trans (level_anti h (show q.symm i + 1 ≤ k by omega))

omit [IsStrictOrderedRing K] in
theorem level_find {d : Nat} {q : Nat → Nat} {f : Nat → K} {t : K} (h0 : 0 < t) (h1 : t ≤ 1) :
    ∃ k, k ≤ d ∧ level d q f (k + 1) < t ∧ t ≤ level d q f k := by
  classical
  have hex : ∃ m, level d q f m < t := ⟨d + 1, by rw [level_top q f (by omega)]; exact h0⟩
  have hs := Nat.find_spec hex
  have hm : Nat.find hex ≤ d + 1 := Nat.find_min' hex (by rw [level_top q f (by omega)]; exact h0)
  have hne : Nat.find hex ≠ 0 := by
    intro h
    rw [h, level_zero] at hs
    exact absurd h1 (not_le.2 hs)
  refine ⟨Nat.find hex - 1, by omega, ?_, ?_⟩
  · rw [Nat.sub_add_cancel (by omega)]
    exact hs
  · exact not_lt.1 (Nat.find_min hex (by omega))

/-- the vertex of the lattice that belongs to a threshold depends on the sum alone -/
theorem lattice {f f' t : K} {o o' : Nat} (h0 : 0 ≤ f) (h1 : f ≤ 1) (h0' : 0 ≤ f') (h1' : f' ≤ 1) (ht0 : 0 < t) (ht1 : t ≤ 1)
    (h : f + o = f' + o') : (o + if t ≤ f then 1 else 0) = o' + if t ≤ f' then 1 else 0 := by
  split
  · split
    · have e1 : (o : K) < o' + 1 := by linarith
      have e2 : (o' : K) < o + 1 := by linarith
      have e1' : o < o' + 1 := by exact_mod_cast e1
      have e2' : o' < o + 1 := by exact_mod_cast e2
      omega
    · have e1 : (o : K) < o' := by linarith
      have e2 : (o' : K) < o + 2 := by linarith
      have e1' : o < o' := by exact_mod_cast e1
      have e2' : o' < o + 2 := by exact_mod_cast e2
      omega
  · split
    · have e1 : (o' : K) < o := by linarith
      have e2 : (o : K) < o' + 2 := by linarith
      have e1' : o' < o := by exact_mod_cast e1
      have e2' : o < o' + 2 := by exact_mod_cast e2
      omega
    · have e1 : (o : K) < o' + 1 := by linarith
      have e2 : (o' : K) < o + 1 := by linarith
      have e1' : o < o' + 1 := by exact_mod_cast e1
      have e2' : o' < o + 1 := by exact_mod_cast e2
      omega

/-- corner number `k` of the Kuhn path, in integer coordinates -/
def lcorner (q : Perm Nat) (o : Nat → Nat) (k i : Nat) : Nat := o i + if q.symm i < k then 1 else 0

theorem lcorner_inj {d : Nat} {q : Perm Nat} (hq : ∀ k, d ≤ k → q k = k) {o : Nat → Nat} {k k' : Nat} (hk : k ≤ d) (hk' : k' ≤ d)
    (h : ∀ i, i < d → lcorner q o k i = lcorner q o k' i) : k = k' := by
  by_contra hne
  rcases Nat.lt_or_gt_of_ne hne with hlt | hlt
  · have := h (q k) (perm_lt hq (by omega))
    simp only [lcorner, Equiv.symm_apply_apply, if_neg (lt_irrefl k), if_pos hlt] at this
    omega
  · have := h (q k') (perm_lt hq (by omega))
    simp only [lcorner, Equiv.symm_apply_apply, if_neg (lt_irrefl k'), if_pos hlt] at this
    omega

/-- two Kuhn simplices with a common point: thresholds -/
theorem threshold {d : Nat} {q q' : Perm Nat} (hq : ∀ k, d ≤ k → q k = k) (hq' : ∀ k, d ≤ k → q' k = k) {f f' : Nat → K}
    (h : InKuhn d q f) (h' : InKuhn d q' f') {o o' : Nat → Nat} (he : ∀ i, i < d → f i + o i = f' i + o' i) {k k' : Nat} {t : K}
    (ht0 : 0 < t) (ht1 : t ≤ 1) (h1 : level d q f (k + 1) < t) (h2 : t ≤ level d q f k)
    (h1' : level d q' f' (k' + 1) < t) (h2' : t ≤ level d q' f' k') (i : Nat) (hi : i < d) : lcorner q o k i = lcorner q' o' k' i := by
  have e := lattice (kuhn_bounds hq h i hi).1 (kuhn_bounds hq h i hi).2 (kuhn_bounds hq' h' i hi).1 (kuhn_bounds hq' h' i hi).2 ht0 ht1 (he i hi)
  rw [if_congr (level_ge hq h h1 h2 i hi) rfl rfl, if_congr (level_ge hq' h' h1' h2' i hi) rfl rfl] at e
  exact e

theorem level_le_one {d : Nat} {q : Nat → Nat} {f : Nat → K} (h : InKuhn d q f) (k : Nat) :
    level d q f k ≤ 1 := by
  have := level_anti h (Nat.zero_le k)
  rwa [level_zero] at this

theorem level_nonneg {d : Nat} {q : Nat → Nat} {f : Nat → K} (h : InKuhn d q f) (k : Nat) :
    0 ≤ level d q f k := by
  have h2 : level d q f (max k (d + 1)) = 0 := level_top q f (by omega)
  rw [← h2]
  exact level_anti h (le_max_left _ _)

/-- one inclusion of the intervals of thresholds -/
theorem levels_sub {d : Nat} {q q' : Perm Nat} (hq : ∀ k, d ≤ k → q k = k) (hq' : ∀ k, d ≤ k → q' k = k) {f f' : Nat → K}
    (h : InKuhn d q f) (h' : InKuhn d q' f') {o o' : Nat → Nat} (he : ∀ i, i < d → f i + o i = f' i + o' i) {k k' : Nat}
    (hk' : k' ≤ d) (hc : ∀ i, i < d → lcorner q o k i = lcorner q' o' k' i) {t : K}
    (h1 : level d q f (k + 1) < t) (h2 : t ≤ level d q f k) : level d q' f' (k' + 1) < t ∧ t ≤ level d q' f' k' := by
  have ht0 : 0 < t := lt_of_le_of_lt (level_nonneg h _) h1
  have ht1 : t ≤ 1 := h2.trans (level_le_one h _)
  obtain ⟨m, hm, h3, h4⟩ := level_find (d := d) (q := q') (f := f') ht0 ht1
  have e := threshold hq hq' h h' he ht0 ht1 h1 h2 h3 h4
  obtain rfl := lcorner_inj hq' hk' hm fun i hi => (hc i hi).symm.trans (e i hi)
  exact ⟨h3, h4⟩

/-- Kuhn simplices with a common point: a corner with positive weight is a corner of the other one, and common corners have
equal weights -/
theorem lattice_conform {d : Nat} {q q' : Perm Nat} (hq : ∀ k, d ≤ k → q k = k) (hq' : ∀ k, d ≤ k → q' k = k) {f f' : Nat → K}
    (h : InKuhn d q f) (h' : InKuhn d q' f') {o o' : Nat → Nat} (he : ∀ i, i < d → f i + o i = f' i + o' i) :
    (∀ k, 0 < level d q f k - level d q f (k + 1) → ∃ k', k' ≤ d ∧ ∀ i, i < d → lcorner q o k i = lcorner q' o' k' i) ∧
    ∀ k k', k ≤ d → k' ≤ d → (∀ i, i < d → lcorner q o k i = lcorner q' o' k' i) →
      level d q f k - level d q f (k + 1) = level d q' f' k' - level d q' f' (k' + 1) := by
  have he' : ∀ i, i < d → f' i + o' i = f i + o i := fun i hi => (he i hi).symm
  constructor
  · intro k hw
    have hlt : level d q f (k + 1) < level d q f k := by linarith
    have ht0 : 0 < level d q f k := lt_of_le_of_lt (level_nonneg h _) hlt
    obtain ⟨m, hm, h3, h4⟩ := level_find (d := d) (q := q') (f := f') ht0 (level_le_one h k)
    exact ⟨m, hm, threshold hq hq' h h' he ht0 (level_le_one h k) hlt le_rfl h3 h4⟩
  · intro k k' hk hk' hc
    have hc' : ∀ i, i < d → lcorner q' o' k' i = lcorner q o k i := fun i hi => (hc i hi).symm
    have m1 := level_succ h k
    have m2 := level_succ h' k'
    rcases m1.lt_or_eq with hlt | heq
    · have a := levels_sub hq hq' h h' he hk' hc hlt le_rfl
      have hlt' := a.1.trans_le a.2
      have b := levels_sub hq' hq h' h he' hk hc' hlt' le_rfl
      have e1 : level d q f k = level d q' f' k' := le_antisymm a.2 b.2
      have e2 : level d q f (k + 1) = level d q' f' (k' + 1) := by
        rcases lt_trichotomy (level d q f (k + 1)) (level d q' f' (k' + 1)) with hh | hh | hh
        · exact absurd (levels_sub hq hq' h h' he hk' hc hh (by rw [e1]; exact hlt'.le)).1 (lt_irrefl _)
        · exact hh
        · exact absurd (levels_sub hq' hq h' h he' hk hc' hh (by rw [← e1]; exact hlt.le)).1 (lt_irrefl _)
      rw [e1, e2]
    · rcases m2.lt_or_eq with hlt' | heq'
      · have b := levels_sub hq' hq h' h he' hk hc' hlt' le_rfl
        exact absurd (b.1.trans_le b.2) (by rw [heq]; exact lt_irrefl _)
      · rw [heq, heq']
        simp

/-- barycentric coordinates with respect to the corners of the reference simplex -/
def bary (d : Nat) (z : Nat → K) (i : Nat) : K := if i = 0 then 1 - ∑ j ∈ range d, z j else z (i - 1)

/-- local coordinates of corner `i` of the reference simplex -/
def unit (i : Nat) : Nat → K := fun k => if k + 1 = i then 1 else 0

theorem bary_path {d : Nat} {q : Perm Nat} (hq : ∀ k, d ≤ k → q k = k) (z : Nat → K) (k : Nat) (hk : k ≤ d) :
    level d q (referenceToKuhn d z q) k - level d q (referenceToKuhn d z q) (k + 1) = bary d z (pathOrder q k) := by
  rcases k with _ | k
  · rw [level_zero, pathOrder, if_pos rfl, bary, if_pos rfl]
    congr 1
    rcases Nat.eq_zero_or_pos d with rfl | hd
    · rw [level_top _ _ (by omega), sum_range_zero]
    · rw [level_mid _ _ hd, referenceToKuhn_eq d q z 0 hd, Nat.Ico_zero_eq_range, sum_perm d q hq]
  · have e : bary d z (pathOrder q (k + 1)) = z (q k) := by
      rw [pathOrder, if_neg (Nat.succ_ne_zero k), bary, if_neg (Nat.succ_ne_zero _), Nat.add_sub_cancel, Nat.add_sub_cancel]
    rw [e, level_mid _ _ hk, referenceToKuhn_eq d q z k hk, sum_eq_sum_Ico_succ_bot hk]
    rcases Nat.lt_or_ge (k + 1) d with h | h
    · rw [level_mid _ _ h, referenceToKuhn_eq d q z (k + 1) h, add_sub_cancel_right]
    · rw [level_top _ _ (by omega), Ico_eq_empty_of_le h, sum_empty]
      ring

theorem pathOrder_surj {d : Nat} {q : Perm Nat} (hq : ∀ k, d ≤ k → q k = k) {i : Nat} (hi : i ≤ d) :
    ∃ k, k ≤ d ∧ pathOrder q k = i := by
  rcases i with _ | i
  · exact ⟨0, by omega, rfl⟩
  · refine ⟨q.symm i + 1, symm_lt hq (by omega), ?_⟩
    rw [pathOrder, if_neg (by omega), Nat.add_sub_cancel, Equiv.apply_symm_apply]

omit [LinearOrder K] [IsStrictOrderedRing K] in
/-- the corners in integer coordinates -/
theorem corner_lattice {d : Nat} {q : Perm Nat} (hq : ∀ k, d ≤ k → q k = k) (o : Nat → Nat) {k : Nat} (hk : k ≤ d) (l : Nat) (hl : l < d) :
    referenceToKuhn d (unit (K := K) (pathOrder q k)) q l + o l = (lcorner q o k l : K) := by
  have e := r2k_corner (K := K) d q hq k hk l hl
  have e' : (fun m => if m + 1 = pathOrder q k then (1 : K) else 0) = unit (pathOrder q k) := rfl
  rw [e'] at e
  rw [e, lcorner]
  split
  · push_cast; ring
  · push_cast; ring

/-- Kuhn simplices of the lattice with a common point -/
theorem kuhn_conform {d : Nat} {q q' : Perm Nat} (hq : ∀ k, d ≤ k → q k = k) (hq' : ∀ k, d ≤ k → q' k = k)
    {z z' : Nat → K} (hz : InSimplex d z) (hz' : InSimplex d z')
    {o o' : Nat → Nat} (he : ∀ i, i < d → referenceToKuhn d z q i + o i = referenceToKuhn d z' q' i + o' i) :
    (∀ i, i ≤ d → 0 < bary d z i → ∃ j, j ≤ d ∧ ∀ l, l < d → referenceToKuhn d (unit (K := K) i) q l + o l =
      referenceToKuhn d (unit j) q' l + o' l) ∧
    ∀ i j, i ≤ d → j ≤ d → (∀ l, l < d → referenceToKuhn d (unit (K := K) i) q l + o l =
      referenceToKuhn d (unit j) q' l + o' l) → bary d z i = bary d z' j := by
  obtain ⟨c1, c2⟩ := lattice_conform hq hq' ((inKuhn_iff d q hq z).2 hz) ((inKuhn_iff d q' hq' z').2 hz') he
  constructor
  · intro i hi hw
    obtain ⟨k, hk, rfl⟩ := pathOrder_surj hq hi
    rw [← bary_path hq z k hk] at hw
    obtain ⟨k', hk', e⟩ := c1 k hw
    refine ⟨pathOrder q' k', by have := pathOrder_le hq' hk'; omega, fun l hl => ?_⟩
    rw [corner_lattice hq o hk l hl, corner_lattice hq' o' hk' l hl, e l hl]
  · intro i j hi hj e
    obtain ⟨k, hk, rfl⟩ := pathOrder_surj hq hi
    obtain ⟨k', hk', rfl⟩ := pathOrder_surj hq' hj
    rw [← bary_path hq z k hk, ← bary_path hq' z' k' hk']
    refine c2 k k' hk hk' fun l hl => ?_
    have := e l hl
    rw [corner_lattice hq o hk l hl, corner_lattice hq' o' hk' l hl] at this
    exact_mod_cast this

/-! ### the weight of a corner as a function of the point and the corner alone -/

/-- the coordinates of `Y - V`, followed by zero -/
def ext (d : Nat) (Y V : Nat → K) (i : Nat) : K := if i < d then Y i - V i else 0

/-- one minus the weight is the spread of the coordinates of `Y - V` and zero -/
theorem weight_spread {d : Nat} {q : Perm Nat} (hq : ∀ k, d ≤ k → q k = k) {f : Nat → K} (h : InKuhn d q f) (o : Nat → Nat)
    {k : Nat} (hk : k ≤ d) (r : K) :
    (∀ i j, i ≤ d → j ≤ d → ext d (fun i => f i + o i) (fun i => (lcorner q o k i : K)) i -
      ext d (fun i => f i + o i) (fun i => (lcorner q o k i : K)) j ≤ r) ↔
    1 - (level d q f k - level d q f (k + 1)) ≤ r := by
  set E := ext d (fun i => f i + o i) (fun i => (lcorner q o k i : K)) with hE
  have hEd : E d = 0 := by rw [hE, ext, if_neg (lt_irrefl d)]
  have hEi : ∀ j, j < d → E (q j) = level d q f (j + 1) - if j < k then 1 else 0 := by
    intro j hj
    rw [hE, ext, if_pos (perm_lt hq hj), level_mid _ _ hj, lcorner, Equiv.symm_apply_apply]
    split
    · push_cast; ring
    · push_cast; ring
  have hall : ∀ i, i ≤ d → level d q f k - 1 ≤ E i ∧ E i ≤ level d q f (k + 1) := by
    intro i hi
    rcases Nat.lt_or_eq_of_le hi with hi | rfl
    · have hj := symm_lt hq hi
      have e := hEi _ hj
      rw [Equiv.apply_symm_apply] at e
      rw [e]
      split
      · rename_i hlt
        have a := level_anti h (show q.symm i + 1 ≤ k by omega)
        have b := level_le_one h (q.symm i + 1)
        have c := level_nonneg h (k + 1)
        constructor <;> linarith
      · rename_i hlt
        have a := level_anti h (show k + 1 ≤ q.symm i + 1 by omega)
        have b := level_nonneg h (q.symm i + 1)
        have c := level_le_one h k
        constructor <;> linarith
    · rw [hEd]
      exact ⟨by linarith [level_le_one h k], level_nonneg h _⟩
  have hmax : ∃ i, i ≤ d ∧ E i = level d q f (k + 1) := by
    rcases Nat.lt_or_eq_of_le hk with hk | rfl
    · refine ⟨q k, (perm_lt hq hk).le, ?_⟩
      rw [hEi k hk, if_neg (lt_irrefl k), sub_zero]
    · exact ⟨k, le_rfl, by rw [hEd, level_top _ _ (by omega)]⟩
  have hmin : ∃ i, i ≤ d ∧ E i = level d q f k - 1 := by
    rcases k with _ | k
    · exact ⟨d, le_rfl, by rw [hEd, level_zero, sub_self]⟩
    · refine ⟨q k, (perm_lt hq (by omega)).le, ?_⟩
      rw [hEi k (by omega), if_pos (by omega)]
  constructor
  · intro hr
    obtain ⟨i, hi, ei⟩ := hmax
    obtain ⟨j, hj, ej⟩ := hmin
    have := hr i j hi hj
    rw [ei, ej] at this
    linarith
  · intro hr i j hi hj
    linarith [(hall i hi).2, (hall j hj).1]

/-- a lattice point at spread less than one is a corner of every Kuhn simplex containing the point -/
theorem corner_of_spread {d : Nat} {q : Perm Nat} (hq : ∀ k, d ≤ k → q k = k) {f : Nat → K} (h : InKuhn d q f) (o V : Nat → Nat)
    {r : K} (hr : r < 1) (hs : ∀ i j, i ≤ d → j ≤ d → ext d (fun i => f i + o i) (fun i => (V i : K)) i -
      ext d (fun i => f i + o i) (fun i => (V i : K)) j ≤ r) : ∃ k, k ≤ d ∧ ∀ i, i < d → V i = lcorner q o k i := by
  set E := ext d (fun i => f i + o i) (fun i => (V i : K)) with hE
  have hEd : E d = 0 := by rw [hE, ext, if_neg (lt_irrefl d)]
  obtain ⟨m, hm, hmin⟩ := Finset.exists_min_image (range (d + 1)) E ⟨d, by simp⟩
  have hm' : m ≤ d := by have := mem_range.1 hm; omega
  have h1 : E m ≤ 0 := by rw [← hEd]; exact hmin d (by simp)
  have h0 := hs d m le_rfl hm'
  rw [hEd] at h0
  obtain ⟨k, hk, hk1, hk2⟩ := level_find (d := d) (q := q) (f := f) (t := 1 + E m) (by linarith) (by linarith)
  refine ⟨k, hk, fun i hi => ?_⟩
  have hi1 := hmin i (by simp; omega)
  have hi2 := hs i m hi.le hm'
  have e : E i = f i + o i - V i := by rw [hE, ext, if_pos hi]
  have hg := level_ge hq h hk1 hk2 i hi
  obtain ⟨b0, b1⟩ := kuhn_bounds hq h i hi
  rw [e] at hi1 hi2
  rw [lcorner]
  split
  · rename_i hlt
    have ht := hg.2 hlt
    have a1 : (o i : K) < V i := by linarith
    have a2 : (V i : K) < o i + 2 := by linarith
    have a1' : o i < V i := by exact_mod_cast a1
    have a2' : V i < o i + 2 := by exact_mod_cast a2
    omega
  · rename_i hlt
    have ht := not_le.1 fun hh => hlt (hg.1 hh)
    have a1 : (o i : K) < V i + 1 := by linarith
    have a2 : (V i : K) < o i + 1 := by linarith
    have a1' : o i < V i + 1 := by exact_mod_cast a1
    have a2' : V i < o i + 1 := by exact_mod_cast a2
    omega

end Verif.Refine
