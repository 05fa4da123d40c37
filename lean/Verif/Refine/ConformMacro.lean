import Verif.Refine.ConformLemmas

/-! Refined Kuhn simplices of one cube: what two of them have in common, in dimension up to three. -/

namespace Verif.Refine

open Function Finset
open Equiv (Perm)

variable {K : Type} [Field K] [LinearOrder K] [IsStrictOrderedRing K]

omit [LinearOrder K] [IsStrictOrderedRing K] in
theorem sum_diff_all {d : Nat} (hd : 0 < d) (y : Nat → K) : ∑ i ∈ range d, diff d y i = y 0 := by
  obtain ⟨m, rfl⟩ : ∃ m, d = m + 1 := ⟨d - 1, by omega⟩
  rw [sum_range_succ, diff, if_neg (by omega)]
  have : ∀ i ∈ range m, diff (m + 1) y i = y i - y (i + 1) := fun i hi => if_pos (by have := mem_range.1 hi; omega)
  rw [sum_congr rfl this, Finset.sum_range_sub']
  ring

/-- decreasing coordinates, between `n` and zero -/
def chain (d : Nat) (n : K) (Y : Nat → K) (i : Nat) : K := if i = 0 then n else if i ≤ d then Y (i - 1) else 0

omit [LinearOrder K] [IsStrictOrderedRing K] in
theorem bary_chain {d : Nat} (hd : 0 < d) {n : K} (hn : n ≠ 0) (Y : Nat → K) (i : Nat) (hi : i ≤ d) :
    n * bary d (diff d fun j => Y j / n) i = chain d n Y i - chain d n Y (i + 1) := by
  rcases i with _ | i
  · rw [bary, if_pos rfl, sum_diff_all hd, chain, if_pos rfl, chain, if_neg (by omega), if_pos (by omega), Nat.add_sub_cancel]
    field_simp
  · rw [bary, if_neg (by omega), Nat.add_sub_cancel]
    have e : chain d n Y (i + 1) = Y i := by rw [chain, if_neg (by omega), if_pos hi, Nat.add_sub_cancel]
    rw [e]
    rcases Nat.lt_or_ge (i + 1) d with h | h
    · rw [diff, if_pos h, chain, if_neg (by omega), if_pos (by omega), Nat.add_sub_cancel]
      field_simp
    · rw [diff, if_neg (by omega), chain, if_neg (by omega), if_neg (by omega)]
      field_simp
      ring

/-- the faces of the big simplex that contain a point contain the corners with positive weight -/
theorem support {d n : Nat} (hd : 0 < d) (hn : 0 < n) {q : Perm Nat} (hq : ∀ k, d ≤ k → q k = k) {f : Nat → K} (h : InKuhn d q f)
    (o : Nat → Nat) {k : Nat} (hw : 0 < level d q f k - level d q f (k + 1)) (a : Nat) (ha : a ≤ d)
    (h0 : bary d (diff d fun i => (f i + o i) / (n : K)) a = 0) : bary d (diff d fun i => (lcorner q o k i : K) / (n : K)) a = 0 := by
  have hn' : (n : K) ≠ 0 := Nat.cast_ne_zero.2 (by omega)
  have hlt : level d q f (k + 1) < level d q f k := by linarith
  have ht0 : 0 < level d q f k := lt_of_le_of_lt (level_nonneg h _) hlt
  have ht1 := level_le_one h k
  set t := level d q f k with ht
  have hc : ∀ i, i < d → lcorner q o k i = o i + if t ≤ f i then 1 else 0 := by
    intro i hi
    rw [lcorner, if_congr (level_ge hq h hlt le_rfl i hi) rfl rfl]
  have h1 := bary_chain hd hn' (fun i => f i + o i) a ha
  rw [h0, mul_zero] at h1
  have h2 : chain d (n : K) (fun i => (lcorner q o k i : K)) a - chain d (n : K) (fun i => (lcorner q o k i : K)) (a + 1) = 0 := by
    have hb := kuhn_bounds hq h
    rcases a with _ | a
    · rw [chain, if_pos rfl, chain, if_neg (by omega), if_pos (by omega), Nat.add_sub_cancel] at h1 ⊢
      have e := lattice (f := f 0) (f' := 0) (o := o 0) (o' := n) (hb 0 hd).1 (hb 0 hd).2 le_rfl zero_le_one ht0 ht1 (by linarith)
      rw [if_neg (not_le.2 ht0)] at e
      rw [hc 0 hd, e]
      simp
    · have ea : ∀ Y : Nat → K, chain d (n : K) Y (a + 1) = Y a := fun Y => by rw [chain, if_neg (by omega), if_pos ha, Nat.add_sub_cancel]
      rw [ea] at h1 ⊢
      rcases Nat.lt_or_ge (a + 1) d with h3 | h3
      · have eb : ∀ Y : Nat → K, chain d (n : K) Y (a + 1 + 1) = Y (a + 1) := fun Y => by
          rw [chain, if_neg (by omega), if_pos (by omega), Nat.add_sub_cancel]
        rw [eb] at h1 ⊢
        have e := lattice (hb a (by omega)).1 (hb a (by omega)).2 (hb (a + 1) h3).1 (hb (a + 1) h3).2 ht0 ht1
          (show f a + o a = f (a + 1) + o (a + 1) by linarith)
        rw [hc a (by omega), hc (a + 1) h3, e, sub_self]
      · have eb : ∀ Y : Nat → K, chain d (n : K) Y (a + 1 + 1) = 0 := fun Y => by
          rw [chain, if_neg (by omega), if_neg (by omega)]
        rw [eb] at h1 ⊢
        have e := lattice (f := f a) (f' := 0) (o := o a) (o' := 0) (hb a (by omega)).1 (hb a (by omega)).2 le_rfl zero_le_one ht0 ht1
          (by push_cast; linarith)
        rw [if_neg (not_le.2 ht0)] at e
        rw [hc a (by omega), e]
        simp
  have h3 := bary_chain hd hn' (fun i => (lcorner q o k i : K)) a ha
  rw [h2] at h3
  exact (mul_eq_zero.1 h3).resolve_left hn'

/-- in dimension up to three, and on the boundary, the spread does not depend on the order of the corners -/
theorem spread_symm {d : Nat} (hd : 0 < d) (hd3 : d ≤ 3) {n : K} (hn : n ≠ 0) (Y V : Nat → K)
    (hz : ∃ a, a ≤ d ∧ bary d (diff d fun j => Y j / n) a = bary d (diff d fun j => V j / n) a) (r : K) :
    (∀ i j, i ≤ d → j ≤ d → ext d Y V i - ext d Y V j ≤ r) ↔
      ∀ a, a ≤ d → |n * (bary d (diff d fun j => Y j / n) a - bary d (diff d fun j => V j / n) a)| ≤ r := by
  have hδ : ∀ a, a ≤ d → n * (bary d (diff d fun j => Y j / n) a - bary d (diff d fun j => V j / n) a) =
      (if a = 0 then 0 else ext d Y V (a - 1)) - ext d Y V a := by
    intro a ha
    rw [mul_sub, bary_chain hd hn Y a ha, bary_chain hd hn V a ha]
    rcases a with _ | a
    · have e0 : ∀ Y : Nat → K, chain d n Y 0 = n := fun Y => if_pos rfl
      have e1 : ∀ Y : Nat → K, chain d n Y (0 + 1) = Y 0 := fun Y => by rw [chain, if_neg (by omega), if_pos (by omega), Nat.add_sub_cancel]
      rw [e0, e0, e1, e1, if_pos rfl, ext, if_pos hd]
      ring
    · have e1 : ext d Y V a = Y a - V a := if_pos (by omega)
      have e2 : ∀ Y : Nat → K, chain d n Y (a + 1) = Y a := fun Y => by rw [chain, if_neg (by omega), if_pos ha, Nat.add_sub_cancel]
      rw [if_neg (by omega), Nat.add_sub_cancel, e1, e2, e2]
      rcases Nat.lt_or_ge (a + 1) d with h | h
      · have e3 : ext d Y V (a + 1) = Y (a + 1) - V (a + 1) := if_pos h
        have e4 : ∀ Y : Nat → K, chain d n Y (a + 1 + 1) = Y (a + 1) := fun Y => by
          rw [chain, if_neg (by omega), if_pos (by omega), Nat.add_sub_cancel]
        rw [e3, e4, e4]
        ring
      · have e3 : ext d Y V (a + 1) = 0 := if_neg (by omega)
        have e4 : ∀ Y : Nat → K, chain d n Y (a + 1 + 1) = 0 := fun Y => by
          rw [chain, if_neg (by omega), if_neg (by omega)]
        rw [e3, e4, e4]
        ring
  have hE : ext d Y V d = 0 := if_neg (lt_irrefl d)
  set E := ext d Y V with hEdef
  have hz' : ∃ a, a ≤ d ∧ (if a = 0 then 0 else E (a - 1)) - E a = 0 := by
    obtain ⟨a, ha, e⟩ := hz
    exact ⟨a, ha, by rw [← hδ a ha, e, sub_self, mul_zero]⟩
  have h1 : (∀ a, a ≤ d → |n * (bary d (diff d fun j => Y j / n) a - bary d (diff d fun j => V j / n) a)| ≤ r) ↔
      ∀ a, a ≤ d → |(if a = 0 then 0 else E (a - 1)) - E a| ≤ r :=
    forall₂_congr fun a ha => by rw [hδ a ha]
  rw [h1]
  clear_value E
  obtain ⟨a, ha, hza⟩ := hz'
  constructor
  · intro h b hb
    rw [abs_le]
    rcases b with _ | b
    · have e1 := h 0 d (by omega) le_rfl
      have e2 := h d 0 le_rfl (by omega)
      rw [hE] at e1 e2
      simp only [if_true]
      constructor <;> linarith
    · have e1 := h b (b + 1) (by omega) hb
      have e2 := h (b + 1) b hb (by omega)
      rw [if_neg (by omega), Nat.add_sub_cancel]
      constructor <;> linarith
  · intro h i j hi hj
    obtain rfl | rfl | rfl : d = 1 ∨ d = 2 ∨ d = 3 := by omega
    · have h0 := abs_le.1 (h 0 (by omega))
      have h1 := abs_le.1 (h 1 (by omega))
      simp only [if_true, one_ne_zero, if_false, Nat.sub_self] at h0 h1
      interval_cases i <;> interval_cases j <;> linarith [h0.1, h0.2, h1.1, h1.2]
    · have h0 := abs_le.1 (h 0 (by omega))
      have h1 := abs_le.1 (h 1 (by omega))
      have h2 := abs_le.1 (h 2 (by omega))
      simp only [if_true, one_ne_zero, if_false, Nat.sub_self, OfNat.ofNat_ne_zero, Nat.reduceSub] at h0 h1 h2
      obtain ⟨h01, h02⟩ := h0
      obtain ⟨h11, h12⟩ := h1
      obtain ⟨h21, h22⟩ := h2
      interval_cases i <;> interval_cases j <;> linarith
    · have h0 := abs_le.1 (h 0 (by omega))
      have h1 := abs_le.1 (h 1 (by omega))
      have h2 := abs_le.1 (h 2 (by omega))
      have h3 := abs_le.1 (h 3 (by omega))
      simp only [if_true, one_ne_zero, if_false, Nat.sub_self, OfNat.ofNat_ne_zero, Nat.reduceSub] at h0 h1 h2 h3
      obtain ⟨h01, h02⟩ := h0
      obtain ⟨h11, h12⟩ := h1
      obtain ⟨h21, h22⟩ := h2
      obtain ⟨h31, h32⟩ := h3
      interval_cases a <;>
        simp only [if_true, one_ne_zero, if_false, Nat.sub_self, OfNat.ofNat_ne_zero, Nat.reduceSub] at hza <;>
        interval_cases i <;> interval_cases j <;> linarith

theorem bary_nonneg {d : Nat} {z : Nat → K} (hz : InSimplex d z) (i : Nat) (hi : i ≤ d) : 0 ≤ bary d z i := by
  rcases i with _ | i
  · rw [bary, if_pos rfl]
    linarith [hz.2]
  · rw [bary, if_neg (by omega)]
    exact hz.1 _ (by omega)

/-- the point `u` of the face spanned by the support of `y`, seen from another Kuhn simplex containing `y` -/
theorem transfer {d : Nat} {p p' : Perm Nat} (hp : ∀ k, d ≤ k → p k = k) (hp' : ∀ k, d ≤ k → p' k = k) {κ' : Nat}
    (hκ' : κ' < d.factorial) (hg' : getPermutation d κ' = some ⇑p') {y y' u : Nat → K} (hy : InSimplex d y) (hy' : InSimplex d y')
    (hu : InSimplex d u) (he : ∀ i, i < d → referenceToKuhn d y p i = referenceToKuhn d y' p' i)
    (hs : ∀ a, a ≤ d → bary d y a = 0 → bary d u a = 0) :
    ∃ u' : Nat → K, InSimplex d u' ∧ (∀ i, i < d → referenceToKuhn d u' p' i = referenceToKuhn d u p i) ∧
      (∀ a, a ≤ d → bary d y' a = 0 → bary d u' a = 0) ∧ (∀ a, a ≤ d → bary d u' a = 0 ∨ ∃ b, b ≤ d ∧ bary d u' a = bary d u b) ∧
      ∀ (n r : K), (∀ a, a ≤ d → |n * (bary d y a - bary d u a)| ≤ r) → ∀ a, a ≤ d → |n * (bary d y' a - bary d u' a)| ≤ r := by
  set u' := kuhnToReference d (referenceToKuhn d u p) p' with hu'
  have hr : referenceToKuhn d u' p' = referenceToKuhn d u p := (C59_inverse d κ' p' hκ' hg' _).2
  have hX := (inKuhn_iff d p hp y).2 hy
  have hX' := (inKuhn_iff d p' hp' y').2 hy'
  have hU := (inKuhn_iff d p hp u).2 hu
  -- equal coordinates of `y` are equal for `u`
  have hlev : ∀ k, k ≤ d → level d p (referenceToKuhn d y p) k = level d p (referenceToKuhn d y p) (k + 1) →
      level d p (referenceToKuhn d u p) k = level d p (referenceToKuhn d u p) (k + 1) := by
    intro k hk e
    have h1 := bary_path hp y k hk
    have h2 := bary_path hp u k hk
    rw [e, sub_self] at h1
    rw [hs _ (by have := pathOrder_le hp hk; omega) h1.symm, sub_eq_zero] at h2
    exact h2
  have hlev' : ∀ m k, k + m ≤ d → level d p (referenceToKuhn d y p) k = level d p (referenceToKuhn d y p) (k + m) →
      level d p (referenceToKuhn d u p) k = level d p (referenceToKuhn d u p) (k + m) := by
    intro m
    induction m with
    | zero => intro k _ _; rfl
    | succ m ih =>
      intro k hk e
      have a1 := level_anti hX (show k ≤ k + m by omega)
      have a2 := level_anti hX (show k + m ≤ k + m + 1 by omega)
      rw [show k + (m + 1) = k + m + 1 by omega] at e ⊢
      have e1 : level d p (referenceToKuhn d y p) k = level d p (referenceToKuhn d y p) (k + m) := le_antisymm (by rw [e]; exact a2) a1
      rw [ih k (by omega) e1]
      exact hlev _ (by omega) (by rw [← e1, e])
  have hb := kuhn_bounds hp hU
  have hin : InSimplex d u' := by
    rw [← inKuhn_iff d p' hp', hr]
    refine ⟨fun j hj => ?_, fun j hj => hb _ (perm_lt hp' hj)⟩
    have ha := perm_lt hp' (show j < d by omega)
    have hbb := perm_lt hp' hj
    rcases Nat.le_total (p.symm (p' j)) (p.symm (p' (j + 1))) with h1 | h1
    · have := antitone_of_kuhn hU h1 (symm_lt hp hbb)
      rwa [Equiv.apply_symm_apply, Equiv.apply_symm_apply] at this
    · have h2 := antitone_of_kuhn hX h1 (symm_lt hp ha)
      rw [Equiv.apply_symm_apply, Equiv.apply_symm_apply] at h2
      have h3 := hX'.1 j hj
      rw [← he _ ha, ← he _ hbb] at h3
      have h4 := le_antisymm h3 h2
      have l1 : ∀ v : Nat → K, ∀ i, i < d → v i = level d p v (p.symm i + 1) := fun v i hi => by
        rw [level_mid _ _ (symm_lt hp hi), Equiv.apply_symm_apply]
      obtain ⟨m, hm⟩ := Nat.exists_eq_add_of_le (show p.symm (p' (j + 1)) + 1 ≤ p.symm (p' j) + 1 by omega)
      rw [l1 (referenceToKuhn d y p) _ ha, l1 (referenceToKuhn d y p) _ hbb, hm] at h4
      have h5 := hlev' m _ (by have := symm_lt hp ha; omega) h4
      rw [← hm, ← l1 (referenceToKuhn d u p) _ ha, ← l1 (referenceToKuhn d u p) _ hbb] at h5
      exact h5.le
  have hru : ∀ i, i < d → referenceToKuhn d u' p' i + ((0 : Nat) : K) = referenceToKuhn d u p i + ((0 : Nat) : K) := fun i _ => by rw [hr]
  have hry : ∀ i, i < d → referenceToKuhn d y' p' i + ((0 : Nat) : K) = referenceToKuhn d y p i + ((0 : Nat) : K) := fun i hi => by rw [he i hi]
  obtain ⟨a1, a2⟩ := kuhn_conform (o := fun _ => 0) (o' := fun _ => 0) hp' hp hin hu hru
  obtain ⟨b1, b2⟩ := kuhn_conform (o := fun _ => 0) (o' := fun _ => 0) hp' hp hy' hy hry
  have hsupp : ∀ a, a ≤ d → bary d y' a = 0 → bary d u' a = 0 := by
    intro a ha h0
    rcases (bary_nonneg hin a ha).lt_or_eq with h1 | h1
    · obtain ⟨b, hb, e⟩ := a1 a ha h1
      have e1 := a2 a b ha hb e
      have e2 := b2 a b ha hb e
      rw [e1]
      exact hs b hb (by rw [← e2, h0])
    · exact h1.symm
  refine ⟨u', hin, fun i _ => by rw [hr], hsupp, fun a ha => ?_, fun n r h a ha => ?_⟩
  · rcases (bary_nonneg hin a ha).lt_or_eq with h1 | h1
    · obtain ⟨b, hb, e⟩ := a1 a ha h1
      exact Or.inr ⟨b, hb, a2 a b ha hb e⟩
    · exact Or.inl h1.symm
  · rcases (bary_nonneg hy' a ha).lt_or_eq with h1 | h1
    · obtain ⟨b, hb, e⟩ := b1 a ha h1
      rw [a2 a b ha hb e, b2 a b ha hb e]
      exact h b hb
    · rw [← h1, hsupp a ha h1.symm, sub_self, mul_zero, abs_zero]
      exact (abs_nonneg _).trans (h a ha)

end Verif.Refine
