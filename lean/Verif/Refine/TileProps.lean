import Verif.Refine.MapProps
import Mathlib.Order.Preorder.Finite

/-! Property C60: the elements of the refined simplex tile the reference simplex. -/

namespace Verif.Refine

open Function Finset
open Equiv (Perm)

variable {K : Type} [Field K] [LinearOrder K] [IsStrictOrderedRing K]

theorem antitone_of_kuhn {d : Nat} {p : Nat → Nat} {y : Nat → K} (h : InKuhn d p y) {i j : Nat} (hij : i ≤ j) (hj : j < d) :
    y (p j) ≤ y (p i) := by
  induction j with
  | zero => rw [show i = 0 by omega]
  | succ j ih =>
    rcases Nat.lt_or_eq_of_le hij with h1 | h1
    · exact (h.1 j hj).trans (ih (by omega) (by omega))
    · rw [h1]

theorem kuhn_bounds {d : Nat} {q : Perm Nat} (hq : ∀ k, d ≤ k → q k = k) {y : Nat → K} (h : InKuhn d q y) (i : Nat) (hi : i < d) :
    0 ≤ y i ∧ y i ≤ 1 := by
  have := h.2 _ (symm_lt hq hi)
  rwa [Equiv.apply_symm_apply] at this

/-- the differences of a decreasing sequence between one and zero form a point of the reference simplex -/
theorem diff_simplex (d : Nat) (y : Nat → K) : InSimplex d (diff d y) ↔ InKuhn d (fun i => i) y := by
  have := (C59_image (K := K) d 0 _ (Nat.factorial_pos d) (C39_identity d)).2 y
  rwa [kuhnToReference_id] at this

/-- C60: every element's map sends the reference simplex into the reference simplex -/
theorem C60_inside (d n k : Nat) (hd : 0 < d) (hk : k < nElements d n) (z : Nat → K) (hz : InSimplex d z) :
    ∃ it y, eAt d n k = some it ∧ it.global d z = some y ∧ InSimplex d y := by
  obtain ⟨it, q, h1, h2, h3, h4, h5, h6, h7⟩ := elem d n hd k hk
  refine ⟨it, _, h1, global_eq d it q h6 z, ?_⟩
  obtain ⟨h8, h9, h10⟩ := (subSimplex_iff d n hd q h4 _).1 h7
  have hk := (inKuhn_iff d q h4 z).2 hz
  have hb := kuhn_bounds h4 hk
  have hn : (0 : K) < n := Nat.cast_pos.2 (by omega)
  rw [diff_simplex, h2]
  refine ⟨fun j hj => ?_, fun j hj => ⟨?_, ?_⟩⟩
  · refine div_le_div_of_nonneg_right ?_ hn.le
    rcases h9 j hj with h | h
    · have e1 := (hb j (by omega)).1
      have e2 := (hb (j + 1) hj).2
      have e3 : (it.origin (j + 1) : K) + 1 ≤ it.origin j := by exact_mod_cast h
      linarith
    · have e1 := antitone_of_kuhn hk h.le (symm_lt h4 hj)
      rw [Equiv.apply_symm_apply, Equiv.apply_symm_apply] at e1
      have e2 : (it.origin (j + 1) : K) ≤ it.origin j := by exact_mod_cast h8 j hj
      linarith
  · have := (hb j hj).1
    exact div_nonneg (add_nonneg this (Nat.cast_nonneg _)) hn.le
  · rw [div_le_one hn]
    have e1 := (hb j hj).2
    have e2 := decreasing_le h8 (Nat.zero_le j) hj
    have e3 : (it.origin j : K) + 1 ≤ n := by exact_mod_cast (show it.origin j + 1 ≤ n by omega)
    linarith

/-- C60: every element lies in a box of side `1/n` -/
theorem C60_diameter (d n k : Nat) (hd : 0 < d) (hk : k < nElements d n) (z z' : Nat → K) (hz : InSimplex d z) (hz' : InSimplex d z') :
    ∃ it y y', eAt d n k = some it ∧ it.global d z = some y ∧ it.global d z' = some y' ∧ ∀ i, i < d → |y i - y' i| ≤ 1 / n := by
  obtain ⟨it, q, h1, h2, h3, h4, h5, h6, h7⟩ := elem d n hd k hk
  refine ⟨it, _, _, h1, global_eq d it q h6 z, global_eq d it q h6 z', fun i hi => ?_⟩
  have hkz := (inKuhn_iff d q h4 z).2 hz
  have hkz' := (inKuhn_iff d q h4 z').2 hz'
  have hn : (0 : K) < n := by
    have := ((subSimplex_iff d n hd q h4 _).1 h7).2.2
    exact Nat.cast_pos.2 (by omega)
  obtain ⟨a1, a2⟩ := kuhn_bounds h4 hkz i hi
  obtain ⟨b1, b2⟩ := kuhn_bounds h4 hkz' i hi
  rw [diff_div, diff_div, ← sub_div, h2, abs_div, abs_of_pos hn]
  refine div_le_div_of_nonneg_right ?_ hn.le
  rw [abs_le, diff, diff]
  by_cases hi' : i + 1 < d
  · obtain ⟨a3, a4⟩ := kuhn_bounds h4 hkz (i + 1) hi'
    obtain ⟨b3, b4⟩ := kuhn_bounds h4 hkz' (i + 1) hi'
    rw [if_pos hi', if_pos hi']
    rcases Nat.le_total (q.symm i) (q.symm (i + 1)) with h | h
    · have e1 := antitone_of_kuhn hkz h (symm_lt h4 hi')
      have e2 := antitone_of_kuhn hkz' h (symm_lt h4 hi')
      rw [Equiv.apply_symm_apply, Equiv.apply_symm_apply] at e1 e2
      constructor <;> linarith
    · have e1 := antitone_of_kuhn hkz h (symm_lt h4 hi)
      have e2 := antitone_of_kuhn hkz' h (symm_lt h4 hi)
      rw [Equiv.apply_symm_apply, Equiv.apply_symm_apply] at e1 e2
      constructor <;> linarith
  · rw [if_neg hi', if_neg hi']
    constructor <;> linarith

/-- C60: every point of the reference simplex lies in some element -/
theorem C60_cover (d n : Nat) (hd : 0 < d) (hn : 0 < n) (x : Nat → K) (hx : InSimplex d x) :
    ∃ k it z y, k < nElements d n ∧ eAt d n k = some it ∧ InSimplex d z ∧ it.global d z = some y ∧ ∀ i, i < d → y i = x i := by
  classical
  have hn' : (0 : K) < n := Nat.cast_pos.2 hn
  have hX := ((C59_image (K := K) d 0 _ (Nat.factorial_pos d) (C39_identity d)).1 x).2 hx
  set X := referenceToKuhn d x fun i => i with hXdef
  have hdX : diff d X = x := by
    have := (C59_inverse d 0 _ (Nat.factorial_pos d) (C39_identity d) x).1
    rwa [kuhnToReference_id] at this
  -- lattice point below
  let o : Nat → Nat := fun i => if i < d then Nat.findGreatest (fun m => (m : K) ≤ n * X i) (n - 1) else 0
  have ho1 : ∀ i, i < d → (o i : K) ≤ n * X i := by
    intro i hi
    simp only [o, if_pos hi]
    exact Nat.findGreatest_spec (P := fun m : Nat => (m : K) ≤ n * X i) (Nat.zero_le _)
      (by rw [Nat.cast_zero]; exact mul_nonneg hn'.le (hX.2 i hi).1)
  have ho2 : ∀ i, o i ≤ n - 1 := by
    intro i
    simp only [o]
    split
    · exact Nat.findGreatest_le _
    · omega
  have ho3 : ∀ i, i < d → n * X i ≤ (o i : K) + 1 := by
    intro i hi
    rcases Nat.lt_or_ge (o i) (n - 1) with h | h
    · have h2 : ¬ ((o i + 1 : Nat) : K) ≤ n * X i := by
        refine Nat.findGreatest_is_greatest (P := fun m : Nat => (m : K) ≤ n * X i) ?_ (show o i + 1 ≤ n - 1 by omega)
        have : o i = Nat.findGreatest (fun m : Nat => (m : K) ≤ n * X i) (n - 1) := if_pos hi
        omega
      rw [Nat.cast_add, Nat.cast_one] at h2
      exact (not_le.1 h2).le
    · have h2 : o i + 1 = n := by have := ho2 i; omega
      have h3 : (o i : K) + 1 = n := by exact_mod_cast h2
      rw [h3]
      exact mul_le_of_le_one_right hn'.le (hX.2 i hi).2
  have ho4 : Decreasing d o := by
    intro j hj
    simp only [o, if_pos hj, if_pos (show j < d by omega)]
    refine Nat.findGreatest_mono_left (fun m hm => le_trans hm ?_) _
    exact mul_le_mul_of_nonneg_left (hX.1 j hj) hn'.le
  -- order of the fractional parts
  let f : Nat → K := fun i => n * X i - o i
  let σ := Tuple.sort fun i : Fin d => OrderDual.toDual (f i)
  obtain ⟨hσ1, hσ2⟩ := (Tuple.eq_sort_iff (f := fun i : Fin d => OrderDual.toDual (f i)) (σ := σ)).1 rfl
  obtain ⟨q, hq1, hq2⟩ := extend d σ
  have hanti : ∀ i j, i ≤ j → j < d → f (q j) ≤ f (q i) := by
    intro i j hij hj
    have := hσ1 (show (⟨i, by omega⟩ : Fin d) ≤ ⟨j, hj⟩ from hij)
    have e1 := hq2 ⟨i, by omega⟩
    have e2 := hq2 ⟨j, hj⟩
    simp only at e1 e2
    rw [e1, e2]
    exact OrderDual.toDual_le_toDual.1 this
  have htie : ∀ i j, i < j → j < d → f (q i) = f (q j) → q i < q j := by
    intro i j hij hj he
    have e1 := hq2 ⟨i, by omega⟩
    have e2 := hq2 ⟨j, hj⟩
    simp only at e1 e2
    rw [e1, e2] at he ⊢
    exact hσ2 _ _ (show (⟨i, by omega⟩ : Fin d) < ⟨j, hj⟩ from hij) (congrArg OrderDual.toDual he)
  have hin : InsideQ d o q := by
    intro j hj
    by_contra hcon
    push Not at hcon
    obtain ⟨h1, h2⟩ := hcon
    have h3 : o (j + 1) = o j := le_antisymm (ho4 j hj) h1
    have h4 : f (j + 1) ≤ f j := by
      have := mul_le_mul_of_nonneg_left (hX.1 j hj) hn'.le
      simp only [f, h3]
      linarith
    have h5 := hanti _ _ h2 (symm_lt hq1 (show j < d by omega))
    rw [Equiv.apply_symm_apply, Equiv.apply_symm_apply] at h5
    have hne : q.symm (j + 1) ≠ q.symm j := q.symm.injective.ne (by omega)
    have h6 := htie _ _ (show q.symm (j + 1) < q.symm j by omega) (symm_lt hq1 (show j < d by omega))
      (by rw [Equiv.apply_symm_apply, Equiv.apply_symm_apply]; exact le_antisymm h4 h5)
    rw [Equiv.apply_symm_apply, Equiv.apply_symm_apply] at h6
    omega
  have hsub : SubSimplex d n o q := (subSimplex_iff d n hd q hq1 o).2 ⟨ho4, hin, by have := ho2 0; omega⟩
  obtain ⟨k, ⟨hk, it, p, h1, h2, h3, h4⟩, _⟩ := C41_once d n hd o q σ hq2 hsub
  obtain ⟨it', q', e1, e2, _, _, e5, e6, _⟩ := elem d n hd k hk
  obtain rfl := Option.some.inj (h1.symm.trans e1)
  refine ⟨k, it, kuhnToReference d f p, _, hk, h1, ?_, global_eq d it p h2 _, fun i hi => ?_⟩
  · rw [(C59_image d _ p e5 h2).2]
    refine ⟨fun j hj => ?_, fun j hj => ?_⟩
    · rw [h4 j (by omega), h4 (j + 1) hj]
      exact hanti _ _ (by omega) hj
    · rw [h4 j hj]
      have hj' := perm_lt hq1 hj
      have a1 := ho1 _ hj'
      have a2 := ho3 _ hj'
      simp only [f]
      constructor <;> linarith
  · rw [(C59_inverse d _ p e5 h2 f).2, ← congrFun hdX i]
    refine diff_congr (fun i hi => ?_) i hi
    rw [h3 i hi, e2, eq_comm, eq_div_iff hn'.ne']
    simp only [f]
    ring

theorem inner_strict {d : Nat} {q : Perm Nat} (hq : ∀ k, d ≤ k → q k = k) {z : Nat → K} (hz : InnerSimplex d z) :
    (∀ i j, i < j → j < d → referenceToKuhn d z q (q j) < referenceToKuhn d z q (q i)) ∧
      ∀ i, i < d → 0 < referenceToKuhn d z q i ∧ referenceToKuhn d z q i < 1 := by
  have hpos : ∀ k, k < d → 0 < z (q k) := fun k hk => hz.1 _ (perm_lt hq hk)
  constructor
  · intro i j hij hj
    rw [referenceToKuhn_eq d q z i (by omega), referenceToKuhn_eq d q z j hj]
    refine sum_lt_sum_of_subset (i := i) ?_ ?_ ?_ (hpos i (by omega)) ?_
    · exact Ico_subset_Ico_left hij.le
    · simp; omega
    · simp; omega
    · intro k hk _
      exact (hpos k (mem_Ico.1 hk).2).le
  · intro i hi
    have hj := symm_lt hq hi
    rw [← Equiv.apply_symm_apply q i, referenceToKuhn_eq d q z _ hj]
    constructor
    · exact sum_pos (fun k hk => hpos k (mem_Ico.1 hk).2) ⟨q.symm i, by simp [hj]⟩
    · refine lt_of_le_of_lt ?_ hz.2
      rw [← sum_perm d q hq]
      refine sum_le_sum_of_subset_of_nonneg ?_ ?_
      · intro k hk
        exact mem_range.2 (mem_Ico.1 hk).2
      · intro k hk _
        exact (hpos k (mem_range.1 hk)).le

/-- C60: a point in the interior of an element lies in no other element -/
theorem C60_disjoint (d n k k' : Nat) (hd : 0 < d) (hk : k < nElements d n) (hk' : k' < nElements d n) (z z' : Nat → K)
    (hz : InnerSimplex d z) (hz' : InSimplex d z') (it it' : ElementIterator) (h : eAt d n k = some it) (h' : eAt d n k' = some it')
    (y y' : Nat → K) (hy : it.global d z = some y) (hy' : it'.global d z' = some y') (he : ∀ i, i < d → y i = y' i) : k = k' := by
  obtain ⟨it1, q, a1, a2, a3, a4, a5, a6, a7⟩ := elem d n hd k hk
  obtain ⟨it2, q', b1, b2, b3, b4, b5, b6, b7⟩ := elem d n hd k' hk'
  obtain rfl := Option.some.inj (h.symm.trans a1)
  obtain rfl := Option.some.inj (h'.symm.trans b1)
  have hn : (0 : K) < n := by
    have := ((subSimplex_iff d n hd q a4 _).1 a7).2.2
    exact Nat.cast_pos.2 (by omega)
  rw [global_eq d it q a6] at hy
  rw [global_eq d it' q' b6] at hy'
  obtain rfl := Option.some.inj hy
  obtain rfl := Option.some.inj hy'
  obtain ⟨hs1, hs2⟩ := inner_strict a4 hz
  have hk2 := (inKuhn_iff d q' b4 z').2 hz'
  have hb := kuhn_bounds b4 hk2
  have hsum : ∀ i, i < d → referenceToKuhn d z q i + it.origin i = referenceToKuhn d z' q' i + it'.origin i := by
    intro i hi
    have := diff_inj d _ _ he i hi
    rw [a2, b2, div_left_inj' hn.ne'] at this
    exact this
  have ho : ∀ i, i < d → it.origin i = it'.origin i := by
    intro i hi
    have e1 := hsum i hi
    obtain ⟨e2, e3⟩ := hs2 i hi
    obtain ⟨e4, e5⟩ := hb i hi
    have e6 : (it.origin i : K) < it'.origin i + 1 := by linarith
    have e7 : (it'.origin i : K) < it.origin i + 1 := by linarith
    have e6' : it.origin i < it'.origin i + 1 := by exact_mod_cast e6
    have e7' : it'.origin i < it.origin i + 1 := by exact_mod_cast e7
    omega
  have hf : ∀ i, i < d → referenceToKuhn d z q i = referenceToKuhn d z' q' i := by
    intro i hi
    have := hsum i hi
    rw [ho i hi] at this
    exact add_right_cancel this
  obtain ⟨σ, hσ⟩ := restrict d q a4
  obtain ⟨σ', hσ'⟩ := restrict d q' b4
  have hmono : StrictMono fun i : Fin d => σ.symm (σ' i) := by
    intro i j hij
    have hne : σ.symm (σ' i) ≠ σ.symm (σ' j) := fun h => hij.ne (σ'.injective (σ.symm.injective h))
    by_contra hlt
    have hlt : σ.symm (σ' j) < σ.symm (σ' i) := lt_of_le_of_ne (not_lt.1 hlt) hne.symm
    have e1 := hs1 _ _ hlt (σ.symm (σ' i)).2
    rw [← hσ, ← hσ, Equiv.apply_symm_apply, Equiv.apply_symm_apply, hf _ (σ' i).2, hf _ (σ' j).2, hσ', hσ'] at e1
    exact absurd (antitone_of_kuhn hk2 (show (i : Nat) ≤ j from hij.le) j.2) (not_le.2 e1)
  have hid := hmono.eq_id
  have hσσ : ∀ i : Fin d, q i = q' i := by
    intro i
    have := congrFun hid i
    simp only [_root_.id] at this
    rw [Equiv.symm_apply_eq] at this
    rw [← hσ, ← hσ', this]
  refine (C41_once d n hd it.origin q σ (fun i => (hσ i).symm) a7).unique ⟨hk, it, q, a1, a6, fun _ _ => rfl, fun _ _ => rfl⟩
    ⟨hk', it', q', b1, b6, fun i hi => (ho i hi).symm, fun i hi => (hσσ ⟨i, hi⟩).symm⟩

/-- the centre of the triangle is interior; it lies in element 2 of the refinement with two intervals -/
example : InnerSimplex 2 (fun _ => (1 / 3 : ℚ)) := by
  refine ⟨fun i _ => by norm_num, ?_⟩
  simp [Finset.sum_range_succ]
  norm_num

end Verif.Refine
