import Verif.Buffer.Numbering

/-! `initializeM` computes the sub-entity information. -/

namespace Verif.Buffer

open Verif.Typ Verif.RefTopo Verif.RefGeom

theorem sum_size_le (d id : Nat) : ∀ n, n ≤ d + 1 → (Finset.range n).sum (size d id) ≤ 3 ^ d := by
  intro n hn
  have h1 : (Finset.range n).sum (size d id) ≤ (Finset.range (d + 1)).sum fun m => 2 ^ m * 1 ^ (d - m) * d.choose m := by
    refine le_trans (Finset.sum_le_sum fun c hc => ?_) (Finset.sum_le_sum_of_subset (Finset.range_mono hn))
    rw [Finset.mem_range] at hc
    refine (C10_bounds d id c (by omega)).2.trans (le_of_eq ?_)
    rw [one_pow, mul_one, mul_comm]
  have h2 : (3 : Nat) ^ d = (Finset.range (d + 1)).sum fun m => 2 ^ m * 1 ^ (d - m) * d.choose m := by
    have := add_pow 2 1 d
    simpa using this
  rwa [h2]

theorem offsets_sum (d c s : Nat) (k : Nat) : offsets d c s (c + k) = (Finset.range k).sum (size (d - c) s) := by
  induction k with
  | zero => rw [Nat.add_zero, offsets_le _ _ _ _ (le_refl _)]; simp
  | succ k ih => rw [← Nat.add_assoc, offsets_succ _ _ _ _ (by omega), ih, Finset.sum_range_succ, Nat.add_sub_cancel_left]

theorem offsets_lt {d : Nat} (hd : d ≤ 20) (c s k : Nat) (hc : c ≤ d) (hk : k ≤ d + 1) : offsets d c s k < 2 ^ 32 := by
  refine lt_of_le_of_lt (b := 3 ^ 20) ?_ (by norm_num)
  by_cases h : k ≤ c
  · rw [offsets_le _ _ _ _ h]; omega
  · obtain ⟨j, rfl⟩ : ∃ j, k = c + j := ⟨k - c, by omega⟩
    rw [offsets_sum]
    exact (sum_size_le (d - c) s j (by omega)).trans (Nat.pow_le_pow_right (by omega) (by omega))

theorem offsetsM_eq {d : Nat} (hd : d ≤ 20) (c s : Nat) (hc : c ≤ d) : ∀ k, k ≤ d + 1 → offsetsM d c s k = offsets d c s k
  | 0, _ => rfl
  | k + 1, hk => by
    have hlt := offsets_lt hd c s (k + 1) hc hk
    rw [offsets] at hlt
    rw [offsetsM, offsets, offsetsM_eq hd c s hc k (by omega)]
    split
    · rfl
    · rename_i h
      rw [if_neg h] at hlt
      rw [sizeM_eq (d - c) (by omega) _ _ (by omega), u32_of_lt hlt]

theorem numberingsFrom_eq (d id c i : Nat) : ∀ k j,
    numberingsFrom d id c i (subTopologyId d id c i) (c + j) k = (List.range k).flatMap fun a => nums d id c i (j + a)
  | 0, _ => rfl
  | k + 1, j => by
    rw [numberingsFrom, List.range_succ_eq_map, List.flatMap_cons, List.flatMap_map, Nat.add_assoc, numberingsFrom_eq d id c i k (j + 1)]
    have e : offsets d c (subTopologyId d id c i) (c + (j + 1)) - offsets d c (subTopologyId d id c i) (c + j) = nlen d id c i j := by
      rw [offsets_sum, offsets_sum, Finset.sum_range_succ, Nat.add_sub_cancel_left, nlen]
    rw [e, Nat.add_sub_cancel_left]
    congr 2
    funext a
    rw [show j + 1 + a = j + (a + 1) by omega]

theorem mapM_rd {α : Type} (m : Mem α) (l : List α) {cap : Nat} (hcap : l.length = cap) :
    (List.range cap).mapM (rd cap (put m 0 l)) = some l := by
  subst hcap
  have h : ∀ k ≤ l.length, (List.range' (l.length - k) k).mapM (rd l.length (put m 0 l)) = some (l.drop (l.length - k)) := by
    intro k
    induction k with
    | zero => intro _; simp
    | succ k ih =>
      intro hk
      have r := rd_put (cap := l.length) m 0 l (j := l.length - (k + 1)) (by omega) (by omega)
      rw [Nat.zero_add] at r
      rw [List.range'_succ, List.mapM_cons, r, show l.length - (k + 1) + 1 = l.length - k by omega, ih (by omega),
        List.drop_eq_getElem_cons (i := l.length - (k + 1)) (by omega), show l.length - (k + 1) + 1 = l.length - k by omega]
      rfl
  have := h l.length (le_refl _)
  rwa [Nat.sub_self, List.drop_zero, ← List.range_eq_range'] at this

theorem bool_aux : ∀ a b c e : Bool, (a && b || (a && c || e)) = (a && (c || b) || e) := by decide

/-- the flags of one codimension -/
theorem loop_flags {cap maxCount : Nat} (m : Mem Nat) (L : List Nat) (hL : L.length = cap) (cc o n : Nat) (ho : o + n ≤ cap) (hcap : cap < 2 ^ 32)
    (hent : ∀ x ∈ L, x < maxCount ∧ x < intBound) (flags : Nat → Nat → Bool) :
    loop (fun idx flags => do
        let k ← rd cap (put m 0 L) (u32 (o + idx))
        if k < maxCount ∧ k < intBound then some (fun cc' k' => (cc' == cc && k' == k) || flags cc' k') else none) 0 n flags =
      some fun cc' k' => (cc' == cc && (List.range n).any fun idx => L[o + idx]? == some k') || flags cc' k' := by
  have key := loop_inv (body := fun idx flags => do
        let k ← rd cap (put m 0 L) (u32 (o + idx))
        if k < maxCount ∧ k < intBound then some (fun cc' k' => (cc' == cc && k' == k) || flags cc' k') else none) (n := n)
    (fun j cc' k' => (cc' == cc && (List.range j).any fun idx => L[o + idx]? == some k') || flags cc' k') (by
      intro j hj
      have hj' : o + j < L.length := by omega
      have r := rd_put (cap := cap) m 0 L hj' (by omega)
      rw [Nat.zero_add] at r
      rw [u32_of_lt (by omega), r]
      simp only [Option.bind_eq_bind, Option.bind_some]
      rw [if_pos (hent _ (List.getElem_mem hj'))]
      congr 1
      funext cc' k'
      rw [List.range_succ, List.any_append, List.any_cons, List.any_nil, List.getElem?_eq_getElem hj', Bool.or_false]
      have e : (some L[o + j] == some k') = (k' == L[o + j]) := by
        rw [Bool.eq_iff_iff, beq_iff_eq, beq_iff_eq]
        exact ⟨fun h => (Option.some.inj h).symm, fun h => by rw [h]⟩
      rw [e]
      exact bool_aux _ _ _ _)
  have e0 : (fun cc' k' => (cc' == cc && (List.range 0).any fun idx => L[o + idx]? == some k') || flags cc' k') = flags := by
    funext cc' k'
    rw [List.range_zero, List.any_nil, Bool.and_false, Bool.false_or]
  rw [e0] at key
  exact key

/-- the numbers of the entities below an entity, up to the codimension `c + j - 1` -/
def prefixNums (d id c i j : Nat) : List Nat := (List.range j).flatMap (nums d id c i)

theorem prefixNums_succ (d id c i j : Nat) : prefixNums d id c i (j + 1) = prefixNums d id c i j ++ nums d id c i j := by
  rw [prefixNums, List.range_succ, List.flatMap_append, List.flatMap_cons, List.flatMap_nil, List.append_nil]
  rfl

theorem length_prefixNums {d id c i : Nat} (hid : id < 2 ^ d) (hi : i < size d id c) : ∀ j, c + j ≤ d + 1 →
    (prefixNums d id c i j).length = offsets d c (subTopologyId d id c i) (c + j)
  | 0, _ => by rw [Nat.add_zero, offsets_le _ _ _ _ (le_refl _)]; rfl
  | j + 1, hj => by
    rw [prefixNums_succ, List.length_append, length_prefixNums hid hi j (by omega), (nums_facts hid (by omega) hi).1,
      ← Nat.add_assoc, offsets_succ _ _ _ _ (by omega), Nat.add_sub_cancel_left, nlen]

theorem loop_numbering {d id c i cap : Nat} (hd : d ≤ 20) (hid : id < 2 ^ d) (hc : c ≤ d) (hi : i < size d id c)
    (hcap : offsets d c (subTopologyId d id c i) (d + 1) = cap) :
    loop (fun j mem =>
      numberingM cap d id c i (c + j - c) (offsetsM d c (subTopologyId d id c i) (c + j))
        (offsetsM d c (subTopologyId d id c i) (c + j + 1)) mem) 0 (d + 1 - c) (fun _ => none) =
      some (put (fun _ => none) 0 (prefixNums d id c i (d + 1 - c))) := by
  have hoff := offsetsM_eq hd c (subTopologyId d id c i) hc
  have l1 := loop_inv (body := fun j mem =>
    numberingM cap d id c i (c + j - c) (offsetsM d c (subTopologyId d id c i) (c + j))
      (offsetsM d c (subTopologyId d id c i) (c + j + 1)) mem) (n := d + 1 - c)
    (fun j => put (fun _ => none) 0 (prefixNums d id c i j)) (by
      intro j hj
      have hm := offsets_mono d c (subTopologyId d id c i) (show c + j + 1 ≤ d + 1 by omega)
      have hs : offsets d c (subTopologyId d id c i) (c + j + 1) = offsets d c (subTopologyId d id c i) (c + j) + nlen d id c i j := by
        rw [offsets_succ _ _ _ _ (by omega), Nat.add_sub_cancel_left, nlen]
      rw [Nat.add_sub_cancel_left, hoff _ (by omega), hoff _ (by omega), hs]
      rw [numberingM_eq cap d (by omega) id hid c i j _ _ (by omega) hi (by omega), ← length_prefixNums hid hi j (by omega)]
      have := put_append (fun _ => none) 0 (prefixNums d id c i j) (nums d id c i j)
      rw [Nat.zero_add] at this
      rw [this, prefixNums_succ])
  have e0 : put (fun _ => (none : Option Nat)) 0 (prefixNums d id c i 0) = fun _ => none := put_nil _ _
  beta_reduce at l1
  rw [e0] at l1
  exact l1

/-- the second loop of `initialize` -/
def flagsM (maxCount cap d c s : Nat) (mem : Mem Nat) : Option (Nat → Nat → Bool) :=
  loop (fun cc flags => do
    let size := usub (offsetsM d c s (cc + 1)) (offsetsM d c s cc)
    if intBound ≤ size then none
    else
      loop (fun idx flags => do
        let k ← rd cap mem (u32 (offsetsM d c s cc + idx))
        if k < maxCount ∧ k < intBound then some (fun cc' k' => (cc' == cc && k' == k) || flags cc' k') else none)
        0 size flags) 0 (d + 1) (fun _ _ => false)

theorem loop_all_flags {d c s cap maxCount : Nat} (hd : d ≤ 20) (hc : c ≤ d) (m : Mem Nat) (L : List Nat) (hL : L.length = cap)
    (hcap : offsets d c s (d + 1) = cap) (hent : ∀ x ∈ L, x < maxCount ∧ x < intBound) :
    flagsM maxCount cap d c s (put m 0 L) =
      some fun cc k => decide (cc < d + 1) && (List.range (offsets d c s (cc + 1) - offsets d c s cc)).any fun idx =>
        L[offsets d c s cc + idx]? == some k := by
  have hoff := offsetsM_eq hd c s hc
  have hcap32 := offsets_lt hd c s (d + 1) hc (le_refl _)
  have l2 := loop_inv (n := d + 1) (body := fun cc (flags : Nat → Nat → Bool) => do
      let size := usub (offsetsM d c s (cc + 1)) (offsetsM d c s cc)
      if intBound ≤ size then none
      else
        loop (fun idx flags => do
          let k ← rd cap (put m 0 L) (u32 (offsetsM d c s cc + idx))
          if k < maxCount ∧ k < intBound then some (fun cc' k' => (cc' == cc && k' == k) || flags cc' k') else none)
          0 size flags)
    (fun n cc k => decide (cc < n) && (List.range (offsets d c s (cc + 1) - offsets d c s cc)).any fun idx =>
      L[offsets d c s cc + idx]? == some k) (by
      intro cc hcc
      have hm := offsets_mono d c s (show cc ≤ cc + 1 by omega)
      have hm2 := offsets_mono d c s (show cc + 1 ≤ d + 1 by omega)
      have hsz : ¬ intBound ≤ offsets d c s (cc + 1) - offsets d c s cc := by
        rw [not_le]
        by_cases h : c ≤ cc
        · rw [offsets_succ _ _ _ _ h, Nat.add_sub_cancel_left]
          exact size_lt_31 (by omega) _ _ (by omega)
        · rw [offsets_le _ _ _ _ (show cc + 1 ≤ c by omega), Nat.zero_sub]
          norm_num [intBound]
      simp only [hoff cc (by omega), hoff (cc + 1) (by omega), usub_of_le hm (by omega), if_neg hsz]
      rw [loop_flags m L hL cc _ _ (by omega) (by omega) hent _]
      congr 1
      funext cc' k'
      by_cases h1 : cc' = cc
      · subst h1
        simp
      · have e : decide (cc' < cc + 1) = decide (cc' < cc) := by
          rw [decide_eq_decide]; omega
        rw [e]
        simp [h1])
  simp only [Nat.not_lt_zero, decide_false, Bool.false_and] at l2
  exact l2

theorem numbering_prefixNums (d id c i : Nat) :
    (SubEntityInfo.initialize d id c i).numbering = prefixNums d id c i (d + 1 - c) := by
  have := numberingsFrom_eq d id c i (d + 1 - c) 0
  simp only [Nat.zero_add, Nat.add_zero] at this
  exact this

theorem prefixNums_lt {d id c i : Nat} (hd : d ≤ 20) (hid : id < 2 ^ d) (hi : i < size d id c) :
    ∀ x ∈ prefixNums d id c i (d + 1 - c), x < maxSubEntityCount Nat.choose d ∧ x < intBound := by
  intro x hx
  simp only [prefixNums, List.mem_flatMap, List.mem_range] at hx
  obtain ⟨a, ha, hx⟩ := hx
  have := (nums_facts hid (by omega) hi).2 x hx
  exact ⟨lt_of_lt_of_le this (C10_capacity d id _ (by omega)), lt_trans this (size_lt_31 (by omega) id _ (by omega))⟩

theorem initializeM_def (maxCount d id c i : Nat) : initializeM maxCount d id c i =
    (loop (fun j mem =>
      numberingM (offsetsM d c (subTopologyIdM d id c i) (d + 1)) d id c i (c + j - c) (offsetsM d c (subTopologyIdM d id c i) (c + j))
        (offsetsM d c (subTopologyIdM d id c i) (c + j + 1)) mem) 0 (d + 1 - c) (fun _ => none)).bind fun mem =>
    (flagsM maxCount (offsetsM d c (subTopologyIdM d id c i) (d + 1)) d c (subTopologyIdM d id c i) mem).bind fun flags =>
    ((List.range (offsetsM d c (subTopologyIdM d id c i) (d + 1))).mapM (rd (offsetsM d c (subTopologyIdM d id c i) (d + 1)) mem)).bind fun numbering =>
      some { numbering := numbering, offset := offsetsM d c (subTopologyIdM d id c i),
             type := mk2 (subTopologyIdM d id c i) (d - c), contains := flags } := rfl

theorem initializeM_val {d id c i : Nat} (hd : d ≤ 20) (hid : id < 2 ^ d) (hc : c ≤ d) (hi : i < size d id c) :
    initializeM (maxSubEntityCount Nat.choose d) d id c i = some
      { numbering := prefixNums d id c i (d + 1 - c)
        offset := offsetsM d c (subTopologyId d id c i)
        type := mk2 (subTopologyId d id c i) (d - c)
        contains := fun cc k => decide (cc < d + 1) &&
          (List.range (offsets d c (subTopologyId d id c i) (cc + 1) - offsets d c (subTopologyId d id c i) cc)).any fun idx =>
            (prefixNums d id c i (d + 1 - c))[offsets d c (subTopologyId d id c i) cc + idx]? == some k } := by
  have hoff := offsetsM_eq hd c (subTopologyId d id c i) hc
  have hcapE : (prefixNums d id c i (d + 1 - c)).length = offsets d c (subTopologyId d id c i) (d + 1) := by
    rw [length_prefixNums hid hi _ (by omega)]
    congr 1
    omega
  have hent := prefixNums_lt hd hid hi
  rw [initializeM_def, subTopologyIdM_eq d (by omega) id c i hc hi, hoff (d + 1) (le_refl _), loop_numbering hd hid hc hi rfl, Option.bind_some,
    loop_all_flags hd hc (fun _ => none) (prefixNums d id c i (d + 1 - c)) hcapE rfl hent, Option.bind_some, mapM_rd _ _ hcapE,
    Option.bind_some]

theorem initializeM_eq {d id c i : Nat} (hd : d ≤ 20) (hid : id < 2 ^ d) (hc : c ≤ d) (hi : i < size d id c) :
    ∃ s, initializeM (maxSubEntityCount Nat.choose d) d id c i = some s ∧
      s.numbering = (SubEntityInfo.initialize d id c i).numbering ∧
      s.type = (SubEntityInfo.initialize d id c i).type ∧
      (∀ k, k ≤ d + 1 → s.offset k = (SubEntityInfo.initialize d id c i).offset k) ∧
      (∀ cc, cc ≤ d → ∀ k, s.contains cc k = (SubEntityInfo.initialize d id c i).contains cc k) := by
  have hnumb := numbering_prefixNums d id c i
  refine ⟨_, initializeM_val hd hid hc hi, hnumb.symm, rfl, fun k hk => offsetsM_eq hd c _ hc k hk, fun cc hcc k => ?_⟩
  simp only [SubEntityInfo.initialize] at hnumb ⊢
  rw [hnumb]
  simp only [show cc < d + 1 by omega, decide_true, Bool.true_and]

end Verif.Buffer
