import Verif.Python.Model
import Verif.Type.Props
import Mathlib.Data.List.TakeWhile
import Mathlib.Data.List.DropRight
import Mathlib.Tactic.IntervalCases

/-! String lemmas for the names of geometry types. -/

namespace Verif.Py

open Verif.Typ

/-! ### searching -/

theorem findFirst_found {p : Char → Bool} (pre mid rest : Str) (d : Char) (hm : ∀ c ∈ mid, p c = false) (hd : p d = true) :
    findFirst p (pre ++ (mid ++ d :: rest)) pre.length = some (pre.length + mid.length) := by
  rw [findFirst, List.drop_left]
  have : (mid ++ d :: rest).findIdx? p = some mid.length := by
    rw [List.findIdx?_eq_some_iff_getElem]
    refine ⟨by simp, by simpa using hd, fun j hj => ?_⟩
    rw [List.getElem_append_left hj]
    simpa using hm _ (List.getElem_mem hj)
  rw [this]
  simp [Nat.add_comm]

theorem findFirst_none {p : Char → Bool} (pre r : Str) (hr : ∀ c ∈ r, p c = false) :
    findFirst p (pre ++ r) pre.length = none := by
  rw [findFirst, List.drop_left]
  have : r.findIdx? p = none := by
    rw [List.findIdx?_eq_none_iff]
    exact hr
  rw [this]
  rfl

theorem findLast_pos {p : Char → Bool} {s : Str} {n : Nat} (h : (s[n]?).any p = true) : findLast p s n = some n := by
  cases n with
  | zero => rw [findLast, if_pos h]
  | succ n => rw [findLast, if_pos h]

theorem findLast_found {p : Char → Bool} (pre sp rest : Str) (b : Char) (hb : p b = true) (hs : ∀ c ∈ sp, p c = false) :
    ∀ j ≤ sp.length, findLast p (pre ++ (b :: (sp ++ rest))) (pre.length + j) = some pre.length := by
  intro j
  induction j with
  | zero =>
    intro _
    apply findLast_pos
    rw [Nat.add_zero, List.getElem?_append_right (le_refl _)]
    simpa using hb
  | succ j ih =>
    intro hj
    have e : (pre ++ (b :: (sp ++ rest)))[pre.length + j + 1]? = sp[j]? := by
      rw [List.getElem?_append_right (by omega), show pre.length + j + 1 - pre.length = j + 1 by omega,
        List.getElem?_cons_succ, List.getElem?_append_left (by omega)]
    rw [← Nat.add_assoc, findLast, e, if_neg, ih (by omega)]
    rw [List.getElem?_eq_getElem (by omega)]
    simpa using hs _ (List.getElem_mem (by omega))

/-! ### the argument list -/

/-- the text of one argument: not empty, no comma or closing parenthesis, no space at either end -/
structure IsArg (a : Str) : Prop where
  inner : ∀ c ∈ a, c ≠ ',' ∧ c ≠ ')'
  first : ∃ c u, a = c :: u ∧ c ≠ ' '
  last : ∃ c u, a = u ++ [c] ∧ c ≠ ' '

/-- only spaces -/
def Spaces (s : Str) : Prop := ∀ c ∈ s, c = ' '

/-- `Args r l`: after the opening parenthesis the text `r` lists the arguments `l`, which are separated by commas and
closed by a parenthesis; whatever follows is ignored -/
inductive Args : Str → List Str → Prop
  | last {sp a sp' : Str} (rest : Str) : Spaces sp → IsArg a → Spaces sp' → Args (sp ++ (a ++ (sp' ++ ')' :: rest))) [a]
  | more {sp a sp' r : Str} {l : List Str} : Spaces sp → IsArg a → Spaces sp' → Args r l →
      Args (sp ++ (a ++ (sp' ++ ',' :: r))) (a :: l)

theorem charAt_mid (pre r : Str) (c : Char) : charAt (pre ++ c :: r) pre.length = some c := by
  rw [charAt, if_pos (by simp)]
  simp

/-- one round of the loop on well formed text -/
theorem argsLoop_step (pre sp a sp' rest : Str) (c d : Char) (hc : c ≠ ')') (hd : d = ',' ∨ d = ')') (h1 : Spaces sp)
    (ha : IsArg a) (h2 : Spaces sp') (fuel : Nat) (args : List Str) :
    argsLoop (pre ++ c :: (sp ++ (a ++ (sp' ++ d :: rest)))) (fuel + 1) pre.length args =
      argsLoop (pre ++ c :: (sp ++ (a ++ (sp' ++ d :: rest)))) fuel
        (pre ++ c :: (sp ++ (a ++ sp'))).length (args ++ [a]) := by
  obtain ⟨c0, u0, e0, n0⟩ := ha.first
  obtain ⟨c1, u1, e1, n1⟩ := ha.last
  have eM : findFirst (· != ' ') (pre ++ c :: (sp ++ (a ++ (sp' ++ d :: rest)))) (pre.length + 1) =
      some ((pre ++ c :: sp).length) := by
    have := findFirst_found (p := (· != ' ')) (pre ++ [c]) sp (u0 ++ (sp' ++ d :: rest)) c0 (fun x hx => by simp [h1 x hx])
      (by simpa using n0)
    simp only [List.length_append, List.length_cons, List.length_nil] at this
    rw [e0]
    simp only [List.append_assoc, List.cons_append, List.nil_append] at this ⊢
    simp only [List.length_append, List.length_cons]
    rw [this]
    congr 1
    omega
  have eN : findFirst (fun c => c == ',' || c == ')') (pre ++ c :: (sp ++ (a ++ (sp' ++ d :: rest)))) (pre ++ c :: sp).length =
      some ((pre ++ c :: (sp ++ (a ++ sp'))).length) := by
    have := findFirst_found (p := fun c => c == ',' || c == ')') (pre ++ c :: sp) (a ++ sp') rest d
      (fun x hx => by
        rcases List.mem_append.1 hx with hx | hx
        · have := ha.inner x hx
          simp [this.1, this.2]
        · rw [h2 x hx]; decide) (by rcases hd with rfl | rfl <;> decide)
    simp only [List.append_assoc, List.cons_append, List.nil_append, List.length_append, List.length_cons] at this ⊢
    rw [this]
    congr 1
    omega
  have hlen : 0 < a.length := by rw [e0]; simp
  have eK : findLast (· != ' ') (pre ++ c :: (sp ++ (a ++ (sp' ++ d :: rest))))
      ((pre ++ c :: (sp ++ (a ++ sp'))).length - 1) = some ((pre ++ c :: sp).length + (a.length - 1)) := by
    have := findLast_found (p := (· != ' ')) (pre ++ c :: (sp ++ u1)) sp' (d :: rest) c1 (by simpa using n1)
      (fun x hx => by simp [h2 x hx]) sp'.length (le_refl _)
    rw [e1]
    simp only [List.append_assoc, List.cons_append, List.nil_append, List.length_append, List.length_cons,
      List.length_nil] at this ⊢
    rw [show pre.length + (sp.length + (u1.length + (sp'.length + 1)) + 1) - 1 =
      pre.length + (sp.length + u1.length + 1) + sp'.length by omega, this]
    congr 1
    omega
  have hs : substr (pre ++ c :: (sp ++ (a ++ (sp' ++ d :: rest)))) (pre ++ c :: sp).length
      ((pre ++ c :: sp).length + (a.length - 1) - (pre ++ c :: sp).length + 1) = a := by
    rw [substr, show pre ++ c :: (sp ++ (a ++ (sp' ++ d :: rest))) = (pre ++ c :: sp) ++ (a ++ (sp' ++ d :: rest)) by simp,
      List.drop_left, show (pre ++ c :: sp).length + (a.length - 1) - (pre ++ c :: sp).length + 1 = a.length by omega,
      List.take_left]
  rw [argsLoop, charAt_mid]
  simp only
  rw [if_neg hc, eM]
  simp only
  rw [eN]
  simp only
  rw [if_neg (by simp only [List.length_append, List.length_cons]; omega), eK]
  simp only
  rw [if_neg (by omega), hs]

/-- a round either finds one more argument or throws -/
theorem argsLoop_cases (pre r : Str) (c : Char) (hc : c ≠ ')') :
    (∃ sp a sp' d rest, r = sp ++ (a ++ (sp' ++ d :: rest)) ∧ Spaces sp ∧ IsArg a ∧ Spaces sp' ∧ (d = ',' ∨ d = ')')) ∨
      ∀ fuel args, argsLoop (pre ++ c :: r) (fuel + 1) pre.length args = .error := by
  have hsp : Spaces (r.takeWhile (· == ' ')) := fun x hx => by simpa using List.mem_takeWhile_imp hx
  rcases hr1 : r.dropWhile (· == ' ') with _ | ⟨c0, r1⟩
  · right
    intro fuel args
    have hall : ∀ x ∈ r, x = ' ' := by
      have := List.dropWhile_eq_nil_iff.1 hr1
      intro x hx
      simpa using this x hx
    rw [argsLoop, charAt_mid]
    simp only
    rw [if_neg hc]
    have := findFirst_none (p := (· != ' ')) (pre ++ [c]) r (fun x hx => by simp [hall x hx])
    simp only [List.append_assoc, List.cons_append, List.nil_append, List.length_append, List.length_cons,
      List.length_nil, Nat.zero_add] at this
    rw [this]
  · have n0 : c0 ≠ ' ' := by
      have := List.head_dropWhile_not (· == ' ') (l := r) (by rw [hr1]; simp)
      simp only [hr1, List.head_cons] at this
      simpa using this
    have er : r = r.takeWhile (· == ' ') ++ c0 :: r1 := by rw [← hr1, List.takeWhile_append_dropWhile]
    generalize r.takeWhile (· == ' ') = sp at er hsp
    subst er
    clear hr1
    have eM : findFirst (· != ' ') (pre ++ c :: (sp ++ c0 :: r1)) (pre.length + 1) = some ((pre ++ c :: sp).length) := by
      have := findFirst_found (p := (· != ' ')) (pre ++ [c]) sp r1 c0 (fun x hx => by simp [hsp x hx]) (by simpa using n0)
      simp only [List.append_assoc, List.cons_append, List.nil_append, List.length_append, List.length_cons,
        List.length_nil, Nat.zero_add] at this ⊢
      rw [this]
      congr 1
      omega
    have ew : c0 :: r1 = (c0 :: r1).takeWhile (fun c => !(c == ',' || c == ')')) ++
        (c0 :: r1).dropWhile (fun c => !(c == ',' || c == ')')) := (List.takeWhile_append_dropWhile ..).symm
    have hw : ∀ x ∈ (c0 :: r1).takeWhile (fun c => !(c == ',' || c == ')')), x ≠ ',' ∧ x ≠ ')' := by
      intro x hx
      have := List.mem_takeWhile_imp hx
      simpa using this
    rcases hr2 : (c0 :: r1).dropWhile (fun c => !(c == ',' || c == ')')) with _ | ⟨d, rest⟩
    · right
      intro fuel args
      have hall := List.dropWhile_eq_nil_iff.1 hr2
      rw [argsLoop, charAt_mid]
      simp only
      rw [if_neg hc, eM]
      simp only
      have := findFirst_none (p := fun c => c == ',' || c == ')') (pre ++ c :: sp) (c0 :: r1)
        (fun x hx => by simpa using hall x hx)
      simp only [List.append_assoc, List.cons_append] at this
      rw [this]
    · have hd : d = ',' ∨ d = ')' := by
        have := List.head_dropWhile_not (fun c => !(c == ',' || c == ')')) (l := c0 :: r1) (by rw [hr2]; simp)
        simp only [hr2, List.head_cons] at this
        simpa [or_iff_not_imp_left] using this
      rw [hr2] at ew
      rcases ht : (c0 :: r1).takeWhile (fun c => !(c == ',' || c == ')')) with _ | ⟨c', w⟩
      · right
        intro fuel args
        rw [ht, List.nil_append, List.cons.injEq] at ew
        obtain ⟨rfl, rfl⟩ := ew
        rw [argsLoop, charAt_mid]
        simp only
        rw [if_neg hc, eM]
        simp only
        have := findFirst_found (p := fun c => c == ',' || c == ')') (pre ++ c :: sp) [] r1 c0 (fun x hx => by simp at hx)
          (by rcases hd with rfl | rfl <;> decide)
        simp only [List.append_assoc, List.cons_append, List.nil_append, List.length_nil, Nat.add_zero] at this
        rw [this]
        simp
      · left
        rw [ht] at ew hw
        obtain ⟨rfl, -⟩ := List.cons.inj ew
        have ed := List.rdropWhile_append_rtakeWhile (p := (· == ' ')) (l := c0 :: w)
        have hsp' : Spaces ((c0 :: w).rtakeWhile (· == ' ')) := fun x hx => by
          simpa using List.mem_rtakeWhile_imp hx
        have hne : (c0 :: w).rdropWhile (· == ' ') ≠ [] := by
          intro h
          have := List.rdropWhile_eq_nil_iff.1 h c0 (by simp)
          simp [n0] at this
        have hlast := List.rdropWhile_last_not (p := (· == ' ')) (l := c0 :: w) hne
        refine ⟨sp, (c0 :: w).rdropWhile (· == ' '), (c0 :: w).rtakeWhile (· == ' '), d, rest, ?_, hsp, ⟨?_, ?_, ?_⟩, hsp', hd⟩
        · rw [ew, ← List.append_assoc ((c0 :: w).rdropWhile _), ed]
        · intro x hx
          exact hw x ((List.rdropWhile_prefix (· == ' ') (l := c0 :: w)).mem hx)
        · rcases hq : (c0 :: w).rdropWhile (· == ' ') with _ | ⟨q, u⟩
          · exact absurd hq hne
          · rw [hq, List.cons_append] at ed
            exact ⟨q, u, rfl, by rw [(List.cons.inj ed).1]; exact n0⟩
        · exact ⟨_, _, (List.dropLast_append_getLast hne).symm, by simpa using hlast⟩

theorem argsLoop_close (pre rest : Str) (fuel : Nat) (args : List Str) :
    argsLoop (pre ++ ')' :: rest) (fuel + 1) pre.length args = .ok args := by
  rw [argsLoop, charAt_mid]
  simp

/-- the loop never fails undefined, and what it accepts is an argument list -/
theorem argsLoop_sound : ∀ (k : Nat) (pre r : Str) (c : Char) (fuel : Nat) (args : List Str), c ≠ ')' → r.length ≤ k →
    r.length + 1 ≤ fuel → argsLoop (pre ++ c :: r) fuel pre.length args = .error ∨
      ∃ l, Args r l ∧ argsLoop (pre ++ c :: r) fuel pre.length args = .ok (args ++ l) := by
  intro k
  induction k with
  | zero =>
    intro pre r c fuel args hc hk hf
    obtain ⟨fuel, rfl⟩ : ∃ f, fuel = f + 1 := ⟨fuel - 1, by omega⟩
    rcases argsLoop_cases pre r c hc with ⟨sp, a, sp', d, rest, rfl, _⟩ | h
    · simp only [List.length_append, List.length_cons] at hk
      omega
    · exact Or.inl (h fuel args)
  | succ k ih =>
    intro pre r c fuel args hc hk hf
    obtain ⟨fuel, rfl⟩ : ∃ f, fuel = f + 1 := ⟨fuel - 1, by omega⟩
    rcases argsLoop_cases pre r c hc with ⟨sp, a, sp', d, rest, rfl, h1, ha, h2, hd⟩ | h
    · rw [argsLoop_step pre sp a sp' rest c d hc hd h1 ha h2]
      have hlen : 0 < a.length := by
        obtain ⟨c0, u0, e0, -⟩ := ha.first
        rw [e0]; simp
      simp only [List.length_append, List.length_cons] at hk hf
      have e : pre ++ c :: (sp ++ (a ++ (sp' ++ d :: rest))) = (pre ++ c :: (sp ++ (a ++ sp'))) ++ d :: rest := by simp
      rw [e]
      rcases hd with rfl | rfl
      · rcases ih (pre ++ c :: (sp ++ (a ++ sp'))) rest ',' fuel (args ++ [a]) (by decide) (by omega) (by omega) with h | ⟨l, hl, h⟩
        · exact Or.inl h
        · exact Or.inr ⟨a :: l, .more h1 ha h2 hl, by rw [h]; simp⟩
      · obtain ⟨fuel, rfl⟩ : ∃ f, fuel = f + 1 := ⟨fuel - 1, by omega⟩
        right
        exact ⟨[a], .last rest h1 ha h2, argsLoop_close _ _ _ _⟩
    · exact Or.inl (h fuel args)

/-- every argument list is accepted -/
theorem argsLoop_complete {r : Str} {l : List Str} (h : Args r l) : ∀ (pre : Str) (c : Char) (fuel : Nat) (args : List Str),
    c ≠ ')' → r.length + 1 ≤ fuel → argsLoop (pre ++ c :: r) fuel pre.length args = .ok (args ++ l) := by
  induction h with
  | @last sp a sp' rest h1 ha h2 =>
    intro pre c fuel args hc hf
    simp only [List.length_append, List.length_cons] at hf
    obtain ⟨fuel, rfl⟩ : ∃ f, fuel = f + 1 + 1 := ⟨fuel - 2, by omega⟩
    rw [argsLoop_step pre sp a sp' rest c ')' hc (Or.inr rfl) h1 ha h2,
      show pre ++ c :: (sp ++ (a ++ (sp' ++ ')' :: rest))) = (pre ++ c :: (sp ++ (a ++ sp'))) ++ ')' :: rest by simp,
      argsLoop_close]
  | @more sp a sp' r l h1 ha h2 hl ih =>
    intro pre c fuel args hc hf
    simp only [List.length_append, List.length_cons] at hf
    obtain ⟨fuel, rfl⟩ : ∃ f, fuel = f + 1 := ⟨fuel - 1, by omega⟩
    rw [argsLoop_step pre sp a sp' r c ',' hc (Or.inl rfl) h1 ha h2,
      show pre ++ c :: (sp ++ (a ++ (sp' ++ ',' :: r))) = (pre ++ c :: (sp ++ (a ++ sp'))) ++ ',' :: r by simp,
      ih _ _ _ _ (by decide) (by omega)]
    simp

/-! ### numbers -/

theorem digit_val {n : Nat} (h : n < 10) : (digit n).toNat = 48 + n := by
  unfold digit
  interval_cases n <;> rfl

theorem toDec_spec : ∀ n : Nat, toDec n ≠ [] ∧ (∀ c ∈ toDec n, isDig c = true) ∧
    (toDec n).foldl (fun a c => a * 10 + (c.toNat - 48)) 0 = n := by
  intro n
  induction n using Nat.strong_induction_on with
  | _ n ih =>
    rw [toDec]
    split
    · rename_i h
      refine ⟨by simp, ?_, ?_⟩
      · intro c hc
        rw [List.mem_singleton.1 hc, isDig, digit_val h]
        simp
        omega
      · simp only [List.foldl_cons, List.foldl_nil, digit_val h]
        omega
    · rename_i h
      obtain ⟨h1, h2, h3⟩ := ih (n / 10) (by omega)
      refine ⟨by simp, ?_, ?_⟩
      · intro c hc
        rcases List.mem_append.1 hc with hc | hc
        · exact h2 c hc
        · rw [List.mem_singleton.1 hc, isDig, digit_val (by omega)]
          simp
          omega
      · rw [List.foldl_append, h3]
        simp only [List.foldl_cons, List.foldl_nil, digit_val (show n % 10 < 10 by omega)]
        omega

theorem stoul_digits {a : Str} (hne : a ≠ []) (hd : ∀ c ∈ a, isDig c = true)
    (hv : a.foldl (fun a c => a * 10 + (c.toNat - 48)) 0 < 2 ^ 64) :
    stoul a = some (a.foldl (fun a c => a * 10 + (c.toNat - 48)) 0) := by
  obtain ⟨c, u, rfl⟩ := List.exists_cons_of_ne_nil hne
  have hc : isDig c = true := hd c (by simp)
  have hc' : 48 ≤ c.toNat ∧ c.toNat ≤ 57 := by simpa [isDig] using hc
  have hs : isSpace c = false := by
    simp only [isSpace, Bool.or_eq_false_iff, beq_eq_false_iff_ne, Bool.and_eq_false_iff, decide_eq_false_iff_not]
    constructor <;> omega
  have n1 : c ≠ '-' := by rintro rfl; revert hc; decide
  have n2 : c ≠ '+' := by rintro rfl; revert hc; decide
  have ht : (c :: u).takeWhile isDig = c :: u := List.takeWhile_eq_self_iff.2 hd
  unfold stoul
  rw [List.dropWhile_cons_of_neg (by simp [hs])]
  dsimp only
  split
  · rename_i h; exact absurd (List.cons.inj h).1 n1
  · rename_i h; exact absurd (List.cons.inj h).1 n2
  · simp only [ht]
    rw [if_neg (by simp), if_neg (by omega)]
    simp

theorem stoul_toDec {n : Nat} (h : n < 2 ^ 64) : stoul (toDec n) = some n := by
  obtain ⟨h1, h2, h3⟩ := toDec_spec n
  rw [stoul_digits h1 h2 (by rw [h3]; exact h), h3]

theorem isArg_toDec (n : Nat) : IsArg (toDec n) := by
  obtain ⟨h1, h2, -⟩ := toDec_spec n
  have hsp : ∀ c, isDig c = true → c ≠ ' ' ∧ c ≠ ',' ∧ c ≠ ')' := by
    intro c hc
    refine ⟨?_, ?_, ?_⟩ <;> (rintro rfl; revert hc; decide)
  refine ⟨fun c hc => (hsp c (h2 c hc)).2, ?_, ?_⟩
  · obtain ⟨c, u, e⟩ := List.exists_cons_of_ne_nil h1
    exact ⟨c, u, e, (hsp c (h2 c (by rw [e]; simp))).1⟩
  · exact ⟨_, _, (List.dropLast_append_getLast h1).symm, (hsp _ (h2 _ (List.getLast_mem h1))).1⟩

/-! ### the whole parser -/

theorem fromString_call {name r : Str} {i : Nat} (hn : '(' ∉ name) (hi : lowerBound constructorNames name = i)
    (hg : constructorNames[i]? = some name) :
    geometryTypeFromString (name ++ '(' :: r) =
      match argsLoop (name ++ '(' :: r) ((name ++ '(' :: r).length + 1) name.length [] with
      | .ok args => construct i args
      | .error => .error
      | .ub => .ub := by
  have e : findFirst (· == '(') (name ++ '(' :: r) 0 = some name.length := by
    have := findFirst_found (p := (· == '(')) [] name r '(' (fun c hc => by
      simp only [beq_eq_false_iff_ne]; rintro rfl; exact hn hc) (by decide)
    simpa using this
  have hl : i ≠ constructorNames.length := by
    intro h
    rw [h] at hg
    simp at hg
  unfold geometryTypeFromString
  simp only [e]
  rw [substr, List.drop_zero, List.take_left, hi, if_neg (by simp [hl, hg])]
  rfl

theorem fromString_ok {name r : Str} {l : List Str} {i : Nat} (hn : '(' ∉ name) (hi : lowerBound constructorNames name = i)
    (hg : constructorNames[i]? = some name) (h : Args r l) :
    geometryTypeFromString (name ++ '(' :: r) = construct i l := by
  rw [fromString_call hn hi hg, argsLoop_complete h _ _ _ _ (by decide) (by
    simp only [List.length_append, List.length_cons]; omega)]
  rfl

end Verif.Py
