import Verif.Python.Lemmas

/-! Properties of the names of geometry types in the Python bindings: C63 (names and back) and C64 (reading names). -/

namespace Verif.Py

open Verif.Typ

/-! ### C63 -/

theorem isCube_half {d i : Nat} (hd : d ≤ 30) : isCube ⟨d, false, i⟩ = some (decide (i / 2 = (2 ^ d - 1) / 2)) := by
  rw [isCube_eq rfl hd]
  congr 1
  rw [Bool.eq_iff_iff, beq_iff_eq, decide_eq_true_iff]
  simp only
  rw [Nat.shiftRight_xor_distrib, Nat.xor_eq_zero_iff, shr_one, shr_one]

theorem toString_big {d i : Nat} (h : 4 ≤ d) : toString ⟨d, false, i⟩ =
    if isSimplex ⟨d, false, i⟩ then some ("simplex(".toList ++ toDec d ++ ")".toList)
    else (isCube ⟨d, false, i⟩).map fun b => if b then "cube(".toList ++ toDec d ++ ")".toList
      else "general(".toList ++ toDec i ++ ", ".toList ++ toDec d ++ ")".toList := by
  obtain ⟨e, rfl⟩ : ∃ e, d = e + 4 := ⟨d - 4, by omega⟩
  rfl

theorem args_one (n : Nat) : Args (toDec n ++ ")".toList) [toDec n] := by
  have := Args.last (sp := []) (sp' := []) [] (by intro c hc; simp at hc) (isArg_toDec n) (by intro c hc; simp at hc)
  simpa using this

theorem args_two (m n : Nat) : Args (toDec m ++ (", ".toList ++ (toDec n ++ ")".toList))) [toDec m, toDec n] := by
  have h1 := Args.last (sp := [' ']) (sp' := []) [] (by intro c hc; simpa using hc) (isArg_toDec n) (by intro c hc; simp at hc)
  have h2 := Args.more (sp := []) (sp' := []) (by intro c hc; simp at hc) (isArg_toDec m) (by intro c hc; simp at hc) h1
  simpa using h2

theorem read_simplex {d : Nat} (hd : d < 2 ^ 8) :
    geometryTypeFromString ("simplex(".toList ++ toDec d ++ ")".toList) = .ok ⟨d, false, 0⟩ := by
  have h := fromString_ok (name := "simplex".toList) (i := 8) (by decide) (by decide) (by decide) (args_one d)
  rw [show "simplex(".toList ++ toDec d ++ ")".toList = "simplex".toList ++ '(' :: (toDec d ++ ")".toList) by simp, h]
  simp only [construct, unary, stoul_toDec (show d < 2 ^ 64 by omega), Nat.mod_eq_of_lt (show d < 2 ^ 32 by omega), simplex,
    mk3_eq (show 0 < 2 ^ 32 by omega) hd, Res.ofOption]

theorem read_none {d : Nat} (hd : d < 2 ^ 8) :
    geometryTypeFromString ("none(".toList ++ toDec d ++ ")".toList) = .ok ⟨d, true, 0⟩ := by
  have h := fromString_ok (name := "none".toList) (i := 4) (by decide) (by decide) (by decide) (args_one d)
  rw [show "none(".toList ++ toDec d ++ ")".toList = "none".toList ++ '(' :: (toDec d ++ ")".toList) by simp, h]
  simp only [construct, unary, stoul_toDec (show d < 2 ^ 64 by omega), Nat.mod_eq_of_lt (show d < 2 ^ 32 by omega), noneType,
    mk3_eq (show 0 < 2 ^ 32 by omega) hd, Res.ofOption]

theorem read_cube {d : Nat} (hd : d ≤ 30) (h1 : 1 < d) :
    geometryTypeFromString ("cube(".toList ++ toDec d ++ ")".toList) = .ok ⟨d, false, 2 ^ d - 1⟩ := by
  have h := fromString_ok (name := "cube".toList) (i := 0) (by decide) (by decide) (by decide) (args_one d)
  have hp := pow_le_30 hd
  rw [show "cube(".toList ++ toDec d ++ ")".toList = "cube".toList ++ '(' :: (toDec d ++ ")".toList) by simp, h]
  simp only [construct, unary, stoul_toDec (show d < 2 ^ 64 by omega), Nat.mod_eq_of_lt (show d < 2 ^ 32 by omega),
    cube_eq hd h1, mk3_eq (show 2 ^ d - 1 < 2 ^ 32 by omega) (show d < 2 ^ 8 by omega), Res.ofOption]

theorem read_general {d i : Nat} (hd : d ≤ 31) (hi : i < 2 ^ d) :
    geometryTypeFromString ("general(".toList ++ toDec i ++ ", ".toList ++ toDec d ++ ")".toList) = .ok ⟨d, false, i⟩ := by
  have h := fromString_ok (name := "general".toList) (i := 1) (by decide) (by decide) (by decide) (args_two i d)
  have hp : 2 ^ d ≤ 2 ^ 31 := Nat.pow_le_pow_right (by omega) hd
  rw [show "general(".toList ++ toDec i ++ ", ".toList ++ toDec d ++ ")".toList =
    "general".toList ++ '(' :: (toDec i ++ (", ".toList ++ (toDec d ++ ")".toList))) by simp, h]
  simp only [construct, general, stoul_toDec (show d < 2 ^ 64 by omega), stoul_toDec (show i < 2 ^ 64 by omega),
    Nat.mod_eq_of_lt (show d < 2 ^ 32 by omega), numTopologies, Nat.one_shiftLeft]
  rw [if_neg (by omega), if_neg (by omega), mk2, mk3_eq (by omega) (by omega), Nat.mod_eq_of_lt (by omega)]

/-- the geometry types that the other parts of the library work with: no none flag, dimension up to 30, an id of that
dimension; or a none type -/
def Proper (t : GeometryType) : Prop := (Regular t ∧ t.dim ≤ 30) ∨ (t.isNone = true ∧ t.dim < 2 ^ 8)

/-- C63: every type has a name, and reading the name gives the type back -/
theorem C63_roundtrip (t : GeometryType) (h : Proper t) :
    ∃ s t', toString t = some s ∧ geometryTypeFromString s = .ok t' ∧ eq t t' = true ∧ t'.dim = t.dim ∧
      t'.isNone = t.isNone := by
  rcases h with ⟨hr, hd⟩ | ⟨hn, hd⟩
  · obtain ⟨d, n, i⟩ := t
    obtain ⟨hn, hi⟩ := hr
    simp only at hn hi hd
    subst hn
    have big : 4 ≤ d → ∃ s t', toString ⟨d, false, i⟩ = some s ∧ geometryTypeFromString s = .ok t' ∧
        eq ⟨d, false, i⟩ t' = true ∧ t'.dim = d ∧ t'.isNone = false := by
      intro h4
      rw [toString_big h4]
      by_cases hs : isSimplex ⟨d, false, i⟩ = true
      · refine ⟨_, _, ?_, read_simplex (show d < 2 ^ 8 by omega), ?_, rfl, rfl⟩
        · simp only [hs, if_true]
        · simp only [isSimplex, Bool.not_false, Bool.true_and, or_one_eq, beq_iff_eq] at hs
          rw [eq_iff]
          refine ⟨rfl, Or.inr ⟨rfl, ?_⟩⟩
          simp only
          omega
      · have hc := isCube_half (i := i) hd
        by_cases hb : i / 2 = (2 ^ (d) - 1) / 2
        · refine ⟨_, _, ?_, read_cube hd (by omega), ?_, rfl, rfl⟩
          · simp [hs, hc, hb]
          · rw [eq_iff]
            exact ⟨rfl, Or.inr ⟨rfl, hb⟩⟩
        · refine ⟨_, _, ?_, read_general (show d ≤ 31 by omega) hi, ?_, rfl, rfl⟩
          · simp [hs, hc, hb]
          · rw [eq_iff]
            exact ⟨rfl, Or.inr ⟨rfl, rfl⟩⟩
    match d, hd, hi, big with
    | 0, _, hi, _ =>
      obtain rfl : i = 0 := by omega
      exact ⟨_, _, rfl, by decide +kernel, by decide, rfl, rfl⟩
    | 1, _, hi, _ =>
      refine ⟨_, line, rfl, by decide +kernel, ?_, rfl, rfl⟩
      obtain rfl | rfl : i = 0 ∨ i = 1 := by omega
      all_goals decide
    | 2, _, hi, _ =>
      obtain rfl | rfl | rfl | rfl : i = 0 ∨ i = 1 ∨ i = 2 ∨ i = 3 := by omega
      · exact ⟨"triangle".toList, ⟨2, false, 0⟩, by decide, by decide +kernel, by decide, rfl, rfl⟩
      · exact ⟨"triangle".toList, ⟨2, false, 0⟩, by decide, by decide +kernel, by decide, rfl, rfl⟩
      · exact ⟨"quadrilateral".toList, ⟨2, false, 3⟩, by decide, by decide +kernel, by decide, rfl, rfl⟩
      · exact ⟨"quadrilateral".toList, ⟨2, false, 3⟩, by decide, by decide +kernel, by decide, rfl, rfl⟩
    | 3, _, hi, _ =>
      obtain h | h | h | h : i / 2 = 0 ∨ i / 2 = 1 ∨ i / 2 = 2 ∨ i / 2 = 3 := by omega
      · obtain rfl | rfl : i = 0 ∨ i = 1 := by omega
        all_goals exact ⟨"tetrahedron".toList, ⟨3, false, 0⟩, by decide, by decide +kernel, by decide, rfl, rfl⟩
      · obtain rfl | rfl : i = 2 ∨ i = 3 := by omega
        all_goals exact ⟨"pyramid".toList, ⟨3, false, 3⟩, by decide, by decide +kernel, by decide, rfl, rfl⟩
      · obtain rfl | rfl : i = 4 ∨ i = 5 := by omega
        all_goals exact ⟨"prism".toList, ⟨3, false, 5⟩, by decide, by decide +kernel, by decide, rfl, rfl⟩
      · obtain rfl | rfl : i = 6 ∨ i = 7 := by omega
        all_goals exact ⟨"hexahedron".toList, ⟨3, false, 7⟩, by decide, by decide +kernel, by decide, rfl, rfl⟩
    | d + 4, _, _, big => exact big (by omega)
  · obtain ⟨d, n, i⟩ := t
    simp only at hn hd
    subst hn
    refine ⟨_, _, ?_, read_none hd, ?_, rfl, rfl⟩
    · simp [toString]
    · rw [eq_iff]
      exact ⟨rfl, Or.inl rfl⟩

example : Proper ⟨4, false, 5⟩ ∧ (toString ⟨4, false, 5⟩).map String.ofList = some "general(5, 4)" ∧
    geometryTypeFromString "general(5, 4)".toList = .ok ⟨4, false, 5⟩ := by
  refine ⟨Or.inl ⟨⟨rfl, by decide⟩, by decide⟩, by decide +kernel, by decide +kernel⟩

/-- C63: different types have different names -/
theorem C63_injective (a b : GeometryType) (ha : Proper a) (hb : Proper b) (h : toString a = toString b) :
    eq a b = true ∧ a.dim = b.dim ∧ a.isNone = b.isNone := by
  obtain ⟨s, t, h1, h2, h3, h4, h5⟩ := C63_roundtrip a ha
  obtain ⟨s', t', h1', h2', h3', h4', h5'⟩ := C63_roundtrip b hb
  obtain rfl : s = s' := by
    rw [h, h1'] at h1
    exact (Option.some.inj h1).symm
  obtain rfl : t = t' := by
    rw [h2'] at h2
    injection h2 with h2
    exact h2.symm
  refine ⟨?_, h4.symm.trans h4', h5.symm.trans h5'⟩
  exact C02_eq_equivalence.2.2.1 a t b h3 (C02_eq_equivalence.2.1 b t h3')

/-- C63, the converse: equal types of the same dimension have the same name -/
def C63_names_full : Prop :=
  ∀ a b : GeometryType, Proper a → Proper b → eq a b = true → a.dim = b.dim → toString a = toString b

/-- C63: from dimension four on, the two ids of one shape are printed differently -/
theorem C63_names_counterexample : ¬ C63_names_full := by
  intro h
  have := h ⟨4, false, 2⟩ ⟨4, false, 3⟩ (Or.inl ⟨⟨rfl, by decide⟩, by decide⟩) (Or.inl ⟨⟨rfl, by decide⟩, by decide⟩)
    (by decide) rfl
  revert this
  decide +kernel

/-- C63: the converse holds for none types, up to dimension three, and for simplices and cubes; what is missing is the
general case from dimension four on, which fails -/
theorem C63_names_partial (a b : GeometryType) (ha : Proper a) (hb : Proper b) (h : eq a b = true) (hd : a.dim = b.dim)
    (hc : a.isNone = true ∨ a.dim ≤ 3 ∨ isSimplex a = true ∨ isCube a = some true) : toString a = toString b := by
  obtain ⟨d, n, i⟩ := a
  obtain ⟨e, m, j⟩ := b
  simp only at hd hc
  subst hd
  rw [eq_iff] at h
  obtain ⟨h1, h2⟩ := h
  simp only at h1 h2
  subst h1
  cases n with
  | true => simp [toString]
  | false =>
    obtain ⟨-, hij⟩ : d = d ∧ i / 2 = j / 2 := by simpa using h2
    have hd : d ≤ 30 := by
      rcases ha with ⟨-, h⟩ | ⟨h, -⟩
      · exact h
      · simp at h
    have e1 : isSimplex ⟨d, false, i⟩ = isSimplex ⟨d, false, j⟩ := by
      simp only [isSimplex, or_one_eq, hij]
    have e5 : isCube ⟨d, false, i⟩ = isCube ⟨d, false, j⟩ := by
      rw [isCube_half hd, isCube_half hd, hij]
    have hi : i < 2 ^ d := by
      rcases ha with ⟨h, -⟩ | ⟨h, -⟩
      · exact h.valid
      · simp at h
    have hj : j < 2 ^ d := by
      rcases hb with ⟨h, -⟩ | ⟨h, -⟩
      · exact h.valid
      · simp at h
    clear ha hb h2
    have h1 : ∀ i < 2, ∀ j < 2, i / 2 = j / 2 → toString ⟨1, false, i⟩ = toString ⟨1, false, j⟩ := by decide +kernel
    have h2 : ∀ i < 4, ∀ j < 4, i / 2 = j / 2 → toString ⟨2, false, i⟩ = toString ⟨2, false, j⟩ := by decide +kernel
    have h3 : ∀ i < 8, ∀ j < 8, i / 2 = j / 2 → toString ⟨3, false, i⟩ = toString ⟨3, false, j⟩ := by decide +kernel
    obtain rfl | rfl | rfl | rfl | h4 : d = 0 ∨ d = 1 ∨ d = 2 ∨ d = 3 ∨ 4 ≤ d := by omega
    · rw [show i = 0 by omega, show j = 0 by omega]
    · exact h1 i hi j hj hij
    · exact h2 i hi j hj hij
    · exact h3 i hi j hj hij
    · rw [toString_big h4, toString_big h4, e1, e5]
      by_cases hs : isSimplex ⟨d, false, j⟩ = true
      · rw [if_pos hs, if_pos hs]
      · have hcu : isCube ⟨d, false, j⟩ = some true := by
          rw [← e5]
          rcases hc with h | h | h | h
          · simp at h
          · omega
          · rw [e1] at h; exact absurd h hs
          · exact h
        rw [if_neg hs, if_neg hs, hcu]
        simp

/-! ### C64 -/

/-- C64: after the opening parenthesis, the argument loop accepts exactly the argument lists, with exactly these arguments;
for any other text it throws, and it always terminates without tripping its assertion -/
theorem C64_arguments (name r : Str) (l : List Str) :
    (argsLoop (name ++ '(' :: r) ((name ++ '(' :: r).length + 1) name.length [] = .ok l ↔ Args r l) ∧
    (argsLoop (name ++ '(' :: r) ((name ++ '(' :: r).length + 1) name.length [] = .error ↔ ∀ l, ¬ Args r l) := by
  have hf : r.length + 1 ≤ (name ++ '(' :: r).length + 1 := by
    simp only [List.length_append, List.length_cons]
    omega
  have hc := fun l (h : Args r l) => argsLoop_complete h name '(' _ [] (by decide) hf
  rcases argsLoop_sound _ name r '(' _ [] (by decide) (le_refl _) hf with h | ⟨l', hl', h⟩
  · rw [h]
    refine ⟨⟨fun h' => (nomatch h'), fun h' => ?_⟩, fun _ l h' => ?_, fun _ => rfl⟩
    · have := hc l h'
      rw [h] at this
      exact nomatch this
    · have := hc l h'
      rw [h] at this
      exact nomatch this
  · rw [h]
    refine ⟨⟨fun h' => ?_, fun h' => ?_⟩, fun h' => (nomatch h'), fun h' => absurd hl' (h' l')⟩
    · injection h' with h'
      rw [← h']
      simpa using hl'
    · rw [← h]
      simpa using hc l h'

example : Args " 5 , 4)".toList ["5".toList, "4".toList] ∧ ∀ l, ¬ Args ")".toList l := by
  have key : argsLoop ("general".toList ++ '(' :: " 5 , 4)".toList) 17 7 [] = .ok ["5".toList, "4".toList] := by decide +kernel
  have key2 : argsLoop ("line".toList ++ '(' :: ")".toList) 7 4 [] = .error := by decide +kernel
  exact ⟨((C64_arguments "general".toList _ _).1).1 key, ((C64_arguments "line".toList _ []).2).1 key2⟩

/-- the words without arguments -/
def plainNames : List (Str × GeometryType) :=
  [("vertex".toList, ⟨0, false, 0⟩), ("line".toList, ⟨1, false, 0⟩), ("triangle".toList, ⟨2, false, 0⟩),
    ("quadrilateral".toList, ⟨2, false, 3⟩), ("tetrahedron".toList, ⟨3, false, 0⟩), ("pyramid".toList, ⟨3, false, 3⟩),
    ("prism".toList, ⟨3, false, 5⟩), ("hexahedron".toList, ⟨3, false, 7⟩)]

/-- what a string means: the documented grammar, with numbers read by `std::stoul` -/
inductive Denotes : Str → GeometryType → Prop
  | plain {s t} : (s, t) ∈ plainNames → Denotes s t
  | simplex {r a d} : Args r [a] → stoul a = some d → Denotes ("simplex".toList ++ '(' :: r) ⟨d, false, 0⟩
  | cube {r a d} : Args r [a] → stoul a = some d → Denotes ("cube".toList ++ '(' :: r) ⟨d, false, if 1 < d then 2 ^ d - 1 else 0⟩
  | none {r a d} : Args r [a] → stoul a = some d → Denotes ("none".toList ++ '(' :: r) ⟨d, true, 0⟩
  | general {r a b i d} : Args r [a, b] → stoul a = some i → stoul b = some d → i < 2 ^ d →
      Denotes ("general".toList ++ '(' :: r) ⟨d, false, i⟩

/-- C64: reading a string gives the type that it denotes, an exception if it denotes none, and never undefined behaviour -/
def C64_reads_full : Prop :=
  ∀ s, (∀ t, geometryTypeFromString s = .ok t ↔ Denotes s t) ∧ geometryTypeFromString s ≠ .ub

/-- C64: large dimensions are not caught.  `cube(40)` and `general(0, 40)` shift too far; `simplex(300)` is stored with
dimension 44; so is `general`, whose number passes as an `int` -/
theorem C64_reads_counterexample : ¬ C64_reads_full ∧ geometryTypeFromString "cube(40)".toList = .ub ∧
    geometryTypeFromString "general(0, 40)".toList = .ub ∧
    geometryTypeFromString "simplex(300)".toList = .ok ⟨44, false, 0⟩ ∧
    geometryTypeFromString "none(-1)".toList = .ok ⟨255, true, 0⟩ := by
  have h1 : geometryTypeFromString "cube(40)".toList = .ub := by decide +kernel
  exact ⟨fun h => (h _).2 h1, h1, by decide +kernel, by decide +kernel, by decide +kernel⟩

/-- the dimension that is written in the string, the last argument, is at most 30 -/
def SmallDim (s : Str) : Prop :=
  ∀ name r l a v, s = name ++ '(' :: r → '(' ∉ name → Args r (l ++ [a]) → stoul a = some v → v ≤ 30

theorem construct_plain : ∀ (i : Nat), i < 12 → ¬ (i = 0 ∨ i = 1 ∨ i = 4 ∨ i = 8) → ∀ l,
    construct i l = if l = [] then construct i [] else .error := by
  intro i hi hn l
  have : i = 2 ∨ i = 3 ∨ i = 5 ∨ i = 6 ∨ i = 7 ∨ i = 9 ∨ i = 10 ∨ i = 11 := by omega
  rcases this with rfl | rfl | rfl | rfl | rfl | rfl | rfl | rfl <;> rcases l with _ | ⟨x, l⟩ <;> rfl

theorem lowerBound_names : ∀ i < 12, ∀ n, constructorNames[i]? = some n → lowerBound constructorNames n = i ∧ '(' ∉ n := by
  decide +kernel

/-- C64: strings are compared lexicographically by the codes of their characters -/
theorem C64_strLt (s t : Str) : strLt s t = true ↔ s.map Char.toNat < t.map Char.toNat := by
  induction s generalizing t with
  | nil => cases t <;> simp [strLt]
  | cons a s ih =>
    cases t with
    | nil => simp [strLt]
    | cons b t =>
      simp only [strLt, List.map_cons, List.cons_lt_cons_iff]
      split
      · simp [*]
      · split
        · rename_i h1 h2
          simp only [Bool.false_eq_true, h1, false_or, false_iff, not_and]
          intro h3; omega
        · rename_i h1 h2
          rw [ih]
          simp only [h1, false_or]
          exact ⟨fun h => ⟨by omega, h⟩, fun h => h.2⟩

/-- C64: the array of constructor names is sorted, as `std::lower_bound` requires, and the search finds for every string the first name
that is not smaller -/
theorem C64_lowerBound (x : Str) : (constructorNames.Pairwise fun a b => a.map Char.toNat < b.map Char.toNat) ∧
    ∀ i (a : Str), constructorNames[i]? = some a → (i < lowerBound constructorNames x ↔ a.map Char.toNat < x.map Char.toNat) := by
  have hs : constructorNames.Pairwise fun a b => a.map Char.toNat < b.map Char.toNat := by decide
  refine ⟨hs, fun i a ha => ?_⟩
  obtain ⟨hi, rfl⟩ := List.getElem?_eq_some_iff.1 ha
  rw [← C64_strLt]
  constructor
  · intro h
    have := List.not_of_lt_findIdx h
    simpa using this
  · intro h
    by_contra hc
    push Not at hc
    have hlt : lowerBound constructorNames x < constructorNames.length := by omega
    have h1 : strLt constructorNames[lowerBound constructorNames x] x = false := by
      have := List.findIdx_getElem (w := hlt)
      rw [Bool.not_eq_true'] at this
      exact this
    rcases hc.eq_or_lt with he | hl
    · simp only [he, h, Bool.true_eq_false] at h1
    · have h2 := List.pairwise_iff_getElem.1 hs _ _ hlt hi hl
      rw [C64_strLt] at h
      have h3 := (C64_strLt _ _).2 (List.lt_trans h2 h)
      rw [h3] at h1
      cases h1

theorem lowerBound_le (s : Str) : lowerBound constructorNames s ≤ 12 := List.findIdx_le_length

theorem getElem_names {i : Nat} {s : Str} (h : constructorNames[i]? = some s) : i < 12 := by
  by_contra hc
  rw [List.getElem?_eq_none (by simpa [constructorNames] using hc)] at h
  exact nomatch h

theorem Args.unique {r : Str} {l l' : List Str} (h : Args r l) (h' : Args r l') : l = l' := by
  have h1 := (C64_arguments [] r l).1.2 h
  have h2 := (C64_arguments [] r l').1.2 h'
  rw [h1] at h2
  injection h2

theorem Args.ne_nil {r : Str} (h : Args r []) : False := nomatch h

theorem split_unique {n n' r r' : Str} (h : n ++ '(' :: r = n' ++ '(' :: r') (hn : '(' ∉ n) (hn' : '(' ∉ n') :
    n = n' ∧ r = r' := by
  induction n generalizing n' with
  | nil =>
    rcases n' with _ | ⟨c, n'⟩
    · simpa using h
    · simp only [List.nil_append, List.cons_append, List.cons.injEq] at h
      exact absurd (by rw [h.1]; simp) hn'
  | cons c n ih =>
    rcases n' with _ | ⟨c', n'⟩
    · simp only [List.nil_append, List.cons_append, List.cons.injEq] at h
      exact absurd (by rw [h.1]; simp) hn
    · simp only [List.cons_append, List.cons.injEq] at h
      simp only [List.mem_cons, not_or] at hn hn'
      obtain ⟨e1, e2⟩ := ih h.2 hn.2 hn'.2
      exact ⟨by rw [h.1, e1], e2⟩

theorem plain_found : ∀ p ∈ plainNames, constructorNames[lowerBound constructorNames p.1]? = some p.1 ∧ '(' ∉ p.1 := by
  decide +kernel

theorem denotes_call {name r : Str} {t : GeometryType} (hn : '(' ∉ name) (h : Denotes (name ++ '(' :: r) t) :
    (name = "simplex".toList ∧ ∃ a d, Args r [a] ∧ stoul a = some d ∧ t = ⟨d, false, 0⟩) ∨
    (name = "cube".toList ∧ ∃ a d, Args r [a] ∧ stoul a = some d ∧ t = ⟨d, false, if 1 < d then 2 ^ d - 1 else 0⟩) ∨
    (name = "none".toList ∧ ∃ a d, Args r [a] ∧ stoul a = some d ∧ t = ⟨d, true, 0⟩) ∨
    (name = "general".toList ∧ ∃ a b i d, Args r [a, b] ∧ stoul a = some i ∧ stoul b = some d ∧ i < 2 ^ d ∧
      t = ⟨d, false, i⟩) := by
  generalize hs : name ++ '(' :: r = s at h
  cases h with
  | plain h =>
    have := (plain_found _ h).2
    rw [← hs] at this
    simp at this
  | simplex h1 h2 =>
    obtain ⟨rfl, rfl⟩ := split_unique hs hn (by decide)
    exact Or.inl ⟨rfl, _, _, h1, h2, rfl⟩
  | cube h1 h2 =>
    obtain ⟨rfl, rfl⟩ := split_unique hs hn (by decide)
    exact Or.inr (Or.inl ⟨rfl, _, _, h1, h2, rfl⟩)
  | none h1 h2 =>
    obtain ⟨rfl, rfl⟩ := split_unique hs hn (by decide)
    exact Or.inr (Or.inr (Or.inl ⟨rfl, _, _, h1, h2, rfl⟩))
  | general h1 h2 h3 h4 =>
    obtain ⟨rfl, rfl⟩ := split_unique hs hn (by decide)
    exact Or.inr (Or.inr (Or.inr ⟨rfl, _, _, _, _, h1, h2, h3, h4, rfl⟩))

theorem unary_spec {l : List Str} {f : Nat → Option GeometryType} {g : Nat → GeometryType}
    (hl : ∀ a d, l = [a] → stoul a = some d → d ≤ 30) (hf : ∀ d ≤ 30, f d = some (g d)) :
    (∀ t, unary l f = .ok t ↔ ∃ a d, l = [a] ∧ stoul a = some d ∧ t = g d) ∧ unary l f ≠ .ub := by
  rcases l with _ | ⟨a, _ | ⟨b, l⟩⟩
  · exact ⟨fun t => ⟨fun h => (nomatch h), fun ⟨a, d, h, _⟩ => (nomatch h)⟩, nofun⟩
  · rcases e : stoul a with _ | d
    · have : unary [a] f = .error := by simp only [unary, e]
      rw [this]
      refine ⟨fun t => ⟨fun h => (nomatch h), ?_⟩, nofun⟩
      rintro ⟨a', d, h, h', -⟩
      obtain rfl : a = a' := by simpa using h
      rw [e] at h'
      exact nomatch h'
    · have hd := hl a d rfl e
      have : unary [a] f = .ok (g d) := by
        simp only [unary, e, Nat.mod_eq_of_lt (show d < 2 ^ 32 by omega), hf d hd, Res.ofOption]
      rw [this]
      refine ⟨fun t => ⟨fun h => ?_, ?_⟩, nofun⟩
      · injection h with h
        exact ⟨a, d, rfl, e, h.symm⟩
      · rintro ⟨a', d', h, h', rfl⟩
        obtain rfl : a = a' := by simpa using h
        rw [e] at h'
        injection h' with h'
        rw [h']
  · exact ⟨fun t => ⟨fun h => (nomatch h), fun ⟨a, d, h, _⟩ => by simp at h⟩, nofun⟩

theorem general_spec {l : List Str} (hl : ∀ a b d, l = [a, b] → stoul b = some d → d ≤ 30) :
    (∀ t, general l = .ok t ↔ ∃ a b i d, l = [a, b] ∧ stoul a = some i ∧ stoul b = some d ∧ i < 2 ^ d ∧ t = ⟨d, false, i⟩) ∧
      general l ≠ .ub := by
  rcases l with _ | ⟨a, _ | ⟨b, _ | ⟨c, l⟩⟩⟩
  · exact ⟨fun t => ⟨fun h => (nomatch h), fun ⟨_, _, _, _, h, _⟩ => (nomatch h)⟩, nofun⟩
  · exact ⟨fun t => ⟨fun h => (nomatch h), fun ⟨_, _, _, _, h, _⟩ => by simp at h⟩, nofun⟩
  · rcases e : stoul a with _ | i
    · have : general [a, b] = .error := by simp only [general, e]
      rw [this]
      refine ⟨fun t => ⟨fun h => (nomatch h), ?_⟩, nofun⟩
      rintro ⟨a', b', i, d, h, h', -⟩
      obtain ⟨rfl, rfl⟩ : a = a' ∧ b = b' := by simpa using h
      rw [e] at h'
      exact nomatch h'
    · rcases e2 : stoul b with _ | d
      · have : general [a, b] = .error := by simp only [general, e, e2]
        rw [this]
        refine ⟨fun t => ⟨fun h => (nomatch h), ?_⟩, nofun⟩
        rintro ⟨a', b', i, d, h, -, h', -⟩
        obtain ⟨rfl, rfl⟩ : a = a' ∧ b = b' := by simpa using h
        rw [e2] at h'
        exact nomatch h'
      · have hd := hl a b d rfl e2
        have hp := pow_le_30 hd
        have : general [a, b] = if i < 2 ^ d then .ok ⟨d, false, i⟩ else .error := by
          simp only [general, e, e2, Nat.mod_eq_of_lt (show d < 2 ^ 32 by omega), numTopologies, Nat.one_shiftLeft]
          rw [if_neg (by omega)]
          by_cases hi : i < 2 ^ d
          · rw [if_neg (by omega), if_pos hi, mk2, mk3_eq (by omega) (by omega), Nat.mod_eq_of_lt (by omega)]
          · rw [if_pos (by omega), if_neg hi]
        rw [this]
        refine ⟨fun t => ⟨fun h => ?_, ?_⟩, ?_⟩
        · split at h
          · injection h with h
            exact ⟨a, b, i, d, rfl, e, e2, by assumption, h.symm⟩
          · exact nomatch h
        · rintro ⟨a', b', i', d', h, h', h'', h3, rfl⟩
          obtain ⟨rfl, rfl⟩ : a = a' ∧ b = b' := by simpa using h
          rw [e] at h'
          rw [e2] at h''
          injection h' with h'
          injection h'' with h''
          subst h' h''
          rw [if_pos h3]
        · split
          · exact nofun
          · exact nofun
  · exact ⟨fun t => ⟨fun h => (nomatch h), fun ⟨_, _, _, _, h, _⟩ => by simp at h⟩, nofun⟩

theorem cube_small {d : Nat} (hd : d ≤ 30) : cube d = some ⟨d, false, if 1 < d then 2 ^ d - 1 else 0⟩ := by
  have hp := pow_le_30 hd
  by_cases h : 1 < d
  · rw [cube_eq hd h, mk3_eq (by omega) (by omega), if_pos h]
  · rw [cube, if_neg h, mk3_eq (by omega) (by omega), if_neg h]

/-- C64, proved for strings whose written dimension is at most 30; what is missing are larger numbers, where the statement
fails -/
theorem C64_reads_partial (s : Str) (hs : SmallDim s) :
    (∀ t, geometryTypeFromString s = .ok t ↔ Denotes s t) ∧ geometryTypeFromString s ≠ .ub := by
  by_cases hp : '(' ∈ s
  · obtain ⟨name, r, rfl, hn⟩ := List.eq_append_cons_of_mem hp
    by_cases hg : constructorNames[lowerBound constructorNames name]? = some name
    · have hi := getElem_names hg
      rcases hl : argsLoop (name ++ '(' :: r) ((name ++ '(' :: r).length + 1) name.length [] with l | _ | _
      · have hA := ((C64_arguments name r l).1).1 hl
        have e : geometryTypeFromString (name ++ '(' :: r) = construct (lowerBound constructorNames name) l := by
          rw [fromString_call hn rfl hg, hl]
        have hD : ∀ t, Denotes (name ++ '(' :: r) t ↔
            (name = "simplex".toList ∧ ∃ a d, l = [a] ∧ stoul a = some d ∧ t = ⟨d, false, 0⟩) ∨
            (name = "cube".toList ∧ ∃ a d, l = [a] ∧ stoul a = some d ∧ t = ⟨d, false, if 1 < d then 2 ^ d - 1 else 0⟩) ∨
            (name = "none".toList ∧ ∃ a d, l = [a] ∧ stoul a = some d ∧ t = ⟨d, true, 0⟩) ∨
            (name = "general".toList ∧ ∃ a b i d, l = [a, b] ∧ stoul a = some i ∧ stoul b = some d ∧ i < 2 ^ d ∧
              t = ⟨d, false, i⟩) := by
          intro t
          constructor
          · intro h
            rcases denotes_call hn h with ⟨h1, a, d, h2, h3⟩ | ⟨h1, a, d, h2, h3⟩ | ⟨h1, a, d, h2, h3⟩ |
              ⟨h1, a, b, i, d, h2, h3⟩
            · exact Or.inl ⟨h1, a, d, hA.unique h2, h3⟩
            · exact Or.inr (Or.inl ⟨h1, a, d, hA.unique h2, h3⟩)
            · exact Or.inr (Or.inr (Or.inl ⟨h1, a, d, hA.unique h2, h3⟩))
            · exact Or.inr (Or.inr (Or.inr ⟨h1, a, b, i, d, hA.unique h2, h3⟩))
          · rintro (⟨rfl, a, d, rfl, h3, rfl⟩ | ⟨rfl, a, d, rfl, h3, rfl⟩ | ⟨rfl, a, d, rfl, h3, rfl⟩ |
              ⟨rfl, a, b, i, d, rfl, h3, h4, h5, rfl⟩)
            · exact .simplex hA h3
            · exact .cube hA h3
            · exact .none hA h3
            · exact .general hA h3 h4 h5
        have h1 : ∀ a d, l = [a] → stoul a = some d → d ≤ 30 := fun a d h h' => hs name r [] a d rfl hn (by rw [h] at hA; exact hA) h'
        have h2 : ∀ a b d, l = [a, b] → stoul b = some d → d ≤ 30 :=
          fun a b d h h' => hs name r [a] b d rfl hn (by rw [h] at hA; exact hA) h'
        rw [e]
        generalize lowerBound constructorNames name = i at hg hi
        by_cases h4 : i = 0 ∨ i = 1 ∨ i = 4 ∨ i = 8
        · rcases h4 with rfl | rfl | rfl | rfl
          · obtain rfl : "cube".toList = name := Option.some.inj hg
            have := unary_spec h1 (f := cube) (fun d hd => cube_small hd)
            refine ⟨fun t => ?_, this.2⟩
            rw [hD, construct, this.1]
            simp
          · obtain rfl : "general".toList = name := Option.some.inj hg
            have := general_spec h2
            refine ⟨fun t => ?_, this.2⟩
            rw [hD, construct, this.1]
            simp
          · obtain rfl : "none".toList = name := Option.some.inj hg
            have := unary_spec h1 (f := fun d => some (noneType d)) (g := fun d => ⟨d, true, 0⟩)
              (fun d hd => by rw [noneType, mk3_eq (by omega) (by omega)])
            refine ⟨fun t => ?_, this.2⟩
            rw [hD, construct, this.1]
            simp
          · obtain rfl : "simplex".toList = name := Option.some.inj hg
            have := unary_spec h1 (f := fun d => some (simplex d)) (g := fun d => ⟨d, false, 0⟩)
              (fun d hd => by rw [simplex, mk3_eq (by omega) (by omega)])
            refine ⟨fun t => ?_, this.2⟩
            rw [hD, construct, this.1]
            simp
        · have hne : l ≠ [] := by
            rintro rfl
            exact hA.ne_nil
          rw [construct_plain i hi h4 l, if_neg hne]
          refine ⟨fun t => ⟨fun h => (nomatch h), fun h => ?_⟩, nofun⟩
          have : ∀ i < 12, ¬ (i = 0 ∨ i = 1 ∨ i = 4 ∨ i = 8) → constructorNames[i]? ≠ some "simplex".toList ∧
              constructorNames[i]? ≠ some "cube".toList ∧ constructorNames[i]? ≠ some "none".toList ∧
              constructorNames[i]? ≠ some "general".toList := by decide +kernel
          obtain ⟨k1, k2, k3, k4⟩ := this i hi h4
          rcases (hD t).1 h with ⟨rfl, -⟩ | ⟨rfl, -⟩ | ⟨rfl, -⟩ | ⟨rfl, -⟩
          · exact absurd hg k1
          · exact absurd hg k2
          · exact absurd hg k3
          · exact absurd hg k4
      · have hA := ((C64_arguments name r []).2).1 hl
        have e : geometryTypeFromString (name ++ '(' :: r) = .error := by
          rw [fromString_call hn rfl hg, hl]
        rw [e]
        refine ⟨fun t => ⟨fun h => (nomatch h), fun h => ?_⟩, nofun⟩
        rcases denotes_call hn h with ⟨h1, a, d, h2, h3⟩ | ⟨h1, a, d, h2, h3⟩ | ⟨h1, a, d, h2, h3⟩ |
          ⟨h1, a, b, i, d, h2, h3⟩
        all_goals exact absurd h2 (hA _)
      · exfalso
        by_cases hx : ∃ l, Args r l
        · obtain ⟨l, hx⟩ := hx
          rw [((C64_arguments name r l).1).2 hx] at hl
          exact nomatch hl
        · rw [((C64_arguments name r []).2).2 (fun l h => hx ⟨l, h⟩)] at hl
          exact nomatch hl
    · have e : geometryTypeFromString (name ++ '(' :: r) = .error := by
        have ef : findFirst (· == '(') (name ++ '(' :: r) 0 = some name.length := by
          have := findFirst_found (p := (· == '(')) [] name r '(' (fun c hc => by
            simp only [beq_eq_false_iff_ne]; rintro rfl; exact hn hc) (by decide)
          simpa using this
        unfold geometryTypeFromString
        simp only [ef]
        rw [substr, List.drop_zero, List.take_left, if_pos (Or.inr hg)]
      rw [e]
      refine ⟨fun t => ⟨fun h => (nomatch h), fun h => ?_⟩, nofun⟩
      rcases denotes_call hn h with ⟨rfl, -⟩ | ⟨rfl, -⟩ | ⟨rfl, -⟩ | ⟨rfl, -⟩
      all_goals exact absurd (by decide +kernel) hg
  · have hD : ∀ t, Denotes s t ↔ (s, t) ∈ plainNames := by
      refine fun t => ⟨fun h => ?_, .plain⟩
      cases h with
      | plain h => exact h
      | _ => exact absurd (by simp) hp
    have ef : findFirst (· == '(') s 0 = none := by
      have := findFirst_none (p := (· == '(')) [] s (fun c hc => by
        simp only [beq_eq_false_iff_ne]; rintro rfl; exact hp hc)
      simpa using this
    have e : geometryTypeFromString s = if constructorNames[lowerBound constructorNames s]? = some s then
        construct (lowerBound constructorNames s) [] else .error := by
      unfold geometryTypeFromString
      simp only [ef]
      by_cases hg : constructorNames[lowerBound constructorNames s]? = some s
      · have hl : lowerBound constructorNames s ≠ constructorNames.length := by
          have := getElem_names hg
          exact fun h => absurd (h ▸ this) (by decide)
        rw [if_neg (by simp [hl, hg]), if_pos hg]
      · rw [if_pos (Or.inr hg), if_neg hg]
    rw [e]
    by_cases hg : constructorNames[lowerBound constructorNames s]? = some s
    · rw [if_pos hg]
      have hi := getElem_names hg
      generalize lowerBound constructorNames s = i at hg hi
      have key : ∀ i < 12, ∀ n, constructorNames[i]? = some n → construct i [] ≠ .ub ∧
          (∀ p ∈ plainNames, p.1 = n → construct i [] = .ok p.2) ∧
          (construct i [] = .error ∨ ∃ p ∈ plainNames, p.1 = n ∧ construct i [] = .ok p.2) := by decide +kernel
      obtain ⟨k1, k2, k3⟩ := key i hi s hg
      refine ⟨fun t => ?_, k1⟩
      rw [hD]
      constructor
      · intro h
        rcases k3 with k3 | ⟨p, hp', rfl, k3⟩
        · rw [k3] at h
          exact nomatch h
        · rw [k3] at h
          injection h with h
          rw [← h]
          exact hp'
      · intro h
        exact k2 _ h rfl
    · rw [if_neg hg]
      refine ⟨fun t => ⟨fun h => (nomatch h), fun h => ?_⟩, nofun⟩
      exact absurd (plain_found _ ((hD t).1 h)).1 hg

theorem smallDim_of {name r : Str} {l : List Str} {a : Str} {v : Nat} (hn : '(' ∉ name) (h : Args r (l ++ [a]))
    (hv : stoul a = some v) (h30 : v ≤ 30) : SmallDim (name ++ '(' :: r) := by
  intro name' r' l' a' v' h1 h2 h3 h4
  obtain ⟨rfl, rfl⟩ := split_unique h1 hn h2
  have := h.unique h3
  rw [List.append_inj' this rfl |>.2 |> List.cons.inj |>.1, h4] at hv
  injection hv with hv
  omega

example : SmallDim "cube( 3 )".toList ∧ Denotes "cube( 3 )".toList ⟨3, false, 7⟩ := by
  have k : argsLoop ("cube".toList ++ '(' :: " 3 )".toList) 10 4 [] = .ok ["3".toList] := by decide +kernel
  have h : SmallDim "cube( 3 )".toList :=
    smallDim_of (name := "cube".toList) (r := " 3 )".toList) (l := []) (a := "3".toList) (v := 3) (by decide)
      (((C64_arguments "cube".toList _ _).1).1 k) (by decide +kernel) (by decide)
  exact ⟨h, ((C64_reads_partial _ h).1 _).1 (by decide +kernel)⟩

/-- C64: numbers are read the usual way: the decimal digits of `n` are read as `n`, whatever non-digit follows -/
theorem C64_numbers (n : Nat) (h : n < 2 ^ 64) (u : Str) (hu : ∀ c ∈ u.head?, isDig c = false) :
    stoul (toDec n ++ u) = some n := by
  obtain ⟨h1, h2, h3⟩ := toDec_spec n
  have ht : (toDec n ++ u).takeWhile isDig = toDec n := by
    rw [List.takeWhile_append_of_pos h2]
    rcases u with _ | ⟨c, u⟩
    · simp
    · rw [List.takeWhile_cons_of_neg (by simp [hu c (by simp)])]
      simp
  obtain ⟨c, v, e⟩ := List.exists_cons_of_ne_nil h1
  have hc : isDig c = true := h2 c (by rw [e]; simp)
  have hs : isSpace c = false := by
    have hc' : 48 ≤ c.toNat ∧ c.toNat ≤ 57 := by simpa [isDig] using hc
    simp only [isSpace, Bool.or_eq_false_iff, beq_eq_false_iff_ne, Bool.and_eq_false_iff, decide_eq_false_iff_not]
    constructor <;> omega
  have n1 : c ≠ '-' := by rintro rfl; revert hc; decide
  have n2 : c ≠ '+' := by rintro rfl; revert hc; decide
  rw [e] at ht h3 ⊢
  unfold stoul
  rw [List.cons_append, List.dropWhile_cons_of_neg (by simp [hs])]
  rw [List.cons_append] at ht
  dsimp only
  split
  · rename_i h; exact absurd (List.cons.inj h).1 n1
  · rename_i h; exact absurd (List.cons.inj h).1 n2
  · simp only [ht]
    rw [if_neg (by simp), h3, if_neg (by omega)]
    simp

example : stoul "12x".toList = some 12 ∧ stoul "x".toList = none ∧ stoul "99999999999999999999".toList = none ∧
    stoul "-1".toList = some (2 ^ 64 - 1) := by decide +kernel

/-- C64: what happens beyond: the written number is taken modulo 2³², so that distinct numbers are read as the same type -/
theorem C64_wraps (d : Nat) (hd : d < 2 ^ 64) :
    geometryTypeFromString ("cube(".toList ++ toDec d ++ ")".toList) = .ofOption (cube (d % 2 ^ 32)) ∧
    geometryTypeFromString ("simplex(".toList ++ toDec d ++ ")".toList) = .ok (simplex (d % 2 ^ 32)) ∧
    geometryTypeFromString ("none(".toList ++ toDec d ++ ")".toList) = .ok (noneType (d % 2 ^ 32)) := by
  refine ⟨?_, ?_, ?_⟩
  · have h := fromString_ok (name := "cube".toList) (i := 0) (by decide) (by decide) (by decide) (args_one d)
    rw [show "cube(".toList ++ toDec d ++ ")".toList = "cube".toList ++ '(' :: (toDec d ++ ")".toList) by simp, h]
    simp only [construct, unary, stoul_toDec hd]
  · have h := fromString_ok (name := "simplex".toList) (i := 8) (by decide) (by decide) (by decide) (args_one d)
    rw [show "simplex(".toList ++ toDec d ++ ")".toList = "simplex".toList ++ '(' :: (toDec d ++ ")".toList) by simp, h]
    simp only [construct, unary, stoul_toDec hd, Res.ofOption]
  · have h := fromString_ok (name := "none".toList) (i := 4) (by decide) (by decide) (by decide) (args_one d)
    rw [show "none(".toList ++ toDec d ++ ")".toList = "none".toList ++ '(' :: (toDec d ++ ")".toList) by simp, h]
    simp only [construct, unary, stoul_toDec hd, Res.ofOption]

-- 2³² + 2 is read as dimension 2
example : geometryTypeFromString "cube(4294967298)".toList = .ofOption (cube 2) := by decide +kernel

end Verif.Py
