import Verif.Type.Lemmas

/-!
Properties C01 – C07 (types, type indices, dispatch).  The vocabulary of the statements is
independent of the implementation: a regular type of dimension `dim` is described by the
construction bits `1 ≤ k < dim` of its topology id.
-/

namespace Verif.Typ

/-- Specification: a regular type of dimension `d` with a topology id that is valid for it. -/
structure Regular (g : GeometryType) : Prop where
  notNone : g.isNone = false
  valid : g.id < 2 ^ g.dim

/-- Specification: the types that occur in dimension `d`: the regular ones and the none type. -/
def OfDim (d : Nat) (g : GeometryType) : Prop :=
  g.dim = d ∧ (g.isNone = true ∨ g.id < 2 ^ d)

instance (d : Nat) (g : GeometryType) : Decidable (OfDim d g) := by unfold OfDim; infer_instance

/-- Specification: two regular types describe the same shape: same dimension and the same
construction (prism or pyramid) in every step except the very first, where both agree. -/
def SameShape (a b : GeometryType) : Prop :=
  a.dim = b.dim ∧ ∀ k, 1 ≤ k → a.id.testBit k = b.id.testBit k

/-! ### C01 -/

/-- C01: conversion to the 64 bit Id and back is the identity. -/
theorem C01_roundtrip (g : GeometryType) (h : g.InRange) : ofId (toId g) = g := ofId_toId h

/-- C01: the Id fits 64 bits and has the documented layout. -/
theorem C01_layout (g : GeometryType) (h : g.InRange) :
    toId g = g.dim + 2 ^ 8 * (cond g.isNone 1 0) + 2 ^ 32 * g.id ∧ toId g < 2 ^ 64 := by
  refine ⟨toId_layout h, ?_⟩
  rw [toId_layout h]
  obtain ⟨h1, h2⟩ := h
  cases g.isNone <;> simp <;> omega

/-- C01: different types have different Ids. -/
theorem C01_injective (a b : GeometryType) (ha : a.InRange) (hb : b.InRange) (h : toId a = toId b) :
    a = b := by
  rw [← ofId_toId ha, ← ofId_toId hb, h]

example : (⟨3, false, 0b0101⟩ : GeometryType).InRange ∧ toId ⟨3, false, 0b0101⟩ = 3 + 5 * 2 ^ 32 := by
  decide

/-! ### C02 -/

/-- C02: `==` on regular types is exactly "same shape". -/
theorem C02_eq_spec (a b : GeometryType) (ha : a.isNone = false) (hb : b.isNone = false) :
    eq a b = true ↔ SameShape a b := by
  rw [eq_iff, ha, hb, half_eq_iff]
  simp only [Bool.false_eq_true, false_or, true_and, SameShape]
  constructor
  · rintro ⟨h1, h2⟩; exact ⟨h1, fun k hk => h2 k hk⟩
  · rintro ⟨h1, h2⟩; exact ⟨h1, fun k hk => h2 k hk⟩

/-- C02: `==` is an equivalence relation (on all types) and `!=` its negation. -/
theorem C02_eq_equivalence :
    (∀ a, eq a a = true) ∧ (∀ a b, eq a b = true → eq b a = true) ∧
    (∀ a b c, eq a b = true → eq b c = true → eq a c = true) ∧ (∀ a b, ne a b = !(eq a b)) := by
  refine ⟨?_, ?_, ?_, ?_⟩
  · intro a; rw [eq_iff]; simp
  · intro a b; rw [eq_iff, eq_iff]; rintro ⟨h1, h2⟩
    refine ⟨h1.symm, ?_⟩
    rcases h2 with h2 | ⟨h2, h3⟩
    · exact Or.inl (h1 ▸ h2)
    · exact Or.inr ⟨h2.symm, h3.symm⟩
  · intro a b c; rw [eq_iff, eq_iff, eq_iff]
    rintro ⟨h1, h2⟩ ⟨h3, h4⟩
    refine ⟨h1.trans h3, ?_⟩
    rcases h2 with h2 | ⟨h2, h2'⟩
    · exact Or.inl h2
    · rcases h4 with h4 | ⟨h4, h4'⟩
      · exact Or.inl (h1.trans h4)
      · exact Or.inr ⟨h2.trans h4, h2'.trans h4'⟩
  · intro a b; rfl

/-- C02: `<` is a strict weak order (on all types): irreflexive, transitive, and
incomparability is transitive. -/
theorem C02_lt_strict_weak :
    (∀ a, lt a a = false) ∧ (∀ a b c, lt a b = true → lt b c = true → lt a c = true) ∧
    (∀ a b c, lt a b = false → lt b a = false → lt b c = false → lt c b = false →
      lt a c = false ∧ lt c a = false) := by
  refine ⟨?_, ?_, ?_⟩
  · intro a
    rw [Bool.eq_false_iff, Ne, lt_iff]
    cases a.isNone <;> simp
  · intro a b c
    rw [lt_iff, lt_iff, lt_iff]
    cases a.isNone <;> cases b.isNone <;> cases c.isNone <;> simp <;> omega
  · intro a b c
    simp only [Bool.eq_false_iff, Ne, lt_iff]
    cases a.isNone <;> cases b.isNone <;> cases c.isNone <;> simp <;> omega

/-- Full statement of C02, agreement part: `<`-equivalence is `==`. -/
def C02_agreement_full : Prop :=
  ∀ a b : GeometryType, (lt a b = false ∧ lt b a = false) ↔ eq a b = true

/-- Full statement of C02, documented promise for none types (type.hh:126). -/
def C02_none_promise_full : Prop :=
  ∀ d e : Nat, d < 2 ^ 8 → e < 2 ^ 8 → (eq (noneType d) (noneType e) = true ↔ d = e)

/-- C02 is violated by the code: none types of different dimension compare `==` although one is
`<` the other, and although the documentation promises inequality. -/
theorem C02_counterexample : ¬ C02_agreement_full ∧ ¬ C02_none_promise_full := by
  constructor
  · intro h
    have := (h (noneType 0) (noneType 1)).2 (by decide)
    revert this; decide
  · intro h
    have := (h 0 1 (by decide) (by decide)).1 (by decide)
    omega

/-- C02 for every pair except two none types: `<` and `==` agree. -/
theorem C02_agreement_partial (a b : GeometryType) (h : ¬ (a.isNone = true ∧ b.isNone = true)) :
    (lt a b = false ∧ lt b a = false) ↔ eq a b = true := by
  simp only [Bool.eq_false_iff, Ne, lt_iff, eq_iff]
  revert h
  cases a.isNone <;> cases b.isNone <;> simp <;> omega

example : ¬ ((simplex 3).isNone = true ∧ (noneType 3).isNone = true) ∧ lt (simplex 3) (noneType 3) = true := by
  decide

/-! ### C03 -/

/-- C03: each named predicate recognises exactly the types that compare equal to the named
constant. -/
theorem C03_named (g : GeometryType) :
    isTriangle g = eq g triangle ∧ some (isQuadrilateral g) = quadrilateral.map (eq g) ∧
    isTetrahedron g = eq g tetrahedron ∧ isPyramid g = eq g pyramid ∧ isPrism g = eq g prism ∧
    some (isHexahedron g) = hexahedron.map (eq g) := by
  have q : quadrilateral = some ⟨2, false, 3⟩ := by decide
  have x : hexahedron = some ⟨3, false, 7⟩ := by decide
  have t : triangle = ⟨2, false, 0⟩ := by decide
  have te : tetrahedron = ⟨3, false, 0⟩ := by decide
  have py : pyramid = ⟨3, false, 3⟩ := by decide
  have pr : prism = ⟨3, false, 5⟩ := by decide
  rw [q, x, t, te, py, pr]
  simp only [Option.map_some, Option.some.injEq, isTriangle, isQuadrilateral, isTetrahedron, isPyramid,
    isPrism, isHexahedron, eq, or_one_eq, shr_one]
  have key : ∀ m : Nat, (2 * (g.id / 2) + 1 == 2 * m + 1) = (g.id / 2 == m) := by
    intro m
    rw [Bool.eq_iff_iff]; simp
  have k0 : (2 * (g.id / 2) + 1 == 0b0001) = (g.id / 2 == 0 / 2) := key 0
  have k1 : (2 * (g.id / 2) + 1 == 0b0011) = (g.id / 2 == 3 / 2) := key 1
  have k2 : (2 * (g.id / 2) + 1 == 0b0101) = (g.id / 2 == 5 / 2) := key 2
  have k3 : (2 * (g.id / 2) + 1 == 0b0111) = (g.id / 2 == 7 / 2) := key 3
  rw [k0, k1, k2, k3]
  cases g.isNone <;> refine ⟨?_, ?_, ?_, ?_, ?_, ?_⟩ <;> rfl

/-- C03: `isSimplex` recognises the simplex of the type's dimension. -/
theorem C03_isSimplex (g : GeometryType) (h : g.dim < 2 ^ 8) : isSimplex g = eq g (simplex g.dim) := by
  have : simplex g.dim = ⟨g.dim, false, 0⟩ := mk3_eq (by omega) h
  rw [this]
  simp only [isSimplex, eq, or_one_eq, shr_one]
  have key : (2 * (g.id / 2) + 1 == 1) = (g.id / 2 == 0) := by
    rw [Bool.eq_iff_iff]; simp
  rw [key]
  cases g.isNone <;> simp

/-- C03: `isSimplex` in terms of the construction: a pyramid in every step but the first. -/
theorem C03_isSimplex_spec (g : GeometryType) (h : Regular g) :
    isSimplex g = true ↔ ∀ k, 1 ≤ k → k < g.dim → g.id.testBit k = false := by
  have : isSimplex g = true ↔ g.id / 2 = 0 / 2 := by
    simp [isSimplex, h.notNone, or_one_eq]
  rw [this, half_eq_iff]
  constructor
  · intro H k hk _; simpa using H k hk
  · intro H k hk
    by_cases hk' : k < g.dim
    · simpa using H k hk hk'
    · have : g.id < 2 ^ k := lt_of_lt_of_le h.valid (Nat.pow_le_pow_right (by omega) (by omega))
      simp [Nat.testBit_lt_two_pow this]

/-- C03: `isCube` in terms of the construction: a prism in every step but the first.  Defined (no
undefined behaviour) for every regular type of dimension at most 30. -/
theorem C03_isCube_spec (g : GeometryType) (h : Regular g) (hd : g.dim ≤ 30) :
    ∃ b, isCube g = some b ∧ (b = true ↔ ∀ k, 1 ≤ k → k < g.dim → g.id.testBit k = true) := by
  refine ⟨_, isCube_eq h.notNone hd, ?_⟩
  have : ((g.id ^^^ (2 ^ g.dim - 1)) >>> 1 == 0) = true ↔ (g.id ^^^ (2 ^ g.dim - 1)) / 2 = 0 / 2 := by
    simp [shr_one]
  rw [this, half_eq_iff]
  have hb : ∀ k, (g.id ^^^ (2 ^ g.dim - 1)).testBit k = (g.id.testBit k ^^ decide (k < g.dim)) := by
    intro k; rw [Nat.testBit_xor, Nat.testBit_two_pow_sub_one]
  constructor
  · intro H k hk hk'
    have := H k hk
    rw [hb] at this
    simpa [hk'] using this
  · intro H k hk
    rw [hb]
    by_cases hk' : k < g.dim
    · simp [H k hk hk', hk']
    · have : g.id < 2 ^ k := lt_of_lt_of_le h.valid (Nat.pow_le_pow_right (by omega) (by omega))
      simp [Nat.testBit_lt_two_pow this, hk']

/-- C03: `isCube` recognises the cube of the type's dimension. -/
theorem C03_isCube (g : GeometryType) (h : Regular g) (hd : g.dim ≤ 30) :
    isCube g = (cube g.dim).map (eq g) := by
  obtain ⟨b, hb, hs⟩ := C03_isCube_spec g h hd
  have hp := pow_le_30 hd
  by_cases h1 : 1 < g.dim
  · have hc := cube_eq hd h1
    rw [mk3_eq (by omega) (by omega)] at hc
    rw [hc, hb, Option.map_some, Option.some.injEq, Bool.eq_iff_iff, hs,
      C02_eq_spec _ _ h.notNone rfl, SameShape]
    simp only [true_and, Nat.testBit_two_pow_sub_one]
    constructor
    · intro H k hk
      by_cases hk' : k < g.dim
      · simp [H k hk hk', hk']
      · have : g.id < 2 ^ k := lt_of_lt_of_le h.valid (Nat.pow_le_pow_right (by omega) (by omega))
        simp [Nat.testBit_lt_two_pow this, hk']
    · intro H k hk hk'
      simpa [hk'] using H k hk
  · have hc : cube g.dim = some ⟨g.dim, false, 0⟩ := by
      unfold cube; rw [if_neg h1, mk3_eq (by omega) (by omega)]
    rw [hc, hb, Option.map_some, Option.some.injEq]
    have e1 : b = true := hs.2 (fun k hk hk' => by omega)
    rw [e1, eq_comm, eq_iff]
    refine ⟨h.notNone, Or.inr ⟨rfl, ?_⟩⟩
    have := h.valid
    have : 2 ^ g.dim ≤ 2 ^ 1 := Nat.pow_le_pow_right (by omega) (by omega)
    simp only; omega

/-- C03: simplex and cube coincide exactly in dimension 0 and 1. -/
theorem C03_simplex_cube_exclusive (g : GeometryType) (h : Regular g) (hd : g.dim ≤ 30) :
    (isSimplex g = true ∧ isCube g = some true) ↔ g.dim ≤ 1 := by
  obtain ⟨b, hb, hs⟩ := C03_isCube_spec g h hd
  rw [C03_isSimplex_spec g h, hb, Option.some.injEq, hs]
  constructor
  · rintro ⟨h1, h2⟩
    by_contra hc
    have a := h1 1 (by omega) (by omega)
    have b := h2 1 (by omega) (by omega)
    rw [a] at b; cases b
  · intro hc
    exact ⟨fun k hk hk' => by omega, fun k hk hk' => by omega⟩

/-- C03: in dimension 3 the four named shapes exclude each other and are all there is. -/
theorem C03_dim3_exhaustive (g : GeometryType) (h : Regular g) (hd : g.dim = 3) :
    (isTetrahedron g = true ∨ isPyramid g = true ∨ isPrism g = true ∨ isHexahedron g = true) ∧
    ([isTetrahedron g, isPyramid g, isPrism g, isHexahedron g].count true = 1) := by
  have hv := h.valid
  rw [hd] at hv
  obtain ⟨d, n, i⟩ := g
  have := h.notNone
  simp only at hd this hv
  subst hd this
  have : i < 8 := by omega
  revert this
  have : ∀ i < 8, ((isTetrahedron ⟨3, false, i⟩ = true ∨ isPyramid ⟨3, false, i⟩ = true ∨
      isPrism ⟨3, false, i⟩ = true ∨ isHexahedron ⟨3, false, i⟩ = true) ∧
    ([isTetrahedron ⟨3, false, i⟩, isPyramid ⟨3, false, i⟩, isPrism ⟨3, false, i⟩,
      isHexahedron ⟨3, false, i⟩].count true = 1)) := by decide
  exact this i

/-- Full statement for `isVertex`, `isLine`. -/
def C03_vertex_line_full : Prop :=
  ∀ g : GeometryType, OfDim g.dim g → isVertex g = eq g vertex ∧ isLine g = eq g line

/-- C03 fails for the none types: `isVertex`/`isLine` do not test the none flag, unlike all other
predicates. -/
theorem C03_vertex_line_counterexample : ¬ C03_vertex_line_full := by
  intro h
  have := (h (noneType 0) (by decide)).1
  revert this; decide

/-- C03 for `isVertex`, `isLine` on regular types.  Missing: none types, where it is false. -/
theorem C03_vertex_line_partial (g : GeometryType) (h : Regular g) :
    isVertex g = eq g vertex ∧ isLine g = eq g line := by
  have v : vertex = ⟨0, false, 0⟩ := by decide
  have l : line = ⟨1, false, 0⟩ := by decide
  have hn := h.notNone
  have hv := h.valid
  rw [v, l]
  constructor <;> rw [Bool.eq_iff_iff, eq_iff] <;>
  simp only [isVertex, isLine, hn, beq_iff_eq, true_and, Bool.false_eq_true, false_or, Nat.zero_div,
    iff_self_and] <;> intro h0 <;> rw [h0] at hv <;> omega

example : Regular ⟨4, false, 0b1010⟩ ∧ (⟨4, false, 0b1010⟩ : GeometryType).dim ≤ 30 :=
  ⟨⟨rfl, by decide⟩, by decide⟩
example : isCube ⟨3, false, 7⟩ = some true ∧ isSimplex ⟨3, false, 7⟩ = false ∧
    isCube ⟨31, false, 7⟩ = none := by decide

/-! ### C04 -/

/-- C04: the base of the conical extension is the type itself; the extension is conical, one
dimension higher, and prismatic only if it is a line. -/
theorem C04_conical (g : GeometryType) (h : Regular g) (hd : g.dim ≤ 30) :
    let e := conicalExtension g
    Regular e ∧ e.dim = g.dim + 1 ∧ getBase e = some g ∧ isConical e = some true ∧
      isPrismatic e = some (decide (g.dim = 0)) := by
  have hp := pow_le_30 hd
  have hv := h.valid
  have he : conicalExtension g = ⟨g.dim + 1, false, g.id⟩ := by
    unfold conicalExtension; rw [mk3_eq (by omega) (by omega), h.notNone]
  have hr : Regular (conicalExtension g) := by
    rw [he]; refine ⟨rfl, ?_⟩; simp only [pow_succ]; omega
  simp only
  refine ⟨hr, by rw [he], ?_, ?_, ?_⟩
  · rw [he, getBase_eq (by simp) (by simp; omega)]
    simp only [Nat.add_sub_cancel]
    rw [Nat.mod_eq_of_lt hv, mk3_eq (by omega) (by omega)]
    have hn := h.notNone
    cases g; simp_all
  · rw [isConical_eq hr.notNone (by rw [he]; simp) (by rw [he]; simp; omega), he]
    simp [Nat.testBit_lt_two_pow hv]
  · rw [isPrismatic_eq hr.notNone (by rw [he]; simp) (by rw [he]; simp; omega), he]
    simp [Nat.testBit_lt_two_pow hv]

/-- C04: same for the prismatic extension. -/
theorem C04_prismatic (g : GeometryType) (h : Regular g) (hd : g.dim ≤ 30) :
    ∃ e, prismaticExtension g = some e ∧
    Regular e ∧ e.dim = g.dim + 1 ∧ getBase e = some g ∧ isPrismatic e = some true ∧
      isConical e = some (decide (g.dim = 0)) := by
  have hp := pow_le_30 hd
  have hv := h.valid
  have hor : g.id ||| 2 ^ g.dim = 2 ^ g.dim + g.id := by
    have := Nat.shiftLeft_add_eq_or_of_lt hv 1
    rw [Nat.one_shiftLeft] at this
    rw [Nat.or_comm, ← this]
  have he : prismaticExtension g = some ⟨g.dim + 1, false, 2 ^ g.dim + g.id⟩ := by
    rw [prismaticExtension_eq hd, hor, mk3_eq (by omega) (by omega), h.notNone]
  refine ⟨_, he, ?_⟩
  have hr : Regular ⟨g.dim + 1, false, 2 ^ g.dim + g.id⟩ := by
    refine ⟨rfl, ?_⟩; simp only [pow_succ]; omega
  have hbit : (2 ^ g.dim + g.id).testBit g.dim = true := by
    rw [Nat.testBit_two_pow_add_eq, Nat.testBit_lt_two_pow hv]; rfl
  refine ⟨hr, rfl, ?_, ?_, ?_⟩
  · rw [getBase_eq (by simp) (by simp; omega)]
    simp only [Nat.add_sub_cancel]
    rw [Nat.add_mod_left, Nat.mod_eq_of_lt hv, mk3_eq (by omega) (by omega)]
    have hn := h.notNone
    cases g; simp_all
  · rw [isPrismatic_eq hr.notNone (by simp) (by simp; omega)]
    simp [hbit]
  · rw [isConical_eq hr.notNone (by simp) (by simp; omega)]
    simp [hbit]

/-- C04: every regular type of positive dimension is the conical or the prismatic extension of its
base; which one is told by `isConical`/`isPrismatic`. -/
theorem C04_decompose (e : GeometryType) (h : Regular e) (h0 : 0 < e.dim) (hd : e.dim ≤ 31) :
    ∃ b, getBase e = some b ∧ Regular b ∧ b.dim + 1 = e.dim ∧
      (isConical e = some true → eq e (conicalExtension b) = true) ∧
      (isPrismatic e = some true → ∃ p, prismaticExtension b = some p ∧ eq e p = true) ∧
      (isConical e = some true ∨ isPrismatic e = some true) := by
  obtain ⟨d, hd1⟩ : ∃ d, e.dim = d + 1 := ⟨e.dim - 1, by omega⟩
  have hp : 2 ^ d ≤ 2 ^ 30 := pow_le_30 (d := d) (by omega)
  have hv := h.valid
  rw [hd1] at hv
  have hlt : e.id % 2 ^ d < 2 ^ d := Nat.mod_lt _ (Nat.two_pow_pos d)
  have hb : getBase e = some ⟨d, false, e.id % 2 ^ d⟩ := by
    rw [getBase_eq h0 hd, h.notNone, hd1, Nat.add_sub_cancel, mk3_eq (by omega) (by omega)]
  have hrb : Regular ⟨d, false, e.id % 2 ^ d⟩ := ⟨rfl, hlt⟩
  refine ⟨_, hb, hrb, hd1.symm, ?_, ?_, ?_⟩
  · intro hc
    rw [isConical_eq h.notNone h0 (by omega), hd1, Nat.add_sub_cancel] at hc
    have he : conicalExtension ⟨d, false, e.id % 2 ^ d⟩ = ⟨d + 1, false, e.id % 2 ^ d⟩ := by
      unfold conicalExtension; exact mk3_eq (by simp only; omega) (by simp only; omega)
    rw [he, C02_eq_spec _ _ h.notNone rfl]
    refine ⟨hd1, fun k hk => ?_⟩
    simp only [Nat.testBit_mod_two_pow]
    by_cases hkd : k < d
    · simp [hkd]
    · by_cases hkd' : k = d
      · subst hkd'
        have : k ≠ 0 := by omega
        simp [this] at hc
        simp [hc]
      · have : e.id < 2 ^ k := lt_of_lt_of_le hv (Nat.pow_le_pow_right (by omega) (by omega))
        simp [Nat.testBit_lt_two_pow this]
  · intro hc
    rw [isPrismatic_eq h.notNone h0 (by omega), hd1, Nat.add_sub_cancel] at hc
    refine ⟨_, prismaticExtension_eq (by simp only; omega), ?_⟩
    have hb2 : (e.id % 2 ^ d ||| 2 ^ d) < 2 ^ (d + 1) :=
      Nat.or_lt_two_pow (by rw [pow_succ]; omega) (by rw [pow_succ]; omega)
    rw [pow_succ] at hb2
    simp only
    rw [mk3_eq (by omega) (by omega)]
    rw [C02_eq_spec _ _ h.notNone rfl]
    refine ⟨hd1, fun k hk => ?_⟩
    simp only [Nat.testBit_mod_two_pow, Nat.testBit_or, Nat.testBit_two_pow]
    by_cases hkd : k < d
    · simp [hkd]; omega
    · by_cases hkd' : k = d
      · subst hkd'
        have : k ≠ 0 := by omega
        simp [this] at hc
        simp [hc]
      · have : e.id < 2 ^ k := lt_of_lt_of_le hv (Nat.pow_le_pow_right (by omega) (by omega))
        simp [Nat.testBit_lt_two_pow this, Ne.symm hkd', hkd]
  · rw [isConical_eq h.notNone h0 (by omega), isPrismatic_eq h.notNone h0 (by omega)]
    cases e.id.testBit (e.dim - 1) <;> simp

/-- specification: the type made from a vertex by a sequence of extensions (`true`: prismatic), the last one first -/
def built : List Bool → Option GeometryType
  | [] => some vertex
  | b :: l => (built l).bind fun g => if b then prismaticExtension g else some (conicalExtension g)

theorem built_spec : ∀ (l : List Bool), l.length ≤ 31 → ∃ g, built l = some g ∧ Regular g ∧ g.dim = l.length ∧
    ∀ k (hk : k < l.length), g.id.testBit k = l[l.length - 1 - k]
  | [], _ => ⟨vertex, rfl, ⟨rfl, by decide⟩, rfl, fun k hk => absurd hk (by simp)⟩
  | b :: l, hl => by
    have hl' : l.length ≤ 30 := by simpa using hl
    obtain ⟨g, h1, h2, h3, h4⟩ := built_spec l (by omega)
    have hd : g.dim ≤ 30 := by omega
    have hp := pow_le_30 hd
    have hv := h2.valid
    cases b with
    | false =>
      have he : conicalExtension g = ⟨g.dim + 1, false, g.id⟩ := by
        unfold conicalExtension; rw [mk3_eq (by omega) (by omega), h2.notNone]
      refine ⟨conicalExtension g, by simp [built, h1], (C04_conical g h2 hd).1, by rw [he]; simp [h3], fun k hk => ?_⟩
      rw [he]
      show g.id.testBit k = _
      by_cases hkl : k < l.length
      · rw [h4 k hkl, List.getElem_cons, dif_neg (by simp; omega)]
        congr 1; simp; omega
      · have hkl' : k = l.length := by simp at hk; omega
        rw [List.getElem_cons, dif_pos (by simp; omega), hkl', ← h3, Nat.testBit_lt_two_pow hv]
    | true =>
      have hor : g.id ||| 2 ^ g.dim = 2 ^ g.dim + g.id := by
        have := Nat.shiftLeft_add_eq_or_of_lt hv 1
        rw [Nat.one_shiftLeft] at this
        rw [Nat.or_comm, ← this]
      have he : prismaticExtension g = some ⟨g.dim + 1, false, 2 ^ g.dim + g.id⟩ := by
        rw [prismaticExtension_eq hd, hor, mk3_eq (by omega) (by omega), h2.notNone]
      have hr : Regular ⟨g.dim + 1, false, 2 ^ g.dim + g.id⟩ := by
        refine ⟨rfl, ?_⟩; simp only [pow_succ]; omega
      refine ⟨_, by simp [built, h1, he], hr, by simp [h3], fun k hk => ?_⟩
      show (2 ^ g.dim + g.id).testBit k = _
      by_cases hkl : k < l.length
      · rw [Nat.testBit_two_pow_add_gt (by omega), h4 k hkl, List.getElem_cons, dif_neg (by simp; omega)]
        congr 1; simp; omega
      · have hkl' : k = l.length := by simp at hk; omega
        rw [List.getElem_cons, dif_pos (by simp; omega), hkl', ← h3, Nat.testBit_two_pow_add_eq,
          Nat.testBit_lt_two_pow hv]
        rfl

/-- C04: `isPrismatic(step)` and `isConical(step)` tell which extension was applied in that step; the first one makes
a line from a vertex and counts as both.  A step outside `0 ≤ step < 32` is undefined. -/
theorem C04_steps (l : List Bool) (hl : l.length ≤ 31) : ∃ g, built l = some g ∧ Regular g ∧ g.dim = l.length ∧
    (∀ k (hk : k < l.length),
      isPrismaticStep g k = some (decide (k = 0) || l[l.length - 1 - k]) ∧
      isConicalStep g k = some (decide (k = 0) || !l[l.length - 1 - k])) ∧
    (∀ k : Int, k < 0 ∨ 32 ≤ k → isPrismaticStep g k = none ∧ isConicalStep g k = none) ∧
    (0 < g.dim → isPrismatic g = isPrismaticStep g (g.dim - 1) ∧ isConical g = isConicalStep g (g.dim - 1)) := by
  obtain ⟨g, h1, h2, h3, h4⟩ := built_spec l hl
  refine ⟨g, h1, h2, h3, fun k hk => ?_, fun k hk => ?_, fun _ => ⟨rfl, rfl⟩⟩
  · have hs : shl1u (k : Int) = some (2 ^ k) := by
      unfold shl1u; rw [if_pos (by omega)]; simp
    unfold isPrismaticStep isConicalStep
    rw [h2.notNone, hs]
    simp only [Bool.false_eq_true, if_false, Option.bind_eq_bind, Option.bind_some, Option.pure_def]
    rw [and_two_pow_ne_zero, testBit_or_one, and_two_pow_eq_zero, testBit_clearBit0, h4 k hk]
    refine ⟨rfl, ?_⟩
    by_cases h0 : k = 0
    · simp [h0]
    · have : 0 < k := by omega
      simp [h0, this]
  · have hs : shl1u k = none := by
      unfold shl1u; rw [if_neg (by omega)]
    unfold isPrismaticStep isConicalStep
    rw [h2.notNone, hs]
    exact ⟨rfl, rfl⟩

/-- C04: every regular type of dimension at most 31 arises in this way. -/
theorem C04_steps_all (g : GeometryType) (h : Regular g) (hd : g.dim ≤ 31) :
    ∃ l g', l.length = g.dim ∧ built l = some g' ∧ eq g g' = true := by
  obtain ⟨g', h1, h2, h3, h4⟩ := built_spec ((List.range g.dim).reverse.map g.id.testBit) (by simpa using hd)
  refine ⟨_, g', by simp, h1, ?_⟩
  simp at h3 h4
  rw [C02_eq_spec _ _ h.notNone h2.notNone]
  refine ⟨h3.symm, fun k _ => ?_⟩
  by_cases hk : k < g.dim
  · rw [h4 k hk]
    congr 1
    omega
  · have e1 : g.id < 2 ^ k := lt_of_lt_of_le h.valid (Nat.pow_le_pow_right (by omega) (by omega))
    have e2 : g'.id < 2 ^ k := lt_of_lt_of_le h2.valid (Nat.pow_le_pow_right (by omega) (by omega))
    rw [Nat.testBit_lt_two_pow e1, Nat.testBit_lt_two_pow e2]

example : built [true, false, true] = some prism ∧ built [false, true, true] = some pyramid ∧
    isPrismaticStep prism 2 = some true ∧ isConicalStep prism 2 = some false := by decide

/-- C04: at dimension 0 `isConical()`, `isPrismatic()` and `getBase` are undefined (negative
shift). -/
theorem C04_vertex_undefined : isConical vertex = none ∧ isPrismatic vertex = none ∧ getBase vertex = none := by
  decide

example : Regular ⟨3, false, 0b101⟩ ∧ prismaticExtension ⟨2, false, 1⟩ = some ⟨3, false, 0b101⟩ :=
  ⟨⟨rfl, by decide⟩, by decide⟩

/-! ### C05 -/

/-- C05: for every dimension up to 30 there is a number `n = size(dim)` such that `index` maps the
types of that dimension (up to `==`) injectively into `0..n-1`, and `type` is the inverse. -/
theorem C05_bijection (d : Nat) (hd : d ≤ 30) :
    ∃ n, localSize d = some n ∧ n = 2 ^ d - 2 ^ d / 2 + 1 ∧
      (∀ g, OfDim d g → ∃ i t, localIndex g = some i ∧ i < n ∧ localType d i = some t ∧ eq t g = true) ∧
      (∀ i, i < n → ∃ t, localType d i = some t ∧ OfDim d t ∧ localIndex t = some i) ∧
      (∀ a b, OfDim d a → OfDim d b → (eq a b = true ↔ localIndex a = localIndex b)) := by
  have hp := pow_le_30 hd
  have hp0 : 0 < 2 ^ d := Nat.two_pow_pos d
  have hrs := regularSize_eq hd
  have hls : localSize d = some (2 ^ d - 2 ^ d / 2 + 1) := by
    unfold localSize; rw [hrs]; rfl
  have hlt : ∀ i, localType d i =
      some (if i = 2 ^ d - 2 ^ d / 2 then noneType d else mk2 ((i <<< 1) % 2 ^ 32) d) := by
    intro i; unfold localType; rw [hrs]; rfl
  have hli : ∀ g, OfDim d g → localIndex g =
      some (if g.isNone then 2 ^ d - 2 ^ d / 2 else g.id / 2) := by
    intro g hg
    unfold localIndex
    rw [hg.1, hrs, shr_one]
    cases g.isNone <;> simp
  have hreg : ∀ g, OfDim d g → g.isNone = false → g.id / 2 < 2 ^ d - 2 ^ d / 2 := by
    intro g hg hn
    have := hg.2.resolve_left (by simp [hn])
    exact half_lt_pow this
  refine ⟨_, hls, rfl, ?_, ?_, ?_⟩
  · intro g hg
    refine ⟨_, _, hli g hg, ?_, hlt _, ?_⟩
    · cases hn : g.isNone
      · have := hreg g hg hn; simp; omega
      · simp
    · cases hn : g.isNone
      · have h1 := hreg g hg hn
        have hgd := hg.1
        simp only [Bool.false_eq_true, if_false]
        rw [if_neg (by omega), Nat.shiftLeft_eq, mk2, mk3_eq (by omega) (by omega), eq_iff]
        refine ⟨by simp [hn], Or.inr ⟨hgd.symm, ?_⟩⟩
        simp only; omega
      · rw [if_pos rfl, if_pos rfl, eq_iff]
        simp [noneType, mk3, hn]
  · intro i hi
    refine ⟨_, hlt i, ?_⟩
    by_cases hin : i = 2 ^ d - 2 ^ d / 2
    · rw [if_pos hin]
      have hn : OfDim d (noneType d) := ⟨by simp only [noneType, mk3]; omega, Or.inl rfl⟩
      refine ⟨hn, ?_⟩
      rw [hli _ hn, hin]; rfl
    · rw [if_neg hin, Nat.shiftLeft_eq, mk2]
      have hi2 : i < 2 ^ d - 2 ^ d / 2 := by omega
      rw [mk3_eq (by omega) (by omega)]
      have hio : i * 2 < 2 ^ d := by
        cases d with
        | zero => simp at hi2; omega
        | succ d => rw [pow_succ] at *; omega
      have hn : OfDim d ⟨d, false, (i * 2 ^ 1) % 2 ^ 32⟩ := ⟨rfl, Or.inr (by simp only; omega)⟩
      refine ⟨hn, ?_⟩
      rw [hli _ hn]
      simp only [Bool.false_eq_true, if_false, Option.some.injEq]
      omega
  · intro a b ha hb
    rw [hli a ha, hli b hb, eq_iff, Option.some.injEq]
    cases hna : a.isNone <;> cases hnb : b.isNone
    · simp [ha.1, hb.1]
    · have := hreg a ha hna; simp; omega
    · have := hreg b hb hnb; simp; omega
    · simp

example : OfDim 3 pyramid ∧ localIndex pyramid = some 1 ∧ localIndex (noneType 3) = some 4 ∧
    localSize 3 = some 5 := by decide

/-- C05: dimension 31 is the first one where the `int` arithmetic gives a wrong size. -/
theorem C05_dim31 : regularSize 31 = some (2 ^ 64 - 2 ^ 30) ∧ regularSize 32 = none := by decide

/-! ### C06 -/

theorem offset_eq {d : Nat} (h : d ≤ 30) : offset d = some (2 ^ d / 2 + d) := by
  unfold offset; rw [regularOffset_eq h]; rfl

theorem globalIndex_eq {g : GeometryType} {d : Nat} (hd : d ≤ 30) (hg : OfDim d g) :
    globalIndex g = some (2 ^ d / 2 + d + if g.isNone then 2 ^ d - 2 ^ d / 2 else g.id / 2) := by
  unfold globalIndex localIndex
  rw [hg.1, offset_eq hd, regularSize_eq hd, shr_one]
  cases g.isNone <;> simp

theorem offset_mono {d e : Nat} (h : d < e) : 2 ^ d / 2 + d + (2 ^ d - 2 ^ d / 2) < 2 ^ e / 2 + e := by
  have h1 : 2 ^ (d + 1) ≤ 2 ^ e := Nat.pow_le_pow_right (by omega) h
  rw [pow_succ] at h1
  have : 0 < 2 ^ d := Nat.two_pow_pos d
  omega

/-- C06: types of a lower dimension get smaller global indices. -/
theorem C06_ordered (d e : Nat) (a b : GeometryType) (he : e ≤ 30) (hde : d < e) (ha : OfDim d a)
    (hb : OfDim e b) : ∃ i j, globalIndex a = some i ∧ globalIndex b = some j ∧ i < j := by
  refine ⟨_, _, globalIndex_eq (by omega) ha, globalIndex_eq he hb, ?_⟩
  have := offset_mono hde
  have h1 : (if a.isNone then 2 ^ d - 2 ^ d / 2 else a.id / 2) ≤ 2 ^ d - 2 ^ d / 2 := by
    cases hn : a.isNone
    · have := half_lt_pow (ha.2.resolve_left (by simp [hn])); simp; omega
    · simp
  omega

/-- C06: for every `m ≤ 29` the global index maps the types of dimension at most `m` bijectively
(up to `==` within a dimension) onto `0..size(m)-1`. -/
theorem C06_bijection (m : Nat) (hm : m ≤ 29) :
    ∃ n, globalSize m = some n ∧
      (∀ d g, d ≤ m → OfDim d g → ∃ i, globalIndex g = some i ∧ i < n) ∧
      (∀ i, i < n → ∃ d t, d ≤ m ∧ OfDim d t ∧ globalIndex t = some i) ∧
      (∀ d e a b, d ≤ m → e ≤ m → OfDim d a → OfDim e b →
        (globalIndex a = globalIndex b ↔ d = e ∧ eq a b = true)) := by
  refine ⟨_, offset_eq (by omega), ?_, ?_, ?_⟩
  · intro d g hd hg
    refine ⟨_, globalIndex_eq (by omega) hg, ?_⟩
    have := offset_mono (show d < m + 1 by omega)
    have h1 : (if g.isNone then 2 ^ d - 2 ^ d / 2 else g.id / 2) ≤ 2 ^ d - 2 ^ d / 2 := by
      cases hn : g.isNone
      · have := half_lt_pow (hg.2.resolve_left (by simp [hn])); simp; omega
      · simp
    omega
  · -- induction on m: either the index belongs to a lower dimension or to the last one
    induction m with
    | zero =>
      intro i hi
      norm_num at hi
      rcases (show i = 0 ∨ i = 1 by omega) with rfl | rfl
      · exact ⟨0, vertex, by omega, by decide, by decide⟩
      · exact ⟨0, noneType 0, by omega, by decide, by decide⟩
    | succ m ih =>
      intro i hi
      by_cases hlt : i < 2 ^ (m + 1) / 2 + (m + 1)
      · obtain ⟨d, t, h1, h2, h3⟩ := ih (by omega) i hlt
        exact ⟨d, t, by omega, h2, h3⟩
      · obtain ⟨n, hn1, hn2, -, hs, -⟩ := C05_bijection (m + 1) (by omega)
        have hp : 2 ^ (m + 1 + 1) = 2 * 2 ^ (m + 1) := by ring
        obtain ⟨t, -, h2, h3⟩ := hs (i - (2 ^ (m + 1) / 2 + (m + 1))) (by rw [hn2]; omega)
        refine ⟨m + 1, t, le_refl _, h2, ?_⟩
        unfold globalIndex
        rw [h2.1, offset_eq (by omega), h3]
        simp only [Option.bind_eq_bind, Option.bind_some, Option.pure_def, Option.some.injEq]
        omega
  · intro d e a b hd he ha hb
    rcases lt_trichotomy d e with h | h | h
    · obtain ⟨i, j, hi, hj, hij⟩ := C06_ordered d e a b (by omega) h ha hb
      rw [hi, hj, Option.some.injEq]
      constructor
      · intro; omega
      · rintro ⟨h1, -⟩; omega
    · subst h
      obtain ⟨n, -, -, -, -, hi⟩ := C05_bijection d (by omega)
      rw [hi a b ha hb, globalIndex_eq (by omega) ha, globalIndex_eq (by omega) hb]
      unfold localIndex
      rw [ha.1, hb.1, regularSize_eq (by omega), shr_one, shr_one]
      cases a.isNone <;> cases b.isNone <;> simp
    · obtain ⟨i, j, hi, hj, hij⟩ := C06_ordered e d b a (by omega) h hb ha
      rw [hi, hj, Option.some.injEq]
      constructor
      · intro; omega
      · rintro ⟨h1, -⟩; omega

example : globalSize 3 = some 12 ∧ globalIndex (noneType 3) = some 11 ∧ globalIndex vertex = some 0 := by
  decide

/-! ### C07 -/

theorem ifGeometryType_aux (d : Nat) : ∀ (s : GeometryType) (gt : GeometryType), s.isNone = false →
    s.id < 2 ^ s.dim → s.dim + d ≤ 31 → gt.id < 2 ^ 32 →
    ifGeometryType d s gt = some ⟨s.dim + d, false, s.id + 2 ^ s.dim * (gt.id % 2 ^ d)⟩ := by
  induction d with
  | zero =>
    intro s gt hn hv hd _
    simp only [ifGeometryType, pow_zero, Nat.mod_one, mul_zero, add_zero]
    rw [← hn]
  | succ d ih =>
    intro s gt hn hv hd hg
    have hp : 2 ^ s.dim ≤ 2 ^ 30 := pow_le_30 (by omega)
    have hrs : Regular s := ⟨hn, hv⟩
    have hid : (mk3 (gt.id >>> 1) (gt.dim + 2 ^ 32 - 1) gt.isNone).id = gt.id / 2 := by
      simp only [mk3, shr_one]; omega
    have hmod : gt.id % 2 ^ (d + 1) = gt.id % 2 + 2 * (gt.id / 2 % 2 ^ d) := by
      rw [pow_succ, mul_comm, Nat.mod_mul]
    unfold ifGeometryType
    by_cases hb : gt.id &&& 1 ≠ 0
    · have hb1 : gt.id % 2 = 1 := by
        rw [Nat.and_one_is_mod] at hb; omega
      obtain ⟨e, he, hre, hed, -⟩ := C04_prismatic s hrs (by omega)
      have hor : s.id ||| 2 ^ s.dim = 2 ^ s.dim + s.id := by
        have := Nat.shiftLeft_add_eq_or_of_lt hv 1
        rw [Nat.one_shiftLeft] at this
        rw [Nat.or_comm, ← this]
      have he2 : e = ⟨s.dim + 1, false, 2 ^ s.dim + s.id⟩ := by
        rw [prismaticExtension_eq (by omega), hor, mk3_eq (by omega) (by omega), hn] at he
        exact (Option.some.inj he).symm
      rw [if_pos hb, he]
      simp only [Option.bind_eq_bind, Option.bind_some]
      have hir : e.InRange := by rw [he2]; constructor <;> simp only <;> omega
      rw [ofId_toId hir, ih e _ hre.notNone hre.valid (by omega) (by rw [hid]; omega), hid, he2]
      simp only [Option.some.injEq, GeometryType.mk.injEq, true_and]
      refine ⟨by omega, ?_⟩
      rw [hmod, hb1, pow_succ]; ring
    · have hb1 : gt.id % 2 = 0 := by
        rw [Nat.and_one_is_mod] at hb; omega
      have he2 : conicalExtension s = ⟨s.dim + 1, false, s.id⟩ := by
        unfold conicalExtension; rw [mk3_eq (by omega) (by omega), hn]
      have hir : (conicalExtension s).InRange := by rw [he2]; constructor <;> simp only <;> omega
      rw [if_neg hb, ofId_toId hir, ih _ _ (by rw [he2]) (by rw [he2]; simp only [pow_succ]; omega)
        (by rw [he2]; simp only; omega) (by rw [hid]; omega), hid, he2]
      simp only [Option.some.injEq, GeometryType.mk.injEq, true_and]
      refine ⟨by omega, ?_⟩
      rw [hmod, hb1, pow_succ]; ring

/-- C07: `IfGeometryType<Operation, dim>::apply(gt)` invokes the operation with the static type
that is the run-time type (same dimension, same id, hence `==`), for all regular types. -/
theorem C07_IfGeometryType (gt : GeometryType) (h : Regular gt) (hd : gt.dim ≤ 31) :
    ifGeometryType gt.dim vertex gt = some gt := by
  have hv : vertex = ⟨0, false, 0⟩ := by decide
  have hlt : gt.id < 2 ^ 32 := lt_of_lt_of_le h.valid (Nat.pow_le_pow_right (by omega) (by omega))
  rw [hv, ifGeometryType_aux _ _ _ rfl (by decide) (by simp only; omega) hlt]
  simp only [zero_add, pow_zero, one_mul, Nat.mod_eq_of_lt h.valid, ← h.notNone]

/-- C07: `toGeometryTypeIdConstant<dim>` (and hence `TopologyFactory::create`) calls back with a
static type that compares equal to the run-time type, for all regular types. -/
theorem C07_toGeometryTypeIdConstant (gt : GeometryType) (h : Regular gt) (hd : gt.dim ≤ 30) :
    ∃ t, toGeometryTypeIdConstant gt.dim gt = some t ∧ Regular t ∧ eq t gt = true := by
  obtain ⟨n, h1, h2, h3, h4, -⟩ := C05_bijection gt.dim hd
  obtain ⟨i, t, hi, hin, ht, he⟩ := h3 gt ⟨rfl, Or.inr h.valid⟩
  have hi' : i = gt.id / 2 := by
    unfold localIndex at hi
    rw [h.notNone, shr_one] at hi
    simpa using hi.symm
  have hlt := half_lt_pow h.valid
  obtain ⟨t', ht', hod, -⟩ := h4 i hin
  rw [ht] at ht'; cases ht'
  have hrt : Regular t := by
    have hn : t.isNone = false := by
      have := ((eq_iff _ _).1 he).1
      rw [this, h.notNone]
    refine ⟨hn, ?_⟩
    rw [hod.1]
    exact hod.2.resolve_left (by simp [hn])
  refine ⟨t, ?_, hrt, he⟩
  unfold toGeometryTypeIdConstant
  rw [h1, hi]
  simp only [Option.bind_eq_bind, Option.bind_some, Option.pure_def]
  rw [if_pos (by omega), ht]
  simp only [Option.bind_some, Option.some.injEq]
  apply ofId_toId
  have := hrt.valid
  rw [hod.1] at this
  have hp := pow_le_30 hd
  exact ⟨by rw [hod.1]; omega, by omega⟩

/-- Full statement of C07 for `toGeometryTypeIdConstant`. -/
def C07_full : Prop :=
  ∀ d gt, d ≤ 30 → OfDim d gt → ∃ t, toGeometryTypeIdConstant d gt = some t ∧ eq t gt = true

/-- C07 fails for none types: they are silently dispatched to the simplex. -/
theorem C07_none_counterexample : ¬ C07_full ∧
    toGeometryTypeIdConstant 3 (noneType 3) = some (simplex 3) ∧
    ifGeometryType 3 vertex (noneType 3) = some (simplex 3) := by
  refine ⟨?_, by decide, by decide⟩
  intro h
  obtain ⟨t, ht, he⟩ := h 3 (noneType 3) (by omega) (by decide)
  have : toGeometryTypeIdConstant 3 (noneType 3) = some (simplex 3) := by decide
  rw [this] at ht; cases ht
  revert he; decide

example : Regular prism ∧ ifGeometryType 3 vertex prism = some prism ∧
    toGeometryTypeIdConstant 3 prism = some (mk3 4 3 false) := ⟨⟨rfl, by decide⟩, by decide, by decide⟩

end Verif.Typ
