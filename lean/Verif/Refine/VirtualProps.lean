import Verif.Refine.VirtualModel

/-! Property C45: run time selection of refinements and the iterator wrapper. -/

namespace Verif.Refine.Virtual

open Verif.Typ

/-! ### specification of the selection -/

/-- the shapes by their construction bits -/
def SimplexShape (g : GeometryType) : Prop := ∀ k, 1 ≤ k → g.id.testBit k = false
def CubeShape (g : GeometryType) : Prop := ∀ k, 1 ≤ k → k < g.dim → g.id.testBit k = true
def PrismShape (g : GeometryType) : Prop := g.dim = 3 ∧ g.id.testBit 1 = false ∧ g.id.testBit 2 = true
def PyramidShape (g : GeometryType) : Prop := g.dim = 3 ∧ g.id.testBit 1 = true ∧ g.id.testBit 2 = false

/-- the documented table: which implementation refines `g` into elements of shape `c` (in dimension one the line is a simplex) -/
def Supported (g c : GeometryType) : Imp → Prop
  | .simplex => SimplexShape g ∧ SimplexShape c
  | .hcube => 2 ≤ g.dim ∧ CubeShape g ∧ CubeShape c
  | .hcubeTriangulation => 2 ≤ g.dim ∧ CubeShape g ∧ SimplexShape c
  | .prismTriangulation => PrismShape g ∧ SimplexShape c
  | .pyramidTriangulation => PyramidShape g ∧ SimplexShape c

/-! ### helper lemmas -/

theorem simplexShape_iff (g : GeometryType) : SimplexShape g ↔ g.id / 2 = 0 := by
  have h := half_eq_iff g.id 0
  rw [Nat.zero_div] at h
  rw [h, SimplexShape]
  simp only [Nat.zero_testBit]
  rfl

theorem cubeShape_iff (g : GeometryType) (hg : Regular g) : CubeShape g ↔ g.id / 2 = (2 ^ g.dim - 1) / 2 := by
  rw [half_eq_iff, CubeShape]
  constructor
  · intro h k hk
    rw [Nat.testBit_two_pow_sub_one]
    by_cases hkd : k < g.dim
    · rw [h k hk hkd, decide_eq_true hkd]
    · rw [decide_eq_false hkd]
      exact Nat.testBit_lt_two_pow (lt_of_lt_of_le hg.valid (Nat.pow_le_pow_right (by omega) (by omega)))
  · intro h k hk hkd
    rw [h k hk, Nat.testBit_two_pow_sub_one, decide_eq_true hkd]

theorem shape3_iff (g : GeometryType) (hg : Regular g) (hd : g.dim = 3) (a b : Bool) :
    (g.id.testBit 1 = a ∧ g.id.testBit 2 = b) ↔ g.id / 2 = a.toNat + 2 * b.toNat := by
  have h := hg.valid
  rw [hd] at h
  have h1 : g.id / 2 < 4 := by omega
  rw [show (1 : Nat) = 0 + 1 from rfl, Nat.testBit_succ, show (2 : Nat) = 1 + 1 from rfl, Nat.testBit_succ]
  generalize g.id / 2 = x at *
  have : ∀ x, x < 4 → ∀ a b : Bool, (x.testBit 0 = a ∧ x.testBit 1 = b) ↔ x = a.toNat + 2 * b.toNat := by decide
  exact this x h1 a b

theorem prismShape_iff (g : GeometryType) (hg : Regular g) (hd : g.dim = 3) : PrismShape g ↔ g.id / 2 = 2 := by
  rw [PrismShape, and_iff_right hd, shape3_iff g hg hd]; rfl

theorem pyramidShape_iff (g : GeometryType) (hg : Regular g) (hd : g.dim = 3) : PyramidShape g ↔ g.id / 2 = 1 := by
  rw [PyramidShape, and_iff_right hd, shape3_iff g hg hd]; rfl

theorem build3_eq (x y : Nat) : build3 x y =
    if x / 2 = 0 then (if y / 2 = 0 then some (.instance_ 0 0) else some .notImplemented)
    else if x / 2 = 3 then
      (if y / 2 = 0 then some (.instance_ 6 0) else if y / 2 = 3 then some (.instance_ 6 6) else some .notImplemented)
    else if x / 2 = 2 then (if y / 2 = 0 then some (.instance_ 4 0) else some .notImplemented)
    else if x / 2 = 1 then (if y / 2 = 0 then some (.instance_ 2 0) else some .notImplemented)
    else some .notImplemented := by
  have hc : cube 3 = some ⟨3, false, 7⟩ := by decide
  have e0 : clearBit0 (Typ.simplex 3).id = 0 := by decide
  have e1 : clearBit0 7 = 6 := by decide
  have e2 : clearBit0 Typ.prism.id = 4 := by decide
  have e3 : clearBit0 Typ.pyramid.id = 2 := by decide
  have f0 : ∀ z, (clearBit0 z = 0) = (z / 2 = 0) := fun z => by rw [clearBit0_eq, eq_iff_iff]; omega
  have f1 : ∀ z, (clearBit0 z = 6) = (z / 2 = 3) := fun z => by rw [clearBit0_eq, eq_iff_iff]; omega
  have f2 : ∀ z, (clearBit0 z = 4) = (z / 2 = 2) := fun z => by rw [clearBit0_eq, eq_iff_iff]; omega
  have f3 : ∀ z, (clearBit0 z = 2) = (z / 2 = 1) := fun z => by rw [clearBit0_eq, eq_iff_iff]; omega
  simp only [build3, hc, Option.bind_some, e0, e1, e2, e3, f0, f1, f2, f3]

theorem buildGeneric_eq (d x y : Nat) (h2 : 2 ≤ d) (h30 : d ≤ 30) : buildGeneric d x y =
    if x / 2 = 0 then (if y / 2 = 0 then some (.instance_ 0 0) else some .notImplemented)
    else if x / 2 = (2 ^ d - 1) / 2 then
      (if y / 2 = 0 then some (.instance_ (2 * ((2 ^ d - 1) / 2)) 0) else
        if y / 2 = (2 ^ d - 1) / 2 then some (.instance_ (2 * ((2 ^ d - 1) / 2)) (2 * ((2 ^ d - 1) / 2))) else some .notImplemented)
    else some .notImplemented := by
  have hcube : cube d = some (mk3 (2 ^ d - 1) d false) := cube_eq h30 (by omega)
  have hcid : (mk3 (2 ^ d - 1) d false).id = 2 ^ d - 1 :=
    Nat.mod_eq_of_lt (lt_of_lt_of_le (Nat.sub_lt (Nat.two_pow_pos d) (by omega)) (Nat.pow_le_pow_right (by omega) (by omega)))
  have hM : (2 ^ d - 1) / 2 ≠ 0 := by
    obtain ⟨e, rfl⟩ : ∃ e, d = e + 2 := ⟨d - 2, by omega⟩
    have : 0 < 2 ^ e := Nat.two_pow_pos e
    rw [Nat.pow_add]; omega
  have e0 : clearBit0 (Typ.simplex d).id = 0 := by rw [clearBit0_eq, show (Typ.simplex d).id = 0 from rfl]
  have e1 : clearBit0 (2 ^ d - 1) = 2 * ((2 ^ d - 1) / 2) := clearBit0_eq _
  have f0 : ∀ z, (clearBit0 z = 0) = (z / 2 = 0) := fun z => by rw [clearBit0_eq, eq_iff_iff]; omega
  have f1 : ∀ z, (clearBit0 z = 2 * ((2 ^ d - 1) / 2)) = (z / 2 = (2 ^ d - 1) / 2) := fun z => by rw [clearBit0_eq, eq_iff_iff]; omega
  have f2 : (0 = 2 * ((2 ^ d - 1) / 2)) = False := eq_false (by omega)
  simp only [buildGeneric, hcube, Option.bind_some, hcid, e0, e1, f0, f1, f2, if_false]

/-! ### C45, selection -/

/-- C45: for regular types, `buildRefinement` returns the singleton of exactly one implementation if the table has an entry, and
throws NotImplemented otherwise -/
theorem C45_dispatch (d : Nat) (h1 : 1 ≤ d) (h30 : d ≤ 30) (g c : GeometryType) (hg : Regular g) (hc : Regular c) (hgd : g.dim = d)
    (hcd : c.dim = d) :
    (∀ imp, Supported g c imp → ∃ t u, buildRefinement d g c = some (.instance_ t u) ∧ traits d t u = some [imp]) ∧
      ((∀ imp, ¬ Supported g c imp) → buildRefinement d g c = some .notImplemented) := by
  have hS := simplexShape_iff
  have hC : ∀ g : GeometryType, Regular g → g.dim = d → (CubeShape g ↔ g.id / 2 = (2 ^ d - 1) / 2) := fun g hg hd => by
    rw [cubeShape_iff g hg, hd]
  have hpow : 2 ≤ d → (2 ^ d - 1) / 2 ≠ 0 := by
    intro h
    obtain ⟨e, rfl⟩ : ∃ e, d = e + 2 := ⟨d - 2, by omega⟩
    have : 0 < 2 ^ e := Nat.two_pow_pos e
    rw [Nat.pow_add]; omega
  have hprism : Typ.prism.id = 5 := rfl
  have hpyr : Typ.pyramid.id = 3 := rfl
  have hsimp : ∀ d, (Typ.simplex d).id = 0 := fun _ => rfl
  have hdist : ∀ a b : Nat, (2 * a = 2 * b) ↔ a = b := fun a b => by omega
  have hd0 : ∀ a : Nat, (2 * a = 0) ↔ a = 0 := fun a => by omega
  have hd0' : ∀ a : Nat, (0 = 2 * a) ↔ a = 0 := fun a => by omega
  have hcb : ∀ a : Nat, 2 * a / 2 = a := fun a => by omega
  rw [buildRefinement, if_pos ⟨hgd, hcd⟩]
  rcases Nat.lt_or_ge d 2 with hd2 | hd2
  · obtain rfl : d = 1 := by omega
    have hg0 : g.id / 2 = 0 := by have := hg.valid; rw [hgd] at this; omega
    have hc0 : c.id / 2 = 0 := by have := hc.valid; rw [hcd] at this; omega
    have hs : Supported g c .simplex := ⟨(hS g).2 hg0, (hS c).2 hc0⟩
    have hb : build1 g.id c.id = some (.instance_ 0 0) := by
      simp only [build1, clearBit0_eq, hg0, hc0, hsimp]
      rfl
    rw [if_pos rfl, hb]
    refine ⟨fun imp h => ⟨0, 0, rfl, ?_⟩, fun h => absurd hs (h _)⟩
    cases imp with
    | simplex => decide
    | hcube => have := h.1; omega
    | hcubeTriangulation => have := h.1; omega
    | prismTriangulation => have := h.1.1; omega
    | pyramidTriangulation => have := h.1.1; omega
  · have hcube : cube d = some (mk3 (2 ^ d - 1) d false) := cube_eq h30 (by omega)
    have hcid : (mk3 (2 ^ d - 1) d false).id = 2 ^ d - 1 :=
      Nat.mod_eq_of_lt (lt_of_lt_of_le (Nat.sub_lt (Nat.two_pow_pos d) (by omega)) (Nat.pow_le_pow_right (by omega) (by omega)))
    have hM := hpow hd2
    have hCg := hC g hg hgd
    have hCc := hC c hc hcd
    have hSg := hS g
    have hSc := hS c
    have hT : ∀ t u, traits d t u = some (
        (if t / 2 = 0 ∧ u / 2 = 0 then [Imp.simplex] else []) ++
        (if t / 2 = (2 ^ d - 1) / 2 ∧ u / 2 = (2 ^ d - 1) / 2 then [Imp.hcube] else []) ++
        (if t / 2 = (2 ^ d - 1) / 2 ∧ u / 2 = 0 then [Imp.hcubeTriangulation] else []) ++
        (if d = 3 ∧ t / 2 = 2 ∧ u / 2 = 0 then [Imp.prismTriangulation] else []) ++
        (if d = 3 ∧ t / 2 = 1 ∧ u / 2 = 0 then [Imp.pyramidTriangulation] else [])) := by
      intro t u
      simp only [traits, hcube, Option.map_some, hsimp, hcid, hprism, hpyr, Nat.shiftRight_one, Nat.zero_div,
        eq_comm (a := (0 : Nat)), eq_comm (b := t / 2), eq_comm (b := u / 2), hd2, true_and,
        show (5 : Nat) / 2 = 2 from rfl, show (3 : Nat) / 2 = 1 from rfl]
    by_cases h3 : d = 3
    · subst h3
      rw [if_neg (by omega), if_pos rfl]
      have hP := prismShape_iff g hg hgd
      have hQ := pyramidShape_iff g hg hgd
      have hM3 : (2 ^ 3 - 1) / 2 = 3 := rfl
      rw [hM3] at hCg hCc
      rw [hM3] at hT
      have hb := build3_eq g.id c.id
      rw [hb]
      constructor
      · intro imp h
        cases imp with
        | simplex =>
          obtain ⟨a, b⟩ := h
          rw [hSg] at a; rw [hSc] at b
          exact ⟨0, 0, by rw [a, b]; rfl, by rw [hT]; rfl⟩
        | hcube =>
          obtain ⟨_, a, b⟩ := h
          rw [hCg] at a; rw [hCc] at b
          exact ⟨6, 6, by rw [a, b]; rfl, by rw [hT]; rfl⟩
        | hcubeTriangulation =>
          obtain ⟨_, a, b⟩ := h
          rw [hCg] at a; rw [hSc] at b
          exact ⟨6, 0, by rw [a, b]; rfl, by rw [hT]; rfl⟩
        | prismTriangulation =>
          obtain ⟨a, b⟩ := h
          rw [hP] at a; rw [hSc] at b
          exact ⟨4, 0, by rw [a, b]; rfl, by rw [hT]; rfl⟩
        | pyramidTriangulation =>
          obtain ⟨a, b⟩ := h
          rw [hQ] at a; rw [hSc] at b
          exact ⟨2, 0, by rw [a, b]; rfl, by rw [hT]; rfl⟩
      · intro h
        have e1 := h .simplex
        have e2 := h .hcube
        have e3 := h .hcubeTriangulation
        have e4 := h .prismTriangulation
        have e5 := h .pyramidTriangulation
        simp only [Supported, hSg, hSc, hCg, hCc, hP, hQ, hgd, show 2 ≤ 3 by omega, true_and] at e1 e2 e3 e4 e5
        split_ifs <;> first | rfl | exact absurd ⟨by assumption, by assumption⟩ e1 | exact absurd ⟨by assumption, by assumption⟩ e2 | exact absurd ⟨by assumption, by assumption⟩ e3 | exact absurd ⟨by assumption, by assumption⟩ e4 | exact absurd ⟨by assumption, by assumption⟩ e5
    · rw [if_neg (by omega), if_neg h3]
      have hb := buildGeneric_eq d g.id c.id hd2 h30
      rw [hb]
      constructor
      · intro imp h
        cases imp with
        | simplex =>
          obtain ⟨a, b⟩ := h
          rw [hSg] at a; rw [hSc] at b
          exact ⟨0, 0, by rw [a, b]; rfl, by rw [hT]; simp [h3, hM.symm]⟩
        | hcube =>
          obtain ⟨_, a, b⟩ := h
          rw [hCg] at a; rw [hCc] at b
          exact ⟨_, _, by rw [a, b, if_neg hM, if_pos rfl, if_neg hM, if_pos rfl], by rw [hT, hcb]; simp only [h3, hM, if_false, false_and, if_true, and_self, and_false]; rfl⟩
        | hcubeTriangulation =>
          obtain ⟨_, a, b⟩ := h
          rw [hCg] at a; rw [hSc] at b
          exact ⟨_, _, by rw [a, b, if_neg hM, if_pos rfl, if_pos rfl], by rw [hT, hcb]; simp only [h3, hM, hM.symm, Nat.zero_div, if_false, false_and, if_true, and_self, and_false]; rfl⟩
        | prismTriangulation => exact absurd (hgd.symm.trans h.1.1) h3
        | pyramidTriangulation => exact absurd (hgd.symm.trans h.1.1) h3
      · intro h
        have e1 := h .simplex
        have e2 := h .hcube
        have e3 := h .hcubeTriangulation
        simp only [Supported, hSg, hSc, hCg, hCc, hgd, hd2, true_and] at e1 e2 e3
        split_ifs <;> first | rfl | exact absurd ⟨by assumption, by assumption⟩ e1 | exact absurd ⟨by assumption, by assumption⟩ e2 | exact absurd ⟨by assumption, by assumption⟩ e3

/-- the pyramid is refined into tetrahedra; it is not refined into hexahedra -/
example : buildRefinement 3 ⟨3, false, 2⟩ ⟨3, false, 1⟩ = some (.instance_ 2 0) ∧ traits 3 2 0 = some [.pyramidTriangulation] ∧
    buildRefinement 3 ⟨3, false, 2⟩ ⟨3, false, 7⟩ = some .notImplemented := by decide

/-- C45: in dimension one ids that no line has are rejected, be it that of the element or that of the elements to make -/
theorem C45_line (g c : GeometryType) (hg : g.dim = 1) (hc : c.dim = 1) :
    (g.id < 2 ∧ c.id < 2 → buildRefinement 1 g c = some (.instance_ 0 0)) ∧
      (2 ≤ g.id ∨ 2 ≤ c.id → buildRefinement 1 g c = some .notImplemented) := by
  have f0 : ∀ z, (clearBit0 z = 0) = (z / 2 = 0) := fun z => by rw [clearBit0_eq, eq_iff_iff]; omega
  rw [buildRefinement, if_pos ⟨hg, hc⟩, if_pos rfl, build1]
  simp only [f0]
  constructor
  · intro h
    rw [if_pos (by omega)]
    rfl
  · intro h
    rw [if_neg (by omega)]

example : buildRefinement 1 ⟨1, false, 1⟩ ⟨1, false, 3⟩ = some .notImplemented := by decide

/-- the full claim: a none type is not refined -/
def C45_none_full : Prop := ∀ d c, 1 ≤ d → d ≤ 30 → Regular c → c.dim = d → buildRefinement d (noneType d) c = some .notImplemented

/-- C45: the none flag is ignored: a none type is refined as a simplex -/
theorem C45_none_counterexample : ¬ C45_none_full ∧ ∀ d, 1 ≤ d → d ≤ 30 → ∃ t u,
    buildRefinement d (noneType d) (Typ.simplex d) = some (.instance_ t u) ∧ traits d t u = some [.simplex] := by
  have key : ∀ d, 1 ≤ d → d ≤ 30 → ∃ t u,
      buildRefinement d (noneType d) (Typ.simplex d) = some (.instance_ t u) ∧ traits d t u = some [.simplex] := by
    intro d h1 h30
    have hid : (Typ.simplex d).dim = d := Nat.mod_eq_of_lt (show d < 2 ^ 8 by omega)
    have hr : Regular (Typ.simplex d) := ⟨rfl, Nat.two_pow_pos _⟩
    obtain ⟨t, u, e1, e2⟩ := (C45_dispatch d h1 h30 _ _ hr hr hid hid).1 .simplex ⟨fun k _ => Nat.zero_testBit k, fun k _ => Nat.zero_testBit k⟩
    exact ⟨t, u, e1, e2⟩
  refine ⟨fun h => ?_, key⟩
  obtain ⟨t, u, e1, _⟩ := key 2 (by omega) (by omega)
  rw [h 2 _ (by omega) (by omega) ⟨rfl, Nat.two_pow_pos _⟩ rfl] at e1
  simp at e1

/-! ### C45, the wrapper: specification

Iterators are values: a copy is independent, an assignment overwrites, nothing else changes. -/

variable {B : Type}

abbrev Vals (B : Type) := Nat → Option (Backend B)

def setVal (vals : Vals B) (v : Nat) (b : Option (Backend B)) : Vals B := fun i => if i = v then b else vals i

/-- `none`: the program uses an object that is not alive, or the increment of the static iterator is not defined -/
def specExec (next : Nat → B → Option B) (vals : Vals B) : Op B → Option (Vals B)
  | .make v b => if vals v = none then some (setVal vals v (some b)) else none
  | .copy v w => (vals w).bind fun b => if vals v = none then some (setVal vals v (some b)) else none
  | .assign v w => (vals v).bind fun _ => (vals w).map fun b => setVal vals v (some b)
  | .increment v => (vals v).bind fun b => (next b.cls b.state).map fun b' => setVal vals v (some ⟨b.cls, b'⟩)
  | .destroy v => (vals v).map fun _ => setVal vals v none

def specRun (next : Nat → B → Option B) : Vals B → List (Op B) → Option (Vals B)
  | vals, [] => some vals
  | vals, op :: ops => (specExec next vals op).bind fun vals => specRun next vals ops

/-- an assignment of an object to itself -/
def Op.selfAssign : Op B → Prop
  | .assign v w => v = w
  | _ => False

/-- every backend on the heap is owned by exactly one iterator object: nothing leaks, nothing is shared -/
def Owned (s : State B) : Prop := ∀ p b, deref s.heap p = some b → ∃! v, s.var v = some p

/-! ### helper lemmas -/

theorem deref_lt {heap : List (Option (Backend B))} {p : Nat} {b : Backend B} (h : deref heap p = some b) : p < heap.length := by
  by_contra hge
  rw [deref, List.getElem?_eq_none (by omega)] at h
  simp at h

theorem deref_new (heap : List (Option (Backend B))) (b : Backend B) (p : Nat) :
    deref (new heap b) p = if p = heap.length then some b else deref heap p := by
  rw [deref, new, deref]
  split
  · subst p
    rw [List.getElem?_append_right le_rfl, Nat.sub_self]
    rfl
  · rename_i hne
    rcases Nat.lt_or_ge p heap.length with h | h
    · rw [List.getElem?_append_left h]
    · rw [List.getElem?_eq_none (show heap.length ≤ p from h), List.getElem?_eq_none (by rw [List.length_append, List.length_singleton]; omega)]

theorem deref_set (heap : List (Option (Backend B))) (p q : Nat) (o : Option (Backend B)) (h : p < heap.length) :
    deref (heap.set p o) q = if q = p then o else deref heap q := by
  rw [deref, deref]
  split
  · subst q
    rw [List.getElem?_set_self h]
    rfl
  · rw [List.getElem?_set_ne (by omega)]

/-- the invariant -/
structure Inv (s : State B) (vals : Vals B) : Prop where
  read : ∀ v, s.read v = vals v
  valid : ∀ v p, s.var v = some p → ∃ b, deref s.heap p = some b
  inj : ∀ v w p, s.var v = some p → s.var w = some p → v = w
  owned : ∀ p b, deref s.heap p = some b → ∃ v, s.var v = some p

theorem Inv.alive {s : State B} {vals : Vals B} (h : Inv s vals) {v : Nat} {b : Backend B} (hv : vals v = some b) :
    ∃ p, s.var v = some p ∧ deref s.heap p = some b := by
  rw [← h.read, State.read] at hv
  rcases hp : s.var v with _ | p
  · rw [hp] at hv; simp at hv
  · rw [hp, Option.bind_some] at hv
    exact ⟨p, rfl, hv⟩

theorem Inv.dead {s : State B} {vals : Vals B} (h : Inv s vals) {v : Nat} : vals v = none ↔ s.var v = none := by
  rw [← h.read, State.read]
  rcases hp : s.var v with _ | p
  · simp
  · obtain ⟨b, hb⟩ := h.valid v p hp
    simp [hb]

theorem Inv.create {s : State B} {vals : Vals B} (h : Inv s vals) {v : Nat} (b : Backend B) (hv : s.var v = none) :
    Inv ⟨new s.heap b, setVar s.var v (some s.heap.length)⟩ (setVal vals v (some b)) where
  read := by
    intro i
    rw [State.read, setVal, ← h.read, State.read]
    simp only [setVar]
    by_cases hi : i = v
    · rw [if_pos hi, if_pos hi, Option.bind_some, deref_new, if_pos rfl]
    · rw [if_neg hi, if_neg hi]
      rcases hp : s.var i with _ | p
      · rfl
      · obtain ⟨b', hb'⟩ := h.valid i p hp
        have := deref_lt hb'
        rw [Option.bind_some, Option.bind_some, deref_new, if_neg (by omega)]
  valid := by
    intro i p hp
    simp only [setVar] at hp
    simp only [deref_new]
    by_cases hi : i = v
    · rw [if_pos hi] at hp
      obtain rfl := Option.some.inj hp
      exact ⟨b, if_pos rfl⟩
    · rw [if_neg hi] at hp
      obtain ⟨b', hb'⟩ := h.valid i p hp
      have := deref_lt hb'
      exact ⟨b', by rw [if_neg (by omega), hb']⟩
  inj := by
    intro i j p hi hj
    simp only [setVar] at hi hj
    have key : ∀ i, s.var i = some s.heap.length → False := fun i hi => by
      obtain ⟨b', hb'⟩ := h.valid i _ hi
      exact absurd (deref_lt hb') (lt_irrefl _)
    split_ifs at hi hj with h1 h2 h2
    · rw [h1, h2]
    · rw [← hi] at hj
      exact (key _ hj).elim
    · rw [← hj] at hi
      exact (key _ hi).elim
    · exact h.inj _ _ _ hi hj
  owned := by
    intro p b' hb'
    simp only [deref_new] at hb'
    split_ifs at hb' with h1
    · exact ⟨v, by simp [setVar, h1]⟩
    · obtain ⟨i, hi⟩ := h.owned p b' hb'
      refine ⟨i, ?_⟩
      simp only [setVar]
      rw [if_neg]
      · exact hi
      · rintro rfl
        rw [hv] at hi
        simp at hi

theorem Inv.remove {s : State B} {vals : Vals B} (h : Inv s vals) {v p : Nat} {b : Backend B} (hv : s.var v = some p)
    (hb : deref s.heap p = some b) : Inv ⟨s.heap.set p none, setVar s.var v none⟩ (setVal vals v none) where
  read := by
    intro i
    rw [State.read, setVal, ← h.read, State.read]
    simp only [setVar]
    by_cases hi : i = v
    · rw [if_pos hi, if_pos hi]; rfl
    · rw [if_neg hi, if_neg hi]
      rcases hp : s.var i with _ | q
      · rfl
      · rw [Option.bind_some, Option.bind_some, deref_set _ _ _ _ (deref_lt hb), if_neg]
        rintro rfl
        exact hi (h.inj _ _ _ hp hv)
  valid := by
    intro i q hq
    simp only [setVar] at hq
    split_ifs at hq with hi
    obtain ⟨b', hb'⟩ := h.valid i q hq
    refine ⟨b', ?_⟩
    simp only [deref_set _ _ _ _ (deref_lt hb)]
    rw [if_neg]
    · exact hb'
    · rintro rfl
      exact hi (h.inj _ _ _ hq hv)
  inj := by
    intro i j q hi hj
    simp only [setVar] at hi hj
    split_ifs at hi hj
    exact h.inj _ _ _ hi hj
  owned := by
    intro q b' hb'
    simp only [deref_set _ _ _ _ (deref_lt hb)] at hb'
    split_ifs at hb' with h1
    obtain ⟨i, hi⟩ := h.owned q b' hb'
    refine ⟨i, ?_⟩
    simp only [setVar]
    rw [if_neg]
    · exact hi
    · rintro rfl
      rw [hv] at hi
      exact h1 (Option.some.inj hi).symm

theorem Inv.write {s : State B} {vals : Vals B} (h : Inv s vals) {v p : Nat} {b : Backend B} (b' : Backend B) (hv : s.var v = some p)
    (hb : deref s.heap p = some b) : Inv ⟨s.heap.set p (some b'), s.var⟩ (setVal vals v (some b')) where
  read := by
    intro i
    rw [State.read, setVal, ← h.read, State.read]
    simp only
    by_cases hi : i = v
    · rw [if_pos hi, hi, hv, Option.bind_some, deref_set _ _ _ _ (deref_lt hb), if_pos rfl]
    · rw [if_neg hi]
      rcases hp : s.var i with _ | q
      · rfl
      · rw [Option.bind_some, Option.bind_some, deref_set _ _ _ _ (deref_lt hb), if_neg]
        rintro rfl
        exact hi (h.inj _ _ _ hp hv)
  valid := by
    intro i q hq
    simp only [deref_set _ _ _ _ (deref_lt hb)]
    split
    · exact ⟨b', rfl⟩
    · exact h.valid i q hq
  inj := h.inj
  owned := by
    intro q c hc
    simp only [deref_set _ _ _ _ (deref_lt hb)] at hc
    split_ifs at hc with h1
    · exact ⟨v, by rw [h1]; exact hv⟩
    · exact h.owned q c hc

theorem exec_spec (next : Nat → B → Option B) {s : State B} {vals vals' : Vals B} (h : Inv s vals) (op : Op B) (hop : ¬ op.selfAssign)
    (hs : specExec next vals op = some vals') : ∃ s', exec next s op = some s' ∧ Inv s' vals' := by
  cases op with
  | make v b =>
    simp only [specExec] at hs
    split_ifs at hs with hv
    obtain rfl := Option.some.inj hs
    have hv' := h.dead.1 hv
    exact ⟨_, by simp only [exec, make]; rw [if_pos hv'], h.create b hv'⟩
  | copy v w =>
    simp only [specExec] at hs
    rcases hw : vals w with _ | b
    · rw [hw] at hs; simp at hs
    · rw [hw, Option.bind_some] at hs
      split_ifs at hs with hv
      obtain rfl := Option.some.inj hs
      have hv' := h.dead.1 hv
      obtain ⟨p, hp, hb⟩ := h.alive hw
      refine ⟨_, ?_, h.create b hv'⟩
      simp [exec, copy, hp, hb, hv']
  | assign v w =>
    simp only [Op.selfAssign] at hop
    simp only [specExec] at hs
    rcases hv : vals v with _ | a
    · rw [hv] at hs; simp at hs
    rcases hw : vals w with _ | b
    · rw [hv, hw] at hs; simp at hs
    rw [hv, hw] at hs
    simp only [Option.bind_some, Option.map_some] at hs
    obtain rfl := Option.some.inj hs
    obtain ⟨p, hp, ha⟩ := h.alive hv
    obtain ⟨q, hq, hb⟩ := h.alive hw
    have hqp : q ≠ p := by
      rintro rfl
      exact hop (h.inj _ _ _ hp hq)
    have hdel : delete s.heap p = some (s.heap.set p none) := by rw [delete, ha]; rfl
    have hd : deref (s.heap.set p none) q = some b := by rw [deref_set _ _ _ _ (deref_lt ha), if_neg hqp, hb]
    have hrem := h.remove hp ha
    have hc := hrem.create (v := v) b (by simp [setVar])
    refine ⟨⟨new (s.heap.set p none) b, setVar s.var v (some (s.heap.set p none).length)⟩, ?_, ?_⟩
    · simp only [exec, assign, hp, hq, Option.bind_eq_bind, Option.bind_some, hdel, hd]
      rfl
    · have e1 : setVar (setVar s.var v none) v (some (s.heap.set p none).length) = setVar s.var v (some (s.heap.set p none).length) := by
        funext i; simp only [setVar]; split <;> rfl
      have e2 : setVal (setVal vals v none) v (some b) = setVal vals v (some b) := by
        funext i; simp only [setVal]; split <;> rfl
      rw [← e1, ← e2]
      exact hc
  | increment v =>
    simp only [specExec] at hs
    rcases hv : vals v with _ | b
    · rw [hv] at hs; simp at hs
    rw [hv, Option.bind_some] at hs
    rcases hn : next b.cls b.state with _ | b'
    · rw [hn] at hs; simp at hs
    rw [hn, Option.map_some] at hs
    obtain rfl := Option.some.inj hs
    obtain ⟨p, hp, hb⟩ := h.alive hv
    refine ⟨_, ?_, h.write ⟨b.cls, b'⟩ hp hb⟩
    simp [exec, increment, hp, hb, hn]
  | destroy v =>
    simp only [specExec] at hs
    rcases hv : vals v with _ | b
    · rw [hv] at hs; simp at hs
    rw [hv, Option.map_some] at hs
    obtain rfl := Option.some.inj hs
    obtain ⟨p, hp, hb⟩ := h.alive hv
    refine ⟨_, ?_, h.remove hp hb⟩
    simp [exec, destroy, hp, delete, hb]

theorem run_spec (next : Nat → B → Option B) (ops : List (Op B)) (s : State B) (vals vals' : Vals B) (h : Inv s vals)
    (hop : ∀ op ∈ ops, ¬ op.selfAssign) (hs : specRun next vals ops = some vals') : ∃ s', run next s ops = some s' ∧ Inv s' vals' := by
  induction ops generalizing s vals with
  | nil =>
    obtain rfl := Option.some.inj hs
    exact ⟨s, rfl, h⟩
  | cons op ops ih =>
    rw [specRun] at hs
    rcases he : specExec next vals op with _ | v
    · rw [he] at hs; simp at hs
    rw [he, Option.bind_some] at hs
    obtain ⟨s1, h1, h2⟩ := exec_spec next h op (hop op (by simp)) he
    obtain ⟨s2, h3, h4⟩ := ih s1 v h2 (fun o ho => hop o (by simp [ho])) hs
    exact ⟨s2, by rw [run, h1, Option.bind_some, h3], h4⟩

theorem inv_initial : Inv (initial : State B) fun _ => none where
  read := fun _ => rfl
  valid := fun v p h => by simp [initial] at h
  inj := fun v w p h => by simp [initial] at h
  owned := fun p b h => by simp [initial, deref] at h

/-! ### C45, the wrapper -/

/-- the full claim: all histories -/
def C45_wrapper_full (B : Type) : Prop := ∀ (next : Nat → B → Option B) (ops : List (Op B)) (vals : Vals B),
  specRun next (fun _ => none) ops = some vals → ∃ s, run next initial ops = some s ∧ (∀ v, s.read v = vals v) ∧ Owned s

/-- C45: in every history without an assignment of an object to itself, the wrapped iterators behave as values: they read what the
static iterators would give, and every backend has exactly one owner.  (Missing: self-assignment, see
`C45_wrapper_counterexample`.) -/
theorem C45_wrapper_partial (next : Nat → B → Option B) (ops : List (Op B)) (vals : Vals B) (hop : ∀ op ∈ ops, ¬ op.selfAssign)
    (h : specRun next (fun _ => none) ops = some vals) :
    ∃ s, run next initial ops = some s ∧ (∀ v, s.read v = vals v) ∧ Owned s := by
  obtain ⟨s, h1, h2⟩ := run_spec next ops _ _ _ inv_initial hop h
  refine ⟨s, h1, h2.read, fun p b hb => ?_⟩
  obtain ⟨v, hv⟩ := h2.owned p b hb
  exact ⟨v, hv, fun w hw => h2.inj _ _ _ hw hv⟩

/-- C45: the comparison of two wrapped iterators is that of the static iterators; iterators of different refinements differ -/
theorem C45_equality (next : Nat → B → Option B) (eqB : Nat → B → B → Prop) (ops : List (Op B)) (vals : Vals B)
    (hop : ∀ op ∈ ops, ¬ op.selfAssign) (h : specRun next (fun _ => none) ops = some vals) (v w : Nat) (a b : Backend B)
    (ha : vals v = some a) (hb : vals w = some b) :
    ∃ s P, run next initial ops = some s ∧ s.equals eqB v w = some P ∧ (P ↔ a.cls = b.cls ∧ eqB a.cls a.state b.state) := by
  obtain ⟨s, h1, h2, _⟩ := C45_wrapper_partial next ops vals hop h
  refine ⟨s, _, h1, ?_, Iff.rfl⟩
  rw [State.equals, h2, h2, ha, hb]
  rfl

/-- C45: `it = it` reads the deleted backend -/
theorem C45_wrapper_counterexample [Inhabited B] : ¬ C45_wrapper_full B := by
  intro h
  obtain ⟨s, h1, _⟩ := h (fun _ b => some b) [.make 0 ⟨0, default⟩, .assign 0 0] _ rfl
  simp [run, exec, make, assign, initial, new, delete, deref, setVar] at h1

/-- a history with a copy that is advanced independently, an assignment and a destruction -/
example : ((run (fun _ b => if b < 5 then some (b + 1) else none) initial
    [.make 0 ⟨0, 0⟩, .copy 1 0, .increment 1, .increment 1, .make 2 ⟨1, 0⟩, .assign 0 2, .destroy 2, .increment 0]).map
      fun s => ((s.read 0).map fun b => (b.cls, b.state), (s.read 1).map fun b => (b.cls, b.state), (s.read 2).isNone)) =
    some (some (1, 1), some (0, 2), true) := by decide

end Verif.Refine.Virtual
