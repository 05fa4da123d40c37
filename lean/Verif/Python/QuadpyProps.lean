import Verif.Python.QuadpyModel
import Verif.Python.WrapperProps

/-! Property C86: the adapter to the Python package quadpy. -/

namespace Verif.Py.Quadpy

open Verif.Typ Verif.RefGeom

variable {S D : Type} {th : Option Nat → Desc → Nat}

/-! ## Specification -/

/-- the shapes for which the package is used, the module, and what is known of the vertices -/
def shapes : List (GeometryType × Mod × Vertices) :=
  [(⟨1, false, 0⟩, .line_segment, .list [[0], [1]]),
   (⟨2, false, 0⟩, .triangle, .list [[0, 0], [1, 0], [0, 1]]),
   (⟨2, false, 3⟩, .quadrilateral, .package),
   (⟨3, false, 0⟩, .tetrahedron, .list [[0, 0, 0], [1, 0, 0], [0, 1, 0], [0, 0, 1]]),
   (⟨3, false, 7⟩, .hexahedron, .package)]

/-- a result up to the identity of the object -/
def content : Except Exc (Ret S D) → Except Exc (Ret S D)
  | .ok (.rule q) => .ok (.rule { q with serial := 0 })
  | r => r

/-- the types that occur, up to the largest dimension with a hash (C65) -/
def Known (t : GeometryType) : Prop := ∃ d ≤ 29, OfDim d t

/-! ## Which types are supported -/

/-- C86: a type is supported exactly if it is one of the five shapes, with the module for this shape -/
def C86_supported_full : Prop :=
  ∀ (t : GeometryType), Known t → ∀ m v, select t = .ok (m, v) ↔ ∃ t₀, (t₀, m, v) ∈ shapes ∧ eq t t₀ = true

/-- C86: the none type of dimension one is taken for a line -/
theorem C86_supported_counterexample : ¬ C86_supported_full := by
  intro h
  have := (h (noneType 1) ⟨1, by omega, by decide⟩ .line_segment (.list [[0], [1]])).1 (by decide)
  revert this
  simp only [shapes, List.mem_cons, List.not_mem_nil, Prod.mk.injEq]
  rintro ⟨t₀, h1, h2⟩
  rw [eq_iff] at h2
  rcases h1 with ⟨rfl, -⟩ | ⟨-, h1, -⟩ | ⟨-, h1, -⟩ | ⟨-, h1, -⟩ | ⟨-, h1, -⟩ | h1
  · exact absurd h2.1 (by decide)
  all_goals exact absurd h1 (by decide)

theorem or_one {a : Nat} (b : Nat) : (a ||| 1) = 2 * b + 1 ↔ a / 2 = b := by
  rcases Nat.even_or_odd' a with ⟨k, rfl | rfl⟩
  · rw [show (2 * k ||| 1) = 2 * k + 1 by
      rw [← Nat.two_pow_add_eq_or_of_lt (i := 1) (by norm_num) k]]
    omega
  · rw [show ((2 * k + 1) ||| 1) = 2 * k + 1 by
      apply Nat.eq_of_testBit_eq
      intro i
      rw [Nat.testBit_or]
      rcases i with _ | i
      · simp
      · simp [Nat.testBit_succ]]
    omega

/-- C86: for regular types the property holds, and all others raise `ValueError`.  What is missing are none types, where it
fails in dimension one. -/
theorem C86_supported_partial (t : GeometryType) (ht : Regular t) :
    (∀ m v, select t = .ok (m, v) ↔ ∃ t₀, (t₀, m, v) ∈ shapes ∧ eq t t₀ = true) ∧
    ((¬ ∃ p ∈ shapes, eq t p.1 = true) → select t = .error .valueError) := by
  obtain ⟨hn, hid⟩ := ht
  have e1 : (t.id ||| 1) = 1 ↔ t.id / 2 = 0 := or_one 0
  have e2 : (t.id ||| 1) = 3 ↔ t.id / 2 = 1 := or_one 1
  have e3 : (t.id ||| 1) = 5 ↔ t.id / 2 = 2 := or_one 2
  have e4 : (t.id ||| 1) = 7 ↔ t.id / 2 = 3 := or_one 3
  have key : ∀ a b, eq t ⟨a, false, b⟩ = true ↔ t.dim = a ∧ t.id / 2 = b / 2 := by
    intro a b
    rw [eq_iff]
    simp [hn]
  have h1 : t.dim = 1 → t.id / 2 = 0 := fun h => by rw [h] at hid; omega
  simp only [select, isLine, isTriangle, isQuadrilateral, isTetrahedron, isHexahedron, isPyramid, isPrism, hn, Bool.not_false,
    Bool.true_and, Bool.and_eq_true, beq_iff_eq, e1, e2, e3, e4]
  constructor
  · intro m v
    simp only [shapes, List.mem_cons, List.not_mem_nil, Prod.mk.injEq, or_false]
    constructor
    · intro h
      split_ifs at h with c1 c2 c3 c4 c5 c6 c7
      · injection h with h; cases h
        exact ⟨_, Or.inl ⟨rfl, rfl, rfl⟩, (key _ _).2 ⟨c1, h1 c1⟩⟩
      · injection h with h; cases h
        exact ⟨_, Or.inr (Or.inl ⟨rfl, rfl, rfl⟩), (key _ _).2 c2⟩
      · injection h with h; cases h
        exact ⟨_, Or.inr (Or.inr (Or.inl ⟨rfl, rfl, rfl⟩)), (key _ _).2 c3⟩
      · injection h with h; cases h
        exact ⟨_, Or.inr (Or.inr (Or.inr (Or.inl ⟨rfl, rfl, rfl⟩))), (key _ _).2 c4⟩
      · injection h with h; cases h
        exact ⟨_, Or.inr (Or.inr (Or.inr (Or.inr ⟨rfl, rfl, rfl⟩))), (key _ _).2 c5⟩
    · rintro ⟨t₀, ⟨rfl, rfl, rfl⟩ | ⟨rfl, rfl, rfl⟩ | ⟨rfl, rfl, rfl⟩ | ⟨rfl, rfl, rfl⟩ | ⟨rfl, rfl, rfl⟩, h⟩ <;>
        rw [key] at h <;> obtain ⟨ha, hb⟩ := h <;> norm_num only at hb <;> simp only [ha, hb] <;> rfl
  · intro h
    simp only [shapes, List.mem_cons, List.not_mem_nil, or_false, exists_eq_or_imp, exists_eq_left, key, not_or] at h
    obtain ⟨g1, g2, g3, g4, g5⟩ := h
    rw [if_neg fun c => g1 ⟨c, h1 c⟩, if_neg g2, if_neg g3, if_neg g4, if_neg g5]
    split_ifs <;> rfl

example : Regular ⟨2, false, 2⟩ ∧ select ⟨2, false, 2⟩ = .ok (.quadrilateral, .package) ∧ Regular pyramid ∧
    select pyramid = .error .valueError := ⟨⟨rfl, by decide⟩, by decide, ⟨rfl, by decide⟩, by decide⟩

/-- C86: vertices that are given as a list are the corners of the reference element, in the same order -/
theorem C86_vertices (t : GeometryType) (m : Mod) (l : List (List Int)) (h : (t, m, Vertices.list l) ∈ shapes) (i : Nat) :
    (∃ c, (referenceCorners (K := ℚ) t.dim t.id)[i]? = some c ∧ ∃ p, l[i]? = some p ∧ p.length = t.dim ∧
      ∀ k < t.dim, c k = (p.getD k 0 : Int)) ∨ (l.length ≤ i ∧ (referenceCorners (K := ℚ) t.dim t.id).length ≤ i) := by
  simp only [shapes, List.mem_cons, List.not_mem_nil, Prod.mk.injEq, or_false, Vertices.list.injEq, reduceCtorEq, and_false,
    false_or] at h
  rcases h with ⟨rfl, -, rfl⟩ | ⟨rfl, -, rfl⟩ | ⟨rfl, -, rfl⟩
  · rcases i with _ | _ | i
    · exact Or.inl ⟨_, rfl, _, rfl, rfl, fun k hk => by interval_cases k; rfl⟩
    · exact Or.inl ⟨_, rfl, _, rfl, rfl, fun k hk => by interval_cases k; rfl⟩
    · exact Or.inr ⟨by simp, show 2 ≤ i + 1 + 1 by omega⟩
  · rcases i with _ | _ | _ | i
    · exact Or.inl ⟨_, rfl, _, rfl, rfl, fun k hk => by interval_cases k <;> rfl⟩
    · exact Or.inl ⟨_, rfl, _, rfl, rfl, fun k hk => by interval_cases k <;> rfl⟩
    · exact Or.inl ⟨_, rfl, _, rfl, rfl, fun k hk => by interval_cases k <;> rfl⟩
    · exact Or.inr ⟨by simp, show 3 ≤ i + 1 + 1 + 1 by omega⟩
  · rcases i with _ | _ | _ | _ | i
    · exact Or.inl ⟨_, rfl, _, rfl, rfl, fun k hk => by interval_cases k <;> rfl⟩
    · exact Or.inl ⟨_, rfl, _, rfl, rfl, fun k hk => by interval_cases k <;> rfl⟩
    · exact Or.inl ⟨_, rfl, _, rfl, rfl, fun k hk => by interval_cases k <;> rfl⟩
    · exact Or.inl ⟨_, rfl, _, rfl, rfl, fun k hk => by interval_cases k <;> rfl⟩
    · exact Or.inr ⟨by simp, show 4 ≤ i + 1 + 1 + 1 + 1 by omega⟩

/-! ## The cache -/

/-- what the cache promises -/
structure Inv (lib : Library S D) (s : State S D) : Prop where
  entry : ∀ e ∈ s.cache.entries, Known e.1.1 ∧ e.2.serial < s.created ∧ (emptyMethod e.1.2.2 && emptyOrder e.1.2.1) = false ∧
    ∃ m v, select e.1.1 = .ok (m, v) ∧ Quadrature.mk' lib e.2.serial m e.1.2.1 e.1.2.2 v = .ok e.2
  apart : s.cache.entries.Pairwise fun a b => a.2.serial ≠ b.2.serial

theorem mk_serial {lib : Library S D} {n : Nat} {m : Mod} {o : Option Int} {me : Option Str} {v : Vertices} {q : Quadrature S D}
    (h : Quadrature.mk' lib n m o me v = .ok q) : q.serial = n := by
  unfold Quadrature.mk' at h
  split at h
  · cases h
  · split at h
    · cases h
    · split at h
      · cases h
      · cases h; rfl

theorem mk_content {lib : Library S D} (n n' : Nat) (m : Mod) (o : Option Int) (me : Option Str) (v : Vertices) :
    content ((Quadrature.mk' lib n m o me v).map Ret.rule) = content ((Quadrature.mk' lib n' m o me v).map Ret.rule) := by
  rcases me with _ | me
  · rfl
  · rcases h : lib.getattr m me with _ | s
    · simp only [Quadrature.mk', h]
    · rcases h' : lib.transform m v s with e | d
      · simp only [Quadrature.mk', h, h']
      · simp only [Quadrature.mk', h, h']
        rfl

/-- the cases of a call -/
theorem rule_cases (lib : Library S D) (s : State S D) (a : Arg) (desc : Desc) :
    (∃ q, s.cache.get (sameKey th) (a.gt, desc) = some q ∧ rule th lib s a desc = (.ok (.rule q), s)) ∨
    (s.cache.get (sameKey th) (a.gt, desc) = none ∧
      ((∃ e, select a.gt = .error e ∧ rule th lib s a desc = (.error e, s)) ∨
       ∃ m v, select a.gt = .ok (m, v) ∧
        (((emptyMethod desc.2 && emptyOrder desc.1) = true ∧ rule th lib s a desc = (.ok (.module m), s)) ∨
         ((emptyMethod desc.2 && emptyOrder desc.1) = false ∧
          ((∃ e, Quadrature.mk' lib s.created m desc.1 desc.2 v = .error e ∧ rule th lib s a desc = (.error e, s)) ∨
           ∃ q, Quadrature.mk' lib s.created m desc.1 desc.2 v = .ok q ∧
            rule th lib s a desc = (.ok (.rule q), ⟨⟨s.cache.entries ++ [((a.gt, desc), q)]⟩, s.created + 1⟩)))))) := by
  rcases h : s.cache.get (sameKey th) (a.gt, desc) with _ | q
  · right
    refine ⟨rfl, ?_⟩
    rcases h1 : select a.gt with e | ⟨m, v⟩
    · exact Or.inl ⟨e, rfl, by simp only [rule, h, h1]⟩
    · refine Or.inr ⟨m, v, rfl, ?_⟩
      rcases h2 : emptyMethod desc.2 && emptyOrder desc.1 with _ | _
      · refine Or.inr ⟨rfl, ?_⟩
        rcases h3 : Quadrature.mk' lib s.created m desc.1 desc.2 v with e | q
        · exact Or.inl ⟨e, rfl, by simp [rule, h, h1, h2, h3]⟩
        · exact Or.inr ⟨q, rfl, by simp [rule, h, h1, h2, h3, set_miss h]⟩
      · exact Or.inl ⟨rfl, by simp [rule, h, h1, h2]⟩
  · exact Or.inl ⟨q, rfl, by simp only [rule, h]⟩

theorem rule_inv {lib : Library S D} {s : State S D} (hs : Inv lib s) (a : Arg) (desc : Desc) (ha : Known a.gt) :
    Inv lib (rule th lib s a desc).2 := by
  rcases rule_cases (th := th) lib s a desc with ⟨q, -, e⟩ | ⟨-, ⟨x, -, e⟩ | ⟨m, v, h1, ⟨-, e⟩ | ⟨h2, ⟨x, -, e⟩ | ⟨q, h3, e⟩⟩⟩⟩ <;>
    rw [e] <;> try exact hs
  constructor
  · intro p hp
    rcases List.mem_append.1 hp with hp | hp
    · obtain ⟨g1, g2, g3⟩ := hs.entry p hp
      exact ⟨g1, Nat.lt_succ_of_lt g2, g3⟩
    · rw [List.mem_singleton.1 hp]
      have := mk_serial h3
      exact ⟨ha, by dsimp only; omega, h2, m, v, h1, by rw [this]; exact h3⟩
  · refine List.pairwise_append.2 ⟨hs.apart, List.pairwise_singleton _ _, ?_⟩
    intro x hx y hy
    rw [List.mem_singleton.1 hy]
    have := (hs.entry x hx).2.1
    have := mk_serial h3
    dsimp only
    omega

theorem run_inv (lib : Library S D) (hist : List (Arg × Desc)) (hh : ∀ r ∈ hist, Known r.1.gt) : Inv lib (run th lib hist) := by
  have : ∀ (l : List (Arg × Desc)) (s : State S D), Inv lib s → (∀ r ∈ l, Known r.1.gt) →
      Inv lib (l.foldl (fun s r => (rule th lib s r.1 r.2).2) s) := by
    intro l
    induction l with
    | nil => exact fun s hs _ => hs
    | cons r l ih =>
      intro s hs h
      exact ih _ (rule_inv hs _ _ (h r (by simp))) fun r' h' => h r' (by simp [h'])
  exact this hist _ ⟨nofun, List.Pairwise.nil⟩ hh

/-- types with the same hash are treated alike -/
theorem select_congr {a b : GeometryType} (hd : a.dim = b.dim) (h : eq a b = true) : select a = select b := by
  rw [eq_iff] at h
  obtain ⟨hn, h⟩ := h
  have e : ∀ k, (a.isNone = false → ((a.id ||| 1) = 2 * k + 1 ↔ (b.id ||| 1) = 2 * k + 1)) := by
    intro k ha
    rw [or_one, or_one, (h.resolve_left (by rw [ha]; decide)).2]
  rcases hb : a.isNone with _ | _
  · have e1 := e 0 hb
    have e2 := e 1 hb
    have e3 := e 2 hb
    have e4 := e 3 hb
    norm_num at e1 e2 e3 e4
    simp only [select, isLine, isTriangle, isQuadrilateral, isTetrahedron, isHexahedron, isPyramid, isPrism, ← hn, hb, hd,
      Bool.and_eq_true, beq_iff_eq, e1, e2, e3, e4]
  · simp only [select, isLine, isTriangle, isQuadrilateral, isTetrahedron, isHexahedron, isPyramid, isPrism, ← hn, hb, hd,
      Bool.not_true, Bool.false_and]

theorem key_same (hth : ∀ o a b, th a o = th b o → a = b) {a b : GeometryType} (ha : Known a) (hb : Known b) (o o' : Desc) :
    sameKey th (a, o) (b, o') = true ↔ a.dim = b.dim ∧ eq a b = true ∧ o = o' := by
  obtain ⟨d, hd, ha⟩ := ha
  obtain ⟨e, he, hb⟩ := hb
  have := (C65_hash_partial d e a b hd he ha hb).1
  simp only [sameKey, Bool.and_eq_true, beq_iff_eq]
  constructor
  · rintro ⟨h1, h2, rfl⟩
    exact ⟨(this.1 (hth _ _ _ h1)).1, h2, rfl⟩
  · rintro ⟨h1, h2, rfl⟩
    exact ⟨by rw [this.2 ⟨h1, h2⟩], h2, rfl⟩

/-- C86: what has been asked before does not change the answer (up to the identity of the object): neither the result nor
the exception -/
theorem C86_transparent (hth : ∀ o a b, th a o = th b o → a = b) (lib : Library S D) (hist : List (Arg × Desc))
    (hh : ∀ r ∈ hist, Known r.1.gt) (a : Arg) (ha : Known a.gt) (desc : Desc) :
    content (rule th lib (run th lib hist) a desc).1 = content (rule th lib .empty a desc).1 := by
  have hi := run_inv (th := th) lib hist hh
  generalize run th lib hist = s at hi
  have e0 : ∀ (s : State S D), s.cache.get (sameKey th) (a.gt, desc) = none →
      content (rule th lib s a desc).1 = match select a.gt with
        | .error e => .error e
        | .ok (m, v) => if emptyMethod desc.2 && emptyOrder desc.1 then .ok (.module m) else
            content ((Quadrature.mk' lib 0 m desc.1 desc.2 v).map Ret.rule) := by
    intro s hs
    rcases rule_cases (th := th) lib s a desc with ⟨q, h, -⟩ | ⟨-, ⟨x, h1, e⟩ | ⟨m, v, h1, ⟨h2, e⟩ | ⟨h2, ⟨x, h3, e⟩ | ⟨q, h3, e⟩⟩⟩⟩
    · rw [hs] at h; cases h
    · rw [e, h1]; rfl
    · rw [e, h1]; simp only [h2]; rfl
    · rw [e, h1]; simp only [h2]
      rw [if_neg (by decide), mk_content 0 s.created, h3]; rfl
    · rw [e, h1]; simp only [h2]
      rw [if_neg (by decide), mk_content 0 s.created, h3]; rfl
  rw [e0 .empty rfl]
  rcases hc : s.cache.get (sameKey th) (a.gt, desc) with _ | q
  · exact e0 s hc
  · obtain ⟨⟨t', o'⟩, h1, h2⟩ := get_some hc
    obtain ⟨hk, -, hne, m, v, hs, hm⟩ := hi.entry _ h1
    obtain ⟨hd, he, rfl⟩ := (key_same hth hk ha _ _).1 h2
    dsimp only at hne hs hm
    rw [← select_congr hd he, hs]
    simp only [hne]
    rw [if_neg (by decide), mk_content 0 q.serial, hm, rule]
    simp only [hc]
    rfl

/-- the dictionary keeps its entries -/
theorem keep {lib : Library S D} {s : State S D} {k : GeometryType × Desc} {q : Quadrature S D}
    (h : s.cache.get (sameKey th) k = some q) (a : Arg) (desc : Desc) :
    (rule th lib s a desc).2.cache.get (sameKey th) k = some q := by
  rcases rule_cases (th := th) lib s a desc with ⟨x, -, e⟩ | ⟨-, ⟨x, -, e⟩ | ⟨m, v, h1, ⟨-, e⟩ | ⟨h2, ⟨x, -, e⟩ | ⟨x, h3, e⟩⟩⟩⟩ <;>
    rw [e]
  · exact h
  · exact h
  · exact h
  · exact h
  · exact find_append _ h

/-- C86: asking again gives the same object, whatever is asked in between and even if the type is given in another way -/
theorem C86_same_object (hth : ∀ o a b, th a o = th b o → a = b) (lib : Library S D) (before between : List (Arg × Desc))
    (hh : ∀ r ∈ before, Known r.1.gt) (a b : Arg) (ha : Known a.gt) (hb : Known b.gt) (hd : a.gt.dim = b.gt.dim)
    (he : eq a.gt b.gt = true) (desc : Desc) (q : Quadrature S D)
    (h : (rule th lib (run th lib before) a desc).1 = .ok (.rule q)) :
    (rule th lib (run th lib (before ++ (a, desc) :: between)) b desc).1 = .ok (.rule q) := by
  have hi := run_inv (th := th) lib before hh
  rw [run, List.foldl_append, List.foldl_cons]
  rw [run] at h hi
  generalize before.foldl (fun s r => (rule th lib s r.1 r.2).2) .empty = s at h hi
  have tr : ∀ k, Known k.1 → sameKey th k (a.gt, desc) = sameKey th k (b.gt, desc) := by
    intro k hk
    rw [Bool.eq_iff_iff, show k = (k.1, k.2) from rfl, key_same hth hk ha, key_same hth hk hb]
    obtain ⟨-, e1, e2, -⟩ := C02_eq_equivalence
    constructor
    · rintro ⟨h1, h2, h3⟩
      exact ⟨h1.trans hd, e2 _ _ _ h2 he, h3⟩
    · rintro ⟨h1, h2, h3⟩
      exact ⟨h1.trans hd.symm, e2 _ _ _ h2 (e1 _ _ he), h3⟩
  have g1 : (rule th lib s a desc).2.cache.get (sameKey th) (b.gt, desc) = some q := by
    have hi' := rule_inv (th := th) hi a desc ha
    have e : (rule th lib s a desc).2.cache.get (sameKey th) (b.gt, desc) =
        (rule th lib s a desc).2.cache.get (sameKey th) (a.gt, desc) := by
      simp only [Dict.get]
      congr 1
      refine List.find?_congr fun x hx => ?_
      exact (tr x.1 (hi'.entry x hx).1).symm
    rw [e]
    rcases rule_cases (th := th) lib s a desc with ⟨x, g, e⟩ | ⟨g, ⟨x, -, e⟩ | ⟨m, v, h1, ⟨-, e⟩ | ⟨h2, ⟨x, -, e⟩ | ⟨x, h3, e⟩⟩⟩⟩ <;>
      rw [e] at h ⊢
    · cases h; exact g
    · cases h
    · cases h
    · cases h
    · cases h
      simp only [Dict.get, List.find?_append]
      have g' : s.cache.entries.find? (fun e => sameKey th e.1 (a.gt, desc)) = none := by simpa [Dict.get] using g
      rw [g']
      simp [(key_same hth ha ha desc desc).2 ⟨rfl, C02_eq_equivalence.1 _, rfl⟩]
  have g2 : ∀ (l : List (Arg × Desc)) (s : State S D), s.cache.get (sameKey th) (b.gt, desc) = some q →
      (l.foldl (fun s r => (rule th lib s r.1 r.2).2) s).cache.get (sameKey th) (b.gt, desc) = some q := by
    intro l
    induction l with
    | nil => exact fun s h => h
    | cons r l ih => exact fun s h => ih _ (keep h _ _)
  have g3 := g2 between _ g1
  rw [rule]
  simp only [g3]

/-- C86: different requests are answered with different objects -/
theorem C86_different_objects (hth : ∀ o a b, th a o = th b o → a = b) (lib : Library S D) (hist : List (Arg × Desc))
    (hh : ∀ r ∈ hist, Known r.1.gt) (a b : Arg) (ha : Known a.gt) (hb : Known b.gt) (x y : Desc) (p q : Quadrature S D)
    (hp : (rule th lib (run th lib hist) a x).1 = .ok (.rule p))
    (hq : (rule th lib (rule th lib (run th lib hist) a x).2 b y).1 = .ok (.rule q)) :
    p.serial = q.serial ↔ a.gt.dim = b.gt.dim ∧ eq a.gt b.gt = true ∧ x = y := by
  constructor
  · intro h
    have hi := rule_inv (th := th) (run_inv (th := th) lib hist hh) a x ha
    have g1 : ∃ k, Known k ∧ sameKey th (k, x) (a.gt, x) = true ∧ ((k, x), p) ∈ (rule th lib (run th lib hist) a x).2.cache.entries := by
      have hi0 := run_inv (th := th) lib hist hh
      generalize run th lib hist = s at hp hi0 ⊢
      rcases rule_cases (th := th) lib s a x with ⟨z, g, e⟩ | ⟨g, ⟨z, -, e⟩ | ⟨m, v, h1, ⟨-, e⟩ | ⟨h2, ⟨z, -, e⟩ | ⟨z, h3, e⟩⟩⟩⟩ <;>
        rw [e] at hp ⊢
      · cases hp
        obtain ⟨⟨k, o⟩, k1, k2⟩ := get_some g
        have k3 := (hi0.entry _ k1).1
        obtain ⟨k4, k5, rfl⟩ := (key_same hth k3 ha _ _).1 k2
        exact ⟨k, k3, k2, k1⟩
      · cases hp
      · cases hp
      · cases hp
      · cases hp
        exact ⟨a.gt, ha, (key_same hth ha ha _ _).2 ⟨rfl, C02_eq_equivalence.1 _, rfl⟩, by simp⟩
    generalize (rule th lib (run th lib hist) a x).2 = s at hq hi g1
    obtain ⟨k, k1, k2, k3⟩ := g1
    rcases rule_cases (th := th) lib s b y with ⟨z, g, e⟩ | ⟨g, ⟨z, -, e⟩ | ⟨m, v, h1, ⟨-, e⟩ | ⟨h2, ⟨z, -, e⟩ | ⟨z, h3, e⟩⟩⟩⟩ <;>
      rw [e] at hq
    · cases hq
      obtain ⟨⟨k', o⟩, j1, j2⟩ := get_some g
      have j3 := (hi.entry _ j1).1
      obtain ⟨j4, j5, rfl⟩ := (key_same hth j3 hb _ _).1 j2
      have : ((k, x), p) = ((k', o), q) := by
        by_contra hne
        have : Std.Symm fun a b : (GeometryType × Desc) × Quadrature S D => a.2.serial ≠ b.2.serial := ⟨fun _ _ h => h.symm⟩
        exact hi.apart.forall k3 j1 hne h
      cases this
      obtain ⟨i1, i2, -⟩ := (key_same hth k1 ha _ _).1 k2
      obtain ⟨-, e1, e2, -⟩ := C02_eq_equivalence
      exact ⟨i1.symm.trans j4, e2 _ _ _ (e1 _ _ i2) j5, rfl⟩
    · cases hq
    · cases hq
    · cases hq
    · cases hq
      have := (hi.entry _ k3).2.1
      have := mk_serial h3
      dsimp only at *
      omega
  · rintro ⟨h1, h2, rfl⟩
    have := C86_same_object hth lib hist [] hh a b ha hb h1 h2 x p hp
    rw [run, List.foldl_append] at this
    rw [run] at hq
    simp only [List.foldl_cons, List.foldl_nil] at this
    rw [this] at hq
    cases hq
    rfl

/-- C86: an exception leaves the cache as it was -/
theorem C86_failure (lib : Library S D) (s : State S D) (a : Arg) (desc : Desc) (e : Exc)
    (h : (rule th lib s a desc).1 = .error e) : (rule th lib s a desc).2 = s := by
  rcases rule_cases (th := th) lib s a desc with ⟨z, g, e⟩ | ⟨g, ⟨z, -, e⟩ | ⟨m, v, h1, ⟨-, e⟩ | ⟨h2, ⟨z, -, e⟩ | ⟨z, h3, e⟩⟩⟩⟩ <;>
    rw [e] at h ⊢
  cases h

/-! ## Order and method -/

/-- C86: a rule has at least the requested order -/
def C86_order_full : Prop :=
  ∀ (S D : Type) (th : Option Nat → Desc → Nat) (lib : Library S D) (s : State S D) (a : Arg) (o : Int) (m : Option Str)
    (q : Quadrature S D), Inv lib s → Known a.gt → (rule th lib s a (some o, m)).1 = .ok (.rule q) → o ≤ q.order lib

/-- a package whose only scheme is the midpoint rule -/
def midpointLib : Library Int Unit where
  getattr := fun _ m => if m = "midpoint".toList then some 1 else none
  transform := fun _ _ _ => .ok ()
  degree := fun s => s

/-- the hash of a pair, all that is needed of it -/
def someHash : Option Nat → Desc → Nat := fun a _ => match a with | none => 0 | some n => n + 1

theorem someHash_inj : ∀ o a b, someHash a o = someHash b o → a = b := by
  rintro o (_ | a) (_ | b) h <;> simp_all [someHash]

/-- C86: the requested order is not used: order 5 with the method `midpoint` gives the midpoint rule -/
theorem C86_order_counterexample : ¬ C86_order_full := by
  intro h
  have := h Int Unit someHash midpointLib .empty (.type ⟨1, false, 0⟩) 5 (some "midpoint".toList)
    ⟨0, some 5, "midpoint".toList, .line_segment, .list [[0], [1]], 1, ()⟩ ⟨nofun, List.Pairwise.nil⟩ ⟨1, by omega, by decide⟩ (by rfl)
  revert this
  decide

/-- C86: the method alone determines the scheme; the order of the rule is the degree of the scheme.  What is missing is that
it is at least the requested order. -/
theorem C86_order_partial (hth : ∀ o a b, th a o = th b o → a = b) (lib : Library S D) (hist : List (Arg × Desc))
    (hh : ∀ r ∈ hist, Known r.1.gt) (a : Arg) (ha : Known a.gt) (o : Option Int) (m : Str) (hm : m ≠ []) (quad : Mod) (v : Vertices)
    (hs : select a.gt = .ok (quad, v)) :
    (lib.getattr quad m = none → (rule th lib (run th lib hist) a (o, some m)).1 = .error .attributeError) ∧
    (∀ s, lib.getattr quad m = some s → (∀ e, lib.transform quad v s = .error e → 
      (rule th lib (run th lib hist) a (o, some m)).1 = .error e) ∧
      ∀ d, lib.transform quad v s = .ok d → ∃ q, (rule th lib (run th lib hist) a (o, some m)).1 = .ok (.rule q) ∧
        q.quadrature_ = s ∧ q.data = d ∧ q.method_ = m ∧ q.order_ = o ∧ q.order lib = lib.degree s) := by
  have h := C86_transparent hth lib hist hh a ha (o, some m)
  generalize run th lib hist = s at h
  have hem : (emptyMethod (some m) && emptyOrder o) = false := by
    have : m.isEmpty = false := by simpa using hm
    simp [emptyMethod, this]
  have h0 : (rule th lib .empty a (o, some m)).1 = (Quadrature.mk' lib 0 quad o (some m) v).map Ret.rule := by
    have : (State.empty : State S D).cache.get (sameKey th) (a.gt, o, some m) = none := rfl
    rw [rule]
    simp only [this, hs, hem]
    rw [if_neg (by decide)]
    rcases h : Quadrature.mk' lib 0 quad o (some m) v with e | q
    · simp [State.empty, h, Except.map]
    · simp [State.empty, h, Except.map]
  rw [h0] at h
  have un : ∀ {x : Except Exc (Ret S D)} {e}, content x = .error e → x = .error e := by
    rintro (_ | _ | _) e h <;> simp_all [content]
  refine ⟨fun h1 => ?_, fun s' h1 => ⟨fun e h2 => ?_, fun d h2 => ?_⟩⟩
  · refine un ?_
    rw [h]
    simp only [Quadrature.mk', h1]
    rfl
  · refine un ?_
    rw [h]
    simp only [Quadrature.mk', h1, h2]
    rfl
  · simp only [Quadrature.mk', h1, h2] at h
    generalize (rule th lib s a (o, some m)).1 = x at h
    rcases x with e | m' | q
    · cases h
    · cases h
    · rcases q with ⟨q1, q2, q3, q4, q5, q6, q7⟩
      simp only [content, Except.map, Except.ok.injEq, Ret.rule.injEq, Quadrature.mk.injEq] at h
      obtain ⟨-, rfl, rfl, rfl, rfl, rfl, rfl⟩ := h
      exact ⟨_, rfl, rfl, rfl, rfl, rfl, rfl⟩

/-- C86: a call that succeeds returns a rule -/
def C86_result_full : Prop :=
  ∀ (S D : Type) (th : Option Nat → Desc → Nat) (lib : Library S D) (s : State S D) (a : Arg) (desc : Desc) (r : Ret S D),
    (rule th lib s a desc).1 = .ok r → ∃ q, r = .rule q

/-- C86: without order and method the result is a module of the package, which has no points; also for order 0 -/
theorem C86_result_counterexample : ¬ C86_result_full := by
  intro h
  obtain ⟨q, hq⟩ := h Int Unit someHash midpointLib .empty (.type ⟨1, false, 0⟩) (some 0, none) (.module .line_segment) (by rfl)
  cases hq

/-- C86: with a method the result is a rule; with an order other than zero and no method there is an exception.  What is missing
are requests without order and method. -/
theorem C86_result_partial (hth : ∀ o a b, th a o = th b o → a = b) (lib : Library S D) (hist : List (Arg × Desc))
    (hh : ∀ r ∈ hist, Known r.1.gt) (a : Arg) (ha : Known a.gt) (desc : Desc) (r : Ret S D)
    (h : (rule th lib (run th lib hist) a desc).1 = .ok r) :
    ((∃ q, r = .rule q) ↔ ¬ (emptyMethod desc.2 = true ∧ emptyOrder desc.1 = true)) ∧
    (desc.2 = none → emptyOrder desc.1 = true) := by
  have hi := run_inv (th := th) lib hist hh
  generalize run th lib hist = s at h hi
  rw [← Bool.and_eq_true]
  have nn : ∀ {n m o v q}, Quadrature.mk' lib n m o desc.2 v = .ok q → desc.2 ≠ none := by
    intro n m o v q h h'
    rw [h'] at h
    cases h
  rcases rule_cases (th := th) lib s a desc with ⟨z, g, e⟩ | ⟨g, ⟨z, -, e⟩ | ⟨m, v, h1, ⟨h2, e⟩ | ⟨h2, ⟨z, -, e⟩ | ⟨z, h3, e⟩⟩⟩⟩ <;>
    rw [e] at h
  · obtain ⟨⟨k, o⟩, k1, k2⟩ := get_some g
    obtain ⟨i1, -, i2, m, v, -, i3⟩ := hi.entry _ k1
    obtain ⟨-, -, rfl⟩ := (key_same hth i1 ha _ _).1 k2
    cases h
    refine ⟨⟨fun _ => ?_, fun _ => ⟨_, rfl⟩⟩, fun hn => absurd hn (nn i3)⟩
    dsimp only at i2
    rw [i2]; decide
  · cases h
  · cases h
    refine ⟨⟨fun ⟨q, hq⟩ => (nomatch hq), fun hn => absurd h2 hn⟩, fun _ => ?_⟩
    rw [Bool.and_eq_true] at h2
    exact h2.2
  · cases h
  · cases h
    exact ⟨⟨fun _ => by rw [h2]; decide, fun _ => ⟨_, rfl⟩⟩, fun hn => absurd hn (nn h3)⟩

/-! ## Dictionaries of methods -/

/-- C86: `rules(methods)` answers for an entity as `rule` does for its type and the method found for the type -/
def C86_rules_full : Prop :=
  ∀ (S D : Type) (th : Option Nat → Desc → Nat) (lib : Library S D) (methods : Dict Arg Desc) (s : State S D) (n : Nat)
    (t : GeometryType) (desc : Desc), methods.get sameArg (.type t) = some desc →
    rules th lib methods s (.entity n t) = rule th lib s (.type t) desc

/-- C86: a method that the package does not have is reported as a missing key of the dictionary -/
theorem C86_rules_counterexample : ¬ C86_rules_full := by
  intro h
  have h := h Int Unit someHash midpointLib ⟨[(.type ⟨1, false, 0⟩, (none, some "midpiont".toList))]⟩ .empty 0 ⟨1, false, 0⟩
    (none, some "midpiont".toList) (by decide +kernel)
  have h1 := congrArg Prod.fst h
  have e1 : (rules someHash midpointLib ⟨[(.type ⟨1, false, 0⟩, (none, some "midpiont".toList))]⟩ .empty
    (.entity 0 ⟨1, false, 0⟩)).1 = .error .keyError := by rfl
  have e2 : (rule someHash midpointLib .empty (.type ⟨1, false, 0⟩) (none, some "midpiont".toList)).1 =
    .error .attributeError := by rfl
  rw [e1, e2] at h1
  cases h1

/-- C86: unless the package raises `AttributeError`, an entity is treated as its type; a type is looked up itself; a type that the
dictionary does not have is a `KeyError`.  What is missing is `AttributeError`. -/
theorem C86_rules_partial (lib : Library S D) (methods : Dict Arg Desc) (s : State S D) (n : Nat) (t : GeometryType) :
    (∀ desc, methods.get sameArg (.type t) = some desc →
      ((rule th lib s (.type t) desc).1 ≠ .error .attributeError →
        rules th lib methods s (.entity n t) = rule th lib s (.type t) desc) ∧
      rules th lib methods s (.type t) = rule th lib s (.type t) desc) ∧
    (methods.get sameArg (.type t) = none → rules th lib methods s (.entity n t) = (.error .keyError, s) ∧
      rules th lib methods s (.type t) = (.error .keyError, s)) := by
  refine ⟨fun desc h => ⟨fun h1 => ?_, ?_⟩, fun h => ⟨?_, ?_⟩⟩
  · rw [rules]
    simp only [h]
    split
    · rename_i e; rw [e] at h1; exact absurd rfl h1
    · rfl
  · rw [rules]; simp only [h]
  · rw [rules]; simp only [h]
  · rw [rules]; simp only [h]

example : (rules someHash midpointLib ⟨[(.type ⟨2, false, 3⟩, (none, some "midpoint".toList))]⟩ .empty
    (.entity 0 ⟨2, false, 2⟩)).1 = .ok (.rule ⟨0, none, "midpoint".toList, .quadrilateral, .package, 1, ()⟩) := by rfl

example : (∀ o a b, someHash a o = someHash b o → a = b) ∧ Known ⟨2, false, 2⟩ ∧
    (rule someHash midpointLib (run someHash midpointLib [(.entity 4 ⟨2, false, 3⟩, (some 5, some "midpoint".toList))])
      (.type ⟨2, false, 2⟩) (some 5, some "midpoint".toList)).1 =
    .ok (.rule ⟨0, some 5, "midpoint".toList, .quadrilateral, .package, 1, ()⟩) := ⟨someHash_inj, ⟨2, by omega, by decide⟩, by rfl⟩

end Verif.Py.Quadpy
