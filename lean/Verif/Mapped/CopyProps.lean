import Verif.Mapped.CopyModel

/-! Property theorems: copies of mapped geometries (C101). -/

namespace Verif.Mapped.Copy

open Verif.RefGeom Verif.MatHelp

noncomputable section

/-! ### Specification: values -/

variable {m k n : Nat} {T : Mapping k n}

/-- what an object is meant to be: a mapping, a geometry and the flag -/
structure Value (T : Mapping k n) (m : Nat) where
  mapping : T.M
  geometry : Geo m k
  affine : Bool

/-- the geometry that is meant -/
def Value.meant (a : Value T m) : MappedGeometry m k n := ⟨T.eval a.mapping, T.deriv a.mapping, a.geometry, a.affine⟩

/-- the effect of a step on values: variables are independent of each other -/
def specStep (t : Nat → Option (Value T m)) : Op T m → Option (Nat → Option (Value T m))
  | .make v f geo affine => if (t v).isNone then some fun u => if u = v then some ⟨f, geo, affine⟩ else t u else none
  | .copy v w => if (t v).isNone ∧ (t w).isSome then some fun u => if u = v then t w else t u else none
  | .assign v w => if (t v).isSome ∧ (t w).isSome then some fun u => if u = v then t w else t u else none
  | .destroy v => if (t v).isSome then some fun u => if u = v then none else t u else none

def specRun (t : Nat → Option (Value T m)) : List (Op T m) → Option (Nat → Option (Value T m))
  | [] => some t
  | op :: ops => (specStep t op).bind fun t => specRun t ops

/-- the queries on an object give what is meant -/
def Faithful (s : State T m) (v : Nat) (a : Value T m) : Prop :=
  ∀ x, global s v x = some (a.meant.global x) ∧ jacobian s v x = some (a.meant.jacobian x)

/-- C101, full statement: after every program every living object answers as its value says. -/
def C101_full (m : Nat) (T : Mapping k n) : Prop :=
  ∀ (ops : List (Op T m)) t, specRun (fun _ => none) ops = some t →
    ∃ s, run empty ops = some s ∧ ∀ v a, t v = some a → Faithful s v a

/-! ### Proofs -/

def valueOf (o : Object T m) : Value T m := ⟨o.mapping_, o.geometry_, o.affine_⟩

def abs (s : State T m) : Nat → Option (Value T m) := fun v => (s v).map valueOf

theorem put_same (s : State T m) (v : Nat) (o : Option (Object T m)) : put s v o v = o := if_pos rfl

theorem put_other (s : State T m) {v u : Nat} (o : Option (Object T m)) (h : u ≠ v) : put s v o u = s u := if_neg h

theorem abs_put (s : State T m) (v : Nat) (o : Option (Object T m)) :
    abs (put s v o) = fun u => if u = v then o.map valueOf else abs s u := by
  funext u
  by_cases h : u = v
  · subst h; simp [abs, put]
  · simp [abs, put, h]

theorem jacobian_of {s : State T m} {v : Nat} {o : Object T m} (h : s v = some o) (x : Fin m → ℝ) :
    jacobian s v x = (derivOf s o.dMapping_).map fun f =>
      (⟨T.eval o.mapping_, T.deriv f, o.geometry_, o.affine_⟩ : MappedGeometry m k n).jacobian x := by
  simp only [jacobian, h, Option.bind_eq_bind, Option.bind_some]
  cases derivOf s o.dMapping_ <;> rfl

theorem global_of {s : State T m} {v : Nat} {o : Object T m} (h : s v = some o) (x : Fin m → ℝ) :
    global s v x = some (T.eval o.mapping_ (o.geometry_.global x)) := by
  simp only [global, h]; rfl

/-- the values of the members evolve as they should -/
theorem step_abs (s : State T m) (op : Op T m) : specStep (abs s) op = (step s op).map abs := by
  have an : ∀ {v}, s v = none → abs s v = none := fun h => by simp [abs, h]
  have as : ∀ {v o}, s v = some o → abs s v = some (valueOf o) := fun h => by simp [abs, h]
  cases op with
  | make v f geo affine =>
    rw [specStep, step]
    cases h : s v with
    | none => rw [an h]; simp only [Option.isNone_none, if_true, Option.map_some, abs_put]; rfl
    | some o => rw [as h]; rfl
  | copy v w =>
    rw [specStep, step]
    cases h : s v with
    | none =>
      cases h' : s w with
      | none => rw [an h, an h']; simp
      | some o => rw [an h, as h']; simp [abs_put]
    | some o => rw [as h]; simp
  | assign v w =>
    rw [specStep, step]
    cases h : s v with
    | some o' =>
      cases h' : s w with
      | none => rw [as h, an h']; simp
      | some o => rw [as h, as h']; simp [abs_put]
    | none => rw [an h]; simp
  | destroy v =>
    rw [specStep, step]
    cases h : s v with
    | some o => rw [as h]; simp [abs_put]
    | none => rw [an h]; simp

theorem run_abs (ops : List (Op T m)) : ∀ s : State T m, specRun (abs s) ops = (run s ops).map abs := by
  induction ops with
  | nil => intro s; rfl
  | cons op ops ih =>
    intro s
    rw [specRun, run, step_abs]
    cases step s op with
    | none => rfl
    | some s' => exact ih s'

/-- C101: what is stored evolves as values, for all programs; in particular `global`, corners, center and the flag are never affected by
what happens to other objects. -/
theorem C101_global (ops : List (Op T m)) : (∀ t, specRun (fun _ => none) ops = some t → ∃ s, run empty ops = some s ∧
      ∀ v a, t v = some a → ∀ x, global s v x = some (a.meant.global x)) ∧
    (specRun (fun _ => none) ops = none → run (empty (T := T) (m := m)) ops = none) := by
  have h := run_abs ops (empty (T := T) (m := m))
  constructor
  · intro t ht
    have ht' : specRun (abs empty) ops = some t := ht
    rw [h] at ht'
    obtain ⟨s, hs, rfl⟩ := Option.map_eq_some_iff.1 ht'
    refine ⟨s, hs, fun v a ha x => ?_⟩
    obtain ⟨o, ho, rfl⟩ := Option.map_eq_some_iff.1 ha
    simp only [global, ho]; rfl
  · intro ht
    have ht' : specRun (abs empty) ops = none := ht
    rw [h] at ht'
    exact Option.map_eq_none_iff.1 ht'

/-- the derivative of the object at `v` reads the mapping of the object -/
def Sound (s : State T m) : Prop := ∀ v o, s v = some o → derivOf s o.dMapping_ = some o.mapping_

theorem faithful_iff (s : State T m) (v : Nat) (o : Object T m) (h : s v = some o)
    (hd : derivOf s o.dMapping_ = some o.mapping_) : Faithful s v (valueOf o) := by
  intro x
  exact ⟨global_of h x, by rw [jacobian_of h, hd]; rfl⟩

/-- nobody else reads the mapping at `v` -/
def Unread (s : State T m) (v : Nat) : Prop := ∀ u o, u ≠ v → s u = some o → o.dMapping_ ≠ .ref v

/-- an object is only destroyed or assigned to if no other object got its derivative from it -/
def Careful (s : State T m) : Op T m → Prop
  | .assign v _ => Unread s v
  | .destroy v => Unread s v
  | _ => True

theorem derivOf_put {s : State T m} {v : Nat} {o : Option (Object T m)} {d : DMap T} (h : d ≠ .ref v) :
    derivOf (put s v o) d = derivOf s d := by
  cases d with
  | own f => rfl
  | ref u =>
    have : u ≠ v := fun e => h (by rw [e])
    simp only [derivOf, put_other s o this]

theorem sound_step {s s' : State T m} {op : Op T m} (h : Sound s) (hc : Careful s op) (hs : step s op = some s') : Sound s' := by
  cases op with
  | make v f geo affine =>
    rw [step] at hs
    cases hv : s v with
    | some o => rw [hv] at hs; cases hs
    | none =>
      rw [hv] at hs
      obtain rfl := Option.some.inj hs
      intro u o hu
      by_cases huv : u = v
      · subst huv
        rw [put_same] at hu
        obtain rfl := Option.some.inj hu
        by_cases hb : T.byRef = true
        · simp [construct, hb, derivOf, put_same]
        · simp [construct, hb, derivOf]
      · rw [put_other s _ huv] at hu
        have := h u o hu
        rw [derivOf_put, this]
        intro e
        rw [e, derivOf, hv] at this
        cases this
  | copy v w =>
    rw [step] at hs
    cases hv : s v with
    | some o => rw [hv] at hs; cases hs
    | none =>
      cases hw : s w with
      | none => rw [hv, hw] at hs; cases hs
      | some o' =>
        rw [hv, hw] at hs
        obtain rfl := Option.some.inj hs
        have key : ∀ u o, s u = some o → derivOf (put s v (some o')) o.dMapping_ = some o.mapping_ := by
          intro u o hu
          have := h u o hu
          rw [derivOf_put, this]
          intro e
          rw [e, derivOf, hv] at this
          cases this
        intro u o hu
        by_cases huv : u = v
        · subst huv
          rw [put_same] at hu
          obtain rfl := Option.some.inj hu
          exact key w _ hw
        · rw [put_other s _ huv] at hu
          exact key u o hu
  | assign v w =>
    rw [step] at hs
    cases hv : s v with
    | none => rw [hv] at hs; cases hs
    | some o0 =>
      cases hw : s w with
      | none => rw [hv, hw] at hs; cases hs
      | some o' =>
        rw [hv, hw] at hs
        obtain rfl := Option.some.inj hs
        by_cases hvw : w = v
        · subst hvw
          have e : put s w (some o') = s := by
            funext u
            by_cases hu : u = w
            · subst hu; rw [put_same, hw]
            · rw [put_other s _ hu]
          rw [e]; exact h
        · intro u o hu
          by_cases huv : u = v
          · subst huv
            rw [put_same] at hu
            obtain rfl := Option.some.inj hu
            rw [derivOf_put (hc w _ hvw hw)]
            exact h w _ hw
          · rw [put_other s _ huv] at hu
            rw [derivOf_put (hc u o huv hu)]
            exact h u o hu
  | destroy v =>
    rw [step] at hs
    cases hv : s v with
    | none => rw [hv] at hs; cases hs
    | some o0 =>
      rw [hv] at hs
      obtain rfl := Option.some.inj hs
      intro u o hu
      by_cases huv : u = v
      · subst huv; rw [put_same] at hu; cases hu
      · rw [put_other s _ huv] at hu
        rw [derivOf_put (hc u o huv hu)]
        exact h u o hu

/-- all steps of the program are careful -/
def CarefulRun (s : State T m) : List (Op T m) → Prop
  | [] => True
  | op :: ops => Careful s op ∧ ∀ s', step s op = some s' → CarefulRun s' ops

theorem sound_run (ops : List (Op T m)) : ∀ s s' : State T m, Sound s → CarefulRun s ops → run s ops = some s' → Sound s' := by
  induction ops with
  | nil => intro s s' h _ hr; rw [run] at hr; rwa [← Option.some.inj hr]
  | cons op ops ih =>
    intro s s' h ⟨hc, hr'⟩ hr
    rw [run] at hr
    cases hs : step s op with
    | none => rw [hs] at hr; cases hr
    | some s1 =>
      rw [hs] at hr
      exact ih s1 s' (sound_step h hc hs) (hr' s1 hs) hr

/-- C101, partial.  Missing: programs that destroy, or assign to, an object while a copy of it lives, with a mapping whose `derivative`
holds a reference; for these the full statement is wrong (`C101_dangling`, `C101_counterexample`). -/
theorem C101_partial (ops : List (Op T m)) (hc : CarefulRun (empty (T := T) (m := m)) ops) (t : Nat → Option (Value T m))
    (ht : specRun (fun _ => none) ops = some t) : ∃ s, run empty ops = some s ∧ ∀ v a, t v = some a → Faithful s v a := by
  have ht' : specRun (abs empty) ops = some t := ht
  rw [run_abs] at ht'
  obtain ⟨s, hs, rfl⟩ := Option.map_eq_some_iff.1 ht'
  refine ⟨s, hs, fun v a ha => ?_⟩
  obtain ⟨o, ho, rfl⟩ := Option.map_eq_some_iff.1 ha
  exact faithful_iff s v o ho (sound_run ops empty s (fun v o h => by cases h) hc hs v o ho)

/-- objects that hold their derivative by value -/
theorem careful_value (hb : T.byRef = false) (ops : List (Op T m)) : ∀ s : State T m,
    (∀ v o, s v = some o → ∃ f, o.dMapping_ = .own f) → CarefulRun s ops := by
  induction ops with
  | nil => intro _ _; trivial
  | cons op ops ih =>
    intro s h
    have unread : ∀ v, Unread s v := fun v u o _ hu e => by
      obtain ⟨f, hf⟩ := h u o hu
      rw [hf] at e; cases e
    have keep : ∀ v o', (∀ o, o' = some o → ∃ f, o.dMapping_ = DMap.own f) → ∀ u o, put s v o' u = some o → ∃ f, o.dMapping_ = .own f := by
      intro v o' ho' u o hu
      by_cases huv : u = v
      · subst huv; rw [put_same] at hu; exact ho' o hu
      · rw [put_other s _ huv] at hu; exact h u o hu
    refine ⟨by cases op <;> first | trivial | exact unread _, fun s' hs => ih s' ?_⟩
    cases op with
    | make v f geo affine =>
      rw [step] at hs
      cases hv : s v with
      | some o => rw [hv] at hs; cases hs
      | none =>
        rw [hv] at hs
        obtain rfl := Option.some.inj hs
        exact keep v _ fun o ho => by
          obtain rfl := Option.some.inj ho
          exact ⟨f, by simp [construct, hb]⟩
    | copy v w =>
      rw [step] at hs
      cases hv : s v with
      | some o => rw [hv] at hs; cases hs
      | none =>
        cases hw : s w with
        | none => rw [hv, hw] at hs; cases hs
        | some o' =>
          rw [hv, hw] at hs
          obtain rfl := Option.some.inj hs
          exact keep v _ fun o ho => by
            obtain rfl := Option.some.inj ho
            exact h w _ hw
    | assign v w =>
      rw [step] at hs
      cases hv : s v with
      | none => rw [hv] at hs; cases hs
      | some o0 =>
        cases hw : s w with
        | none => rw [hv, hw] at hs; cases hs
        | some o' =>
          rw [hv, hw] at hs
          obtain rfl := Option.some.inj hs
          exact keep v _ fun o ho => by
            obtain rfl := Option.some.inj ho
            exact h w _ hw
    | destroy v =>
      rw [step] at hs
      cases hv : s v with
      | none => rw [hv] at hs; cases hs
      | some o0 =>
        rw [hv] at hs
        obtain rfl := Option.some.inj hs
        exact keep v _ fun o ho => by cases ho

/-- C101: mappings whose derivative holds copies: the full statement. -/
theorem C101_value (hb : T.byRef = false) : C101_full m T := fun ops t ht =>
  C101_partial ops (careful_value hb ops _ fun v o h => by cases h) t ht

/-! ### Derivatives that hold references -/

/-- C101: whatever happened before: when an object dies, the Jacobians of all objects that got their derivative from it are undefined
behaviour, while `global` still works. -/
theorem C101_dangling (s s' : State T m) (v u : Nat) (o : Object T m) (hu : s u = some o) (hne : u ≠ v)
    (hr : o.dMapping_ = .ref v) (hs : step s (.destroy v) = some s') (x : Fin m → ℝ) :
    jacobian s' u x = none ∧ global s' u x = some (T.eval o.mapping_ (o.geometry_.global x)) := by
  rw [step] at hs
  cases hv : s v with
  | none => rw [hv] at hs; cases hs
  | some o0 =>
    rw [hv] at hs
    obtain rfl := Option.some.inj hs
    have e : put s v none u = some o := by rw [put_other s _ hne, hu]
    constructor
    · rw [jacobian_of e, hr, derivOf, put_same]; rfl
    · exact global_of e x

/-- C101: when another object is assigned to it they silently use the derivative of the other mapping. -/
theorem C101_stale (s s' : State T m) (v w u : Nat) (o o' : Object T m) (hu : s u = some o) (hne : u ≠ v)
    (hr : o.dMapping_ = .ref v) (hw : s w = some o') (hs : step s (.assign v w) = some s') (x : Fin m → ℝ) :
    jacobian s' u x = some ((⟨T.eval o.mapping_, T.deriv o'.mapping_, o.geometry_, o.affine_⟩ : MappedGeometry m k n).jacobian x) ∧
    global s' u x = some (T.eval o.mapping_ (o.geometry_.global x)) := by
  rw [step] at hs
  cases hv : s v with
  | none => rw [hv] at hs; cases hs
  | some o0 =>
    rw [hv, hw] at hs
    obtain rfl := Option.some.inj hs
    have e : put s v (some o') u = some o := by rw [put_other s _ hne, hu]
    constructor
    · rw [jacobian_of e, hr, derivOf, put_same]; rfl
    · exact global_of e x

/-- C101: a function returns a copy of a local object; the copy has no Jacobian.  For every mapping whose derivative holds a reference. -/
theorem C101_returned (hb : T.byRef = true) (f : T.M) (geo : Geo m k) (affine : Bool) :
    ∃ s, run (empty (T := T) (m := m)) [.make 0 f geo affine, .copy 1 0, .destroy 0] = some s ∧ ∀ x, jacobian s 1 x = none ∧
      global s 1 x = some (T.eval f (geo.global x)) := by
  refine ⟨_, rfl, fun x => ?_⟩
  exact C101_dangling (put (put empty 0 (some (construct 0 f geo affine))) 1 (some (construct 0 f geo affine))) _ 0 1
    (construct 0 f geo affine) rfl (by decide) (by simp [construct, hb]) rfl x

/-- the program of a `std::vector` with `c` elements in use that grows: the elements are made one by one at the addresses `0..c-1`,
copied to `c..2c-1`, and the old ones destroyed -/
def vectorGrows (c : Nat) (f : Nat → T.M) (geo : Nat → Geo m k) : List (Op T m) :=
  (List.range c).map (fun i => .make i (f i) (geo i) false) ++ (List.range c).map (fun i => .copy (c + i) i) ++
    (List.range c).map fun i => .destroy i

theorem run_append (a b : List (Op T m)) : ∀ s : State T m, run s (a ++ b) = (run s a).bind fun s => run s b := by
  induction a with
  | nil => intro s; rfl
  | cons op a ih =>
    intro s
    rw [List.cons_append, run, run]
    cases step s op with
    | none => rfl
    | some s' => exact ih s'

/-- C101: a vector of mapped geometries that grows: afterwards no element has a Jacobian, all still have `global`. -/
theorem C101_vector (hb : T.byRef = true) (c : Nat) (f : Nat → T.M) (geo : Nat → Geo m k) :
    ∃ s, run (empty (T := T) (m := m)) (vectorGrows c f geo) = some s ∧ ∀ i, i < c → ∀ x, jacobian s (c + i) x = none ∧
      global s (c + i) x = some (T.eval (f i) ((geo i).global x)) := by
  let ob : Nat → Object T m := fun i => construct i (f i) (geo i) false
  have h1 : ∀ e, e ≤ c → run (empty (T := T) (m := m)) ((List.range e).map fun i => .make i (f i) (geo i) false) =
      some fun u => if u < e then some (ob u) else none := by
    intro e
    induction e with
    | zero => intro _; simp [run, empty]; rfl
    | succ e ih =>
      intro he
      rw [List.range_succ, List.map_append, run_append, ih (by omega)]
      simp only [List.map_cons, List.map_nil, Option.bind_some, run, step, lt_irrefl, if_false]
      congr 1
      funext u
      rcases lt_trichotomy u e with h | h | h
      · simp [put, h, h.ne, Nat.lt_succ_of_lt h]
      · simp [put, h, ob]
      · simp [put, h.ne', show ¬ u < e by omega, show ¬ u < e + 1 by omega]
  have h2 : ∀ e, e ≤ c → run (fun u => if u < c then some (ob u) else none) ((List.range e).map fun i => .copy (c + i) i) =
      some fun u => if u < c then some (ob u) else if u < c + e then some (ob (u - c)) else none := by
    intro e
    induction e with
    | zero =>
      intro _
      simp only [List.range_zero, List.map_nil, run, Nat.add_zero]
      congr 1
      funext u
      split <;> rfl
    | succ e ih =>
      intro he
      rw [List.range_succ, List.map_append, run_append, ih (by omega)]
      simp only [List.map_cons, List.map_nil, Option.bind_some, run, step, show ¬ c + e < c by omega, lt_irrefl, if_false,
        show e < c by omega, if_true]
      congr 1
      funext u
      by_cases h0 : u = c + e
      · subst h0; simp [put]
      · by_cases h : u < c
        · simp [put, h, h0]
        · by_cases h' : u < c + e
          · simp [put, h, h0, h', show u < c + (e + 1) by omega]
          · simp [put, h, h0, h', show ¬ u < c + (e + 1) by omega]
  have h3 : ∀ e, e ≤ c → run (fun u => if u < c then some (ob u) else if u < c + c then some (ob (u - c)) else none)
      ((List.range e).map fun i => .destroy i) =
      some fun u => if u < e then none else if u < c then some (ob u) else if u < c + c then some (ob (u - c)) else none := by
    intro e
    induction e with
    | zero => intro _; simp [run]
    | succ e ih =>
      intro he
      rw [List.range_succ, List.map_append, run_append, ih (by omega)]
      simp only [List.map_cons, List.map_nil, Option.bind_some, run, step, lt_irrefl, if_false, show e < c by omega, if_true]
      congr 1
      funext u
      rcases lt_trichotomy u e with h | h | h
      · simp [put, h, h.ne, Nat.lt_succ_of_lt h]
      · simp [put, h]
      · simp [put, h.ne', show ¬ u < e by omega, show ¬ u < e + 1 by omega]
  refine ⟨_, by rw [vectorGrows, run_append, run_append, h1 c (le_refl c), Option.bind_some, h2 c (le_refl c), Option.bind_some,
    h3 c (le_refl c)], fun i hi x => ?_⟩
  constructor
  · simp [jacobian, show ¬ c + i < c by omega, hi, ob, construct, hb, derivOf]
  · simp [global, show ¬ c + i < c by omega, hi, ob, construct]

/-- the mapping `x ↦ a x` of the line, with a derivative that refers to `a`: test/test-mappedgeometry.cc:18-46 in dimension one, `b = 0` -/
def affineMapping : Mapping 1 1 where
  M := ℝ
  eval := fun a x _ => a * x 0
  deriv := fun a _ _ _ => a
  byRef := true

/-- the reference element of dimension one as geometry -/
def line : Geo 1 1 where
  corners := 2
  corner := fun i => some fun _ => i
  center := some fun _ => 1 / 2
  global := id
  jacobian := fun _ _ _ => 1
  refCenter := some fun _ => 1 / 2

/-- C101: the full statement is wrong for a mapping of the tests; and after an assignment the Jacobian is not the derivative of `global`. -/
theorem C101_counterexample : ¬ C101_full 1 affineMapping ∧
    ∃ s, run (T := affineMapping) (m := 1) empty [.make 0 (2 : ℝ) line true, .make 2 (5 : ℝ) line true, .copy 1 0, .assign 0 2] = some s ∧
      ∀ x, global s 1 x = some (fun _ => 2 * x 0) ∧ ∃ J, jacobian s 1 x = some J ∧ J 0 0 = 5 := by
  constructor
  · intro h
    obtain ⟨s, hs, hf⟩ := h [.make 0 (2 : ℝ) line true, .copy 1 0, .destroy 0] _ rfl
    obtain ⟨s', hs', hj⟩ := C101_returned (T := affineMapping) rfl (2 : ℝ) line true
    rw [hs] at hs'
    obtain rfl := Option.some.inj hs'
    have h1 := (hf 1 ⟨(2 : ℝ), line, true⟩ (by simp) fun _ => 0).2
    rw [(hj _).1] at h1
    cases h1
  · refine ⟨_, rfl, fun x => ⟨rfl, _, rfl, ?_⟩⟩
    simp [affineMapping, line, addLoop, put, construct]

/-- `C101_partial` in use: an object, a copy, the copy dies first -/
example : CarefulRun (empty (T := affineMapping) (m := 1)) [.make 0 (2 : ℝ) line true, .copy 1 0, .destroy 1, .destroy 0] := by
  refine ⟨trivial, fun s1 h1 => ⟨trivial, fun s2 h2 => ⟨?_, fun s3 h3 => ⟨?_, fun _ _ => trivial⟩⟩⟩⟩
  · obtain rfl := Option.some.inj h1
    obtain rfl := Option.some.inj h2
    intro u o hu ho
    by_cases h : u = 0
    · subst h
      obtain rfl := Option.some.inj ho
      simp [construct, affineMapping]
    · simp [put, hu, h, empty] at ho
  · obtain rfl := Option.some.inj h1
    obtain rfl := Option.some.inj h2
    obtain rfl := Option.some.inj h3
    intro u o hu ho
    by_cases h : u = 1
    · subst h; cases ho
    · simp [put, hu, h, empty] at ho

/-- `C101_value` in use: the same mapping with a derivative that holds a copy -/
example : C101_full 1 { affineMapping with byRef := false } := C101_value rfl

end

end Verif.Mapped.Copy
