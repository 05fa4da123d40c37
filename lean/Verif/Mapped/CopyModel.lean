import Verif.Mapped.Props

/-!
Model of the members of MappedGeometry: dune/geometry/mappedgeometry.hh (cited as hh) 122-130 (constructor) and 341-353 (members).

A program works with objects of one instance of the class template.  Objects have numbers (addresses); `none` in the memory: no object
lives there.  Outcome `none` of a step or a query: undefined behaviour.  Neither copy nor move nor assignment is declared, so these are
memberwise.  The mapping is a value (`M`).  `derivative(*mapping_)` (hh:127) is a function object; it holds a copy of what it needs of
the mapping, or a reference into the mapping it was made from, as `derivative` of `AffineMapping` (test/test-mappedgeometry.cc:38-41,
`[&A=mapping.A]`) and of `LocalFiniteElementFunction` (test/localfiniteelements.hh:239-241, `[&lfe=f.lfe_, ...]`) do.  The constructor
calls it for the member `mapping_`, so the reference points into the object itself.

Simplifications: `CopyableOptional` of dune-common is a container of one value, with copy, and assignment that copies (nothing happens
if an object is assigned to itself); a moved-from mapping keeps its value, so moving is copying; the wrapped geometry is a value (see
C84 for geometries that hold references).
-/

namespace Verif.Mapped.Copy

open Verif.RefGeom Verif.MatHelp

noncomputable section

/-- the type `Map` with its `operator()` and `derivative`; `byRef`: the function object returned by `derivative` holds a reference -/
structure Mapping (k n : Nat) where
  M : Type
  eval : M → (Fin k → ℝ) → (Fin n → ℝ)
  deriv : M → (Fin k → ℝ) → Mat ℝ
  byRef : Bool

variable {m k n : Nat} (T : Mapping k n)

/-- the member `dMapping_`, hh:347: a copy, or a reference to the member `mapping_` of the object with this number -/
inductive DMap where
  | own (f : T.M)
  | ref (v : Nat)

/-- the members, hh:343-353 -/
structure Object (m : Nat) where
  mapping_ : T.M
  dMapping_ : DMap T
  geometry_ : Geo m k
  affine_ : Bool

/-- the memory -/
abbrev State (m : Nat) := Nat → Option (Object T m)

variable {T}

/-- store `o` at `v` -/
def put (s : State T m) (v : Nat) (o : Option (Object T m)) : State T m := fun u => if u = v then o else s u

/-- hh:125-130, at the address `v` -/
def construct (v : Nat) (f : T.M) (geo : Geo m k) (affine : Bool) : Object T m :=
  ⟨f, if T.byRef then .ref v else .own f, geo, affine⟩

variable (T) in
/-- what a program does -/
inductive Op (m : Nat) where
  /-- construct an object at `v` from a mapping, a geometry and the flag -/
  | make (v : Nat) (f : T.M) (geo : Geo m k) (affine : Bool)
  /-- construct an object at `v` as copy of the one at `w` -/
  | copy (v w : Nat)
  /-- assign the object at `w` to the one at `v` -/
  | assign (v w : Nat)
  /-- the lifetime of the object at `v` ends -/
  | destroy (v : Nat)

/-- one step: the members are copied one by one, so a reference in `dMapping_` is copied as it is -/
def step (s : State T m) : Op T m → Option (State T m)
  | .make v f geo affine =>
    match s v with
    | none => some (put s v (some (construct v f geo affine)))
    | some _ => none
  | .copy v w =>
    match s v, s w with
    | none, some o => some (put s v (some o))
    | _, _ => none
  | .assign v w =>
    match s v, s w with
    | some _, some o => some (put s v (some o))
    | _, _ => none
  | .destroy v =>
    match s v with
    | some _ => some (put s v none)
    | none => none

/-- a whole program -/
def run (s : State T m) : List (Op T m) → Option (State T m)
  | [] => some s
  | op :: ops => (step s op).bind fun s => run s ops

/-- nothing lives -/
def empty : State T m := fun _ => none

/-- the mapping that `dMapping_` reads -/
def derivOf (s : State T m) : DMap T → Option T.M
  | .own f => some f
  | .ref v => (s v).map (·.mapping_)

/-- hh:176-179 for the object at `v` -/
def global (s : State T m) (v : Nat) (x : Fin m → ℝ) : Option (Fin n → ℝ) := do
  let o ← s v
  return T.eval o.mapping_ (o.geometry_.global x)

/-- hh:272-277 for the object at `v` -/
def jacobian (s : State T m) (v : Nat) (x : Fin m → ℝ) : Option (Mat ℝ) := do
  let o ← s v
  let jLocal := o.geometry_.jacobian x
  let f ← derivOf s o.dMapping_
  let jMapping := T.deriv f (o.geometry_.global x)
  return fun i j => addLoop 0 0 k fun l => jMapping i l * jLocal l j

end

end Verif.Mapped.Copy
