import Verif.MultiLinear.CachedProps

/-!
Model of the corner storage of MultiLinearGeometry and CachedMultiLinearGeometry: dune/geometry/multilineargeometry.hh
57-127 (the traits class), 241-265 and 550-565 (constructors), 281-302 (access through `std::cref(corners_).get()`),
476-477 and 722-728 (members).

A program works with arrays of corners and with variables of one instance of the class template: dimensions,
tolerance, class and kind of storage are fixed by the template arguments.  Arrays and variables have numbers; `none` in
the memory: the array does not exist (any more).  Outcome `none` of a step: undefined behaviour, i.e. access to an
array or a variable that does not exist.  Copying and assigning geometries is memberwise (neither class declares these
functions).  Storages of other types (`std::array`, own classes) behave as `copy`.
-/

namespace Verif.MultiLinear.Storage

open Verif.RefGeom Verif.MatHelp Verif.RefTopo Verif.Typ

noncomputable section

/-- the template arguments: multilineargeometry.hh:179 and 523, with `Traits::tolerance()` (60) and
`Traits::CornerStorage` (123-127: a copy; 98-103: a `std::reference_wrapper`) -/
structure Config where
  mydim : Nat
  cdim : Nat
  tol : ℝ
  /-- CachedMultiLinearGeometry -/
  caching : Bool
  /-- `std::reference_wrapper` -/
  byRef : Bool

/-- the member `corners_`, hh:477 -/
inductive Corners where
  | copy (c : Nat → Vec ℝ)
  | wrapper (a : Nat)

/-- the members: hh:476-477 and, for the caching class, 722-728 -/
structure Object where
  id : Nat
  corners_ : Corners
  jt : Mat ℝ
  jit : Mat ℝ
  detInv : ℝ
  affine_ : Bool
  jitComputed : Bool
  ieComputed : Bool

/-- memory -/
structure State where
  arrays : Nat → Option (Nat → Vec ℝ)
  vars : Nat → Option Object

/-- what a program does -/
inductive Op where
  /-- create an array or change (elements of) it -/
  | write (a : Nat) (c : Nat → Vec ℝ)
  /-- the lifetime of an array ends -/
  | free (a : Nat)
  /-- construct variable `v` from the array `a`; `jit`, `d`: the content of members that are not initialised -/
  | make (v id a : Nat) (jit : Mat ℝ) (d : ℝ)
  /-- `v = w`, or copy construction of `v` -/
  | assign (v w : Nat)
  /-- call a method of `v` -/
  | call (v : Nat) (q : Query)

variable (cfg : Config)

/-- `std::cref(corners_).get()`, hh:284, 299 -/
def deref (arrays : Nat → Option (Nat → Vec ℝ)) : Corners → Option (Nat → Vec ℝ)
  | .copy c => some c
  | .wrapper a => arrays a

/-- the base class seen through the corners -/
def base (id : Nat) (c : Nat → Vec ℝ) : MultiLinearGeometry := ⟨cfg.mydim, cfg.cdim, id, c, cfg.tol⟩

/-- the object seen through the corners -/
def view (o : Object) (c : Nat → Vec ℝ) : CachedMultiLinearGeometry :=
  ⟨base cfg o.id c, o.jt, o.jit, o.detInv, o.affine_, o.jitComputed, o.ieComputed⟩

/-- the members after a call; the base class is not changed by any method -/
def setMembers (o : Object) (c : CachedMultiLinearGeometry) : Object :=
  { o with jt := c.jt, jit := c.jit, detInv := c.detInv, affine_ := c.affine_, jitComputed := c.jitComputed,
           ieComputed := c.ieComputed }

/-- hh:241-246, 257-262 and 550-565.  The constructor of the caching class reads the corners. -/
def construct (arrays : Nat → Option (Nat → Vec ℝ)) (id a : Nat) (jit : Mat ℝ) (d : ℝ) : Option Object := do
  let c ← arrays a
  let o : Object := ⟨id, if cfg.byRef then .wrapper a else .copy c, garbage, jit, d, false, false, false⟩
  return if cfg.caching then setMembers o (.mk' (base cfg id c) jit d) else o

/-- replace one entry -/
def set {α : Type} (f : Nat → α) (i : Nat) (x : α) : Nat → α := fun j => if j = i then x else f j

/-- one operation: new state and, for a call, the answer -/
def step (s : State) : Op → Option (State × List (Answer cfg.mydim cfg.cdim))
  | .write a c => some ({ s with arrays := set s.arrays a (some c) }, [])
  | .free a => some ({ s with arrays := set s.arrays a none }, [])
  | .make v id a jit d => do
    let o ← construct cfg s.arrays id a jit d
    return ({ s with vars := set s.vars v (some o) }, [])
  | .assign v w => do
    let o ← s.vars w
    return ({ s with vars := set s.vars v (some o) }, [])
  | .call v q => do
    let o ← s.vars v
    let c ← deref s.arrays o.corners_
    if cfg.caching then
      let r := cached (m := cfg.mydim) (n := cfg.cdim) (view cfg o c) q
      return ({ s with vars := set s.vars v (some (setMembers o r.1)) }, [r.2])
    else return (s, [plain (base cfg o.id c) q])

/-- a program: the answers to all calls -/
def run : State → List Op → Option (List (Answer cfg.mydim cfg.cdim))
  | _, [] => some []
  | s, p :: ps => do
    let (s, r) ← step cfg s p
    let rs ← run s ps
    return r ++ rs

/-- nothing exists -/
def start : State := ⟨fun _ => none, fun _ => none⟩

end

end Verif.MultiLinear.Storage
