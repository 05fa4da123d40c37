import Verif.Type.Props

/-!
Model of dune/geometry/virtualrefinement.cc ("v.cc"): the selection of a refinement at run time and the iterator wrapper that
owns its backend.  `traits` also models the selection among the `Traits` specialisations at the end of refinement/*.cc.
-/

namespace Verif.Refine.Virtual

open Verif.Typ

/-! ### selection -/

/-- the implementations -/
inductive Imp where
  | simplex | hcube | hcubeTriangulation | prismTriangulation | pyramidTriangulation
  deriving DecidableEq

/-- simplex.cc:734-748, hcube.cc:429-443, hcubetriangulation.cc:398-412, prismtriangulation.cc:395-406,
pyramidtriangulation.cc:398-409: the specialisations of `Traits` whose `enable_if` condition holds (the program is well formed if
it is exactly one) -/
def traits (dim topologyId coerceToId : Nat) : Option (List Imp) :=
  (cube dim).map fun c =>
    (if (Typ.simplex dim).id >>> 1 = topologyId >>> 1 ∧ (Typ.simplex dim).id >>> 1 = coerceToId >>> 1 then [Imp.simplex] else []) ++
    (if 2 ≤ dim ∧ c.id >>> 1 = topologyId >>> 1 ∧ c.id >>> 1 = coerceToId >>> 1 then [Imp.hcube] else []) ++
    (if 2 ≤ dim ∧ c.id >>> 1 = topologyId >>> 1 ∧ (Typ.simplex dim).id >>> 1 = coerceToId >>> 1 then [Imp.hcubeTriangulation] else []) ++
    (if dim = 3 ∧ prism.id >>> 1 = topologyId >>> 1 ∧ (Typ.simplex 3).id >>> 1 = coerceToId >>> 1 then [Imp.prismTriangulation] else []) ++
    (if dim = 3 ∧ pyramid.id >>> 1 = topologyId >>> 1 ∧ (Typ.simplex 3).id >>> 1 = coerceToId >>> 1 then [Imp.pyramidTriangulation] else [])

/-- either the singleton of `VirtualRefinementImp<topologyId, CoordType, coerceToId, dimension>`, or NotImplemented is thrown -/
inductive Result where
  | instance_ (topologyId coerceToId : Nat)
  | notImplemented
  deriving DecidableEq

/-- v.cc:518-565, the generic builder.  (For dimension 0 the two case labels coincide and the program does not compile.) -/
def buildGeneric (dimension topologyId coerceToId : Nat) : Option Result :=
  (cube dimension).bind fun c =>
    let topologyId := clearBit0 topologyId
    let coerceToId := clearBit0 coerceToId
    let idSimplex := clearBit0 (Typ.simplex dimension).id
    let idCube := clearBit0 c.id
    if idSimplex = idCube then none
    else if topologyId = idSimplex then
      if coerceToId = idSimplex then some (.instance_ idSimplex idSimplex) else some .notImplemented
    else if topologyId = idCube then
      if coerceToId = idSimplex then some (.instance_ idCube idSimplex)
      else if coerceToId = idCube then some (.instance_ idCube idCube)
      else some .notImplemented
    else some .notImplemented

/-- v.cc:567-587 -/
def build1 (topologyId coerceToId : Nat) : Option Result :=
  let topologyId := clearBit0 topologyId
  let coerceToId := clearBit0 coerceToId
  let idSimplex := clearBit0 (Typ.simplex 1).id
  if topologyId = 0 ∧ coerceToId = 0 then some (.instance_ idSimplex idSimplex) else some .notImplemented

/-- v.cc:589-662 -/
def build3 (topologyId coerceToId : Nat) : Option Result :=
  (cube 3).bind fun c =>
    let topologyId := clearBit0 topologyId
    let coerceToId := clearBit0 coerceToId
    let idSimplex := clearBit0 (Typ.simplex 3).id
    let idCube := clearBit0 c.id
    let idPrism := clearBit0 prism.id
    let idPyramid := clearBit0 pyramid.id
    if topologyId = idSimplex then
      if coerceToId = idSimplex then some (.instance_ idSimplex idSimplex) else some .notImplemented
    else if topologyId = idCube then
      if coerceToId = idSimplex then some (.instance_ idCube idSimplex)
      else if coerceToId = idCube then some (.instance_ idCube idCube)
      else some .notImplemented
    else if topologyId = idPrism then
      if coerceToId = idSimplex then some (.instance_ idPrism idSimplex) else some .notImplemented
    else if topologyId = idPyramid then
      if coerceToId = idSimplex then some (.instance_ idPyramid idSimplex) else some .notImplemented
    else some .notImplemented

/-- v.cc:502-512; `none`: assertion -/
def buildRefinement (dimension : Nat) (geometryType coerceTo : GeometryType) : Option Result :=
  if geometryType.dim = dimension ∧ coerceTo.dim = dimension then
    if dimension = 1 then build1 geometryType.id coerceTo.id
    else if dimension = 3 then build3 geometryType.id coerceTo.id
    else buildGeneric dimension geometryType.id coerceTo.id
  else none

/-! ### the iterator wrapper

`B` is the static iterator type of a refinement together with the class it belongs to (`cls`); `next` is its increment
(`none`: assertion).  The heap is a list of cells, a deleted cell holds `none`; cells are never reused. -/

structure Backend (B : Type) where
  cls : Nat
  state : B

structure State (B : Type) where
  heap : List (Option (Backend B))
  /-- the pointer member of every iterator object that is alive -/
  var : Nat → Option Nat

variable {B : Type}

/-- dereferencing a pointer; `none`: dangling -/
def deref (heap : List (Option (Backend B))) (p : Nat) : Option (Backend B) := heap[p]?.join

/-- `new`: the pointer is the old length of the list -/
def new (heap : List (Option (Backend B))) (b : Backend B) : List (Option (Backend B)) := heap ++ [some b]

/-- `delete`; `none`: dangling pointer -/
def delete (heap : List (Option (Backend B))) (p : Nat) : Option (List (Option (Backend B))) :=
  (deref heap p).map fun _ => heap.set p none

/-- the operations of a program on iterator objects, which are numbered -/
inductive Op (B : Type) where
  /-- `vBegin`, `vEnd`, `eBegin`, `eEnd` -/
  | make (v : Nat) (b : Backend B)
  | copy (v w : Nat)
  | assign (v w : Nat)
  | increment (v : Nat)
  | destroy (v : Nat)

def setVar (var : Nat → Option Nat) (v : Nat) (p : Option Nat) : Nat → Option Nat := fun i => if i = v then p else var i

/-- v.cc:35-65, 135-137: construction from a new backend.  A new object must not reuse the name of one that is alive. -/
def make (s : State B) (v : Nat) (b : Backend B) : Option (State B) :=
  if s.var v = none then some ⟨new s.heap b, setVar s.var v (some s.heap.length)⟩ else none

/-- v.cc:139-144, with `clone` from v.cc:438-443 -/
def copy (s : State B) (v w : Nat) : Option (State B) := do
  let p ← s.var w
  let b ← deref s.heap p
  if s.var v = none then some ⟨new s.heap b, setVar s.var v (some s.heap.length)⟩ else none

/-- v.cc:154-163 -/
def assign (s : State B) (v w : Nat) : Option (State B) := do
  let p ← s.var v
  let heap ← delete s.heap p
  let q ← s.var w
  let b ← deref heap q
  return ⟨new heap b, setVar s.var v (some heap.length)⟩

/-- v.cc:172-179, 460-468 -/
def increment (next : Nat → B → Option B) (s : State B) (v : Nat) : Option (State B) := do
  let p ← s.var v
  let b ← deref s.heap p
  let b' ← next b.cls b.state
  return ⟨s.heap.set p (some ⟨b.cls, b'⟩), s.var⟩

/-- v.cc:146-152 -/
def destroy (s : State B) (v : Nat) : Option (State B) := do
  let p ← s.var v
  let heap ← delete s.heap p
  return ⟨heap, setVar s.var v none⟩

def exec (next : Nat → B → Option B) (s : State B) : Op B → Option (State B)
  | .make v b => make s v b
  | .copy v w => copy s v w
  | .assign v w => assign s v w
  | .increment v => increment next s v
  | .destroy v => destroy s v

def run (next : Nat → B → Option B) : State B → List (Op B) → Option (State B)
  | s, [] => some s
  | s, op :: ops => (exec next s op).bind fun s => run next s ops

/-- what `index()`, `coords()`, `vertexIndices()` read: the backend (v.cc:96, 186, 193) -/
def State.read (s : State B) (v : Nat) : Option (Backend B) := (s.var v).bind (deref s.heap)

/-- v.cc:165-170, 445-458: equality compares the static iterators, iterators of different classes are different -/
def State.equals (eqB : Nat → B → B → Prop) (s : State B) (v w : Nat) : Option Prop := do
  let a ← s.read v
  let b ← s.read w
  return a.cls = b.cls ∧ eqB a.cls a.state b.state

def initial : State B := ⟨[], fun _ => none⟩

end Verif.Refine.Virtual
