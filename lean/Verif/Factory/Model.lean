import Verif.Type.Model

/-
Model of `dune/geometry/topologyfactory.hh`.

The underlying factory (`Traits::Factory::createObject`) is user code.  It is a program that may itself request
objects from the singleton factory, may catch what such a request throws, and finally makes an object, returns a
null pointer or throws.  What it does may depend on how often the factory has been called before.  Objects are
numbered in the order of their creation; the number stands for the address.
-/

namespace Verif.Factory

open Verif.Typ

variable {Key : Type}

/-- the three `create` methods of `TopologySingletonFactory`: with a run time type (topologyfactory.hh:88-92), with
a type id as template argument (94-99), with a topology class (102-107), of which the members `id` and
`dimension` are used -/
inductive Request (Key : Type) where
  | dynamic (gt : GeometryType) (key : Key)
  | static (geometry : GeometryType) (key : Key)
  | topology (id dimension : Nat) (key : Key)

/-- what user code in `createObject` does: `ask` is a request to the singleton factory, continued with the pointer
returned (`none` for null), or with `none` in place of a result if an exception was thrown -/
inductive Prog (Key : Type) where
  | object
  | null
  | throw
  | ask (r : Request Key) (k : Option (Option Nat) → Prog Key)

/-- an object on the heap, made by `createObject` for this type and key -/
structure Object (Key : Type) where
  type : GeometryType
  key : Key
  alive : Bool

/-- a completed call of the underlying factory, for the entry `(key, id)` of the storage; `made` tells whether it
returned an object -/
structure Call (Key : Type) where
  key : Key
  id : Nat
  made : Bool

/-- `storage_` (topologyfactory.hh:126-127, 163), a map from keys to arrays of pointers; the heap; the calls of the
underlying factory so far, in order of completion -/
structure State (Key : Type) where
  storage : List (Key × (Nat → Option Nat))
  heap : List (Object Key)
  log : List (Call Key)

/-- the state before the first call -/
def State.init : State Key := ⟨[], [], []⟩

/-- result of a request: a pointer, an exception, undefined behaviour (failed assertion, index out of range), or
unbounded recursion -/
inductive Out where
  | ok (p : Option Nat)
  | thrown
  | ub
  | diverge
  deriving DecidableEq

/-- `std::map` finds keys up to the equivalence of its comparison -/
def same (lt : Key → Key → Bool) (a b : Key) : Bool := !lt a b && !lt b a

/-- the pointer stored under `(key, id)`; null if there is no such entry -/
def lookup (lt : Key → Key → Bool) : List (Key × (Nat → Option Nat)) → Key → Nat → Option Nat
  | [], _, _ => none
  | e :: l, k, i => if same lt k e.1 then e.2 i else lookup lt l k i

/-- write to the entry `(key, id)` -/
def update (lt : Key → Key → Bool) : List (Key × (Nat → Option Nat)) → Key → Nat → Option Nat → List (Key × (Nat → Option Nat))
  | [], k, i, v => [(k, fun j => if j = i then v else none)]
  | e :: l, k, i, v =>
    if same lt k e.1 then (e.1, fun j => if j = i then v else e.2 j) :: l else e :: update lt l k i v

/-- topologyfactory.hh:131-134, `storage_[ key ]` makes an array of null pointers for a new key -/
def touch (lt : Key → Key → Bool) (l : List (Key × (Nat → Option Nat))) (k : Key) : List (Key × (Nat → Option Nat)) :=
  if l.any (fun e => same lt k e.1) then l else l ++ [(k, fun _ => none)]

/-- `Factory::release` of the object `h` (71, 114-117) -/
def release (heap : List (Object Key)) (h : Nat) : List (Object Key) :=
  heap.modify h fun o => { o with alive := false }

/-- `std::unique_ptr::reset`: stores the new pointer, then destroys the object that was owned before -/
def reset (lt : Key → Key → Bool) (s : State Key) (k : Key) (i : Nat) (p : Option Nat) : State Key :=
  { s with
    storage := update lt s.storage k i p
    heap := match lookup lt s.storage k i with
      | some h => release s.heap h
      | none => s.heap }

/-- runs `createObject`; `call` serves its requests -/
def exec (call : Request Key → State Key → Out × State Key) : Prog Key → State Key → Out × State Key
  | .object, s => (.ok (some s.heap.length), s)
  | .null, s => (.ok none, s)
  | .throw, s => (.thrown, s)
  | .ask r k, s =>
    match call r s with
    | (.ok p, s') => exec call (k (some p)) s'
    | (.thrown, s') => exec call (k none) s'
    | (.ub, s') => (.ub, s')
    | (.diverge, s') => (.diverge, s')

/-- topologyfactory.hh:136-161, the three `getObject` methods: `id` is the position in the array, `type` the
template argument with which `createObject` is called -/
def getObject (lt : Key → Key → Bool) (call : Request Key → State Key → Out × State Key)
    (factory : Nat → GeometryType → Key → Prog Key) (key : Key) (id : Nat) (type : Option GeometryType) (s : State Key) :
    Out × State Key :=
  let s := { s with storage := touch lt s.storage key }
  match lookup lt s.storage key id with
  | some h => (.ok (some h), s)
  | none =>
    match type with
    | none => (.ub, s)
    | some t =>
      match exec call (factory s.log.length t key) s with
      | (.ok (some h), s) =>
        let s := { s with heap := s.heap ++ [⟨t, key, true⟩], log := s.log ++ [⟨key, id, true⟩] }
        let s := reset lt s key id (some h)
        (.ok (lookup lt s.storage key id), s)
      | (.ok none, s) =>
        let s := { s with log := s.log ++ [⟨key, id, false⟩] }
        let s := reset lt s key id none
        (.ok (lookup lt s.storage key id), s)
      | (.thrown, s) => (.thrown, { s with log := s.log ++ [⟨key, id, false⟩] })
      | (.ub, s) => (.ub, s)
      | (.diverge, s) => (.diverge, s)

/-- topologyfactory.hh:88-107.  The run time type goes through `toGeometryTypeIdConstant< dimension >` (50-55).  The
first argument bounds the depth of nested requests.  The static versions exist only for types of the dimension;
their position in the array is not checked. -/
def create (lt : Key → Key → Bool) (dim : Nat) (factory : Nat → GeometryType → Key → Prog Key) :
    Nat → Request Key → State Key → Out × State Key
  | 0, _, s => (.diverge, s)
  | n + 1, .dynamic gt key, s =>
    if gt.id < 2 ^ dim then
      getObject lt (create lt dim factory n) factory key gt.id (toGeometryTypeIdConstant dim gt) s
    else (.ub, s)
  | n + 1, .static geometry key, s =>
    if geometry.dim = dim ∧ geometry.id < 2 ^ dim then
      getObject lt (create lt dim factory n) factory key geometry.id (some geometry) s
    else (.ub, s)
  | n + 1, .topology id dimension key, s =>
    if dimension = dim ∧ id < 2 ^ dim then
      getObject lt (create lt dim factory n) factory key id (some ⟨dim, false, id⟩) s
    else (.ub, s)

/-- a history of requests, one after the other; what a request throws is caught by the user -/
def history (lt : Key → Key → Bool) (dim : Nat) (factory : Nat → GeometryType → Key → Prog Key) (fuel : Nat) :
    List (Request Key) → State Key → List Out × State Key
  | [], s => ([], s)
  | r :: rs, s =>
    let (o, s) := create lt dim factory fuel r s
    let (os, s) := history lt dim factory fuel rs s
    (o :: os, s)

/-- topologyfactory.hh:110-111 `TopologySingletonFactory::release` -/
def singletonRelease (s : State Key) (_h : Option Nat) : State Key := s

def Request.key : Request Key → Key
  | .dynamic _ k => k
  | .static _ k => k
  | .topology _ _ k => k

/-- the topology id of the requested type -/
def Request.id : Request Key → Nat
  | .dynamic gt _ => gt.id
  | .static g _ => g.id
  | .topology i _ _ => i

/-- the requested type -/
def Request.type : Request Key → GeometryType
  | .dynamic gt _ => gt
  | .static g _ => g
  | .topology i d _ => ⟨d, false, i⟩

end Verif.Factory
