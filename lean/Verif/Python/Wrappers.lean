import Verif.Python.Model
import Verif.RefElem.Model
import Mathlib.Algebra.BigOperators.Group.List.Basic

/-! Model of the remaining Python bindings: the checked access to reference elements
(dune/python/geometry/referenceelements.hh, cited as rhh), the conversion of rules to arrays
(dune/python/geometry/quadraturerules.hh, cited as qhh), the registration of geometry classes
(dune/python/geometry/multilineargeometry.hh, cited as mhh) and the pure Python caches (python/dune/geometry/__init__.py,
_referenceelements.py). -/

namespace Verif.Py

open Verif.Typ Verif.RefTopo Verif.RefGeom

variable {K : Type} [Field K]

/-! ### the C++ methods with their assertions

`d` and `id` are dimension and topology id of the reference element; `none` is a failing assertion. -/

/-- referenceelementimplementation.hh:426-430 -/
def cSize (d id : Nat) (c : Int) : Option Nat :=
  if 0 ≤ c ∧ c ≤ d then some (refSize d id c.toNat) else none

/-- `i` is a valid number in codimension `c`: the assertion that the following methods share -/
def cValid (d id : Nat) (i c : Int) : Option Unit := do
  let n ← cSize d id c
  if 0 ≤ i ∧ i < n then some () else none

/-- referenceelementimplementation.hh:443-447 with 724-728 -/
def cSize3 (d id : Nat) (i c cc : Int) : Option Nat := do
  cValid d id i c
  if 0 ≤ cc ∧ cc ≤ d then some (refSize3 d id i.toNat c.toNat cc.toNat) else none

/-- referenceelementimplementation.hh:462-466 with 730-734 -/
def cSubEntity (d id : Nat) (i c ii cc : Int) : Option Nat := do
  let n ← cSize3 d id i c cc
  if 0 ≤ ii ∧ ii < n then subEntity d id i.toNat c.toNat ii.toNat cc.toNat else none

/-- referenceelementimplementation.hh:497-501 -/
def cType (d id : Nat) (i c : Int) : Option GeometryType := do
  cValid d id i c
  some (refType d id i.toNat c.toNat)

/-- referenceelementimplementation.hh:509-513 -/
def cPosition (d id : Nat) (i c : Int) : Option (RefGeom.Vec K) := do
  cValid d id i c
  RefGeom.position d id i.toNat c.toNat

/-- referenceelementimplementation.hh:564-568 -/
def cNormal (d id : Nat) (i : Int) : Option (RefGeom.Vec K) :=
  if 0 ≤ i then (referenceIntegrationOuterNormals d d id)[i.toNat]? else none

/-! ### rhh -/

/-- continue with the value, pass exceptions and undefined behaviour on -/
def Res.bind {α β : Type} (x : Res α) (f : α → Res β) : Res β :=
  match x with
  | .ok a => f a
  | .error => .error
  | .ub => .ub

/-- rhh:33-38 `referenceElementSize ( refElement, c )` -/
def size1 (d id : Nat) (c : Int) : Res Nat :=
  if c < 0 ∨ c > d then .error else .ofOption (cSize d id c)

/-- rhh:41-49 `referenceElementSize ( refElement, i, c, cc )` -/
def size3 (d id : Nat) (i c cc : Int) : Res Nat :=
  (size1 d id c).bind fun size =>
    if i < 0 ∨ i ≥ size then .error
    else if cc < c ∨ cc > d then .error
    else .ofOption (cSize3 d id i c cc)

/-- rhh:57-63 `referenceElementSubEntity` -/
def subEntityW (d id : Nat) (i c ii cc : Int) : Res Nat :=
  (size3 d id i c cc).bind fun size =>
    if ii < 0 ∨ ii ≥ size then .error else .ofOption (cSubEntity d id i c ii cc)

/-- rhh:71-77 `referenceElementPosition` -/
def positionW (d id : Nat) (i c : Int) : Res (RefGeom.Vec K) :=
  (size1 d id c).bind fun size =>
    if i < 0 ∨ i ≥ size then .error else .ofOption (cPosition d id i c)

/-- rhh:84-90 `referenceElementType` -/
def typeW (d id : Nat) (i c : Int) : Res GeometryType :=
  (size1 d id c).bind fun size =>
    if i < 0 ∨ i ≥ size then .error else .ofOption (cType d id i c)

/-- the loops `for( int i = 0; i < size; ++i ) t[ i ] = f( i )` that fill a tuple -/
def fill {α : Type} (size : Nat) (f : Int → Option α) : Res (List α) :=
  .ofOption ((List.range size).mapM fun i : Nat => f (i : Int))

/-- rhh:126-132 `types` -/
def typesW (d id : Nat) (c : Int) : Res (List GeometryType) :=
  (size1 d id c).bind fun size => fill size fun i => cType d id i c

/-- rhh:149-155 `subEntities` -/
def subEntitiesW (d id : Nat) (i c cc : Int) : Res (List Nat) :=
  (size3 d id i c cc).bind fun size => fill size fun ii => cSubEntity d id i c ii cc

/-- rhh:170-176 `positions` -/
def positionsW (d id : Nat) (c : Int) : Res (List (RefGeom.Vec K)) :=
  (size1 d id c).bind fun size => fill size fun i => cPosition d id i c

/-- rhh:202-208 `corners` -/
def cornersW (d id : Nat) : Res (List (RefGeom.Vec K)) :=
  (Res.ofOption (cSize d id d)).bind fun size => fill size fun i => cPosition d id i d

/-- rhh:221-225 `integrationOuterNormal` (only defined for `dimension > 0`) -/
def normalW (d id : Nat) (i : Int) : Res (RefGeom.Vec K) :=
  (Res.ofOption (cSize d id 1)).bind fun size =>
    if i < 0 ∨ i ≥ size then .error else .ofOption (cNormal d id i)

/-- rhh:226-232 `integrationOuterNormals` -/
def normalsW (d id : Nat) : Res (List (RefGeom.Vec K)) :=
  (Res.ofOption (cSize d id 1)).bind fun size => fill size fun i => cNormal d id i

/-- rhh:237-242 `general`; the inner `none` is Python's `None` -/
def generalW (dim : Nat) (t : GeometryType) : Res (Option RefElem.ReferenceElement) :=
  if t.isNone then .ok none else (Res.ofOption (RefElem.general dim t)).bind fun e => .ok (some e)

/-! ### dictionaries as caches -/

/-- type.hh:218 (dune/python/geometry) `__hash__` -/
def pyHash (t : GeometryType) : Option Nat := globalIndex t

/-- A Python dictionary: the entries in order of insertion.  `same k' k` is the test by which the interpreter finds an
entry: equal hashes and `k' == k`. -/
structure Dict (κ ν : Type) where
  entries : List (κ × ν)

/-- `d[ k ]`; `none` is a `KeyError` -/
def Dict.get {κ ν : Type} (same : κ → κ → Bool) (d : Dict κ ν) (k : κ) : Option ν :=
  (d.entries.find? fun e => same e.1 k).map (·.2)

/-- `d[ k ] = v`: the key of an existing entry stays -/
def Dict.set {κ ν : Type} (same : κ → κ → Bool) (d : Dict κ ν) (k : κ) (v : ν) : Dict κ ν :=
  if d.entries.any fun e => same e.1 k then ⟨d.entries.map fun e => if same e.1 k then (e.1, v) else e⟩
  else ⟨d.entries ++ [(k, v)]⟩

/-- __init__.py:22-28 and _referenceelements.py:32-37: look up, on a miss compute and store; an exception of `compute`
passes through and leaves the dictionary alone -/
def cached {κ ν : Type} (same : κ → κ → Bool) (compute : κ → Res ν) (d : Dict κ ν) (k : κ) : Res ν × Dict κ ν :=
  match d.get same k with
  | some v => (.ok v, d)
  | none => match compute k with
    | .ok v => (.ok v, d.set same k v)
    | .error => (.error, d)
    | .ub => (.ub, d)

/-- a history of calls, from the empty dictionary -/
def after {κ ν : Type} (same : κ → κ → Bool) (compute : κ → Res ν) (hist : List κ) : Dict κ ν :=
  hist.foldl (fun d k => (cached same compute d k).2) ⟨[]⟩

/-- keys of `_duneReferenceElements` -/
def sameType (a b : GeometryType) : Bool := pyHash a == pyHash b && eq a b

/-- keys of `_duneQuadratureRules`: pairs of type and order; `th` combines the hashes of the components -/
def sameRequest (th : Option Nat → Int → Nat) (a b : GeometryType × Int) : Bool :=
  th (pyHash a.1) a.2 == th (pyHash b.1) b.2 && (eq a.1 b.1 && a.2 == b.2)

/-- _referenceelements.py:27-37 `referenceElement` -/
def referenceElement (d : Dict GeometryType (Option RefElem.ReferenceElement)) (t : GeometryType) :
    Res (Option RefElem.ReferenceElement) × Dict GeometryType (Option RefElem.ReferenceElement) :=
  cached sameType (fun t => generalW t.dim t) d t

/-! ### rules as arrays -/

/-- A rule in memory, counted in numbers of the coordinate type: point number `i` occupies `dim + 1` cells, its position
followed by its weight (quadraturerules.hh:66-125). -/
def ruleMemory (dim : Nat) (rule : List ((Nat → K) × K)) : List K :=
  rule.flatMap fun q => (List.range dim).map q.1 ++ [q.2]

/-- the array `array_t( shape, strides, ptr )` of two dimensions, read at `[ k, i ]` -/
def strided2 (mem : List K) (ptr s0 s1 k i : Nat) : Option K := mem[ptr + k * s0 + i * s1]?

/-- the array of one dimension -/
def strided1 (mem : List K) (ptr s i : Nat) : Option K := mem[ptr + i * s]?

/-- qhh:27-43 `quadratureToNumpy`: shape and contents of the two arrays.  `rule[ 0 ]` of an empty rule and `position()[ 0 ]`
of a vector without entries are undefined. -/
def toNumpy (dim : Nat) (rule : List ((Nat → K) × K)) :
    Res ((Nat × Nat × (Nat → Nat → Option K)) × (Nat × (Nat → Option K))) :=
  if rule = [] ∨ dim = 0 then .ub
  else .ok ((dim, rule.length, strided2 (ruleMemory dim rule) 0 1 (dim + 1)),
    (rule.length, strided1 (ruleMemory dim rule) dim (dim + 1)))

/-! ### integration -/

/-- What the caller passes to `integrate`: an object with an attribute `geometry`, or one without (a geometry itself); the
function is the integration element. -/
inductive Arg (K : Type) where
  | entity (ie : (Nat → K) → K)
  | geometry (ie : (Nat → K) → K)

/-- __init__.py:8-14 `_duneIntegrate`; the name `geometry` in line 13 is not bound anywhere, so that the line raises
`NameError`.  The arrays are evaluated point by point, `numpy.sum` adds up the last axis. -/
def integrateW (rule : List ((Nat → K) × K)) (e : Arg K) (f : (Nat → K) → K) : Res K :=
  match e with
  | .entity ie => .ok ((rule.map fun q => f q.1 * ie q.1 * q.2).sum)
  | .geometry _ => .error

/-! ### registration of classes -/

/-- The classes known to the interpreter with the number of times their methods have been defined. -/
abbrev Registry := Nat → Option Nat

/-- dune-common `insertClass`: the class, created if it is not known yet; the flag tells whether it has been created -/
def insertClass (r : Registry) (c : Nat) : Registry × Bool :=
  match r c with
  | some _ => (r, false)
  | none => (fun x => if x = c then some 0 else r x, true)

/-- `cls.def( .. )` -/
def define (r : Registry) (c : Nat) : Registry := fun x => if x = c then (r c).map (· + 1) else r x

/-- mhh:57-113 `registerMultiLinearGeometryType` -/
def registerMultiLinearGeometry (r : Registry) (c : Nat) : Registry :=
  let (r, inserted) := insertClass r c
  if !inserted then define r c else r

/-- qhh:108-114, the same for quadrature rules (and points, 101-106) -/
def registerQuadratureRule (r : Registry) (c : Nat) : Registry :=
  let (r, inserted) := insertClass r c
  if inserted then define r c else r

end Verif.Py
