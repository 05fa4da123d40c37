import Verif.RefTopo.Model
import Verif.RefGeom.Model

/-
Model of `dune/geometry/referenceelements.hh` and of the handle class in `dune/geometry/referenceelement.hh`.

A `ReferenceElementContainer<ctype,dim>` owns two arrays.  A pointer to an implementation is its index in the
first array; there is one container per dimension (a function-local static, referenceelements.hh:185-189), so the
index identifies the implementation.  `none` in place of a result is undefined behaviour: a failed assertion or
an array access out of range.
-/

namespace Verif.RefElem

open Verif.Typ Verif.RefTopo

/-- referenceelement.hh:304, `const Implementation* _impl`; `none` is the null pointer -/
structure ReferenceElement where
  impl : Option Nat
  deriving DecidableEq

/-- referenceelement.hh:254-256 -/
def ReferenceElement.default : ReferenceElement := ⟨none⟩

/-- referenceelement.hh:269-272 -/
def ReferenceElement.equal (a b : ReferenceElement) : Bool := a.impl == b.impl

/-- referenceelement.hh:275-278 -/
def ReferenceElement.notEqual (a b : ReferenceElement) : Bool := !(a.equal b)

/-- referenceelements.hh:101-102; an implementation is represented by the topology id for which it has been
initialised, `none` before that -/
structure Container where
  implementations : List (Option Nat)
  referenceElements : List ReferenceElement

/-- the arrays before the constructor body runs -/
def Container.blank (dim : Nat) : Container :=
  ⟨List.replicate (2 ^ dim) none, List.replicate (2 ^ dim) .default⟩

/-- referenceelements.hh:56-60, one pass of the loop -/
def Container.initPass (c : Container) (topologyId : Nat) : Container :=
  ⟨c.implementations.set topologyId (some topologyId), c.referenceElements.set topologyId ⟨some topologyId⟩⟩

/-- referenceelements.hh:54-61, the constructor; `numTopologies = 1u << dim` (44) needs `dim < 32` -/
def Container.create (dim : Nat) : Option Container :=
  if dim < 32 then some ((List.range (2 ^ dim)).foldl Container.initPass (Container.blank dim)) else none

/-- referenceelements.hh:63-67, `operator()` -/
def Container.call (c : Container) (dim : Nat) (type : GeometryType) : Option ReferenceElement :=
  if type.dim = dim then c.referenceElements[type.id]? else none

/-- referenceelements.hh:69-72 -/
def Container.simplex (c : Container) (dim : Nat) : Option ReferenceElement := c.referenceElements[(Typ.simplex dim).id]?

/-- referenceelements.hh:74-77 -/
def Container.cube (c : Container) (dim : Nat) : Option ReferenceElement := do
  let t ← Typ.cube dim
  c.referenceElements[t.id]?

/-- referenceelements.hh:79-82 -/
def Container.pyramid (c : Container) : Option ReferenceElement := c.referenceElements[Typ.pyramid.id]?

/-- referenceelements.hh:84-87 -/
def Container.prism (c : Container) : Option ReferenceElement := c.referenceElements[Typ.prism.id]?

/-- referenceelements.hh:89-97, the elements from `begin()` to `end()` -/
def Container.elements (c : Container) : List ReferenceElement := c.referenceElements

/-- the implementation behind a handle (the dereferenced pointer): its topology id -/
def Container.deref (c : Container) (e : ReferenceElement) : Option Nat := do
  let i ← e.impl
  (← c.implementations[i]?)

/-- `ReferenceElement::type()` (referenceelement.hh:173-178), `type(0,0)` of the implementation
(referenceelementimplementation.hh:503-504) -/
def Container.typeOf (c : Container) (dim : Nat) (e : ReferenceElement) : Option GeometryType := do
  let id ← c.deref e
  return refType dim id 0 0

/-- referenceelements.hh:154-159, `ReferenceElements<ctype,dim>::general` -/
def general (dim : Nat) (type : GeometryType) : Option ReferenceElement := do
  let c ← Container.create dim
  c.call dim type

end Verif.RefElem
