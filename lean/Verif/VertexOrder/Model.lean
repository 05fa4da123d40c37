import Verif.RefTopo.Model
import Mathlib.Data.Int.Basic

/-!
Model of dune/geometry/generalvertexorder.hh.

Ids are values of any type with a decidable `<` (`std::count_if` only uses `<`).  `Index_` is `ℕ`: the reduced
values are smaller than the number of vertices, which is assumed to fit into `Index_`.
-/

namespace Verif.VertexOrder

open Verif.RefTopo

/-- generalvertexorder.hh:39-48 `reduceOrder`: every output is the number of inputs less than the input.  The
output range is a list. -/
def reduceOrder {α : Type} [LT α] [DecidableLT α] (l : List α) : List Nat :=
  l.map fun x => l.countP fun v => decide (v < x)

/-- hh:66-73, the members `refelem`/`gt` (dimension and topology id) and `vertexOrder`; `addr` is the address of
the object. -/
structure GeneralVertexOrder where
  dim : Nat
  id : Nat
  vertexOrder : List Nat
  addr : Nat

/-- hh:96-101, the constructor: `vertexOrder` has `refelem.size(dim)` entries (zero), the reduced ids are written to
its beginning.  Writing past the end is undefined: `none`. -/
def GeneralVertexOrder.make {α : Type} [LT α] [DecidableLT α] (d id : Nat) (ids : List α) (addr : Nat) :
    Option GeneralVertexOrder :=
  let n := refSize d id d
  if n < ids.length then none
  else some ⟨d, id, reduceOrder ids ++ List.replicate (n - ids.length) 0, addr⟩

/-- hh:147-157, the iterator.  `vertex` is a 64 bit number (`std::size_t`). -/
structure Iter where
  order : GeneralVertexOrder
  codim : Nat
  subEntity : Nat
  vertex : Nat

/-- hh:108-109 -/
def GeneralVertexOrder.begin (o : GeneralVertexOrder) (codim subEntity : Nat) : Iter := ⟨o, codim, subEntity, 0⟩

/-- hh:115-118 -/
def GeneralVertexOrder.end_ (o : GeneralVertexOrder) (codim subEntity : Nat) : Iter :=
  ⟨o, codim, subEntity, refSize3 o.dim o.id subEntity codim o.dim⟩

/-- `std::size_t` arithmetic `a + n` with a signed offset -/
def addSize (a : Nat) (n : ℤ) : Nat := (((a : ℤ) + n) % 2 ^ 64).toNat

/-- hh:160-163; `none`: out of range -/
def Iter.dereference (it : Iter) : Option Nat :=
  (RefTopo.subEntity it.order.dim it.order.id it.subEntity it.codim it.vertex it.order.dim).bind
    fun k => it.order.vertexOrder[k]?

/-- hh:164-167 -/
def Iter.elementAt (it : Iter) (n : ℤ) : Option Nat :=
  (RefTopo.subEntity it.order.dim it.order.id it.subEntity it.codim (addSize it.vertex n) it.order.dim).bind
    fun k => it.order.vertexOrder[k]?

/-- hh:168-171 -/
def Iter.equals (a b : Iter) : Bool :=
  a.order.addr == b.order.addr && a.codim == b.codim && a.subEntity == b.subEntity && a.vertex == b.vertex

/-- hh:172 -/
def Iter.increment (a : Iter) : Iter := { a with vertex := addSize a.vertex 1 }

/-- hh:173 -/
def Iter.decrement (a : Iter) : Iter := { a with vertex := addSize a.vertex (-1) }

/-- hh:174 -/
def Iter.advance (a : Iter) (n : ℤ) : Iter := { a with vertex := addSize a.vertex n }

/-- hh:175-181; `none`: the assertion fails -/
def Iter.distanceTo (a b : Iter) : Option ℤ :=
  if !(a.order.addr == b.order.addr && a.codim == b.codim && a.subEntity == b.subEntity) then none
  else if a.vertex < b.vertex then some ((b.vertex - a.vertex : Nat) : ℤ)
  else some (-((a.vertex - b.vertex : Nat) : ℤ))

/-- The traversal `for (it = begin; it != end; ++it)` of hh:42-43 over a pair of iterators, reading every element.
`none`: an element is out of range or the fuel is used up. -/
def collect : Nat → Iter → Iter → Option (List Nat)
  | 0, _, _ => none
  | fuel + 1, it, e =>
    if it.equals e then some []
    else do
      let x ← it.dereference
      let xs ← collect fuel it.increment e
      return x :: xs

/-- hh:128-134 `getReduced`; the fuel is the size of the range plus one. -/
def GeneralVertexOrder.getReduced (o : GeneralVertexOrder) (codim subEntity : Nat) : Option (List Nat) := do
  let r ← collect (refSize3 o.dim o.id subEntity codim o.dim + 1) (o.begin codim subEntity) (o.end_ codim subEntity)
  return reduceOrder r

end Verif.VertexOrder
