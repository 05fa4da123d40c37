/-
Model of `dune/geometry/type.hh`, `dune/geometry/typeindex.hh` and
`dune/geometry/utility/typefromvertexcount.hh`.

Conventions: `unsigned char`, `unsigned int`, `std::uint64_t` values are natural numbers; a
conversion to such a type reduces modulo 2^8, 2^32, 2^64.  A result `none` of type `Option _`
stands for undefined behaviour (shift by a negative or too large amount, signed overflow).
-/

namespace Verif.Typ

/-- type.hh:113-138.  The three data members `dim_` (unsigned char), `none_`, `topologyId_`
(unsigned int).  The width restrictions are the predicate `InRange` below. -/
structure GeometryType where
  dim : Nat
  isNone : Bool
  id : Nat
  deriving DecidableEq, Repr

/-- Values that the C++ object can hold: `dim_` is an unsigned char (8 bit), `topologyId_` an
unsigned int (32 bit). type.hh:132,138. -/
def GeometryType.InRange (g : GeometryType) : Prop := g.dim < 2 ^ 8 ∧ g.id < 2 ^ 32

instance (g : GeometryType) : Decidable g.InRange := by
  unfold GeometryType.InRange; infer_instance

/-- type.hh:242-244, constructor from topology id, dimension and none flag.  The arguments are
`unsigned int`; storing `dim` into the `unsigned char` member truncates it. -/
def mk3 (topologyId dim : Nat) (isNone : Bool) : GeometryType :=
  ⟨dim % 2 ^ 8, isNone, topologyId % 2 ^ 32⟩

/-- type.hh:251-253, constructor from topology id and dimension. -/
def mk2 (topologyId dim : Nat) : GeometryType := mk3 topologyId dim false

/-- type.hh:190-196 `operator Id`; also 210-213 `toId`.  A 64 bit number. -/
def toId (g : GeometryType) : Nat :=
  g.dim ||| ((cond g.isNone 1 0) <<< 8) ||| (g.id <<< 32)

/-- type.hh:222-226, constructor from an Id. -/
def ofId (i : Nat) : GeometryType :=
  ⟨(i &&& 0xFF) % 2 ^ 8, decide (i &&& 0x100 ≠ 0), (i >>> 32) % 2 ^ 32⟩

/-- type.hh:232-234, default constructor. -/
def default : GeometryType := ⟨0, true, 0⟩

/-- `id & ~1` on an unsigned value: clears bit 0. -/
def clearBit0 (id : Nat) : Nat := (id >>> 1) <<< 1

/-- The `int` expression `1 << d` (C++17): exact below the sign bit, `INT_MIN` for `d = 31`,
undefined for `d ≥ 32`. -/
def shl1 (d : Nat) : Option Int :=
  if d < 31 then some (2 ^ d) else if d = 31 then some (-(2 ^ 31)) else none

/-- An `int` result is only defined within the 32 bit range (signed overflow is undefined). -/
def intOk (x : Int) : Option Int := if -(2 ^ 31) ≤ x ∧ x < 2 ^ 31 then some x else none

/-- conversion of an `int` to `unsigned int`. -/
def toU32 (x : Int) : Nat := (x % 2 ^ 32).toNat

/-- conversion of an `int` to `std::size_t` (64 bit). -/
def toU64 (x : Int) : Nat := (x % 2 ^ 64).toNat

/-- The `unsigned` expression `1u << d`: undefined for a negative or too large shift.  The argument
is the (signed) shift amount. -/
def shl1u (d : Int) : Option Nat := if 0 ≤ d ∧ d < 32 then some (2 ^ d.toNat) else none

/-! ### Query methods, type.hh:279-357 -/

/-- type.hh:279-281 -/
def isVertex (g : GeometryType) : Bool := g.dim == 0
/-- type.hh:284-286 -/
def isLine (g : GeometryType) : Bool := g.dim == 1
/-- type.hh:289-291 -/
def isTriangle (g : GeometryType) : Bool := !g.isNone && g.dim == 2 && (g.id ||| 1) == 0b0001
/-- type.hh:294-296 -/
def isQuadrilateral (g : GeometryType) : Bool := !g.isNone && g.dim == 2 && (g.id ||| 1) == 0b0011
/-- type.hh:299-301 -/
def isTetrahedron (g : GeometryType) : Bool := !g.isNone && g.dim == 3 && (g.id ||| 1) == 0b0001
/-- type.hh:304-306 -/
def isPyramid (g : GeometryType) : Bool := !g.isNone && g.dim == 3 && (g.id ||| 1) == 0b0011
/-- type.hh:309-311 -/
def isPrism (g : GeometryType) : Bool := !g.isNone && g.dim == 3 && (g.id ||| 1) == 0b0101
/-- type.hh:314-316 -/
def isHexahedron (g : GeometryType) : Bool := !g.isNone && g.dim == 3 && (g.id ||| 1) == 0b0111
/-- type.hh:319-321 -/
def isSimplex (g : GeometryType) : Bool := !g.isNone && (g.id ||| 1) == 1

/-- type.hh:324-326: `! none_ && ((topologyId_ ^ ((1 << dim_)-1)) >> 1 == 0)`.  The right operand is
not evaluated for a none type. -/
def isCube (g : GeometryType) : Option Bool :=
  if g.isNone then some false else do
    let s ← shl1 g.dim
    let m ← intOk (s - 1)
    return (g.id ^^^ toU32 m) >>> 1 == 0

/-- type.hh:329-331.  `dim_-1` is an `int`, negative for dimension 0. -/
def isConical (g : GeometryType) : Option Bool :=
  if g.isNone then some false else do
    let s ← shl1u (g.dim - 1)
    return (clearBit0 g.id &&& s) == 0

/-- type.hh:337-339 -/
def isConicalStep (g : GeometryType) (step : Int) : Option Bool :=
  if g.isNone then some false else do
    let s ← shl1u step
    return (clearBit0 g.id &&& s) == 0

/-- type.hh:342-344 -/
def isPrismatic (g : GeometryType) : Option Bool :=
  if g.isNone then some false else do
    let s ← shl1u (g.dim - 1)
    return ((g.id ||| 1) &&& s) != 0

/-- type.hh:350-352 -/
def isPrismaticStep (g : GeometryType) (step : Int) : Option Bool :=
  if g.isNone then some false else do
    let s ← shl1u step
    return ((g.id ||| 1) &&& s) != 0

/-- type.hh:377-385 `operator==` -/
def eq (a b : GeometryType) : Bool :=
  (a.isNone == b.isNone) && ((a.isNone == true) || ((a.dim == b.dim) && ((a.id >>> 1) == (b.id >>> 1))))

/-- type.hh:388-390 `operator!=` -/
def ne (a b : GeometryType) : Bool := !(eq a b)

/-- `<` on C++ bools (converted to int). -/
def boolLt (a b : Bool) : Bool := !a && b

/-- type.hh:393-403 `operator<` -/
def lt (a b : GeometryType) : Bool :=
  boolLt a.isNone b.isNone ||
    (!(boolLt b.isNone a.isNone) &&
      (decide (a.dim < b.dim) || ((b.dim == a.dim) && decide ((a.id >>> 1) < (b.id >>> 1)))))

/-! ### Factories, type.hh:447-536 -/

/-- type.hh:453-456 -/
def simplex (dim : Nat) : GeometryType := mk3 0 dim false

/-- type.hh:462-465; `(1 << dim) - 1` is computed in `int`. -/
def cube (dim : Nat) : Option GeometryType :=
  if dim > 1 then do
    let s ← shl1 dim
    let m ← intOk (s - 1)
    return mk3 (toU32 m) dim false
  else some (mk3 0 dim false)

/-- type.hh:471-474 -/
def noneType (dim : Nat) : GeometryType := mk3 0 dim true

/-- type.hh:477-480 -/
def conicalExtension (g : GeometryType) : GeometryType := mk3 g.id (g.dim + 1) g.isNone

/-- type.hh:483-486; `1 << gt.dim()` is an `int` that is converted to unsigned by `|`. -/
def prismaticExtension (g : GeometryType) : Option GeometryType := do
  let s ← shl1 g.dim
  return mk3 (g.id ||| toU32 s) (g.dim + 1) g.isNone

/-- type.hh:492 -/
def vertex : GeometryType := mk3 0 0 false
/-- type.hh:498 -/
def line : GeometryType := mk3 0 1 false
/-- type.hh:504 -/
def triangle : GeometryType := simplex 2
/-- type.hh:510 -/
def quadrilateral : Option GeometryType := cube 2
/-- type.hh:516 -/
def tetrahedron : GeometryType := simplex 3
/-- type.hh:522 -/
def pyramid : GeometryType := mk3 0b0011 3 false
/-- type.hh:528 -/
def prism : GeometryType := mk3 0b0101 3 false
/-- type.hh:534 -/
def hexahedron : Option GeometryType := cube 3

/-! ### namespace Impl, type.hh:25-96 and 538-575 -/

/-- type.hh:41-44 (precondition `dim < 32`, otherwise the shift is undefined). -/
def numTopologies (dim : Nat) : Nat := 1 <<< dim

/-- type.hh:57-62.  Preconditions (asserted): `0 < dim`, `topologyId < numTopologies dim`,
`codim < dim`. -/
def implIsPyramid (topologyId dim codim : Nat) : Bool :=
  (clearBit0 topologyId &&& (1 <<< (dim - codim - 1))) == 0

/-- type.hh:75-80.  Preconditions (asserted) as before. -/
def implIsPrism (topologyId dim codim : Nat) : Bool :=
  ((topologyId ||| 1) &&& (1 <<< (dim - codim - 1))) != 0

/-- type.hh:89-94.  Preconditions (asserted): `topologyId < numTopologies dim`, `codim ≤ dim`. -/
def implBaseTopologyId (topologyId dim codim : Nat) : Nat :=
  topologyId &&& ((1 <<< (dim - codim)) - 1)

/-- type.hh:542-544.  `gt.dim()` is unsigned, so for dimension 0 the shift amount is `2^32-1`:
undefined.  For dimension 32 it is 31 and `INT_MIN - 1` overflows. -/
def getBase (g : GeometryType) : Option GeometryType :=
  if g.dim = 0 then none else do
    let s ← shl1 (g.dim - 1)
    let m ← intOk (s - 1)
    return mk3 (g.id &&& toU32 m) (g.dim - 1) g.isNone

/-- type.hh:550-574 `IfGeometryType<Operation,dim,geometryId>::apply(gt)`: returns the static type
with which `Operation` is finally invoked.  `geometry` is passed on as Id template parameter and
converted back (553).  `gt.dim()-1` is unsigned and truncated to 8 bit by the constructor. -/
def ifGeometryType : Nat → GeometryType → GeometryType → Option GeometryType
  | 0, geometry, _ => some geometry
  | d + 1, geometry, gt =>
    let lower := mk3 (gt.id >>> 1) (gt.dim + 2 ^ 32 - 1) gt.isNone
    if gt.id &&& 1 ≠ 0 then do
      let e ← prismaticExtension geometry
      ifGeometryType d (ofId (toId e)) lower
    else
      ifGeometryType d (ofId (toId (conicalExtension geometry))) lower

/-! ### typeindex.hh -/

/-- typeindex.hh:32-53 `LocalGeometryTypeIndex::regular_size`.  Computed in `int`, then converted to
`size_t`.  `>> 1` on a negative int is the arithmetic shift. -/
def regularSize (dim : Nat) : Option Nat := do
  let s ← shl1 dim
  let r ← intOk (s - s / 2)
  return toU64 r

/-- typeindex.hh:61-65 `LocalGeometryTypeIndex::size` -/
def localSize (dim : Nat) : Option Nat := do return (← regularSize dim) + 1

/-- typeindex.hh:73-76 `LocalGeometryTypeIndex::index` -/
def localIndex (g : GeometryType) : Option Nat :=
  if g.isNone then regularSize g.dim else some (g.id >>> 1)

/-- typeindex.hh:79-85 `LocalGeometryTypeIndex::type` -/
def localType (dim index : Nat) : Option GeometryType := do
  let r ← regularSize dim
  return if index = r then noneType dim else mk2 ((index <<< 1) % 2 ^ 32) dim

/-- typeindex.hh:98-106 `GlobalGeometryTypeIndex::regular_offset` -/
def regularOffset (dim : Nat) : Option Nat := do
  let s ← shl1 dim
  return toU64 (s / 2)

/-- typeindex.hh:113-117 -/
def offset (dim : Nat) : Option Nat := do return (← regularOffset dim) + dim

/-- typeindex.hh:125-128 -/
def globalSize (maxdim : Nat) : Option Nat := offset (maxdim + 1)

/-- typeindex.hh:138-141 -/
def globalIndex (g : GeometryType) : Option Nat := do
  let o ← offset g.dim
  let i ← localIndex g
  return o + i

/-- typeindex.hh:147-159 `toGeometryTypeIdConstant<dim>(gt, f)`: the type of the Id with which `f`
is called.  `switchCases` calls `callWithId` for the first element of `0..size(dim)-2` equal to the
local index, and `fallBack` (index 0) if there is none. -/
def toGeometryTypeIdConstant (dim : Nat) (g : GeometryType) : Option GeometryType := do
  let n ← localSize dim
  let idx ← localIndex g
  let case := if idx < n - 1 then idx else 0
  let t ← localType dim case
  return ofId (toId t)

/-! ### utility/typefromvertexcount.hh -/

/-- Result of `geometryTypeFromVertexCount`: a type or the exception `NotImplemented`. -/
inductive Res (α : Type) where
  | ok (a : α)
  | notImplemented
  deriving DecidableEq

/-- typefromvertexcount.hh:16-50.  (`quadrilateral`, `hexahedron` are the defined values of `cube 2`,
`cube 3`.) -/
def geometryTypeFromVertexCount (dim vertices : Nat) : Res GeometryType :=
  match dim with
  | 0 => .ok vertex
  | 1 => .ok line
  | 2 =>
    match vertices with
    | 3 => .ok triangle
    | 4 => match quadrilateral with
      | some t => .ok t
      | none => .notImplemented
    | _ => .notImplemented
  | 3 =>
    match vertices with
    | 4 => .ok tetrahedron
    | 5 => .ok pyramid
    | 6 => .ok prism
    | 8 => match hexahedron with
      | some t => .ok t
      | none => .notImplemented
    | _ => .notImplemented
  | _ => .notImplemented

end Verif.Typ
