import Verif.Type.Model
import Verif.RefGeom.Model
import Verif.Quad.TabGauss
import Verif.Quad.TabJacobi1
import Verif.Quad.TabJacobi2
import Verif.Quad.TabLobatto
import Verif.Quad.TabRadauLeft
import Verif.Quad.TabRadauRight
import Verif.Quad.TabSimplex2
import Verif.Quad.TabSimplex3
import Verif.Quad.TabPrism3

/-
Model of `dune/geometry/quadraturerules.hh` and the headers below `dune/geometry/quadraturerules/`.

Simplifications: the number type is a field `K` (no rounding); an `unsigned` value is a natural number
below 2^32; a subtraction of `unsigned` values wraps modulo 2^32.  The numerical eigenvalue solver behind
`jacobiNodesWeights` is a parameter (`Env`).  The caches of `QuadratureRules::_rule` are left out in this
file: `rule` below is the value the cache holds; `Verif/Quad/Cache.lean` adds the caches and proves that
they are transparent.
-/

namespace Verif.Quad

open Verif.Typ Verif.RefGeom

/-- outcome of a call: a value, an exception, or undefined behaviour (index out of range, failed
assertion, undefined shift) -/
inductive Res (α : Type) where
  | ok (a : α)
  | throw
  | ub
  deriving DecidableEq

/-- sequencing: exceptions and undefined behaviour end the computation -/
def Res.bind {α β : Type} (x : Res α) (f : α → Res β) : Res β :=
  match x with
  | .ok a => f a
  | .throw => .throw
  | .ub => .ub

instance : Monad Res where
  pure := .ok
  bind := Res.bind

/-- an undefined C++ expression (`Option.none` in `Verif.Typ`) is undefined behaviour here -/
def Res.ofOption {α : Type} : Option α → Res α
  | some a => .ok a
  | none => .ub

/-- quadraturerules.hh:130-195 `QuadratureType::Enum` without the end marker `size` -/
inductive QType where
  | GaussLegendre | GaussJacobi_1_0 | GaussJacobi_2_0 | GaussJacobi_n_0 | GaussLobatto | GaussRadauLeft
  | GaussRadauRight
  deriving DecidableEq, Repr

variable {K : Type} [Field K]

/-- quadraturerules.hh:66-125 `QuadraturePoint` -/
structure QPoint (K : Type) where
  position : Vec K
  weight : K

/-- quadraturerules.hh:213-250 `QuadratureRule`: `geometry_type`, `delivered_order` and the base class
`std::vector<QuadraturePoint>` -/
structure Rule (K : Type) where
  type : GeometryType
  order : Int
  pts : List (QPoint K)

/-- numberfromstring.hh:18-27, the conversion of a literal, without rounding -/
def Lit.val (l : Lit) : K := (l.num : K) / (l.den : K)

/-- a tabulated point as a `QuadraturePoint` -/
def Node.point (n : Node) : QPoint K := ⟨fun i => if h : i < n.x.length then n.x[i].val else 0, n.w.val⟩

/-- the eigenvalue solver: `some f` if LAPACK is available and `ct` is a floating point type, where
`f degree alpha` are the nodes and weights computed by `jacobiNodesWeights`, jacobiNquadrature.hh:128-170;
`none` if `UseLapackOrError` throws, jacobiNquadrature.hh:78-96 -/
structure Env (K : Type) where
  lapack : Option (Int → Int → List (QPoint K))

/-! ### Rules in dimension zero and one -/

/-- pointquadrature.hh:25-32 `PointQuadratureRule`; `numeric_limits<int>::max()` is `2^31 - 1` -/
def pointRule : Rule K := ⟨vertex, 2 ^ 31 - 1, [⟨fun _ => 0, 1⟩]⟩

/-- gaussquadrature.hh:52-1302 (and the same function of the other five 1D headers): the `switch(p)` of
`...InitHelper<ct>::init`; no matching `case` throws `QuadratureOrderOutOfRange` -/
def initHelper (table : List Row) (p : Int) : Res Row :=
  match table.find? (fun r => r.cases.any fun c => (c : Int) == p) with
  | some r => .ok r
  | none => .throw

/-- gaussquadrature.hh:1305-1321 `GaussQuadratureRule<ct,1>` (and the same constructor of the other five
1D headers) -/
def rule1D (table : List Row) (p : Int) : Res (Rule K) := do
  let r ← initHelper table p
  return ⟨line, r.order, r.pts.map Node.point⟩

/-- the table of a quadrature type and its `highest_order` (gaussquadrature.hh:35, jacobi1quadrature.hh:35,
jacobi2quadrature.hh:35, gausslobattoquadrature.hh:35, gaussradauleftquadrature.hh:35,
gaussradaurightquadrature.hh:35); `GaussJacobi_n_0` has no table -/
def tableOf : QType → Option (List Row × Nat)
  | .GaussLegendre => some (Gauss.table, 61)
  | .GaussJacobi_1_0 => some (Jacobi1.table, 61)
  | .GaussJacobi_2_0 => some (Jacobi2.table, 61)
  | .GaussLobatto => some (Lobatto.table, 31)
  | .GaussRadauLeft => some (RadauLeft.table, 30)
  | .GaussRadauRight => some (RadauRight.table, 30)
  | .GaussJacobi_n_0 => none

/-- jacobiNquadrature.hh:64-67 `JacobiNQuadratureRule<ct,1>::maxOrder` -/
def jacobiNMaxOrder : Nat := 127

/-- quadraturerules.hh:411-435 `QuadratureRuleFactory<ctype,1>::maxOrder` -/
def maxOrder1 (t : GeometryType) (qt : QType) : Res Nat :=
  if isLine t then
    match tableOf qt with
    | some (_, h) => .ok h
    | none => .ok jacobiNMaxOrder
  else .throw

/-- quadraturerules.hh:275-305 `_rule`, without caches: `assert(t.dim()==dim)` (277); the vector
`geometryTypes` has `LocalGeometryTypeIndex::size(dim)` entries (286) and is accessed at `index(t)` (289);
the vector `quadratureOrders` has `numRules` entries (293-294) and is accessed at `p` (298; a negative `p`
converts to a huge index).  `maxOrder` and `factory` are the two functions of
`QuadratureRuleFactory<ctype,dim>`. -/
def ruleWith (dim : Nat) (t : GeometryType) (p : Int) (maxOrder : Res Nat) (factory : Res (Rule K)) :
    Res (Rule K) :=
  if t.dim ≠ dim then .ub else
  match localSize dim, localIndex t with
  | some size, some index =>
    if size ≤ index then .ub
    else if dim = 0 then factory
    else match maxOrder with
      | .ok m => if p < 0 ∨ ((m + 1 : Nat) : Int) ≤ p then .ub else factory
      | .throw => .throw
      | .ub => .ub
  | _, _ => .ub

/-- the `switch(qt)` of quadraturerules.hh:440-457 for the tabulated types -/
def factory1Tab (t : GeometryType) (p : Int) (qt : QType) : Res (Rule K) :=
  if isLine t then
    match tableOf qt with
    | some (table, _) => rule1D table p
    | none => .throw
  else .throw

/-- `QuadratureRules<ctype,1>::rule` for the tabulated quadrature types -/
def rule1Tab (t : GeometryType) (p : Int) (qt : QType) : Res (Rule K) :=
  ruleWith 1 t p (maxOrder1 t qt) (factory1Tab t p qt)

/-- jacobiNquadrature.hh:78-96 `UseLapackOrError` -/
def useLapackOrError (env : Env K) (degree alpha : Int) : Res (List (QPoint K)) :=
  match env.lapack with
  | some f => .ok (f degree alpha)
  | none => .throw

/-- scaling of the weights, jacobiNquadrature.hh:103-120 -/
def scaleWeights (c : K) (l : List (QPoint K)) : List (QPoint K) := l.map fun q => ⟨q.position, c * q.weight⟩

/-- jacobiNquadrature.hh:98-123 `decideRuleExponent` -/
def decideRuleExponent (env : Env K) (degree alpha : Int) : Res (List (QPoint K)) :=
  if alpha = 0 then do return (← rule1Tab line degree .GaussLegendre).pts
  else if alpha = 1 then do return scaleWeights (1 / 2) (← rule1Tab line degree .GaussJacobi_1_0).pts
  else if alpha = 2 then do return scaleWeights (1 / 4) (← rule1Tab line degree .GaussJacobi_2_0).pts
  else useLapackOrError env degree alpha

/-- jacobiNquadrature.hh:69-76 `decideRule`; `maxOrder` is the minimum of the three `highest_order` -/
def decideRule (env : Env K) (degree alpha : Int) : Res (List (QPoint K)) :=
  if toU32 degree < 61 then decideRuleExponent env degree alpha else useLapackOrError env degree alpha

/-- jacobiNquadrature.hh:52-62, the constructor of `JacobiNQuadratureRule<ct,1>` -/
def jacobiN (env : Env K) (order alpha : Int) : Res (Rule K) := do
  if toU32 order > jacobiNMaxOrder then Res.throw else do
  let rule ← decideRule env order alpha
  return ⟨line, 2 * rule.length - 1, rule⟩

/-- quadraturerules.hh:436-460 `QuadratureRuleFactory<ctype,1>::rule` -/
def factory1 (env : Env K) (t : GeometryType) (p : Int) (qt : QType) : Res (Rule K) :=
  if isLine t then
    match tableOf qt with
    | some (table, _) => rule1D table p
    | none => jacobiN env p 0
  else .throw

/-- quadraturerules.hh:326-329 `QuadratureRules<ctype,1>::rule` -/
def rule1 (env : Env K) (t : GeometryType) (p : Int) (qt : QType) : Res (Rule K) :=
  ruleWith 1 t p (maxOrder1 t qt) (factory1 env t p qt)

/-! ### Tabulated rules in dimension two and three -/

/-- the content of the arrays `G[m]`, `W[m]`, `O[m]` after `init()`: the last block written for `m` -/
def lastBlock (blocks : List Row) (m : Nat) : Option Row := blocks.reverse.find? (fun r => r.cases == [m])

/-- a `SimplexQuadratureRule` or `PrismQuadratureRule` from row `m` of the arrays; reading a row that was
never written is undefined -/
def blockRule (t : GeometryType) (blocks : List Row) (m : Nat) : Res (Rule K) :=
  match lastBlock blocks m with
  | some r => .ok ⟨t, r.order, r.pts.map Node.point⟩
  | none => .ub

/-- simplexquadrature.hh:33 and 76 -/
def simplex2Highest : Nat := 12
/-- simplexquadrature.hh:47 and 839 -/
def simplex3Highest : Nat := 5
/-- prismquadrature.hh:33 and 64 -/
def prism3Highest : Nat := 2

/-- simplexquadrature.hh:778-820, `switch(p)` -/
def simplex2Index (p : Int) : Nat :=
  if p = 0 then 1 else if p = 1 then 1 else if p = 2 then 3 else if p = 3 then 4 else if p = 4 then 6
  else if p = 5 then 7 else if p = 6 then 12 else if p = 7 then 12 else if p = 8 then 16 else if p = 9 then 19
  else if p = 10 then 25 else if p = 11 then 28 else if p = 12 then 33 else 33

/-- simplexquadrature.hh:769-831 `SimplexQuadratureRule<ct,2>` -/
def simplex2Rule (p : Int) : Res (Rule K) :=
  if p > simplex2Highest then .throw else blockRule triangle Simplex2.blocks (simplex2Index p)

/-- simplexquadrature.hh:1054-1073, `switch(p)` -/
def simplex3Index (p : Int) : Nat :=
  if p = 0 then 1 else if p = 1 then 1 else if p = 2 then 4 else if p = 3 then 8
  else if p = 4 ∨ p = 5 then 15 else 15

/-- simplexquadrature.hh:1046-1084 `SimplexQuadratureRule<ct,3>` -/
def simplex3Rule (p : Int) : Res (Rule K) :=
  if p > simplex3Highest then .throw else blockRule tetrahedron Simplex3.blocks (simplex3Index p)

/-- prismquadrature.hh:170-182 `PrismQuadratureRule<ct,3>`; the argument is not used -/
def prism3Rule (_p : Int) : Res (Rule K) := blockRule prism Prism3.blocks 6

/-! ### Tensor and conical products -/

/-- tensorproductquadrature.hh:61-85 `tensorProduct`: positions `(basePoint, onedPoint)`, weights
`baseWeight * onedWeight`.  `dim` is the dimension of the product. -/
def tensorProduct (dim : Nat) (baseQuad onedQuad : List (QPoint K)) : List (QPoint K) :=
  baseQuad.flatMap fun b => onedQuad.map fun o =>
    ⟨setV (fun i => if i < dim - 1 then b.position i else 0) (dim - 1) (o.position 0), b.weight * o.weight⟩

/-- tensorproductquadrature.hh:149-150, `for p<dim-1: weight *= scale` -/
def mulPow (weight scale : K) : Nat → K
  | 0 => weight
  | n + 1 => mulPow weight scale n * scale

/-- tensorproductquadrature.hh:130-155, the loops of `conicalProduct`: positions
`((1-z) basePoint, z)` -/
def conicalProduct (dim : Nat) (respectWeightFunction : Bool) (baseQuad onedQuad : List (QPoint K)) :
    List (QPoint K) :=
  baseQuad.flatMap fun b => onedQuad.map fun o =>
    let z := o.position 0
    let scale := 1 - z
    let weight := b.weight * o.weight
    ⟨setV (fun i => if i < dim - 1 then scale * b.position i else 0) (dim - 1) z,
      if respectWeightFunction then weight else mulPow weight scale (dim - 1)⟩

/-- tensorproductquadrature.hh:42-46 and 160-164: the bit `dim-1` and the base type -/
def baseTypeOf (dim topologyId : Nat) : GeometryType :=
  mk2 (if topologyId.testBit (dim - 1) then topologyId - 2 ^ (dim - 1) else topologyId) (dim - 1)

/-- tensorproductquadrature.hh:158-176 `TensorProductQuadratureRule::maxOrder`, given the value of
`QuadratureRules<ctype,dim-1>::maxOrder(baseType, qt)` -/
def tensorMaxOrder (dim topologyId : Nat) (qt : QType) (base : Res Nat) : Res Nat := do
  let order ← base
  let m1 ← maxOrder1 line qt
  if topologyId.testBit (dim - 1) then return min order m1
  else if qt ≠ .GaussJacobi_n_0 then return min order ((m1 + 2 ^ 32 - (dim - 1)) % 2 ^ 32)
  else return min order m1

/-- quadraturerules.hh:318-323 `QuadratureRules<ctype,dim>::maxOrder`, that is
`QuadratureRuleFactory<ctype,dim>::maxOrder` for dimension 0 (388-395), 1 (411-435), 2 (468-476),
3 (494-505) and greater (373-376) -/
def maxOrder : (dim : Nat) → GeometryType → QType → Res Nat
  | 0, t, _ => if isVertex t then .ok (2 ^ 31 - 1) else .throw
  | 1, t, qt => maxOrder1 t qt
  | d + 2, t, qt => do
    let order ← tensorMaxOrder (d + 2) t.id qt (maxOrder (d + 1) (baseTypeOf (d + 2) t.id) qt)
    if d + 2 = 2 then
      return if isSimplex t then max order simplex2Highest else order
    else if d + 2 = 3 then
      let order := if isSimplex t then max order simplex3Highest else order
      return if isPrism t then max order prism3Highest else order
    else return order

/-- tensorproductquadrature.hh:39-52, the constructor of `TensorProductQuadratureRule`, given
`QuadratureRules<ctype,dim-1>::rule(baseType, order, qt)`.  `order` is the `int` argument of the factory;
`unsigned int order` and back to `int` is the identity for the non-negative orders that reach this point
(and wraps consistently otherwise). -/
def tensorRule (env : Env K) (dim topologyId : Nat) (order : Int) (qt : QType) (base : Res (Rule K)) :
    Res (Rule K) := do
  let baseQuad ← base
  if topologyId.testBit (dim - 1) then
    let onedQuad ← rule1 env line order qt
    return ⟨mk2 topologyId dim, order, tensorProduct dim baseQuad.pts onedQuad.pts⟩
  else if qt ≠ .GaussJacobi_n_0 then
    let onedQuad ← rule1 env line (order + (dim - 1 : Nat)) qt
    return ⟨mk2 topologyId dim, order, conicalProduct dim false baseQuad.pts onedQuad.pts⟩
  else
    let onedQuad ← jacobiN env order (dim - 1 : Nat)
    return ⟨mk2 topologyId dim, order, conicalProduct dim true baseQuad.pts onedQuad.pts⟩

/-- quadraturerules.hh:377-380, 396-403, 477-486, 506-522: `QuadratureRuleFactory<ctype,dim>::rule`, given
the rule of the base type (used only by the last alternative) -/
def factory (env : Env K) (dim : Nat) (t : GeometryType) (p : Int) (qt : QType)
    (base : Res (Rule K)) : Res (Rule K) :=
  match dim with
  | 0 => if isVertex t then .ok pointRule else .throw
  | 1 => factory1 env t p qt
  | 2 =>
    if isSimplex t ∧ (qt = .GaussLegendre ∨ qt = .GaussJacobi_n_0) ∧ p ≤ simplex2Highest then simplex2Rule p
    else tensorRule env 2 t.id p qt base
  | 3 =>
    if isSimplex t ∧ (qt = .GaussLegendre ∨ qt = .GaussJacobi_n_0) ∧ p ≤ simplex3Highest then simplex3Rule p
    else if isPrism t ∧ qt = .GaussLegendre ∧ p ≤ prism3Highest then prism3Rule p
    else tensorRule env 3 t.id p qt base
  | d => tensorRule env d t.id p qt base

/-- quadraturerules.hh:326-329 `QuadratureRules<ctype,dim>::rule(t, p, qt)` -/
def rule (env : Env K) : (dim : Nat) → GeometryType → Int → QType → Res (Rule K)
  | 0, t, p, qt => ruleWith 0 t p (maxOrder 0 t qt) (factory env 0 t p qt .ub)
  | d + 1, t, p, qt =>
    ruleWith (d + 1) t p (maxOrder (d + 1) t qt)
      (factory env (d + 1) t p qt (rule env d (baseTypeOf (d + 1) t.id) p qt))

/-- quadraturerules.hh:332-336 `rule(BasicType, p, qt)`: `GeometryType(t,dim)`, type.hh:256-268, for the
basic types simplex and cube -/
def ruleSimplex (env : Env K) (dim : Nat) (p : Int) (qt : QType) : Res (Rule K) := rule env dim (simplex dim) p qt

end Verif.Quad
