import Verif.Quad.Model

/-
Model of `dune/geometry/quadraturerules.hh` and the headers below `dune/geometry/quadraturerules/` for a number type `ct` with
rounding: the same functions as in Verif/Quad/Model.lean, written with nothing but the operations of the number type
(`0`, `1`, `-`, `*`) and the conversion of the tabulated decimals.

Simplifications: those of Verif/Quad/Model.lean; the one dimensional Gauss-Jacobi rules with general exponent are a parameter
(`jac`).
-/

namespace Verif.FloatQuad

open Verif.Typ hiding Res
open Verif.RefGeom
open Verif.Quad (Res Rule QPoint QType Row Node Lit initHelper tableOf maxOrder maxOrder1 lastBlock simplex2Highest simplex3Highest
  prism3Highest simplex2Index simplex3Index baseTypeOf)

/-- the conversion of the tables to the number type: `lit` is `DUNE_NUMBER_FROM_STRING(ct, ...)`, numberfromstring.hh:12-27, used by
the six one dimensional headers; `block` turns a row of the arrays `G` and `W` of `double` into positions and weights,
simplexquadrature.hh:60-831, 837-1084, prismquadrature.hh:60-182 -/
structure Tables (K : Type) where
  lit : Lit → K
  block : Row → List (QPoint K)

variable {K : Type}

/-- quadraturerules.hh:275-305 `_rule`, see `Quad.ruleWith` -/
def ruleWith (dim : Nat) (t : GeometryType) (p : Int) (maxOrder : Res Nat) (factory : Res (Rule K)) : Res (Rule K) :=
  if t.dim ≠ dim then .ub else
  match localSize dim, localIndex t with
  | some size, some index =>
    if size ≤ index then .ub
    else if dim = 0 then factory
    else match maxOrder with
      | .ok m => if p < 0 ∨ ((m + 1 : Nat) : Int) ≤ p then .ub else factory
      | .throw => .throw
      | .ub => .ub
  | _, _ => .ub

/-- a `SimplexQuadratureRule` or `PrismQuadratureRule` from row `m` of the arrays, see `Quad.blockRule` -/
def blockRule (T : Tables K) (t : GeometryType) (blocks : List Row) (m : Nat) : Res (Rule K) :=
  match lastBlock blocks m with
  | some r => .ok ⟨t, r.order, T.block r⟩
  | none => .ub

/-- simplexquadrature.hh:769-831 `SimplexQuadratureRule<ct,2>` -/
def simplex2Rule (T : Tables K) (p : Int) : Res (Rule K) :=
  if p > simplex2Highest then .throw else blockRule T triangle Quad.Simplex2.blocks (simplex2Index p)

/-- simplexquadrature.hh:1046-1084 `SimplexQuadratureRule<ct,3>` -/
def simplex3Rule (T : Tables K) (p : Int) : Res (Rule K) :=
  if p > simplex3Highest then .throw else blockRule T tetrahedron Quad.Simplex3.blocks (simplex3Index p)

/-- prismquadrature.hh:170-182 `PrismQuadratureRule<ct,3>` -/
def prism3Rule (T : Tables K) (_p : Int) : Res (Rule K) := blockRule T prism Quad.Prism3.blocks 6

variable [Zero K] [One K] [Sub K] [Mul K]

/-- a tabulated point of a one dimensional rule, gaussquadrature.hh:52-1302 -/
def nodePoint (T : Tables K) (n : Node) : QPoint K :=
  ⟨fun i => if h : i < n.x.length then T.lit n.x[i] else 0, T.lit n.w⟩

/-- pointquadrature.hh:25-32 `PointQuadratureRule` -/
def pointRule : Rule K := ⟨vertex, 2 ^ 31 - 1, [⟨fun _ => 0, 1⟩]⟩

/-- gaussquadrature.hh:1305-1321 `GaussQuadratureRule<ct,1>` (and the same constructor of the other five 1D headers) -/
def rule1D (T : Tables K) (table : List Row) (p : Int) : Res (Rule K) := do
  let r ← initHelper table p
  return ⟨line, r.order, r.pts.map (nodePoint T)⟩

/-- quadraturerules.hh:436-460 `QuadratureRuleFactory<ctype,1>::rule` -/
def factory1 (T : Tables K) (jac : Int → Int → Res (Rule K)) (t : GeometryType) (p : Int) (qt : QType) : Res (Rule K) :=
  if isLine t then
    match tableOf qt with
    | some (table, _) => rule1D T table p
    | none => jac p 0
  else .throw

/-- quadraturerules.hh:326-329 `QuadratureRules<ctype,1>::rule` -/
def rule1 (T : Tables K) (jac : Int → Int → Res (Rule K)) (t : GeometryType) (p : Int) (qt : QType) : Res (Rule K) :=
  ruleWith 1 t p (maxOrder1 t qt) (factory1 T jac t p qt)

/-- tensorproductquadrature.hh:71-83, one point of `tensorProduct` -/
def tensorPoint (dim : Nat) (b o : QPoint K) : QPoint K :=
  ⟨fun i => if i = dim - 1 then o.position 0 else if i < dim - 1 then b.position i else 0, b.weight * o.weight⟩

/-- tensorproductquadrature.hh:61-85 `tensorProduct` -/
def tensorProduct (dim : Nat) (baseQuad onedQuad : List (QPoint K)) : List (QPoint K) :=
  baseQuad.flatMap fun b => onedQuad.map fun o => tensorPoint dim b o

/-- tensorproductquadrature.hh:149-150, `for p<dim-1: weight *= scale` -/
def mulPow (weight scale : K) : Nat → K
  | 0 => weight
  | n + 1 => mulPow weight scale n * scale

/-- tensorproductquadrature.hh:139-153, one point of `conicalProduct` -/
def conicalPoint (dim : Nat) (respectWeightFunction : Bool) (b o : QPoint K) : QPoint K :=
  let z := o.position 0
  let scale := 1 - z
  let weight := b.weight * o.weight
  ⟨fun i => if i = dim - 1 then z else if i < dim - 1 then scale * b.position i else 0,
    if respectWeightFunction then weight else mulPow weight scale (dim - 1)⟩

/-- tensorproductquadrature.hh:115-156, the loops of `conicalProduct` -/
def conicalProduct (dim : Nat) (respectWeightFunction : Bool) (baseQuad onedQuad : List (QPoint K)) : List (QPoint K) :=
  baseQuad.flatMap fun b => onedQuad.map fun o => conicalPoint dim respectWeightFunction b o

/-- tensorproductquadrature.hh:39-52, the constructor of `TensorProductQuadratureRule`, see `Quad.tensorRule` -/
def tensorRule (T : Tables K) (jac : Int → Int → Res (Rule K)) (dim topologyId : Nat) (order : Int) (qt : QType)
    (base : Res (Rule K)) : Res (Rule K) := do
  let baseQuad ← base
  if topologyId.testBit (dim - 1) then
    let onedQuad ← rule1 T jac line order qt
    return ⟨mk2 topologyId dim, order, tensorProduct dim baseQuad.pts onedQuad.pts⟩
  else if qt ≠ .GaussJacobi_n_0 then
    let onedQuad ← rule1 T jac line (order + (dim - 1 : Nat)) qt
    return ⟨mk2 topologyId dim, order, conicalProduct dim false baseQuad.pts onedQuad.pts⟩
  else
    let onedQuad ← jac order (dim - 1 : Nat)
    return ⟨mk2 topologyId dim, order, conicalProduct dim true baseQuad.pts onedQuad.pts⟩

/-- quadraturerules.hh:377-380, 396-403, 477-486, 506-522: `QuadratureRuleFactory<ctype,dim>::rule` -/
def factory (T : Tables K) (jac : Int → Int → Res (Rule K)) (dim : Nat) (t : GeometryType) (p : Int) (qt : QType)
    (base : Res (Rule K)) : Res (Rule K) :=
  match dim with
  | 0 => if isVertex t then .ok pointRule else .throw
  | 1 => factory1 T jac t p qt
  | 2 =>
    if isSimplex t ∧ (qt = .GaussLegendre ∨ qt = .GaussJacobi_n_0) ∧ p ≤ simplex2Highest then simplex2Rule T p
    else tensorRule T jac 2 t.id p qt base
  | 3 =>
    if isSimplex t ∧ (qt = .GaussLegendre ∨ qt = .GaussJacobi_n_0) ∧ p ≤ simplex3Highest then simplex3Rule T p
    else if isPrism t ∧ qt = .GaussLegendre ∧ p ≤ prism3Highest then prism3Rule T p
    else tensorRule T jac 3 t.id p qt base
  | d => tensorRule T jac d t.id p qt base

/-- quadraturerules.hh:326-329 `QuadratureRules<ctype,dim>::rule(t, p, qt)` -/
def rule (T : Tables K) (jac : Int → Int → Res (Rule K)) : (dim : Nat) → GeometryType → Int → QType → Res (Rule K)
  | 0, t, p, qt => ruleWith 0 t p (maxOrder 0 t qt) (factory T jac 0 t p qt .ub)
  | d + 1, t, p, qt =>
    ruleWith (d + 1) t p (maxOrder (d + 1) t qt)
      (factory T jac (d + 1) t p qt (rule T jac d (baseTypeOf (d + 1) t.id) p qt))

end Verif.FloatQuad
