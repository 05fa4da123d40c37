import Verif.Lfe.Model
import Verif.Cube.Model
import Verif.MultiLinear.Model

/-! Model of `dune/geometry/test/localfiniteelements.hh` (cited as lfe.hh), `dune/geometry/test/comparegeometries.hh` (cited
as cmp.hh) and `dune/geometry/test/referenceelementgeometry.hh` (cited as ref.hh): the shape functions, the finite element
function and the identity geometry with which LocalFiniteElementGeometry and MappedGeometry are used, and the function that
compares two geometries.

Simplifications: real numbers; `power(2, dim)` and `1 << j` do not overflow; the thread-local buffers carry no state. -/

namespace Verif.Compare

open Verif.RefGeom Verif.MatHelp Verif.Typ Verif.RefTopo Verif.Lfe Verif.Mapped Verif.GaussNewton

noncomputable section

/-! ### shape functions -/

/-- lfe.hh:42-53 `P1LocalBasis::evaluateFunction`.  The loop subtracts the coordinates from `out[0]` and appends them. -/
def p1Function (dim : Nat) (x : Fin dim → ℝ) : List ℝ :=
  ((List.finRange dim).foldl (fun o i => o - x i) 1) :: (List.finRange dim).map fun i => x i

/-- lfe.hh:55-65 `P1LocalBasis::evaluateJacobian` -/
def p1Jacobian (dim : Nat) (_x : Fin dim → ℝ) : List (Fin dim → ℝ) :=
  (fun _ => -1) :: (List.finRange dim).map fun i => fun j => if i = j then 1 else 0

/-- lfe.hh:131-150 `P1LocalInterpolation::interpolate` -/
def p1Interpolate (dim : Nat) {n : Nat} (f : (Fin dim → ℝ) → (Fin n → ℝ)) : List (Fin n → ℝ) :=
  f (fun _ => 0) :: (List.finRange dim).map fun i => f fun j => if i = j then 1 else 0

/-- lfe.hh:40, 68, 200 `P1LocalFiniteElement` -/
def p1LocalFE (dim : Nat) : LocalFE dim where
  size := dim + 1
  order := 1
  evaluateFunction := p1Function dim
  evaluateJacobian := p1Jacobian dim
  interpolate := p1Interpolate dim

/-- lfe.hh:81-94 `Q1LocalBasis::evaluateFunction`; `i & (1<<j)` is the test of bit `j` -/
def q1Function (dim : Nat) (x : Fin dim → ℝ) : List ℝ :=
  (List.range (2 ^ dim)).map fun i =>
    (List.finRange dim).foldl (fun o (j : Fin dim) => o * (if i &&& (1 <<< j.val) ≠ 0 then x j else 1 - x j)) 1

/-- lfe.hh:96-120 `Q1LocalBasis::evaluateJacobian` -/
def q1Jacobian (dim : Nat) (x : Fin dim → ℝ) : List (Fin dim → ℝ) :=
  (List.range (2 ^ dim)).map fun i => fun j =>
    (List.finRange dim).foldl
      (fun o (l : Fin dim) => if j ≠ l then o * (if i &&& (1 <<< l.val) ≠ 0 then x l else 1 - x l) else o)
      (if i &&& (1 <<< j.val) ≠ 0 then 1 else -1)

/-- lfe.hh:157-173 `Q1LocalInterpolation::interpolate` -/
def q1Interpolate (dim : Nat) {n : Nat} (f : (Fin dim → ℝ) → (Fin n → ℝ)) : List (Fin n → ℝ) :=
  (List.range (2 ^ dim)).map fun i => f fun j => if i &&& (1 <<< j.val) ≠ 0 then 1 else 0

/-- lfe.hh:79, 123, 203 `Q1LocalFiniteElement` -/
def q1LocalFE (dim : Nat) : LocalFE dim where
  size := 2 ^ dim
  order := 1
  evaluateFunction := q1Function dim
  evaluateJacobian := q1Jacobian dim
  interpolate := q1Interpolate dim

/-! ### LocalFiniteElementFunction, lfe.hh:207-259 -/

/-- lfe.hh:228-237 `operator()`; `none`: the assertion fails -/
def functionValue {m n : Nat} (fe : LocalFE m) (coefficients : List (Fin n → ℝ)) (x : Fin m → ℝ) : Option (Fin n → ℝ) :=
  let shapeValues := fe.evaluateFunction x
  if shapeValues.length = coefficients.length then
    some ((List.zip shapeValues coefficients).foldl (fun range p => fun j => range j + p.1 * p.2 j) fun _ => 0)
  else none

/-- lfe.hh:239-254 `derivative`; `umtv(v, jacobian[j])` adds the shape gradient times the number `v` to row `j` -/
def functionDerivative {m n : Nat} (fe : LocalFE m) (coefficients : List (Fin n → ℝ)) (x : Fin m → ℝ) : Option (Mat ℝ) :=
  let shapeJacobians := fe.evaluateJacobian x
  if shapeJacobians.length = coefficients.length then
    some ((List.zip shapeJacobians coefficients).foldl
      (fun jacobian p => fun j k => jacobian j k + if h : j < n ∧ k < m then p.1 ⟨k, h.2⟩ * p.2 ⟨j, h.1⟩ else 0) fun _ _ => 0)
  else none

/-! ### ReferenceElementGeometry, ref.hh:61-115 -/

/-- ref.hh:61-115.  Corners and center come from the base class, the geometry of the reference element: `corner(i)` and
`center()` of an affine geometry whose map is the identity (property C20; built by referenceelementimplementation.hh:805-814).  The product with the
`IdentityMatrix` (ref.hh:16-43) returns the other factor, like the product with the unit matrix here. -/
def referenceElementGeometry (m id : Nat) : Geo m m where
  corners := refSize m id m
  corner := fun i => (position m id i m).map (vec m)
  center := (position m id 0 0).map (vec m)
  global := fun x => x
  jacobian := fun _ i j => if i = j then 1 else 0
  refCenter := (position m id 0 0).map (vec m)

/-! ### compareGeometries -/

/-- The methods of a geometry with `mydimension = m`, `coorddimension = n` that cmp.hh:38-98 uses.  `none`: the call is
undefined behaviour. -/
structure Methods (m n : Nat) where
  affine : Option Bool
  type : GeometryType
  corners : Nat
  corner : Nat → Option (Fin n → ℝ)
  center : Option (Fin n → ℝ)
  volume : Option ℝ
  global : (Fin m → ℝ) → Option (Fin n → ℝ)
  jacobian : (Fin m → ℝ) → Option (Matrix (Fin n) (Fin m) ℝ)
  jacobianTransposed : (Fin m → ℝ) → Option (Matrix (Fin m) (Fin n) ℝ)
  jacobianInverse : (Fin m → ℝ) → Option (Matrix (Fin m) (Fin n) ℝ)
  jacobianInverseTransposed : (Fin m → ℝ) → Option (Matrix (Fin n) (Fin m) ℝ)
  integrationElement : (Fin m → ℝ) → Option ℝ

/-- `(x - y).two_norm() > tolerance` (dune-common) -/
def farVec {n : Nat} (tolerance : ℝ) (x y : Fin n → ℝ) : Bool := decide (two_norm (x - y) > tolerance)

/-- `(A - B).frobenius_norm() > tolerance` (dune-common) -/
def farMat {m n : Nat} (tolerance : ℝ) (A B : Matrix (Fin m) (Fin n) ℝ) : Bool :=
  decide (Real.sqrt (∑ i, ∑ j, (A i j - B i j) * (A i j - B i j)) > tolerance)

/-- `abs(a - b) > tolerance` -/
def farNum (tolerance a b : ℝ) : Bool := decide (|a - b| > tolerance)

/-- evaluate both sides and compare; the answer is true if they are close -/
def closeBy {α : Type} (far : α → α → Bool) (a b : Option α) : Option Bool := do
  let x ← a
  let y ← b
  return !far x y

/-- `if (far) return false;` and carry on -/
def andThen (a b : Option Bool) : Option Bool := do
  if ← a then b else return false

variable {m n : Nat}

/-- cmp.hh:73-101, one quadrature point -/
def comparePoint (g h : Methods m n) (tolerance : ℝ) (x : Fin m → ℝ) : Option Bool :=
  andThen (closeBy (farVec tolerance) (g.global x) (h.global x)) <|
  andThen (closeBy (farMat tolerance) (g.jacobian x) (h.jacobian x)) <|
  andThen (closeBy (farMat tolerance) (g.jacobianTransposed x) (h.jacobianTransposed x)) <|
  andThen (closeBy (farMat tolerance) (g.jacobianInverse x) (h.jacobianInverse x)) <|
  andThen (closeBy (farMat tolerance) (g.jacobianInverseTransposed x) (h.jacobianInverseTransposed x)) <|
  closeBy (farNum tolerance) (g.integrationElement x) (h.integrationElement x)

/-- cmp.hh:22-106 for geometries of the same dimensions (others are told apart at compile time, cmp.hh:27-34); `quadrature`
are the points of the rule cmp.hh:70 -/
def compareGeometries (g h : Methods m n) (tolerance : ℝ) (quadrature : List (Fin m → ℝ)) : Option Bool :=
  andThen (do return (← g.affine) == (← h.affine)) <|
  andThen (some (eq g.type h.type)) <|
  andThen (some (g.corners == h.corners)) <|
  andThen ((List.range g.corners).foldr (fun i rest => andThen (closeBy (farVec tolerance) (g.corner i) (h.corner i)) rest)
    (some true)) <|
  andThen (closeBy (farVec tolerance) g.center h.center) <|
  andThen (closeBy (farNum tolerance) g.volume h.volume) <|
  quadrature.foldr (fun x rest => andThen (comparePoint g h tolerance x) rest) (some true)

/-! ### the geometry classes as seen by `compareGeometries` -/

/-- AffineGeometry; `m`, `n` are `g.mydim`, `g.cdim` -/
def ofAffine (m n : Nat) (g : Affine.AffineGeometry) : Methods m n where
  affine := some true
  type := mk2 g.id g.mydim
  corners := g.corners
  corner := fun i => (g.corner i).map (vec n)
  center := g.center.map (vec n)
  volume := some g.volume
  global := fun x => some (vec n (g.global (RefGeom.ext x)))
  jacobian := fun _ => some (mat n m g.jacobian)
  jacobianTransposed := fun _ => some (mat m n g.jacobianTransposed)
  jacobianInverse := fun _ => some (mat m n g.jacobianInverse)
  jacobianInverseTransposed := fun _ => some (mat n m g.jacobianInverseTransposed)
  integrationElement := fun _ => some g.integrationElement

/-- AxisAlignedCubeGeometry (type: axisalignedcubegeometry.hh:164-167, type.hh cube); `m`, `n` are `g.dim`, `g.coorddim`;
the diagonal matrices are converted to dense ones -/
def ofCube (m n : Nat) (g : Cube.AxisAlignedCubeGeometry) : Methods m n where
  affine := some true
  type := mk2 (if g.dim > 1 then 2 ^ g.dim - 1 else 0) g.dim
  corners := g.corners
  corner := fun i => some (vec n (g.corner i))
  center := some (vec n g.center)
  volume := some g.volume
  global := fun x => some (vec n (g.global (RefGeom.ext x)))
  jacobian := fun _ => some (mat n m g.jacobian)
  jacobianTransposed := fun _ => some (mat m n g.jacobianTransposed)
  jacobianInverse := fun _ => some (mat m n g.jacobianInverse)
  jacobianInverseTransposed := fun _ => some (mat n m g.jacobianInverseTransposed)
  integrationElement := fun _ => some g.integrationElement

/-- MultiLinearGeometry; `m`, `n` are `g.mydim`, `g.cdim` -/
def ofMultiLinear (m n : Nat) (g : MultiLinear.MultiLinearGeometry) : Methods m n where
  affine := some g.affine
  type := mk2 g.id g.mydim
  corners := g.corners
  corner := fun i => (g.corner i).map (vec n)
  center := g.center.map (vec n)
  volume := g.volume
  global := fun x => some (vec n (g.global (RefGeom.ext x)))
  jacobian := fun x => some (mat n m (g.jacobian (RefGeom.ext x)))
  jacobianTransposed := fun x => some (mat m n (g.jacobianTransposed (RefGeom.ext x)))
  jacobianInverse := fun x => (g.jacobianInverse (RefGeom.ext x)).map (mat m n)
  jacobianInverseTransposed := fun x => (g.jacobianInverseTransposed (RefGeom.ext x)).map fun r => mat n m r.2
  integrationElement := fun x => g.integrationElement (RefGeom.ext x)

/-- LocalFiniteElementGeometry; `rules` are the quadrature rules of `volume()` -/
def ofLfe (g : LFEGeometry m n) (rules : Nat → Option (Rule m)) (opts : ConvergenceOptions) : Methods m n where
  affine := g.affine.map (·.1)
  type := mk2 g.id m
  corners := g.corners
  corner := g.corner
  center := g.center
  volume := (g.volume rules opts).bind (·.value)
  global := g.global
  jacobian := fun x => (g.jacobian x).map (mat n m)
  jacobianTransposed := fun x => (g.jacobianTransposed x).map (mat m n)
  jacobianInverse := fun x => (g.jacobianInverse x).map (mat m n)
  jacobianInverseTransposed := fun x => (g.jacobianInverseTransposed x).map (mat n m)
  integrationElement := g.integrationElement

/-- MappedGeometry; `id` is the topology of the wrapped geometry -/
def ofMapped {k : Nat} (g : MappedGeometry m k n) (id : Nat) (rules : Nat → Option (Rule m)) (opts : ConvergenceOptions) :
    Methods m n where
  affine := some g.affine
  type := mk2 id m
  corners := g.corners
  corner := g.corner
  center := g.center
  volume := (g.volume rules opts).value
  global := fun x => some (g.global x)
  jacobian := fun x => some (mat n m (g.jacobian x))
  jacobianTransposed := fun x => some (mat m n (g.jacobianTransposed x))
  jacobianInverse := fun x => (g.jacobianInverse x).map (mat m n)
  jacobianInverseTransposed := fun x => (g.jacobianInverseTransposed x).map (mat n m)
  integrationElement := g.integrationElement

end

end Verif.Compare
