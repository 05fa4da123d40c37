import Verif.Affine.Model
import Verif.MatHelp.Spec
import Mathlib.LinearAlgebra.Matrix.Determinant.Basic

/-! Model of `dune/geometry/test/checkgeometry.hh` (cited as hh; the header is installed and used by grid
implementations to check their geometries).

The geometry is arbitrary, so it is a record of its methods.  Simplifications: real numbers (the tolerance
`sqrt(epsilon)` is an argument); methods are pure functions; messages on `cerr`/`cout` are dropped; the determinant of
a FieldMatrix (dune-common) is the mathematical one; the quadrature rule hh:194 is the list of its points, an
argument. -/

namespace Verif.Check

open Verif.RefGeom Verif.MatHelp Verif.RefTopo

noncomputable section

/-- the methods hh uses (108-117, 148, 157, 162, 200-208, 266, 281).  The four matrices are only used through `mv`
(hh:34), so a matrix is the function computing the product with a vector.  `none`: the call is undefined behaviour. -/
structure TestGeometry where
  mydim : Nat
  coorddim : Nat
  corners : Nat
  corner : Nat → Option (Vec ℝ)
  center : Option (Vec ℝ)
  volume : ℝ
  isNone : Bool
  id : Nat
  global : Vec ℝ → Vec ℝ
  local_ : Vec ℝ → Vec ℝ
  jacobianTransposed : Vec ℝ → Vec ℝ → Vec ℝ
  jacobianInverseTransposed : Vec ℝ → Vec ℝ → Vec ℝ
  jacobian : Vec ℝ → Vec ℝ → Vec ℝ
  jacobianInverse : Vec ℝ → Vec ℝ → Vec ℝ
  integrationElement : Vec ℝ → ℝ
  affine : Bool

/-- a call that does not return a value: DUNE_THROW or undefined behaviour -/
inductive Stop where
  | throw
  | ub
deriving DecidableEq

/-- undefined behaviour of a method -/
def get {α : Type} : Option α → Except Stop α
  | none => .error .ub
  | some a => .ok a

/-- `two_norm` of the difference of two FieldVectors of size `n` (dune-common) -/
def dist (n : Nat) (x y : Vec ℝ) : ℝ := Real.sqrt (addLoop 0 0 n fun i => (x i - y i) * (x i - y i))

/-- hh:28-39; `cols` is the number of columns, the rows are produced by `mv` -/
def toFieldMatrix (mv : Vec ℝ → Vec ℝ) : Mat ℝ := fun k j => mv (fun i => if i = j then 1 else 0) k

/-- hh:43-51, called with a square matrix -/
def isIdentity (n : Nat) (m : Mat ℝ) (tolerance : ℝ) : Bool :=
  (List.range n).all fun i => (List.range n).all fun j => !decide (|m i j - (if i = j then 1 else 0)| ≥ tolerance)

/-- hh:220, 235: the product of a `m × n` with a `n × m` matrix (dune-common) -/
def product (n : Nat) (A B : Mat ℝ) : Mat ℝ := fun i j => addLoop 0 0 n fun k => A i k * B k j

/-- hh:250, 257: `infinity_norm` of the difference to the transposed is 0 (dune-common), for a `m × n` matrix `A` -/
def isTransposed (m n : Nat) (A B : Mat ℝ) : Bool :=
  (List.range m).all fun i => (List.range n).all fun j => decide (A i j - B j i = 0)

/-- hh:271-275 -/
def gram (n : Nat) (A : Mat ℝ) : Mat ℝ := fun i j => addLoop 0 0 n fun k => A i k * A j k

variable (g : TestGeometry) (tolerance : ℝ)

/-- hh:112-146: corners, their average and the center; `cs` are the corners -/
def checkCorners (cs : List (Vec ℝ)) (center : Vec ℝ) : Bool :=
  let cornerAvg : Vec ℝ := fun r => cs.foldl (fun acc c => acc + c r) 0 / (g.corners : ℝ)
  if g.corners > 1 then
    cs.all fun c => !decide (dist g.coorddim c center ≤ tolerance) && !decide (dist g.coorddim c cornerAvg ≤ tolerance)
  else !decide (dist g.coorddim center cornerAvg > tolerance)

/-- hh:195-286, one quadrature point -/
def checkPoint (x : Vec ℝ) : Bool :=
  let Jt := toFieldMatrix (g.jacobianTransposed x)
  let Jit := toFieldMatrix (g.jacobianInverseTransposed x)
  let J := toFieldMatrix (g.jacobian x)
  let Ji := toFieldMatrix (g.jacobianInverse x)
  !decide (dist g.mydim x (g.local_ (g.global x)) > tolerance) &&
  isIdentity g.mydim (product g.coorddim Jt Jit) tolerance &&
  isIdentity g.mydim (product g.coorddim Ji J) tolerance &&
  isTransposed g.mydim g.coorddim Jt J &&
  isTransposed g.coorddim g.mydim Jit Ji &&
  !decide (g.integrationElement x < 0) &&
  !decide (|Real.sqrt (Matrix.det (mat g.mydim g.mydim (gram g.coorddim Jt))) - g.integrationElement x| > tolerance) &&
  !(g.affine && decide (|g.volume - referenceVolume g.mydim g.id * g.integrationElement x| > tolerance))

/-- hh:67-289; `quadrature` are the points of the rule hh:194 -/
def checkGeometry (quadrature : List (Vec ℝ)) : Except Stop Bool := do
  if g.corners = 0 then .error .throw -- hh:109
  else do
    let cs ← get ((List.range g.corners).mapM g.corner) -- hh:113, 124
    let center ← get g.center -- hh:117
    let pass := checkCorners g tolerance cs center && !decide (g.volume < tolerance) -- hh:119-153
    if g.isNone then return pass -- hh:158
    else do
      let c ← get (position g.mydim g.id 0 0)
      if dist g.coorddim center (g.global c) > tolerance then .error .throw -- hh:166
      else do
        let pass ← if refSize g.mydim g.id g.mydim = g.corners then do -- hh:174-189
            let ps ← get ((List.range g.corners).mapM fun i => position g.mydim g.id i g.mydim)
            pure (pass && (cs.zip ps).all fun (c, p) => !decide (dist g.coorddim c (g.global p) > tolerance))
          else pure false
        return pass && quadrature.all (checkPoint g tolerance)

end

/-- The methods of AffineGeometry (affinegeometry.hh, modelled in Verif.Affine) as seen by `checkGeometry`; `mv` of
FieldMatrix (dune-common) is the matrix-vector product; `affine()` is true (affinegeometry.hh:131) -/
noncomputable def ofAffine (g : Verif.Affine.AffineGeometry) : TestGeometry where
  mydim := g.mydim
  coorddim := g.cdim
  corners := g.corners
  corner := g.corner
  center := g.center
  volume := g.volume
  isNone := false
  id := g.id
  global := g.global
  local_ := g.local_
  jacobianTransposed _ v := fun i => addLoop 0 0 g.cdim fun j => g.jacobianTransposed i j * v j
  jacobianInverseTransposed _ v := fun i => addLoop 0 0 g.mydim fun j => g.jacobianInverseTransposed i j * v j
  jacobian _ v := fun i => addLoop 0 0 g.mydim fun j => g.jacobian i j * v j
  jacobianInverse _ v := fun i => addLoop 0 0 g.cdim fun j => g.jacobianInverse i j * v j
  integrationElement _ := g.integrationElement
  affine := true

end Verif.Check
