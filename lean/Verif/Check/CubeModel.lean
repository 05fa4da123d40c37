import Verif.Check.Model
import Verif.Cube.Model

/-! The methods of AxisAlignedCubeGeometry as seen by `checkGeometry` (checkgeometry.hh, modelled in `Check.Model`). -/

namespace Verif.Check

open Verif.RefGeom Verif.MatHelp

/-- The methods of AxisAlignedCubeGeometry (axisalignedcubegeometry.hh:164-320, modelled in Verif.Cube); `mv` of FieldMatrix and
DiagonalMatrix (dune-common) is the matrix-vector product; `type()` is the cube (hh:164-167), `affine()` is true (hh:311-314); the
methods have no undefined behaviour -/
noncomputable def ofCube (g : Verif.Cube.AxisAlignedCubeGeometry) : TestGeometry where
  mydim := g.dim
  coorddim := g.coorddim
  corners := g.corners
  corner k := some (g.corner k)
  center := some g.center
  volume := g.volume
  isNone := false
  id := 2 ^ g.dim - 1
  global := g.global
  local_ := g.local_
  jacobianTransposed _ v := fun i => addLoop 0 0 g.coorddim fun j => g.jacobianTransposed i j * v j
  jacobianInverseTransposed _ v := fun i => addLoop 0 0 g.dim fun j => g.jacobianInverseTransposed i j * v j
  jacobian _ v := fun i => addLoop 0 0 g.dim fun j => g.jacobian i j * v j
  jacobianInverse _ v := fun i => addLoop 0 0 g.coorddim fun j => g.jacobianInverse i j * v j
  integrationElement _ := g.integrationElement
  affine := true

end Verif.Check
