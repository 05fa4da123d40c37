import Verif.MatHelp.Model

/-!
Model of dune/geometry/affinegeometry.hh over ℝ.  The template parameters `mydim`, `cdim` and the topology id of the
reference element are fields.  `rightInvA` demands `mydim ≤ cdim` (static_assert), which is a hypothesis of the
statements.
-/

namespace Verif.Affine

open Verif.RefGeom Verif.MatHelp Verif.RefTopo

noncomputable section

/-- affinegeometry.hh:251-256, the members -/
structure AffineGeometry where
  mydim : Nat
  cdim : Nat
  id : Nat
  origin : Vec ℝ
  jt : Mat ℝ
  jit : Mat ℝ
  integrationElement : ℝ

/-- hh:101-106 (and 109-112): from origin and transposed Jacobian.  `none`: `rightInvA` trips its assertion or
divides by zero. -/
def AffineGeometry.ofJacobian (mydim cdim id : Nat) (origin : Vec ℝ) (jt : Mat ℝ) : Option AffineGeometry := do
  let (det, jit) ← rightInvA mydim cdim jt
  return { mydim := mydim, cdim := cdim, id := id, origin := origin, jt := jt, jit := jit, integrationElement := det }

/-- hh:115-122 (and 125-128): from the corners.  `none` also if `coordVector` is too short. -/
def AffineGeometry.ofCorners (mydim cdim id : Nat) (coordVector : List (Vec ℝ)) : Option AffineGeometry := do
  let origin ← coordVector[0]?
  let rows ← (List.range mydim).mapM fun i => do
    let c ← coordVector[i + 1]?
    return fun j => c j - origin j
  let jt : Mat ℝ := fun i => rows.getD i (fun _ => 0)
  let (det, jit) ← rightInvA mydim cdim jt
  return { mydim := mydim, cdim := cdim, id := id, origin := origin, jt := jt, jit := jit, integrationElement := det }

variable (g : AffineGeometry)

/-- hh:154-159, with `umtv` of FieldMatrix -/
def AffineGeometry.global (x : Vec ℝ) : Vec ℝ := fun j => addLoop (g.origin j) 0 g.mydim fun i => g.jt i j * x i

/-- hh:174-179 -/
def AffineGeometry.local_ (y : Vec ℝ) : Vec ℝ := mtv g.cdim g.mydim g.jit fun j => y j - g.origin j

/-- hh:137 -/
def AffineGeometry.corners : Nat := refSize g.mydim g.id g.mydim

/-- hh:140-143; `none`: out of range -/
def AffineGeometry.corner (i : Nat) : Option (Vec ℝ) := (position g.mydim g.id i g.mydim).map g.global

/-- hh:146 -/
def AffineGeometry.center : Option (Vec ℝ) := (position g.mydim g.id 0 0).map g.global

/-- hh:197-200 -/
def AffineGeometry.volume : ℝ := g.integrationElement * referenceVolume g.mydim g.id

/-- hh:208-211 -/
def AffineGeometry.jacobianTransposed : Mat ℝ := g.jt

/-- hh:219-222 -/
def AffineGeometry.jacobianInverseTransposed : Mat ℝ := g.jit

/-- hh:230-233 -/
def AffineGeometry.jacobian : Mat ℝ := fun i j => g.jt j i

/-- hh:241-244 -/
def AffineGeometry.jacobianInverse : Mat ℝ := fun i j => g.jit j i

end

end Verif.Affine
