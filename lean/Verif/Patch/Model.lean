import Verif.Flux.Model

/-!
Model of the loop in which callers assemble the stiffness matrix of an element with the multilinear shape functions.  The shape
functions are those of `MultiLinearGeometry` itself: a geometry in a world of dimension one whose corners are the nodal values.  All
functions called in the bodies are the models of the other parts.  `none`: the Jacobian has no full rank at a point.
-/

namespace Verif.Patch

open Verif.RefGeom Verif.MatHelp Verif.RefTopo Verif.MultiLinear Verif.Quad Verif.Flux
open Matrix hiding vec

/-- `MultiLinearGeometry<ctype, mydim, 1>(type, values)`, multilineargeometry.hh:239-259: the function with the given values at the
corners of the reference element -/
def interpolant (g : MultiLinearGeometry) (u : Nat → ℝ) : MultiLinearGeometry := ⟨g.mydim, 1, g.id, fun k _ => u k, g.tol⟩

/-- value, multilineargeometry.hh:289-298 -/
noncomputable def value (g : MultiLinearGeometry) (u : Nat → ℝ) (x : Vec ℝ) : ℝ := (interpolant g u).global x 0

/-- gradient on the reference element, multilineargeometry.hh:377-384 -/
noncomputable def localGradient (g : MultiLinearGeometry) (u : Nat → ℝ) (x : Vec ℝ) : Fin g.mydim → ℝ :=
  fun r => (interpolant g u).jacobianTransposed x r 0

/-- `geometry.jacobianInverseTransposed(x).mv(localGradient, gradient)`, multilineargeometry.hh:486-510, 738-743 -/
noncomputable def gradient (g : MultiLinearGeometry) (u : Nat → ℝ) (x : Vec ℝ) : Option (Fin g.cdim → ℝ) :=
  (g.jacobianInverseTransposed x).map fun r => mat g.cdim g.mydim r.2 *ᵥ localGradient g u x

/-- values of the shape function of corner `k` -/
def nodal (k : Nat) : Nat → ℝ := fun l => if l = k then 1 else 0

/-- `gradient[k] * gradient[l] * geometry.integrationElement(x)`, multilineargeometry.hh:350-353 -/
noncomputable def stiffnessDensity (g : MultiLinearGeometry) (k l : Nat) (x : Vec ℝ) : Option ℝ :=
  match gradient g (nodal k) x, gradient g (nodal l) x, g.integrationElement x with
  | some a, some b, some ie => some (a ⬝ᵥ b * ie)
  | _, _, _ => none

/-- the entry of the element matrix -/
noncomputable def stiffness (g : MultiLinearGeometry) (pts : List (QPoint ℝ)) (k l : Nat) : Option ℝ := quadrature (stiffnessDensity g k l) pts

end Verif.Patch
