import Verif.Normal.Props
import Verif.Quad.SymmetricProps

/-!
Model of two loops that callers write over the quadrature points of a common sub-entity of two elements: with the geometry of the
sub-entity, and with the geometry of the element and the normals of the reference element.  All functions called in the bodies are
the models of the other parts (`Quad.Model`, `MultiLinear.Model`, `RefGeom.Model`).  `none`: the geometry has no inverse at a point
(undefined behaviour or an exception of the matrix helper).
-/

namespace Verif.Flux

open Verif.RefGeom Verif.MatHelp Verif.RefTopo Verif.MultiLinear Verif.Quad Verif.Normal
open Matrix hiding vec

/-- `f(geometry.global(x)) * geometry.integrationElement(x)`, multilineargeometry.hh:289-298, 336-341 -/
noncomputable def surfaceDensity (g : MultiLinearGeometry) (f : Vec ℝ → ℝ) (x : Vec ℝ) : Option ℝ :=
  (g.integrationElement x).map fun ie => f (g.global x) * ie

/-- `jacobianInverseTransposed(z) * normal * integrationElement(z)`, with `z` the position of `x` in the element (multilineargeometry.hh:350-353,
affinegeometry.hh:101-128), applied to the value of a vector field -/
noncomputable def fluxDensity (d : Nat) (g : MultiLinearGeometry) (n : Vec ℝ) (e : Vec ℝ × Mat ℝ) (F : Vec ℝ → Vec ℝ) (x : Vec ℝ) : Option ℝ :=
  (g.jacobianInverseTransposed (embed (d - 1) e x)).map fun r =>
    mappedNormal d r n ⬝ᵥ vec d (F (g.global (embed (d - 1) e x)))

/-- `for (const auto& qp : rule) sum += density(qp.position()) * qp.weight();` -/
noncomputable def quadrature (density : Vec ℝ → Option ℝ) (pts : List (QPoint ℝ)) : Option ℝ :=
  pts.foldlM (fun sum qp => (density qp.position).map fun v => sum + v * qp.weight) 0

end Verif.Flux
