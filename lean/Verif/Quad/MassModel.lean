import Verif.Quad.Poly
import Mathlib.LinearAlgebra.Matrix.Notation

/-!
Element matrices: the loops over a quadrature rule by which a caller of the library computes the mass matrix and the stiffness matrix of
an element.
-/

namespace Verif.Quad

open Verif.Typ Verif.RefTopo Verif.RefGeom
open Finset hiding ext
open MvPolynomial
open Matrix
open MeasureTheory

variable {d N c : Nat}

/-- the local coordinate of a point: quadraturerules.hh:81-84 `QuadraturePoint::position` -/
def QPoint.at (q : QPoint ℝ) (d : Nat) : Fin d → ℝ := fun i => q.position i

/-- The loop over a rule (quadraturerules.hh:213 `QuadratureRule` is a `std::vector`, so the points come in order; :81-90 `position`,
`weight`; affinegeometry.hh:191-194 `integrationElement`), as in the mass matrices of an element:
`for (auto&& qp : rule) for i, j: M[i][j] += phi[i] * phi[j] * qp.weight() * geometry.integrationElement(qp.position())`.
Simplifications: real numbers, no rounding; the functions are given by their values. -/
noncomputable def massMatrix (φ : Fin N → (Fin d → ℝ) → ℝ) (ie : (Fin d → ℝ) → ℝ) (l : List (QPoint ℝ)) : Matrix (Fin N) (Fin N) ℝ :=
  l.foldl (fun M q => M + of fun i j => φ i (q.at d) * φ j (q.at d) * (q.weight * ie (q.at d))) 0

/-- The same loop for stiffness matrices: the gradients are mapped by `jacobianInverseTransposed` (affinegeometry.hh:219-222) first, then
`M[i][j] += (grad[i] * grad[j]) * qp.weight() * geometry.integrationElement(qp.position())`. -/
noncomputable def stiffnessMatrix (g : Fin N → (Fin d → ℝ) → Fin d → ℝ) (jit : Matrix (Fin c) (Fin d) ℝ) (ie : (Fin d → ℝ) → ℝ)
    (l : List (QPoint ℝ)) : Matrix (Fin N) (Fin N) ℝ :=
  l.foldl (fun M q => M + of fun i j => (jit *ᵥ g i (q.at d)) ⬝ᵥ (jit *ᵥ g j (q.at d)) * (q.weight * ie (q.at d))) 0

end Verif.Quad
