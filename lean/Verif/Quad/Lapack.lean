import Verif.Quad.Model
import Mathlib.Analysis.Real.Sqrt
import Mathlib.Data.Complex.Basic

/-! Model of `jacobiNodesWeights`, dune/geometry/quadraturerules/jacobiNquadrature.hh:126-171 (cited as n.hh): the Gauss-Jacobi
rules computed by an eigenvalue solver.

Simplifications: real numbers instead of `double`; the `int` arguments do not overflow.  The solver
`DynamicMatrixHelp::eigenValuesNonSym` (dune-common, LAPACK) is a parameter. -/

namespace Verif.Quad

open Verif.RefGeom

noncomputable section

/-- `eigenValuesNonSym`: the eigenvalues and the eigenvectors of the leading n×n part of a matrix -/
abbrev Solver := (n : Nat) → Mat ℝ → (Nat → ℂ) × (Nat → Vec ℝ)

/-- n.hh:140-148, one pass of the loop -/
def jacobiStep (alpha : ℤ) (J : Mat ℝ) (i : Nat) : Mat ℝ :=
  let a_i : ℝ := ((2 * i * (i + alpha) : ℤ) : ℝ) / (((2 * i + alpha - 1) * (2 * i + alpha) : ℤ) : ℝ)
  let c_i : ℝ := ((2 * i * (i + alpha) : ℤ) : ℝ) / (((2 * i + alpha + 1) * (2 * i + alpha) : ℤ) : ℝ)
  let J := setM J i i (-((alpha * alpha : ℤ) : ℝ) / (((2 * i + alpha + 2) * (2 * i + alpha) : ℤ) : ℝ))
  let J := setM J i (i - 1) (Real.sqrt (a_i * c_i))
  setM J (i - 1) i (J i (i - 1))

/-- n.hh:136-149 -/
def jacobiMatrix (n : Nat) (alpha : ℤ) : Mat ℝ :=
  let J := setM (fun _ _ => 0) 0 0 (-(alpha : ℝ) / ((2 + alpha : ℤ) : ℝ))
  (List.range' 1 (n - 1)).foldl (jacobiStep alpha) J

/-- n.hh:128-171; `degree/2 + 1` is positive for the non-negative degrees that reach this point -/
def jacobiNodesWeights (solver : Solver) (degree alpha : ℤ) : List (QPoint ℝ) :=
  let n := (degree / 2 + 1).toNat
  let J := jacobiMatrix n alpha
  let (eigenValues, eigenVectors) := solver n J
  let mu : ℝ := 1.0 / ((alpha + 1 : ℤ) : ℝ)
  (List.range n).map fun i =>
    let eV0 := eigenVectors i 0
    let weight := mu * eV0 * eV0
    ⟨setV (fun _ => 0) 0 (0.5 * (eigenValues i).re + 0.5), weight⟩

/-- the library built with LAPACK and a floating point type -/
def lapackEnv (solver : Solver) : Env ℝ := ⟨some (jacobiNodesWeights solver)⟩

end

end Verif.Quad
