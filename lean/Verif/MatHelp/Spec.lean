import Verif.MatHelp.Model
import Mathlib.LinearAlgebra.Matrix.Notation
import Mathlib.Data.Matrix.Mul

/-! Vocabulary of the statements about the matrix helpers: Mathlib's matrices read off a C++ array. -/

namespace Verif.MatHelp

open Verif.RefGeom

/-- the m×n matrix stored in `A` -/
def mat (m n : Nat) (A : Mat ℝ) : Matrix (Fin m) (Fin n) ℝ := Matrix.of fun i j => A i j

/-- the vector stored in `x` -/
def vec (n : Nat) (x : Vec ℝ) : Fin n → ℝ := fun i => x i

/-- the lower triangular matrix stored in the lower triangle of `L` -/
def lower (n : Nat) (L : Mat ℝ) : Matrix (Fin n) (Fin n) ℝ :=
  Matrix.of fun i j => if j ≤ i then L i j else 0

/-- the symmetric matrix stored in the lower triangle of `A` -/
def symm (n : Nat) (A : Mat ℝ) : Matrix (Fin n) (Fin n) ℝ :=
  Matrix.of fun i j => if j ≤ i then A i j else A j i

end Verif.MatHelp
