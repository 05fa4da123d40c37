import Verif.RefGeom.Props
import Verif.Check.Model

/-! What `checkGeometry` is meant to check, in mathematical terms. -/

namespace Verif.Check

open Verif.RefGeom Verif.RefTopo Verif.MatHelp Finset
open scoped Matrix

/-- Euclidean distance in ℝⁿ -/
noncomputable def euclid (n : Nat) (x y : Vec ℝ) : ℝ := Real.sqrt (∑ r ∈ range n, (x r - y r) ^ 2)

/-- the matrix of the linear map `f` -/
noncomputable def matrixOf (m n : Nat) (f : Vec ℝ → Vec ℝ) : Matrix (Fin m) (Fin n) ℝ :=
  Matrix.of fun k j => f (fun i => if i = j then 1 else 0) k

/-- the mean of the corners -/
noncomputable def mean (n : Nat) (c : Nat → Vec ℝ) : Vec ℝ := fun r => (∑ i ∈ range n, c i r) / n

/-- `g` is consistent at the local point `x` up to `tol` -/
structure PointOk (g : TestGeometry) (tol : ℝ) (x : Vec ℝ) : Prop where
  inverse : euclid g.mydim x (g.local_ (g.global x)) ≤ tol
  jt : ∀ i j, |(matrixOf g.mydim g.coorddim (g.jacobianTransposed x) *
    matrixOf g.coorddim g.mydim (g.jacobianInverseTransposed x)) i j - (1 : Matrix _ _ ℝ) i j| < tol
  ji : ∀ i j, |(matrixOf g.mydim g.coorddim (g.jacobianInverse x) *
    matrixOf g.coorddim g.mydim (g.jacobian x)) i j - (1 : Matrix _ _ ℝ) i j| < tol
  transposed : matrixOf g.mydim g.coorddim (g.jacobianTransposed x) = (matrixOf g.coorddim g.mydim (g.jacobian x))ᵀ
  inverseTransposed : matrixOf g.coorddim g.mydim (g.jacobianInverseTransposed x) =
    (matrixOf g.mydim g.coorddim (g.jacobianInverse x))ᵀ
  nonneg : 0 ≤ g.integrationElement x
  integrationElement : |Real.sqrt ((matrixOf g.coorddim g.mydim (g.jacobian x))ᵀ *
    matrixOf g.coorddim g.mydim (g.jacobian x)).det - g.integrationElement x| ≤ tol
  volume : g.affine = true → |g.volume - referenceVolume g.mydim g.id * g.integrationElement x| ≤ tol

/-- corners and center can be asked for -/
structure Defined (g : TestGeometry) (c : Nat → Vec ℝ) (z : Vec ℝ) : Prop where
  corner : ∀ i, i < g.corners → g.corner i = some (c i)
  center : g.center = some z

/-- corners `c`, center `z` and volume are not degenerate up to `tol` -/
structure NotDegenerate (g : TestGeometry) (tol : ℝ) (c : Nat → Vec ℝ) (z : Vec ℝ) : Prop where
  several : 1 < g.corners → ∀ i, i < g.corners →
    tol < euclid g.coorddim (c i) z ∧ tol < euclid g.coorddim (c i) (mean g.corners c)
  single : g.corners = 1 → euclid g.coorddim z (mean g.corners c) ≤ tol
  volume : tol ≤ g.volume

/-- number and position of the corners agree with the reference element up to `tol` -/
structure Consistent (g : TestGeometry) (tol : ℝ) (c : Nat → Vec ℝ) : Prop where
  count : g.corners = refSize g.mydim g.id g.mydim
  corner : ∀ i, i < g.corners → euclid g.coorddim (c i) (g.global (RefGeom.corner g.mydim g.id i)) ≤ tol

end Verif.Check
