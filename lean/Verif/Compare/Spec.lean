import Verif.Compare.Model

/-! What it means that two geometries are interchangeable. -/

namespace Verif.Compare

open Verif.Typ

variable {m n : Nat}

/-- both calls are defined and give the same value -/
def Both {α : Type} (a b : Option α) : Prop := ∃ y, a = some y ∧ b = some y

/-- the two geometries give the same answers at `x` -/
structure SameAt (g h : Methods m n) (x : Fin m → ℝ) : Prop where
  global : Both (g.global x) (h.global x)
  jacobian : Both (g.jacobian x) (h.jacobian x)
  jacobianTransposed : Both (g.jacobianTransposed x) (h.jacobianTransposed x)
  jacobianInverse : Both (g.jacobianInverse x) (h.jacobianInverse x)
  jacobianInverseTransposed : Both (g.jacobianInverseTransposed x) (h.jacobianInverseTransposed x)
  integrationElement : Both (g.integrationElement x) (h.integrationElement x)

/-- the two geometries give the same answers at the points of `X`, and have the same type, corners and center -/
structure SameMap (X : Set (Fin m → ℝ)) (g h : Methods m n) : Prop where
  type : eq g.type h.type = true
  corners : g.corners = h.corners
  corner : ∀ i, i < g.corners → Both (g.corner i) (h.corner i)
  center : Both g.center h.center
  at_ : ∀ x ∈ X, SameAt g h x

/-- all answers are the same -/
structure Same (X : Set (Fin m → ℝ)) (g h : Methods m n) : Prop extends SameMap X g h where
  affine : Both g.affine h.affine
  volume : Both g.volume h.volume

/-- both calls are defined and the values differ by at most `tol` in the distance `d` -/
def Near {α : Type} (d : α → α → ℝ) (tol : ℝ) (a b : Option α) : Prop := ∃ x y, a = some x ∧ b = some y ∧ d x y ≤ tol

/-- Euclidean distance -/
noncomputable def euclid (x y : Fin n → ℝ) : ℝ := Real.sqrt (∑ i, (x i - y i) ^ 2)

/-- Frobenius distance -/
noncomputable def frobenius (A B : Matrix (Fin m) (Fin n) ℝ) : ℝ := Real.sqrt (∑ i, ∑ j, (A i j - B i j) ^ 2)

/-- distance of numbers -/
def absDiff (a b : ℝ) : ℝ := |a - b|

/-- the answers at `x` agree up to `tol` -/
structure NearAt (g h : Methods m n) (tol : ℝ) (x : Fin m → ℝ) : Prop where
  global : Near euclid tol (g.global x) (h.global x)
  jacobian : Near frobenius tol (g.jacobian x) (h.jacobian x)
  jacobianTransposed : Near frobenius tol (g.jacobianTransposed x) (h.jacobianTransposed x)
  jacobianInverse : Near frobenius tol (g.jacobianInverse x) (h.jacobianInverse x)
  jacobianInverseTransposed : Near frobenius tol (g.jacobianInverseTransposed x) (h.jacobianInverseTransposed x)
  integrationElement : Near absDiff tol (g.integrationElement x) (h.integrationElement x)

end Verif.Compare
