import Verif.MatHelp.Model
import Verif.MatHelp.Spec
import Verif.RefGeom.Volume

/-! Model of `dune/geometry/utility/algorithms.hh` (cited as hh): `Impl::gaussNewton`.

Simplifications: real numbers instead of floating point numbers, so no NaN; `f` and `df` are pure total functions; the
loop counters do not overflow. -/

namespace Verif.GaussNewton

open Verif.RefGeom Verif.MatHelp

noncomputable section

/-- hh:23-37; the counters are `int` -/
structure Options where
  maxIt : Int
  absTol : ℝ
  maxInnerIt : Int
  theta : ℝ

/-- hh:41-47 -/
inductive Code where
  | ok
  | jacobianNotInvertible
  | stagnation
  | toleranceNotReached
deriving DecidableEq

/-- dune-common `FieldVector::two_norm` -/
def two_norm {n : Nat} (v : Fin n → ℝ) : ℝ := Real.sqrt (∑ i, v i * v i)

section
variable {m n : Nat} (f : (Fin m → ℝ) → (Fin n → ℝ)) (df : (Fin m → ℝ) → Mat ℝ) (y : Fin n → ℝ) (opts : Options)

/-- hh:85-94, the inner loop: `fuel` iterations are left, the result is `x`, `dy`, `resNorm` at its end -/
def lineSearch (x0 dx : Fin m → ℝ) (resNorm0 : ℝ) : (fuel : Nat) → (alpha : ℝ) → (x : Fin m → ℝ) → (dy : Fin n → ℝ) →
    (resNorm : ℝ) → (Fin m → ℝ) × (Fin n → ℝ) × ℝ
  | 0, _, x, dy, resNorm => (x, dy, resNorm)
  | fuel + 1, alpha, _, _, _ =>
    let x := x0 - alpha • dx
    let dy := f x - y
    let resNorm := two_norm dy
    if resNorm < resNorm0 then (x, dy, resNorm)
    else lineSearch x0 dx resNorm0 fuel (alpha * opts.theta) x dy resNorm

/-- hh:74-112, the outer loop with `fuel` iterations left, and the code after it.  Result: return code and `x0`.
`none`: the assertion in `xTRightInvA` (it asks for at least as many columns as rows). -/
def loop : (fuel : Nat) → (x x0 : Fin m → ℝ) → (dy : Fin n → ℝ) → (resNorm0 resNorm : ℝ) →
    Option (Code × (Fin m → ℝ))
  | 0, _, x0, _, _, resNorm => if ¬ resNorm < opts.absTol then some (.toleranceNotReached, x0) else some (.ok, x0)
  | fuel + 1, x, x0, dy, resNorm0, resNorm =>
    match xTRightInvA m n (df x) (ext dy) with
    | none => none
    | some (false, _) => some (.jacobianNotInvertible, x0)
    | some (true, dx) =>
      let (x, dy, resNorm) := lineSearch f y opts x0 (vec m dx) resNorm0 opts.maxInnerIt.toNat 1 x dy resNorm
      if ¬ resNorm < resNorm0 then some (.stagnation, x0)
      else if resNorm < opts.absTol then some (.ok, x)
      else loop fuel x x dy resNorm resNorm

/-- hh:62-113 -/
def gaussNewton (x0 : Fin m → ℝ) : Option (Code × (Fin m → ℝ)) :=
  loop f df y opts opts.maxIt.toNat x0 x0 (f x0 - y) (two_norm (f x0 - y)) 0

end

end

end Verif.GaussNewton
