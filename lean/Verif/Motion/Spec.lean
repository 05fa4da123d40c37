import Verif.MultiLinear.Model
import Verif.MatHelp.Spec
import Verif.RefGeom.Volume

/-! Vocabulary of property C96: similarities of the world space and the geometry built from moved corners. -/

namespace Verif.Motion

open Verif.RefGeom Verif.MatHelp
open Matrix

/-- a similarity `y ↦ s Q y + b` of `n`-dimensional space: rotation or reflection `Q`, scaling by `s > 0`, shift by `b` -/
structure Similarity (n : Nat) where
  s : ℝ
  Q : Matrix (Fin n) (Fin n) ℝ
  b : Fin n → ℝ
  s_pos : 0 < s
  orth : Qᵀ * Q = 1

namespace Similarity

variable {n : Nat} (T : Similarity n)

/-- the image of a point -/
def apply (y : Fin n → ℝ) : Fin n → ℝ := T.s • (T.Q *ᵥ y) + T.b

/-- the image of a point stored in an array -/
noncomputable def move (y : Vec ℝ) : Vec ℝ := ext (T.apply (vec n y))

/-- the same without the shift -/
def linear : Matrix (Fin n) (Fin n) ℝ := T.s • T.Q

end Similarity

open MultiLinear in
/-- the geometry with the same topology and tolerance that is built from the moved corners -/
noncomputable def moved (g : MultiLinearGeometry) (T : Similarity g.cdim) : MultiLinearGeometry :=
  { g with corners_ := fun k => T.move (g.corners_ k) }

end Verif.Motion
