import Verif.MultiLinear.Model
import Verif.RefGeom.Props

/-! Vocabulary of property C97: symmetries of reference elements and renumbered geometries. -/

namespace Verif.Neighbour

open Verif.RefGeom Verif.RefTopo Finset

/-- the affine map `x ↦ a + M x` of `d`-dimensional space -/
def affMap (d : Nat) (a : Vec ℝ) (M : Mat ℝ) (x : Vec ℝ) : Vec ℝ := fun i => a i + ∑ r ∈ range d, M i r * x r

/-- `x ↦ a + M x` is a symmetry of the reference element: it permutes the corners, the corner `k` goes to `σ k` -/
structure Symmetry (d id : Nat) (σ : Nat → Nat) (a : Vec ℝ) (M : Mat ℝ) : Prop where
  lt : ∀ k, k < refSize d id d → σ k < refSize d id d
  inj : ∀ k k', k < refSize d id d → k' < refSize d id d → σ k = σ k' → k = k'
  corner : ∀ k, k < refSize d id d → ∀ i, i < d → corner (K := ℝ) d id (σ k) i = affMap d a M (corner d id k) i

open MultiLinear in
/-- the geometry with the same corners in another order: its corner `k` is corner `σ k` of `g` -/
def renumbered (g : MultiLinearGeometry) (σ : Nat → Nat) : MultiLinearGeometry :=
  { g with corners_ := fun k => g.corners_ (σ k) }

end Verif.Neighbour
