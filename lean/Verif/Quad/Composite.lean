import Verif.Quad.Model
import Verif.Refine.Model
import Verif.MultiLinear.Model

/-! Model of `dune/geometry/quadraturerules/compositequadraturerule.hh` (cited as c.hh). -/

namespace Verif.Quad

open Verif.RefGeom Verif.Typ Verif.Refine Verif.MultiLinear

noncomputable section

/-- `eSubIt.geometry()` (refinement/simplex.cc:674-683): a `CachedMultiLinearGeometry` with the corners of the sub-element.
`tol` is the tolerance of the traits class; `jit`, `detInv` are the members that its constructor leaves uninitialised. -/
def subGeometry (d : Nat) (tol : ℝ) (jit : Mat ℝ) (detInv : ℝ) (it : ElementIterator) : Option CachedMultiLinearGeometry :=
  (it.geometry (K := ℝ) d).map fun corners =>
    .mk' ⟨d, d, (Typ.simplex d).id, fun i => corners.getD i fun _ => 0, tol⟩ jit detInv

/-- c.hh:53-58, the points of one sub-element -/
def subPoints (g : CachedMultiLinearGeometry) (volumeFraction : ℝ) : List (QPoint ℝ) → Option (List (QPoint ℝ))
  | [] => some []
  | q :: qs => do
    let x ← g.global q.position
    let rest ← subPoints g volumeFraction qs
    return ⟨x, volumeFraction * q.weight⟩ :: rest

/-- c.hh:48-60, the loop over the sub-elements.  `fuel` bounds the number of tests of the loop condition; `none`: an
assertion in one of the called functions, or the bound is reached. -/
def compositeLoop (d : Nat) (tol : ℝ) (jit : Mat ℝ) (detInv : ℝ) (pts : List (QPoint ℝ)) (volume : ℝ) (eSubEnd : ElementIterator) :
    (fuel : Nat) → ElementIterator → Option (List (QPoint ℝ))
  | 0, _ => none
  | fuel + 1, eSubIt =>
    if eSubIt.size = eSubEnd.size ∧ eSubIt.index_ = eSubEnd.index_ then some []
    else do
      let g ← subGeometry d tol jit detInv eSubIt
      let (_, v) ← g.volume
      let here ← subPoints g (v / volume) pts
      let next ← eSubIt.increment d
      let rest ← compositeLoop d tol jit detInv pts volume eSubEnd fuel next
      return here ++ rest

/-- c.hh:31-62, the constructor; `n` is `intervals.intervals()` -/
def compositeRule (d : Nat) (tol : ℝ) (jit : Mat ℝ) (detInv : ℝ) (fuel : Nat) (quad : Rule ℝ) (n : Nat) : Option (Rule ℝ) :=
  if isSimplex quad.type ∧ quad.type.dim = d then do
    let volume : ℝ := referenceVolume d quad.type.id
    let pts ← compositeLoop d tol jit detInv quad.pts volume (eEnd d n) fuel (eBegin n)
    return ⟨quad.type, quad.order, pts⟩
  else none

end

end Verif.Quad
