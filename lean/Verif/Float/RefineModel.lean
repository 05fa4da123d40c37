import Verif.Float.Model
import Verif.Refine.TriangProps
import Verif.Refine.HCubeModel

/-!
Model of the coordinates of the refinements in floating-point arithmetic: dune/geometry/refinement/simplex.cc ("s.cc"),
hcubetriangulation.cc ("ht.cc"), prismtriangulation.cc ("pr.cc"), pyramidtriangulation.cc ("py.cc") and hcube.cc ("h.cc").

The iterators and `VertexIterator.coords`, `ElementIterator.global`, `Triang.VIterator.coords`, `Triang.EIterator.global` are
those of `Verif.Refine`, whose coordinate type may be any type with the operations used; here it is `Fl φ`, the numbers of a
floating-point format.  Integers are converted by rounding.  `Verif.Float.position` is the position of a sub-entity in
floating-point arithmetic.  The functions of h.cc divide in `double` and convert the quotient to the coordinate type.
-/

namespace Verif.FloatRefine

open Verif.Float Verif.Refine

/-- conversion of an `int` to the coordinate type -/
noncomputable instance {φ : Format} : IntCast (Fl φ) := ⟨fun n => Fl.round φ n⟩

section
variable {K : Type} [Zero K] [One K] [Add K] [Sub K] [Mul K] [Div K] [NatCast K]

/-- s.cc:674-683, the corners of the returned geometry -/
def geometry (dimension : Nat) (it : ElementIterator) : Option (List (Nat → K)) :=
  (List.range (dimension + 1)).mapM fun i => (Float.position dimension 0 i dimension).bind (it.global dimension)

/-- ht.cc:330-341, pr.cc:325-336, py.cc:327-339, the corners of the returned geometry -/
def triangGeometry (s : Triang.Scheme K) (it : Triang.EIterator) : Option (List (Nat → K)) :=
  (geometry s.dimension it.backend).bind fun corners => corners.mapM (it.global s)

end

noncomputable section

/-- h.cc:199-211: the quotient in `double`, converted to the coordinate type -/
def cubeVertex (φ : Format) (dimension : Nat) (it : HCube.Iterator) : Option (Nat → Fl φ) :=
  (it.vertexCoord dimension).map fun v i =>
    if i < dimension then Fl.round φ ((v i : Fl double) * 1 / (it.nIntervals : Fl double)).val else 0

/-- h.cc:389-416 for codimension 0: the lower and the upper corner of the axis-aligned cube -/
def cubeGeometry (φ : Format) (dimension : Nat) (it : HCube.Iterator) : Option ((Nat → Fl φ) × (Nat → Fl φ)) :=
  (HCube.idx2coord dimension it.index_ it.nIntervals).map fun intCoords =>
    (fun j => Fl.round φ ((intCoords j : Fl double) / (it.nIntervals : Fl double)).val,
      fun j => Fl.round φ (((intCoords j + 1 : Nat) : Fl double) / (it.nIntervals : Fl double)).val)

end

/-! ### In exact arithmetic these are the models of `Verif.Refine` -/

theorem geometry_real (d : Nat) (it : ElementIterator) : geometry (K := ℝ) d it = it.geometry d := by
  simp only [geometry, ElementIterator.geometry, position_eq]

theorem triangGeometry_real (s : Triang.Scheme ℝ) (it : Triang.EIterator) : triangGeometry s it = it.geometry s := by
  simp only [triangGeometry, Triang.EIterator.geometry, geometry_real]

end Verif.FloatRefine
