import Verif.Refine.MeshModel
import Verif.MultiLinear.Model

/-!
Model of what callers do with the mesh of a refinement (for example to write a curved element to a file): map the vertices with
`global()` of the element and build a `MultiLinearGeometry` of every element of the mesh from the mapped vertices.  The loops over the
refinement are those of `Refine.MeshModel`, `global` and the constructor those of `MultiLinear.Model`.
-/

namespace Verif.Image

open Verif.RefGeom Verif.MultiLinear Verif.Refine.Mesh

noncomputable section

/-- the coordinates read for vertex `v` (`coords()`, virtualrefinement.cc:190-193, 479-482) -/
def point (M : Mesh) (v : Nat) : Vec ℝ := (M.points.getD v (0, fun _ => 0)).2

/-- `MultiLinearGeometry<ct, dim, dim>(type, corners)` (multilineargeometry.hh:255-259) for an element of the mesh with vertices
`idx`, in local coordinates of the refined element -/
def part (d cid : Nat) (tol : ℝ) (M : Mesh) (idx : List Nat) : MultiLinearGeometry :=
  ⟨d, d, cid, fun k => point M (idx.getD k 0), tol⟩

/-- `MultiLinearGeometry<ct, dim, cdim>(type, corners)`, the corners are mapped by `geometry.global` (multilineargeometry.hh:289-298) -/
def mapped (g : MultiLinearGeometry) (cid : Nat) (M : Mesh) (idx : List Nat) : MultiLinearGeometry :=
  ⟨g.mydim, g.cdim, cid, fun k => g.global (point M (idx.getD k 0)), g.tol⟩

/-- loop over the elements of the mesh that adds `volume()` (multilineargeometry.hh:363-366) of the geometry of every mapped element;
`none` if an integration element cannot be computed -/
def subVolume (g : MultiLinearGeometry) (cid : Nat) (M : Mesh) : Option ℝ :=
  M.elements.foldlM (fun s e => do let v ← (mapped g cid M e.2).volume; return s + v) 0

end

end Verif.Image
