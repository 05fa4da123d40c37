import Verif.Refine.Model
import Verif.Cube.Model

/-!
Model of dune/geometry/refinement/hcube.cc ("h.cc"), the refinement of cubes into cubes.

`unsigned` values are natural numbers; `nVertices(nIntervals)` is assumed to fit (h.cc:111 computes it in `unsigned`).  The
remainder and the division by zero in `idx2coord` are `none`.  Both kinds of iterators are the same class template
(h.cc:272-358) and have the same members.
-/

namespace Verif.Refine.HCube

open Function Verif.Cube

/-- h.cc:105-112 -/
def nVertices (dimension nIntervals : Nat) : Nat := (nIntervals + 1) ^ dimension

/-- h.cc:130-139 -/
def nElements (dimension nIntervals : Nat) : Nat := nIntervals ^ dimension

/-- h.cc:293-294 -/
structure Iterator where
  index_ : Nat
  nIntervals : Nat

/-- h.cc:114-128 -/
def vBegin (nIntervals : Nat) : Iterator := ⟨0, nIntervals⟩
def vEnd (dimension nIntervals : Nat) : Iterator := ⟨nVertices dimension nIntervals, nIntervals⟩

/-- h.cc:141-155 -/
def eBegin (nIntervals : Nat) : Iterator := ⟨0, nIntervals⟩
def eEnd (dimension nIntervals : Nat) : Iterator := ⟨nElements dimension nIntervals, nIntervals⟩

/-- h.cc:324-328, the passes in the list -/
def idx2coordLoop (w : Nat) : List Nat → (idx : Nat) → (c : Nat → Nat) → (Nat → Nat)
  | [], _, c => c
  | d :: l, idx, c => idx2coordLoop w l (idx / w) (update c d (idx % w))

/-- h.cc:320-330 -/
def idx2coord (dimension idx w : Nat) : Option (Nat → Nat) :=
  if w = 0 ∧ 0 < dimension then none else some (idx2coordLoop w (List.range dimension) idx fun _ => 0)

/-- h.cc:332-342 -/
def coord2idx (dimension : Nat) (c : Nat → Nat) (w : Nat) : Nat :=
  (List.range dimension).foldr (fun d i => i * w + c d) 0

/-- h.cc:344-351 -/
def idx2multiidx (idx : Nat) : Nat → Nat := fun i => (idx >>> i) &&& 1

namespace Iterator

/-- h.cc:362-369 -/
def equals (it other : Iterator) : Prop := it.index_ = other.index_ ∧ it.nIntervals = other.nIntervals

/-- h.cc:371-378 -/
def increment (it : Iterator) : Iterator := { it with index_ := it.index_ + 1 }

/-- h.cc:380-387 -/
def index (it : Iterator) : Nat := it.index_

/-- h.cc:296-300, 308-312 -/
def cellCoord (dimension : Nat) (it : Iterator) : Option (Nat → Nat) := idx2coord dimension it.index_ it.nIntervals

/-- h.cc:302-306, 314-318 -/
def vertexCoord (dimension : Nat) (it : Iterator) : Option (Nat → Nat) := idx2coord dimension it.index_ (it.nIntervals + 1)

noncomputable section

/-- h.cc:199-211, the coordinates of a vertex -/
def vCoords (dimension : Nat) (it : Iterator) : Option (Nat → ℝ) :=
  (it.vertexCoord dimension).map fun v i => if i < dimension then (v i : ℝ) * 1.0 / it.nIntervals else 0

/-- h.cc:258-270, the coordinates of an element -/
def eCoords (dimension : Nat) (it : Iterator) : Option (Nat → ℝ) :=
  (it.cellCoord dimension).map fun v i => if i < dimension then ((v i : ℝ) * 1.0 + 0.5) / it.nIntervals else 0

end

/-- h.cc:246-253 for one `i`; dune-common initialises the vector with zero -/
def vertexIndex (dimension : Nat) (it : Iterator) (e : Nat → Nat) (i : Nat) : Nat :=
  ((List.range dimension).foldl (fun (s : Nat × Nat) d =>
    (s.1 + (idx2multiidx i d + e d) * s.2, s.2 * (it.nIntervals + 1))) (0, 1)).1

/-- h.cc:234-256; the vector has `1 << dimension` entries -/
def vertexIndices (dimension : Nat) (it : Iterator) : Option (List Nat) :=
  (it.cellCoord dimension).map fun e => (List.range (1 <<< dimension)).map (it.vertexIndex dimension e)

noncomputable section

/-- h.cc:389-416 for codimension 0 -/
def eGeometry (dimension : Nat) (it : Iterator) : Option AxisAlignedCubeGeometry :=
  (idx2coord dimension it.index_ it.nIntervals).map fun intCoords =>
    ofCorners dimension (fun j => (intCoords j : ℝ) / it.nIntervals) (fun j => ((intCoords j + 1 : Nat) : ℝ) / it.nIntervals)

/-- h.cc:389-416 for codimension `dimension` -/
def vGeometry (dimension : Nat) (it : Iterator) : Option AxisAlignedCubeGeometry :=
  (idx2coord dimension it.index_ it.nIntervals).bind fun intCoords =>
    let lower : Nat → ℝ := fun j => (intCoords j : ℝ) / it.nIntervals
    ofAxes 0 dimension lower lower fun _ => false

end

end Iterator

end Verif.Refine.HCube
