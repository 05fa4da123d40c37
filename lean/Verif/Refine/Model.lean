import Verif.RefGeom.Model
import Mathlib.Data.Nat.Choose.Basic
import Mathlib.Data.Nat.Factorial.Basic
import Mathlib.Data.Rat.Cast.Defs
import Mathlib.Algebra.Field.Basic
import Mathlib.Logic.Function.Basic

/-! Model of `dune/geometry/refinement/simplex.cc` (cited as s.cc) and `refinement/base.cc`.

`FieldVector<int, dimension>` is a function `Nat → Nat` whose entries from `dimension` on are never read; all integers
of the code are non-negative where it is defined.  `Dune::binomial`, `Dune::factorial` and `Dune::power` (dune-common)
are `Nat.choose`, `Nat.factorial` and `^`.  Simplification: `int` does not overflow.  `none` is undefined behaviour: a
failing assertion or an index out of range.  The code can not be instantiated in dimension 0 (both specialisations of
the iterator match), so the theorems ask for a positive dimension. -/

namespace Verif.Refine

open Verif.RefGeom
open Function (update)

/-! ### base.cc -/

/-- base.cc:92-99 -/
structure RefinementIntervals where
  intervals : Nat

/-- base.cc:106-109 -/
def refinementIntervals (intervals : Nat) : RefinementIntervals := ⟨intervals⟩

/-- base.cc:115-118; shifting a 32 bit `int` by 31 or more leaves its range: `none` -/
def refinementLevels (levels : Nat) : Option RefinementIntervals := if levels < 31 then some ⟨1 <<< levels⟩ else none

/-! ### utilities -/

/-- s.cc:279-286 -/
def pointIndex (dimension : Nat) (point : Nat → Nat) : Nat :=
  (List.range dimension).foldl (fun index i => index + (dimension - i + point i - 1).choose (dimension - i)) 0

/-- s.cc:303-308, the passes `i, …, 1` -/
def permLoop : (i base m : Nat) → (perm : Nat → Nat) → Option (Nat → Nat)
  | 0, _, _, perm => some perm
  | i + 1, base, m, perm =>
    let base := base / (i + 1)
    let d := m / base
    let m := m % base
    if d ≤ i then
      let t := perm i
      let perm := update perm i (perm (i - d))
      permLoop i base m (update perm (i - d) t)
    else none

/-- s.cc:292-310 -/
def getPermutation (n m : Nat) : Option (Nat → Nat) :=
  let perm : Nat → Nat := fun i => i
  let base := (List.range n).foldl (fun base i => base * (i + 1)) 1
  permLoop n base m perm

section
variable {K : Type}

/-- s.cc:327-328, the passes `i, …, 1` -/
def r2kLoop [Add K] (kuhn : Nat → Nat) : (i : Nat) → (point : Nat → K) → (Nat → K)
  | 0, point => point
  | i + 1, point => r2kLoop kuhn i (update point (kuhn i) (point (kuhn i) + point (kuhn (i + 1))))

/-- s.cc:320-330 -/
def referenceToKuhn [Add K] (dimension : Nat) (point : Nat → K) (kuhn : Nat → Nat) : Nat → K :=
  r2kLoop kuhn (dimension - 1) point

/-- s.cc:339-349 -/
def kuhnToReference [Sub K] (dimension : Nat) (point : Nat → K) (kuhn : Nat → Nat) : Nat → K :=
  (List.range (dimension - 1)).foldl
    (fun point i => update point (kuhn i) (point (kuhn i) - point (kuhn (i + 1)))) point

end

/-! ### the refinement -/

/-- s.cc:391-397 -/
def nVertices (dimension nIntervals : Nat) : Nat := (dimension + nIntervals).choose dimension

/-- s.cc:415-421 -/
def nElements (dimension nIntervals : Nat) : Nat := nIntervals ^ dimension

/-! ### vertices -/

/-- s.cc:470-471 -/
structure VertexIterator where
  size : Nat
  vertex : Nat → Nat

/-- s.cc:399-413, 474-482 -/
def vBegin (nIntervals : Nat) : VertexIterator := ⟨nIntervals, fun _ => 0⟩
def vEnd (nIntervals : Nat) : VertexIterator := ⟨nIntervals, fun i => if i = 0 then nIntervals + 1 else 0⟩

/-- s.cc:490-496, the passes `i - 1, …, 0`; the same loop increments the origin of an element (s.cc:600-606) -/
def incLoop : (i : Nat) → (vertex : Nat → Nat) → (Nat → Nat)
  | 0, vertex => vertex
  | i + 1, vertex =>
    let vertex := update vertex i (vertex i + 1)
    if i = 0 ∨ vertex i ≤ vertex (i - 1) then vertex else incLoop i (update vertex i 0)

namespace VertexIterator

/-- s.cc:484-497 -/
def increment (dimension : Nat) (it : VertexIterator) : Option VertexIterator :=
  if it.vertex 0 ≤ it.size then some { it with vertex := incLoop dimension it.vertex } else none

/-- s.cc:499-505 -/
def equals (dimension : Nat) (it other : VertexIterator) : Prop :=
  it.size = other.size ∧ ∀ i < dimension, it.vertex i = other.vertex i

/-- s.cc:507-518 -/
def coords {K : Type} [IntCast K] [NatCast K] [Div K] (dimension : Nat) (it : VertexIterator) : Option (Nat → K) :=
  (getPermutation dimension 0).map fun perm =>
    let ref : Nat → Int := kuhnToReference dimension (fun i => (it.vertex i : Int)) perm
    fun i => (ref i : K) / it.size

/-- s.cc:520-527, the corner of the returned geometry -/
def geometry {K : Type} [Field K] (it : VertexIterator) : Nat → K := fun i => it.vertex i

/-- s.cc:529-535 -/
def index (dimension : Nat) (it : VertexIterator) : Nat := pointIndex dimension it.vertex

end VertexIterator

/-! ### elements -/

/-- s.cc:567-570 -/
structure ElementIterator where
  origin : Nat → Nat
  kuhnIndex : Nat
  size : Nat
  index_ : Nat

/-- s.cc:423-437, 573-584 -/
def eBegin (nIntervals : Nat) : ElementIterator := ⟨fun _ => 0, 0, nIntervals, 0⟩
def eEnd (dimension nIntervals : Nat) : ElementIterator :=
  ⟨fun i => if i = 0 then nIntervals else 0, 0, nIntervals, nElements dimension nIntervals⟩

/-- s.cc:611-621, the passes in the list -/
def outsideLoop (perm : Nat → Nat) : List Nat → (corner : Nat → Nat) → Bool
  | [], _ => false
  | i :: l, corner =>
    let corner := update corner (perm i) (corner (perm i) + 1)
    if perm i > 0 ∧ corner (perm i) > corner (perm i - 1) then true else outsideLoop perm l corner

/-- s.cc:609-621 -/
def outside (dimension : Nat) (origin : Nat → Nat) (kuhnIndex : Nat) : Option Bool :=
  (getPermutation dimension kuhnIndex).map fun perm => outsideLoop perm (List.range dimension) origin

/-- s.cc:595-607, the first half of a pass -/
def step (dimension : Nat) (it : ElementIterator) : ElementIterator :=
  let it := { it with kuhnIndex := it.kuhnIndex + 1 }
  if it.kuhnIndex = dimension.factorial then { it with kuhnIndex := 0, origin := incLoop dimension it.origin } else it

/-- s.cc:594-624, `fuel` passes at most; `none` also when these do not suffice -/
def search (dimension : Nat) : (fuel : Nat) → ElementIterator → Option ElementIterator
  | 0, _ => none
  | fuel + 1, it =>
    let it := step dimension it
    (outside dimension it.origin it.kuhnIndex).bind fun out => if out then search dimension fuel it else some it

namespace ElementIterator

/-- s.cc:586-625; the loop ends after `dimension!` passes at the latest (`C41_increment`) -/
def increment (dimension : Nat) (it : ElementIterator) : Option ElementIterator :=
  if it.origin 0 < it.size then search dimension dimension.factorial { it with index_ := it.index_ + 1 } else none

/-- s.cc:627-633 -/
def equals (it other : ElementIterator) : Prop := it.size = other.size ∧ it.index_ = other.index_

/-- s.cc:644-647, the passes in the list -/
def pathLoop (dimension : Nat) (perm : Nat → Nat) : List Nat → (vertex indices : Nat → Nat) → (Nat → Nat)
  | [], _, indices => indices
  | i :: l, vertex, indices =>
    let vertex := update vertex (perm i) (vertex (perm i) + 1)
    pathLoop dimension perm l vertex (update indices (i + 1) (pointIndex dimension vertex))

/-- s.cc:635-655 -/
def vertexIndices (dimension : Nat) (it : ElementIterator) : Option (Nat → Nat) :=
  (getPermutation dimension it.kuhnIndex).map fun perm =>
    let indices : Nat → Nat := fun i => if i = 0 then pointIndex dimension it.origin else 0
    let indices := pathLoop dimension perm (List.range dimension) it.origin indices
    if it.kuhnIndex % 2 = 1 then
      (List.range ((dimension + 1) / 2)).foldl (fun indices i =>
        let t := indices i
        let indices := update indices i (indices (dimension - i))
        update indices (dimension - i) t) indices
    else indices

/-- s.cc:657-663 -/
def index (it : ElementIterator) : Nat := it.index_

/-- s.cc:685-694 -/
def global {K : Type} [Add K] [Sub K] [Div K] [NatCast K] (dimension : Nat) (it : ElementIterator) (local_ : Nat → K) : Option (Nat → K) :=
  (getPermutation dimension it.kuhnIndex).bind fun perm =>
    let v := referenceToKuhn dimension local_ perm
    let v : Nat → K := fun i => v i + it.origin i
    let v : Nat → K := fun i => v i / it.size
    (getPermutation dimension 0).map fun perm0 => kuhnToReference dimension v perm0

variable {K : Type} [Field K] [LinearOrder K]

/-- s.cc:665-672 -/
def coords (dimension : Nat) (it : ElementIterator) : Option (Nat → K) :=
  (position dimension 0 0 0).bind (it.global dimension)

/-- s.cc:674-683, the corners of the returned geometry; `refelem` is the reference simplex, topology id 0 -/
def geometry (dimension : Nat) (it : ElementIterator) : Option (List (Nat → K)) :=
  (List.range (dimension + 1)).mapM fun i => (position dimension 0 i dimension).bind (it.global dimension)

end ElementIterator

end Verif.Refine
