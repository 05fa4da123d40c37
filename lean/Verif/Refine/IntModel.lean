import Verif.Refine.HCubeModel
import Verif.Refine.TriangModel
import Verif.Type.Model

/-!
The integer arithmetic of the refinements with the widths of the machine: dune/geometry/refinement/simplex.cc ("s.cc"),
hcubetriangulation.cc ("ht.cc"), prismtriangulation.cc ("pr.cc"), pyramidtriangulation.cc ("py.cc") and hcube.cc ("h.cc").

The models in `Verif/Refine/Model.lean`, `TriangModel.lean` and `HCubeModel.lean` compute with natural numbers; here the same
functions compute with `int` and `unsigned` of 32 bits.  `none`: undefined behaviour, now including signed overflow.  All
values of type `int` are non-negative as far as the computation is defined (except in `kuhnToReference`), so they are
natural numbers below `2 ^ 31`.

`Dune::power`, `Dune::factorial` and `Dune::binomial` belong to dune-common, which is not part of the repository.  They are modelled
as loops that multiply in the type of their arguments; `binomial` multiplies the largest `min k (n - k)` factors before it divides.
-/

namespace Verif.Refine.Machine

open Function (update)
open Verif.Typ (intOk)

/-- the result of an operation of type `int` that can not be negative -/
def chk (x : Nat) : Option Nat := if x < 2 ^ 31 then some x else none

/-! ### dune-common -/

/-- `Dune::power` for `int` -/
def power (m p : Nat) : Option Nat := (List.range p).foldlM (fun r _ => chk (r * m)) 1

/-- `Dune::factorial` for `int`; the same loop is s.cc:299-301 -/
def factorial (n : Nat) : Option Nat := (List.range n).foldlM (fun r i => chk (r * (i + 1))) 1

/-- `Dune::binomial` for `int` -/
def binomial (n k : Nat) : Option Nat :=
  if n < k then some 0 else if n.descFactorial (min k (n - k)) < 2 ^ 31 then some (n.choose k) else none

/-! ### simplices -/

/-- s.cc:279-286 -/
def pointIndex (dimension : Nat) (point : Nat → Nat) : Option Nat :=
  (List.range dimension).foldlM (fun index i => do
    let s ← chk (dimension - i + point i)
    let b ← binomial (s - 1) (dimension - i)
    chk (index + b)) 0

/-- s.cc:292-310 -/
def getPermutation (n m : Nat) : Option (Nat → Nat) := (factorial n).bind fun base => permLoop n base m fun i => i

/-- s.cc:339-349 for a vector of `int` -/
def kuhnToReference (dimension : Nat) (point : Nat → Int) (kuhn : Nat → Nat) : Option (Nat → Int) :=
  (List.range (dimension - 1)).foldlM (fun point i =>
    (intOk (point (kuhn i) - point (kuhn (i + 1)))).map fun x => update point (kuhn i) x) point

/-- s.cc:391-397 -/
def nVertices (dimension nIntervals : Nat) : Option Nat := (chk (dimension + nIntervals)).bind fun s => binomial s dimension

/-- s.cc:415-421 -/
def nElements (dimension nIntervals : Nat) : Option Nat := power nIntervals dimension

/-- s.cc:407-413, 474-482; `vBegin` (s.cc:399-405) computes nothing -/
def vEnd (nIntervals : Nat) : Option VertexIterator :=
  (chk (nIntervals + 1)).map fun e => ⟨nIntervals, fun i => if i = 0 then e else 0⟩

/-- s.cc:490-496, 600-606, the passes `i - 1, …, 0` -/
def incLoop : (i : Nat) → (vertex : Nat → Nat) → Option (Nat → Nat)
  | 0, vertex => some vertex
  | i + 1, vertex =>
    (chk (vertex i + 1)).bind fun x =>
      let vertex := update vertex i x
      if i = 0 ∨ vertex i ≤ vertex (i - 1) then some vertex else incLoop i (update vertex i 0)

/-- s.cc:484-497 -/
def vIncrement (dimension : Nat) (it : VertexIterator) : Option VertexIterator :=
  if it.vertex 0 ≤ it.size then (incLoop dimension it.vertex).map fun v => { it with vertex := v } else none

/-- s.cc:507-518 -/
def vCoords {K : Type} [IntCast K] [NatCast K] [Div K] (dimension : Nat) (it : VertexIterator) : Option (Nat → K) := do
  let perm ← getPermutation dimension 0
  let ref ← kuhnToReference dimension (fun i => (it.vertex i : Int)) perm
  return fun i => (ref i : K) / it.size

/-- s.cc:529-535 -/
def vIndex (dimension : Nat) (it : VertexIterator) : Option Nat := pointIndex dimension it.vertex

/-- s.cc:431-437, 573-584; `eBegin` (s.cc:423-429) computes nothing -/
def eEnd (dimension nIntervals : Nat) : Option ElementIterator :=
  (nElements dimension nIntervals).map fun e => ⟨fun i => if i = 0 then nIntervals else 0, 0, nIntervals, e⟩

/-- s.cc:611-621, the passes in the list -/
def outsideLoop (perm : Nat → Nat) : List Nat → (corner : Nat → Nat) → Option Bool
  | [], _ => some false
  | i :: l, corner =>
    (chk (corner (perm i) + 1)).bind fun x =>
      let corner := update corner (perm i) x
      if perm i > 0 ∧ corner (perm i) > corner (perm i - 1) then some true else outsideLoop perm l corner

/-- s.cc:609-621 -/
def outside (dimension : Nat) (origin : Nat → Nat) (kuhnIndex : Nat) : Option Bool :=
  (getPermutation dimension kuhnIndex).bind fun perm => outsideLoop perm (List.range dimension) origin

/-- s.cc:595-607, with `nKuhnIntervals` from s.cc:565 -/
def step (dimension : Nat) (it : ElementIterator) : Option ElementIterator := do
  let nKuhnIntervals ← factorial dimension
  let k ← chk (it.kuhnIndex + 1)
  if k = nKuhnIntervals then (incLoop dimension it.origin).map fun o => { it with kuhnIndex := 0, origin := o }
  else some { it with kuhnIndex := k }

/-- s.cc:594-624, `fuel` passes at most -/
def search (dimension : Nat) : (fuel : Nat) → ElementIterator → Option ElementIterator
  | 0, _ => none
  | fuel + 1, it =>
    (step dimension it).bind fun it =>
      (outside dimension it.origin it.kuhnIndex).bind fun out => if out then search dimension fuel it else some it

/-- s.cc:586-625 -/
def eIncrement (dimension : Nat) (it : ElementIterator) : Option ElementIterator :=
  if it.origin 0 < it.size then
    (chk (it.index_ + 1)).bind fun k => search dimension dimension.factorial { it with index_ := k }
  else none

/-- s.cc:644-647, the passes in the list -/
def pathLoop (dimension : Nat) (perm : Nat → Nat) : List Nat → (vertex indices : Nat → Nat) → Option (Nat → Nat)
  | [], _, indices => some indices
  | i :: l, vertex, indices => do
    let x ← chk (vertex (perm i) + 1)
    let p ← pointIndex dimension (update vertex (perm i) x)
    pathLoop dimension perm l (update vertex (perm i) x) (update indices (i + 1) p)

/-- s.cc:635-655 -/
def vertexIndices (dimension : Nat) (it : ElementIterator) : Option (Nat → Nat) := do
  let perm ← getPermutation dimension it.kuhnIndex
  let first ← pointIndex dimension it.origin
  let indices ← pathLoop dimension perm (List.range dimension) it.origin (fun i => if i = 0 then first else 0)
  return if it.kuhnIndex % 2 = 1 then
    (List.range ((dimension + 1) / 2)).foldl (fun indices i =>
      let t := indices i
      let indices := update indices i (indices (dimension - i))
      update indices (dimension - i) t) indices
  else indices

/-! ### triangulations -/

namespace Triang

open Verif.Refine.Triang

variable {K : Type} (s : Scheme K)

/-- ht.cc:102-108, pr.cc:103-109, py.cc:106-112; the scheme holds the number of simplices, which is a constant for prisms and
pyramids and `factorial(dimension)` for cubes -/
def nVertices (nIntervals : Nat) : Option Nat := do
  let _ ← Machine.factorial s.dimension
  let v ← Machine.nVertices s.dimension nIntervals
  chk (v * s.nKuhnSimplices)

/-- ht.cc:126-132, pr.cc:127-133, py.cc:130-136 -/
def nElements (nIntervals : Nat) : Option Nat := do
  let _ ← Machine.factorial s.dimension
  let e ← Machine.nElements s.dimension nIntervals
  chk (e * s.nKuhnSimplices)

/-- ht.cc:196-207, pr.cc:196-207, py.cc:200-211; `backendEnd` was computed by the constructor -/
def vIncrement (it : VIterator) : Option VIterator := do
  let backendEnd ← Machine.vEnd it.nIntervals
  let backend ← Machine.vIncrement s.dimension it.backend
  if backend.equals s.dimension backendEnd then
    (chk (it.kuhnIndex + 1)).map fun k => ⟨it.nIntervals, k, Refine.vBegin it.nIntervals⟩
  else some { it with backend := backend }

/-- ht.cc:226-233, pr.cc:229-235, py.cc:231-237 -/
def vIndex (it : VIterator) : Option Nat := do
  let v ← Machine.nVertices s.dimension it.nIntervals
  let base ← chk (it.kuhnIndex * v)
  let i ← Machine.vIndex s.dimension it.backend
  chk (base + i)

/-- ht.cc:288-299, pr.cc:283-294, py.cc:285-296 -/
def eIncrement (it : EIterator) : Option EIterator := do
  let backendEnd ← Machine.eEnd s.dimension it.nIntervals
  let backend ← Machine.eIncrement s.dimension it.backend
  if backend.equals backendEnd then
    (chk (it.kuhnIndex + 1)).map fun k => ⟨it.nIntervals, k, Refine.eBegin it.nIntervals⟩
  else some { it with backend := backend }

/-- ht.cc:301-312, pr.cc:296-307, py.cc:298-309: the entry `i`; the code adds `base` to all `dimension + 1` entries -/
def vertexIndex (it : EIterator) (i : Nat) : Option Nat := do
  let indices ← Machine.vertexIndices s.dimension it.backend
  let v ← Machine.nVertices s.dimension it.nIntervals
  let base ← chk (it.kuhnIndex * v)
  chk (indices i + base)

/-- ht.cc:314-320, pr.cc:309-315, py.cc:311-317 -/
def eIndex (it : EIterator) : Option Nat := do
  let e ← Machine.nElements s.dimension it.nIntervals
  let base ← chk (it.kuhnIndex * e)
  chk (base + it.backend.index)

end Triang

/-! ### cubes: `unsigned` wraps around -/

namespace HCube

open Verif.Refine.HCube

/-- `Dune::power` for `unsigned` -/
def power (m p : Nat) : Nat := (List.range p).foldl (fun r _ => r * m % 2 ^ 32) 1

/-- the conversion of an `unsigned` to `int` -/
def toInt (x : Nat) : Int := if x < 2 ^ 31 then x else x - 2 ^ 32

/-- h.cc:105-112 -/
def nVertices (dimension nIntervals : Nat) : Nat := power ((nIntervals + 1) % 2 ^ 32) dimension

/-- h.cc:130-139 -/
def nElements (dimension nIntervals : Nat) : Nat := power nIntervals dimension

/-- h.cc:122-128; `vBegin` and `eBegin` compute nothing -/
def vEnd (dimension nIntervals : Nat) : Iterator := ⟨nVertices dimension nIntervals, nIntervals⟩

/-- h.cc:149-155 -/
def eEnd (dimension nIntervals : Nat) : Iterator := ⟨nElements dimension nIntervals, nIntervals⟩

/-- h.cc:371-378 -/
def increment (it : Iterator) : Iterator := { it with index_ := (it.index_ + 1) % 2 ^ 32 }

/-- h.cc:380-387 -/
def index (it : Iterator) : Int := toInt it.index_

/-- h.cc:302-306, 314-318 -/
def vertexCoord (dimension : Nat) (it : Iterator) : Option (Nat → Nat) :=
  idx2coord dimension it.index_ ((it.nIntervals + 1) % 2 ^ 32)

/-- h.cc:246-253 for one `i`.  `base` and the entry are `int`, but all operations are carried out in `unsigned` -/
def vertexIndex (dimension : Nat) (it : Iterator) (e : Nat → Nat) (i : Nat) : Int :=
  toInt ((List.range dimension).foldl (fun (s : Nat × Nat) d =>
    ((s.1 + (idx2multiidx i d + e d) * s.2) % 2 ^ 32, s.2 * ((it.nIntervals + 1) % 2 ^ 32) % 2 ^ 32)) (0, 1)).1

/-- h.cc:234-256 -/
def vertexIndices (dimension : Nat) (it : Iterator) : Option (List Int) :=
  (it.cellCoord dimension).map fun e => (List.range (1 <<< dimension)).map (vertexIndex dimension it e)

end HCube

end Verif.Refine.Machine
