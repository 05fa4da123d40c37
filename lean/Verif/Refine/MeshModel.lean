import Verif.Refine.TriangModel
import Verif.Refine.HCubeModel
import Verif.Refine.VirtualModel

/-!
Model of loops over a virtual refinement, as in the documentation of refinement.hh and in dune/geometry/test/test-refinement.cc:

    for (auto it = r.vBegin(tag), end = r.vEnd(tag); it != end; ++it) ...

on the wrapper of virtualrefinement.cc ("v.cc") with the five implementations behind it.  Equality of static iterators is a
proposition in the model, so the loop is not executable.
-/

namespace Verif.Refine.Mesh

open Verif.Typ Verif.Refine.Virtual

/-- the static iterators of an implementation, for one number of intervals; `obs` is what the body of the loop reads -/
structure Loop (B O : Type) where
  first : B
  last : B
  next : B → Option B
  eq : B → B → Prop
  obs : B → Option O

variable {B O : Type}

open Classical in
/-- the loop from its condition on; object 0 is `it`, object 1 is `end`.  `none`: undefined behaviour, or `fuel` passes do not
suffice -/
noncomputable def loop (L : Loop B O) : (fuel : Nat) → State B → Option (List O × State B)
  | 0, _ => none
  | fuel + 1, s => do
    let stop ← s.equals (fun _ => L.eq) 0 1
    if stop then return ([], s)
    else
      let b ← s.read 0
      let o ← L.obs b.state
      let s ← increment (fun _ => L.next) s 0
      let (l, s) ← loop L fuel s
      return (o :: l, s)

/-- v.cc:35-65, 300-342 (begin and end), the loop, and the destruction of both iterators in reverse order -/
noncomputable def traverse (L : Loop B O) (fuel : Nat) : Option (List O × State B) := do
  let s ← make initial 0 ⟨0, L.first⟩
  let s ← make s 1 ⟨0, L.last⟩
  let (l, s) ← loop L fuel s
  let s ← destroy s 1
  let s ← destroy s 0
  return (l, s)

/-- backends that are still allocated -/
def live (s : State B) : Nat := s.heap.countP Option.isSome

/-- v.cc:378-390: the entries of the index vector are pushed into a `std::vector` -/
def pushAll (size : Nat) (sIndices : Nat → Nat) : List Nat :=
  (List.range size).foldl (fun vIndices i => vIndices ++ [sIndices i]) []

/-! ### the loops, one for each implementation -/

/-- simplex.cc, vertices: `index()` and `coords()` -/
noncomputable def simplexV (d n : Nat) : Loop VertexIterator (Nat × (Nat → ℝ)) where
  first := Refine.vBegin n
  last := Refine.vEnd n
  next := VertexIterator.increment d
  eq := VertexIterator.equals d
  obs it := (it.coords d).map fun x => (it.index d, x)

/-- simplex.cc, elements: `index()` and `vertexIndices()` -/
def simplexE (d n : Nat) : Loop ElementIterator (Nat × List Nat) where
  first := Refine.eBegin n
  last := Refine.eEnd d n
  next := ElementIterator.increment d
  eq := ElementIterator.equals
  obs it := (it.vertexIndices d).map fun idx => (it.index, pushAll (d + 1) idx)

/-- hcube.cc -/
noncomputable def hcubeV (d n : Nat) : Loop HCube.Iterator (Nat × (Nat → ℝ)) where
  first := HCube.vBegin n
  last := HCube.vEnd d n
  next it := some it.increment
  eq := HCube.Iterator.equals
  obs it := (it.vCoords d).map fun x => (it.index, x)

def hcubeE (d n : Nat) : Loop HCube.Iterator (Nat × List Nat) where
  first := HCube.eBegin n
  last := HCube.eEnd d n
  next it := some it.increment
  eq := HCube.Iterator.equals
  obs it := (it.vertexIndices d).map fun idx => (it.index, pushAll (1 <<< d) fun i => idx.getD i 0)

/-- hcubetriangulation.cc, prismtriangulation.cc, pyramidtriangulation.cc -/
noncomputable def triangV (s : Triang.Scheme ℝ) (n : Nat) : Loop Triang.VIterator (Nat × (Nat → ℝ)) where
  first := Triang.vBegin n
  last := Triang.vEnd s n
  next := Triang.VIterator.increment s
  eq := Triang.VIterator.equals s
  obs it := (it.coords s).map fun x => (it.index s, x)

def triangE (s : Triang.Scheme ℝ) (n : Nat) : Loop Triang.EIterator (Nat × List Nat) where
  first := Triang.eBegin n
  last := Triang.eEnd s n
  next := Triang.EIterator.increment s
  eq := Triang.EIterator.equals
  obs it := (it.vertexIndices s).map fun idx => (it.index s, pushAll (s.dimension + 1) idx)

/-! ### the program -/

/-- what is written: vertices and elements in the order of the loops, each with its `index()` -/
structure Mesh where
  points : List (Nat × (Nat → ℝ))
  elements : List (Nat × List Nat)
  /-- number of backends left on the heap by the two loops -/
  leaked : Nat

/-- v.cc:294-299, 320-324: `nVertices` and `nElements` of the implementation -/
def nVertices (d n : Nat) : Imp → Nat
  | .simplex => Refine.nVertices d n
  | .hcube => HCube.nVertices d n
  | .hcubeTriangulation => Triang.nVertices (Triang.hcube (K := ℚ) d) n
  | .prismTriangulation => Triang.nVertices (Triang.prism (K := ℚ)) n
  | .pyramidTriangulation => Triang.nVertices (Triang.pyramid (K := ℚ)) n

def nElements (d n : Nat) : Imp → Nat
  | .simplex => Refine.nElements d n
  | .hcube => HCube.nElements d n
  | .hcubeTriangulation => Triang.nElements (Triang.hcube (K := ℚ) d) n
  | .prismTriangulation => Triang.nElements (Triang.prism (K := ℚ)) n
  | .pyramidTriangulation => Triang.nElements (Triang.pyramid (K := ℚ)) n

noncomputable def meshOf (d n fuel : Nat) (imp : Imp) : Option Mesh :=
  match imp with
  | .simplex => do
    let p ← traverse (simplexV d n) fuel
    let e ← traverse (simplexE d n) fuel
    return ⟨p.1, e.1, live p.2 + live e.2⟩
  | .hcube => do
    let p ← traverse (hcubeV d n) fuel
    let e ← traverse (hcubeE d n) fuel
    return ⟨p.1, e.1, live p.2 + live e.2⟩
  | .hcubeTriangulation => do
    let p ← traverse (triangV (Triang.hcube d) n) fuel
    let e ← traverse (triangE (Triang.hcube d) n) fuel
    return ⟨p.1, e.1, live p.2 + live e.2⟩
  | .prismTriangulation => do
    let p ← traverse (triangV Triang.prism n) fuel
    let e ← traverse (triangE Triang.prism n) fuel
    return ⟨p.1, e.1, live p.2 + live e.2⟩
  | .pyramidTriangulation => do
    let p ← traverse (triangV Triang.pyramid n) fuel
    let e ← traverse (triangE Triang.pyramid n) fuel
    return ⟨p.1, e.1, live p.2 + live e.2⟩

/-- `buildRefinement` (v.cc:502-662), then a loop over the vertices and a loop over the elements.  `none`: undefined behaviour, or
the exception of `buildRefinement` -/
noncomputable def writeMesh (geometryType coerceTo : GeometryType) (n fuel : Nat) : Option Mesh :=
  match buildRefinement geometryType.dim geometryType coerceTo with
  | some (.instance_ t u) =>
    match traits geometryType.dim t u with
    | some [imp] => meshOf geometryType.dim n fuel imp
    | _ => none
  | _ => none

end Verif.Refine.Mesh
