import Verif.Refine.Model

/-!
Model of the refinements that triangulate: dune/geometry/refinement/hcubetriangulation.cc ("ht.cc"), prismtriangulation.cc
("pr.cc") and pyramidtriangulation.cc ("py.cc").  The three files are the same text except for the number of Kuhn simplices,
the number of the permutation that belongs to a Kuhn index and the final coordinate transformation; these are the fields
of `Scheme`.  The backend is the refinement of the simplex (`Verif.Refine.Model`).  The member `backendEnd` is constant and
given by `nIntervals_`, it is not stored.  The coordinate type is any `K` with the
operations used; it is a field (exact arithmetic) except in `Verif/Float`.
-/

namespace Verif.Refine.Triang

open Function

instance (d : Nat) (it other : VertexIterator) : Decidable (it.equals d other) :=
  inferInstanceAs (Decidable (it.size = other.size ∧ ∀ i < d, it.vertex i = other.vertex i))

instance (it other : ElementIterator) : Decidable (it.equals other) :=
  inferInstanceAs (Decidable (it.size = other.size ∧ it.index_ = other.index_))

structure Scheme (K : Type) where
  dimension : Nat
  nKuhnSimplices : Nat
  permutation : Nat → Nat
  transform : (Nat → K) → Nat → K
  /-- applied in `geometry()` of vertices -/
  transformV : (Nat → K) → Nat → K

section
variable {K : Type}

/-- ht.cc:176, 261: `dimension!` simplices, 214 and 348: no transformation -/
def hcube (dimension : Nat) : Scheme K where
  dimension := dimension
  nKuhnSimplices := dimension.factorial
  permutation := fun kuhnIndex => kuhnIndex
  transform := fun point => point
  transformV := fun point => point

/-- pr.cc:49-57 -/
def prismTransform [Zero K] [One K] [Sub K] (point : Nat → K) : Nat → K :=
  fun i => match i with
    | 0 => point 1
    | 1 => 1 - point 0
    | 2 => point 2
    | _ => 0

/-- pr.cc:176, 263, 215-216, 224-225, 344 -/
def prism [Zero K] [One K] [Sub K] : Scheme K where
  dimension := 3
  nKuhnSimplices := 3
  permutation := fun kuhnIndex => (kuhnIndex + 2) % 4
  transform := prismTransform
  transformV := prismTransform

/-- py.cc:50-58 -/
def pyramidTransform [Zero K] [One K] [Sub K] (point : Nat → K) : Nat → K :=
  fun i => match i with
    | 0 => 1 - point 0
    | 1 => 1 - point 1
    | 2 => point 2
    | _ => 0

/-- py.cc:95, 180, 265, 218-219, 227, 347-348 -/
def pyramid [Zero K] [One K] [Sub K] : Scheme K where
  dimension := 3
  nKuhnSimplices := 2
  permutation := fun kuhnIndex => kuhnIndex
  transform := pyramidTransform
  transformV := fun point => point

variable (s : Scheme K)

/-- ht.cc:102-108, pr.cc:103-109, py.cc:106-112 -/
def nVertices (nIntervals : Nat) : Nat := Refine.nVertices s.dimension nIntervals * s.nKuhnSimplices

/-- ht.cc:126-132, pr.cc:127-133, py.cc:130-136 -/
def nElements (nIntervals : Nat) : Nat := Refine.nElements s.dimension nIntervals * s.nKuhnSimplices

/-! ### vertices -/

/-- ht.cc:178-182, pr.cc:178-182, py.cc:182-186 -/
structure VIterator where
  nIntervals : Nat
  kuhnIndex : Nat
  backend : VertexIterator

/-- ht.cc:110-124, 186-195; pr.cc:111-125, 185-194; py.cc:114-128, 189-198 -/
def vBegin (nIntervals : Nat) : VIterator := ⟨nIntervals, 0, Refine.vBegin nIntervals⟩
def vEnd (nIntervals : Nat) : VIterator := ⟨nIntervals, s.nKuhnSimplices, Refine.vBegin nIntervals⟩

/-- ht.cc:382-383, pr.cc:374-381, py.cc:378-385 -/
def VIterator.equals (it other : VIterator) : Prop := it.kuhnIndex = other.kuhnIndex ∧ it.backend.equals s.dimension other.backend

/-- ht.cc:196-207, pr.cc:196-207, py.cc:200-211 -/
def VIterator.increment (it : VIterator) : Option VIterator :=
  (it.backend.increment s.dimension).map fun backend =>
    if backend.equals s.dimension (Refine.vEnd it.nIntervals) then ⟨it.nIntervals, it.kuhnIndex + 1, Refine.vBegin it.nIntervals⟩
    else { it with backend := backend }

/-- ht.cc:226-233, pr.cc:229-235, py.cc:231-237 -/
def VIterator.index (it : VIterator) : Nat := it.kuhnIndex * Refine.nVertices s.dimension it.nIntervals + it.backend.index s.dimension

/-- the inner part of `global`, `coords` and `geometry` -/
def toKuhn [Add K] (kuhnIndex : Nat) (point : Nat → K) : Option (Nat → K) :=
  (getPermutation s.dimension (s.permutation kuhnIndex)).map fun perm => referenceToKuhn s.dimension point perm

/-- ht.cc:209-215, pr.cc:209-217, py.cc:213-220 -/
def VIterator.coords [IntCast K] [NatCast K] [Div K] [Add K] (it : VIterator) : Option (Nat → K) := do
  let x ← it.backend.coords s.dimension
  let y ← toKuhn s it.kuhnIndex x
  return s.transform y

/-- ht.cc:217-224, pr.cc:219-227, py.cc:222-229, the corner of the returned geometry -/
def VIterator.geometry [IntCast K] [NatCast K] [Div K] [Add K] (it : VIterator) : Option (Nat → K) := do
  let x ← it.backend.coords s.dimension
  let y ← toKuhn s it.kuhnIndex x
  return s.transformV y

/-! ### elements -/

/-- ht.cc:263-267, pr.cc:265-269, py.cc:267-271 -/
structure EIterator where
  nIntervals : Nat
  kuhnIndex : Nat
  backend : ElementIterator

/-- ht.cc:134-148, 271-280; pr.cc:135-149, 272-281; py.cc:138-152, 274-283 -/
def eBegin (nIntervals : Nat) : EIterator := ⟨nIntervals, 0, Refine.eBegin nIntervals⟩
def eEnd (nIntervals : Nat) : EIterator := ⟨nIntervals, s.nKuhnSimplices, Refine.eBegin nIntervals⟩

/-- ht.cc:382-383, pr.cc:374-381, py.cc:378-385 -/
def EIterator.equals (it other : EIterator) : Prop := it.kuhnIndex = other.kuhnIndex ∧ it.backend.equals other.backend

/-- ht.cc:288-299, pr.cc:283-294, py.cc:285-296 -/
def EIterator.increment (it : EIterator) : Option EIterator :=
  (it.backend.increment s.dimension).map fun backend =>
    if backend.equals (Refine.eEnd s.dimension it.nIntervals) then ⟨it.nIntervals, it.kuhnIndex + 1, Refine.eBegin it.nIntervals⟩
    else { it with backend := backend }

/-- ht.cc:301-312, pr.cc:296-307, py.cc:298-309 -/
def EIterator.vertexIndices (it : EIterator) : Option (Nat → Nat) :=
  (it.backend.vertexIndices s.dimension).map fun indices i => indices i + it.kuhnIndex * Refine.nVertices s.dimension it.nIntervals

/-- ht.cc:314-320, pr.cc:309-315, py.cc:311-317 -/
def EIterator.index (it : EIterator) : Nat := it.kuhnIndex * Refine.nElements s.dimension it.nIntervals + it.backend.index

/-- ht.cc:343-349, pr.cc:338-345, py.cc:341-349 -/
def EIterator.global [Add K] (it : EIterator) (local_ : Nat → K) : Option (Nat → K) := (toKuhn s it.kuhnIndex local_).map s.transform

variable [Field K] [LinearOrder K]

/-- ht.cc:322-328, pr.cc:317-323, py.cc:319-325 -/
def EIterator.coords (it : EIterator) : Option (Nat → K) := (it.backend.coords s.dimension).bind (it.global s)

/-- ht.cc:330-341, pr.cc:325-336, py.cc:327-339, the corners of the returned geometry -/
def EIterator.geometry (it : EIterator) : Option (List (Nat → K)) :=
  (it.backend.geometry s.dimension).bind fun corners => corners.mapM (it.global s)

end

end Verif.Refine.Triang
