import Verif.RefTopo.Model
import Mathlib.Algebra.BigOperators.Intervals
import Mathlib.Algebra.Order.Field.Basic
import Mathlib.Data.Fintype.BigOperators

/-
Model of the geometric functions of `referenceelementimplementation.hh` / `.cc` and of the geometric
part of `ReferenceElementImplementation`.

The coordinate type `ct` is a linearly ordered field `K` (exact arithmetic).  A
`FieldVector< ct, cdim >` is a function `ℕ → K` of which only the first `cdim` entries matter; all
vectors produced are zero from index `dim ≤ cdim` on.  A `FieldMatrix< ct, mydim, cdim >` is a function
`ℕ → ℕ → K` (row, column).  Output arrays written from a pointer on are lists; the number returned by
the functions is the length of the list.
-/

namespace Verif.RefGeom

open Verif.Typ Verif.RefTopo Finset

variable {K : Type} [Field K]

/-- `FieldVector< ct, cdim >` -/
abbrev Vec (K : Type) := Nat → K

/-- `v[ k ] = a` -/
def setV (v : Vec K) (k : Nat) (a : K) : Vec K := fun j => if j = k then a else v j

/-- `FieldMatrix< ct, mydim, cdim >` -/
abbrev Mat (K : Type) := Nat → Nat → K

/-- `M[ r ][ c ] = a` -/
def setM (M : Mat K) (r c : Nat) (a : K) : Mat K := fun i j => if i = r ∧ j = c then a else M i j

/-- dune-common `FieldVector::operator*`, scalar product over `cdim` entries -/
def dot (cdim : Nat) (v w : Vec K) : K := ∑ k ∈ range cdim, v k * w k

/-- referenceelementimplementation.hh:89-106 -/
def checkInside [LinearOrder K] : (dim : Nat) → (topologyId : Nat) → (x : Vec K) → (tolerance factor : K) → Bool
  | 0, _, _, _, _ => true
  | d + 1, topologyId, x, tolerance, factor =>
    let baseFactor := if implIsPrism topologyId (d + 1) 0 then factor else factor - x d
    if x d > -tolerance ∧ factor - x d > -tolerance then
      checkInside d (implBaseTopologyId topologyId (d + 1) 1) x tolerance baseFactor
    else
      false

/-- hh:113-144 -/
def referenceCorners : (dim : Nat) → (topologyId : Nat) → List (Vec K)
  | 0, _ => [fun _ => 0]
  | d + 1, topologyId =>
    let corners := referenceCorners d (implBaseTopologyId topologyId (d + 1) 1)
    if implIsPrism topologyId (d + 1) 0 then
      corners ++ corners.map (fun c => setV c d 1)
    else
      corners ++ [setV (fun _ => 0) d 1]

/-- referenceelementimplementation.cc:175-186.  The local variable `baseValue` is an `unsigned int`
(32 bit), the result an `unsigned long` (64 bit). -/
def referenceVolumeInverse : (dim : Nat) → (topologyId : Nat) → Nat
  | 0, _ => 1
  | d + 1, topologyId =>
    let baseValue := referenceVolumeInverse d (implBaseTopologyId topologyId (d + 1) 1) % 2 ^ 32
    if implIsPrism topologyId (d + 1) 0 then baseValue else baseValue * (d + 1) % 2 ^ 64

/-- hh:153-157 -/
def referenceVolume (dim topologyId : Nat) : K := 1 / (referenceVolumeInverse dim topologyId : K)

/-- hh:164-204; precondition (asserted) `codim ≤ dim` -/
def referenceOrigins : (dim : Nat) → (topologyId codim : Nat) → List (Vec K)
  | _, _, 0 => [fun _ => 0]
  | 0, _, _ + 1 => [] -- excluded by the assertion
  | d + 1, topologyId, c + 1 =>
    let baseId := implBaseTopologyId topologyId (d + 1) 1
    if implIsPrism topologyId (d + 1) 0 then
      let o1 := if c + 1 < d + 1 then referenceOrigins d baseId (c + 1) else []
      let o2 := referenceOrigins d baseId c
      o1 ++ o2 ++ o2.map (fun o => setV o d 1)
    else
      let o1 := referenceOrigins d baseId c
      if c + 1 = d + 1 then o1 ++ [setV (fun _ => 0) d 1]
      else o1 ++ referenceOrigins d baseId (c + 1)

/-- hh:211-273; the list of pairs (origin, jacobianTransposed).  Preconditions (asserted)
`codim ≤ dim`. -/
def referenceEmbeddings : (dim : Nat) → (topologyId codim : Nat) → List (Vec K × Mat K)
  | dim, _, 0 => [(fun _ => 0, fun r c => if r = c ∧ r < dim then 1 else 0)]
  | 0, _, _ + 1 => [] -- `std::abort()`
  | d + 1, topologyId, c + 1 =>
    let baseId := implBaseTopologyId topologyId (d + 1) 1
    let row := d + 1 - (c + 1) - 1
    if implIsPrism topologyId (d + 1) 0 then
      let e1 := (if c + 1 < d + 1 then referenceEmbeddings d baseId (c + 1) else []).map
        (fun p => (p.1, setM p.2 row d 1))
      let e2 := referenceEmbeddings d baseId c
      e1 ++ e2 ++ e2.map (fun p => (setV p.1 d 1, p.2))
    else
      let e1 := referenceEmbeddings d baseId c
      if c + 1 = d + 1 then e1 ++ [(setV (fun _ => 0) d 1, fun _ _ => 0)]
      else
        e1 ++ (referenceEmbeddings d baseId (c + 1)).map (fun p =>
          (p.1, setM (fun i j => if i = row ∧ j < d then -(p.1 j) else p.2 i j) row d 1))

/-- hh:280-331; `origins` is the array that the pointer points to.  Precondition (asserted) `dim > 0`.
The scalar product in line 316 is over `cdim` entries. -/
def outerNormalsRec (cdim : Nat) : (dim : Nat) → (topologyId : Nat) → (origins : List (Vec K)) → List (Vec K)
  | 0, _, _ => [] -- excluded by the assertion
  | 1, _, _ => [setV (fun _ => 0) 0 (-1), setV (fun _ => 0) 0 1]
  | d + 2, topologyId, origins =>
    let baseId := implBaseTopologyId topologyId (d + 2) 1
    if implIsPrism topologyId (d + 2) 0 then
      outerNormalsRec cdim (d + 1) baseId origins ++
        [setV (fun _ => 0) (d + 1) (-1), setV (fun _ => 0) (d + 1) 1]
    else
      setV (fun _ => 0) (d + 1) (-1) ::
        List.zipWith (fun n o => setV n (d + 1) (dot cdim n o))
          (outerNormalsRec cdim (d + 1) baseId origins.tail) origins.tail

/-- hh:333-348 -/
def referenceIntegrationOuterNormals (cdim dim topologyId : Nat) : List (Vec K) :=
  outerNormalsRec cdim dim topologyId (referenceOrigins dim topologyId 1)

/-! ### `ReferenceElementImplementation< ctype, dim >`, with `cdim = dim` -/

/-- hh:509-513 and 585-604: `baryCenters_`; the number stored under `dim` are the corners. -/
def position (dim topologyId i c : Nat) : Option (Vec K) :=
  let corners : List (Vec K) := referenceCorners dim topologyId
  if c = dim then corners[i]?
  else do
    let numCorners := refSize3 dim topologyId i c dim
    let cs ← (List.range numCorners).mapM fun j => do
      let k ← subEntity dim topologyId i c j dim
      corners[k]?
    return fun r => cs.foldl (fun acc v => acc + v r) 0 * (1 / (numCorners : K))

/-- hh:522-527, the public `checkInside` with tolerance `64 eps` -/
def refCheckInside [LinearOrder K] (dim topologyId : Nat) (x : Vec K) (epsilon : K) : Bool :=
  checkInside dim topologyId x (64 * epsilon) 1

/-- `AffineGeometry::global` of the embedding `geometry< codim >( i )` (affinegeometry.hh:154-159,
`umtv`; the codomain has `cdim` rows of the Jacobian, `mydim = dim - codim`). -/
def embed (mydim : Nat) (p : Vec K × Mat K) (x : Vec K) : Vec K :=
  fun j => p.1 j + ∑ r ∈ range mydim, p.2 r j * x r

end Verif.RefGeom
