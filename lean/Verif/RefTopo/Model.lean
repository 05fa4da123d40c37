import Verif.Type.Model

/-
Model of `dune/geometry/referenceelementimplementation.cc` (topology) and of the topological part
of `ReferenceElementImplementation` in `referenceelementimplementation.hh`.

`dim` and `codim` are natural numbers; the asserted preconditions are quoted in the comments and
appear as hypotheses of the theorems.  Where a precondition is violated the functions return junk
(`0`, `[]`), about which nothing is claimed.  The argument order puts `dim` first because it is the
recursion argument.
-/

namespace Verif.RefTopo

open Verif.Typ

/-- referenceelementimplementation.cc:20-44.
Preconditions (asserted): `topologyId < numTopologies dim`, `codim ≤ dim`. -/
def size : (dim : Nat) → (topologyId codim : Nat) → Nat
  | _, _, 0 => 1
  | 0, _, _ + 1 => 0 -- excluded by the assertion `codim <= dim`
  | d + 1, topologyId, c + 1 =>
    let baseId := implBaseTopologyId topologyId (d + 1) 1
    let m := size d baseId c
    if implIsPrism topologyId (d + 1) 0 then
      let n := if c + 1 < d + 1 then size d baseId (c + 1) else 0
      n + 2 * m
    else
      let n := if c + 1 < d + 1 then size d baseId (c + 1) else 1
      m + n

/-- referenceelementimplementation.cc:51-82.
Precondition (asserted): `i < size topologyId dim codim`.  `prismConstruction = 1`,
`pyramidConstruction = 0` (type.hh:28). -/
def subTopologyId : (dim : Nat) → (topologyId codim i : Nat) → Nat
  | _, topologyId, 0, _ => topologyId
  | 0, _, _ + 1, _ => 0 -- excluded by the assertion
  | d + 1, topologyId, c + 1, i =>
    let mydim := d + 1 - (c + 1)
    let baseId := implBaseTopologyId topologyId (d + 1) 1
    let m := size d baseId c
    if implIsPrism topologyId (d + 1) 0 then
      let n := if c + 1 < d + 1 then size d baseId (c + 1) else 0
      if i < n then
        subTopologyId d baseId (c + 1) i ||| (1 <<< (mydim - 1))
      else
        subTopologyId d baseId c (if i < n + m then i - n else i - (n + m))
    else
      if i < m then
        subTopologyId d baseId c i
      else if c + 1 < d + 1 then
        subTopologyId d baseId (c + 1) (i - m) ||| (0 <<< (mydim - 1))
      else
        0

/-- referenceelementimplementation.cc:89-168.  `len` is the length `endOut - beginOut` of the output
buffer, and the result is the list of the numbers written from `beginOut` on.
Preconditions (asserted): `codim + subcodim ≤ dim`, `i < size topologyId dim codim`,
`len = size (subTopologyId topologyId dim codim i) (dim-codim) subcodim`. -/
def subTopologyNumbering : (dim : Nat) → (topologyId codim i subcodim len : Nat) → List Nat
  | 0, _, codim, i, subcodim, len =>
    if codim = 0 then List.range len
    else if subcodim = 0 then [i]
    else [] -- excluded by the assertion `codim + subcodim <= dim`
  | d + 1, topologyId, codim, i, subcodim, len =>
    if codim = 0 then List.range len
    else if subcodim = 0 then [i]
    else
      let baseId := implBaseTopologyId topologyId (d + 1) 1
      let m := size d baseId (codim - 1)
      let mb := size d baseId (codim + subcodim - 1)
      let nb := if codim + subcodim < d + 1 then size d baseId (codim + subcodim) else 0
      if implIsPrism topologyId (d + 1) 0 then
        let n := size d baseId codim
        if i < n then
          let subId := subTopologyId d baseId codim i
          let out1 :=
            if codim + subcodim < d + 1 then
              subTopologyNumbering d baseId codim i subcodim (size (d - codim) subId subcodim)
            else []
          let ms := size (d - codim) subId (subcodim - 1)
          let base := subTopologyNumbering d baseId codim i (subcodim - 1) ms
          out1 ++ base.map (· + nb) ++ base.map (· + nb + mb)
        else
          let s := if i < n + m then 0 else 1
          (subTopologyNumbering d baseId (codim - 1) (i - (n + s * m)) subcodim len).map
            (· + (nb + s * mb))
      else
        if i < m then
          subTopologyNumbering d baseId (codim - 1) i subcodim len
        else
          let subId := subTopologyId d baseId codim (i - m)
          let ms := size (d - codim) subId (subcodim - 1)
          subTopologyNumbering d baseId codim (i - m) (subcodim - 1) ms ++
            if codim + subcodim < d + 1 then
              (subTopologyNumbering d baseId codim (i - m) subcodim (len - ms)).map (· + mb)
            else [mb]

/-! ### `ReferenceElementImplementation::SubEntityInfo`, referenceelementimplementation.hh:638-781 -/

/-- referenceelementimplementation.hh:776-780.  `offset_` (array of length `dim+2`) and the flag
bitsets are functions, the heap array `numbering_` is a list. -/
structure SubEntityInfo where
  numbering : List Nat
  offset : Nat → Nat
  type : GeometryType
  contains : Nat → Nat → Bool

/-- hh:748-752: the loops that fill `offset_`: zero up to index `codim`, then partial sums. -/
def offsets (dim codim subId : Nat) : Nat → Nat
  | 0 => 0
  | k + 1 => if k + 1 ≤ codim then 0
             else offsets dim codim subId k + size (dim - codim) subId (k - codim)

/-- hh:757-758: the numbers written for `cc = codim, …, dim`, one after the other.  `k` counts the
remaining codimensions. -/
def numberingsFrom (dim topologyId codim i subId : Nat) : (cc k : Nat) → List Nat
  | _, 0 => []
  | cc, k + 1 =>
    subTopologyNumbering dim topologyId codim i (cc - codim)
      (offsets dim codim subId (cc + 1) - offsets dim codim subId cc)
      ++ numberingsFrom dim topologyId codim i subId (cc + 1) k

/-- hh:724-728 `size(cc)`; precondition (asserted) `cc ≤ dim`. -/
def SubEntityInfo.size (s : SubEntityInfo) (cc : Nat) : Nat := s.offset (cc + 1) - s.offset cc

/-- hh:730-734 `number(ii, cc)`; precondition (asserted) `ii < size(cc)`.  Reading outside the array
is undefined: `none`. -/
def SubEntityInfo.number (s : SubEntityInfo) (ii cc : Nat) : Option Nat := s.numbering[s.offset cc + ii]?

/-- hh:736-739 `numbers(cc)`: the range `numbering_ + offset_[cc] .. numbering_ + offset_[cc+1]`. -/
def SubEntityInfo.numbers (s : SubEntityInfo) (cc : Nat) : List Nat :=
  (s.numbering.drop (s.offset cc)).take (s.offset (cc + 1) - s.offset cc)

/-- hh:743-767 `initialize(topologyId, codim, i)`.  The flags are reset and then set for every
number in the range (761-766). -/
def SubEntityInfo.initialize (dim topologyId codim i : Nat) : SubEntityInfo :=
  let subId := subTopologyId dim topologyId codim i
  let off := offsets dim codim subId
  let nums := numberingsFrom dim topologyId codim i subId codim (dim + 1 - codim)
  { numbering := nums
    offset := off
    type := mk2 subId (dim - codim)
    contains := fun cc k =>
      (List.range (off (cc + 1) - off cc)).any fun idx => nums[off cc + idx]? == some k }

/-- hh:774 -/
def SubEntityInfo.capacity (s : SubEntityInfo) (dim : Nat) : Nat := s.offset (dim + 1)

/-- hh:699-706, copy constructor: a new array of `capacity()` elements filled from the other. -/
def SubEntityInfo.copy (s : SubEntityInfo) (dim : Nat) : SubEntityInfo :=
  { numbering := s.numbering.take (s.capacity dim)
    offset := s.offset
    type := s.type
    contains := s.contains }

/-- hh:710-722, copy assignment `*this = other`.  `aliased` says whether `&other == this`: then
`numbering_` has been freed and reallocated before the copy, so that the copied values are
indeterminate (`none`). -/
def SubEntityInfo.assign (_this other : SubEntityInfo) (aliased : Bool) (dim : Nat) :
    Option SubEntityInfo :=
  if aliased && other.capacity dim != 0 then none else some (other.copy dim)

/-! ### Query methods of the reference element, hh:426-504 -/

/-- hh:426-430 and 576-582: `info_[codim]` has `Impl::size(topologyId, dim, codim)` entries. -/
def refSize (dim topologyId c : Nat) : Nat := size dim topologyId c

/-- hh:443-447 -/
def refSize3 (dim topologyId i c cc : Nat) : Nat :=
  (SubEntityInfo.initialize dim topologyId c i).size cc

/-- hh:462-466 -/
def subEntity (dim topologyId i c ii cc : Nat) : Option Nat :=
  (SubEntityInfo.initialize dim topologyId c i).number ii cc

/-- hh:483-487, the enumerated range -/
def subEntities (dim topologyId i c cc : Nat) : List Nat :=
  (SubEntityInfo.initialize dim topologyId c i).numbers cc

/-- hh:483-487 with 680-683, the containment test of the range -/
def subEntitiesContains (dim topologyId i c cc k : Nat) : Bool :=
  (SubEntityInfo.initialize dim topologyId c i).contains cc k

/-- hh:497-501 -/
def refType (dim topologyId i c : Nat) : GeometryType :=
  (SubEntityInfo.initialize dim topologyId c i).type

/-- hh:643-649 `maxSubEntityCount` (`binomial` is dune-common's binomial coefficient; passed as a
parameter here and instantiated with `Nat.choose`). -/
def maxSubEntityCount (binomial : Nat → Nat → Nat) (dim : Nat) : Nat :=
  (List.range (dim + 1)).foldl (fun mx codim => max mx (binomial dim codim * (1 <<< codim))) 0

end Verif.RefTopo
