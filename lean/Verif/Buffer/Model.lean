import Verif.RefGeom.Model

/-
Model of the functions of `referenceelementimplementation.cc` / `.hh` that fill arrays through pointers, at the
level of memory cells and of `unsigned int`.

`RefTopo.Model` and `RefGeom.Model` describe the same functions by the lists that they write and with unbounded
numbers.  Here an array is an allocation of `cap` cells, a pointer is the number of a cell, and every read and
write is checked: access outside of the allocation or reading a cell that has not been written is undefined
behaviour, `none`.  `unsigned int` has 32 bits and wraps.  Pointers do not wrap (64 bits).
A recursive call with `dim-1` appears as recursion over `dim`; the asserted preconditions are those quoted in
`RefTopo.Model` and `RefGeom.Model`.
-/

namespace Verif.Buffer

open Verif.Typ Verif.RefTopo Verif.RefGeom

/-- values of `unsigned int` -/
def u32 (x : Nat) : Nat := x % 2 ^ 32

/-- `a - b` for `unsigned int` -/
def usub (a b : Nat) : Nat := (a + (2 ^ 32 - b)) % 2 ^ 32

/-- values of `int` are below this number -/
def intBound : Nat := 2 ^ 31

/-- the cells of an allocation; `none`: not yet written -/
abbrev Mem (α : Type) := Nat → Option α

/-- `*p` -/
def rd {α : Type} (cap : Nat) (m : Mem α) (p : Nat) : Option α := if p < cap then m p else none

/-- `*p = v` -/
def wr {α : Type} (cap : Nat) (m : Mem α) (p : Nat) (v : α) : Option (Mem α) :=
  if p < cap then some (fun q => if q = p then some v else m q) else none

/-- `*p = f( *p )` -/
def upd {α : Type} (cap : Nat) (m : Mem α) (p : Nat) (f : α → α) : Option (Mem α) := do
  let x ← rd cap m p
  wr cap m p (f x)

/-- `for( j = 0; j < n; ++j ) body` -/
def loop {σ : Type} (body : Nat → σ → Option σ) : (j n : Nat) → σ → Option σ
  | _, 0, s => some s
  | j, n + 1, s => (body j s).bind (loop body (j + 1) n)

/-- `for( it = begin; it != end; ++it ) body`: if `end` lies before `begin`, the loop leaves the allocation -/
def iter {σ : Type} (begin_ end_ : Nat) (body : Nat → σ → Option σ) (s : σ) : Option σ :=
  if end_ < begin_ then none else loop (fun j => body (begin_ + j)) 0 (end_ - begin_) s

/-! ### topology, referenceelementimplementation.cc -/

/-- cc:20-44 in `unsigned int` -/
def sizeM : (dim : Nat) → (topologyId codim : Nat) → Nat
  | _, _, 0 => 1
  | 0, _, _ + 1 => 0 -- excluded by the assertion
  | d + 1, topologyId, c + 1 =>
    let baseId := implBaseTopologyId topologyId (d + 1) 1
    let m := sizeM d baseId c
    if implIsPrism topologyId (d + 1) 0 then
      let n := if c + 1 < d + 1 then sizeM d baseId (c + 1) else 0
      u32 (n + u32 (2 * m))
    else
      let n := if c + 1 < d + 1 then sizeM d baseId (c + 1) else 1
      u32 (m + n)

/-- cc:51-82 in `unsigned int` -/
def subTopologyIdM : (dim : Nat) → (topologyId codim i : Nat) → Nat
  | _, topologyId, 0, _ => topologyId
  | 0, _, _ + 1, _ => 0 -- excluded by the assertion
  | d + 1, topologyId, c + 1, i =>
    let mydim := d + 1 - (c + 1)
    let baseId := implBaseTopologyId topologyId (d + 1) 1
    let m := sizeM d baseId c
    if implIsPrism topologyId (d + 1) 0 then
      let n := if c + 1 < d + 1 then sizeM d baseId (c + 1) else 0
      if i < n then
        subTopologyIdM d baseId (c + 1) i ||| (1 <<< (mydim - 1))
      else
        subTopologyIdM d baseId c (if i < u32 (n + m) then usub i n else usub i (u32 (n + m)))
    else
      if i < m then
        subTopologyIdM d baseId c i
      else if c + 1 < d + 1 then
        subTopologyIdM d baseId (c + 1) (usub i m) ||| (0 <<< (mydim - 1))
      else
        0

/-- cc:89-168 -/
def numberingM (cap : Nat) : (dim : Nat) → (topologyId codim i subcodim beginOut endOut : Nat) → Mem Nat → Option (Mem Nat)
  | 0, _, codim, i, subcodim, beginOut, endOut, mem =>
    if codim = 0 then
      iter beginOut endOut (fun p m => wr cap m p (u32 (p - beginOut))) mem -- 98-99
    else if subcodim = 0 then wr cap mem beginOut i -- 101-105
    else none -- excluded by the assertion
  | d + 1, topologyId, codim, i, subcodim, beginOut, endOut, mem =>
    if codim = 0 then
      iter beginOut endOut (fun p m => wr cap m p (u32 (p - beginOut))) mem
    else if subcodim = 0 then wr cap mem beginOut i
    else
      let baseId := implBaseTopologyId topologyId (d + 1) 1
      let m := sizeM d baseId (codim - 1)
      let mb := sizeM d baseId (codim + subcodim - 1)
      let nb := if codim + subcodim < d + 1 then sizeM d baseId (codim + subcodim) else 0
      if implIsPrism topologyId (d + 1) 0 then
        let n := sizeM d baseId codim
        if i < n then do
          let subId := subTopologyIdM d baseId codim i
          let beginBase :=
            if codim + subcodim < d + 1 then beginOut + sizeM (d - codim) subId subcodim else beginOut
          let mem ← if codim + subcodim < d + 1 then
            numberingM cap d baseId codim i subcodim beginOut beginBase mem
          else some mem
          let ms := sizeM (d - codim) subId (subcodim - 1)
          let mem ← numberingM cap d baseId codim i (subcodim - 1) beginBase (beginBase + ms) mem
          loop (fun j mem => do -- 131-135
            let mem ← upd cap mem (beginBase + j) fun x => u32 (x + nb)
            let x ← rd cap mem (beginBase + j)
            wr cap mem (beginBase + j + ms) (u32 (x + mb))) 0 ms mem
        else do
          let s := if i < u32 (n + m) then 0 else 1
          let mem ← numberingM cap d baseId (codim - 1) (usub i (u32 (n + u32 (s * m)))) subcodim beginOut endOut mem
          iter beginOut endOut (fun p mem => upd cap mem p fun x => u32 (x + u32 (nb + u32 (s * mb)))) mem
      else
        if i < m then
          numberingM cap d baseId (codim - 1) i subcodim beginOut endOut mem
        else do
          let subId := subTopologyIdM d baseId codim (usub i m)
          let ms := sizeM (d - codim) subId (subcodim - 1)
          let mem ← numberingM cap d baseId codim (usub i m) (subcodim - 1) beginOut (beginOut + ms) mem
          if codim + subcodim < d + 1 then
            let mem ← numberingM cap d baseId codim (usub i m) subcodim (beginOut + ms) endOut mem
            iter (beginOut + ms) endOut (fun p mem => upd cap mem p fun x => u32 (x + mb)) mem
          else wr cap mem (beginOut + ms) mb

/-- hh:748-752: `offset_`, `std::array< unsigned int, dim+2 >` -/
def offsetsM (dim codim subId : Nat) : Nat → Nat
  | 0 => 0
  | k + 1 => if k + 1 ≤ codim then 0
             else u32 (offsetsM dim codim subId k + sizeM (dim - codim) subId (k - codim))

/-- hh:743-767 `SubEntityInfo::initialize` on a default constructed object.  `maxCount` is the number of bits of
`SubEntityFlags`; `std::bitset::operator[]` has no check, a larger number is undefined behaviour.  `size( cc )` and
`number( ii, cc )` convert to `int`; results beyond its range are not covered (`none`). -/
def initializeM (maxCount dim topologyId codim i : Nat) : Option SubEntityInfo := do
  let subId := subTopologyIdM dim topologyId codim i
  let off := offsetsM dim codim subId
  let cap := off (dim + 1) -- 772-774 allocate, capacity
  let mem ← loop (fun j mem =>
    numberingM cap dim topologyId codim i (codim + j - codim) (off (codim + j)) (off (codim + j + 1)) mem)
      0 (dim + 1 - codim) fun _ => none
  let flags ← loop (fun cc flags => do
    let size := usub (off (cc + 1)) (off cc)
    if intBound ≤ size then none
    else
      loop (fun idx flags => do
        let k ← rd cap mem (u32 (off cc + idx))
        if k < maxCount ∧ k < intBound then some (fun cc' k' => (cc' == cc && k' == k) || flags cc' k') else none)
        0 size flags) 0 (dim + 1) fun _ _ => false
  let numbering ← (List.range cap).mapM (rd cap mem)
  return { numbering := numbering, offset := off, type := mk2 subId (dim - codim), contains := flags }

/-! ### geometry, referenceelementimplementation.hh -/

variable {K : Type} [Field K]

/-- hh:113-144; `p` is the pointer `corners` -/
def cornersM (cap : Nat) : (dim : Nat) → (topologyId p : Nat) → Mem (Vec K) → Option (Nat × Mem (Vec K))
  | 0, _, p, mem => do
    let mem ← wr cap mem p fun _ => 0
    return (1, mem)
  | d + 1, topologyId, p, mem => do
    let (n, mem) ← cornersM cap d (implBaseTopologyId topologyId (d + 1) 1) p mem
    if implIsPrism topologyId (d + 1) 0 then
      let mem ← loop (fun j mem => do -- `std::copy`
        let x ← rd cap mem (p + j)
        wr cap mem (p + n + j) x) 0 n mem
      let mem ← loop (fun i mem => upd cap mem (p + u32 (i + n)) fun c => setV c d 1) 0 n mem
      return (u32 (2 * n), mem)
    else
      let mem ← wr cap mem (p + n) fun _ => 0
      let mem ← upd cap mem (p + n) fun c => setV c d 1
      return (u32 (n + 1), mem)

/-- hh:164-204; `p` is the pointer `origins` -/
def originsM (cap : Nat) : (dim : Nat) → (topologyId codim p : Nat) → Mem (Vec K) → Option (Nat × Mem (Vec K))
  | _, _, 0, p, mem => do
    let mem ← wr cap mem p fun _ => 0
    return (1, mem)
  | 0, _, _ + 1, _, _ => none -- excluded by the assertion
  | d + 1, topologyId, c + 1, p, mem =>
    let baseId := implBaseTopologyId topologyId (d + 1) 1
    if implIsPrism topologyId (d + 1) 0 then do
      let (n, mem) ← if c + 1 < d + 1 then originsM cap d baseId (c + 1) p mem else some (0, mem)
      let (m, mem) ← originsM cap d baseId c (p + n) mem
      let mem ← loop (fun i mem => do
        let x ← rd cap mem (p + u32 (n + i))
        let mem ← wr cap mem (p + u32 (u32 (n + m) + i)) x
        upd cap mem (p + u32 (u32 (n + m) + i)) fun o => setV o d 1) 0 m mem
      return (u32 (n + u32 (2 * m)), mem)
    else do
      let (m, mem) ← originsM cap d baseId c p mem
      if c + 1 = d + 1 then
        let mem ← wr cap mem (p + m) fun _ => 0
        let mem ← upd cap mem (p + m) fun o => setV o d 1
        return (u32 (m + 1), mem)
      else
        let (n, mem) ← originsM cap d baseId (c + 1) (p + m) mem
        return (u32 (m + n), mem)

/-- hh:211-273; the arrays `origins` and `jacobianTransposeds` have the same number of cells and are always
addressed with the same offsets; both pointers are `p`.  The loop over `k` in lines 247-248 is one step. -/
def embeddingsM (cap : Nat) : (dim : Nat) → (topologyId codim p : Nat) → Mem (Vec K) × Mem (Mat K) →
    Option (Nat × (Mem (Vec K) × Mem (Mat K)))
  | dim, _, 0, p, (o, J) => do
    let o ← wr cap o p fun _ => 0
    let J ← wr cap J p fun _ _ => 0
    let J ← upd cap J p fun M r c => if r = c ∧ r < dim then 1 else M r c
    return (1, (o, J))
  | 0, _, _ + 1, _, _ => none -- `std::abort()`
  | d + 1, topologyId, c + 1, p, s =>
    let baseId := implBaseTopologyId topologyId (d + 1) 1
    let row := d + 1 - (c + 1) - 1
    if implIsPrism topologyId (d + 1) 0 then do
      let (n, s) ← if c + 1 < d + 1 then embeddingsM cap d baseId (c + 1) p s else some (0, s)
      let J ← loop (fun i J => upd cap J (p + i) fun M => setM M row d 1) 0 n s.2
      let (m, s) ← embeddingsM cap d baseId c (p + n) (s.1, J)
      let o ← loop (fun j o => do
        let x ← rd cap o (p + n + j)
        wr cap o (p + n + m + j) x) 0 m s.1
      let J ← loop (fun j J => do
        let x ← rd cap J (p + n + j)
        wr cap J (p + n + m + j) x) 0 m s.2
      let o ← loop (fun i o => upd cap o (p + u32 (u32 (n + m) + i)) fun v => setV v d 1) 0 m o
      return (u32 (n + u32 (2 * m)), (o, J))
    else do
      let (m, s) ← embeddingsM cap d baseId c p s
      if c + 1 = d + 1 then
        let o ← wr cap s.1 (p + m) fun _ => 0
        let o ← upd cap o (p + m) fun v => setV v d 1
        let J ← wr cap s.2 (p + m) fun _ _ => 0
        return (u32 (m + 1), (o, J))
      else
        let (n, s) ← embeddingsM cap d baseId (c + 1) (p + m) s
        let J ← loop (fun i J => do
          let v ← rd cap s.1 (p + u32 (m + i))
          upd cap J (p + u32 (m + i)) fun M => setM (fun r k => if r = row ∧ k < d then -(v k) else M r k) row d 1) 0 n s.2
        return (u32 (m + n), (s.1, J))

/-- hh:280-331; `origins` (`ocap` cells, pointer `o`) is only read, `normals` (`cap` cells, pointer `p`) written -/
def normalsM (cdim ocap cap : Nat) (origins : Mem (Vec K)) : (dim : Nat) → (topologyId o p : Nat) → Mem (Vec K) →
    Option (Nat × Mem (Vec K))
  | 0, _, _, _, _ => none -- excluded by the assertion
  | 1, _, _, p, mem => do
    let mem ← loop (fun i mem => do
      let mem ← wr cap mem (p + i) fun _ => 0
      upd cap mem (p + i) fun v => setV v 0 (2 * (i : K) - 1)) 0 2 mem
    return (2, mem)
  | d + 2, topologyId, o, p, mem =>
    let baseId := implBaseTopologyId topologyId (d + 2) 1
    if implIsPrism topologyId (d + 2) 0 then do
      let (n, mem) ← normalsM cdim ocap cap origins (d + 1) baseId o p mem
      let mem ← loop (fun i mem => do
        let mem ← wr cap mem (p + u32 (n + i)) fun _ => 0
        upd cap mem (p + u32 (n + i)) fun v => setV v (d + 1) (2 * (i : K) - 1)) 0 2 mem
      return (u32 (n + 2), mem)
    else do
      let mem ← wr cap mem p fun _ => 0
      let mem ← upd cap mem p fun v => setV v (d + 1) (-1)
      let (n, mem) ← normalsM cdim ocap cap origins (d + 1) baseId (o + 1) (p + 1) mem
      let mem ← loop (fun i mem => do
        let y ← rd ocap origins (o + (i + 1))
        upd cap mem (p + (i + 1)) fun v => setV v (d + 1) (dot cdim v y)) 0 n mem
      return (u32 (n + 1), mem)

/-- hh:333-348 -/
def outerNormalsM (cdim cap dim topologyId p : Nat) (mem : Mem (Vec K)) : Option (Nat × Mem (Vec K)) := do
  let ocap := sizeM dim topologyId 1
  let (_, origins) ← originsM ocap dim topologyId 1 0 fun _ => none
  normalsM cdim ocap cap origins dim topologyId 0 p mem

end Verif.Buffer
