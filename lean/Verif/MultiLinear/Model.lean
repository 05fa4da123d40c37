import Verif.MatHelp.Model

/-!
Model of dune/geometry/multilineargeometry.hh over ℝ.

`mydim`, `cdim`, `Traits::tolerance()` and the topology id of the reference element are fields.  The corner iterator
`cit` is an index into the corner storage, which is a function: the class documentation demands a storage with at
least `corners()` entries.  Vectors are functions on ℕ; a loop over the `cdim` components of a vector is written as an
operation on the whole function, the components from `cdim` on are ignored by all statements.  The static functions
return the new value of the by-reference arguments `cit` and `y` (`jt`).
-/

namespace Verif.MultiLinear

open Verif.RefGeom Verif.MatHelp Verif.RefTopo Verif.Typ

noncomputable section

/-- multilineargeometry.hh:476-477, the members -/
structure MultiLinearGeometry where
  mydim : Nat
  cdim : Nat
  id : Nat
  corners_ : Nat → Vec ℝ
  tol : ℝ

/-- dune-common `y.axpy( a, x )` -/
def axpy (y : Vec ℝ) (a : ℝ) (x : Vec ℝ) : Vec ℝ := fun i => y i + a * x i

/-- replace row `r` -/
def setRow (M : Mat ℝ) (r : Nat) (v : Vec ℝ) : Mat ℝ := fun i => if i = r then v else M i

variable (g : MultiLinearGeometry)

namespace MultiLinearGeometry

/-- hh:746-775 (dim > 0) and hh:777-788 (dim = 0) -/
def globalS : (add : Bool) → (dim : Nat) → (cit : Nat) → (df : ℝ) → (x : Vec ℝ) → (rf : ℝ) → (y : Vec ℝ) → Nat × Vec ℝ
  | add, 0, cit, _, _, rf, y =>
    (cit + 1, fun i => if add then y i + rf * g.corners_ cit i else rf * g.corners_ cit i)
  | add, d + 1, cit, df, x, rf, y =>
    let xn := df * x d
    let cxn := 1 - xn
    if implIsPrism g.id g.mydim (g.mydim - (d + 1)) then
      let (cit, y) := globalS add d cit df x (rf * cxn) y
      globalS true d cit df x (rf * xn) y
    else
      let (cit, y) :=
        if cxn > g.tol ∨ cxn < -g.tol then globalS add d cit (df / cxn) x (rf * cxn) y
        else globalS add d cit df x 0 y
      (cit + 1, axpy y (rf * xn) (g.corners_ cit))

/-- hh:791-891 (dim > 0) and hh:893-901 (dim = 0).  The local `jt2` starts as `garbage`. -/
def jacobianTransposedS : (add : Bool) → (dim : Nat) → (cit : Nat) → (df : ℝ) → (x : Vec ℝ) → (rf : ℝ) →
    (jt : Mat ℝ) → Nat × Mat ℝ
  | _, 0, cit, _, _, _, jt => (cit + 1, jt)
  | add, d + 1, cit, df, x, rf, jt =>
    let xn := df * x d
    let cxn := 1 - xn
    let cit2 := cit
    if implIsPrism g.id g.mydim (g.mydim - (d + 1)) then
      let (cit2, jt) := jacobianTransposedS add d cit2 df x (rf * cxn) jt
      let (_, jt) := jacobianTransposedS true d cit2 df x (rf * xn) jt
      let (cit, row) := g.globalS add d cit df x (-rf) (jt d)
      let (cit, row) := g.globalS true d cit df x rf row
      (cit, setRow jt d row)
    else
      let dfcxn := if cxn > g.tol ∨ cxn < -g.tol then df / cxn else 0
      let (cit, row) := g.globalS add d cit dfcxn x (-rf) (jt d)
      let jt := setRow jt d row
      let jt := setRow jt d (axpy (jt d) rf (g.corners_ cit))
      let cit := cit + 1
      if add then
        let (_, jt2) := jacobianTransposedS false d cit2 dfcxn x rf garbage
        (cit, (List.range d).foldl (fun jt j =>
          let jt := setRow jt j (fun i => jt j i + jt2 j i)
          setRow jt d (axpy (jt d) (dfcxn * x j) (jt2 j))) jt)
      else
        let (_, jt) := jacobianTransposedS false d cit2 dfcxn x rf jt
        (cit, (List.range d).foldl (fun jt j => setRow jt d (axpy (jt d) (dfcxn * x j) (jt j))) jt)

/-- dune-common `two_norm2` -/
def two_norm2 (n : Nat) (v : Vec ℝ) : ℝ := dot n v v

/-- hh:905-932 (dim > 0) and hh:934-941 (dim = 0); the local `jtTop` starts as `garbage`.  Returns the flag and the new
`cit`, `jt`. -/
def affineS : (dim : Nat) → (cit : Nat) → (jt : Mat ℝ) → Bool × Nat × Mat ℝ
  | 0, cit, jt => (true, cit + 1, jt)
  | d + 1, cit, jt =>
    let orgBottom := g.corners_ cit
    let (ok, cit, jt) := affineS d cit jt
    if !ok then (false, cit, jt)
    else
      let orgTop := g.corners_ cit
      if implIsPrism g.id g.mydim (g.mydim - (d + 1)) then
        let (ok, cit, jtTop) := affineS d cit garbage
        if !ok then (false, cit, jt)
        else
          let norm := (List.range d).foldl (fun norm i => norm + two_norm2 g.cdim (fun j => jtTop i j - jt i j)) 0
          if norm ≥ g.tol then (false, cit, jt)
          else (true, cit, setRow jt d (fun j => orgTop j - orgBottom j))
      else (true, cit + 1, setRow jt d (fun j => orgTop j - orgBottom j))

/-- hh:458-464; the parameter holds the contents of the caller's matrix -/
def affineJ (jacobianT : Mat ℝ) : Bool × Mat ℝ :=
  let (ok, _, jt) := g.affineS g.mydim 0 jacobianT
  (ok, jt)

/-- hh:262-266 -/
def affine : Bool := (g.affineJ garbage).1

/-- hh:272 -/
def corners : Nat := refSize g.mydim g.id g.mydim

/-- hh:275-279; `none`: the assertion fails -/
def corner (i : Nat) : Option (Vec ℝ) := if i < g.corners then some (g.corners_ i) else none

/-- hh:290-298; `y` is not initialised, so it starts as a row of `garbage` -/
def global (local_ : Vec ℝ) : Vec ℝ := (g.globalS false g.mydim 0 1 local_ 1 (garbage 0)).2

/-- hh:282 -/
def center : Option (Vec ℝ) := (position g.mydim g.id 0 0).map g.global

/-- hh:377-385 -/
def jacobianTransposed (local_ : Vec ℝ) : Mat ℝ := (g.jacobianTransposedS false g.mydim 0 1 local_ 1 garbage).2

/-- hh:407-410 -/
def jacobian (local_ : Vec ℝ) : Mat ℝ := fun i j => g.jacobianTransposed local_ j i

/-- hh:736-743 with 492-495: the matrix and `detInv_` -/
def jacobianInverseTransposed (local_ : Vec ℝ) : Option (ℝ × Mat ℝ) :=
  rightInvA g.mydim g.cdim (g.jacobianTransposed local_)

/-- hh:418-421 -/
def jacobianInverse (local_ : Vec ℝ) : Option (Mat ℝ) :=
  (g.jacobianInverseTransposed local_).map fun r i j => r.2 j i

/-- hh:350-353 -/
def integrationElement (local_ : Vec ℝ) : Option ℝ := sqrtDetAAT g.mydim g.cdim (g.jacobianTransposed local_)

/-- hh:363-366 -/
def volume : Option ℝ := do
  let p ← position g.mydim g.id 0 0
  let ie ← g.integrationElement p
  return ie * referenceVolume g.mydim g.id

/-- the ways `local` ends: the point, the vector of `numeric_limits::max()` that signals a singular Jacobian -/
inductive LocalResult where
  | point (x : Vec ℝ)
  | singular

/-- hh:318-332, the loop.  `fuel` bounds the number of passes; `none`: passes used up.  The inner `Option` belongs to
the assertion in `xTRightInvA` (hh:323), which does not fire as `checkSingular` is set. -/
def newton (affineMapping : Bool) (globalCoord : Vec ℝ) : (fuel : Nat) → (x : Vec ℝ) → Option (Option LocalResult)
  | 0, _ => none
  | fuel + 1, x =>
    match xTRightInvA g.mydim g.cdim (g.jacobianTransposed x) (fun i => g.global x i - globalCoord i) with
    | none => some none
    | some (false, _) => some (some .singular)
    | some (true, dx) =>
      let x : Vec ℝ := fun i => x i - dx i
      if affineMapping then some (some (.point x))
      else if two_norm2 g.mydim dx > g.tol then newton affineMapping globalCoord fuel x
      else some (some (.point x))

/-- hh:312-334 -/
def local_ (fuel : Nat) (globalCoord : Vec ℝ) : Option (Option LocalResult) :=
  match position (K := ℝ) g.mydim g.id 0 0 with
  | none => some none
  | some x => g.newton g.affine globalCoord fuel x

end MultiLinearGeometry

/-! ### CachedMultiLinearGeometry -/

/-- hh:722-728, the members; `jit` is `jacobianInverseTransposed_` (matrix and `detInv_`) -/
structure CachedMultiLinearGeometry where
  base : MultiLinearGeometry
  jt : Mat ℝ
  jit : Mat ℝ
  detInv : ℝ
  affine_ : Bool
  jitComputed : Bool
  ieComputed : Bool

namespace CachedMultiLinearGeometry

/-- hh:551-557 and 559-565; `jit`, `detInv` are not initialised -/
def mk' (g : MultiLinearGeometry) (jit : Mat ℝ) (detInv : ℝ) : CachedMultiLinearGeometry :=
  let (ok, jt) := g.affineJ garbage
  ⟨g, jt, jit, detInv, ok, false, false⟩

variable (c : CachedMultiLinearGeometry)

/-- hh:567 -/
def affine : Bool := c.affine_

/-- hh:580-590 -/
def global (local_ : Vec ℝ) : Option (Vec ℝ) :=
  if c.affine then do
    let o ← c.base.corner 0
    return fun j => addLoop (o j) 0 c.base.mydim fun i => c.jt i j * local_ i
  else some (c.base.global local_)

/-- hh:572 -/
def center : Option (Vec ℝ) := do
  let p ← position c.base.mydim c.base.id 0 0
  c.global p

/-- hh:604-617.  In the affine case the flag of `xTRightInvA` is ignored and the vector returned as it is. -/
def local_ (fuel : Nat) (y : Vec ℝ) : Option (Option MultiLinearGeometry.LocalResult) :=
  if c.affine then some (do
    let o ← c.base.corner 0
    if c.jitComputed then return .point (mtv c.base.cdim c.base.mydim c.jit fun j => y j - o j)
    else do
      let (_, x) ← xTRightInvA c.base.mydim c.base.cdim c.jt fun j => y j - o j
      return .point x)
  else c.base.local_ fuel y

/-- hh:633-645 with 497-500; new state and result -/
def integrationElement (local_ : Vec ℝ) : Option (CachedMultiLinearGeometry × ℝ) :=
  if c.affine then do
    let c ← if !c.ieComputed then do
        let d ← sqrtDetAAT c.base.mydim c.base.cdim c.jt
        some { c with detInv := d, ieComputed := true }
      else some c
    return (c, c.detInv)
  else (c.base.integrationElement local_).map fun v => (c, v)

/-- hh:649-655 -/
def volume : Option (CachedMultiLinearGeometry × ℝ) :=
  if c.affine then do
    let p ← position c.base.mydim c.base.id 0 0
    let (c, ie) ← c.integrationElement p
    return (c, ie * referenceVolume c.base.mydim c.base.id)
  else c.base.volume.map fun v => (c, v)

/-- hh:666-672 -/
def jacobianTransposed (local_ : Vec ℝ) : Mat ℝ :=
  if c.affine then c.jt else c.base.jacobianTransposed local_

/-- hh:680-694; new state, `detInv` and matrix -/
def jacobianInverseTransposed (local_ : Vec ℝ) : Option (CachedMultiLinearGeometry × ℝ × Mat ℝ) :=
  if c.affine then do
    let c ← if !c.jitComputed then do
        let (d, jit) ← rightInvA c.base.mydim c.base.cdim c.jt
        some { c with jit := jit, detInv := d, jitComputed := true, ieComputed := true }
      else some c
    return (c, c.detInv, c.jit)
  else (c.base.jacobianInverseTransposed local_).map fun r => (c, r)

/-- hh:702-705 -/
def jacobian (local_ : Vec ℝ) : Mat ℝ := fun i j => c.jacobianTransposed local_ j i

/-- hh:713-716 -/
def jacobianInverse (local_ : Vec ℝ) : Option (CachedMultiLinearGeometry × Mat ℝ) :=
  (c.jacobianInverseTransposed local_).map fun r => (r.1, fun i j => r.2.2 j i)

end CachedMultiLinearGeometry

end

end Verif.MultiLinear
