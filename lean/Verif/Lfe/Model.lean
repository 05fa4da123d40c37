import Verif.Mapped.Model
import Verif.Affine.Model
import Verif.Type.Model

/-! Model of `dune/geometry/localfiniteelementgeometry.hh` (cited as hh).

The local finite element is arbitrary, so it is a record of functions; only what hh calls appears.  Simplifications: real
numbers; shape functions are scalar (as `out.axpy(shapeValues[i], …)` demands); the thread-local buffers are filled
anew by every evaluation and carry no state. -/

namespace Verif.Lfe

open Verif.RefGeom Verif.MatHelp Verif.GaussNewton Verif.Typ Verif.RefTopo Verif.Mapped Verif.Affine

noncomputable section

/-- hh:151, 205, 310: the local basis; hh:110 its size; hh:134: local interpolation of a vector valued function -/
structure LocalFE (m : Nat) where
  size : Nat
  order : Nat
  evaluateFunction : (Fin m → ℝ) → List ℝ
  evaluateJacobian : (Fin m → ℝ) → List (Fin m → ℝ)
  interpolate : {n : Nat} → ((Fin m → ℝ) → (Fin n → ℝ)) → List (Fin n → ℝ)

/-- hh:422-432, the members; `refElement_` is given by the topology id.  `tol` is `sqrt(epsilon)` (hh:411). -/
structure LFEGeometry (m n : Nat) where
  id : Nat
  localFE : LocalFE m
  vertices : List (Fin n → ℝ)
  affine_ : Option Bool
  tol : ℝ

namespace LFEGeometry

variable {m n : Nat}

/-- hh:103-111; `none`: the assertion fails -/
def ofVertices (id : Nat) (fe : LocalFE m) (vertices : List (Fin n → ℝ)) (tol : ℝ) : Option (LFEGeometry m n) :=
  if fe.size = vertices.length then some ⟨id, fe, vertices, none, tol⟩ else none

/-- hh:126-135 -/
def ofFunction (id : Nat) (fe : LocalFE m) (param : (Fin m → ℝ) → (Fin n → ℝ)) (tol : ℝ) : LFEGeometry m n :=
  ⟨id, fe, fe.interpolate param, none, tol⟩

variable (g : LFEGeometry m n)

/-- hh:149-152 -/
def order : Nat := g.localFE.order

/-- hh:173-176 -/
def corners : Nat := refSize m g.id m

/-- hh:202-213; `none`: the assertion fails -/
def global (x : Fin m → ℝ) : Option (Fin n → ℝ) :=
  let shapeValues := g.localFE.evaluateFunction x
  if shapeValues.length = g.vertices.length then
    some ((List.zip shapeValues g.vertices).foldl (fun out p => fun j => out j + p.1 * p.2 j) fun _ => 0)
  else none

/-- hh:179-183 -/
def corner (i : Nat) : Option (Fin n → ℝ) :=
  if i < g.corners then (position m g.id i m).bind fun p => g.global (vec m p) else none

/-- hh:186-189 -/
def center : Option (Fin n → ℝ) := (position m g.id 0 0).bind fun p => g.global (vec m p)

/-- hh:307-320; `umtv(v, out[j])` adds the product of the shape gradient and the number `v` to row `j` -/
def jacobian (x : Fin m → ℝ) : Option (Mat ℝ) :=
  let shapeJacobians := g.localFE.evaluateJacobian x
  if shapeJacobians.length = g.vertices.length then
    some ((List.zip shapeJacobians g.vertices).foldl
      (fun out p => fun j k => out j k + if h : j < n ∧ k < m then p.1 ⟨k, h.2⟩ * p.2 ⟨j, h.1⟩ else 0) fun _ _ => 0)
  else none

/-- hh:327-330 -/
def jacobianTransposed (x : Fin m → ℝ) : Option (Mat ℝ) := (g.jacobian x).map fun J i j => J j i

/-- hh:260-263 -/
def integrationElement (x : Fin m → ℝ) : Option ℝ := (g.jacobianTransposed x).bind (sqrtDetAAT m n)

/-- hh:294-300 -/
def volumeOf (rule : Rule m) : Option ℝ :=
  rule.foldlM (fun vol qp => do return vol + (← g.integrationElement qp.1) * qp.2) 0

/-- hh:339-344 -/
def jacobianInverse (x : Fin m → ℝ) : Option (Mat ℝ) := do
  let J ← g.jacobian x
  let r ← leftInvA n m J
  return r.2

/-- hh:353-356 -/
def jacobianInverseTransposed (x : Fin m → ℝ) : Option (Mat ℝ) := (g.jacobianInverse x).map fun r i j => r j i

/-- hh:384-420.  `none`: a failing assertion, in `global` or in the constructor of `AffineGeometry`. -/
def affineImpl : Option Bool :=
  if m = 0 then some true
  else if g.order > 1 then some false
  else if m = 1 then some true
  else if isSimplex (mk2 g.id m) then some true
  else do
    let simplexCorners ← (referenceCorners (K := ℝ) m 0).mapM fun p => g.global (vec m p)
    let affineGeo ← AffineGeometry.ofCorners m n 0 (simplexCorners.map RefGeom.ext)
    (List.range g.corners).foldlM (fun ok i =>
      if !ok then some false
      else do
        let corner ← position (K := ℝ) m g.id i m
        let y ← g.global (vec m corner)
        return decide ¬ (two_norm (vec n (affineGeo.global corner) - y) > g.tol)) true

/-- hh:159-164; result and new state -/
def affine : Option (Bool × LFEGeometry m n) :=
  match g.affine_ with
  | some b => some (b, g)
  | none => do
    let b ← g.affineImpl
    return (b, { g with affine_ := some b })

/-- hh:276-291; the flag is asked for after the first rule was evaluated -/
def volume (rules : Nat → Option (Rule m)) (opts : ConvergenceOptions) : Option VolumeRun := do
  let (a, _) ← g.affine
  return adaptiveVolume (fun p => (rules p).bind g.volumeOf) a opts

/-- hh:232-248.  The functions handed to `gaussNewton` must not fail, so this is the model for basis functions of the
right number (`global`, `jacobian` never `none`). -/
def local_ (y : Fin n → ℝ) (opts : Options) : Option (Except Code (Fin m → ℝ)) := do
  let x ← position (K := ℝ) m g.id 0 0
  let (err, x) ← gaussNewton (fun x => (g.global x).getD fun _ => 0) (fun x => (g.jacobianTransposed x).getD fun _ _ => 0)
    y opts (vec m x)
  if err ≠ .ok then return .error err else return .ok x

end LFEGeometry

end

end Verif.Lfe
