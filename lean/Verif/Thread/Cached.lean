import Verif.Thread.Model
import Verif.MultiLinear.CachedProps

/-!
The const functions of CachedMultiLinearGeometry, multilineargeometry.hh:510-729, as sequences of accesses to the members
that const functions write.  The other members (`refElement_`, `corners_`, `jacobianTransposed_`) are written by the
constructors only; reading them is no access here.  Results are those of `Verif/MultiLinear/Model.lean`.
-/

namespace Verif.Thread.Cached

open Verif.MultiLinear Verif.MatHelp Verif.RefGeom Verif.RefTopo Verif.Typ

noncomputable section

/-- multilineargeometry.hh:723-728: the three bit-fields are adjacent, so they are one memory location; the matrix
`jacobianInverseTransposed_` and its member `detInv_` (hh:506) -/
inductive Cell where
  | flags
  | det
  | jit
  deriving DecidableEq

/-- hh:725-728 -/
structure Flags where
  affine_ : Bool
  jitComputed : Bool
  ieComputed : Bool

/-- types of the locations.  All functions access all entries of the matrix or none, so it counts as one location. -/
abbrev Val : Cell → Type
  | .flags => Flags
  | .det => ℝ
  | .jit => Mat ℝ

abbrev P (α : Type) := Prog Cell Val α

/-- hh:567 -/
def affine : P Bool := .read .flags fun f => .ret f.affine_

/-- hh:580-590 -/
def global (g : MultiLinearGeometry) (jt : Mat ℝ) (x : Vec ℝ) : P (Option (Vec ℝ)) :=
  affine.bind fun a =>
    if a then .ret (do
      let o ← g.corner 0
      return fun j => addLoop (o j) 0 g.mydim fun i => jt i j * x i)
    else .ret (some (g.global x))

/-- hh:572 -/
def center (g : MultiLinearGeometry) (jt : Mat ℝ) : P (Option (Vec ℝ)) :=
  match position g.mydim g.id 0 0 with
  | none => .ret none
  | some p => global g jt p

/-- hh:604-617 -/
def local_ (g : MultiLinearGeometry) (jt : Mat ℝ) (fuel : Nat) (y : Vec ℝ) :
    P (Option (Option MultiLinearGeometry.LocalResult)) :=
  affine.bind fun a =>
    if a then .read .flags fun f =>
      if f.jitComputed then .read .jit fun jit => .ret (some (do
        let o ← g.corner 0
        return .point (mtv g.cdim g.mydim jit fun j => y j - o j)))
      else .ret (some (do
        let o ← g.corner 0
        let (_, x) ← xTRightInvA g.mydim g.cdim jt fun j => y j - o j
        return .point x))
    else .ret (g.local_ fuel y)

/-- hh:633-645 with 497-500 -/
def integrationElement (g : MultiLinearGeometry) (jt : Mat ℝ) (x : Vec ℝ) : P (Option ℝ) :=
  affine.bind fun a =>
    if a then .read .flags fun f =>
      if !f.ieComputed then
        match sqrtDetAAT g.mydim g.cdim jt with
        | none => .ret none
        | some d => .write .det (fun _ => d) (.write .flags (fun f => { f with ieComputed := true })
            (.read .det fun v => .ret (some v)))
      else .read .det fun v => .ret (some v)
    else .ret (g.integrationElement x)

/-- hh:649-655 -/
def volume (g : MultiLinearGeometry) (jt : Mat ℝ) : P (Option ℝ) :=
  affine.bind fun a =>
    if a then
      match position g.mydim g.id 0 0 with
      | none => .ret none
      | some p => (integrationElement g jt p).map fun ie => ie.map (· * referenceVolume g.mydim g.id)
    else .ret g.volume

/-- hh:666-672 -/
def jacobianTransposed (g : MultiLinearGeometry) (jt : Mat ℝ) (x : Vec ℝ) : P (Mat ℝ) :=
  affine.bind fun a => if a then .ret jt else .ret (g.jacobianTransposed x)

/-- hh:680-694 with 492-495.  Intermediate values that `rightInvA` stores in the matrix are left out: they go to the same
location as the final one. -/
def jacobianInverseTransposed (g : MultiLinearGeometry) (jt : Mat ℝ) (x : Vec ℝ) : P (Option (ℝ × Mat ℝ)) :=
  affine.bind fun a =>
    if a then .read .flags fun f =>
      if !f.jitComputed then
        match rightInvA g.mydim g.cdim jt with
        | none => .ret none
        | some (d, R) => .write .jit (fun _ => R) (.write .det (fun _ => d)
            (.write .flags (fun f => { f with jitComputed := true }) (.write .flags (fun f => { f with ieComputed := true })
              (.read .det fun d => .read .jit fun R => .ret (some (d, R))))))
      else .read .det fun d => .read .jit fun R => .ret (some (d, R))
    else .ret (g.jacobianInverseTransposed x)

/-- the calls; hh:275-279 (`corner`), 702-705 (`jacobian`), 713-716 (`jacobianInverse`) -/
def call (g : MultiLinearGeometry) (jt : Mat ℝ) : Query → P (Answer g.mydim g.cdim)
  | .affine => affine.map .flag
  | .corner i => .ret (.globalVec ((g.corner i).map (vec _)))
  | .global x => (global g jt x).map fun v => .globalVec (v.map (vec _))
  | .center => (center g jt).map fun v => .globalVec (v.map (vec _))
  | .local_ fuel y => (local_ g jt fuel y).map fun r => .localVec (r.map fun r => r.map (localAnswer _))
  | .integrationElement x => (integrationElement g jt x).map .number
  | .volume => (volume g jt).map .number
  | .jacobianTransposed x => (jacobianTransposed g jt x).map fun A => .matrixTransposed (some (mat _ _ A))
  | .jacobian x => (jacobianTransposed g jt x).map fun A => .matrix (some (mat _ _ fun i j => A j i))
  | .jacobianInverseTransposed x => (jacobianInverseTransposed g jt x).map fun r => .matrix (r.map fun r => mat _ _ r.2)
  | .jacobianInverse x => (jacobianInverseTransposed g jt x).map fun r =>
      .matrixTransposed (r.map fun r => mat _ _ fun i j => r.2 j i)

/-- the locations of an object -/
def memory (c : CachedMultiLinearGeometry) : Mem Cell Val
  | .flags => ⟨c.affine_, c.jitComputed, c.ieComputed⟩
  | .det => c.detInv
  | .jit => c.jit

/-- threads that share an object and make the given calls -/
def start {ι : Type} (c : CachedMultiLinearGeometry) (calls : ι → List Query) :
    Config Cell Val (List (Answer c.base.mydim c.base.cdim)) ι :=
  ⟨memory c, fun t => Prog.seq ((calls t).map (call c.base c.jt))⟩

end

end Verif.Thread.Cached
