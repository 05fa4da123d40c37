import Verif.GaussNewton.Model

/-! Model of `dune/geometry/mappedgeometry.hh` (cited as hh) and `dune/geometry/utility/convergence.hh`.

The wrapped geometry and the mapping are arbitrary, so they are records of functions.  `none` is a failing assertion.
Simplifications: real numbers; the mapping and its derivative are pure functions (the class copies them). -/

namespace Verif.Mapped

open Verif.RefGeom Verif.MatHelp Verif.GaussNewton

noncomputable section

/-- what hh uses of the wrapped geometry `Geo` (hh:143-152, 158, 164, 178, 199, 274, 325); `refCenter` is
`referenceElement(geometry).position(0,0)` -/
structure Geo (m k : Nat) where
  corners : Nat
  corner : Nat → Option (Fin k → ℝ)
  center : Option (Fin k → ℝ)
  global : (Fin m → ℝ) → (Fin k → ℝ)
  jacobian : (Fin m → ℝ) → Mat ℝ
  refCenter : Option (Fin m → ℝ)

/-- hh:341-353 with the constructor hh:125-130; `dMapping` is `derivative(mapping)` -/
structure MappedGeometry (m k n : Nat) where
  mapping : (Fin k → ℝ) → (Fin n → ℝ)
  dMapping : (Fin k → ℝ) → Mat ℝ
  geometry : Geo m k
  affine_ : Bool

/-- a quadrature rule: points and weights -/
abbrev Rule (m : Nat) := List ((Fin m → ℝ) × ℝ)

/-- convergence.hh:13-21 -/
structure ConvergenceOptions where
  maxIt : Int
  absTol : ℝ

/-- The result of hh:241-256 / localfiniteelementgeometry.hh:276-291, with the orders of the rules asked for.  `none`
inside: a rule or integration element was not available (undefined behaviour or failing assertion). -/
structure VolumeRun where
  value : Option ℝ
  orders : List Nat

/-- hh:247-255, the loop from `p` on, with `fuel` passes left -/
def volumeLoop (vol : Nat → Option ℝ) (absTol : ℝ) : (fuel p : Nat) → (vol0 : ℝ) → VolumeRun
  | 0, _, vol0 => ⟨some vol0, []⟩
  | fuel + 1, p, vol0 =>
    match vol p with
    | none => ⟨none, [p]⟩
    | some vol1 =>
      if |vol1 - vol0| < absTol then ⟨some vol1, [p]⟩
      else
        let r := volumeLoop vol absTol fuel (p + 1) vol1
        ⟨r.value, p :: r.orders⟩

/-- hh:241-256; `vol p` is `volume(QuadratureRules::rule(type(), p))` -/
def adaptiveVolume (vol : Nat → Option ℝ) (affine : Bool) (opts : ConvergenceOptions) : VolumeRun :=
  match vol 1 with
  | none => ⟨none, [1]⟩
  | some vol0 =>
    if affine then ⟨some vol0, [1]⟩
    else
      let r := volumeLoop vol opts.absTol (opts.maxIt - 2).toNat 2 vol0
      ⟨r.value, 1 :: r.orders⟩

namespace MappedGeometry

variable {m k n : Nat} (g : MappedGeometry m k n)

/-- hh:137-140 -/
def affine : Bool := g.affine_

/-- hh:149-152 -/
def corners : Nat := g.geometry.corners

/-- hh:155-159 -/
def corner (i : Nat) : Option (Fin n → ℝ) := if i < g.corners then (g.geometry.corner i).map g.mapping else none

/-- hh:162-165 -/
def center : Option (Fin n → ℝ) := g.geometry.center.map g.mapping

/-- hh:176-179 -/
def global (x : Fin m → ℝ) : Fin n → ℝ := g.mapping (g.geometry.global x)

/-- hh:272-277; the product of two `FieldMatrix` objects is a triple loop -/
def jacobian (x : Fin m → ℝ) : Mat ℝ :=
  let jLocal := g.geometry.jacobian x
  let jMapping := g.dMapping (g.geometry.global x)
  fun i j => addLoop 0 0 k fun l => jMapping i l * jLocal l j

/-- hh:284-287 -/
def jacobianTransposed (x : Fin m → ℝ) : Mat ℝ := fun i j => g.jacobian x j i

/-- hh:197-213; an exception carries the error code -/
def local_ (y : Fin n → ℝ) (opts : Options) : Option (Except Code (Fin m → ℝ)) := do
  let x ← g.geometry.refCenter
  let (err, x) ← gaussNewton g.global g.jacobianTransposed y opts x
  if err ≠ .ok then return .error err else return .ok x

/-- hh:225-228 -/
def integrationElement (x : Fin m → ℝ) : Option ℝ := sqrtDetAAT m n (g.jacobianTransposed x)

/-- hh:259-265 -/
def volumeOf (rule : Rule m) : Option ℝ :=
  rule.foldlM (fun vol qp => do return vol + (← g.integrationElement qp.1) * qp.2) 0

/-- hh:241-256 -/
def volume (rules : Nat → Option (Rule m)) (opts : ConvergenceOptions) : VolumeRun :=
  adaptiveVolume (fun p => (rules p).bind g.volumeOf) g.affine opts

/-- hh:296-301 -/
def jacobianInverse (x : Fin m → ℝ) : Option (Mat ℝ) := (leftInvA n m (g.jacobian x)).map (·.2)

/-- hh:310-313 -/
def jacobianInverseTransposed (x : Fin m → ℝ) : Option (Mat ℝ) := (g.jacobianInverse x).map fun r i j => r j i

end MappedGeometry

end

end Verif.Mapped
