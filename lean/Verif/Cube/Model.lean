import Verif.Affine.Model

/-!
Model of dune/geometry/axisalignedcubegeometry.hh over ℝ.  `1 << dim` is assumed not to overflow.  FieldVector and
FieldMatrix are zero after default construction (dune-common).
-/

namespace Verif.Cube

open Verif.RefGeom

noncomputable section

/-- axisalignedcubegeometry.hh:360-364, the members; `dim`, `coorddim` are the template parameters -/
structure AxisAlignedCubeGeometry where
  dim : Nat
  coorddim : Nat
  lower : Vec ℝ
  upper : Vec ℝ
  axes : Nat → Bool

/-- `axes.count()` of a bitset with `n` bits -/
def count (axes : Nat → Bool) (n : Nat) : Nat := (List.range n).countP axes

/-- hh:124-133, only for `dim == coorddim` -/
def ofCorners (n : Nat) (lower upper : Vec ℝ) : AxisAlignedCubeGeometry :=
  ⟨n, n, lower, upper, fun i => decide (i < n)⟩

/-- hh:142-153; `none`: the assertion fails -/
def ofAxes (dim coorddim : Nat) (lower upper : Vec ℝ) (axes : Nat → Bool) : Option AxisAlignedCubeGeometry :=
  if count axes coorddim = dim then
    some ⟨dim, coorddim, lower,
      (List.range coorddim).foldl (fun u i => if !axes i then setV u i (lower i) else u) upper, axes⟩
  else none

/-- hh:159-161, only for `dim == 0` -/
def ofPoint (coorddim : Nat) (lower : Vec ℝ) : AxisAlignedCubeGeometry :=
  ⟨0, coorddim, lower, fun _ => 0, fun _ => false⟩

variable (g : AxisAlignedCubeGeometry)

namespace AxisAlignedCubeGeometry

/-- hh:170-186 -/
def global (x : Vec ℝ) : Vec ℝ :=
  if g.dim = g.coorddim then
    (List.range g.coorddim).foldl
      (fun r i => setV r i (g.lower i + x i * (g.upper i - g.lower i))) (fun _ => 0)
  else if g.dim = 0 then g.lower
  else
    ((List.range g.coorddim).foldl
      (fun (s : Nat × Vec ℝ) i =>
        if g.axes i then (s.1 + 1, setV s.2 i (g.lower i + x s.1 * (g.upper i - g.lower i)))
        else (s.1, setV s.2 i (g.lower i))) (0, fun _ => 0)).2

/-- hh:189-202; division by zero is excluded by the hypotheses of the statements -/
def local_ (y : Vec ℝ) : Vec ℝ :=
  if g.dim = g.coorddim then
    (List.range g.dim).foldl
      (fun r i => setV r i ((y i - g.lower i) / (g.upper i - g.lower i))) (fun _ => 0)
  else if g.dim ≠ 0 then
    ((List.range g.coorddim).foldl
      (fun (s : Nat × Vec ℝ) i =>
        if g.axes i then (s.1 + 1, setV s.2 s.1 ((y i - g.lower i) / (g.upper i - g.lower i)))
        else s) (0, fun _ => 0)).2
  else fun _ => 0

/-- hh:205-214 with 323-327 (diagonal matrix) and 330-339 (dense matrix) -/
def jacobianTransposed : Mat ℝ :=
  if g.dim = g.coorddim then
    (List.range g.dim).foldl (fun m i => setM m i i (g.upper i - g.lower i)) (fun _ _ => 0)
  else if g.dim = 0 then fun _ _ => 0
  else
    ((List.range g.coorddim).foldl
      (fun (s : Nat × Mat ℝ) i =>
        if g.axes i then (s.1 + 1, setM s.2 s.1 i (g.upper i - g.lower i)) else s) (0, fun _ _ => 0)).2

/-- hh:217-226 with 342-346 (diagonal matrix) and 349-358 (dense matrix) -/
def jacobianInverseTransposed : Mat ℝ :=
  if g.dim = g.coorddim then
    (List.range g.dim).foldl (fun m i => setM m i i (1 / (g.upper i - g.lower i))) (fun _ _ => 0)
  else if g.dim = 0 then fun _ _ => 0
  else
    ((List.range g.coorddim).foldl
      (fun (s : Nat × Mat ℝ) i =>
        if g.axes i then (s.1 + 1, setM s.2 i s.1 (1 / (g.upper i - g.lower i))) else s) (0, fun _ _ => 0)).2

/-- hh:229-232 -/
def jacobian : Mat ℝ := fun i j => g.jacobianTransposed j i

/-- hh:235-238 -/
def jacobianInverse : Mat ℝ := fun i j => g.jacobianInverseTransposed j i

/-- hh:249-260 -/
def center : Vec ℝ :=
  if g.dim = 0 then g.lower
  else (List.range g.coorddim).foldl (fun r i => setV r i (0.5 * (g.lower i + g.upper i))) (fun _ => 0)

/-- hh:263-266 -/
def corners : Nat := 1 <<< g.dim

/-- hh:269-292 -/
def corner (k : Nat) : Vec ℝ :=
  if g.dim = g.coorddim then
    (List.range g.coorddim).foldl
      (fun r i => setV r i (if k &&& (1 <<< i) ≠ 0 then g.upper i else g.lower i)) (fun _ => 0)
  else if g.dim = 0 then g.lower
  else
    ((List.range g.coorddim).foldl
      (fun (s : Nat × Vec ℝ) i =>
        if !g.axes i then (s.1, setV s.2 i (g.lower i))
        else (s.1 <<< 1, setV s.2 i (if k &&& s.1 ≠ 0 then g.upper i else g.lower i))) (1, fun _ => 0)).2

/-- hh:295-308 -/
def volume : ℝ :=
  if g.dim = g.coorddim then
    (List.range g.dim).foldl (fun vol i => vol * (g.upper i - g.lower i)) 1
  else if g.dim ≠ 0 then
    (List.range g.coorddim).foldl (fun vol i => if g.axes i then vol * (g.upper i - g.lower i) else vol) 1
  else 1

/-- hh:243-246 -/
def integrationElement : ℝ := g.volume

end AxisAlignedCubeGeometry

end

end Verif.Cube
