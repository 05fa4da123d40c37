import Verif.Float.VolumeModel

/-!
Model of the geometric data of reference elements in floating-point arithmetic: dune/geometry/referenceelementimplementation.hh
(origins, embeddings, normals) and the geometries of the sub-entities, affinegeometry.hh.

The definitions are those of `Verif.RefGeom` for any coordinate type with the operations used (`…_eq`: for a field they are the
same).  The previous contents of output arguments of the matrix helpers are the parameters `ret`, `ret'`.
-/

namespace Verif.FloatEmbed

open Verif.Typ Verif.RefTopo Verif.RefGeom Verif.Float Verif.FloatVol

variable {K : Type} [Zero K] [One K] [Add K] [Sub K] [Mul K] [Div K] [Neg K]

/-- `v[ k ] = a` -/
def setV (v : Nat → K) (k : Nat) (a : K) : Nat → K := fun j => if j = k then a else v j

/-- dune-common `FieldVector::operator*` -/
def dot (cdim : Nat) (v w : Nat → K) : K := (List.range cdim).foldl (fun result k => result + v k * w k) 0

/-- referenceelementimplementation.hh:164-204, see `RefGeom.referenceOrigins` -/
def referenceOrigins : (dim : Nat) → (topologyId codim : Nat) → List (Nat → K)
  | _, _, 0 => [fun _ => 0]
  | 0, _, _ + 1 => []
  | d + 1, topologyId, c + 1 =>
    let baseId := implBaseTopologyId topologyId (d + 1) 1
    if implIsPrism topologyId (d + 1) 0 then
      let o1 := if c + 1 < d + 1 then referenceOrigins d baseId (c + 1) else []
      let o2 := referenceOrigins d baseId c
      o1 ++ o2 ++ o2.map (fun o => setV o d 1)
    else
      let o1 := referenceOrigins d baseId c
      if c + 1 = d + 1 then o1 ++ [setV (fun _ => 0) d 1]
      else o1 ++ referenceOrigins d baseId (c + 1)

/-- referenceelementimplementation.hh:211-273, see `RefGeom.referenceEmbeddings` -/
def referenceEmbeddings : (dim : Nat) → (topologyId codim : Nat) → List ((Nat → K) × (Nat → Nat → K))
  | dim, _, 0 => [(fun _ => 0, fun r c => if r = c ∧ r < dim then 1 else 0)]
  | 0, _, _ + 1 => []
  | d + 1, topologyId, c + 1 =>
    let baseId := implBaseTopologyId topologyId (d + 1) 1
    let row := d + 1 - (c + 1) - 1
    if implIsPrism topologyId (d + 1) 0 then
      let e1 := (if c + 1 < d + 1 then referenceEmbeddings d baseId (c + 1) else []).map
        (fun p => (p.1, setM p.2 row d 1))
      let e2 := referenceEmbeddings d baseId c
      e1 ++ e2 ++ e2.map (fun p => (setV p.1 d 1, p.2))
    else
      let e1 := referenceEmbeddings d baseId c
      if c + 1 = d + 1 then e1 ++ [(setV (fun _ => 0) d 1, fun _ _ => 0)]
      else
        e1 ++ (referenceEmbeddings d baseId (c + 1)).map (fun p =>
          (p.1, setM (fun i j => if i = row ∧ j < d then -(p.1 j) else p.2 i j) row d 1))

/-- referenceelementimplementation.hh:280-331, see `RefGeom.outerNormalsRec` -/
def outerNormalsRec (cdim : Nat) : (dim : Nat) → (topologyId : Nat) → (origins : List (Nat → K)) → List (Nat → K)
  | 0, _, _ => []
  | 1, _, _ => [setV (fun _ => 0) 0 (-1), setV (fun _ => 0) 0 1]
  | d + 2, topologyId, origins =>
    let baseId := implBaseTopologyId topologyId (d + 2) 1
    if implIsPrism topologyId (d + 2) 0 then
      outerNormalsRec cdim (d + 1) baseId origins ++
        [setV (fun _ => 0) (d + 1) (-1), setV (fun _ => 0) (d + 1) 1]
    else
      setV (fun _ => 0) (d + 1) (-1) ::
        List.zipWith (fun n o => setV n (d + 1) (dot cdim n o))
          (outerNormalsRec cdim (d + 1) baseId origins.tail) origins.tail

/-- referenceelementimplementation.hh:333-348 -/
def referenceIntegrationOuterNormals (cdim dim topologyId : Nat) : List (Nat → K) :=
  outerNormalsRec cdim dim topologyId (referenceOrigins dim topologyId 1)

/-- affinegeometry.hh:251-256, the members; the reference element of a sub-entity is given by its topology id -/
structure Geometry (K : Type) where
  mydim : Nat
  cdim : Nat
  id : Nat
  origin : Nat → K
  jt : Nat → Nat → K
  jit : Nat → Nat → K
  integrationElement : K

section
variable [LT K] [DecidableLT K] [DecidableEq K] [HasSqrt K] [HasAbs K] [NatCast K]

/-- affinegeometry.hh:101-106; `none`: failed assertion or division by zero in `rightInvA` -/
def Geometry.ofJacobian (mydim cdim id : Nat) (origin : Nat → K) (jt ret ret' : Nat → Nat → K) : Option (Geometry K) :=
  (rightInvA mydim cdim jt ret ret').map fun s => ⟨mydim, cdim, id, origin, jt, s.2, s.1⟩

/-- affinegeometry.hh:115-122 -/
def Geometry.ofCorners (mydim cdim id : Nat) (coordVector ret ret' : Nat → Nat → K) : Option (Geometry K) :=
  Geometry.ofJacobian mydim cdim id (coordVector 0) (affineJt coordVector) ret ret'

/-- referenceelementimplementation.hh:543-548 and 803-818: `geometry< codim >( i )`; `none`: `i` is out of range, or the
construction fails -/
def geometry (dim topologyId codim i : Nat) (ret ret' : Nat → Nat → K) : Option (Geometry K) :=
  match (referenceEmbeddings (K := K) dim topologyId codim)[i]? with
  | some e => Geometry.ofJacobian (dim - codim) dim (refType dim topologyId i codim).id e.1 e.2 ret ret'
  | none => none

end

/-- affinegeometry.hh:154-159 -/
def Geometry.global (g : Geometry K) (x : Nat → K) : Nat → K := affineGlobal g.mydim g.origin g.jt x

/-- affinegeometry.hh:174-179, with `mtv` of FieldMatrix (`y = 0; y[ j ] += A[ i ][ j ] * x[ i ]`) -/
def Geometry.local_ (g : Geometry K) (y : Nat → K) : Nat → K :=
  fun j => addLoop 0 0 g.cdim fun i => g.jit i j * (y i - g.origin i)

/-- affinegeometry.hh:140-143; `none`: out of range -/
def Geometry.corner [NatCast K] (g : Geometry K) (i : Nat) : Option (Nat → K) := (Float.position g.mydim g.id i g.mydim).map g.global

/-- affinegeometry.hh:146 -/
def Geometry.center [NatCast K] (g : Geometry K) : Option (Nat → K) := (Float.position g.mydim g.id 0 0).map g.global

/-- affinegeometry.hh:197-200 -/
def Geometry.volume [NatCast K] (g : Geometry K) : K := g.integrationElement * FloatVol.referenceVolume g.mydim g.id

/-! ### With exact arithmetic these are the earlier models -/

section

variable {K : Type} [Field K]

theorem setV_eq (v : Nat → K) (k : Nat) (a : K) : setV v k a = RefGeom.setV v k a := rfl

theorem dot_eq (n : Nat) (v w : Nat → K) : dot n v w = RefGeom.dot n v w := by
  induction n with
  | zero => rfl
  | succ n ih =>
    rw [RefGeom.dot, Finset.sum_range_succ, ← RefGeom.dot, ← ih, dot, List.range_succ, List.foldl_append]
    rfl

theorem origins_eq (d id c : Nat) : referenceOrigins (K := K) d id c = RefGeom.referenceOrigins d id c := by
  induction d generalizing id c with
  | zero => cases c <;> rfl
  | succ d ih =>
    cases c with
    | zero => rfl
    | succ c => simp only [referenceOrigins, RefGeom.referenceOrigins, ih]; rfl

theorem embeddings_eq (d id c : Nat) : referenceEmbeddings (K := K) d id c = RefGeom.referenceEmbeddings d id c := by
  induction d generalizing id c with
  | zero => cases c <;> rfl
  | succ d ih =>
    cases c with
    | zero => rfl
    | succ c => simp only [referenceEmbeddings, RefGeom.referenceEmbeddings, ih]; rfl

theorem normalsRec_eq (n d id : Nat) : ∀ o : List (Nat → K), outerNormalsRec n d id o = RefGeom.outerNormalsRec n d id o := by
  induction d generalizing id with
  | zero => intro o; rfl
  | succ d ih =>
    intro o
    cases d with
    | zero => rfl
    | succ d => simp only [outerNormalsRec, RefGeom.outerNormalsRec, ih, dot_eq]; rfl

theorem normals_eq (n d id : Nat) : referenceIntegrationOuterNormals (K := K) n d id = RefGeom.referenceIntegrationOuterNormals n d id := by
  rw [referenceIntegrationOuterNormals, RefGeom.referenceIntegrationOuterNormals, origins_eq, normalsRec_eq]

end

/-- the geometry of the earlier model -/
noncomputable def ofAffine (g : Affine.AffineGeometry) : Geometry ℝ := ⟨g.mydim, g.cdim, g.id, g.origin, g.jt, g.jit, g.integrationElement⟩

theorem ofJacobian_eq (mydim cdim id : Nat) (origin : Nat → ℝ) (jt : Nat → Nat → ℝ) :
    (Affine.AffineGeometry.ofJacobian mydim cdim id origin jt).map ofAffine =
      Geometry.ofJacobian mydim cdim id origin jt MatHelp.garbage MatHelp.garbage := by
  rw [Geometry.ofJacobian, Affine.AffineGeometry.ofJacobian, rightInvA_eq]
  cases MatHelp.rightInvA mydim cdim jt <;> rfl

theorem global_eq (g : Affine.AffineGeometry) (x : Nat → ℝ) : (ofAffine g).global x = g.global x := rfl

theorem local_eq (g : Affine.AffineGeometry) (y : Nat → ℝ) : (ofAffine g).local_ y = g.local_ y := rfl

end Verif.FloatEmbed
