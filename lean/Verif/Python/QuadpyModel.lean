import Verif.Python.Wrappers

/-!
Model of python/dune/geometry/quadpy.py (cited as q.py), the adapter to the Python package `quadpy`.

The package is not part of the repository; it is a parameter (`Library`): its modules have attributes that are
quadrature schemes, and the arithmetic on numpy arrays by which q.py:31-39 moves a scheme to the reference element
is one function that may raise an exception.  Python exceptions are values (`Exc`).  Objects of the class
`QPQuadPyQuadrature` have a serial number, so that "the same object" can be said.
-/

namespace Verif.Py.Quadpy

open Verif.Typ

/-- Python exceptions -/
inductive Exc where
  | attributeError
  | keyError
  | typeError
  | valueError
deriving DecidableEq

/-- the modules of the package in q.py:65-95 -/
inductive Mod where
  | line_segment
  | triangle
  | quadrilateral
  | tetrahedron
  | hexahedron
deriving DecidableEq

/-- the argument `vertices`: a list in the source (q.py:66, 70, 78), or made by the package (74, 82) -/
inductive Vertices where
  | list (l : List (List Int))
  | package
deriving DecidableEq

/-- the package; `S`: schemes, `D`: points and weights -/
structure Library (S D : Type) where
  /-- `getattr(quad, method)`; `none`: there is no such attribute, or it is not a scheme -/
  getattr : Mod → Str → Option S
  /-- q.py:31-38: `transform`, `get_detJ`, `get_vol` applied to the scheme -/
  transform : Mod → Vertices → S → Except Exc D
  /-- `quadrature_.degree` -/
  degree : S → Int

/-- the argument `quadDescription`: order and method; `none` is `None` -/
abbrev Desc := Option Int × Option Str

/-- an object of the class `QPQuadPyQuadrature`, q.py:21-52 -/
structure Quadrature (S D : Type) where
  serial : Nat
  order_ : Option Int
  method_ : Str
  quad_ : Mod
  vertices_ : Vertices
  quadrature_ : S
  data : D

/-- what `rule` returns -/
inductive Ret (S D : Type) where
  /-- a module of the package, q.py:98-99 -/
  | module (m : Mod)
  | rule (q : Quadrature S D)

variable {S D : Type}

/-- q.py:50-52 -/
def Quadrature.order (lib : Library S D) (q : Quadrature S D) : Int := lib.degree q.quadrature_

/-- q.py:64-97.  Pyramids and prisms raise `ValueError` (88, 95), all other types too (97). -/
def select (t : GeometryType) : Except Exc (Mod × Vertices) :=
  if isLine t then .ok (.line_segment, .list [[0], [1]])
  else if isTriangle t then .ok (.triangle, .list [[0, 0], [1, 0], [0, 1]])
  else if isQuadrilateral t then .ok (.quadrilateral, .package)
  else if isTetrahedron t then .ok (.tetrahedron, .list [[0, 0, 0], [1, 0, 0], [0, 1, 0], [0, 0, 1]])
  else if isHexahedron t then .ok (.hexahedron, .package)
  else if isPyramid t then .error .valueError
  else if isPrism t then .error .valueError
  else .error .valueError

/-- `not method` -/
def emptyMethod : Option Str → Bool
  | none => true
  | some s => s.isEmpty

/-- `not order` -/
def emptyOrder : Option Int → Bool
  | none => true
  | some o => o == 0

/-- q.py:22-40, the constructor; `getattr(quad, None)` raises `TypeError` -/
def Quadrature.mk' (lib : Library S D) (serial : Nat) (quad : Mod) (order : Option Int) (method : Option Str) (v : Vertices) :
    Except Exc (Quadrature S D) :=
  match method with
  | none => .error .typeError
  | some m => match lib.getattr quad m with
    | none => .error .attributeError
    | some s => match lib.transform quad v s with
      | .error e => .error e
      | .ok d => .ok ⟨serial, order, m, quad, v, s, d⟩

/-- an argument `gt` or `entity`: a geometry type, or an object with an attribute `type` (objects are numbered) -/
inductive Arg where
  | type (t : GeometryType)
  | entity (n : Nat) (t : GeometryType)

/-- `_cache` (q.py:19) and the number of objects created so far -/
structure State (S D : Type) where
  cache : Dict (GeometryType × Desc) (Quadrature S D)
  created : Nat

/-- keys of `_cache`; `th` combines the hashes of the components of a tuple -/
def sameKey (th : Option Nat → Desc → Nat) (a b : GeometryType × Desc) : Bool :=
  th (pyHash a.1) a.2 == th (pyHash b.1) b.2 && (eq a.1 b.1 && a.2 == b.2)

/-- q.py:54-57 -/
def Arg.gt : Arg → GeometryType
  | .type t => t
  | .entity _ t => t

variable (th : Option Nat → Desc → Nat)

/-- q.py:53-102 `rule(gt, quadDescription)` -/
def rule (lib : Library S D) (s : State S D) (a : Arg) (desc : Desc) : Except Exc (Ret S D) × State S D :=
  let gt := a.gt
  match s.cache.get (sameKey th) (gt, desc) with
  | some q => (.ok (.rule q), s)
  | none =>
    match select gt with
    | .error e => (.error e, s)
    | .ok (quad, vertices) =>
      if emptyMethod desc.2 && emptyOrder desc.1 then (.ok (.module quad), s)
      else match Quadrature.mk' lib s.created quad desc.1 desc.2 vertices with
        | .error e => (.error e, s)
        | .ok q => (.ok (.rule q), ⟨s.cache.set (sameKey th) (gt, desc) q, s.created + 1⟩)

/-- keys of the dictionary `methods` that a user passes to `rules`: types are compared as types, other objects by
identity -/
def sameArg : Arg → Arg → Bool
  | .type a, .type b => sameType a b
  | .entity m _, .entity n _ => m == n
  | _, _ => false

/-- q.py:104-110 `rules(methods)(entity)`.  The attribute `type` exists for entities only.  The handler of
`AttributeError` also catches those of `rule`. -/
def rules (lib : Library S D) (methods : Dict Arg Desc) (s : State S D) (a : Arg) : Except Exc (Ret S D) × State S D :=
  let handler (s : State S D) : Except Exc (Ret S D) × State S D :=
    match methods.get sameArg a with
    | none => (.error .keyError, s)
    | some desc => rule th lib s a desc
  match a with
  | .type _ => handler s
  | .entity _ t =>
    match methods.get sameArg (.type t) with
    | none => (.error .keyError, s)
    | some desc =>
      match rule th lib s (.type t) desc with
      | (.error .attributeError, s) => handler s
      | r => r

/-- `_cache` is empty -/
def State.empty : State S D := ⟨⟨[]⟩, 0⟩

/-- a program that asks for rules -/
def run (lib : Library S D) (hist : List (Arg × Desc)) : State S D :=
  hist.foldl (fun s r => (rule th lib s r.1 r.2).2) .empty

end Verif.Py.Quadpy
