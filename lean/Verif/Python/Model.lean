import Verif.Type.Model

/-! Model of the names of geometry types in the Python bindings, dune/python/geometry/type.hh (cited as hh).

`std::string` is a list of characters.  The library functions on strings are modelled by their meaning in the C++
standard; `std::stoul` works on 64 bit numbers. -/

namespace Verif.Py

open Verif.Typ

abbrev Str := List Char

/-- A value, a C++ exception, or undefined behaviour (failing assertions included). -/
inductive Res (α : Type) where
  | ok (a : α)
  | error
  | ub
  deriving DecidableEq

/-- undefined behaviour in a function of the type model -/
def Res.ofOption {α : Type} : Option α → Res α
  | some a => .ok a
  | none => .ub

/-- the decimal digit of a number below ten -/
def digit (n : Nat) : Char := Char.ofNat (48 + n)

/-- `std::to_string(unsigned)` -/
def toDec (n : Nat) : Str := if n < 10 then [digit n] else toDec (n / 10) ++ [digit (n % 10)]
termination_by n

/-- hh:24-52 `to_string`.  `none`: the shift in `isCube` is undefined. -/
def toString (t : GeometryType) : Option Str :=
  let default_ : Option Str :=
    if isSimplex t then some ("simplex(".toList ++ toDec t.dim ++ ")".toList)
    else (isCube t).map fun b =>
      if b then "cube(".toList ++ toDec t.dim ++ ")".toList
      else "general(".toList ++ toDec t.id ++ ", ".toList ++ toDec t.dim ++ ")".toList
  if t.isNone then some ("none(".toList ++ toDec t.dim ++ ")".toList)
  else match t.dim with
    | 0 => some "vertex".toList
    | 1 => some "line".toList
    | 2 => some (if isSimplex t then "triangle".toList else "quadrilateral".toList)
    | 3 =>
      if isSimplex t then some "tetrahedron".toList
      else if isHexahedron t then some "hexahedron".toList
      else if isPyramid t then some "pyramid".toList
      else if isPrism t then some "prism".toList
      else default_
    | _ => default_

/-! ### library functions on strings -/

/-- `s.find_first_of(.., pos)`, `s.find_first_not_of(.., pos)`; `none` is `npos` -/
def findFirst (p : Char → Bool) (s : Str) (pos : Nat) : Option Nat := ((s.drop pos).findIdx? p).map (· + pos)

/-- `s.find_last_not_of(.., pos)`: the last position, at most `pos` -/
def findLast (p : Char → Bool) (s : Str) : (pos : Nat) → Option Nat
  | 0 => if (s[0]?).any p then some 0 else none
  | pos + 1 => if (s[pos + 1]?).any p then some (pos + 1) else findLast p s pos

/-- `s[n]`: the terminating zero for `n = s.size()`, undefined beyond -/
def charAt (s : Str) (n : Nat) : Option Char :=
  if n < s.length then s[n]? else if n = s.length then some (Char.ofNat 0) else none

/-- `s.substr(pos, len)` -/
def substr (s : Str) (pos len : Nat) : Str := (s.drop pos).take len

/-- `std::isspace` -/
def isSpace (c : Char) : Bool := c.toNat == 32 || (9 ≤ c.toNat && c.toNat ≤ 13)

/-- `std::isdigit` -/
def isDig (c : Char) : Bool := 48 ≤ c.toNat && c.toNat ≤ 57

/-- `std::stoul(s)`: leading white space, a sign, digits; the rest is ignored.  `none`: `std::invalid_argument` or
`std::out_of_range`. -/
def stoul (s : Str) : Option Nat :=
  let s := s.dropWhile isSpace
  let (neg, s) := match s with
    | '-' :: s => (true, s)
    | '+' :: s => (false, s)
    | s => (false, s)
  let ds := s.takeWhile isDig
  if ds = [] then none
  else
    let v := ds.foldl (fun a c => a * 10 + (c.toNat - 48)) 0
    if 2 ^ 64 ≤ v then none else some (if neg then (2 ^ 64 - v) % 2 ^ 64 else v)

/-- `operator<` of strings -/
def strLt : Str → Str → Bool
  | [], [] => false
  | [], _ :: _ => true
  | _ :: _, [] => false
  | a :: s, b :: t => if a.toNat < b.toNat then true else if b.toNat < a.toNat then false else strLt s t

/-- `std::lower_bound(names, names + n, x) - names` on a sorted array -/
def lowerBound (names : List Str) (x : Str) : Nat := names.findIdx fun a => !strLt a x

/-! ### geometryTypeFromString -/

/-- hh:63-76 -/
def constructorNames : List Str :=
  ["cube".toList, "general".toList, "hexahedron".toList, "line".toList, "none".toList, "prism".toList, "pyramid".toList,
    "quadrilateral".toList, "simplex".toList, "tetrahedron".toList, "triangle".toList, "vertex".toList]

/-- hh:80-84 and the like: one argument, passed on as `unsigned int` -/
def unary (args : List Str) (f : Nat → Option GeometryType) : Res GeometryType :=
  match args with
  | [a] => match stoul a with
    | none => .error
    | some d => .ofOption (f (d % 2 ^ 32))
  | _ => .error

/-- hh:96-100 and the like: no argument -/
def nullary (args : List Str) (t : Option GeometryType) : Res GeometryType :=
  if args.isEmpty then .ofOption t else .error

/-- hh:86-94; `numTopologies` takes an `int`, the constructor `unsigned int`s -/
def general (args : List Str) : Res GeometryType :=
  match args with
  | [a, b] => match stoul a with
    | none => .error
    | some id => match stoul b with
      | none => .error
      | some dim =>
        if 32 ≤ dim % 2 ^ 32 then .ub
        else if id ≥ numTopologies (dim % 2 ^ 32) then .error
        else .ok (mk2 (id % 2 ^ 32) (dim % 2 ^ 32))
  | _ => .error

/-- hh:77-155, `constructors[i]` -/
def construct (i : Nat) (args : List Str) : Res GeometryType :=
  match i with
  | 0 => unary args cube
  | 1 => general args
  | 2 => nullary args hexahedron
  | 3 => nullary args (some line)
  | 4 => unary args fun d => some (noneType d)
  | 5 => nullary args (some prism)
  | 6 => nullary args (some pyramid)
  | 7 => nullary args quadrilateral
  | 8 => unary args fun d => some (simplex d)
  | 9 => nullary args (some tetrahedron)
  | 10 => nullary args (some triangle)
  | 11 => nullary args (some vertex)
  | _ => .ub

/-- hh:169-187, the loop at position `n`; running out of `fuel` counts as undefined -/
def argsLoop (s : Str) : (fuel n : Nat) → (args : List Str) → Res (List Str)
  | 0, _, _ => .ub
  | fuel + 1, n, args =>
    match charAt s n with
    | none => .ub
    | some c =>
      if c = ')' then .ok args
      else match findFirst (· != ' ') s (n + 1) with
        | none => .error
        | some m => match findFirst (fun c => c == ',' || c == ')') s m with
          | none => .error
          | some n' =>
            if n' = m then .error
            else match findLast (· != ' ') s (n' - 1) with
              | none => .ub
              | some k => if k < m then .ub else argsLoop s fuel n' (args ++ [substr s m (k - m + 1)])

/-- hh:60-191 `geometryTypeFromString` -/
def geometryTypeFromString (s : Str) : Res GeometryType :=
  let n := findFirst (· == '(') s 0
  let cName := match n with
    | some n => substr s 0 n
    | none => s
  let cIdx := lowerBound constructorNames cName
  if cIdx = constructorNames.length ∨ constructorNames[cIdx]? ≠ some cName then .error
  else
    let args := match n with
      | none => Res.ok []
      | some n => argsLoop s (s.length + 1) n []
    match args with
    | .ok args => construct cIdx args
    | .error => .error
    | .ub => .ub

end Verif.Py
