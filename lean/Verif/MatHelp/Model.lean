import Verif.RefGeom.Model
import Mathlib.Analysis.Real.Sqrt

/-
Model of `Dune::Impl::FieldMatrixHelper` (utility/defaultmatrixhelper.hh) over the real numbers.

A `FieldMatrix< ctype, m, n >` is a function `ℕ → ℕ → ℝ` (row, column) of which only the entries
`r < m`, `c < n` matter; the sizes are explicit parameters.  Output arguments are returned.  An output
argument whose previous contents partly survive is a parameter `ret`.

`none` is a failed assertion (in a release build: `sqrt` of a non-positive number, i.e. NaN or division
by zero).  Functions that write each entry of the output exactly once from the inputs alone are given by
that entry; functions with data dependencies (`cholesky_L`, `invL`, `invLx`, `invLTx`) are modelled
loop by loop.
-/

namespace Verif.MatHelp

open Verif.RefGeom

noncomputable section

/-- `x = init; for( k = lo; k < hi; ++k ) x += f( k );` -/
def addLoop (init : ℝ) (lo hi : Nat) (f : Nat → ℝ) : ℝ :=
  (List.range' lo (hi - lo)).foldl (fun x k => x + f k) init

/-- `x = init; for( k = lo; k < hi; ++k ) x -= f( k );` -/
def subLoop (init : ℝ) (lo hi : Nat) (f : Nat → ℝ) : ℝ :=
  (List.range' lo (hi - lo)).foldl (fun x k => x - f k) init

/-- dune-common `A.mv( x, y )` -/
def mv (_m n : Nat) (A : Mat ℝ) (x : Vec ℝ) : Vec ℝ := fun i => addLoop 0 0 n fun j => A i j * x j

/-- dune-common `A.mtv( x, y )` -/
def mtv (m _n : Nat) (A : Mat ℝ) (x : Vec ℝ) : Vec ℝ := fun i => addLoop 0 0 m fun j => A j i * x j

/-- utility/defaultmatrixhelper.hh:50-62 (`A` is m×n, `B` is p×m) -/
def ATBT (m : Nat) (A B : Mat ℝ) : Mat ℝ := fun i j => addLoop 0 0 m fun k => A k i * B j k

/-- hh:65-77; only the lower triangle is written -/
def ATA_L (m : Nat) (A ret : Mat ℝ) : Mat ℝ :=
  fun i j => if j ≤ i then addLoop 0 0 m fun k => A k i * A k j else ret i j

/-- hh:88-101; only the lower triangle is written -/
def AAT_L (n : Nat) (A ret : Mat ℝ) : Mat ℝ :=
  fun i j => if j ≤ i then addLoop (A i 0 * A j 0) 1 n fun k => A i k * A j k else ret i j

/-- hh:104-120 -/
def AAT (n : Nat) (A : Mat ℝ) : Mat ℝ :=
  fun i j =>
    if j < i then addLoop 0 0 n fun k => A i k * A j k
    else if i < j then addLoop 0 0 n fun k => A j k * A i k
    else addLoop 0 0 n fun k => A i k * A i k

/-- hh:123-134 -/
def Lx (L : Mat ℝ) (x : Vec ℝ) : Vec ℝ := fun i => addLoop 0 0 (i + 1) fun j => L i j * x j

/-- hh:137-148 -/
def LTx (n : Nat) (L : Mat ℝ) (x : Vec ℝ) : Vec ℝ := fun i => addLoop 0 i n fun j => L j i * x j

/-- hh:151-168 -/
def LTL (n : Nat) (L : Mat ℝ) : Mat ℝ :=
  fun i j =>
    if j < i then addLoop 0 i n fun k => L k i * L k j
    else if i < j then addLoop 0 j n fun k => L k j * L k i
    else addLoop 0 i n fun k => L k i * L k i

/-- hh:171-188 -/
def LLT (L : Mat ℝ) : Mat ℝ :=
  fun i j =>
    if j < i then addLoop 0 0 (j + 1) fun k => L i k * L j k
    else if i < j then addLoop 0 0 (i + 1) fun k => L j k * L i k
    else addLoop 0 0 (i + 1) fun k => L i k * L i k

/-- hh:214-220, the inner loop over `k` of `cholesky_L` -/
def choleskyColumn (n : Nat) (A : Mat ℝ) (i : Nat) (invrii : ℝ) (ret : Mat ℝ) : Mat ℝ :=
  (List.range' (i + 1) (n - (i + 1))).foldl
    (fun ret k => setM ret k i (invrii * subLoop (A k i) 0 i fun j => ret i j * ret k j)) ret

/-- hh:195-221, the loop over `i`, started at `i`, for `fuel = n - i` more rounds -/
def choleskyFrom (n : Nat) (A : Mat ℝ) (checkSingular : Bool) : (fuel i : Nat) → (ret : Mat ℝ) → Option (Bool × Mat ℝ)
  | 0, _, ret => some (true, ret)
  | fuel + 1, i, ret =>
    let xDiag := subLoop (A i i) 0 i fun j => ret i j * ret i j
    if checkSingular ∧ ¬ (xDiag > 0) then some (false, ret)
    else if ¬ (xDiag > 0) then none
    else
      let rii := Real.sqrt xDiag
      let ret := setM ret i i rii
      let invrii := 1 / rii
      choleskyFrom n A checkSingular fuel (i + 1) (choleskyColumn n A i invrii ret)

/-- hh:191-225.  `none`: the assertion fails. -/
def cholesky_L (n : Nat) (A ret : Mat ℝ) (checkSingular : Bool := false) : Option (Bool × Mat ℝ) :=
  choleskyFrom n A checkSingular n 0 ret

/-- hh:228-236 -/
def detL (n : Nat) (L : Mat ℝ) : ℝ := (List.range n).foldl (fun det i => det * L i i) 1

/-- hh:247-254: the loop over `j` of `invL` in row `i` -/
def invLRow (i : Nat) (lii : ℝ) (L : Mat ℝ) : Mat ℝ :=
  (List.range i).foldl
    (fun L j => setM L i j (-lii * addLoop (L i j * L j j) (j + 1) i fun k => L i k * L k j)) L

/-- hh:239-257; returns the determinant and the new contents of `L` -/
def invL (n : Nat) (L : Mat ℝ) : ℝ × Mat ℝ :=
  (List.range n).foldl
    (fun s i =>
      let det := s.1 * s.2 i i
      let lii := 1 / s.2 i i
      (det, invLRow i lii (setM s.2 i i lii))) (1, L)

/-- hh:260-270 -/
def invLx (n : Nat) (L : Mat ℝ) (x : Vec ℝ) : Vec ℝ :=
  (List.range n).foldl
    (fun x i => setV x i (subLoop (x i) 0 i (fun j => L i j * x j) / L i i)) x

/-- hh:273-283, loop downwards; the step for `i` (the code's `i-1`) -/
def invLTx (n : Nat) (L : Mat ℝ) (x : Vec ℝ) : Vec ℝ :=
  (List.range n).reverse.foldl
    (fun x i => setV x i (subLoop (x i) (i + 1) n (fun j => L j i * x j) / L i i)) x

/-- contents of a local matrix that the code has not written yet; opaque, so nothing can depend on them -/
opaque garbage : Mat ℝ

/-- hh:286-294; the local `L` starts as `garbage` -/
def spdDetA (n : Nat) (A : Mat ℝ) : Option ℝ := do
  let (_, L) ← cholesky_L n A garbage
  return detL n L

/-- hh:297-306; returns the determinant and the new contents of `A` -/
def spdInvA (n : Nat) (A : Mat ℝ) : Option (ℝ × Mat ℝ) := do
  let (_, L) ← cholesky_L n A garbage
  let (det, L) := invL n L
  return (det, LTL n L)

/-- hh:309-319; returns the flag and the new contents of `x` -/
def spdInvAx (n : Nat) (A : Mat ℝ) (x : Vec ℝ) (checkSingular : Bool := false) : Option (Bool × Vec ℝ) := do
  let (invertible, L) ← cholesky_L n A garbage checkSingular
  if !invertible then return (invertible, x)
  else return (invertible, invLTx n L (invLx n L x))

/-- hh:322-333 -/
def detATA (m n : Nat) (A : Mat ℝ) : Option ℝ :=
  if n ≤ m then spdDetA n (ATA_L m A garbage) else some 0

/-- hh:340-377 -/
def sqrtDetAAT (m n : Nat) (A : Mat ℝ) : Option ℝ :=
  if n = 2 ∧ m = 2 then some |A 0 0 * A 1 1 - A 1 0 * A 0 1|
  else if n = 3 ∧ m = 3 then
    let v0 := A 0 1 * A 1 2 - A 1 1 * A 0 2
    let v1 := A 0 2 * A 1 0 - A 1 2 * A 0 0
    let v2 := A 0 0 * A 1 1 - A 1 0 * A 0 1
    some |v0 * A 2 0 + v1 * A 2 1 + v2 * A 2 2|
  else if n = 3 ∧ m = 2 then
    let v0 := A 0 0 * A 1 1 - A 0 1 * A 1 0
    let v1 := A 0 0 * A 1 2 - A 1 0 * A 0 2
    let v2 := A 0 1 * A 1 2 - A 0 2 * A 1 1
    some (Real.sqrt (v0 * v0 + v1 * v1 + v2 * v2))
  else if m ≤ n then spdDetA m (AAT_L n A garbage)
  else some 0

/-- the hand-written inverse of a 2×2 matrix in hh:387-394 and hh:424-431; `none`: division by zero -/
def inv22 (A : Mat ℝ) : Option (ℝ × Mat ℝ) :=
  let det := A 0 0 * A 1 1 - A 1 0 * A 0 1
  if det = 0 then none
  else
    let detInv := 1 / det
    some (|det|, fun i j =>
      if i = 0 ∧ j = 0 then A 1 1 * detInv
      else if i = 1 ∧ j = 1 then A 0 0 * detInv
      else if i = 1 ∧ j = 0 then -A 1 0 * detInv
      else -A 0 1 * detInv)

/-- hh:381-403 -/
def leftInvA (m n : Nat) (A : Mat ℝ) : Option (ℝ × Mat ℝ) :=
  if n = 2 ∧ m = 2 then inv22 A
  else do
    let (det, ata) ← spdInvA n (ATA_L m A garbage)
    return (det, ATBT n ata A)

/-- hh:406-414 -/
def leftInvAx (m n : Nat) (A : Mat ℝ) (x : Vec ℝ) : Option (Bool × Vec ℝ) :=
  spdInvAx n (ATA_L m A garbage) (mtv m n A x) true

/-- hh:417-440 -/
def rightInvA (m n : Nat) (A : Mat ℝ) : Option (ℝ × Mat ℝ) :=
  if n = 2 ∧ m = 2 then inv22 A
  else do
    let (det, aat) ← spdInvA m (AAT_L n A garbage)
    return (det, ATBT m A aat)

/-- hh:443-453 -/
def xTRightInvA (m n : Nat) (A : Mat ℝ) (x : Vec ℝ) : Option (Bool × Vec ℝ) :=
  spdInvAx m (AAT_L n A garbage) (mv m n A x) true

end

end Verif.MatHelp
