import Verif.Float.Model
import Verif.Affine.Model

/-!
Model of volumes and integration elements in floating-point arithmetic: dune/geometry/utility/defaultmatrixhelper.hh ("mh"),
axisalignedcubegeometry.hh and affinegeometry.hh.

The definitions are those of `Verif.MatHelp` and `Verif.Affine` for any coordinate type with the operations used (`_eq`: for
real numbers they are the same).  A square root is the exact one, rounded.  `none` is a failed assertion or a division by
zero.  The previous contents of an output argument are the parameter `ret`.
-/

namespace Verif.FloatVol

open Verif.Float Verif.RefGeom

/-- `std::sqrt` -/
class HasSqrt (K : Type) where
  sqrt : K → K

/-- `std::abs` -/
class HasAbs (K : Type) where
  abs : K → K

noncomputable instance : HasSqrt ℝ := ⟨Real.sqrt⟩
noncomputable instance : HasAbs ℝ := ⟨fun x => |x|⟩

noncomputable instance {φ : Format} : HasSqrt (Fl φ) := ⟨fun a => Fl.round φ (Real.sqrt a.val)⟩
noncomputable instance {φ : Format} : HasAbs (Fl φ) :=
  ⟨fun a => ⟨|a.val|, by rcases abs_choice a.val with h | h <;> rw [h] <;> [exact a.rep; exact φ.rd_neg _ a.rep]⟩⟩

open HasSqrt HasAbs

section
variable {K : Type} [Zero K] [One K] [Add K] [Sub K] [Mul K] [Div K] [Neg K] [LT K] [DecidableLT K] [HasSqrt K] [HasAbs K]

/-- `x = init; for( k = lo; k < hi; ++k ) x += f( k );` -/
def addLoop (init : K) (lo hi : Nat) (f : Nat → K) : K := (List.range' lo (hi - lo)).foldl (fun x k => x + f k) init

/-- `x = init; for( k = lo; k < hi; ++k ) x -= f( k );` -/
def subLoop (init : K) (lo hi : Nat) (f : Nat → K) : K := (List.range' lo (hi - lo)).foldl (fun x k => x - f k) init

/-- mh:50-62 -/
def ATBT (m : Nat) (A B : Mat K) : Mat K := fun i j => addLoop 0 0 m fun k => A k i * B j k

/-- mh:88-101 -/
def AAT_L (n : Nat) (A ret : Mat K) : Mat K :=
  fun i j => if j ≤ i then addLoop (A i 0 * A j 0) 1 n fun k => A i k * A j k else ret i j

/-- mh:151-168 -/
def LTL (n : Nat) (L : Mat K) : Mat K :=
  fun i j =>
    if j < i then addLoop 0 i n fun k => L k i * L k j
    else if i < j then addLoop 0 j n fun k => L k j * L k i
    else addLoop 0 i n fun k => L k i * L k i

/-- mh:214-220 -/
def choleskyColumn (n : Nat) (A : Mat K) (i : Nat) (invrii : K) (ret : Mat K) : Mat K :=
  (List.range' (i + 1) (n - (i + 1))).foldl
    (fun ret k => setM ret k i (invrii * subLoop (A k i) 0 i fun j => ret i j * ret k j)) ret

/-- mh:195-221 without `checkSingular` -/
def choleskyFrom (n : Nat) (A : Mat K) : (fuel i : Nat) → (ret : Mat K) → Option (Mat K)
  | 0, _, ret => some ret
  | fuel + 1, i, ret =>
    let xDiag := subLoop (A i i) 0 i fun j => ret i j * ret i j
    if ¬ (xDiag > 0) then none
    else
      let rii := sqrt xDiag
      let ret := setM ret i i rii
      let invrii := 1 / rii
      choleskyFrom n A fuel (i + 1) (choleskyColumn n A i invrii ret)

/-- mh:191-225 without `checkSingular` -/
def cholesky_L (n : Nat) (A ret : Mat K) : Option (Mat K) := choleskyFrom n A n 0 ret

/-- mh:228-236 -/
def detL (n : Nat) (L : Mat K) : K := (List.range n).foldl (fun det i => det * L i i) 1

/-- mh:247-254 -/
def invLRow (i : Nat) (lii : K) (L : Mat K) : Mat K :=
  (List.range i).foldl
    (fun L j => setM L i j (-lii * addLoop (L i j * L j j) (j + 1) i fun k => L i k * L k j)) L

/-- mh:239-257 -/
def invL (n : Nat) (L : Mat K) : K × Mat K :=
  (List.range n).foldl
    (fun s i =>
      let det := s.1 * s.2 i i
      let lii := 1 / s.2 i i
      (det, invLRow i lii (setM s.2 i i lii))) (1, L)

/-- mh:286-294 -/
def spdDetA (n : Nat) (A ret : Mat K) : Option K := (cholesky_L n A ret).map (detL n)

/-- mh:297-306 -/
def spdInvA (n : Nat) (A ret : Mat K) : Option (K × Mat K) := (cholesky_L n A ret).map fun L => ((invL n L).1, LTL n (invL n L).2)

/-- mh:340-377 -/
def sqrtDetAAT (m n : Nat) (A ret ret' : Mat K) : Option K :=
  if n = 2 ∧ m = 2 then some (abs (A 0 0 * A 1 1 - A 1 0 * A 0 1))
  else if n = 3 ∧ m = 3 then
    let v0 := A 0 1 * A 1 2 - A 1 1 * A 0 2
    let v1 := A 0 2 * A 1 0 - A 1 2 * A 0 0
    let v2 := A 0 0 * A 1 1 - A 1 0 * A 0 1
    some (abs (v0 * A 2 0 + v1 * A 2 1 + v2 * A 2 2))
  else if n = 3 ∧ m = 2 then
    let v0 := A 0 0 * A 1 1 - A 0 1 * A 1 0
    let v1 := A 0 0 * A 1 2 - A 1 0 * A 0 2
    let v2 := A 0 1 * A 1 2 - A 0 2 * A 1 1
    some (sqrt (v0 * v0 + v1 * v1 + v2 * v2))
  else if m ≤ n then spdDetA m (AAT_L n A ret) ret'
  else some 0

/-- mh:424-431; `none`: division by zero -/
def inv22 [DecidableEq K] (A : Mat K) : Option (K × Mat K) :=
  let det := A 0 0 * A 1 1 - A 1 0 * A 0 1
  if det = 0 then none
  else
    let detInv := 1 / det
    some (abs det, fun i j =>
      if i = 0 ∧ j = 0 then A 1 1 * detInv
      else if i = 1 ∧ j = 1 then A 0 0 * detInv
      else if i = 1 ∧ j = 0 then -A 1 0 * detInv
      else -A 0 1 * detInv)

/-- mh:417-440 -/
def rightInvA [DecidableEq K] (m n : Nat) (A ret ret' : Mat K) : Option (K × Mat K) :=
  if n = 2 ∧ m = 2 then inv22 A
  else (spdInvA m (AAT_L n A ret) ret').map fun s => (s.1, ATBT m A s.2)

/-- affinegeometry.hh:115-122: the integration element and the inverse Jacobian of the geometry with the given corners -/
def affine [DecidableEq K] (mydim cdim : Nat) (coordVector : Nat → Nat → K) (ret ret' : Mat K) : Option (K × Mat K) :=
  rightInvA mydim cdim (affineJt coordVector) ret ret'

/-- referenceelementimplementation.hh:153-157 -/
def referenceVolume [NatCast K] (dim topologyId : Nat) : K := 1 / (referenceVolumeInverse dim topologyId : K)

/-- affinegeometry.hh:197-200 -/
def affineVolume [DecidableEq K] [NatCast K] (mydim cdim id : Nat) (coordVector : Nat → Nat → K) (ret ret' : Mat K) : Option K :=
  (affine mydim cdim coordVector ret ret').map fun s => s.1 * referenceVolume mydim id

/-- axisalignedcubegeometry.hh:295-309; `axes i`: the cube extends in direction `i`.  In the full-dimensional case all axes
are set. -/
def cubeVolume (coorddim : Nat) (axes : Nat → Bool) (lower upper : Nat → K) : K :=
  (List.range coorddim).foldl (fun vol i => if axes i then vol * (upper i - lower i) else vol) 1

/-- axisalignedcubegeometry.hh:342-346, the diagonal -/
def cubeInverse (lower upper : Nat → K) : Nat → K := fun i => 1 / (upper i - lower i)

end

/-! ### With exact arithmetic these are the earlier models -/

theorem choleskyFrom_eq (n : Nat) (A : Mat ℝ) : ∀ fuel i ret,
    (choleskyFrom n A fuel i ret).map (fun L => (true, L)) = MatHelp.choleskyFrom n A false fuel i ret
  | 0, _, _ => rfl
  | fuel + 1, i, ret => by
    simp only [choleskyFrom, MatHelp.choleskyFrom, Bool.false_eq_true, false_and, if_false]
    rw [show MatHelp.subLoop (A i i) 0 i (fun j => ret i j * ret i j) = subLoop (A i i) 0 i (fun j => ret i j * ret i j) from rfl]
    by_cases h : subLoop (A i i) 0 i (fun j => ret i j * ret i j) > 0
    · rw [if_neg (not_not.2 h), if_neg (not_not.2 h), choleskyFrom_eq n A fuel]
      rfl
    · rw [if_pos h, if_pos h]; rfl

theorem spdDetA_eq (n : Nat) (A : Mat ℝ) : spdDetA n A MatHelp.garbage = MatHelp.spdDetA n A := by
  rw [spdDetA, MatHelp.spdDetA, MatHelp.cholesky_L, ← choleskyFrom_eq, cholesky_L]
  cases choleskyFrom n A n 0 MatHelp.garbage <;> rfl

theorem sqrtDetAAT_eq (m n : Nat) (A : Mat ℝ) : sqrtDetAAT m n A MatHelp.garbage MatHelp.garbage = MatHelp.sqrtDetAAT m n A := by
  rw [sqrtDetAAT, MatHelp.sqrtDetAAT, spdDetA_eq]
  rfl

theorem spdInvA_eq (n : Nat) (A : Mat ℝ) : spdInvA n A MatHelp.garbage = MatHelp.spdInvA n A := by
  rw [spdInvA, MatHelp.spdInvA, MatHelp.cholesky_L, ← choleskyFrom_eq, cholesky_L]
  cases choleskyFrom n A n 0 MatHelp.garbage <;> rfl

theorem rightInvA_eq (m n : Nat) (A : Mat ℝ) : rightInvA m n A MatHelp.garbage MatHelp.garbage = MatHelp.rightInvA m n A := by
  rw [rightInvA, MatHelp.rightInvA, spdInvA_eq]
  by_cases h : n = 2 ∧ m = 2
  · rw [if_pos h, if_pos h]
    simp only [inv22, MatHelp.inv22]
    split <;> rfl
  · rw [if_neg h, if_neg h, show AAT_L n A MatHelp.garbage = MatHelp.AAT_L n A MatHelp.garbage from rfl]
    cases MatHelp.spdInvA m (MatHelp.AAT_L n A MatHelp.garbage) <;> rfl

theorem ofJacobian_eq (mydim cdim id : Nat) (origin : Vec ℝ) (jt : Mat ℝ) :
    (Affine.AffineGeometry.ofJacobian mydim cdim id origin jt).map (fun g => (g.integrationElement, g.jit)) =
      rightInvA mydim cdim jt MatHelp.garbage MatHelp.garbage := by
  rw [Affine.AffineGeometry.ofJacobian, rightInvA_eq]
  cases MatHelp.rightInvA mydim cdim jt <;> rfl

end Verif.FloatVol
