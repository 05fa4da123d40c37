import Verif.Float.VolumeModel
import Verif.MatHelp.Lemmas

/-!
Model of `MultiLinearGeometry::local` (dune/geometry/multilineargeometry.hh) and of the solver behind it
(dune/geometry/utility/defaultmatrixhelper.hh, "mh") in floating-point arithmetic.

The definitions are those of `Verif.MultiLinear` and `Verif.MatHelp` for any coordinate type with the operations used (`_eq`:
for real numbers they are the same).  `mem` is what the local matrices contain before they are written.
-/

namespace Verif.FloatNewton

open Verif.Typ Verif.Float Verif.RefGeom Verif.RefTopo Verif.FloatVol

section
variable {K : Type} [Zero K] [One K] [Add K] [Sub K] [Mul K] [Div K] [Neg K] [LT K] [DecidableLT K] [HasSqrt K] [HasAbs K] [NatCast K]

/-- dune-common `A.mv( x, y )` -/
def mv (n : Nat) (A : Mat K) (x : Nat → K) : Nat → K := fun i => addLoop 0 0 n fun j => A i j * x j

/-- mh:260-270 -/
def invLx (n : Nat) (L : Mat K) (x : Nat → K) : Nat → K :=
  (List.range n).foldl (fun x i => setV x i (subLoop (x i) 0 i (fun j => L i j * x j) / L i i)) x

/-- mh:273-283 -/
def invLTx (n : Nat) (L : Mat K) (x : Nat → K) : Nat → K :=
  (List.range n).reverse.foldl (fun x i => setV x i (subLoop (x i) (i + 1) n (fun j => L j i * x j) / L i i)) x

/-- mh:309-319 with `checkSingular`; `cholesky_L` answers `none` where the code returns `false` -/
def spdInvAx (n : Nat) (A : Mat K) (x : Nat → K) (mem : Mat K) : Bool × (Nat → K) :=
  match cholesky_L n A mem with
  | none => (false, x)
  | some L => (true, invLTx n L (invLx n L x))

/-- mh:443-453 -/
def xTRightInvA (m n : Nat) (A : Mat K) (x : Nat → K) (mem : Mat K) : Bool × (Nat → K) :=
  spdInvAx m (AAT_L n A mem) (mv n A x) mem

/-- dune-common `two_norm2` -/
def two_norm2 (n : Nat) (v : Nat → K) : K := addLoop 0 0 n fun i => v i * v i

/-- replace row `r` -/
def setRow (M : Mat K) (r : Nat) (v : Nat → K) : Mat K := fun i => if i = r then v else M i

/-- dune-common `y.axpy( a, x )` -/
def axpy (y : Nat → K) (a : K) (x : Nat → K) : Nat → K := fun i => y i + a * x i

variable (g : MultiLinearGeometry K)

/-- multilineargeometry.hh:791-891 (dim > 0) and hh:893-901 (dim = 0) -/
def jacobianTransposedS (mem : Mat K) : (add : Bool) → (dim : Nat) → (cit : Nat) → (df : K) → (x : Nat → K) → (rf : K) →
    (jt : Mat K) → Nat × Mat K
  | _, 0, cit, _, _, _, jt => (cit + 1, jt)
  | add, d + 1, cit, df, x, rf, jt =>
    let xn := df * x d
    let cxn := 1 - xn
    let cit2 := cit
    if implIsPrism g.id g.mydim (g.mydim - (d + 1)) then
      let (cit2, jt) := jacobianTransposedS mem add d cit2 df x (rf * cxn) jt
      let (_, jt) := jacobianTransposedS mem true d cit2 df x (rf * xn) jt
      let (cit, row) := g.globalS add d cit df x (-rf) (jt d)
      let (cit, row) := g.globalS true d cit df x rf row
      (cit, setRow jt d row)
    else
      let dfcxn := if cxn > g.tol ∨ cxn < -g.tol then df / cxn else 0
      let (cit, row) := g.globalS add d cit dfcxn x (-rf) (jt d)
      let jt := setRow jt d row
      let jt := setRow jt d (axpy (jt d) rf (g.corners_ cit))
      let cit := cit + 1
      if add then
        let (_, jt2) := jacobianTransposedS mem false d cit2 dfcxn x rf mem
        (cit, (List.range d).foldl (fun jt j =>
          let jt := setRow jt j (fun i => jt j i + jt2 j i)
          setRow jt d (axpy (jt d) (dfcxn * x j) (jt2 j))) jt)
      else
        let (_, jt) := jacobianTransposedS mem false d cit2 dfcxn x rf jt
        (cit, (List.range d).foldl (fun jt j => setRow jt d (axpy (jt d) (dfcxn * x j) (jt j))) jt)

/-- hh:377-385 -/
def jacobianTransposed (mem : Mat K) (local_ : Nat → K) : Mat K :=
  (jacobianTransposedS g mem false g.mydim 0 1 local_ 1 mem).2

/-- hh:905-932 (dim > 0) and hh:934-941 (dim = 0) -/
def affineS (mem : Mat K) : (dim : Nat) → (cit : Nat) → (jt : Mat K) → Bool × Nat × Mat K
  | 0, cit, jt => (true, cit + 1, jt)
  | d + 1, cit, jt =>
    let orgBottom := g.corners_ cit
    let (ok, cit, jt) := affineS mem d cit jt
    if !ok then (false, cit, jt)
    else
      let orgTop := g.corners_ cit
      if implIsPrism g.id g.mydim (g.mydim - (d + 1)) then
        let (ok, cit, jtTop) := affineS mem d cit mem
        if !ok then (false, cit, jt)
        else
          let norm := (List.range d).foldl (fun norm i => norm + two_norm2 g.cdim (fun j => jtTop i j - jt i j)) 0
          if ¬ (norm < g.tol) then (false, cit, jt)
          else (true, cit, setRow jt d (fun j => orgTop j - orgBottom j))
      else (true, cit + 1, setRow jt d (fun j => orgTop j - orgBottom j))

/-- hh:262-266 with 458-464 -/
def affine (mem : Mat K) : Bool := (affineS g mem g.mydim 0 mem).1

/-- the ways `local` ends: with a point, with the vector of `numeric_limits::max()` that signals a singular Jacobian, or with
a failed assertion -/
inductive LocalResult (K : Type) where
  | point (x : Nat → K)
  | singular
  | undefined

/-- hh:318-332, the loop; `none`: the loop has not ended after `fuel` passes -/
def newton (mem : Mat K) (affineMapping : Bool) (globalCoord : Nat → K) : (fuel : Nat) → (x : Nat → K) → Option (LocalResult K)
  | 0, _ => none
  | fuel + 1, x =>
    match xTRightInvA g.mydim g.cdim (jacobianTransposed g mem x) (fun i => g.global (mem 0) x i - globalCoord i) mem with
    | (false, _) => some .singular
    | (true, dx) =>
      let x : Nat → K := fun i => x i - dx i
      if affineMapping then some (.point x)
      else if two_norm2 g.mydim dx > g.tol then newton mem affineMapping globalCoord fuel x
      else some (.point x)

/-- hh:312-334 -/
def local_ (mem : Mat K) (fuel : Nat) (globalCoord : Nat → K) : Option (LocalResult K) :=
  match position (K := K) g.mydim g.id 0 0 with
  | none => some .undefined
  | some x => newton g mem (affine g mem) globalCoord fuel x

/-- hh:61 -/
def tolerance (epsilon : K) : K := ((16 : Nat) : K) * epsilon

end

/-! ### With exact arithmetic these are the earlier models -/

theorem invLx_eq (n : Nat) (L : Mat ℝ) (x : Nat → ℝ) : invLx n L x = MatHelp.invLx n L x := rfl
theorem invLTx_eq (n : Nat) (L : Mat ℝ) (x : Nat → ℝ) : invLTx n L x = MatHelp.invLTx n L x := rfl

theorem choleskyFrom_checked (n : Nat) (A : Mat ℝ) : ∀ fuel i ret,
    (∃ M, choleskyFrom n A fuel i ret = none ∧ MatHelp.choleskyFrom n A true fuel i ret = some (false, M)) ∨
    ∃ L, choleskyFrom n A fuel i ret = some L ∧ MatHelp.choleskyFrom n A true fuel i ret = some (true, L)
  | 0, _, ret => Or.inr ⟨ret, rfl, rfl⟩
  | fuel + 1, i, ret => by
    simp only [choleskyFrom, MatHelp.choleskyFrom, true_and]
    rw [show MatHelp.subLoop (A i i) 0 i (fun j => ret i j * ret i j) = subLoop (A i i) 0 i (fun j => ret i j * ret i j) from rfl]
    by_cases h : subLoop (A i i) 0 i (fun j => ret i j * ret i j) > 0
    · simp only [if_neg (not_not.2 h)]
      exact choleskyFrom_checked n A fuel (i + 1) _
    · simp only [if_pos h]
      exact Or.inl ⟨_, trivial, rfl⟩

theorem xTRightInvA_eq (m n : Nat) (A : Mat ℝ) (x : Nat → ℝ) :
    some (xTRightInvA m n A x MatHelp.garbage) = MatHelp.xTRightInvA m n A x := by
  rw [xTRightInvA, MatHelp.xTRightInvA, spdInvAx, MatHelp.spdInvAx, cholesky_L, MatHelp.cholesky_L]
  rw [show MatHelp.AAT_L n A MatHelp.garbage = AAT_L n A MatHelp.garbage from rfl]
  obtain ⟨M, h1, h2⟩ | ⟨L, h1, h2⟩ := choleskyFrom_checked m (AAT_L n A MatHelp.garbage) m 0 MatHelp.garbage
  · rw [h1, h2]; rfl
  · rw [h1, h2]; rfl

/-- the same geometry in the earlier model -/
def real (g : MultiLinearGeometry ℝ) : MultiLinear.MultiLinearGeometry := ⟨g.mydim, g.cdim, g.id, g.corners_, g.tol⟩

theorem jacobianTransposedS_eq (g : MultiLinearGeometry ℝ) (add : Bool) (d cit : Nat) (df : ℝ) (x : Nat → ℝ) (rf : ℝ) (jt : Mat ℝ) :
    jacobianTransposedS g MatHelp.garbage add d cit df x rf jt = (real g).jacobianTransposedS add d cit df x rf jt := by
  induction d generalizing add cit df rf jt with
  | zero => rfl
  | succ d ih =>
    simp only [jacobianTransposedS, MultiLinear.MultiLinearGeometry.jacobianTransposedS, ih, globalS_eq]
    rfl

theorem jacobianTransposed_eq (g : MultiLinearGeometry ℝ) (x : Nat → ℝ) :
    jacobianTransposed g MatHelp.garbage x = (real g).jacobianTransposed x := by
  rw [jacobianTransposed, MultiLinear.MultiLinearGeometry.jacobianTransposed, jacobianTransposedS_eq]
  rfl

theorem two_norm2_eq (n : Nat) (v : Nat → ℝ) : two_norm2 n v = MultiLinear.MultiLinearGeometry.two_norm2 n v := by
  rw [two_norm2, MultiLinear.MultiLinearGeometry.two_norm2, RefGeom.dot, show addLoop 0 0 n (fun i => v i * v i) =
    MatHelp.addLoop 0 0 n (fun i => v i * v i) from rfl, MatHelp.addLoop_eq]
  simp

theorem affineS_eq (g : MultiLinearGeometry ℝ) (d cit : Nat) (jt : Mat ℝ) :
    affineS g MatHelp.garbage d cit jt = (real g).affineS d cit jt := by
  induction d generalizing cit jt with
  | zero => rfl
  | succ d ih =>
    simp only [affineS, MultiLinear.MultiLinearGeometry.affineS, ih, not_lt, two_norm2_eq]
    rfl

theorem affine_eq (g : MultiLinearGeometry ℝ) : affine g MatHelp.garbage = (real g).affine := by
  rw [affine, MultiLinear.MultiLinearGeometry.affine, MultiLinear.MultiLinearGeometry.affineJ, affineS_eq]
  rfl

/-- the results of the earlier model -/
def LocalResult.real : LocalResult ℝ → Option MultiLinear.MultiLinearGeometry.LocalResult
  | .point x => some (.point x)
  | .singular => some .singular
  | .undefined => none

theorem newton_eq (g : MultiLinearGeometry ℝ) (a : Bool) (y : Nat → ℝ) (fuel : Nat) (x : Nat → ℝ) :
    (newton g MatHelp.garbage a y fuel x).map LocalResult.real = (real g).newton a y fuel x := by
  induction fuel generalizing x with
  | zero => rfl
  | succ fuel ih =>
    rw [newton, MultiLinear.MultiLinearGeometry.newton]
    have e : MatHelp.xTRightInvA (real g).mydim (real g).cdim ((real g).jacobianTransposed x)
        (fun i => (real g).global x i - y i) =
        some (xTRightInvA g.mydim g.cdim (jacobianTransposed g MatHelp.garbage x) (fun i => g.global (MatHelp.garbage 0) x i - y i)
          MatHelp.garbage) := by
      rw [xTRightInvA_eq, jacobianTransposed_eq, global_eq]
      rfl
    rw [e]
    rcases xTRightInvA g.mydim g.cdim (jacobianTransposed g MatHelp.garbage x) (fun i => g.global (MatHelp.garbage 0) x i - y i)
          MatHelp.garbage with ⟨b, dx⟩
    cases b with
    | false => rfl
    | true =>
      simp only
      cases a with
      | true => rfl
      | false =>
        simp only [Bool.false_eq_true, if_false]
        rw [two_norm2_eq]
        by_cases h : MultiLinear.MultiLinearGeometry.two_norm2 g.mydim dx > g.tol
        · rw [if_pos h, ih]
          exact (if_pos h).symm
        · rw [if_neg h]
          exact (if_neg h).symm

theorem local_eq (g : MultiLinearGeometry ℝ) (fuel : Nat) (y : Nat → ℝ) :
    (local_ g MatHelp.garbage fuel y).map LocalResult.real = (real g).local_ fuel y := by
  rw [local_, MultiLinear.MultiLinearGeometry.local_, position_eq]
  show _ = match RefGeom.position g.mydim g.id 0 0 with
    | none => some none
    | some x => (real g).newton (real g).affine y fuel x
  cases RefGeom.position (K := ℝ) g.mydim g.id 0 0 with
  | none => rfl
  | some x => simp only [newton_eq, affine_eq]

end Verif.FloatNewton
