import Verif.Float.NewtonModel
import Verif.GaussNewton.Model
import Verif.Lfe.Model

/-!
Model of `Impl::gaussNewton` (dune/geometry/utility/algorithms.hh, "hh") and of `local` of `MappedGeometry`
(dune/geometry/mappedgeometry.hh) and `LocalFiniteElementGeometry` (dune/geometry/localfiniteelementgeometry.hh, "lfe") in
floating-point arithmetic.

The definitions are those of `Verif.GaussNewton` and `Verif.Lfe` for any coordinate type with the operations used (`_eq`: for real
numbers they are the same).  `mem` is what the local matrices contain before they are written.
-/

namespace Verif.FloatGauss

open Verif.Typ Verif.Float Verif.RefGeom Verif.RefTopo Verif.FloatVol Verif.FloatNewton Verif.GaussNewton HasSqrt

/-- hh:23-37; the counters are `int` -/
structure Options (K : Type) where
  maxIt : Int
  absTol : K
  maxInnerIt : Int
  theta : K

section
variable {K : Type} [Zero K] [One K] [Add K] [Sub K] [Mul K] [Div K] [Neg K] [LT K] [DecidableLT K] [HasSqrt K] [HasAbs K] [NatCast K]

/-- hh:26-36, the default member initialisers; `epsilon` is `numeric_limits<R>::epsilon()` -/
def Options.default (epsilon half : K) : Options K := ⟨100, sqrt epsilon, 10, half⟩

/-- dune-common `FieldVector::two_norm` -/
def two_norm (n : Nat) (v : Nat → K) : K := sqrt (two_norm2 n v)

section
variable (m n : Nat) (f : (Nat → K) → Nat → K) (df : (Nat → K) → Mat K) (y : Nat → K) (opts : Options K) (mem : Mat K)

/-- hh:85-94, the inner loop: `fuel` iterations are left, the result is `x`, `dy`, `resNorm` at its end -/
def lineSearch (x0 dx : Nat → K) (resNorm0 : K) : (fuel : Nat) → (alpha : K) → (x dy : Nat → K) → (resNorm : K) →
    (Nat → K) × (Nat → K) × K
  | 0, _, x, dy, resNorm => (x, dy, resNorm)
  | fuel + 1, alpha, _, _, _ =>
    let x : Nat → K := fun i => x0 i - alpha * dx i
    let dy : Nat → K := fun i => f x i - y i
    let resNorm := two_norm n dy
    if resNorm < resNorm0 then (x, dy, resNorm)
    else lineSearch x0 dx resNorm0 fuel (alpha * opts.theta) x dy resNorm

/-- hh:74-112, the outer loop with `fuel` iterations left, and the code after it.  Result: return code and `x0`. -/
def loop : (fuel : Nat) → (x x0 dy : Nat → K) → (resNorm0 resNorm : K) → Code × (Nat → K)
  | 0, _, x0, _, _, resNorm => if ¬ resNorm < opts.absTol then (.toleranceNotReached, x0) else (.ok, x0)
  | fuel + 1, x, x0, dy, resNorm0, resNorm =>
    match xTRightInvA m n (df x) dy mem with
    | (false, _) => (.jacobianNotInvertible, x0)
    | (true, dx) =>
      let (x, dy, resNorm) := lineSearch n f y opts x0 dx resNorm0 opts.maxInnerIt.toNat 1 x dy resNorm
      if ¬ resNorm < resNorm0 then (.stagnation, x0)
      else if resNorm < opts.absTol then (.ok, x)
      else loop fuel x x dy resNorm resNorm

/-- hh:62-113 -/
def gaussNewton (x0 : Nat → K) : Code × (Nat → K) :=
  loop m n f df y opts mem opts.maxIt.toNat x0 x0 (fun i => f x0 i - y i) (two_norm n fun i => f x0 i - y i) 0

/-- mappedgeometry.hh:197-213 and lfe:232-248; `id` is the topology of the reference element, an exception carries the error code,
`none`: `position` fails -/
def local_ (id : Nat) : Option (Except Code (Nat → K)) :=
  (position (K := K) m id 0 0).map fun x =>
    match gaussNewton m n f df y opts mem x with
    | (err, x) => if err ≠ .ok then .error err else .ok x

end

/-- lfe:422-432, the members that `global` and `local` use; a basis consists of its values and gradients (lfe:205, 310) -/
structure LFEGeometry (K : Type) where
  mydim : Nat
  cdim : Nat
  id : Nat
  evaluateFunction : (Nat → K) → List K
  evaluateJacobian : (Nat → K) → List (Nat → K)
  vertices : List (Nat → K)

namespace LFEGeometry
variable (g : LFEGeometry K)

/-- lfe:202-213; the assertion on the number of values is a precondition -/
def global (x : Nat → K) : Nat → K :=
  (List.zip (g.evaluateFunction x) g.vertices).foldl (fun out p => fun j => out j + p.1 * p.2 j) fun _ => 0

/-- lfe:327-330 with lfe:307-320; the assertion on the number of gradients is a precondition -/
def jacobianTransposed (x : Nat → K) : Mat K :=
  (List.zip (g.evaluateJacobian x) g.vertices).foldl (fun out p => fun k j => out k j + p.1 k * p.2 j) fun _ _ => 0

/-- lfe:232-248 -/
def local_ (y : Nat → K) (opts : Options K) (mem : Mat K) : Option (Except Code (Nat → K)) :=
  FloatGauss.local_ g.mydim g.cdim g.global g.jacobianTransposed y opts mem g.id

end LFEGeometry

/-- test/localfiniteelements.hh:43-53, the linear shape functions -/
def p1Function (dim : Nat) (x : Nat → K) : List K := (List.range dim).foldl (fun o i => o - x i) 1 :: (List.range dim).map x

/-- test/localfiniteelements.hh:56-67, their gradients -/
def p1Jacobian (dim : Nat) (_ : Nat → K) : List (Nat → K) :=
  (fun _ => -1) :: (List.range dim).map fun i => fun j => if i = j then 1 else 0

/-- a simplex with given corners -/
def p1 (m n : Nat) (vertices : List (Nat → K)) : LFEGeometry K := ⟨m, n, 0, p1Function m, p1Jacobian m, vertices⟩

end

/-! ### With exact arithmetic these are the earlier models -/

theorem vec_ext' {n : Nat} (r : Fin n → ℝ) : MatHelp.vec n (RefGeom.ext r) = r := by
  funext i
  simp [MatHelp.vec, RefGeom.ext]

theorem two_norm_eq {n : Nat} (v : Fin n → ℝ) (w : Nat → ℝ) (h : ∀ i : Fin n, w i = v i) : two_norm n w = GaussNewton.two_norm v := by
  rw [two_norm, two_norm2, GaussNewton.two_norm, show addLoop 0 0 n (fun i => w i * w i) = MatHelp.addLoop 0 0 n (fun i => w i * w i) from rfl,
    MatHelp.addLoop_eq]
  show Real.sqrt _ = _
  congr 1
  rw [_root_.zero_add, Nat.Ico_zero_eq_range, Finset.sum_range]
  exact Finset.sum_congr rfl fun i _ => by rw [h i]

/-- the options of the earlier model -/
def Options.real (o : Options ℝ) : GaussNewton.Options := ⟨o.maxIt, o.absTol, o.maxInnerIt, o.theta⟩

section
variable {m n : Nat} (f : (Fin m → ℝ) → (Fin n → ℝ)) (df : (Fin m → ℝ) → Mat ℝ) (y : Fin n → ℝ) (opts : Options ℝ)

/-- a function of the earlier model for vectors of the new one -/
def lift (x : Nat → ℝ) : Nat → ℝ := RefGeom.ext (f (MatHelp.vec m x))

theorem ext_sub (a b : Fin n → ℝ) : (fun i => RefGeom.ext a i - RefGeom.ext b i) = RefGeom.ext (a - b) := by
  funext i
  simp only [RefGeom.ext]
  split_ifs with h
  · rfl
  · exact _root_.sub_self 0

theorem lineSearch_eq (x0 dx : Nat → ℝ) (r0 : ℝ) (fuel : Nat) : ∀ (alpha : ℝ) (x : Nat → ℝ) (dy : Fin n → ℝ) (r : ℝ),
    let s := lineSearch n (lift f) (RefGeom.ext y) opts x0 dx r0 fuel alpha x (RefGeom.ext dy) r
    let t := GaussNewton.lineSearch f y opts.real (MatHelp.vec m x0) (MatHelp.vec m dx) r0 fuel alpha (MatHelp.vec m x) dy r
    MatHelp.vec m s.1 = t.1 ∧ s.2.1 = RefGeom.ext t.2.1 ∧ s.2.2 = t.2.2 := by
  induction fuel with
  | zero => intro alpha x dy r; exact ⟨rfl, rfl, rfl⟩
  | succ fuel ih =>
    intro alpha x dy r
    have e1 : MatHelp.vec m (fun i => x0 i - alpha * dx i) = MatHelp.vec m x0 - alpha • MatHelp.vec m dx := rfl
    have e2 : (fun i => lift f (fun i => x0 i - alpha * dx i) i - RefGeom.ext y i) =
        RefGeom.ext (f (MatHelp.vec m x0 - alpha • MatHelp.vec m dx) - y) := by
      rw [← e1]; exact ext_sub _ _
    have e3 : two_norm n (fun i => lift f (fun i => x0 i - alpha * dx i) i - RefGeom.ext y i) =
        GaussNewton.two_norm (f (MatHelp.vec m x0 - alpha • MatHelp.vec m dx) - y) := by
      rw [e2]
      exact two_norm_eq _ _ fun i => congrFun (vec_ext' _) i
    simp only [lineSearch, GaussNewton.lineSearch]
    rw [e3]
    split_ifs with h
    · exact ⟨e1, e2, rfl⟩
    · rw [e2]
      have := ih (alpha * opts.theta) (fun i => x0 i - alpha * dx i) (f (MatHelp.vec m x0 - alpha • MatHelp.vec m dx) - y)
        (GaussNewton.two_norm (f (MatHelp.vec m x0 - alpha • MatHelp.vec m dx) - y))
      rwa [e1] at this

theorem loop_eq (fuel : Nat) : ∀ (x x0 : Nat → ℝ) (dy : Fin n → ℝ) (r0 r : ℝ),
    let s := loop m n (lift f) (fun x => df (MatHelp.vec m x)) (RefGeom.ext y) opts MatHelp.garbage fuel x x0 (RefGeom.ext dy) r0 r
    GaussNewton.loop f df y opts.real fuel (MatHelp.vec m x) (MatHelp.vec m x0) dy r0 r = some (s.1, MatHelp.vec m s.2) := by
  induction fuel with
  | zero =>
    intro x x0 dy r0 r
    simp only [loop, GaussNewton.loop, Options.real]
    by_cases h : r < opts.absTol
    · simp only [h, not_true_eq_false, if_false]
    · simp only [h, not_false_eq_true, if_true]
  | succ fuel ih =>
    intro x x0 dy r0 r
    simp only [loop, GaussNewton.loop]
    rw [← xTRightInvA_eq]
    rcases xTRightInvA m n (df (MatHelp.vec m x)) (RefGeom.ext dy) MatHelp.garbage with ⟨b, dx⟩
    cases b with
    | false => rfl
    | true =>
      have h := lineSearch_eq f y opts x0 dx r0 opts.maxInnerIt.toNat 1 x dy r
      simp only at h ⊢
      rw [show opts.real.maxInnerIt = opts.maxInnerIt from rfl, show opts.real.absTol = opts.absTol from rfl]
      generalize lineSearch n (lift f) (RefGeom.ext y) opts x0 dx r0 opts.maxInnerIt.toNat 1 x (RefGeom.ext dy) r = s at h ⊢
      generalize GaussNewton.lineSearch f y opts.real (MatHelp.vec m x0) (MatHelp.vec m dx) r0 opts.maxInnerIt.toNat 1 (MatHelp.vec m x) dy r = t at h ⊢
      obtain ⟨sx, sd, sr⟩ := s
      obtain ⟨tx, td, tr⟩ := t
      simp only at h
      obtain ⟨rfl, rfl, rfl⟩ := h
      simp only
      by_cases h1 : sr < r0
      · by_cases h2 : sr < opts.absTol
        · simp only [h1, h2, not_true_eq_false, if_false, if_true]
        · simp only [h1, h2, not_true_eq_false, if_false]
          exact ih sx sx td sr sr
      · simp only [h1, not_false_eq_true, if_true]

theorem gaussNewton_eq (x0 : Nat → ℝ) :
    let s := gaussNewton m n (lift f) (fun x => df (MatHelp.vec m x)) (RefGeom.ext y) opts MatHelp.garbage x0
    GaussNewton.gaussNewton f df y opts.real (MatHelp.vec m x0) = some (s.1, MatHelp.vec m s.2) := by
  have e : (fun i => lift f x0 i - RefGeom.ext y i) = RefGeom.ext (f (MatHelp.vec m x0) - y) := ext_sub _ _
  rw [gaussNewton, GaussNewton.gaussNewton, e, two_norm_eq (f (MatHelp.vec m x0) - y) _ fun i => congrFun (vec_ext' _) i]
  exact loop_eq f df y opts _ _ _ _ _ _

end

/-- the same geometry in the earlier model -/
def LFEGeometry.real {m n : Nat} (id : Nat) (fe : Lfe.LocalFE m) (vertices : List (Fin n → ℝ)) : LFEGeometry ℝ :=
  ⟨m, n, id, fun x => fe.evaluateFunction (MatHelp.vec m x), fun x => (fe.evaluateJacobian (MatHelp.vec m x)).map RefGeom.ext,
    vertices.map RefGeom.ext⟩

theorem lfe_global_eq {m n : Nat} (id : Nat) (fe : Lfe.LocalFE m) (vertices : List (Fin n → ℝ)) (a : Option Bool) (tol : ℝ) (x : Nat → ℝ) {r : Fin n → ℝ}
    (h : (Lfe.LFEGeometry.mk id fe vertices a tol).global (MatHelp.vec m x) = some r) :
    (LFEGeometry.real id fe vertices).global x = RefGeom.ext r := by
  rw [Lfe.LFEGeometry.global] at h
  simp only at h
  split_ifs at h
  obtain rfl := Option.some.inj h
  rw [LFEGeometry.global]
  simp only [LFEGeometry.real]
  have key : ∀ (l : List ℝ) (v : List (Fin n → ℝ)) (o : Fin n → ℝ),
      (List.zip l (v.map RefGeom.ext)).foldl (fun out p => fun j => out j + p.1 * p.2 j) (RefGeom.ext o) =
        RefGeom.ext ((List.zip l v).foldl (fun out p => fun j => out j + p.1 * p.2 j) o) := by
    intro l
    induction l with
    | nil => intro v o; rfl
    | cons b l ih =>
      intro v o
      cases v with
      | nil => rfl
      | cons w v =>
        simp only [List.map_cons, List.zip_cons_cons, List.foldl_cons]
        rw [← ih]
        congr 1
        funext j
        simp only [RefGeom.ext]
        split_ifs <;> simp
  have e : (fun _ => (0:ℝ)) = RefGeom.ext (fun _ : Fin n => (0:ℝ)) := by
    funext j
    simp only [RefGeom.ext]
    split_ifs <;> rfl
  rw [e]
  exact key _ _ _

theorem lfe_jacobian_eq {m n : Nat} (id : Nat) (fe : Lfe.LocalFE m) (vertices : List (Fin n → ℝ)) (a : Option Bool) (tol : ℝ) (x : Nat → ℝ) {J : Mat ℝ}
    (h : (Lfe.LFEGeometry.mk id fe vertices a tol).jacobianTransposed (MatHelp.vec m x) = some J) :
    (LFEGeometry.real id fe vertices).jacobianTransposed x = J := by
  rw [Lfe.LFEGeometry.jacobianTransposed, Lfe.LFEGeometry.jacobian] at h
  simp only at h
  split_ifs at h
  swap
  · cases h
  obtain rfl := Option.some.inj h
  rw [LFEGeometry.jacobianTransposed]
  simp only [LFEGeometry.real]
  have key : ∀ (l : List (Fin m → ℝ)) (v : List (Fin n → ℝ)) (o : Mat ℝ),
      (List.zip (l.map RefGeom.ext) (v.map RefGeom.ext)).foldl (fun out p => fun k j => out k j + p.1 k * p.2 j) (fun k j => o j k) =
        fun k j => (List.zip l v).foldl (fun out p => fun j k => out j k + if h : j < n ∧ k < m then p.1 ⟨k, h.2⟩ * p.2 ⟨j, h.1⟩ else 0) o j k := by
    intro l
    induction l with
    | nil => intro v o; rfl
    | cons b l ih =>
      intro v o
      cases v with
      | nil => rfl
      | cons w v =>
        simp only [List.map_cons, List.zip_cons_cons, List.foldl_cons]
        rw [← ih]
        congr 1
        funext k j
        simp only [RefGeom.ext]
        by_cases h1 : k < m <;> by_cases h2 : j < n <;> simp [h1, h2]
  exact key _ _ fun _ _ => 0

end Verif.FloatGauss
