import Verif.RefGeom.Model
import Verif.MultiLinear.Model
import Verif.Affine.Model
import Verif.Cube.Model
import Verif.Float.Format

/-!
The functions of the library in an arbitrary arithmetic: the models of `RefGeom`, `Affine`, `Cube` and `MultiLinear` again,
with nothing assumed of the number type but its operations, in the order of the code.  They can be run with floating-point
numbers (`Fl φ`); with a field they are the earlier models (`…_eq`), so both are models of the same code.
-/

namespace Verif.Float

open Verif.Typ Verif.RefTopo Verif.RefGeom

section

variable {K : Type}

/-- referenceelementimplementation.hh:89-106 -/
def checkInside [Sub K] [Neg K] [LT K] [DecidableLT K] :
    (dim : Nat) → (topologyId : Nat) → (x : Nat → K) → (tolerance factor : K) → Bool
  | 0, _, _, _, _ => true
  | d + 1, topologyId, x, tolerance, factor =>
    let baseFactor := if implIsPrism topologyId (d + 1) 0 then factor else factor - x d
    if x d > -tolerance ∧ factor - x d > -tolerance then
      checkInside d (implBaseTopologyId topologyId (d + 1) 1) x tolerance baseFactor
    else
      false

/-- referenceelementimplementation.hh:522-527, `epsilon` is `std::numeric_limits< ctype >::epsilon()` -/
def refCheckInside [Sub K] [Neg K] [LT K] [DecidableLT K] [Mul K] [NatCast K] [One K] (dim topologyId : Nat) (x : Nat → K)
    (epsilon : K) : Bool :=
  checkInside dim topologyId x (((64 : Nat) : K) * epsilon) 1

/-- referenceelementimplementation.hh:113-144 -/
def referenceCorners [Zero K] [One K] : (dim : Nat) → (topologyId : Nat) → List (Nat → K)
  | 0, _ => [fun _ => 0]
  | d + 1, topologyId =>
    let corners := referenceCorners d (implBaseTopologyId topologyId (d + 1) 1)
    if implIsPrism topologyId (d + 1) 0 then
      corners ++ corners.map (fun c j => if j = d then 1 else c j)
    else
      corners ++ [fun j => if j = d then 1 else 0]

/-- referenceelementimplementation.hh:509-513 and 585-604 -/
def position [Zero K] [One K] [Add K] [Mul K] [Div K] [NatCast K] (dim topologyId i c : Nat) : Option (Nat → K) :=
  let corners : List (Nat → K) := referenceCorners dim topologyId
  if c = dim then corners[i]?
  else do
    let numCorners := refSize3 dim topologyId i c dim
    let cs ← (List.range numCorners).mapM fun j => do
      let k ← subEntity dim topologyId i c j dim
      corners[k]?
    return fun r => cs.foldl (fun acc v => acc + v r) 0 * (1 / (numCorners : K))

/-- multilineargeometry.hh:476-477, the members -/
structure MultiLinearGeometry (K : Type) where
  mydim : Nat
  cdim : Nat
  id : Nat
  corners_ : Nat → Nat → K
  tol : K

/-- multilineargeometry.hh:746-775 (dim > 0) and hh:777-788 (dim = 0) -/
def MultiLinearGeometry.globalS [Zero K] [One K] [Add K] [Sub K] [Mul K] [Div K] [Neg K] [LT K] [DecidableLT K]
    (g : MultiLinearGeometry K) :
    (add : Bool) → (dim : Nat) → (cit : Nat) → (df : K) → (x : Nat → K) → (rf : K) → (y : Nat → K) → Nat × (Nat → K)
  | add, 0, cit, _, _, rf, y =>
    (cit + 1, fun i => if add then y i + rf * g.corners_ cit i else rf * g.corners_ cit i)
  | add, d + 1, cit, df, x, rf, y =>
    let xn := df * x d
    let cxn := 1 - xn
    if implIsPrism g.id g.mydim (g.mydim - (d + 1)) then
      let (cit, y) := globalS g add d cit df x (rf * cxn) y
      globalS g true d cit df x (rf * xn) y
    else
      let (cit, y) :=
        if cxn > g.tol ∨ cxn < -g.tol then globalS g add d cit (df / cxn) x (rf * cxn) y
        else globalS g add d cit df x 0 y
      (cit + 1, fun i => y i + (rf * xn) * g.corners_ cit i)

/-- multilineargeometry.hh:290-298; `y` is not initialised and starts with the contents `y₀` of the memory -/
def MultiLinearGeometry.global [Zero K] [One K] [Add K] [Sub K] [Mul K] [Div K] [Neg K] [LT K] [DecidableLT K]
    (g : MultiLinearGeometry K) (y₀ : Nat → K) (local_ : Nat → K) : Nat → K :=
  (g.globalS false g.mydim 0 1 local_ 1 y₀).2

/-- affinegeometry.hh:154-159, with `umtv` of FieldMatrix -/
def affineGlobal [Add K] [Mul K] (mydim : Nat) (origin : Nat → K) (jt : Nat → Nat → K) (x : Nat → K) : Nat → K :=
  fun j => (List.range' 0 (mydim - 0)).foldl (fun y i => y + jt i j * x i) (origin j)

/-- affinegeometry.hh:115-122: the transposed Jacobian, from the corners -/
def affineJt [Sub K] (coordVector : Nat → Nat → K) : Nat → Nat → K :=
  fun i j => coordVector (i + 1) j - coordVector 0 j

/-- affinegeometry.hh:140-143: a corner of the geometry constructed from corners -/
def affineCorner [Zero K] [One K] [Add K] [Sub K] [Mul K] [Div K] [NatCast K] (mydim id : Nat) (coordVector : Nat → Nat → K) (i : Nat) :
    Option (Nat → K) :=
  (position mydim id i mydim).map (affineGlobal mydim (coordVector 0) (affineJt coordVector))

/-- axisalignedcubegeometry.hh:269-275, component `i` of the full-dimensional case -/
def cubeCorner (lower upper : Nat → K) (k : Nat) : Nat → K :=
  fun i => if k &&& (1 <<< i) ≠ 0 then upper i else lower i

/-- axisalignedcubegeometry.hh:170-186, component `i` of the full-dimensional case -/
def cubeGlobal [Add K] [Sub K] [Mul K] (lower upper x : Nat → K) : Nat → K :=
  fun i => lower i + x i * (upper i - lower i)

/-- axisalignedcubegeometry.hh:189-202, component `i` of the full-dimensional case -/
def cubeLocal [Sub K] [Div K] (lower upper y : Nat → K) : Nat → K :=
  fun i => (y i - lower i) / (upper i - lower i)

end

/-! ### With exact arithmetic these are the earlier models -/

section

variable {K : Type} [Field K]

theorem checkInside_eq [LinearOrder K] (d id : Nat) (x : Nat → K) (tol f : K) :
    checkInside d id x tol f = RefGeom.checkInside d id x tol f := by
  induction d generalizing id f with
  | zero => rfl
  | succ d ih => simp only [checkInside, RefGeom.checkInside, ih]

theorem refCheckInside_eq [LinearOrder K] (d id : Nat) (x : Nat → K) (eps : K) :
    refCheckInside d id x eps = RefGeom.refCheckInside d id x eps := by
  rw [refCheckInside, RefGeom.refCheckInside, checkInside_eq]
  norm_num

theorem referenceCorners_eq (d id : Nat) : referenceCorners (K := K) d id = RefGeom.referenceCorners d id := by
  induction d generalizing id with
  | zero => rfl
  | succ d ih =>
    simp only [referenceCorners, RefGeom.referenceCorners, ih]
    rfl

theorem position_eq (d id i c : Nat) : position (K := K) d id i c = RefGeom.position d id i c := by
  simp only [position, RefGeom.position, referenceCorners_eq]

theorem globalS_eq (g : MultiLinearGeometry ℝ) (add : Bool) (d cit : Nat) (df : ℝ) (x : Nat → ℝ) (rf : ℝ) (y : Nat → ℝ) :
    g.globalS add d cit df x rf y =
      MultiLinear.MultiLinearGeometry.globalS ⟨g.mydim, g.cdim, g.id, g.corners_, g.tol⟩ add d cit df x rf y := by
  induction d generalizing add cit df rf y with
  | zero => rfl
  | succ d ih =>
    simp only [MultiLinearGeometry.globalS, MultiLinear.MultiLinearGeometry.globalS, ih]
    rfl

theorem global_eq (g : MultiLinearGeometry ℝ) (x : Nat → ℝ) :
    g.global (MatHelp.garbage 0) x = MultiLinear.MultiLinearGeometry.global ⟨g.mydim, g.cdim, g.id, g.corners_, g.tol⟩ x := by
  rw [MultiLinearGeometry.global, MultiLinear.MultiLinearGeometry.global, globalS_eq]

theorem affineGlobal_eq (g : Affine.AffineGeometry) (x : Nat → ℝ) : affineGlobal g.mydim g.origin g.jt x = g.global x := rfl

theorem mapM_getElem {α ι : Type} (f : ι → Option α) : ∀ (l : List ι) (w : List α), l.mapM f = some w →
    w.length = l.length ∧ ∀ k : Nat, w[k]? = l[k]?.bind f
  | [], w, h => by cases h; simp
  | a :: l, w, h => by
    rw [List.mapM_cons] at h
    cases ha : f a with
    | none => rw [ha] at h; cases h
    | some v =>
      cases hl : l.mapM f with
      | none => rw [ha, hl] at h; cases h
      | some w' =>
        rw [ha, hl] at h
        cases h
        obtain ⟨h1, h2⟩ := mapM_getElem f l w' hl
        refine ⟨by simp [h1], fun k => ?_⟩
        cases k with
        | zero => simp [ha]
        | succ k => simpa using h2 k

theorem affineCorner_eq (mydim cdim id : Nat) (coordVector : List (Nat → ℝ)) (g : Affine.AffineGeometry)
    (h : Affine.AffineGeometry.ofCorners mydim cdim id coordVector = some g) (i : Nat) :
    affineCorner mydim id (fun k => coordVector.getD k fun _ => 0) i = g.corner i := by
  simp only [Affine.AffineGeometry.ofCorners, Option.bind_eq_bind, Option.bind_eq_some_iff] at h
  obtain ⟨o, ho, rows, hr, ⟨det, jit⟩, -, hg⟩ := h
  obtain rfl := Option.some.inj hg
  simp only [affineCorner, Affine.AffineGeometry.corner, position_eq]
  congr 1
  funext x
  rw [← affineGlobal_eq]
  funext j
  have h0 : coordVector.getD 0 (fun _ => 0) = o := by rw [List.getD_eq_getElem?_getD, ho]; rfl
  have hrow : ∀ i, i < mydim → rows.getD i (fun _ => 0) j = coordVector.getD (i + 1) (fun _ => 0) j - o j := by
    intro i hi
    obtain ⟨hlen, h1⟩ := mapM_getElem _ _ _ hr
    have h1 := h1 i
    rw [List.length_range] at hlen
    rw [List.getElem?_range hi, Option.bind_some] at h1
    cases hc : coordVector[i + 1]? with
    | none =>
      rw [hc, List.getElem?_eq_getElem (by omega)] at h1
      cases h1
    | some c =>
      rw [hc] at h1
      rw [List.getD_eq_getElem?_getD, h1, List.getD_eq_getElem?_getD, hc]
      rfl
  simp only [affineGlobal]
  rw [h0]
  refine List.foldl_ext _ _ _ fun y i hi => ?_
  rw [affineJt, h0, hrow i (by simp [List.mem_range'] at hi; omega)]

theorem foldl_setV (f : Nat → ℝ) (v : Nat → ℝ) (i : Nat) (l : List Nat) (h : i ∈ l) :
    l.foldl (fun r k => setV r k (f k)) v i = f i := by
  induction l generalizing v with
  | nil => cases h
  | cons a l ih =>
    rw [List.foldl_cons]
    by_cases hi : i ∈ l
    · exact ih _ hi
    · obtain rfl : i = a := by rcases List.mem_cons.1 h with h | h; exacts [h, absurd h hi]
      have : ∀ (w : Nat → ℝ), l.foldl (fun r k => setV r k (f k)) w i = w i := by
        clear ih h v
        induction l with
        | nil => intro w; rfl
        | cons b l ih' =>
          intro w
          rw [List.foldl_cons, ih' (fun h => hi (List.mem_cons_of_mem _ h))]
          have : i ≠ b := fun h => hi (by rw [h]; exact List.mem_cons_self)
          simp [setV, this]
      rw [this]
      simp [setV]

theorem cubeGlobal_eq (g : Cube.AxisAlignedCubeGeometry) (h : g.dim = g.coorddim) (x : Nat → ℝ) (i : Nat) (hi : i < g.coorddim) :
    cubeGlobal g.lower g.upper x i = g.global x i := by
  rw [Cube.AxisAlignedCubeGeometry.global, if_pos h,
    foldl_setV (fun i => g.lower i + x i * (g.upper i - g.lower i)) _ i _ (List.mem_range.2 hi)]
  rfl

theorem cubeCorner_eq (g : Cube.AxisAlignedCubeGeometry) (h : g.dim = g.coorddim) (k : Nat) (i : Nat) (hi : i < g.coorddim) :
    cubeCorner g.lower g.upper k i = g.corner k i := by
  rw [Cube.AxisAlignedCubeGeometry.corner, if_pos h,
    foldl_setV (fun i => if k &&& (1 <<< i) ≠ 0 then g.upper i else g.lower i) _ i _ (List.mem_range.2 hi)]
  rfl

theorem cubeLocal_eq (g : Cube.AxisAlignedCubeGeometry) (h : g.dim = g.coorddim) (y : Nat → ℝ) (i : Nat) (hi : i < g.coorddim) :
    cubeLocal g.lower g.upper y i = g.local_ y i := by
  rw [Cube.AxisAlignedCubeGeometry.local_, if_pos h,
    foldl_setV (fun i => (y i - g.lower i) / (g.upper i - g.lower i)) _ i _ (List.mem_range.2 (by omega))]
  rfl

end

end Verif.Float
