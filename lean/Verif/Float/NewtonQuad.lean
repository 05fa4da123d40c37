import Verif.Float.NewtonEval

/-! `MultiLinearGeometry::local` for quadrilaterals in the plane, written out. -/

namespace Verif.FloatNewton

open Verif.Typ Verif.Float Verif.RefGeom Verif.RefTopo Verif.FloatVol

section
variable {K : Type} [Zero K] [One K] [Neg K] [Add K] [Sub K] [Mul K] [Div K] [NatCast K] [LT K] [DecidableLT K] [HasSqrt K] [HasAbs K]

/-- the quadrilateral with the given corners -/
def quad (c : Nat → Nat → K) (tol : K) : MultiLinearGeometry K := ⟨2, 2, 3, c, tol⟩

variable (c : Nat → Nat → K) (tol : K) (mem : Mat K) (x : Nat → K)

/-- component `i` of the image of `x` -/
def qGlobal (i : Nat) : K :=
  1 * (1 - 1 * x 1) * (1 - 1 * x 0) * c 0 i + 1 * (1 - 1 * x 1) * (1 * x 0) * c 1 i +
    1 * (1 * x 1) * (1 - 1 * x 0) * c 2 i + 1 * (1 * x 1) * (1 * x 0) * c 3 i

/-- component `i` of the derivative in direction `0` -/
def qRow0 (i : Nat) : K :=
  -(1 * (1 - 1 * x 1)) * c 0 i + 1 * (1 - 1 * x 1) * c 1 i + -(1 * (1 * x 1)) * c 2 i + 1 * (1 * x 1) * c 3 i

/-- component `i` of the derivative in direction `1` -/
def qRow1 (i : Nat) : K :=
  -1 * (1 - 1 * x 0) * c 0 i + -1 * (1 * x 0) * c 1 i + 1 * (1 - 1 * x 0) * c 2 i + 1 * (1 * x 0) * c 3 i

theorem prism0 : implIsPrism 3 2 0 = true := by decide
theorem prism1 : implIsPrism 3 2 1 = true := by decide

/-- the quadrilateral in `n` dimensions with the given corners -/
def quadN (n : Nat) (c : Nat → Nat → K) (tol : K) : MultiLinearGeometry K := ⟨2, n, 3, c, tol⟩

theorem quadN_global (n : Nat) (y : Nat → K) (i : Nat) : (quadN n c tol).global y x i = qGlobal c x i := by
  simp only [quadN, MultiLinearGeometry.global, MultiLinearGeometry.globalS, Nat.zero_add, Nat.reduceAdd, Nat.reduceSub, prism0, prism1,
    if_true, Bool.false_eq_true, if_false]
  rfl

theorem quadN_globalS1 (n : Nat) (add : Bool) (cit : Nat) (df rf : K) (y : Nat → K) :
    (quadN n c tol).globalS add 1 cit df x rf y = (cit + 1 + 1, fun i =>
      (if add then y i + rf * (1 - df * x 0) * c cit i else rf * (1 - df * x 0) * c cit i) + rf * (df * x 0) * c (cit + 1) i) := by
  simp only [MultiLinearGeometry.globalS]
  rw [if_pos (show implIsPrism (quadN n c tol).id (quadN n c tol).mydim ((quadN n c tol).mydim - (0 + 1)) = true from prism1)]
  rfl

theorem quadN_jtS1 (n : Nat) (add : Bool) (cit : Nat) (df rf : K) (jt : Mat K) :
    jacobianTransposedS (quadN n c tol) mem add 1 cit df x rf jt = (cit + 1 + 1, setRow jt 0 fun i =>
      (if add then jt 0 i + -rf * c cit i else -rf * c cit i) + rf * c (cit + 1) i) := by
  simp only [jacobianTransposedS, MultiLinearGeometry.globalS]
  rw [if_pos (show implIsPrism (quadN n c tol).id (quadN n c tol).mydim ((quadN n c tol).mydim - (0 + 1)) = true from prism1)]
  rfl

theorem quadN_jt (n : Nat) : jacobianTransposed (quadN n c tol) mem x =
    setRow (setRow (setRow mem 0 fun i => -(1 * (1 - 1 * x 1)) * c 0 i + 1 * (1 - 1 * x 1) * c 1 i) 0 (qRow0 c x)) 1 (qRow1 c x) := by
  simp only [jacobianTransposed]
  rw [show (quadN n c tol).mydim = 1 + 1 from rfl, jacobianTransposedS]
  simp only [quadN_jtS1, quadN_globalS1]
  rw [if_pos (show implIsPrism (quadN n c tol).id (quadN n c tol).mydim ((quadN n c tol).mydim - (1 + 1)) = true from prism0)]
  simp only [setRow, if_true, Bool.false_eq_true, if_false]
  rfl

theorem quadN_jt0 (n : Nat) (i : Nat) : jacobianTransposed (quadN n c tol) mem x 0 i = qRow0 c x i := by
  rw [quadN_jt]
  simp only [setRow, zero_ne_one, if_false, if_true]

theorem quadN_jt1 (n : Nat) (i : Nat) : jacobianTransposed (quadN n c tol) mem x 1 i = qRow1 c x i := by
  rw [quadN_jt]
  simp only [setRow, if_true]

theorem quad_global (y : Nat → K) (i : Nat) : (quad c tol).global y x i = qGlobal c x i := quadN_global c tol x 2 y i

theorem quad_jt0 (i : Nat) : jacobianTransposed (quad c tol) mem x 0 i = qRow0 c x i := quadN_jt0 c tol mem x 2 i

theorem quad_jt1 (i : Nat) : jacobianTransposed (quad c tol) mem x 1 i = qRow1 c x i := quadN_jt1 c tol mem x 2 i

/-- the solution of the normal equations, if the matrix is regular -/
def solve2 (A : Mat K) (d : Nat → K) : Option (K × K) :=
  let a00 := A 0 0 * A 0 0 + A 0 1 * A 0 1
  let a10 := A 1 0 * A 0 0 + A 1 1 * A 0 1
  let a11 := A 1 0 * A 1 0 + A 1 1 * A 1 1
  let b0 := 0 + A 0 0 * d 0 + A 0 1 * d 1
  let b1 := 0 + A 1 0 * d 0 + A 1 1 * d 1
  if a00 > 0 then
    let l00 := HasSqrt.sqrt a00
    let l10 := 1 / l00 * a10
    let e := a11 - l10 * l10
    if e > 0 then
      let l11 := HasSqrt.sqrt e
      let z0 := b0 / l00
      let z1 := (b1 - l10 * z0) / l11
      let x1 := z1 / l11
      some ((z0 - l10 * x1) / l00, x1)
    else none
  else none

theorem solve2_none (A : Mat K) (d : Nat → K) (h : solve2 A d = none) : (xTRightInvA 2 2 A d mem).1 = false := by
  simp only [xTRightInvA, spdInvAx, cholesky_L, choleskyFrom]
  simp only [solve2] at h
  by_cases h1 : A 0 0 * A 0 0 + A 0 1 * A 0 1 > 0
  · rw [if_pos h1] at h
    rw [if_neg (show ¬ ¬ (subLoop (AAT_L 2 A mem 0 0) 0 0 fun j => mem 0 j * mem 0 j) > 0 from not_not.2 h1)]
    split_ifs at h with h2
    rw [if_pos]
    exact h2
  · rw [if_pos (show ¬ (subLoop (AAT_L 2 A mem 0 0) 0 0 fun j => mem 0 j * mem 0 j) > 0 from h1)]

theorem solve2_some (A : Mat K) (d : Nat → K) (r : K × K) (h : solve2 A d = some r) :
    (xTRightInvA 2 2 A d mem).1 = true ∧ (xTRightInvA 2 2 A d mem).2 0 = r.1 ∧ (xTRightInvA 2 2 A d mem).2 1 = r.2 := by
  simp only [xTRightInvA, spdInvAx, cholesky_L, choleskyFrom]
  simp only [solve2] at h
  split_ifs at h with h1 h2
  rw [if_neg (show ¬ ¬ (subLoop (AAT_L 2 A mem 0 0) 0 0 fun j => mem 0 j * mem 0 j) > 0 from not_not.2 h1), if_neg]
  · cases h
    exact ⟨rfl, rfl, rfl⟩
  · exact not_not.2 h2

/-- the Jacobian and the residual of a pass -/
def qJ : Mat K := fun r i => if r = 0 then qRow0 c x i else qRow1 c x i

/-- one pass of the loop: the new point, and whether the loop goes on -/
def pass (y : Nat → K) : Option ((K × K) × Bool) :=
  (solve2 (qJ c x) (fun i => qGlobal c x i - y i)).map fun d =>
    ((x 0 - d.1, x 1 - d.2), decide (tol < 0 + d.1 * d.1 + d.2 * d.2))

theorem solve2_congr {A B : Mat K} (d d' : Nat → K) (h : ∀ i j, i < 2 → j < 2 → A i j = B i j) (hd : ∀ i, i < 2 → d i = d' i) :
    solve2 A d = solve2 B d' := by
  simp only [solve2, h 0 0 (by omega) (by omega), h 0 1 (by omega) (by omega), h 1 0 (by omega) (by omega), h 1 1 (by omega) (by omega),
    hd 0 (by omega), hd 1 (by omega)]

theorem pass_solve (y : Nat → K) : solve2 (jacobianTransposed (quad c tol) mem x) (fun i => (quad c tol).global (mem 0) x i - y i) =
    solve2 (qJ c x) (fun i => qGlobal c x i - y i) := by
  refine solve2_congr _ _ (fun r i hr _ => ?_) fun i _ => by rw [quad_global]
  obtain rfl | rfl : r = 0 ∨ r = 1 := by omega
  · rw [quad_jt0]; rfl
  · rw [quad_jt1]; rfl

theorem newton_pass_none (y : Nat → K) (fuel : Nat) (a : Bool) (h : pass c tol x y = none) :
    newton (quad c tol) mem a y (fuel + 1) x = some .singular := by
  rw [pass, Option.map_eq_none_iff, ← pass_solve c tol mem] at h
  have h := solve2_none mem _ _ h
  rw [newton, show (quad c tol).mydim = 2 from rfl, show (quad c tol).cdim = 2 from rfl]
  generalize xTRightInvA 2 2 (jacobianTransposed (quad c tol) mem x) (fun i => (quad c tol).global (mem 0) x i - y i) mem = s at h ⊢
  obtain ⟨b, dx⟩ := s
  obtain rfl : b = false := h
  rfl

theorem newton_pass (y : Nat → K) (p : (K × K) × Bool) (h : pass c tol x y = some p) :
    ∃ x', x' 0 = p.1.1 ∧ x' 1 = p.1.2 ∧ ∀ fuel,
      newton (quad c tol) mem false y (fuel + 1) x = if p.2 then newton (quad c tol) mem false y fuel x' else some (.point x') := by
  rw [pass, Option.map_eq_some_iff] at h
  obtain ⟨d, hd, rfl⟩ := h
  rw [← pass_solve c tol mem] at hd
  have h := solve2_some mem _ _ d hd
  have e : ∀ fuel, newton (quad c tol) mem false y (fuel + 1) x =
    match xTRightInvA 2 2 (jacobianTransposed (quad c tol) mem x) (fun i => (quad c tol).global (mem 0) x i - y i) mem with
    | (false, _) => some .singular
    | (true, dx) => if two_norm2 2 dx > tol then newton (quad c tol) mem false y fuel (fun i => x i - dx i) else some (.point fun i => x i - dx i) :=
    fun fuel => by rw [newton]; rfl
  simp only [e]
  generalize xTRightInvA 2 2 (jacobianTransposed (quad c tol) mem x) (fun i => (quad c tol).global (mem 0) x i - y i) mem = s at h ⊢
  obtain ⟨b, dx⟩ := s
  obtain ⟨h1, h2, h3⟩ := h
  obtain rfl : b = true := h1
  refine ⟨fun i => x i - dx i, congrArg _ h2, congrArg _ h3, fun fuel => ?_⟩
  simp only at h2 h3
  have hn : two_norm2 2 dx = 0 + d.1 * d.1 + d.2 * d.2 := by rw [← h2, ← h3]; rfl
  simp only [hn, decide_eq_true_eq, gt_iff_lt]

theorem pass_congr {x x' : Nat → K} (y : Nat → K) (h0 : x 0 = x' 0) (h1 : x 1 = x' 1) : pass c tol x y = pass c tol x' y := by
  have e1 : qJ c x = qJ c x' := by
    funext r i
    simp only [qJ, qRow0, qRow1, h0, h1]
  have e2 : qGlobal c x = qGlobal c x' := by
    funext i
    simp only [qGlobal, h0, h1]
  simp only [pass, e1, e2, h0, h1]

/-- two points that are mapped to each other: the loop does not end -/
theorem newton_cycle (y a b : Nat → K) (ha : pass c tol a y = some ((b 0, b 1), true)) (hb : pass c tol b y = some ((a 0, a 1), true))
    (fuel : Nat) : ∀ x, (x 0 = a 0 ∧ x 1 = a 1 ∨ x 0 = b 0 ∧ x 1 = b 1) → newton (quad c tol) mem false y fuel x = none := by
  induction fuel with
  | zero => intro x _; rfl
  | succ fuel ih =>
    intro x hx
    rcases hx with ⟨h0, h1⟩ | ⟨h0, h1⟩
    · obtain ⟨x', e0, e1, e2⟩ := newton_pass c tol mem x y _ ((pass_congr c tol y h0 h1).trans ha)
      rw [e2]
      exact ih x' (Or.inr ⟨e0, e1⟩)
    · obtain ⟨x', e0, e1, e2⟩ := newton_pass c tol mem x y _ ((pass_congr c tol y h0 h1).trans hb)
      rw [e2]
      exact ih x' (Or.inl ⟨e0, e1⟩)

theorem newton_next (y : Nat → K) {p q : K} (h : pass c tol x y = some ((p, q), true)) (h' : ∀ x', x' 0 = p → x' 1 = q →
    ∀ fuel, newton (quad c tol) mem false y fuel x' = none) (fuel : Nat) : newton (quad c tol) mem false y fuel x = none := by
  cases fuel with
  | zero => rfl
  | succ fuel =>
    obtain ⟨x', e0, e1, e2⟩ := newton_pass c tol mem x y _ h
    rw [e2]
    exact h' x' e0 e1 fuel

end

end Verif.FloatNewton
