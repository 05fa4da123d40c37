import Verif.Float.NewtonQuad
import Verif.Float.InsideProps

/-!
Runs of `MultiLinearGeometry::local` in `double` and `float` that do not end.  The passes are computed by the kernel with integer
arithmetic (`Bin`) and carried over to the formats by `Bin.hom`.
-/

namespace Verif.FloatNewton

open Verif.Typ Verif.Float Verif.RefGeom Verif.RefTopo Verif.FloatVol

section
variable {K K' : Type} [Zero K] [One K] [Neg K] [Add K] [Sub K] [Mul K] [Div K] [NatCast K] [LT K] [HasSqrt K] [HasAbs K]
    [Zero K'] [One K'] [Neg K'] [Add K'] [Sub K'] [Mul K'] [Div K'] [NatCast K'] [LT K'] [HasSqrt K'] [HasAbs K']
    [DecidableLT K] [DecidableLT K'] (h : Hom K K')

theorem qGlobal_map (c : Mat K) (x : Nat → K) (i : Nat) : qGlobal (mapM h c) (mapV h x) i = h.f (qGlobal c x i) := by
  simp only [qGlobal, mapM, mapV, h.add, h.mul, h.sub, h.one]

theorem qJ_map (c : Mat K) (x : Nat → K) (r i : Nat) : qJ (mapM h c) (mapV h x) r i = h.f (qJ c x r i) := by
  simp only [qJ, qRow0, qRow1, mapM, mapV]
  split <;> simp only [h.add, h.mul, h.sub, h.one, h.neg]

theorem solve2_map (A : Mat K) (d : Nat → K) : solve2 (mapM h A) (mapV h d) = (solve2 A d).map fun p => (h.f p.1, h.f p.2) := by
  simp only [solve2]
  refine ite_map (Option.map fun p : K × K => (h.f p.1, h.f p.2)) ?_ (ite_map (Option.map fun p : K × K => (h.f p.1, h.f p.2)) ?_ ?_ rfl) rfl
  · rw [gt_iff_lt, gt_iff_lt, h.lt]
    simp only [mapM, h.add, h.mul, h.zero]
  · rw [gt_iff_lt, gt_iff_lt, h.lt]
    simp only [mapM, h.add, h.mul, h.zero, h.sub, h.div, h.sqrt, h.one]
  · simp only [mapM, mapV, h.add, h.mul, h.zero, h.sub, h.div, h.sqrt, h.one, Option.map_some]

theorem pass_map (c : Mat K) (tol : K) (x y : Nat → K) :
    pass (mapM h c) (h.f tol) (mapV h x) (mapV h y) = (pass c tol x y).map fun p => ((h.f p.1.1, h.f p.1.2), p.2) := by
  have e1 : qJ (mapM h c) (mapV h x) = mapM h (qJ c x) := by
    funext r i
    exact qJ_map h c x r i
  have e2 : (fun i => qGlobal (mapM h c) (mapV h x) i - mapV h y i) = mapV h fun i => qGlobal c x i - y i := by
    funext i
    rw [qGlobal_map]
    exact (h.sub _ _).symm
  rw [pass, pass, e1, e2, solve2_map, Option.map_map, Option.map_map]
  congr 1
  funext d
  simp only [Function.comp, mapV, Prod.mk.injEq, decide_eq_decide, h.sub, true_and, h.lt, h.add, h.mul, h.zero]

end

section
variable {K : Type} [Zero K] [One K] [Neg K] [Add K] [Sub K] [Mul K] [Div K] [NatCast K] [LT K] [DecidableLT K] [HasSqrt K] [HasAbs K]
  (c : Mat K) (tol : K) (mem : Mat K)

/-- the number that decides whether the quadrilateral is taken for affine -/
def qSkew : K := 0 + (0 + (c 3 0 - c 2 0 - (c 1 0 - c 0 0)) * (c 3 0 - c 2 0 - (c 1 0 - c 0 0)) +
  (c 3 1 - c 2 1 - (c 1 1 - c 0 1)) * (c 3 1 - c 2 1 - (c 1 1 - c 0 1)))

theorem quad_affine (h0 : 0 < tol) : affine (quad c tol) mem = decide (qSkew c < tol) := by
  have e1 : ∀ cit jt, affineS (quad c tol) mem 1 cit jt = (true, cit + 2, setRow jt 0 fun j => c (cit + 1) j - c cit j) := by
    intro cit jt
    simp only [affineS, quad, Nat.reduceAdd, Nat.reduceSub, prism1, Bool.not_true, Bool.false_eq_true, if_false, if_true, List.range_zero,
      List.foldl_nil, h0, not_true_eq_false]
  rw [affine, show (quad c tol).mydim = 1 + 1 from rfl, affineS]
  simp only [e1, Bool.not_true, Bool.false_eq_true, if_false, show (quad c tol).id = 3 from rfl, show (quad c tol).mydim = 2 from rfl,
    Nat.reduceAdd, Nat.reduceSub, prism0, if_true]
  by_cases h : qSkew c < tol
  · rw [decide_eq_true h, if_neg]
    exact not_not.2 h
  · rw [decide_eq_false h, if_pos]
    exact h

end

/-! ### Double -/

section
/-- a number of the format -/
def lit (f : BinFormat) (q : ℚ) : Bin f := Bin.round f q

/-- coordinates of the format -/
def litV (f : BinFormat) (x y : ℚ) : Nat → Bin f := fun i => if i = 0 then lit f x else if i = 1 then lit f y else 0

/-- corners of the format -/
def litC (f : BinFormat) (o a b : ℚ) : Mat (Bin f) := fun k => match k with
  | 0 => litV f o o | 1 => litV f (o + 1) o | 2 => litV f o (o + 1) | _ => litV f (o + a) (o + b)


instance (f : BinFormat) : DecidableEq (Bin f) := fun a b =>
  if h : a.val = b.val then isTrue (by cases a; cases b; cases h; rfl) else isFalse fun e => h (congrArg Bin.val e)

/-- a pass that goes on with the point `(p, q)`, computed by the kernel -/
def passTo (f : BinFormat) (c : Mat (Bin f)) (tol : ℚ) (y : Nat → Bin f) (x0 x1 p q : ℚ) : Bool :=
  decide (pass c (lit f tol) (litV f x0 x1) y = some ((lit f p, lit f q), true))

/-- the corners of the quadrilateral in `double` -/
def cD : Mat (Bin binDouble) := litC binDouble (2 ^ 28) (3 / 4) 1

/-- the image of `(1/4, 1/4)` -/
def yD : Nat → Bin binDouble := litV binDouble (2 ^ 28 + 15 / 64) (2 ^ 28 + 1 / 4)

theorem yD_eq (i : Nat) (hi : i < 2) : qGlobal cD (litV binDouble (1 / 4) (1 / 4)) i = yD i := by
  have h : ∀ i : Fin 2, qGlobal cD (litV binDouble (1 / 4) (1 / 4)) i = yD i := by decide +kernel
  exact h ⟨i, hi⟩

theorem passD0 : passTo binDouble cD (1 / 2 ^ 48) yD (1 / 2) (1 / 2) (4181913939701175 / 18014398509481984) (1 / 4) = true := by
  decide +kernel

theorem passD1 : passTo binDouble cD (1 / 2 ^ 48) yD (4181913939701175 / 18014398509481984) (1 / 4)
    (4503600118223901 / 18014398509481984) (1 / 4) = true := by
  decide +kernel

theorem passD2 : passTo binDouble cD (1 / 2 ^ 48) yD (4503600118223901 / 18014398509481984) (1 / 4)
    (9007197945798577 / 36028797018963968) (1 / 4) = true := by
  decide +kernel

theorem passD3 : passTo binDouble cD (1 / 2 ^ 48) yD (9007197945798577 / 36028797018963968) (1 / 4)
    (4503600118223901 / 18014398509481984) (1 / 4) = true := by
  decide +kernel

/-- the corners of the quadrilateral in `float` -/
def cS : Mat (Bin binSingle) := litC binSingle (2 ^ 12) (9 / 16) 1

/-- the image of `(13/16, 11/16)` -/
def yS : Nat → Bin binSingle := litV binSingle (2 ^ 12 + 291 / 512) (2 ^ 12 + 11 / 16)

theorem yS_eq (i : Nat) (hi : i < 2) : qGlobal cS (litV binSingle (13 / 16) (11 / 16)) i = yS i := by
  have h : ∀ i : Fin 2, qGlobal cS (litV binSingle (13 / 16) (11 / 16)) i = yS i := by decide +kernel
  exact h ⟨i, hi⟩

theorem passS0 : passTo binSingle cS (1 / 2 ^ 19) yS (1 / 2) (1 / 2) (3271557 / 4194304) (11 / 16) = true := by
  decide +kernel

theorem passS1 : passTo binSingle cS (1 / 2 ^ 19) yS (3271557 / 4194304) (11 / 16) (13625161 / 16777216) (11 / 16) = true := by
  decide +kernel

theorem passS2 : passTo binSingle cS (1 / 2 ^ 19) yS (13625161 / 16777216) (11 / 16) (13648593 / 16777216) (11 / 16) = true := by
  decide +kernel

theorem passS3 : passTo binSingle cS (1 / 2 ^ 19) yS (13648593 / 16777216) (11 / 16) (13625161 / 16777216) (11 / 16) = true := by
  decide +kernel

/-- a start and a cycle of two points: `local` does not end -/
theorem local_cycle (f : BinFormat) (c : Mat (Bin f)) (tol : ℚ) (x0 x1 : ℚ) (yb : Nat → Bin f) (p0 p1 p2 q : ℚ)
    (y : Nat → Fl f.toFormat)
    (hy : ∀ i, i < 2 → qGlobal (mapM (Bin.hom f) c) (mapV (Bin.hom f) (litV f x0 x1)) i = y i)
    (hb : ∀ i, i < 2 → qGlobal c (litV f x0 x1) i = yb i)
    (ht : decide (0 < lit f tol) = true) (ha : decide (¬ qSkew c < lit f tol) = true)
    (hc : (match Float.position (K := Bin f) 2 3 0 0 with
      | none => false
      | some x => decide (x 0 = lit f (1 / 2)) && decide (x 1 = lit f (1 / 2))) = true)
    (h0 : passTo f c tol yb (1 / 2) (1 / 2) p0 q = true) (h1 : passTo f c tol yb p0 q p1 q = true)
    (h2 : passTo f c tol yb p1 q p2 q = true) (h3 : passTo f c tol yb p2 q p1 q = true) (mem : Mat (Fl f.toFormat)) (fuel : Nat) :
    local_ (quad (mapM (Bin.hom f) c) ((Bin.hom f).f (lit f tol))) mem fuel y = none := by
  have hE : ∀ x, pass (mapM (Bin.hom f) c) ((Bin.hom f).f (lit f tol)) x y =
      pass (mapM (Bin.hom f) c) ((Bin.hom f).f (lit f tol)) x (mapV (Bin.hom f) yb) := by
    intro x
    simp only [pass]
    rw [solve2_congr]
    · exact fun _ _ _ _ => rfl
    · intro i hi
      rw [← hy i hi, qGlobal_map, hb i hi]
      rfl
  have hp : ∀ {a b p : ℚ} {x : Nat → Fl f.toFormat}, passTo f c tol yb a b p q = true →
      x 0 = (Bin.hom f).f (lit f a) → x 1 = (Bin.hom f).f (lit f b) →
      pass (mapM (Bin.hom f) c) ((Bin.hom f).f (lit f tol)) x y = some (((Bin.hom f).f (lit f p), (Bin.hom f).f (lit f q)), true) := by
    intro a b p x h e0 e1
    rw [hE, pass_congr _ _ _ (x' := mapV (Bin.hom f) (litV f a b)) e0 e1, pass_map, of_decide_eq_true h]
    rfl
  have hA : affine (quad (mapM (Bin.hom f) c) ((Bin.hom f).f (lit f tol))) mem = false := by
    rw [quad_affine _ _ _ (by rw [← (Bin.hom f).zero, ← (Bin.hom f).lt]; exact of_decide_eq_true ht)]
    refine decide_eq_false ?_
    have e : qSkew (mapM (Bin.hom f) c) = (Bin.hom f).f (qSkew c) := by
      simp only [qSkew, mapM, (Bin.hom f).add, (Bin.hom f).mul, (Bin.hom f).sub, (Bin.hom f).zero]
    rw [e, ← (Bin.hom f).lt]
    exact of_decide_eq_true ha
  rw [local_, hA, show (quad (mapM (Bin.hom f) c) ((Bin.hom f).f (lit f tol))).mydim = 2 from rfl,
    show (quad (mapM (Bin.hom f) c) ((Bin.hom f).f (lit f tol))).id = 3 from rfl, position_map (Bin.hom f)]
  revert hc
  cases Float.position (K := Bin f) 2 3 0 0 with
  | none => intro h; cases h
  | some x =>
    intro h
    obtain ⟨e0, e1⟩ := Bool.and_eq_true_iff.1 h
    refine newton_next _ _ _ _ _ (hp h0 (congrArg _ (of_decide_eq_true e0)) (congrArg _ (of_decide_eq_true e1))) ?_ fuel
    intro x' e0 e1 fuel
    refine newton_next _ _ _ _ _ (hp h1 e0 e1) ?_ fuel
    intro x' e0 e1 fuel
    refine newton_cycle _ _ mem y (fun i => if i = 0 then (Bin.hom f).f (lit f p1) else (Bin.hom f).f (lit f q))
      (fun i => if i = 0 then (Bin.hom f).f (lit f p2) else (Bin.hom f).f (lit f q)) (hp h2 rfl rfl) (hp h3 rfl rfl) fuel x' (Or.inl ⟨e0, e1⟩)

/-- the quadrilateral in `double` with the corners of `cD` -/
noncomputable def quadD : Mat (Fl double) := mapM (Bin.hom binDouble) cD

/-- the point `(1/4, 1/4)` -/
noncomputable def xD : Nat → Fl double := mapV (Bin.hom binDouble) (litV binDouble (1 / 4) (1 / 4))

theorem local_double (y : Nat → Fl double) (hy : ∀ i, i < 2 → qGlobal quadD xD i = y i) (mem : Mat (Fl double)) (fuel : Nat) :
    local_ (quad quadD ((Bin.hom binDouble).f (lit binDouble (1 / 2 ^ 48)))) mem fuel y = none :=
  local_cycle binDouble cD (1 / 2 ^ 48) _ _ yD _ _ _ _ y hy yD_eq (by decide +kernel) (by decide +kernel) (by decide +kernel)
    passD0 passD1 passD2 passD3 mem fuel

/-- the quadrilateral in `float` with the corners of `cS` -/
noncomputable def quadS : Mat (Fl single) := mapM (Bin.hom binSingle) cS

/-- the point `(13/16, 11/16)` -/
noncomputable def xS : Nat → Fl single := mapV (Bin.hom binSingle) (litV binSingle (13 / 16) (11 / 16))

theorem local_single (y : Nat → Fl single) (hy : ∀ i, i < 2 → qGlobal quadS xS i = y i) (mem : Mat (Fl single)) (fuel : Nat) :
    local_ (quad quadS ((Bin.hom binSingle).f (lit binSingle (1 / 2 ^ 19)))) mem fuel y = none :=
  local_cycle binSingle cS (1 / 2 ^ 19) _ _ yS _ _ _ _ y hy yS_eq (by decide +kernel) (by decide +kernel) (by decide +kernel)
    passS0 passS1 passS2 passS3 mem fuel

end

end Verif.FloatNewton
