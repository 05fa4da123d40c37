import Verif.Float.NewtonModel
import Verif.Float.Compute

/-!
The models commute with maps that respect the operations, so that runs of `MultiLinearGeometry::local` in floating-point
arithmetic can be computed.
-/

namespace Verif.FloatNewton

open Verif.Typ Verif.Float Verif.RefGeom Verif.RefTopo Verif.FloatVol

section
variable {K K' : Type} [Zero K] [One K] [Neg K] [Add K] [Sub K] [Mul K] [Div K] [NatCast K] [LT K] [HasSqrt K] [HasAbs K]
    [Zero K'] [One K'] [Neg K'] [Add K'] [Sub K'] [Mul K'] [Div K'] [NatCast K'] [LT K'] [HasSqrt K'] [HasAbs K']
    [DecidableLT K] [DecidableLT K'] (h : Hom K K')

/-- apply the map to the components -/
def mapV (v : Nat → K) : Nat → K' := fun i => h.f (v i)

/-- apply the map to the entries -/
def mapM (M : Mat K) : Mat K' := fun i j => h.f (M i j)

/-- apply the map to the members -/
def mapG (g : MultiLinearGeometry K) : MultiLinearGeometry K' := ⟨g.mydim, g.cdim, g.id, mapM h g.corners_, h.f g.tol⟩

theorem ite_map {α β : Type} {P Q : Prop} [Decidable P] [Decidable Q] (F : α → β) {a b : α} {a' b' : β} (hc : P ↔ Q)
    (h1 : a' = F a) (h2 : b' = F b) : (if Q then a' else b') = F (if P then a else b) := by
  by_cases hp : P
  · rw [if_pos hp, if_pos (hc.1 hp), h1]
  · rw [if_neg hp, if_neg (fun h => hp (hc.2 h)), h2]

theorem addLoop_map (a : K) (lo hi : Nat) (f : Nat → K) :
    addLoop (h.f a) lo hi (fun k => h.f (f k)) = h.f (addLoop a lo hi f) := by
  rw [addLoop, addLoop]
  generalize List.range' lo (hi - lo) = l
  induction l generalizing a with
  | nil => rfl
  | cons k l ih => rw [List.foldl_cons, List.foldl_cons, ← h.add, ih]

theorem subLoop_map (a : K) (lo hi : Nat) (f : Nat → K) :
    subLoop (h.f a) lo hi (fun k => h.f (f k)) = h.f (subLoop a lo hi f) := by
  rw [subLoop, subLoop]
  generalize List.range' lo (hi - lo) = l
  induction l generalizing a with
  | nil => rfl
  | cons k l ih => rw [List.foldl_cons, List.foldl_cons, ← h.sub, ih]

theorem setV_map (v : Nat → K) (k : Nat) (a : K) : setV (mapV h v) k (h.f a) = mapV h (setV v k a) := by
  funext j
  simp only [setV, mapV]
  split <;> rfl

theorem setM_map (M : Mat K) (r c : Nat) (a : K) : setM (mapM h M) r c (h.f a) = mapM h (setM M r c a) := by
  funext i j
  simp only [setM, mapM]
  split <;> rfl

theorem setRow_map (M : Mat K) (r : Nat) (v : Nat → K) : setRow (mapM h M) r (mapV h v) = mapM h (setRow M r v) := by
  funext i j
  simp only [setRow, mapM]
  split <;> rfl

theorem axpy_map (y : Nat → K) (a : K) (x : Nat → K) : axpy (mapV h y) (h.f a) (mapV h x) = mapV h (axpy y a x) := by
  funext i
  simp only [axpy, mapV, h.add, h.mul]

theorem mv_map (n : Nat) (A : Mat K) (x : Nat → K) : mv n (mapM h A) (mapV h x) = mapV h (mv n A x) := by
  funext i
  simp only [mv, mapV, mapM, ← h.mul, ← h.zero]
  exact addLoop_map h 0 0 n _

theorem AAT_L_map (n : Nat) (A ret : Mat K) : AAT_L n (mapM h A) (mapM h ret) = mapM h (AAT_L n A ret) := by
  funext i j
  simp only [AAT_L, mapM, ← h.mul]
  exact ite_map h.f Iff.rfl (addLoop_map h _ _ n _) rfl

theorem foldl_map {α β ι : Type} (F : α → β) (s : α → ι → α) (t : β → ι → β) (hs : ∀ a i, t (F a) i = F (s a i)) (l : List ι)
    (a : α) : l.foldl t (F a) = F (l.foldl s a) := by
  induction l generalizing a with
  | nil => rfl
  | cons i l ih => rw [List.foldl_cons, List.foldl_cons, hs, ih]

theorem choleskyColumn_map (n : Nat) (A : Mat K) (i : Nat) (r : K) (ret : Mat K) :
    choleskyColumn n (mapM h A) i (h.f r) (mapM h ret) = mapM h (choleskyColumn n A i r ret) := by
  rw [choleskyColumn, choleskyColumn]
  refine foldl_map (mapM h) _ _ (fun M k => ?_) _ _
  rw [← setM_map, h.mul, ← subLoop_map]
  simp only [h.mul]
  rfl

theorem choleskyFrom_map (n : Nat) (A : Mat K) (fuel i : Nat) (ret : Mat K) :
    choleskyFrom n (mapM h A) fuel i (mapM h ret) = (choleskyFrom n A fuel i ret).map (mapM h) := by
  induction fuel generalizing i ret with
  | zero => rfl
  | succ fuel ih =>
    rw [choleskyFrom, choleskyFrom]
    have e : subLoop (mapM h A i i) 0 i (fun j => mapM h ret i j * mapM h ret i j) =
        h.f (subLoop (A i i) 0 i fun j => ret i j * ret i j) := by
      rw [← subLoop_map]
      simp only [h.mul]
      rfl
    simp only
    rw [e]
    refine ite_map (Option.map (mapM h)) (not_congr ?_) rfl ?_
    · show 0 < _ ↔ 0 < _
      rw [h.lt, h.zero]
    · rw [← ih, ← h.sqrt, setM_map, ← h.one, ← h.div, choleskyColumn_map]

theorem invLx_map (n : Nat) (L : Mat K) (x : Nat → K) : invLx n (mapM h L) (mapV h x) = mapV h (invLx n L x) := by
  refine foldl_map (mapV h) _ _ (fun v i => ?_) _ _
  rw [← setV_map, h.div, ← subLoop_map]
  simp only [h.mul]
  rfl

theorem invLTx_map (n : Nat) (L : Mat K) (x : Nat → K) : invLTx n (mapM h L) (mapV h x) = mapV h (invLTx n L x) := by
  refine foldl_map (mapV h) _ _ (fun v i => ?_) _ _
  rw [← setV_map, h.div, ← subLoop_map]
  simp only [h.mul]
  rfl

theorem xTRightInvA_map (m n : Nat) (A : Mat K) (x : Nat → K) (mem : Mat K) :
    xTRightInvA m n (mapM h A) (mapV h x) (mapM h mem) =
      ((xTRightInvA m n A x mem).1, mapV h (xTRightInvA m n A x mem).2) := by
  simp only [xTRightInvA, spdInvAx, cholesky_L, AAT_L_map, choleskyFrom_map, mv_map]
  cases choleskyFrom m (AAT_L n A mem) m 0 mem with
  | none => rfl
  | some L =>
    simp only [Option.map_some, invLx_map, invLTx_map]

theorem two_norm2_map (n : Nat) (v : Nat → K) : two_norm2 n (mapV h v) = h.f (two_norm2 n v) := by
  simp only [two_norm2, mapV, ← h.mul, ← h.zero]
  exact addLoop_map h _ _ _ _

variable (g : MultiLinearGeometry K)

theorem globalS_map (add : Bool) (d cit : Nat) (df : K) (x : Nat → K) (rf : K) (y : Nat → K) :
    (mapG h g).globalS add d cit (h.f df) (mapV h x) (h.f rf) (mapV h y) =
      ((g.globalS add d cit df x rf y).1, mapV h (g.globalS add d cit df x rf y).2) := by
  induction d generalizing add cit df rf y with
  | zero =>
    simp only [MultiLinearGeometry.globalS]
    congr 1
    funext i
    simp only [mapV, mapG, mapM]
    exact ite_map h.f Iff.rfl (by rw [h.add, h.mul]) (by rw [h.mul])
  | succ d ih =>
    simp only [MultiLinearGeometry.globalS]
    have e1 : h.f df * mapV h x d = h.f (df * x d) := (h.mul _ _).symm
    have e2 : (1 : K') - h.f (df * x d) = h.f (1 - df * x d) := by rw [h.sub, h.one]
    have e0 : (0 : K') = h.f 0 := h.zero.symm
    rw [e1, e2]
    refine ite_map (fun r : Nat × (Nat → K) => (r.1, mapV h r.2)) Iff.rfl ?_ ?_
    · rw [← h.mul, ← h.mul, ih, ih]
    · have hc : (1 - df * x d > g.tol ∨ 1 - df * x d < -g.tol) ↔
          (h.f (1 - df * x d) > (mapG h g).tol ∨ h.f (1 - df * x d) < -(mapG h g).tol) := by
        show g.tol < _ ∨ _ ↔ h.f g.tol < _ ∨ _ < -h.f g.tol
        rw [← h.neg, ← h.lt, ← h.lt]
      have e3 := ite_map (a := g.globalS add d cit (df / (1 - df * x d)) x (rf * (1 - df * x d)) y)
        (b := g.globalS add d cit df x 0 y) (fun r : Nat × (Nat → K) => (r.1, mapV h r.2)) hc
        (ih _ _ _ _ _) (ih _ _ _ _ _)
      rw [← h.div, ← h.mul rf (1 - df * x d), e0, e3]
      generalize (if 1 - df * x d > g.tol ∨ 1 - df * x d < -g.tol then _ else _ : Nat × (Nat → K)) = r
      rw [← h.mul]
      congr 1
      funext i
      simp only [mapV, h.add, h.mul]
      rfl

theorem global_map (mem x : Nat → K) : (mapG h g).global (mapV h mem) (mapV h x) = mapV h (g.global mem x) := by
  rw [MultiLinearGeometry.global, MultiLinearGeometry.global, ← h.one, globalS_map]
  rfl

theorem row_map (M : Mat K) (i : Nat) : mapM h M i = mapV h (M i) := rfl

theorem jacobianTransposedS_map (mem : Mat K) (add : Bool) (d cit : Nat) (df : K) (x : Nat → K) (rf : K) (jt : Mat K) :
    jacobianTransposedS (mapG h g) (mapM h mem) add d cit (h.f df) (mapV h x) (h.f rf) (mapM h jt) =
      ((jacobianTransposedS g mem add d cit df x rf jt).1, mapM h (jacobianTransposedS g mem add d cit df x rf jt).2) := by
  induction d generalizing add cit df rf jt with
  | zero => rfl
  | succ d ih =>
    simp only [jacobianTransposedS]
    have e1 : h.f df * mapV h x d = h.f (df * x d) := (h.mul _ _).symm
    have e2 : (1 : K') - h.f (df * x d) = h.f (1 - df * x d) := by rw [h.sub, h.one]
    have e0 : (0 : K') = h.f 0 := h.zero.symm
    rw [e1, e2]
    refine ite_map (fun r : Nat × Mat K => (r.1, mapM h r.2)) Iff.rfl ?_ ?_
    · rw [← h.mul, ← h.mul, ← h.neg]
      simp only [ih, row_map, globalS_map, setRow_map]
    · have hc : (1 - df * x d > g.tol ∨ 1 - df * x d < -g.tol) ↔
          (h.f (1 - df * x d) > (mapG h g).tol ∨ h.f (1 - df * x d) < -(mapG h g).tol) := by
        show g.tol < _ ∨ _ ↔ h.f g.tol < _ ∨ _ < -h.f g.tol
        rw [← h.neg, ← h.lt, ← h.lt]
      have e3 := ite_map (a := df / (1 - df * x d)) (b := 0) h.f hc (h.div _ _).symm e0
      rw [e3]
      generalize (if 1 - df * x d > g.tol ∨ 1 - df * x d < -g.tol then df / (1 - df * x d) else 0) = c
      refine ite_map (fun r : Nat × Mat K => (r.1, mapM h r.2)) Iff.rfl ?_ ?_
      · rw [← h.neg]
        simp only [ih, row_map, globalS_map, setRow_map]
        congr 1
        rw [show (mapG h g).corners_ = mapM h g.corners_ from rfl, row_map, axpy_map, setRow_map]
        refine foldl_map (mapM h) _ _ (fun M j => ?_) _ _
        rw [← setRow_map]
        congr 1
        · rw [← setRow_map]
          congr 1
          funext i
          exact (h.add _ _).symm
        · have e4 : ∀ w : Nat → K, (fun i => mapM h M j i + mapV h w i) = mapV h fun i => M j i + w i :=
            fun w => funext fun i => (h.add _ _).symm
          rw [e4, setRow_map, row_map, show h.f c * mapV h x j = h.f (c * x j) from (h.mul _ _).symm, axpy_map]
      · rw [← h.neg]
        simp only [ih, row_map, globalS_map, setRow_map]
        rw [show (mapG h g).corners_ = mapM h g.corners_ from rfl, row_map, axpy_map, setRow_map, ih]
        congr 1
        refine foldl_map (mapM h) _ _ (fun M j => ?_) _ _
        rw [show h.f c * mapV h x j = h.f (c * x j) from (h.mul _ _).symm, row_map, row_map, axpy_map, setRow_map]

theorem jacobianTransposed_map (mem : Mat K) (x : Nat → K) :
    jacobianTransposed (mapG h g) (mapM h mem) (mapV h x) = mapM h (jacobianTransposed g mem x) := by
  rw [jacobianTransposed, jacobianTransposed, ← h.one, jacobianTransposedS_map]
  rfl

theorem affineS_map (mem : Mat K) (d cit : Nat) (jt : Mat K) :
    affineS (mapG h g) (mapM h mem) d cit (mapM h jt) =
      ((affineS g mem d cit jt).1, (affineS g mem d cit jt).2.1, mapM h (affineS g mem d cit jt).2.2) := by
  induction d generalizing cit jt with
  | zero => rfl
  | succ d ih =>
    simp only [affineS, ih]
    rcases affineS g mem d cit jt with ⟨b, c, M⟩
    have es : ∀ v w : Nat → K, (fun j => mapV h v j - mapV h w j) = mapV h fun j => v j - w j :=
      fun v w => funext fun i => (h.sub _ _).symm
    rw [show (mapG h g).corners_ = mapM h g.corners_ from rfl]
    refine ite_map (fun r : Bool × Nat × Mat K => (r.1, r.2.1, mapM h r.2.2)) Iff.rfl rfl ?_
    refine ite_map (fun r : Bool × Nat × Mat K => (r.1, r.2.1, mapM h r.2.2)) Iff.rfl ?_ ?_
    · rcases affineS g mem d c mem with ⟨b', c', M'⟩
      refine ite_map (fun r : Bool × Nat × Mat K => (r.1, r.2.1, mapM h r.2.2)) Iff.rfl rfl ?_
      have en : (List.range d).foldl (fun norm i => norm + two_norm2 g.cdim (fun j => mapM h M' i j - mapM h M i j)) (0 : K') =
          h.f ((List.range d).foldl (fun norm i => norm + two_norm2 g.cdim (fun j => M' i j - M i j)) 0) := by
        rw [← h.zero]
        refine foldl_map h.f _ _ (fun a i => ?_) _ _
        rw [h.add, ← two_norm2_map]
        simp only [row_map, es]
      refine ite_map (fun r : Bool × Nat × Mat K => (r.1, r.2.1, mapM h r.2.2)) (not_congr ?_) rfl ?_
      · rw [h.lt]
        exact Iff.of_eq (congrArg (· < h.f g.tol) en.symm)
      · rw [row_map, row_map, es, setRow_map]
    · rw [row_map, row_map, es, setRow_map]

theorem affine_map (mem : Mat K) : affine (mapG h g) (mapM h mem) = affine g mem := by
  rw [affine, affine, affineS_map]
  rfl

/-- apply the map to the point -/
def LocalResult.map : LocalResult K → LocalResult K'
  | .point x => .point (mapV h x)
  | .singular => .singular
  | .undefined => .undefined

theorem newton_map (mem : Mat K) (a : Bool) (y : Nat → K) (fuel : Nat) (x : Nat → K) :
    newton (mapG h g) (mapM h mem) a (mapV h y) fuel (mapV h x) = (newton g mem a y fuel x).map (LocalResult.map h) := by
  induction fuel generalizing x with
  | zero => rfl
  | succ fuel ih =>
    rw [newton, newton, jacobianTransposed_map, row_map, global_map]
    have es : ∀ v w : Nat → K, (fun j => mapV h v j - mapV h w j) = mapV h fun j => v j - w j :=
      fun v w => funext fun i => (h.sub _ _).symm
    rw [es, show (mapG h g).mydim = g.mydim from rfl, show (mapG h g).cdim = g.cdim from rfl, xTRightInvA_map]
    rcases xTRightInvA g.mydim g.cdim (jacobianTransposed g mem x) (fun i => g.global (mem 0) x i - y i) mem with ⟨b, dx⟩
    cases b with
    | false => rfl
    | true =>
      simp only
      rw [es, two_norm2_map, ih]
      refine ite_map (Option.map (LocalResult.map h)) Iff.rfl rfl ?_
      exact ite_map (Option.map (LocalResult.map h)) (h.lt _ _) rfl rfl

theorem referenceCorners_map (d id : Nat) :
    Float.referenceCorners (K := K') d id = (Float.referenceCorners (K := K) d id).map (mapV h) := by
  induction d generalizing id with
  | zero =>
    simp only [Float.referenceCorners, List.map_cons, List.map_nil, List.cons.injEq, and_true]
    funext j
    exact h.zero.symm
  | succ d ih =>
    simp only [Float.referenceCorners, ih]
    refine ite_map (List.map (mapV h)) Iff.rfl ?_ ?_
    · rw [List.map_append, List.map_map, List.map_map]
      congr 2
      funext c j
      simp only [Function.comp, mapV]
      exact ite_map h.f Iff.rfl h.one.symm rfl
    · rw [List.map_append]
      congr 1
      simp only [List.map_cons, List.map_nil, List.cons.injEq, and_true]
      funext j
      simp only [mapV]
      exact ite_map h.f Iff.rfl h.one.symm h.zero.symm

theorem mapM_map' {α β ι : Type} (F : α → β) (s : ι → Option α) (l : List ι) :
    l.mapM (fun i => (s i).map F) = (l.mapM s).map (List.map F) := by
  induction l with
  | nil => rfl
  | cons i l ih =>
    rw [List.mapM_cons, List.mapM_cons, ih]
    cases s i with
    | none => rfl
    | some a =>
      cases l.mapM s with
      | none => rfl
      | some w => rfl

theorem position_map (d id i c : Nat) :
    Float.position (K := K') d id i c = (Float.position (K := K) d id i c).map (mapV h) := by
  simp only [Float.position, referenceCorners_map h]
  refine ite_map (Option.map (mapV h)) Iff.rfl (by rw [List.getElem?_map]) ?_
  have e : (fun j => (subEntity d id i c j d).bind fun k => ((Float.referenceCorners (K := K) d id).map (mapV h))[k]?) =
      fun j => ((subEntity d id i c j d).bind fun k => (Float.referenceCorners (K := K) d id)[k]?).map (mapV h) := by
    funext j
    cases subEntity d id i c j d with
    | none => rfl
    | some k => simp only [Option.bind_some, List.getElem?_map]
  simp only [Option.bind_eq_bind]
  rw [e, mapM_map']
  cases (List.range (refSize3 d id i c d)).mapM fun j => (subEntity d id i c j d).bind fun k => (Float.referenceCorners (K := K) d id)[k]? with
  | none => rfl
  | some cs =>
    simp only [Option.map_some, Option.bind_some]
    congr 1
    funext r
    simp only [mapV, h.mul, h.div, h.one, h.natCast]
    congr 1
    rw [← h.zero, List.foldl_map]
    refine foldl_map h.f _ _ (fun a v => ?_) _ _
    rw [h.add]
    rfl

theorem local_map (mem : Mat K) (fuel : Nat) (y : Nat → K) :
    local_ (mapG h g) (mapM h mem) fuel (mapV h y) = (local_ g mem fuel y).map (LocalResult.map h) := by
  rw [local_, local_, show (mapG h g).mydim = g.mydim from rfl, show (mapG h g).id = g.id from rfl, position_map h]
  cases Float.position (K := K) g.mydim g.id 0 0 with
  | none => rfl
  | some x =>
    simp only [Option.map_some]
    rw [affine_map, newton_map]

end

end Verif.FloatNewton
