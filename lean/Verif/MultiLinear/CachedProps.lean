import Verif.MultiLinear.NewtonProps

/-! Property C34: the caching geometry. -/

namespace Verif.MultiLinear

open Verif.RefGeom Verif.MatHelp Verif.RefTopo Verif.Typ Finset
open MultiLinearGeometry
open Matrix hiding vec

noncomputable section

/-- calls of the interface; `local` carries a bound on the passes of the loop -/
inductive Query where
  | affine
  | corner (i : Nat)
  | global (x : Vec ℝ)
  | center
  | local_ (fuel : Nat) (y : Vec ℝ)
  | integrationElement (x : Vec ℝ)
  | volume
  | jacobianTransposed (x : Vec ℝ)
  | jacobian (x : Vec ℝ)
  | jacobianInverseTransposed (x : Vec ℝ)
  | jacobianInverse (x : Vec ℝ)

/-- answers, restricted to the entries that exist; `none`: assertion -/
inductive Answer (m n : Nat) where
  | flag (b : Bool)
  | number (v : Option ℝ)
  | globalVec (v : Option (Fin n → ℝ))
  | localVec (v : Option (Option (Option (Fin m → ℝ))))
  | matrixTransposed (A : Option (Matrix (Fin m) (Fin n) ℝ))
  | matrix (A : Option (Matrix (Fin n) (Fin m) ℝ))

/-- the answer of `local`: `none` for the vector of maxima -/
def localAnswer (m : Nat) : LocalResult → Option (Fin m → ℝ)
  | .point x => some (vec m x)
  | .singular => none

/-- answers of MultiLinearGeometry -/
def plain (g : MultiLinearGeometry) : Query → Answer g.mydim g.cdim
  | .affine => .flag g.affine
  | .corner i => .globalVec ((g.corner i).map (vec _))
  | .global x => .globalVec (some (vec _ (g.global x)))
  | .center => .globalVec (g.center.map (vec _))
  | .local_ fuel y => .localVec ((g.local_ fuel y).map fun r => r.map (localAnswer _))
  | .integrationElement x => .number (g.integrationElement x)
  | .volume => .number g.volume
  | .jacobianTransposed x => .matrixTransposed (some (mat _ _ (g.jacobianTransposed x)))
  | .jacobian x => .matrix (some (mat _ _ (g.jacobian x)))
  | .jacobianInverseTransposed x => .matrix ((g.jacobianInverseTransposed x).map fun r => mat _ _ r.2)
  | .jacobianInverse x => .matrixTransposed ((g.jacobianInverse x).map (mat _ _))

/-- answers of CachedMultiLinearGeometry and the state after the call -/
def cached {m n : Nat} (c : CachedMultiLinearGeometry) : Query → CachedMultiLinearGeometry × Answer m n
  | .affine => (c, .flag c.affine)
  | .corner i => (c, .globalVec ((c.base.corner i).map (vec _)))
  | .global x => (c, .globalVec ((c.global x).map (vec _)))
  | .center => (c, .globalVec (c.center.map (vec _)))
  | .local_ fuel y => (c, .localVec ((c.local_ fuel y).map fun r => r.map (localAnswer _)))
  | .integrationElement x => (((c.integrationElement x).map (·.1)).getD c, .number ((c.integrationElement x).map (·.2)))
  | .volume => (((c.volume).map (·.1)).getD c, .number ((c.volume).map (·.2)))
  | .jacobianTransposed x => (c, .matrixTransposed (some (mat _ _ (c.jacobianTransposed x))))
  | .jacobian x => (c, .matrix (some (mat _ _ (c.jacobian x))))
  | .jacobianInverseTransposed x => (((c.jacobianInverseTransposed x).map (·.1)).getD c,
      .matrix ((c.jacobianInverseTransposed x).map fun r => mat _ _ r.2.2))
  | .jacobianInverse x => (((c.jacobianInverse x).map (·.1)).getD c,
      .matrixTransposed ((c.jacobianInverse x).map fun r => mat _ _ r.2))

/-- the answers to a sequence of calls -/
def answers {m n : Nat} : CachedMultiLinearGeometry → List Query → List (Answer m n)
  | _, [] => []
  | c, q :: qs => (cached c q).2 :: answers (cached (m := m) (n := n) c q).1 qs

/-- the point of the call keeps the margin; `local` gets at least one pass -/
def Query.Ok (g : MultiLinearGeometry) : Query → Prop
  | .global x | .integrationElement x | .jacobianTransposed x | .jacobian x | .jacobianInverseTransposed x
  | .jacobianInverse x => Inner g x
  | .local_ fuel _ => 0 < fuel
  | _ => True

/-- what the property demands -/
def C34_full : Prop := ∀ (g : MultiLinearGeometry) (jit : Mat ℝ) (d : ℝ) (qs : List Query), Legal g →
  g.mydim ≤ g.cdim → (∀ q ∈ qs, q.Ok g) → answers (.mk' g jit d) qs = qs.map (plain g)

/-- what every reachable state satisfies -/
structure Inv (g : MultiLinearGeometry) (c : CachedMultiLinearGeometry) : Prop where
  base : c.base = g
  jt : c.jt = (g.affineJ garbage).2
  aff : c.affine_ = g.affine
  det : c.ieComputed = true → sqrtDetAAT g.mydim g.cdim c.jt = some c.detInv
  inv : c.jitComputed = true → rightInvA g.mydim g.cdim c.jt = some (c.detInv, c.jit) ∧ c.ieComputed = true

theorem inv_mk (g : MultiLinearGeometry) (jit : Mat ℝ) (d : ℝ) : Inv g (.mk' g jit d) := by
  refine ⟨rfl, rfl, ?_, by simp [CachedMultiLinearGeometry.mk'], by simp [CachedMultiLinearGeometry.mk']⟩
  rfl

theorem answers_of_step {g : MultiLinearGeometry} {I : CachedMultiLinearGeometry → Prop} {ok : Query → Prop}
    (step : ∀ c, I c → ∀ q, ok q → I (cached (m := g.mydim) (n := g.cdim) c q).1 ∧ (cached c q).2 = plain g q) :
    ∀ (qs : List Query) (c : CachedMultiLinearGeometry), I c → (∀ q ∈ qs, ok q) → answers c qs = qs.map (plain g)
  | [], _, _, _ => rfl
  | q :: qs, c, hc, hq => by
    obtain ⟨h1, h2⟩ := step c hc q (hq q List.mem_cons_self)
    rw [answers, List.map_cons, h2, answers_of_step step qs _ h1 fun q' h' => hq q' (List.mem_cons_of_mem _ h')]

/-- one call, non-affine geometries -/
theorem nonaffine_step (g : MultiLinearGeometry) (h : g.affine = false) (c : CachedMultiLinearGeometry)
    (hc : c.base = g ∧ c.affine_ = false) (q : Query) :
    ((cached (m := g.mydim) (n := g.cdim) c q).1.base = g ∧ (cached (m := g.mydim) (n := g.cdim) c q).1.affine_ = false) ∧
    (cached c q).2 = plain g q := by
  obtain ⟨rfl, ha⟩ := hc
  have ha' : c.affine = false := ha
  have hgd : ∀ {α : Type} (o : Option α), ((o.map fun v => (c, v)).map (·.1)).getD c = c := by
    intro α o; cases o <;> rfl
  have hsn : ∀ {α : Type} (o : Option α), (o.map fun v => (c, v)).map (·.2) = o := by
    intro α o; cases o <;> rfl
  cases q with
  | affine => exact ⟨⟨rfl, ha⟩, by rw [cached, plain, ha', h]⟩
  | corner i => exact ⟨⟨rfl, ha⟩, rfl⟩
  | global x => exact ⟨⟨rfl, ha⟩, by simp [cached, plain, CachedMultiLinearGeometry.global, ha']⟩
  | center =>
    refine ⟨⟨rfl, ha⟩, ?_⟩
    simp only [cached, plain, CachedMultiLinearGeometry.center, CachedMultiLinearGeometry.global, ha',
      MultiLinearGeometry.center]
    cases position (K := ℝ) c.base.mydim c.base.id 0 0 <;> rfl
  | local_ fuel y => exact ⟨⟨rfl, ha⟩, by simp [cached, plain, CachedMultiLinearGeometry.local_, ha']⟩
  | integrationElement x =>
    simp only [cached, plain, CachedMultiLinearGeometry.integrationElement, ha', Bool.false_eq_true, if_false]
    rw [hgd, hsn]; exact ⟨⟨rfl, ha⟩, rfl⟩
  | volume =>
    simp only [cached, plain, CachedMultiLinearGeometry.volume, ha', Bool.false_eq_true, if_false]
    rw [hgd, hsn]; exact ⟨⟨rfl, ha⟩, rfl⟩
  | jacobianTransposed x => exact ⟨⟨rfl, ha⟩, by simp [cached, plain, CachedMultiLinearGeometry.jacobianTransposed, ha']⟩
  | jacobian x =>
    refine ⟨⟨rfl, ha⟩, ?_⟩
    have e : c.jacobian x = c.base.jacobian x := by
      funext i j
      change c.jacobianTransposed x j i = c.base.jacobianTransposed x j i
      simp [CachedMultiLinearGeometry.jacobianTransposed, ha']
    rw [cached, plain, e]
  | jacobianInverseTransposed x =>
    simp only [cached, plain, CachedMultiLinearGeometry.jacobianInverseTransposed, ha', Bool.false_eq_true, if_false]
    cases c.base.jacobianInverseTransposed x <;> exact ⟨⟨rfl, ha⟩, rfl⟩
  | jacobianInverse x =>
    simp only [cached, plain, CachedMultiLinearGeometry.jacobianInverse,
      CachedMultiLinearGeometry.jacobianInverseTransposed, ha', Bool.false_eq_true, if_false,
      MultiLinearGeometry.jacobianInverse]
    cases c.base.jacobianInverseTransposed x <;> exact ⟨⟨rfl, ha⟩, rfl⟩

/-- C34, non-affine geometries: nothing is cached, all answers are those of the base class, at all points and for all
histories -/
theorem C34_nonaffine_partial (g : MultiLinearGeometry) (jit : Mat ℝ) (d : ℝ) (qs : List Query) (h : g.affine = false) :
    answers (.mk' g jit d) qs = qs.map (plain g) :=
  answers_of_step (I := fun c => c.base = g ∧ c.affine_ = false) (ok := fun _ => True)
    (fun c hc q _ => nonaffine_step g h c hc q) qs _ ⟨rfl, h⟩ (fun _ _ => trivial)

/-- one call, exactly affine geometries of full rank -/
theorem affine_step (g : MultiLinearGeometry) (hg : Legal g) (a : Vec ℝ) (M : Mat ℝ) (h : ImageOf g a M)
    (hr : FullRank g M) (p : Vec ℝ) (hp : position g.mydim g.id 0 0 = some p) (hin : Inner g p)
    (c : CachedMultiLinearGeometry) (hc : Inv g c) (q : Query) (hok : q.Ok g) :
    Inv g (cached (m := g.mydim) (n := g.cdim) c q).1 ∧ (cached c q).2 = plain g q := by
  obtain ⟨b, jt, jit, det, af, jc, ic⟩ := c
  obtain ⟨rfl, h1, h2, h3, h4⟩ := hc
  simp only at h1 h2 h3 h4
  have hmn := fullRank_le hr
  have haff := (C33_complete b hg a M h).1
  rw [haff] at h2
  subst h2
  have hjt : mat b.mydim b.cdim jt = (mat b.cdim b.mydim M)ᵀ := by rw [h1]; exact jt_aff_exact hg h garbage
  have hli : LinearIndependent ℝ (mat b.mydim b.cdim jt).row := by rw [hjt]; exact hr
  obtain ⟨R, hR, hR2⟩ := rightInvA_pinv hmn hli
  have hD := C27_sqrtDetAAT_partial b.mydim b.cdim jt (Or.inl hli)
  rw [hjt] at hR hR2 hD
  -- the answers of the base class
  have hie : ∀ x, Inner b x → b.integrationElement x = some (Real.sqrt ((mat b.cdim b.mydim M)ᵀ * (mat b.cdim b.mydim M)ᵀᵀ).det) := by
    intro x hx
    have e := jt_mat_exact hg h hx
    have := C27_sqrtDetAAT_partial b.mydim b.cdim (b.jacobianTransposed x) (Or.inl (by rw [e]; exact hr))
    rw [e] at this
    exact this
  have hji : ∀ x, Inner b x → ∃ d' R', b.jacobianInverseTransposed x = some (d', R') ∧
      mat b.cdim b.mydim R' = pinv (mat b.cdim b.mydim M)ᵀ := by
    intro x hx
    have e := jt_mat_exact hg h hx
    obtain ⟨R', h5, h6⟩ := rightInvA_pinv (A := b.jacobianTransposed x) hmn (by rw [e]; exact hr)
    rw [e] at h6
    exact ⟨_, R', h5, h6⟩
  obtain ⟨c0, c0'⟩ := corner_zero hg h
  have hI : Inv b ⟨b, jt, jit, det, true, jc, ic⟩ := ⟨rfl, h1, haff.symm, h3, h4⟩
  have hglob : ∀ x, Inner b x → vec b.cdim (fun j => addLoop (b.corners_ 0 j) 0 b.mydim fun i => jt i j * x i) =
      vec b.cdim (b.global x) := by
    intro x hx
    rw [global_exact hg h hx]
    funext j
    rw [vec, addLoop_eq, ← range_eq_Ico, Matrix.vecMul_transpose, Pi.add_apply]
    rw [show b.corners_ 0 ↑j = vec b.cdim a j from congrFun c0' j, Matrix.mulVec, dotProduct,
      ← Fin.sum_univ_eq_sum_range (fun k => jt k ↑j * x k)]
    congr 1
    refine sum_congr rfl fun r _ => ?_
    have : jt r j = mat b.cdim b.mydim M j r := congrFun (congrFun hjt r) j
    rw [this]; rfl
  cases q with
  | affine => exact ⟨hI, by rw [cached, plain, haff]; rfl⟩
  | corner i => exact ⟨hI, rfl⟩
  | global x =>
    refine ⟨hI, ?_⟩
    simp only [cached, plain, CachedMultiLinearGeometry.global, CachedMultiLinearGeometry.affine, if_true, c0]
    exact congrArg (fun v => Answer.globalVec (some v)) (hglob x hok)
  | center =>
    refine ⟨hI, ?_⟩
    simp only [cached, plain, CachedMultiLinearGeometry.center, CachedMultiLinearGeometry.global,
      CachedMultiLinearGeometry.affine, if_true, c0, hp, MultiLinearGeometry.center]
    exact congrArg (fun v => Answer.globalVec (some v)) (hglob p hin)
  | local_ fuel y =>
    refine ⟨hI, ?_⟩
    obtain ⟨fuel, rfl⟩ : ∃ k, fuel = k + 1 := ⟨fuel - 1, by have : 0 < fuel := hok; omega⟩
    obtain ⟨x, hx1, hx2, _⟩ := C35_affine b hg a M h hr p hp hin y fuel
    simp only [cached, plain, CachedMultiLinearGeometry.local_, CachedMultiLinearGeometry.affine, if_true, c0, hx1]
    have hyo : vec b.cdim (fun j => y j - b.corners_ 0 j) = vec b.cdim y - vec b.cdim a := by
      rw [← c0']; rfl
    cases jc with
    | true =>
      have h5 := (h4 rfl).1
      rw [hR] at h5
      obtain ⟨_, rfl⟩ := Prod.mk.inj (Option.some.inj h5)
      refine congrArg (fun v => Answer.localVec (some (some (some v)))) ?_
      rw [hx2, mtv_eq, hR2, hyo, Matrix.mulVec_transpose]
    | false =>
      obtain ⟨z, hz1, hz2⟩ := xTRightInvA_pinv (A := jt) (fun j => y j - b.corners_ 0 j) hmn hli
      have : (do
          let __discr ← xTRightInvA b.mydim b.cdim jt fun j => y j - b.corners_ 0 j
          some (LocalResult.point __discr.2) : Option LocalResult) = some (.point z) := by rw [hz1]; rfl
      refine congrArg Answer.localVec (congrArg some ?_)
      refine (congrArg (Option.map (localAnswer b.mydim)) this).trans ?_
      refine congrArg (fun v => some (some v)) ?_
      rw [hz2, hx2, hyo, hjt]
  | integrationElement x =>
    have e := hie x hok
    simp only [cached, plain, CachedMultiLinearGeometry.integrationElement, CachedMultiLinearGeometry.affine, if_true, e]
    cases ic with
    | true =>
      refine ⟨hI, ?_⟩
      have h5 := h3 rfl
      rw [hD] at h5
      obtain rfl := Option.some.inj h5
      rfl
    | false =>
      simp only [Bool.not_false, if_true, hD]
      refine ⟨⟨rfl, h1, haff.symm, fun _ => hD, fun hj => ?_⟩, rfl⟩
      have := (h4 hj).2
      cases this
  | volume =>
    have e : b.volume = some (Real.sqrt ((mat b.cdim b.mydim M)ᵀ * (mat b.cdim b.mydim M)ᵀᵀ).det *
        referenceVolume b.mydim b.id) := by
      rw [MultiLinearGeometry.volume, hp]
      exact congrArg (fun o => o.bind fun ie => some (ie * referenceVolume b.mydim b.id)) (hie p hin)
    simp only [cached, plain, CachedMultiLinearGeometry.volume, CachedMultiLinearGeometry.integrationElement,
      CachedMultiLinearGeometry.affine, if_true, hp, e]
    cases ic with
    | true =>
      refine ⟨hI, ?_⟩
      have h5 := h3 rfl
      rw [hD] at h5
      obtain rfl := Option.some.inj h5
      rfl
    | false =>
      simp only [Bool.not_false, if_true, hD]
      refine ⟨⟨rfl, h1, haff.symm, fun _ => hD, fun hj => ?_⟩, rfl⟩
      have := (h4 hj).2
      cases this
  | jacobianTransposed x =>
    refine ⟨hI, ?_⟩
    simp only [cached, plain, CachedMultiLinearGeometry.jacobianTransposed, CachedMultiLinearGeometry.affine, if_true]
    rw [jt_mat_exact hg h hok, hjt]
  | jacobian x =>
    refine ⟨hI, ?_⟩
    have e0 : CachedMultiLinearGeometry.jacobian ⟨b, jt, jit, det, true, jc, ic⟩ x = fun i j => jt j i := rfl
    have e1 : mat b.cdim b.mydim (fun i j => jt j i) = (mat b.mydim b.cdim jt)ᵀ := rfl
    have e2 : mat b.cdim b.mydim (b.jacobian x) = (mat b.mydim b.cdim (b.jacobianTransposed x))ᵀ := rfl
    rw [cached, plain, e0, e1, e2, jt_mat_exact hg h hok, hjt]
  | jacobianInverseTransposed x =>
    obtain ⟨d', R', e1, e2⟩ := hji x hok
    simp only [cached, plain, CachedMultiLinearGeometry.jacobianInverseTransposed, CachedMultiLinearGeometry.affine,
      if_true, e1]
    cases jc with
    | true =>
      refine ⟨hI, ?_⟩
      have h5 := (h4 rfl).1
      rw [hR] at h5
      obtain ⟨_, rfl⟩ := Prod.mk.inj (Option.some.inj h5)
      refine congrArg (fun v => Answer.matrix (some v)) ?_
      exact hR2.trans e2.symm
    | false =>
      simp only [Bool.not_false, if_true, hR]
      exact ⟨⟨rfl, h1, haff.symm, fun _ => hD, fun _ => ⟨hR, rfl⟩⟩,
        congrArg (fun v => Answer.matrix (some v)) (hR2.trans e2.symm)⟩
  | jacobianInverse x =>
    obtain ⟨d', R', e1, e2⟩ := hji x hok
    simp only [cached, plain, CachedMultiLinearGeometry.jacobianInverse,
      CachedMultiLinearGeometry.jacobianInverseTransposed, CachedMultiLinearGeometry.affine, if_true, e1,
      MultiLinearGeometry.jacobianInverse]
    cases jc with
    | true =>
      refine ⟨hI, ?_⟩
      have h5 := (h4 rfl).1
      rw [hR] at h5
      obtain ⟨_, rfl⟩ := Prod.mk.inj (Option.some.inj h5)
      refine congrArg (fun v => Answer.matrixTransposed (some v)) ?_
      exact congrArg Matrix.transpose (hR2.trans e2.symm)
    | false =>
      simp only [Bool.not_false, if_true, hR]
      exact ⟨⟨rfl, h1, haff.symm, fun _ => hD, fun _ => ⟨hR, rfl⟩⟩,
        congrArg (fun v => Answer.matrixTransposed (some v)) (congrArg Matrix.transpose (hR2.trans e2.symm))⟩

/-- C34, exactly affine geometries of full rank: for all histories of calls the answers agree, whatever the lazily
filled members contained at the start.  Missing for the full claim: geometries that report affine within the tolerance
only, and singular ones. -/
theorem C34_affine_partial (g : MultiLinearGeometry) (hg : Legal g) (a : Vec ℝ) (M : Mat ℝ) (h : ImageOf g a M)
    (hr : FullRank g M) (p : Vec ℝ) (hp : position g.mydim g.id 0 0 = some p) (hin : Inner g p)
    (jit : Mat ℝ) (d : ℝ) (qs : List Query) (hq : ∀ q ∈ qs, q.Ok g) :
    answers (.mk' g jit d) qs = qs.map (plain g) :=
  answers_of_step (I := Inv g) (ok := fun q => q.Ok g) (affine_step g hg a M h hr p hp hin) qs _ (inv_mk g jit d) hq

/-- a segment that is a point -/
def pointSegment : MultiLinearGeometry where
  mydim := 1
  cdim := 1
  id := 1
  corners_ := fun _ _ => 0
  tol := 1 / 1000

theorem pointSegment_legal : Legal pointSegment := by
  constructor <;> norm_num [pointSegment]

theorem pointSegment_imageOf : ImageOf pointSegment (fun _ => 0) (fun _ _ => 0) := by
  intro k p _ j _
  simp [pointSegment]

theorem zero_row_dep {A : Mat ℝ} (h : A 0 0 = 0) : ¬ LinearIndependent ℝ (mat 1 1 A).row := by
  intro hl
  have := hl.ne_zero 0
  apply this
  funext j
  have hj : j = 0 := Subsingleton.elim _ _
  subst hj
  exact h

/-- C34: the claim fails in two ways.  A degenerate segment: `local` of the base class signals the singular Jacobian, the
caching class returns an ordinary vector.  A quadrilateral that is affine within the tolerance: `global` differs. -/
theorem C34_counterexample : ¬ C34_full ∧
    (∃ (g : MultiLinearGeometry) (x : Vec ℝ), Legal g ∧ Inner g x ∧ ∀ jit d,
      (CachedMultiLinearGeometry.mk' g jit d).global x ≠ some (g.global x) ∧
      ∃ v, (CachedMultiLinearGeometry.mk' g jit d).global x = some v ∧ v 0 ≠ g.global x 0) ∧
    (∀ jit d y, pointSegment.local_ 1 y = some (some .singular) ∧
      ∃ x, (CachedMultiLinearGeometry.mk' pointSegment jit d).local_ 1 y = some (some (.point x))) := by
  have hsing : ∀ jit d y, pointSegment.local_ 1 y = some (some .singular) ∧
      ∃ x, (CachedMultiLinearGeometry.mk' pointSegment jit d).local_ 1 y = some (some (.point x)) := by
    intro jit d y
    have haff := (C33_complete _ pointSegment_legal _ _ pointSegment_imageOf).1
    constructor
    · obtain ⟨p, hp, _⟩ := C21_mean (K := ℝ) 1 1 0 0 (by norm_num) (by norm_num) (by decide)
      have hp' : position (K := ℝ) pointSegment.mydim pointSegment.id 0 0 = some p := hp
      rw [MultiLinearGeometry.local_, hp']
      simp only
      have hj : pointSegment.jacobianTransposed p 0 0 = 0 := by
        rw [jt_eq _ pointSegment_legal.id_lt _ _ _ (by change 0 < 1; norm_num)]
        exact MLd_exact pointSegment_legal.tol_pos.le _ _ _ _ p
          (exact_of_imageOf pointSegment_imageOf 0 (by change 0 < 1; norm_num))
          (by
            have : topoOf pointSegment.mydim pointSegment.id = .prism .pt := by change topoOf 1 1 = _; decide
            rw [this]; trivial) 0 (by rw [topo_dim]; change 0 < 1; norm_num)
      obtain ⟨z, hz⟩ := C26_xTRightInvA_singular 1 1 (pointSegment.jacobianTransposed p)
        (fun i => pointSegment.global p i - y i) (le_refl _) (zero_row_dep hj)
      have hz' : xTRightInvA pointSegment.mydim pointSegment.cdim (pointSegment.jacobianTransposed p)
        (fun i => pointSegment.global p i - y i) = some (false, z) := hz
      rw [newton, hz']
    · have hc := (corner_zero pointSegment_legal pointSegment_imageOf).1
      have hj : (pointSegment.affineJ garbage).2 0 0 = 0 :=
        (C33_complete _ pointSegment_legal _ _ pointSegment_imageOf).2 garbage 0 0 (by change 0 < 1; norm_num)
          (by change 0 < 1; norm_num)
      obtain ⟨z, hz⟩ := C26_xTRightInvA_singular 1 1 (pointSegment.affineJ garbage).2
        (fun j => y j - pointSegment.corners_ 0 j) (le_refl _) (zero_row_dep hj)
      have hz' : xTRightInvA pointSegment.mydim pointSegment.cdim (pointSegment.affineJ garbage).2
        (fun j => y j - pointSegment.corners_ 0 j) = some (false, z) := hz
      refine ⟨z, ?_⟩
      have ha : (CachedMultiLinearGeometry.mk' pointSegment jit d).affine = true := haff
      rw [CachedMultiLinearGeometry.local_, if_pos ha]
      have hb : (CachedMultiLinearGeometry.mk' pointSegment jit d).base = pointSegment := rfl
      have hjt : (CachedMultiLinearGeometry.mk' pointSegment jit d).jt = (pointSegment.affineJ garbage).2 := rfl
      have hjc : (CachedMultiLinearGeometry.mk' pointSegment jit d).jitComputed = false := rfl
      rw [hb, hjt, hjc, hc]
      simp only [Bool.false_eq_true, if_false, Option.bind_eq_bind, Option.bind_some]
      rw [hz']
      rfl
  refine ⟨?_, ?_, hsing⟩
  · intro h
    have := h pointSegment (fun _ _ => 0) 0 [.local_ 1 (fun _ => 0)] pointSegment_legal (le_refl 1)
      (by intro q hq; rw [List.mem_singleton] at hq; subst hq; exact Nat.one_pos)
    obtain ⟨h1, x, h2⟩ := hsing (fun _ _ => 0) 0 (fun _ => 0)
    simp [answers, cached, plain, h1, h2, localAnswer] at this
  · have ht : (0 : ℝ) < 1 / 16 := by norm_num
    refine ⟨bentSquare (1 / 16), fun _ => 1 / 2, ⟨by change 3 < 2 ^ 2; norm_num, ht, by norm_num [bentSquare]⟩, ?_, ?_⟩
    · rw [Inner, checkInside_iff (rep_topoOf _ _), bentSquare_topo]
      refine ⟨?_, ?_, ?_, ?_, trivial⟩ <;> norm_num [bentSquare]
    · intro jit d
      have hid : (bentSquare (1 / 16)).id < 2 ^ (bentSquare (1 / 16)).mydim := by change 3 < 2 ^ 2; norm_num
      have haff := bentSquare_affine _ ht
      have ha : (CachedMultiLinearGeometry.mk' (bentSquare (1 / 16)) jit d).affine = true := haff
      have hc : (bentSquare (1 / 16)).corner 0 = some ((bentSquare (1 / 16)).corners_ 0) := by
        rw [MultiLinearGeometry.corner, if_pos]; change 0 < refSize 2 3 2; decide
      have hv : (CachedMultiLinearGeometry.mk' (bentSquare (1 / 16)) jit d).global (fun _ => 1 / 2) =
          some (fun j => addLoop ((bentSquare (1 / 16)).corners_ 0 j) 0 2 fun i =>
            ((bentSquare (1 / 16)).affineJ garbage).2 i j * (1 / 2)) := by
        rw [CachedMultiLinearGeometry.global, if_pos ha]
        have hb : (CachedMultiLinearGeometry.mk' (bentSquare (1 / 16)) jit d).base = bentSquare (1 / 16) := rfl
        rw [hb, hc]; rfl
      have hne : (fun j => addLoop ((bentSquare (1 / 16)).corners_ 0 j) 0 2 fun i =>
            ((bentSquare (1 / 16)).affineJ garbage).2 i j * (1 / 2)) 0 ≠ (bentSquare (1 / 16)).global (fun _ => 1 / 2) 0 := by
        have hj := (affineJ_jt _ hid haff garbage).2
        have hm : (bentSquare (1 / 16)).mydim = 2 := rfl
        have h1 : nv (.prism .pt) = 2 := rfl
        have h2 : nv .pt = 1 := rfl
        have hs : Real.sqrt (1 / 16) = 1 / 4 := by
          rw [show (1 / 16 : ℝ) = (1 / 4) ^ 2 by norm_num, Real.sqrt_sq (by norm_num)]
        simp only
        rw [addLoop_eq, ← range_eq_Ico, sum_range_succ, sum_range_one, hj 0 0 (by rw [hm]; norm_num),
          hj 1 0 (by rw [hm]; norm_num), global_eq _ hid, bentSquare_topo]
        simp only [ajt, ML, Topo.dim, h1, h2, bentSquare, hs]
        norm_num
      refine ⟨?_, _, hv, hne⟩
      rw [hv]
      intro he
      exact hne (congrFun (Option.some.inj he) 0)

/-- a segment in the plane -/
def sampleSegment : MultiLinearGeometry where
  mydim := 1
  cdim := 2
  id := 0
  corners_ := fun k j => if j = 0 then k else 2 * k + 1
  tol := 1 / 1000

theorem sampleSegment_good : Legal sampleSegment ∧ ImageOf sampleSegment (fun j => if j = 0 then 0 else 1) (fun j _ => if j = 0 then 1 else 2) ∧
    FullRank sampleSegment (fun j _ => if j = 0 then 1 else 2) ∧
    ∃ p, position sampleSegment.mydim sampleSegment.id 0 0 = some p ∧ Inner sampleSegment p := by
  have hleg : Legal sampleSegment := by constructor <;> norm_num [sampleSegment]
  refine ⟨hleg, ?_, ?_, ?_⟩
  · have hs : IsSimplexId sampleSegment.mydim sampleSegment.id := by
      intro k h1 h2
      have : sampleSegment.mydim = 1 := rfl
      omega
    intro k p hp j hj
    have := imageOf_simplex sampleSegment hs k p hp j hj
    rw [this]
    have hm : sampleSegment.mydim = 1 := rfl
    rw [hm, sum_range_one, sum_range_one]
    have hj : j < 2 := hj
    interval_cases j <;> simp [sampleSegment]
  · change LinearIndependent ℝ (fun _ : Fin 1 => (fun j : Fin 2 => if (j : ℕ) = 0 then (1 : ℝ) else 2))
    rw [linearIndependent_unique_iff]
    intro h
    have := congrFun h 0
    simp at this
  · obtain ⟨p, hp, hm⟩ := C21_mean (K := ℝ) 1 0 0 0 (by norm_num) (by norm_num) (by decide)
    refine ⟨p, hp, ?_⟩
    have := hm 0
    have h3 : refSize3 1 0 0 0 1 = 2 := by decide
    have h4 : subEntities 1 0 0 0 1 = [0, 1] := by decide
    have hc := C17_simplex (K := ℝ) 1 0 (by intro k h1 h2; omega)
    rw [h3, h4] at this
    simp [RefGeom.corner, hc] at this
    rw [Inner, checkInside_iff (rep_topoOf _ _)]
    have ht : topoOf sampleSegment.mydim sampleSegment.id = .prism .pt := by change topoOf 1 0 = _; decide
    rw [ht]
    refine ⟨?_, ?_, trivial⟩ <;> simp only [sampleSegment, Topo.dim] <;> linarith

/-- the hypotheses of C34 for exactly affine geometries can be met -/
example : ∃ g a M, Legal g ∧ ImageOf g a M ∧ FullRank g M ∧ ∃ p, position g.mydim g.id 0 0 = some p ∧ Inner g p :=
  ⟨_, _, _, sampleSegment_good⟩

end

end Verif.MultiLinear
