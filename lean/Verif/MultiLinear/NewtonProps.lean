import Verif.MultiLinear.Props

/-! Property C35: Newton's method in `local`. -/

namespace Verif.MultiLinear

open Verif.RefGeom Verif.MatHelp Verif.RefTopo Verif.Typ Finset
open MultiLinearGeometry
open Matrix hiding vec

noncomputable section

/-! ### helper lemmas -/

/-- the pseudo inverse of a matrix of full row rank -/
def pinv {m n : Nat} (A : Matrix (Fin m) (Fin n) ℝ) : Matrix (Fin n) (Fin m) ℝ := Aᵀ * (A * Aᵀ)⁻¹

theorem mul_pinv {m n : Nat} {A : Matrix (Fin m) (Fin n) ℝ} (hA : LinearIndependent ℝ A.row) : A * pinv A = 1 := by
  have hp := (aat_posDef_iff _).2 hA
  rw [pinv, ← Matrix.mul_assoc, mul_nonsing_inv _ ((isUnit_iff_isUnit_det _).1 hp.isUnit)]

theorem rightInvA_pinv {m n : Nat} {A : Mat ℝ} (hmn : m ≤ n) (hA : LinearIndependent ℝ (mat m n A).row) :
    ∃ R, rightInvA m n A = some (Real.sqrt (mat m n A * (mat m n A)ᵀ).det, R) ∧ mat n m R = pinv (mat m n A) :=
  rightInvA_eq hmn hA

theorem xTRightInvA_pinv {m n : Nat} {A : Mat ℝ} (x : Vec ℝ) (hmn : m ≤ n) (hA : LinearIndependent ℝ (mat m n A).row) :
    ∃ y, xTRightInvA m n A x = some (true, y) ∧ vec m y = vec n x ᵥ* pinv (mat m n A) := by
  obtain ⟨y, R, d, h1, h2, h3, _⟩ := C26_xTRightInvA m n A x hmn hA
  obtain ⟨R', h4, h5⟩ := rightInvA_pinv hmn hA
  rw [h4] at h2
  obtain ⟨_, rfl⟩ := Prod.mk.inj (Option.some.inj h2)
  exact ⟨y, h1, by rw [h3, h5]⟩

theorem jt_mat_exact {g : MultiLinearGeometry} (hg : Legal g) {a : Vec ℝ} {M : Mat ℝ} (h : ImageOf g a M) {x : Vec ℝ}
    (hx : Inner g x) : mat g.mydim g.cdim (g.jacobianTransposed x) = (mat g.cdim g.mydim M)ᵀ := by
  funext r j
  exact C32_affine g hg a M h x hx j r j.2 r.2

theorem jt_aff_exact {g : MultiLinearGeometry} (hg : Legal g) {a : Vec ℝ} {M : Mat ℝ} (h : ImageOf g a M) (jt : Mat ℝ) :
    mat g.mydim g.cdim (g.affineJ jt).2 = (mat g.cdim g.mydim M)ᵀ := by
  funext r j
  exact (C33_complete g hg a M h).2 jt r j r.2 j.2

theorem global_exact {g : MultiLinearGeometry} (hg : Legal g) {a : Vec ℝ} {M : Mat ℝ} (h : ImageOf g a M) {x : Vec ℝ}
    (hx : Inner g x) : vec g.cdim (g.global x) = vec g.cdim a + vec g.mydim x ᵥ* (mat g.cdim g.mydim M)ᵀ := by
  funext j
  rw [Matrix.vecMul_transpose]
  refine (C31_affine g hg a M h x hx j j.2).trans ?_
  rw [Pi.add_apply]
  congr 1
  rw [Matrix.mulVec, dotProduct]
  exact (Fin.sum_univ_eq_sum_range (fun r => M j r * x r) g.mydim).symm

theorem corner_zero {g : MultiLinearGeometry} (hg : Legal g) {a : Vec ℝ} {M : Mat ℝ} (h : ImageOf g a M) :
    g.corner 0 = some (g.corners_ 0) ∧ vec g.cdim (g.corners_ 0) = vec g.cdim a := by
  constructor
  · rw [MultiLinearGeometry.corner, if_pos]
    rw [corners, refSize, size_eq (rep_topoOf _ _) _ (le_refl _)]
    exact Topo.sz_pos _ _ (by rw [topo_dim])
  · funext j
    exact exact_zero (exact_of_imageOf h j j.2)

/-- the affine map has full rank -/
def FullRank (g : MultiLinearGeometry) (M : Mat ℝ) : Prop := LinearIndependent ℝ ((mat g.cdim g.mydim M)ᵀ).row

theorem fullRank_le {g : MultiLinearGeometry} {M : Mat ℝ} (h : FullRank g M) : g.mydim ≤ g.cdim := by
  have := h.fintype_card_le_finrank
  simpa using this

/-! ### C35 -/

/-- C35: the value returned is `x₀ - dx` where `dx` is the Gauss-Newton correction at the previous iterate `x₀`; for
geometries that do not report affine the squared norm of the correction is within the tolerance. -/
theorem C35_last_correction (g : MultiLinearGeometry) (y x : Vec ℝ) (fuel : Nat)
    (h : g.local_ fuel y = some (some (.point x))) :
    ∃ x₀ dx, xTRightInvA g.mydim g.cdim (g.jacobianTransposed x₀) (fun i => g.global x₀ i - y i) = some (true, dx) ∧
      (x = fun i => x₀ i - dx i) ∧
      (g.affine = false → ∑ i ∈ range g.mydim, dx i ^ 2 ≤ g.tol) ∧
      (g.affine = true → position g.mydim g.id 0 0 = some x₀) := by
  have key : ∀ (b : Bool) (fuel : Nat) (x₁ : Vec ℝ), g.newton b y fuel x₁ = some (some (.point x)) →
      ∃ x₀ dx, xTRightInvA g.mydim g.cdim (g.jacobianTransposed x₀) (fun i => g.global x₀ i - y i) = some (true, dx) ∧
      (x = fun i => x₀ i - dx i) ∧ (b = false → ∑ i ∈ range g.mydim, dx i ^ 2 ≤ g.tol) ∧ (b = true → x₀ = x₁) := by
    intro b fuel
    induction fuel with
    | zero => intro x₁ h; simp [newton] at h
    | succ fuel ih =>
      intro x₁ h
      rw [newton] at h
      split at h
      · simp at h
      · simp at h
      · rename_i dx hdx
        simp only at h
        cases b with
        | true =>
          simp only [if_true, Option.some.injEq, LocalResult.point.injEq] at h
          exact ⟨x₁, dx, hdx, h.symm, by simp, fun _ => rfl⟩
        | false =>
          simp only [Bool.false_eq_true, if_false] at h
          split_ifs at h with hn
          · obtain ⟨x₀, dx', h1, h2, h3, _⟩ := ih _ h
            exact ⟨x₀, dx', h1, h2, h3, by simp⟩
          · simp only [Option.some.injEq, LocalResult.point.injEq] at h
            refine ⟨x₁, dx, hdx, h.symm, fun _ => ?_, fun _ => rfl⟩
            rw [two_norm2_eq] at hn
            exact not_lt.1 hn
  rw [local_] at h
  split at h
  · simp at h
  · rename_i p hp
    obtain ⟨x₀, dx, h1, h2, h3, h4⟩ := key _ _ _ h
    exact ⟨x₀, dx, h1, h2, h3, fun ha => by rw [hp, h4 ha]⟩

/-- C35: the correction solves the linearised problem in the least squares sense; the vector of maxima is returned only
if the Jacobian of an iterate does not have full rank. -/
theorem C35_correction_meaning (g : MultiLinearGeometry) (hmn : g.mydim ≤ g.cdim) (x₀ r : Vec ℝ) :
    (∀ dx, xTRightInvA g.mydim g.cdim (g.jacobianTransposed x₀) r = some (true, dx) → ∀ z : Fin g.mydim → ℝ,
      (mat g.cdim g.mydim (g.jacobian x₀) *ᵥ vec g.mydim dx - vec g.cdim r) ⬝ᵥ
        (mat g.cdim g.mydim (g.jacobian x₀) *ᵥ vec g.mydim dx - vec g.cdim r) ≤
      (mat g.cdim g.mydim (g.jacobian x₀) *ᵥ z - vec g.cdim r) ⬝ᵥ (mat g.cdim g.mydim (g.jacobian x₀) *ᵥ z - vec g.cdim r)) ∧
    ((∃ dx, xTRightInvA g.mydim g.cdim (g.jacobianTransposed x₀) r = some (false, dx)) ↔
      ¬ LinearIndependent ℝ (mat g.cdim g.mydim (g.jacobian x₀)).col) := by
  have hT : mat g.cdim g.mydim (g.jacobian x₀) = (mat g.mydim g.cdim (g.jacobianTransposed x₀))ᵀ := rfl
  have hcol : (mat g.cdim g.mydim (g.jacobian x₀)).col = (mat g.mydim g.cdim (g.jacobianTransposed x₀)).row := rfl
  rw [hcol]
  by_cases hA : LinearIndependent ℝ (mat g.mydim g.cdim (g.jacobianTransposed x₀)).row
  · obtain ⟨y, R, d, h1, _, _, h4⟩ := C26_xTRightInvA g.mydim g.cdim (g.jacobianTransposed x₀) r hmn hA
    refine ⟨fun dx hdx z => ?_, ?_⟩
    · rw [h1] at hdx
      obtain ⟨_, rfl⟩ := Prod.mk.inj (Option.some.inj hdx)
      rw [hT]; exact h4 z
    · refine ⟨?_, fun h => absurd hA h⟩
      rintro ⟨dx, hdx⟩
      rw [h1] at hdx
      have := (Prod.mk.inj (Option.some.inj hdx)).1
      cases this
  · obtain ⟨y, h1⟩ := C26_xTRightInvA_singular g.mydim g.cdim (g.jacobianTransposed x₀) r hmn hA
    refine ⟨fun dx hdx => ?_, fun _ => hA, fun _ => ⟨y, h1⟩⟩
    rw [h1] at hdx
    have := (Prod.mk.inj (Option.some.inj hdx)).1
    cases this

/-- C35: more passes do not change a result, so the result is the one of the unbounded loop -/
theorem C35_fuel (g : MultiLinearGeometry) (y : Vec ℝ) (fuel more : Nat) (r : Option LocalResult)
    (h : g.local_ fuel y = some r) : g.local_ (fuel + more) y = some r := by
  have key : ∀ (b : Bool) (fuel : Nat) (x : Vec ℝ), g.newton b y fuel x = some r → g.newton b y (fuel + more) x = some r := by
    intro b fuel
    induction fuel with
    | zero => intro x h; simp [newton] at h
    | succ fuel ih =>
      intro x h
      rw [Nat.succ_add, newton]
      rw [newton] at h
      split at h
      · exact h
      · exact h
      · simp only at h ⊢
        split_ifs at h ⊢ with h1 h2
        · exact h
        · exact ih _ h
        · exact h
  rw [local_] at h ⊢
  split at h
  · exact h
  · exact key _ _ _ h

/-- C35: exactly affine geometries of full rank: one pass, whatever the point; the result is the least squares
solution, and for points of the image the exact pre-image. -/
theorem C35_affine (g : MultiLinearGeometry) (hg : Legal g) (a : Vec ℝ) (M : Mat ℝ) (h : ImageOf g a M)
    (hr : FullRank g M) (p : Vec ℝ) (hp : position g.mydim g.id 0 0 = some p) (hin : Inner g p) (y : Vec ℝ)
    (fuel : Nat) :
    ∃ x, g.local_ (fuel + 1) y = some (some (.point x)) ∧
      vec g.mydim x = (vec g.cdim y - vec g.cdim a) ᵥ* pinv (mat g.cdim g.mydim M)ᵀ ∧
      ∀ z : Vec ℝ, (∀ j, j < g.cdim → y j = a j + ∑ r ∈ range g.mydim, M j r * z r) → ∀ i, i < g.mydim → x i = z i := by
  have hmn := fullRank_le hr
  have hjt := jt_mat_exact hg h hin
  obtain ⟨dx, h1, h2⟩ := xTRightInvA_pinv (A := g.jacobianTransposed p) (fun i => g.global p i - y i) hmn
    (by rw [hjt]; exact hr)
  have haff := (C33_complete g hg a M h).1
  have hA := mul_pinv hr
  have hval : vec g.mydim (fun i => p i - dx i) = (vec g.cdim y - vec g.cdim a) ᵥ* pinv (mat g.cdim g.mydim M)ᵀ := by
    have e1 : vec g.mydim (fun i => p i - dx i) = vec g.mydim p - vec g.mydim dx := rfl
    have e2 : vec g.cdim (fun i => g.global p i - y i) = vec g.cdim (g.global p) - vec g.cdim y := rfl
    rw [e1, h2, e2, hjt, global_exact hg h hin, Matrix.sub_vecMul, Matrix.add_vecMul, Matrix.vecMul_vecMul, hA,
      Matrix.vecMul_one, Matrix.sub_vecMul]
    abel
  refine ⟨_, ?_, hval, ?_⟩
  · rw [local_, hp]
    simp only
    rw [newton, h1, haff]
    rfl
  · intro z hz i hi
    have hy : vec g.cdim y - vec g.cdim a = vec g.mydim z ᵥ* (mat g.cdim g.mydim M)ᵀ := by
      funext j
      rw [Matrix.vecMul_transpose, Pi.sub_apply]
      have := hz j j.2
      rw [vec, vec, this, Matrix.mulVec, dotProduct, add_sub_cancel_left]
      exact (Fin.sum_univ_eq_sum_range (fun r => M j r * z r) g.mydim).symm
    rw [hy, Matrix.vecMul_vecMul, hA, Matrix.vecMul_one] at hval
    exact congrFun hval ⟨i, hi⟩

/-- C35: `local` of the image of the centre returns the centre at once -/
theorem C35_center (g : MultiLinearGeometry) (hmn : g.mydim ≤ g.cdim) (htol : 0 ≤ g.tol) (p : Vec ℝ)
    (hp : position g.mydim g.id 0 0 = some p)
    (hr : LinearIndependent ℝ (mat g.mydim g.cdim (g.jacobianTransposed p)).row) (fuel : Nat) :
    ∃ x, g.local_ (fuel + 1) (g.global p) = some (some (.point x)) ∧ ∀ i, i < g.mydim → x i = p i := by
  obtain ⟨dx, h1, h2⟩ := xTRightInvA_pinv (A := g.jacobianTransposed p) (fun i => g.global p i - g.global p i) hmn hr
  have h0 : vec g.cdim (fun i => g.global p i - g.global p i) = 0 := by funext i; simp [vec]
  rw [h0, Matrix.zero_vecMul] at h2
  have hz : ∀ i, i < g.mydim → dx i = 0 := fun i hi => congrFun h2 ⟨i, hi⟩
  refine ⟨fun i => p i - dx i, ?_, fun i hi => by simp only [hz i hi, sub_zero]⟩
  rw [local_, hp]
  simp only
  rw [newton, h1]
  simp only
  have hn : ¬ (two_norm2 g.mydim dx > g.tol) := by
    rw [two_norm2_eq, sum_eq_zero fun i hi => by rw [hz i (mem_range.1 hi)]; norm_num]
    exact not_lt.2 htol
  split_ifs <;> rfl

/-- what one would like: the loop ends, at least for maps that are one-to-one on the element -/
def C35_terminates_full : Prop := ∀ (g : MultiLinearGeometry), Legal g → g.mydim ≤ g.cdim →
  (∀ x, x ∈ domain ℝ g.mydim g.id → LinearIndependent ℝ (mat g.mydim g.cdim (g.jacobianTransposed x)).row) →
  ∀ y, ∃ fuel, g.local_ fuel y ≠ none

/-- a convex kite: `(x, y) ↦ (x - y, (x + 1/2) (y + 1/2))` -/
def kite : MultiLinearGeometry where
  mydim := 2
  cdim := 2
  id := 3
  corners_ := fun k j => if j = 0 then (if k = 1 then 1 else if k = 2 then -1 else 0)
    else if k = 0 then 1 / 4 else if k = 3 then 9 / 4 else 3 / 4
  tol := 1 / 1000

theorem kite_legal : Legal kite := by
  constructor <;> norm_num [kite]

theorem kite_topo : topoOf kite.mydim kite.id = .prism (.prism .pt) := by
  change topoOf 2 3 = _
  decide

theorem kite_global (x : Vec ℝ) : kite.global x 0 = x 0 - x 1 ∧ kite.global x 1 = (x 0 + 1 / 2) * (x 1 + 1 / 2) := by
  have h1 : nv (.prism .pt) = 2 := rfl
  have h2 : nv .pt = 1 := rfl
  constructor <;>
  · rw [global_eq _ kite_legal.id_lt, kite_topo]
    simp [ML, Topo.dim, h1, h2, kite]
    ring

theorem kite_jt (x : Vec ℝ) : kite.jacobianTransposed x 0 0 = 1 ∧ kite.jacobianTransposed x 1 0 = -1 ∧
    kite.jacobianTransposed x 0 1 = x 1 + 1 / 2 ∧ kite.jacobianTransposed x 1 1 = x 0 + 1 / 2 := by
  have h1 : nv (.prism .pt) = 2 := rfl
  have h2 : nv .pt = 1 := rfl
  refine ⟨?_, ?_, ?_, ?_⟩ <;>
  · rw [jt_eq _ kite_legal.id_lt _ _ _ (by change _ < 2; norm_num), kite_topo]
    simp [MLd, ML, Topo.dim, h1, h2, kite]
    try ring

theorem kite_li (x : Vec ℝ) (h : x 0 + x 1 + 1 ≠ 0) :
    LinearIndependent ℝ (mat kite.mydim kite.cdim (kite.jacobianTransposed x)).row := by
  change LinearIndependent ℝ (mat 2 2 (kite.jacobianTransposed x)).row
  obtain ⟨e1, e2, e3, e4⟩ := kite_jt x
  rw [linearIndependent_rows_iff_isUnit, isUnit_iff_isUnit_det, det_fin_two, isUnit_iff_ne_zero]
  change kite.jacobianTransposed x 0 0 * kite.jacobianTransposed x 1 1 -
    kite.jacobianTransposed x 0 1 * kite.jacobianTransposed x 1 0 ≠ 0
  rw [e1, e2, e3, e4]
  intro hc
  apply h
  linarith

theorem kite_center : ∃ p, position (K := ℝ) kite.mydim kite.id 0 0 = some p ∧ p 0 = 1 / 2 ∧ p 1 = 1 / 2 := by
  obtain ⟨p, hp, hm⟩ := C21_mean (K := ℝ) 2 3 0 0 (by norm_num) (by norm_num) (by decide)
  refine ⟨p, hp, ?_, ?_⟩
  · have := hm 0
    have h3 : refSize3 2 3 0 0 2 = 4 := by decide
    have h4 : subEntities 2 3 0 0 2 = [0, 1, 2, 3] := by decide
    rw [h3, h4] at this
    have hc := C17_cube (K := ℝ) 2 3 (by intro k h1 h2; interval_cases k; rfl)
    simp [RefGeom.corner, hc, List.range_succ] at this
    linarith
  · have := hm 1
    have h3 : refSize3 2 3 0 0 2 = 4 := by decide
    have h4 : subEntities 2 3 0 0 2 = [0, 1, 2, 3] := by decide
    rw [h3, h4] at this
    have hc := C17_cube (K := ℝ) 2 3 (by intro k h1 h2; interval_cases k; rfl)
    simp [RefGeom.corner, hc, List.range_succ] at this
    have t1 : Nat.testBit 1 1 = false := by decide
    have t2 : Nat.testBit 2 1 = true := by decide
    have t3 : Nat.testBit 3 1 = true := by decide
    simp only [t1, t2, t3] at this
    norm_num at this
    linarith

theorem kite_not_affine : kite.affine = false := by
  rw [← Bool.not_eq_true, affine_iff _ kite_legal.id_lt, kite_topo]
  rintro ⟨_, _, h⟩
  have h1 : nv (.prism .pt) = 2 := rfl
  have h2 : nv .pt = 1 := rfl
  have hc : kite.cdim = 2 := rfl
  simp only [gap, Topo.dim, zero_add, range_one, sum_singleton, sum_range_succ, ajt, if_true, h1, h2, hc] at h
  norm_num [kite] at h

/-- one pass from `(u - 1/2, u - 1/2)` with `u² = 1` goes to `(-u - 1/2, -u - 1/2)` -/
theorem kite_step (x : Vec ℝ) (u : ℝ) (hu : u = 1 ∨ u = -1) (h0 : x 0 = u - 1 / 2) (h1 : x 1 = u - 1 / 2) :
    ∃ dx, xTRightInvA kite.mydim kite.cdim (kite.jacobianTransposed x)
      (fun i => kite.global x i - (if i = 0 then 0 else -3)) = some (true, dx) ∧ dx 0 = 2 * u ∧ dx 1 = 2 * u := by
  have hne : x 0 + x 1 + 1 ≠ 0 := by
    rw [h0, h1]
    rcases hu with rfl | rfl <;> norm_num
  have hli := kite_li x hne
  obtain ⟨dx, e1, e2⟩ := xTRightInvA_pinv (A := kite.jacobianTransposed x)
    (fun i => kite.global x i - (if i = 0 then 0 else -3)) (le_refl 2) hli
  refine ⟨dx, e1, ?_⟩
  have hA := mul_pinv hli
  have hB : pinv (mat 2 2 (kite.jacobianTransposed x)) * mat 2 2 (kite.jacobianTransposed x) = 1 := mul_eq_one_comm.1 hA
  have e3 : vec 2 dx ᵥ* mat 2 2 (kite.jacobianTransposed x) =
      vec 2 (fun i => kite.global x i - (if i = 0 then 0 else -3)) := by
    have : vec 2 dx = vec 2 (fun i => kite.global x i - (if i = 0 then 0 else -3)) ᵥ*
      pinv (mat 2 2 (kite.jacobianTransposed x)) := e2
    rw [this, Matrix.vecMul_vecMul, hB, Matrix.vecMul_one]
  obtain ⟨j1, j2, j3, j4⟩ := kite_jt x
  obtain ⟨g1, g2⟩ := kite_global x
  have c0 := congrFun e3 0
  have c1 := congrFun e3 1
  have d0 : dx 0 * kite.jacobianTransposed x 0 0 + dx 1 * kite.jacobianTransposed x 1 0 = kite.global x 0 - 0 := by
    simpa [Matrix.vecMul, dotProduct, Fin.sum_univ_two, vec, mat] using c0
  have d1 : dx 0 * kite.jacobianTransposed x 0 1 + dx 1 * kite.jacobianTransposed x 1 1 = kite.global x 1 - (-3) := by
    simpa [Matrix.vecMul, dotProduct, Fin.sum_univ_two, vec, mat] using c1
  rw [j1, j2, g1, h0, h1] at d0
  rw [j3, j4, g2, h0, h1] at d1
  rcases hu with rfl | rfl
  · constructor <;> linarith
  · constructor <;> linarith

/-- C35: Newton's method is not safeguarded.  For a convex quadrilateral with positive Jacobian determinant everywhere
on the element, and the point `(0, -3)` below it, the iterates jump between two points and the loop does not end. -/
theorem C35_terminates_counterexample : ¬ C35_terminates_full := by
  intro h
  have hdom : ∀ x, x ∈ domain ℝ kite.mydim kite.id →
      LinearIndependent ℝ (mat kite.mydim kite.cdim (kite.jacobianTransposed x)).row := by
    intro x hx
    have h01 : 0 ≤ x 0 ∧ 0 ≤ x 1 := by
      have hconv : Convex ℝ {x : Vec ℝ | 0 ≤ x 0 ∧ 0 ≤ x 1} := by
        intro x hx y hy s t hs ht _
        exact ⟨add_nonneg (mul_nonneg hs hx.1) (mul_nonneg ht hy.1), add_nonneg (mul_nonneg hs hx.2) (mul_nonneg ht hy.2)⟩
      refine convexHull_min ?_ hconv hx
      intro c hc
      have := C17_coordinates (K := ℝ) kite.mydim kite.id c hc
      constructor
      · rcases (this 0).1 with h | h <;> rw [h]; norm_num
      · rcases (this 1).1 with h | h <;> rw [h]; norm_num
    exact kite_li x (by linarith [h01.1, h01.2])
  obtain ⟨fuel, hf⟩ := h kite kite_legal (le_refl 2) hdom (fun i => if i = 0 then 0 else -3)
  apply hf
  have key : ∀ (fuel : Nat) (x : Vec ℝ) (u : ℝ), (u = 1 ∨ u = -1) → x 0 = u - 1 / 2 → x 1 = u - 1 / 2 →
      kite.newton false (fun i => if i = 0 then 0 else -3) fuel x = none := by
    intro fuel
    induction fuel with
    | zero => intro x u _ _ _; rfl
    | succ fuel ih =>
      intro x u hu h0 h1
      obtain ⟨dx, e1, e2, e3⟩ := kite_step x u hu h0 h1
      rw [newton, e1]
      simp only [Bool.false_eq_true, if_false]
      rw [if_pos]
      · refine ih _ (-u) ?_ ?_ ?_
        · rcases hu with rfl | rfl
          · right; rfl
          · left; norm_num
        · rw [h0, e2]; ring
        · rw [h1, e3]; ring
      · rw [two_norm2_eq]
        change ∑ j ∈ range 2, dx j ^ 2 > 1 / 1000
        rw [sum_range_succ, sum_range_one, e2, e3]
        rcases hu with rfl | rfl <;> norm_num
  obtain ⟨p, hp, p0, p1⟩ := kite_center
  rw [local_, hp]
  simp only
  rw [kite_not_affine]
  exact key fuel p 1 (Or.inl rfl) (by rw [p0]; norm_num) (by rw [p1]; norm_num)

/-- the hypotheses of `C35_center` at the kite -/
example : ∃ p, position (K := ℝ) kite.mydim kite.id 0 0 = some p ∧
    LinearIndependent ℝ (mat kite.mydim kite.cdim (kite.jacobianTransposed p)).row := by
  obtain ⟨p, hp, p0, p1⟩ := kite_center
  exact ⟨p, hp, kite_li p (by rw [p0, p1]; norm_num)⟩

end

end Verif.MultiLinear
