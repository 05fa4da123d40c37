import Verif.Motion.Lemmas
import Verif.Affine.Props
import Verif.Mapped.Props
import Verif.Quad.InverseProps

/-!
Property C96: moving and scaling the world.  A geometry built from moved corners describes the moved element: `global`,
Jacobians, integration elements and volumes transform as under the motion, and `local` finds the same points.
-/

namespace Verif.Motion

open Verif.RefGeom Verif.RefTopo Verif.MatHelp Verif.MultiLinear Verif.MultiLinear.MultiLinearGeometry Finset
open Matrix hiding vec

noncomputable section

/-- where the multilinear map reproduces constants: everywhere for cubes, away from the tips of the pyramids otherwise;
no condition if the motion leaves the origin fixed -/
def Clear (g : MultiLinearGeometry) (T : Similarity g.cdim) (x : Vec ℝ) : Prop :=
  T.b = 0 ∨ IsCubeId g.mydim g.id ∨ Inner g x

/-- the two runs of `local` end in the same way, and points agree in the components that are used -/
def SameResult (m : Nat) : Option (Option LocalResult) → Option (Option LocalResult) → Prop
  | none, none => True
  | some none, some none => True
  | some (some .singular), some (some .singular) => True
  | some (some (.point x)), some (some (.point x')) => ∀ i, i < m → x i = x' i
  | _, _ => False

/-! ### helper lemmas -/

theorem clear_away {g : MultiLinearGeometry} (hg : Legal g) {T : Similarity g.cdim} {x : Vec ℝ} (h : Clear g T x)
    (j : Fin g.cdim) : T.b j = 0 ∨ Away g.tol (topoOf g.mydim g.id) x := by
  rcases h with h | h | h
  · left; rw [h]; rfl
  · right; rw [topoOf_cube _ _ h]; exact away_cube _ _
  · exact Or.inr (away_of_inner hg h)

theorem moved_corner (g : MultiLinearGeometry) (T : Similarity g.cdim) (j : Fin g.cdim) :
    (fun k => (moved g T).corners_ k j) = fun k => ∑ i : Fin g.cdim, T.linear j i * g.corners_ k i + T.b j := by
  funext k
  exact move_apply T (g.corners_ k) j

theorem moved_legal {g : MultiLinearGeometry} (hg : Legal g) (T : Similarity g.cdim) : Legal (moved g T) :=
  ⟨hg.id_lt, hg.tol_pos, hg.tol_lt⟩

theorem jt_moved (g : MultiLinearGeometry) (hg : Legal g) (T : Similarity g.cdim) (x : Vec ℝ) (hx : Clear g T x) :
    mat g.mydim g.cdim ((moved g T).jacobianTransposed x) =
      mat g.mydim g.cdim (g.jacobianTransposed x) * T.linearᵀ := by
  ext r j
  rw [mul_apply]
  simp only [mat, of_apply, transpose_apply]
  rw [jt_eq (moved g T) hg.id_lt x r j r.2, moved_corner]
  change MLd g.tol (topoOf g.mydim g.id) _ x r = _
  rw [MLd_add, MLd_sum, MLd_const hg.tol_pos.le _ _ _ (clear_away hg hx j) _ (by rw [topo_dim]; exact r.2), add_zero]
  refine sum_congr rfl fun i _ => ?_
  rw [jt_eq g hg.id_lt x r i r.2, mul_comm]

/-! ### C96 -/

/-- C96: `global` of the moved geometry is the moved `global`. -/
theorem C96_global (g : MultiLinearGeometry) (hg : Legal g) (T : Similarity g.cdim) (x : Vec ℝ) (hx : Clear g T x) :
    vec g.cdim ((moved g T).global x) = T.apply (vec g.cdim (g.global x)) := by
  funext j
  change (moved g T).global x j = _
  rw [global_eq (moved g T) hg.id_lt, moved_corner, apply_eq]
  change ML g.tol (topoOf g.mydim g.id) _ x = _
  rw [ML_add, ML_sum, ML_const hg.tol_pos.le _ _ _ (clear_away hg hx j)]
  simp only [Pi.add_apply, mulVec, dotProduct, vec]
  congr 1
  exact sum_congr rfl fun i _ => by rw [global_eq g hg.id_lt]

/-- C96: the Jacobian is multiplied by the linear part of the motion. -/
theorem C96_jacobian (g : MultiLinearGeometry) (hg : Legal g) (T : Similarity g.cdim) (x : Vec ℝ) (hx : Clear g T x) :
    mat g.cdim g.mydim ((moved g T).jacobian x) = T.s • (T.Q * mat g.cdim g.mydim (g.jacobian x)) := by
  have h := congrArg transpose (jt_moved g hg T x hx)
  rw [transpose_mul, transpose_transpose, Similarity.linear, smul_mul] at h
  exact h

/-- C96: integration elements are multiplied by `s ^ mydim`; if one is not available, neither is the other. -/
theorem C96_integrationElement (g : MultiLinearGeometry) (hg : Legal g) (hmn : g.mydim ≤ g.cdim) (T : Similarity g.cdim)
    (x : Vec ℝ) (hx : Clear g T x) :
    (moved g T).integrationElement x = (g.integrationElement x).map (T.s ^ g.mydim * ·) := by
  have h := jt_moved g hg T x hx
  have hl := li_moved T (mat g.mydim g.cdim (g.jacobianTransposed x))
  rw [← h] at hl
  have hd := det_moved T (mat g.mydim g.cdim (g.jacobianTransposed x))
  rw [← h] at hd
  change sqrtDetAAT g.mydim g.cdim _ = (sqrtDetAAT g.mydim g.cdim _).map _
  by_cases hc : LinearIndependent ℝ (mat g.mydim g.cdim (g.jacobianTransposed x)).row ∨ g.cdim < g.mydim ∨
      (g.cdim = 2 ∧ g.mydim = 2) ∨ (g.cdim = 3 ∧ g.mydim = 3) ∨ (g.cdim = 3 ∧ g.mydim = 2)
  · rw [C27_sqrtDetAAT_partial _ _ (g.jacobianTransposed x) hc,
      C27_sqrtDetAAT_partial _ _ ((moved g T).jacobianTransposed x) (hc.imp hl.2 id), Option.map_some, hd]
  · push Not at hc
    obtain ⟨h1, _, h3, h4, h5⟩ := hc
    have h3' : ¬ (g.cdim = 2 ∧ g.mydim = 2) := fun h => h3 h.1 h.2
    have h4' : ¬ (g.cdim = 3 ∧ g.mydim = 3) := fun h => h4 h.1 h.2
    have h5' : ¬ (g.cdim = 3 ∧ g.mydim = 2) := fun h => h5 h.1 h.2
    rw [C27_sqrtDetAAT_singular _ _ (g.jacobianTransposed x) hmn h3' h4' h5' h1,
      C27_sqrtDetAAT_singular _ _ ((moved g T).jacobianTransposed x) hmn h3' h4' h5' (hl.not.2 h1)]
    rfl

/-- C96: the transposed inverse of the Jacobian is rotated and divided by `s`, and both are available at the same
points. -/
theorem C96_jacobianInverseTransposed (g : MultiLinearGeometry) (hg : Legal g) (hmn : g.mydim ≤ g.cdim)
    (T : Similarity g.cdim) (x : Vec ℝ) (hx : Clear g T x) :
    ((moved g T).jacobianInverseTransposed x = none ↔ g.jacobianInverseTransposed x = none) ∧
    ∀ d B d' B', g.jacobianInverseTransposed x = some (d, B) → (moved g T).jacobianInverseTransposed x = some (d', B') →
      d' = T.s ^ g.mydim * d ∧ mat g.cdim g.mydim B' = T.s⁻¹ • (T.Q * mat g.cdim g.mydim B) := by
  have h := jt_moved g hg T x hx
  have hl := li_moved T (mat g.mydim g.cdim (g.jacobianTransposed x))
  rw [← h] at hl
  have hd := det_moved T (mat g.mydim g.cdim (g.jacobianTransposed x))
  rw [← h] at hd
  change (rightInvA g.mydim g.cdim ((moved g T).jacobianTransposed x) = none ↔
    rightInvA g.mydim g.cdim (g.jacobianTransposed x) = none) ∧ ∀ d B d' B',
    rightInvA g.mydim g.cdim (g.jacobianTransposed x) = some (d, B) →
    rightInvA g.mydim g.cdim ((moved g T).jacobianTransposed x) = some (d', B') → _
  by_cases hc : LinearIndependent ℝ (mat g.mydim g.cdim (g.jacobianTransposed x)).row
  · obtain ⟨R, e1, e2⟩ := rightInvA_pinv hmn hc
    obtain ⟨R', e1', e2'⟩ := rightInvA_pinv hmn (hl.2 hc)
    rw [e1, e1']
    refine ⟨by simp, fun d B d' B' h1 h2 => ?_⟩
    injection h1 with h1
    injection h2 with h2
    obtain ⟨rfl, rfl⟩ := Prod.mk.inj h1
    obtain ⟨rfl, rfl⟩ := Prod.mk.inj h2
    refine ⟨hd, ?_⟩
    rw [e2, e2', h, pinv_moved T hc]
  · rw [rightInvA_none hmn hc, rightInvA_none hmn (hl.not.2 hc)]
    simp

/-- C96: the volume is multiplied by `s ^ mydim` (the centre of the reference element must be clear). -/
theorem C96_volume (g : MultiLinearGeometry) (hg : Legal g) (hmn : g.mydim ≤ g.cdim) (T : Similarity g.cdim)
    (p : Vec ℝ) (hp : position g.mydim g.id 0 0 = some p) (hx : Clear g T p) :
    (moved g T).volume = g.volume.map (T.s ^ g.mydim * ·) := by
  have h := C96_integrationElement g hg hmn T p hx
  have hp' : position (moved g T).mydim (moved g T).id 0 0 = some p := hp
  rw [volume, volume, hp, hp']
  simp only [Option.bind_eq_bind, Option.bind_some, h]
  cases g.integrationElement p with
  | none => rfl
  | some v =>
    simp only [Option.map_some, Option.bind_some, Option.pure_def]
    change some (_ * referenceVolume g.mydim g.id) = _
    rw [mul_assoc]

/-! #### the affinity test -/

theorem gap_moved {n : Nat} (T : Similarity n) (t : Topo) (c c' : Nat → Vec ℝ) :
    gap n t (fun k => T.move (c k)) (fun k => T.move (c' k)) = T.s ^ 2 * gap n t c c' := by
  rw [gap, gap, mul_sum]
  refine sum_congr rfl fun i hi => ?_
  have key : ∀ (v : Vec ℝ), ∑ j ∈ range n, v j ^ 2 = vec n v ⬝ᵥ vec n v := by
    intro v
    rw [dotProduct, ← sum_fin n fun j => v j ^ 2]
    exact sum_congr rfl fun j _ => sq _
  rw [key fun j => _, key fun j => _, ← dot_linear]
  have e : (vec n fun j => ajt t (fun k => T.move (c' k) j) i - ajt t (fun k => T.move (c k) j) i) =
      T.linear *ᵥ vec n fun j => ajt t (fun k => c' k j) i - ajt t (fun k => c k j) i := by
    funext j
    simp only [vec]
    have h : ∀ c : Nat → Vec ℝ, ajt t (fun k => T.move (c k) j) i =
        ∑ l : Fin n, T.linear j l * ajt t (fun k => c k l) i := by
      intro c
      rw [← ajt_comb (T.linear j) (T.b j) t (fun l k => c k l) i (mem_range.1 hi)]
      congr 1
      funext k
      exact move_apply T (c k) j
    rw [h, h, ← sum_sub_distrib]
    exact sum_congr rfl fun l _ => (mul_sub _ _ _).symm
  rw [e]

theorem isAff_moved {n : Nat} (T : Similarity n) (tol : ℝ) : ∀ (t : Topo) (c : Nat → Vec ℝ),
    IsAff tol n t (fun k => T.move (c k)) ↔ IsAff (tol / T.s ^ 2) n t c
  | .pt, _ => Iff.rfl
  | .prism t, c => by
    have hs : 0 < T.s ^ 2 := pow_pos T.s_pos 2
    simp only [IsAff]
    rw [isAff_moved T tol t, isAff_moved T tol t fun k => c (nv t + k), gap_moved T t c fun k => c (nv t + k),
      lt_div_iff₀ hs, mul_comm (gap _ _ _ _)]
  | .pyr t, c => by
    simp only [IsAff]
    rw [isAff_moved T tol t]

/-- the tolerance of the affinity test of the moved geometry, measured in the units of the original one, is
`tol / s²` -/
theorem affine_moved (g : MultiLinearGeometry) (hg : Legal g) (T : Similarity g.cdim) :
    (moved g T).affine = ({ g with tol := g.tol / T.s ^ 2 } : MultiLinearGeometry).affine := by
  rw [Bool.eq_iff_iff, affine_iff (moved g T) hg.id_lt, affine_iff _ (by exact hg.id_lt)]
  exact isAff_moved T g.tol _ g.corners_

/-- C96: rotations, reflections and shifts do not change the answer of `affine()`. -/
theorem C96_affine_isometry (g : MultiLinearGeometry) (hg : Legal g) (T : Similarity g.cdim) (hs : T.s = 1) :
    (moved g T).affine = g.affine := by
  rw [affine_moved g hg, hs, one_pow, div_one]

theorem isAff_mono {n : Nat} {tol tol' : ℝ} (h : tol ≤ tol') : ∀ (t : Topo) (c : Nat → Vec ℝ),
    IsAff tol n t c → IsAff tol' n t c
  | .pt, _, h' => h'
  | .prism t, c, ⟨h1, h2, h3⟩ => ⟨isAff_mono h t _ h1, isAff_mono h t _ h2, lt_of_lt_of_le h3 h⟩
  | .pyr t, c, h' => isAff_mono h t _ h'

/-- C96: an affine geometry stays affine when it gets smaller. -/
theorem C96_affine_smaller (g : MultiLinearGeometry) (hg : Legal g) (T : Similarity g.cdim) (hs : T.s ≤ 1)
    (h : g.affine = true) : (moved g T).affine = true := by
  rw [affine_moved g hg, affine_iff _ (by exact hg.id_lt)]
  rw [affine_iff _ hg.id_lt] at h
  refine isAff_mono ?_ _ _ h
  change g.tol ≤ g.tol / T.s ^ 2
  rw [le_div_iff₀ (pow_pos T.s_pos 2)]
  have : T.s ^ 2 ≤ 1 := pow_le_one₀ T.s_pos.le hs
  nlinarith [hg.tol_pos]

/-- C96: the image of the reference element under an affine map is reported as affine whatever its size. -/
theorem C96_affine_exact (g : MultiLinearGeometry) (hg : Legal g) (T : Similarity g.cdim) (a : Vec ℝ) (M : Mat ℝ)
    (h : ImageOf g a M) : (moved g T).affine = true := by
  rw [affine_moved g hg]
  refine (affine_iff _ (by exact hg.id_lt)).2 (isAff_exact ?_ _ _ _ a (fun r j => M j r) fun j hj => exact_of_imageOf h j hj)
  have := hg.tol_pos
  have := T.s_pos
  change 0 < g.tol / T.s ^ 2
  positivity

/-! #### local -/

theorem xT_moved {m n : Nat} (T : Similarity n) (hmn : m ≤ n) {A A' : Mat ℝ} {v v' : Vec ℝ}
    (hA : mat m n A' = mat m n A * T.linearᵀ) (hv : vec n v' = T.linear *ᵥ vec n v) :
    (LinearIndependent ℝ (mat m n A).row ∧ ∃ dx dx', xTRightInvA m n A v = some (true, dx) ∧
      xTRightInvA m n A' v' = some (true, dx') ∧ ∀ i, i < m → dx i = dx' i) ∨
    (¬ LinearIndependent ℝ (mat m n A).row ∧ ∃ y y', xTRightInvA m n A v = some (false, y) ∧
      xTRightInvA m n A' v' = some (false, y')) := by
  by_cases hc : LinearIndependent ℝ (mat m n A).row
  · left
    refine ⟨hc, ?_⟩
    have hc' : LinearIndependent ℝ (mat m n A').row := by rw [hA]; exact (li_moved T _).2 hc
    obtain ⟨dx, e1, e2⟩ := xTRightInvA_pinv v hmn hc
    obtain ⟨dx', e1', e2'⟩ := xTRightInvA_pinv v' hmn hc'
    refine ⟨dx, dx', e1, e1', fun i hi => ?_⟩
    rw [hA, hv, correction_moved T hc, ← e2] at e2'
    exact (congrFun e2' ⟨i, hi⟩).symm
  · right
    refine ⟨hc, ?_⟩
    have hc' : ¬ LinearIndependent ℝ (mat m n A').row := by rw [hA]; exact (li_moved T _).not.2 hc
    obtain ⟨y, hy⟩ := C26_xTRightInvA_singular m n A v hmn hc
    obtain ⟨y', hy'⟩ := C26_xTRightInvA_singular m n A' v' hmn hc'
    exact ⟨y, y', hy, hy'⟩

theorem two_norm2_congr {m : Nat} {v v' : Vec ℝ} (h : ∀ i, i < m → v i = v' i) : two_norm2 m v = two_norm2 m v' := by
  rw [two_norm2_eq, two_norm2_eq]
  exact sum_congr rfl fun i hi => by rw [h i (mem_range.1 hi)]

theorem global_congr {g : MultiLinearGeometry} (hid : g.id < 2 ^ g.mydim) {x x' : Vec ℝ}
    (h : ∀ i, i < g.mydim → x i = x' i) : g.global x = g.global x' := by
  rw [Quad.global_ext hid x, Quad.global_ext hid x', show vec g.mydim x = vec g.mydim x' from funext fun i => h i i.2]

theorem jt_congr {g : MultiLinearGeometry} (hid : g.id < 2 ^ g.mydim) {x x' : Vec ℝ}
    (h : ∀ i, i < g.mydim → x i = x' i) :
    mat g.mydim g.cdim (g.jacobianTransposed x) = mat g.mydim g.cdim (g.jacobianTransposed x') := by
  rw [Quad.jt_ext hid x, Quad.jt_ext hid x', show vec g.mydim x = vec g.mydim x' from funext fun i => h i i.2]

/-- one step of the two runs -/
theorem step_moved (g : MultiLinearGeometry) (hg : Legal g) (hmn : g.mydim ≤ g.cdim) (T : Similarity g.cdim)
    (y x x' : Vec ℝ) (hx : Clear g T x) (hxx : ∀ i, i < g.mydim → x i = x' i) :
    (LinearIndependent ℝ (mat g.mydim g.cdim (g.jacobianTransposed x)).row ∧ ∃ dx dx',
      xTRightInvA g.mydim g.cdim (g.jacobianTransposed x) (fun i => g.global x i - y i) = some (true, dx) ∧
      xTRightInvA g.mydim g.cdim ((moved g T).jacobianTransposed x') (fun i => (moved g T).global x' i - T.move y i) =
        some (true, dx') ∧ ∀ i, i < g.mydim → dx i = dx' i) ∨
    (¬ LinearIndependent ℝ (mat g.mydim g.cdim (g.jacobianTransposed x)).row ∧ ∃ z z',
      xTRightInvA g.mydim g.cdim (g.jacobianTransposed x) (fun i => g.global x i - y i) = some (false, z) ∧
      xTRightInvA g.mydim g.cdim ((moved g T).jacobianTransposed x') (fun i => (moved g T).global x' i - T.move y i) =
        some (false, z')) := by
  apply xT_moved T hmn
  · rw [← jt_moved g hg T x hx]
    exact (jt_congr (g := moved g T) hg.id_lt hxx).symm
  · have e1 := C96_global g hg T x hx
    rw [global_congr (g := moved g T) hg.id_lt hxx] at e1
    have e2 := vec_move T y
    change vec g.cdim ((moved g T).global x') - vec g.cdim (T.move y) = T.linear *ᵥ (vec g.cdim (g.global x) - vec g.cdim y)
    rw [e1, e2, apply_sub]

theorem newton_moved (g : MultiLinearGeometry) (hg : Legal g) (hmn : g.mydim ≤ g.cdim) (T : Similarity g.cdim)
    (y : Vec ℝ) (a : Bool) (ha : a = true ∨ T.b = 0 ∨ IsCubeId g.mydim g.id) : ∀ (fuel : Nat) (x x' : Vec ℝ),
    Clear g T x → (∀ i, i < g.mydim → x i = x' i) →
    SameResult g.mydim (g.newton a y fuel x) ((moved g T).newton a (T.move y) fuel x')
  | 0, _, _, _, _ => trivial
  | fuel + 1, x, x', hx, hxx => by
    rcases step_moved g hg hmn T y x x' hx hxx with ⟨_, dx, dx', e1, e2, e3⟩ | ⟨_, z, z', e1, e2⟩
    · have e2' : xTRightInvA (moved g T).mydim (moved g T).cdim ((moved g T).jacobianTransposed x')
        (fun i => (moved g T).global x' i - T.move y i) = some (true, dx') := e2
      rw [newton, newton, e1, e2']
      have hd : ∀ i, i < g.mydim → x i - dx i = x' i - dx' i := fun i hi => by rw [hxx i hi, e3 i hi]
      have hn : two_norm2 (moved g T).mydim dx' = two_norm2 g.mydim dx := (two_norm2_congr e3).symm
      have ht : (moved g T).tol = g.tol := rfl
      simp only [hn, ht]
      cases a with
      | true => exact hd
      | false =>
        have hb : T.b = 0 ∨ IsCubeId g.mydim g.id := by simpa using ha
        by_cases h : two_norm2 g.mydim dx > g.tol
        · simp only [Bool.false_eq_true, if_false, h, if_true]
          exact newton_moved g hg hmn T y false ha fuel _ _ (hb.imp id Or.inl) hd
        · simp only [Bool.false_eq_true, if_false, h]
          exact hd
    · have e2' : xTRightInvA (moved g T).mydim (moved g T).cdim ((moved g T).jacobianTransposed x')
        (fun i => (moved g T).global x' i - T.move y i) = some (false, z') := e2
      rw [newton, newton, e1, e2']
      trivial

/-- C96, full statement: `local` of the moved geometry, applied to the moved point, gives the same local coordinates,
for every cube topology and every similarity. -/
def C96_local_full : Prop := ∀ (g : MultiLinearGeometry), Legal g → g.mydim ≤ g.cdim → IsCubeId g.mydim g.id →
  ∀ (T : Similarity g.cdim) (y : Vec ℝ) (fuel : Nat) (r : Option LocalResult), g.local_ fuel y = some r →
  SameResult g.mydim (some r) ((moved g T).local_ fuel (T.move y))

/-- C96, proved part: this holds whenever both geometries give the same answer to `affine()`, so for all rotations,
reflections and shifts.  For topologies that are not cubes the motion must fix the origin, or the geometry be affine
(then one step from the centre suffices).  Missing: motions that change the answer of `affine()`, which happens for
small elements, since the tolerance of the test is absolute (see the counterexample). -/
theorem C96_local_partial (g : MultiLinearGeometry) (hg : Legal g) (hmn : g.mydim ≤ g.cdim) (T : Similarity g.cdim)
    (p : Vec ℝ) (hp : position g.mydim g.id 0 0 = some p) (hx : Clear g T p)
    (hc : g.affine = true ∨ T.b = 0 ∨ IsCubeId g.mydim g.id) (haff : T.s = 1 ∨ (moved g T).affine = g.affine)
    (y : Vec ℝ) (fuel : Nat) : SameResult g.mydim (g.local_ fuel y) ((moved g T).local_ fuel (T.move y)) := by
  have ha : (moved g T).affine = g.affine := by
    rcases haff with h | h
    · exact C96_affine_isometry g hg T h
    · exact h
  have hp' : position (K := ℝ) (moved g T).mydim (moved g T).id 0 0 = some p := hp
  rw [local_, local_, hp, hp', ha]
  exact newton_moved g hg hmn T y g.affine hc fuel p p hx fun _ _ => rfl

/-! #### the counterexample: a small element that is not affine -/

/-- the quadrilateral `(x, y) ↦ (x + x y, y + x y)` with corners `(0,0)`, `(1,0)`, `(0,1)`, `(2,2)` -/
def bent (tol : ℝ) : MultiLinearGeometry where
  mydim := 2
  cdim := 2
  id := 3
  corners_ := fun k j => if k = 3 then 2 else if k = j + 1 then 1 else 0
  tol := tol

theorem bent_legal {tol : ℝ} (h0 : 0 < tol) (h1 : tol < 1) : Legal (bent tol) := ⟨by norm_num [bent], h0, h1⟩

theorem bent_topo (tol : ℝ) : topoOf (bent tol).mydim (bent tol).id = .prism (.prism .pt) := by
  change topoOf 2 3 = _
  decide

theorem bent_cube (tol : ℝ) : IsCubeId (bent tol).mydim (bent tol).id := by
  change IsCubeId 2 3
  intro k h1 h2
  interval_cases k
  rfl

theorem bent_id (tol : ℝ) : (bent tol).id < 2 ^ (bent tol).mydim := by change 3 < 2 ^ 2; norm_num

theorem bent_global (tol : ℝ) (x : Vec ℝ) :
    (bent tol).global x 0 = x 0 + x 0 * x 1 ∧ (bent tol).global x 1 = x 1 + x 0 * x 1 := by
  have h1 : nv (.prism .pt) = 2 := rfl
  have h2 : nv .pt = 1 := rfl
  constructor <;>
  · rw [global_eq _ (bent_id tol), bent_topo]
    simp [ML, Topo.dim, h1, h2, bent]
    ring

theorem bent_jt (tol : ℝ) (x : Vec ℝ) :
    (bent tol).jacobianTransposed x 0 0 = 1 + x 1 ∧ (bent tol).jacobianTransposed x 1 0 = x 0 ∧
    (bent tol).jacobianTransposed x 0 1 = x 1 ∧ (bent tol).jacobianTransposed x 1 1 = 1 + x 0 := by
  have h1 : nv (.prism .pt) = 2 := rfl
  have h2 : nv .pt = 1 := rfl
  refine ⟨?_, ?_, ?_, ?_⟩ <;>
  · rw [jt_eq _ (bent_id tol) _ _ _ (by change _ < 2; norm_num), bent_topo]
    simp [MLd, ML, Topo.dim, h1, h2, bent]
    try ring

theorem bent_gap (tol tol' : ℝ) : IsAff tol' 2 (.prism (.prism .pt)) (bent tol).corners_ ↔ 0 < tol' ∧ 2 < tol' := by
  have h1 : nv (.prism .pt) = 2 := rfl
  have h2 : nv .pt = 1 := rfl
  simp only [IsAff, gap, Topo.dim, zero_add, range_one, range_zero, sum_empty, sum_singleton, sum_range_succ, ajt, if_true, h1, h2,
    true_and]
  norm_num [bent]

theorem bent_not_affine {tol : ℝ} (h1 : tol < 1) : (bent tol).affine = false := by
  rw [← Bool.not_eq_true, affine_iff _ (bent_id tol), bent_topo]
  intro h
  have := ((bent_gap tol tol).1 h).2
  linarith

/-- one pass on the diagonal -/
theorem bent_step (tol : ℝ) (x y : Vec ℝ) (u v : ℝ) (hu : 0 < 1 + 2 * u) (h0 : x 0 = u) (h1 : x 1 = u) (hy0 : y 0 = v)
    (hy1 : y 1 = v) :
    ∃ dx, xTRightInvA (bent tol).mydim (bent tol).cdim ((bent tol).jacobianTransposed x)
      (fun i => (bent tol).global x i - y i) = some (true, dx) ∧ dx 0 = (u + u * u - v) / (1 + 2 * u) ∧
      dx 1 = (u + u * u - v) / (1 + 2 * u) := by
  obtain ⟨j1, j2, j3, j4⟩ := bent_jt tol x
  obtain ⟨g1, g2⟩ := bent_global tol x
  have hli : LinearIndependent ℝ (mat 2 2 ((bent tol).jacobianTransposed x)).row := by
    rw [linearIndependent_rows_iff_isUnit, isUnit_iff_isUnit_det, det_fin_two, isUnit_iff_ne_zero]
    change (bent tol).jacobianTransposed x 0 0 * (bent tol).jacobianTransposed x 1 1 -
      (bent tol).jacobianTransposed x 0 1 * (bent tol).jacobianTransposed x 1 0 ≠ 0
    rw [j1, j2, j3, j4, h0, h1]
    intro h
    nlinarith
  obtain ⟨dx, e1, e2⟩ := xTRightInvA_pinv (A := (bent tol).jacobianTransposed x)
    (fun i => (bent tol).global x i - y i) (le_refl 2) hli
  refine ⟨dx, e1, ?_⟩
  have hB := mul_eq_one_comm.1 (mul_pinv hli)
  have e3 : vec 2 dx ᵥ* mat 2 2 ((bent tol).jacobianTransposed x) = vec 2 (fun i => (bent tol).global x i - y i) := by
    rw [e2, Matrix.vecMul_vecMul, hB, Matrix.vecMul_one]
  have d0 : dx 0 * (bent tol).jacobianTransposed x 0 0 + dx 1 * (bent tol).jacobianTransposed x 1 0 =
      (bent tol).global x 0 - y 0 := by
    simpa [Matrix.vecMul, dotProduct, Fin.sum_univ_two, vec, mat] using congrFun e3 0
  have d1 : dx 0 * (bent tol).jacobianTransposed x 0 1 + dx 1 * (bent tol).jacobianTransposed x 1 1 =
      (bent tol).global x 1 - y 1 := by
    simpa [Matrix.vecMul, dotProduct, Fin.sum_univ_two, vec, mat] using congrFun e3 1
  rw [j1, j2, g1, h0, h1, hy0] at d0
  rw [j3, j4, g2, h0, h1, hy1] at d1
  have hd : dx 0 = dx 1 := by linarith
  rw [eq_div_iff hu.ne', eq_div_iff hu.ne']
  rw [hd] at d0 d1 ⊢
  constructor <;> linarith

/-- scaling by `s` -/
def scaling (n : Nat) (s : ℝ) (hs : 0 < s) : Similarity n := ⟨s, 1, 0, hs, by simp⟩

theorem scaling_move (n : Nat) (s : ℝ) (hs : 0 < s) (y : Vec ℝ) (j : Fin n) : (scaling n s hs).move y j = s * y j := by
  have := congrFun (vec_move (scaling n s hs) y) j
  simp only [Similarity.apply, scaling, one_mulVec, add_zero] at this
  exact this

theorem bent_center (tol : ℝ) : ∃ p, position (K := ℝ) (bent tol).mydim (bent tol).id 0 0 = some p ∧ p 0 = 1 / 2 ∧
    p 1 = 1 / 2 := kite_center

theorem bent_moved_affine {tol s : ℝ} (h0 : 0 < tol) (h1 : tol < 1) (hs : 0 < s) (hs2 : 2 * s ^ 2 < tol) :
    (moved (bent tol) (scaling 2 s hs)).affine = true := by
  rw [affine_moved (bent tol) (bent_legal h0 h1) (scaling 2 s hs)]
  refine (affine_iff _ (by exact bent_id tol)).2 ?_
  change IsAff (tol / s ^ 2) 2 (topoOf (bent tol).mydim (bent tol).id) (bent tol).corners_
  rw [bent_topo, bent_gap]
  have : 0 < s ^ 2 := by positivity
  exact ⟨by positivity, by rwa [lt_div_iff₀ this]⟩

/-- C96: the curved quadrilateral with corners `s (0,0)`, `s (1,0)`, `s (0,1)`, `s (2,2)`, `2 s² < tol`, is reported as
affine, and `local` of its corner `s (2,2)` is `(9/8, 9/8)` instead of `(1, 1)`.  For double the tolerance is 16 epsilon,
so this concerns elements of 4e-8 and below, for example 40 nm in a mesh given in metres. -/
theorem C96_local_small {tol s : ℝ} (h0 : 0 < tol) (h1 : tol < 1) (hs : 0 < s) (hs2 : 2 * s ^ 2 < tol) (fuel : Nat) :
    let g := moved (bent tol) (scaling 2 s hs)
    let y := (scaling 2 s hs).move fun _ => 2
    g.affine = true ∧ (∀ j, j < 2 → y j = s * 2 ∧ g.global (fun _ => 1) j = y j) ∧
    ∃ x, g.local_ (fuel + 1) y = some (some (.point x)) ∧ x 0 = 9 / 8 ∧ x 1 = 9 / 8 := by
  intro g y
  have hg := bent_legal h0 h1
  have haff : g.affine = true := bent_moved_affine h0 h1 hs hs2
  have hgl : ∀ j : Fin 2, g.global (fun _ => 1) j = s * 2 := by
    intro j
    have h := congrFun (C96_global (bent tol) hg (scaling 2 s hs) (fun _ => 1) (Or.inl rfl)) j
    have h' : g.global (fun _ => 1) j = (scaling 2 s hs).apply (vec 2 ((bent tol).global fun _ => 1)) j := h
    rw [h']
    simp only [Similarity.apply, scaling, one_mulVec, add_zero, Pi.smul_apply, smul_eq_mul]
    congr 1
    obtain ⟨g1, g2⟩ := bent_global tol fun _ => 1
    fin_cases j
    · exact g1.trans (by norm_num)
    · exact g2.trans (by norm_num)
  have hy : ∀ j : Fin 2, y j = s * 2 := fun j => scaling_move 2 s hs (fun _ => 2) j
  refine ⟨haff, fun j hj => ⟨hy ⟨j, hj⟩, (hgl ⟨j, hj⟩).trans (hy ⟨j, hj⟩).symm⟩, ?_⟩
  obtain ⟨p, hp, hp0, hp1⟩ := bent_center tol
  have hp' : position (K := ℝ) g.mydim g.id 0 0 = some p := hp
  obtain ⟨dx, e1, d0, d1⟩ := bent_step tol p (fun _ => 2) (1 / 2) 2 (by norm_num) hp0 hp1 rfl rfl
  rcases step_moved (bent tol) hg (le_refl 2) (scaling 2 s hs) (fun _ => 2) p p (Or.inl rfl) (fun _ _ => rfl) with
    ⟨_, dx1, dx', f1, f2, f3⟩ | ⟨_, z, z', f1, _⟩
  · rw [e1] at f1
    injection f1 with f1
    obtain ⟨_, rfl⟩ := Prod.mk.inj f1
    refine ⟨fun i => p i - dx' i, ?_, ?_, ?_⟩
    · rw [local_, hp', haff]
      change g.newton true y (fuel + 1) p = _
      have f2' : xTRightInvA g.mydim g.cdim (g.jacobianTransposed p) (fun i => g.global p i - y i) = some (true, dx') := f2
      rw [newton, f2']
      rfl
    · beta_reduce
      rw [← f3 0 (by change 0 < 2; norm_num), d0, hp0]
      norm_num
    · beta_reduce
      rw [← f3 1 (by change 1 < 2; norm_num), d1, hp1]
      norm_num
  · rw [e1] at f1
    simp at f1

/-- C96: with tolerance 1/10 and scaling by 1/5, `local` of the corner gives 209/208 before and 9/8 after. -/
theorem C96_local_counterexample : ¬ C96_local_full := by
  intro h
  have t0 : (0 : ℝ) < 1 / 10 := by norm_num
  have t1 : (1 / 10 : ℝ) < 1 := by norm_num
  have hg := bent_legal t0 t1
  obtain ⟨p, hp, hp0, hp1⟩ := bent_center (1 / 10)
  obtain ⟨dx, e, d0, d1⟩ := bent_step (1 / 10) p (fun _ => 2) (1 / 2) 2 (by norm_num) hp0 hp1 rfl rfl
  obtain ⟨dx', e', d0', d1'⟩ := bent_step (1 / 10) (fun i => p i - dx i) (fun _ => 2) (9 / 8) 2 (by norm_num)
    (by rw [hp0, d0]; norm_num) (by rw [hp1, d1]; norm_num) rfl rfl
  have hrun : (bent (1 / 10)).local_ 2 (fun _ => 2) = some (some (.point fun i => p i - dx i - dx' i)) := by
    rw [local_, hp, bent_not_affine t1]
    change (bent (1 / 10)).newton false (fun _ => 2) 2 p = _
    have n1 : two_norm2 (bent (1 / 10)).mydim dx > (bent (1 / 10)).tol := by
      rw [two_norm2_eq]
      change (∑ j ∈ range 2, dx j ^ 2) > 1 / 10
      rw [sum_range_succ, sum_range_one, d0, d1]
      norm_num
    have n2 : ¬ two_norm2 (bent (1 / 10)).mydim dx' > (bent (1 / 10)).tol := by
      rw [two_norm2_eq]
      change ¬ (∑ j ∈ range 2, dx' j ^ 2) > 1 / 10
      rw [sum_range_succ, sum_range_one, d0', d1']
      norm_num
    rw [newton, e]
    simp only [Bool.false_eq_true, if_false, n1, if_true]
    rw [newton, e']
    simp only [Bool.false_eq_true, if_false, n2]
  have hs : (0 : ℝ) < 1 / 5 := by norm_num
  obtain ⟨_, _, x, hx, hx0, _⟩ := C96_local_small t0 t1 hs (by norm_num) 1
  have hsame := h (bent (1 / 10)) hg (le_refl 2) (bent_cube _) (scaling 2 (1 / 5) hs) (fun _ => 2) 2 _ hrun
  have hx' : (moved (bent (1 / 10)) (scaling 2 (1 / 5) hs)).local_ 2 ((scaling 2 (1 / 5) hs).move fun _ => 2) =
    some (some (.point x)) := hx
  have hsame' : SameResult 2 (some (some (.point fun i => p i - dx i - dx' i)))
    ((moved (bent (1 / 10)) (scaling 2 (1 / 5) hs)).local_ 2 ((scaling 2 (1 / 5) hs).move fun _ => 2)) := hsame
  rw [hx'] at hsame'
  have := hsame' 0 (by norm_num)
  beta_reduce at this
  rw [hx0, hp0, d0, d0'] at this
  norm_num at this

/-! #### AffineGeometry -/

open Verif.Affine (AffineGeometry)

/-- the transposed Jacobian formed from the corners -/
def rowsOf (m : Nat) (cv : List (Vec ℝ)) : Mat ℝ :=
  fun i j => if i < m then (cv.getD (i + 1) fun _ => 0) j - (cv.getD 0 fun _ => 0) j else 0

theorem ofCorners_eq (m n id : Nat) (cv : List (Vec ℝ)) (hl : m < cv.length) :
    AffineGeometry.ofCorners m n id cv = AffineGeometry.ofJacobian m n id (cv.getD 0 fun _ => 0) (rowsOf m cv) := by
  have h0 : cv[0]? = some (cv.getD 0 fun _ => 0) := by
    rw [List.getD_eq_getElem?_getD, List.getElem?_eq_getElem (by omega)]; rfl
  have hr : (List.range m).mapM (fun i => do
      let c ← cv[i + 1]?
      return fun j => c j - (cv.getD 0 fun _ => 0) j) =
      some ((List.range m).map fun i j => (cv.getD (i + 1) fun _ => 0) j - (cv.getD 0 fun _ => 0) j) := by
    apply Affine.mapM_range
    intro i hi
    have e : cv[i + 1]? = some (cv.getD (i + 1) fun _ => 0) := by
      rw [List.getD_eq_getElem?_getD, List.getElem?_eq_getElem (by omega)]; rfl
    rw [e]
    rfl
  have hj : (fun i => ((List.range m).map fun i j => (cv.getD (i + 1) fun _ => 0) j - (cv.getD 0 fun _ => 0) j).getD i
      (fun _ => 0)) = rowsOf m cv := by
    funext i j
    by_cases hi : i < m
    · simp [rowsOf, hi]
    · simp [rowsOf, hi]
  rw [AffineGeometry.ofCorners, h0]
  simp only [Option.bind_eq_bind, Option.bind_some] at hr ⊢
  rw [hr]
  simp only [Option.bind_some, hj]
  rfl

theorem rows_moved {m n : Nat} (T : Similarity n) (cv : List (Vec ℝ)) (hl : m < cv.length) :
    mat m n (rowsOf m (cv.map T.move)) = mat m n (rowsOf m cv) * T.linearᵀ := by
  have hget : ∀ i, i < cv.length → (cv.map T.move).getD i (fun _ => 0) = T.move (cv.getD i fun _ => 0) := by
    intro i hi
    simp [List.getD_eq_getElem?_getD, List.getElem?_eq_getElem hi]
  ext i j
  rw [mul_apply]
  simp only [mat, of_apply, transpose_apply, rowsOf, i.2, if_true]
  rw [hget _ (by omega), hget _ (by omega), move_apply, move_apply, add_sub_add_right_eq_sub, ← sum_sub_distrib]
  exact sum_congr rfl fun k _ => by ring

/-- C96: an AffineGeometry built from moved corners: construction succeeds in the same cases; `global` and `local` are
the moved ones at every point; integration element and volume are multiplied by `s ^ mydim`; the inverse Jacobian is
rotated and divided by `s`.  There is no tolerance in this class, hence no exception for small elements. -/
theorem C96_affineGeometry (m n id : Nat) (hmn : m ≤ n) (T : Similarity n) (cv : List (Vec ℝ)) (hl : m < cv.length) :
    (AffineGeometry.ofCorners m n id (cv.map T.move) = none ↔ AffineGeometry.ofCorners m n id cv = none) ∧
    ∀ g g', AffineGeometry.ofCorners m n id cv = some g → AffineGeometry.ofCorners m n id (cv.map T.move) = some g' →
      (∀ x, vec n (g'.global x) = T.apply (vec n (g.global x))) ∧
      (∀ y, vec m (g'.local_ (T.move y)) = vec m (g.local_ y)) ∧
      g'.integrationElement = T.s ^ m * g.integrationElement ∧ g'.volume = T.s ^ m * g.volume ∧
      mat n m g'.jacobian = T.s • (T.Q * mat n m g.jacobian) ∧
      mat n m g'.jacobianInverseTransposed = T.s⁻¹ • (T.Q * mat n m g.jacobianInverseTransposed) := by
  have hl' : m < (cv.map T.move).length := by rwa [List.length_map]
  have ho : (cv.map T.move).getD 0 (fun _ => 0) = T.move (cv.getD 0 fun _ => 0) := by
    simp [List.getD_eq_getElem?_getD, List.getElem?_eq_getElem (show 0 < cv.length by omega)]
  rw [ofCorners_eq m n id cv hl, ofCorners_eq m n id _ hl', ho]
  have hr := rows_moved (m := m) T cv hl
  have hli := li_moved T (mat m n (rowsOf m cv))
  rw [← hr] at hli
  constructor
  · by_cases hc : LinearIndependent ℝ (mat m n (rowsOf m cv)).row
    · obtain ⟨g, e, _⟩ := Affine.ofJacobian_eq (id := id) (o := cv.getD 0 fun _ => 0) hmn hc
      obtain ⟨g', e', _⟩ := Affine.ofJacobian_eq (id := id) (o := T.move (cv.getD 0 fun _ => 0)) hmn (hli.2 hc)
      rw [e, e']
      simp
    · rw [Affine.ofJacobian_none hmn hc, Affine.ofJacobian_none hmn (hli.not.2 hc)]
  · intro g g' e e'
    generalize cv.getD 0 (fun _ => 0) = o at e e'
    generalize rowsOf m cv = R at *
    generalize rowsOf m (cv.map T.move) = R' at *
    obtain ⟨hm, hn, hi, ho, hj, hG⟩ := Affine.ofJacobian_good hmn e
    obtain ⟨hm', hn', hi', ho', hj', hG'⟩ := Affine.ofJacobian_good hmn e'
    have gl := Affine.global_eq g
    have gl' := Affine.global_eq g'
    have lo := Affine.local_eq g
    have lo' := Affine.local_eq g'
    have hdet := hG.det
    have hdet' := hG'.det
    have hinv := hG.inv
    have hinv' := hG'.inv
    rw [hm, hn, hj] at gl hdet hinv
    rw [hm, hn] at lo
    rw [ho] at gl lo
    rw [hm', hn', hj'] at gl' hdet' hinv'
    rw [hm', hn'] at lo'
    rw [ho'] at gl' lo'
    have hc : LinearIndependent ℝ (mat m n R).row := by
      have := hG.li
      rwa [hm, hn, hj] at this
    have hpi : mat n m g'.jit = T.s⁻¹ • (T.Q * mat n m g.jit) := by
      have h := pinv_moved T hc
      rw [pinv, pinv, ← hr, ← hinv, ← hinv'] at h
      exact h
    have hie : g'.integrationElement = T.s ^ m * g.integrationElement := by
      rw [hdet, hdet', hr, det_moved]
    refine ⟨fun x => ?_, fun y => ?_, hie, ?_, ?_, hpi⟩
    · rw [gl, gl', vec_move, hr, transpose_mul, transpose_transpose, apply_eq, apply_eq, mulVec_add, mulVec_mulVec]
      abel
    · rw [lo, lo', vec_move, vec_move, apply_sub, hpi, transpose_smul, transpose_mul, mulVec_mulVec, smul_mul,
        Matrix.mul_assoc, Similarity.linear, Matrix.mul_smul, T.orth, Matrix.mul_smul, Matrix.mul_one, smul_smul,
        inv_mul_cancel₀ T.s_pos.ne', one_smul]
    · rw [AffineGeometry.volume, AffineGeometry.volume, hie, hm, hm', hi, hi', mul_assoc]
    · have h := congrArg transpose hr
      rw [transpose_mul, transpose_transpose, Similarity.linear, smul_mul] at h
      have h1 : mat n m g'.jacobian = (mat m n R')ᵀ := by rw [← hj']; rfl
      have h2 : mat n m g.jacobian = (mat m n R)ᵀ := by rw [← hj]; rfl
      rw [h1, h2, h]

/-! #### gaussNewton and MappedGeometry -/

section
open Verif.GaussNewton Verif.Mapped

variable {m n : Nat} (T : Similarity n) {f f' : (Fin m → ℝ) → (Fin n → ℝ)} {df df' : (Fin m → ℝ) → Mat ℝ}
  (hf : ∀ x, f' x = T.apply (f x)) (hd : ∀ x, mat m n (df' x) = mat m n (df x) * T.linearᵀ) (y : Fin n → ℝ)

include hf in
theorem residual_moved (x : Fin m → ℝ) : residual f' (T.apply y) x = T.s * residual f y x := by
  have key : ∀ v w : Fin n → ℝ, ∑ j, (v j - w j) ^ 2 = (v - w) ⬝ᵥ (v - w) := by
    intro v w
    rw [dotProduct]
    exact sum_congr rfl fun j _ => sq _
  rw [GaussNewton.residual, GaussNewton.residual, key, key, hf, apply_sub, dot_linear, Real.sqrt_mul (by positivity), Real.sqrt_sq T.s_pos.le]

include hd in
theorem regular_moved (x : Fin m → ℝ) : Regular (n := n) df' x ↔ Regular (n := n) df x := by
  rw [Regular, Regular, hd, li_moved]

include hf hd in
theorem correctionEq_moved (x dx : Fin m → ℝ) : Correction f' df' (T.apply y) x dx ↔ Correction f df y x dx := by
  have h1 : (mat m n (df x) * T.linearᵀ) *ᵥ (T.linear *ᵥ (f x - y)) = T.s ^ 2 • (mat m n (df x) *ᵥ (f x - y)) := by
    rw [mulVec_mulVec, Matrix.mul_assoc, linear_mul, Matrix.mul_smul, Matrix.mul_one, smul_mulVec]
  rw [Correction, Correction, hd, aat_moved, hf, apply_sub, h1, smul_mulVec]
  constructor
  · intro h
    exact smul_right_injective _ (s_ne T) h
  · intro h
    rw [h]

variable (opts : Options)

include hf hd in
theorem step_moved_gn (x x' : Fin m → ℝ) :
    Step f' df' (T.apply y) { opts with absTol := T.s * opts.absTol } x x' ↔ Step f df y opts x x' := by
  have hs := T.s_pos
  simp only [Step, regular_moved T hd, correctionEq_moved T hf hd, residual_moved T hf, mul_lt_mul_iff_right₀ hs,
    mul_le_mul_iff_right₀ hs]

include hf hd in
theorem path_moved : ∀ (k : Nat) (x x' : Fin m → ℝ),
    Path f' df' (T.apply y) { opts with absTol := T.s * opts.absTol } k x x' ↔ Path f df y opts k x x' := by
  have hs := T.s_pos
  intro k
  induction k with
  | zero =>
    intro x x'
    constructor
    · intro h; cases h; exact Path.nil _
    · intro h; cases h; exact Path.nil _
  | succ k ih =>
    intro x x'
    constructor
    · intro h
      cases h with
      | cons h1 h2 h3 =>
        refine Path.cons ((step_moved_gn T hf hd y opts _ _).1 h1) (fun hk => ?_) ((ih _ _).1 h3)
        have := h2 hk
        rw [residual_moved T hf] at this
        exact le_of_mul_le_mul_left this hs
    · intro h
      cases h with
      | cons h1 h2 h3 =>
        refine Path.cons ((step_moved_gn T hf hd y opts _ _).2 h1) (fun hk => ?_) ((ih _ _).2 h3)
        rw [residual_moved T hf]
        exact mul_le_mul_of_nonneg_left (h2 hk) hs.le

include hf hd in
theorem outcome_moved (k : Nat) (x : Fin m → ℝ) (c : Code) :
    Outcome f' df' (T.apply y) { opts with absTol := T.s * opts.absTol } k x c ↔ Outcome f df y opts k x c := by
  have hs := T.s_pos
  cases c <;> simp only [Outcome, regular_moved T hd, correctionEq_moved T hf hd, residual_moved T hf,
    mul_lt_mul_iff_right₀ hs, mul_le_mul_iff_right₀ hs]

include hf hd in
/-- C96: `gaussNewton` for the moved function and the moved point gives the same code and the same local coordinates,
provided the tolerance `absTol` is scaled along with the world. -/
theorem C96_gaussNewton (hmn : m ≤ n) (h1 : 0 < opts.maxIt) (h2 : 0 < opts.maxInnerIt) (x0 : Fin m → ℝ) :
    gaussNewton f' df' (T.apply y) { opts with absTol := T.s * opts.absTol } x0 = gaussNewton f df y opts x0 := by
  obtain ⟨⟨⟨c, x⟩, hr⟩, hi⟩ := C36_outcome_partial f df y opts hmn h1 h2 x0
  obtain ⟨k, hk, ho⟩ := (hi c x).1 hr
  rw [hr]
  exact ((C36_outcome_partial f' df' (T.apply y) { opts with absTol := T.s * opts.absTol } hmn h1 h2 x0).2 c x).2
    ⟨k, (path_moved T hf hd y opts k x0 x).2 hk, (outcome_moved T hf hd y opts k x c).2 ho⟩

end

section
open Verif.GaussNewton Verif.Mapped

/-- the mapped geometry whose mapping is followed by the motion -/
def movedMap {m k n : Nat} (g : MappedGeometry m k n) (T : Similarity n) : MappedGeometry m k n :=
  { g with
    mapping := fun x => T.apply (g.mapping x)
    dMapping := fun x => fun i j =>
      if h : i < n then if h' : j < k then (T.linear * mat n k (g.dMapping x)) ⟨i, h⟩ ⟨j, h'⟩ else 0 else 0 }

theorem movedMap_jt {m k n : Nat} (g : MappedGeometry m k n) (T : Similarity n) (x : Fin m → ℝ) :
    mat m n ((movedMap g T).jacobianTransposed x) = mat m n (g.jacobianTransposed x) * T.linearᵀ := by
  have h := jacobian_mat (movedMap g T) x
  have h0 := jacobian_mat g x
  have e : mat n k ((movedMap g T).dMapping ((movedMap g T).geometry.global x)) =
      T.linear * mat n k (g.dMapping (g.geometry.global x)) := by
    ext i j
    simp [mat, movedMap]
  rw [e, Matrix.mul_assoc] at h
  have h' : mat n m ((movedMap g T).jacobian x) = T.linear * mat n m (g.jacobian x) := by
    rw [h, h0]; rfl
  have h'' := congrArg transpose h'
  rw [transpose_mul] at h''
  exact h''

/-- C96, full statement: `MappedGeometry::local` does not depend on where, how turned and how large the world is. -/
def C96_mapped_full : Prop := ∀ (m k n : Nat) (g : MappedGeometry m k n) (T : Similarity n) (y : Fin n → ℝ)
  (opts : Options), m ≤ n → 0 < opts.maxIt → 0 < opts.maxInnerIt → (movedMap g T).local_ (T.apply y) opts = g.local_ y opts

/-- C96, proved part: this holds for rotations, reflections and shifts, and for similarities if the tolerance is scaled
along.  Missing: scaling with the tolerance left alone (see the counterexample). -/
theorem C96_mapped_partial {m k n : Nat} (g : MappedGeometry m k n) (T : Similarity n) (y : Fin n → ℝ) (opts : Options)
    (hmn : m ≤ n) (h1 : 0 < opts.maxIt) (h2 : 0 < opts.maxInnerIt) :
    (movedMap g T).local_ (T.apply y) { opts with absTol := T.s * opts.absTol } = g.local_ y opts ∧
    (T.s = 1 → (movedMap g T).local_ (T.apply y) opts = g.local_ y opts) := by
  have key : (movedMap g T).local_ (T.apply y) { opts with absTol := T.s * opts.absTol } = g.local_ y opts := by
    rw [Mapped.MappedGeometry.local_, Mapped.MappedGeometry.local_]
    change (g.geometry.refCenter.bind fun x => _) = g.geometry.refCenter.bind fun x => _
    congr 1
    funext x
    rw [C96_gaussNewton T (f := g.global) (f' := (movedMap g T).global) (df := g.jacobianTransposed) (fun x => rfl)
      (movedMap_jt g T) y opts hmn h1 h2 x]
  refine ⟨key, fun hs => ?_⟩
  rw [hs, one_mul] at key
  exact key

/-- the interval `[0, 1]` mapped by `x ↦ x + x²` -/
def parabola : MappedGeometry 1 1 1 where
  mapping := fun x i => x i + x i ^ 2
  dMapping := fun x _ _ => 1 + 2 * x 0
  geometry := { corners := 2, corner := fun i => some fun _ => i, center := some fun _ => 1 / 2, global := fun x => x,
                jacobian := fun _ _ _ => 1, refCenter := some fun _ => 1 / 2 }
  affine_ := false

theorem parabola_jt (x : Fin 1 → ℝ) : mat 1 1 (parabola.jacobianTransposed x) = of fun _ _ => 1 + 2 * x 0 := by
  have h := congrArg transpose (jacobian_mat parabola x)
  have e : mat 1 1 (parabola.jacobianTransposed x) = (mat 1 1 (parabola.jacobian x))ᵀ := rfl
  rw [e, h]
  ext i j
  simp [mat, parabola, Matrix.mul_apply]

theorem parabola_residual (x : Fin 1 → ℝ) : residual parabola.global (fun _ => 2) x = |x 0 + x 0 ^ 2 - 2| := by
  rw [GaussNewton.residual, Fin.sum_univ_one, Real.sqrt_sq_eq_abs]
  rfl

/-- a run that stops after the first step -/
theorem parabola_run (t : ℝ) (ht : 25 / 64 < t) :
    parabola.local_ (fun _ => 2) (defaultOptions t) = some (.ok fun _ => 9 / 8) := by
  have hx : (fun _ => 9 / 8 : Fin 1 → ℝ) = (fun _ => 1 / 2) - (defaultOptions t).theta ^ 0 • fun _ => (-5 / 8 : ℝ) := by
    funext i
    simp [Pi.sub_apply]
    norm_num
  have hreg : Regular (n := 1) parabola.jacobianTransposed (fun _ => 1 / 2) := by
    rw [Regular, linearIndependent_rows_iff_isUnit, isUnit_iff_isUnit_det, parabola_jt, det_fin_one, isUnit_iff_ne_zero]
    norm_num
  have hres : residual parabola.global (fun _ => 2) (fun _ => 9 / 8) = 25 / 64 := by
    rw [parabola_residual]
    norm_num
  have hres0 : residual parabola.global (fun _ => 2) (fun _ => 1 / 2) = 5 / 4 := by
    rw [parabola_residual]
    rw [abs_of_nonpos (by norm_num)]
    norm_num
  have hstep : Step parabola.global parabola.jacobianTransposed (fun _ => 2) (defaultOptions t) (fun _ => 1 / 2)
      (fun _ => 9 / 8) := by
    refine ⟨hreg, fun _ => -5 / 8, 0, ?_, by norm_num [defaultOptions], hx, ?_, fun i hi => absurd hi (Nat.not_lt_zero i)⟩
    · rw [Correction, parabola_jt]
      funext i
      simp only [mulVec, dotProduct, Fin.sum_univ_one, mul_apply, transpose_apply, of_apply, Pi.sub_apply]
      change (1 + 2 * (1 / 2) : ℝ) * (1 + 2 * (1 / 2)) * (-5 / 8) = (1 + 2 * (1 / 2)) * ((1 / 2 + (1 / 2) ^ 2) - 2)
      norm_num
    · rw [hres, hres0]
      norm_num
  have hpath : Path parabola.global parabola.jacobianTransposed (fun _ => 2) (defaultOptions t) 1 (fun _ => 1 / 2)
      (fun _ => 9 / 8) := Path.cons hstep (fun h => absurd rfl h) (Path.nil _)
  have hout : Outcome parabola.global parabola.jacobianTransposed (fun _ => 2) (defaultOptions t) 1 (fun _ => 9 / 8) .ok := by
    refine ⟨by norm_num, by norm_num [defaultOptions], ?_⟩
    rw [hres]
    exact ht
  have hgn := ((C36_outcome_partial parabola.global parabola.jacobianTransposed (fun _ => 2) (defaultOptions t) (le_refl 1)
    (by norm_num [defaultOptions]) (by norm_num [defaultOptions]) (fun _ => 1 / 2)).2 .ok (fun _ => 9 / 8)).2
    ⟨1, hpath, hout⟩
  rw [Mapped.MappedGeometry.local_]
  change (gaussNewton parabola.global parabola.jacobianTransposed (fun _ => 2) (defaultOptions t) (fun _ => 1 / 2)).bind _ = _
  rw [hgn]
  rfl

/-- C96: the interval mapped by `x ↦ s (x + x²)`, `25 s < 64 tol`, default options with tolerance `tol`: `local` of the
image `2 s` of the end point 1 is 9/8.  For double the default tolerance is 1.5e-8. -/
theorem C96_mapped_small (tol s : ℝ) (hs : 0 < s) (h : 25 * s < 64 * tol) :
    let g := movedMap parabola (scaling 1 s hs)
    g.global (fun _ => 1) = (scaling 1 s hs).apply (fun _ => 2) ∧
    g.local_ ((scaling 1 s hs).apply fun _ => 2) (defaultOptions tol) = some (.ok fun _ => 9 / 8) := by
  intro g
  constructor
  · change (scaling 1 s hs).apply (fun i => 1 + 1 ^ 2) = _
    norm_num
  · have h1 := (C96_mapped_partial parabola (scaling 1 s hs) (fun _ => 2) (defaultOptions (tol / s)) (le_refl 1)
      (by norm_num [defaultOptions]) (by norm_num [defaultOptions])).1
    rw [parabola_run (tol / s) (by rw [lt_div_iff₀ hs]; linarith)] at h1
    rw [← h1]
    congr 2
    change tol = s * (tol / s)
    field_simp

theorem C96_mapped_counterexample : ¬ C96_mapped_full := by
  intro h
  have hs : (0 : ℝ) < 1 / 2 := by norm_num
  have h1 := h 1 1 1 parabola (scaling 1 (1 / 2) hs) (fun _ => 2) (defaultOptions (1 / 4)) (le_refl 1)
    (by norm_num [defaultOptions]) (by norm_num [defaultOptions])
  rw [(C96_mapped_small (1 / 4) (1 / 2) hs (by norm_num)).2] at h1
  have h2 := C37_local parabola (le_refl 1) (fun _ => 2) (defaultOptions (1 / 4)) (by norm_num [defaultOptions])
    (by norm_num [defaultOptions]) _ h1.symm
  rw [parabola_residual] at h2
  norm_num [defaultOptions] at h2

end

/-! #### examples -/

/-- a quarter turn, scaling by `s` and the shift by `(1, 3)` -/
def turn (s : ℝ) (hs : 0 < s) : Similarity 2 where
  s := s
  Q := !![0, -1; 1, 0]
  b := ![1, 3]
  s_pos := hs
  orth := by
    ext i j
    fin_cases i <;> fin_cases j <;> simp [Matrix.mul_apply]

/-- the turned, doubled and shifted `bent`: the corner `(2,2)` goes to `(-3, 7)` -/
example : (moved (bent (1 / 10)) (turn 2 (by norm_num))).corner 3 = some ((turn 2 (by norm_num)).move fun _ => 2) ∧
    (turn 2 (by norm_num)).apply (fun _ => 2) = ![-3, 7] := by
  constructor
  · have hc : (3 : Nat) < refSize 2 3 2 := by decide
    have hc' : (3 : Nat) < (moved (bent (1 / 10)) (turn 2 (by norm_num))).corners := hc
    have e : (bent (1 / 10)).corners_ 3 = fun _ => 2 := by
      funext j
      simp [bent]
    have h : (moved (bent (1 / 10)) (turn 2 (by norm_num))).corner 3 =
      some ((turn 2 (by norm_num)).move ((bent (1 / 10)).corners_ 3)) := if_pos hc'
    rw [h, e]
  · funext i
    fin_cases i <;> simp [Similarity.apply, turn, mulVec, dotProduct, Fin.sum_univ_two] <;> norm_num

example (x : Vec ℝ) : Clear (bent (1 / 10)) (turn 2 (by norm_num)) x := Or.inr (Or.inl (bent_cube _))

example (x : Vec ℝ) : vec 2 ((moved (bent (1 / 10)) (turn 2 (by norm_num))).global x) =
    (turn 2 (by norm_num)).apply (vec 2 ((bent (1 / 10)).global x)) :=
  C96_global (bent (1 / 10)) (bent_legal (by norm_num) (by norm_num)) (turn 2 (by norm_num)) x (Or.inr (Or.inl (bent_cube _)))

/-- the area of `bent` is multiplied by 4 -/
example : (moved (bent (1 / 10)) (turn 2 (by norm_num))).volume = (bent (1 / 10)).volume.map (4 * ·) := by
  obtain ⟨p, hp, _⟩ := bent_center (1 / 10)
  have h := C96_volume (bent (1 / 10)) (bent_legal (by norm_num) (by norm_num)) (le_refl 2) (turn 2 (by norm_num)) p hp
    (Or.inr (Or.inl (bent_cube _)))
  have e : (turn 2 (by norm_num)).s ^ (bent (1 / 10)).mydim = 4 := by
    change (2 : ℝ) ^ 2 = 4
    norm_num
  rw [h]
  congr 1
  funext v
  exact congrArg (· * v) e

/-- `local` after the quarter turn and the shift -/
example (y : Vec ℝ) (fuel : Nat) : SameResult 2 ((bent (1 / 10)).local_ fuel y)
    ((moved (bent (1 / 10)) (turn 1 one_pos)).local_ fuel ((turn 1 one_pos).move y)) := by
  obtain ⟨p, hp, _⟩ := bent_center (1 / 10)
  exact C96_local_partial (bent (1 / 10)) (bent_legal (by norm_num) (by norm_num)) (le_refl 2) (turn 1 one_pos) p hp
    (Or.inr (Or.inl (bent_cube _))) (Or.inr (Or.inr (bent_cube _))) (Or.inl rfl) y fuel

/-- a triangle, turned, doubled and shifted -/
example : ∃ g, Affine.AffineGeometry.ofCorners 2 2 0 [fun _ => 0, fun j => if j = 0 then 1 else 0, fun j => if j = 1 then 1 else 0] =
    some g := by
  rw [ofCorners_eq 2 2 0 _ (by norm_num)]
  apply (Affine.C28_constructible 2 2 0 _ _ (le_refl 2)).2
  have : mat 2 2 (rowsOf 2 [fun _ => 0, fun j => if j = 0 then 1 else 0, fun j => if j = 1 then 1 else 0]) = 1 := by
    ext i j
    fin_cases i <;> fin_cases j <;> simp [mat, rowsOf]
  rw [this]
  rw [linearIndependent_rows_iff_isUnit]
  exact isUnit_one

/-- the parabola scaled by a thousandth with the tolerance scaled along -/
example (y : Fin 1 → ℝ) : (movedMap parabola (scaling 1 (1 / 1000) (by norm_num))).local_
    ((scaling 1 (1 / 1000) (by norm_num)).apply y)
    { GaussNewton.defaultOptions (1 / 100) with absTol := 1 / 1000 * (1 / 100) } =
    parabola.local_ y (GaussNewton.defaultOptions (1 / 100)) :=
  (C96_mapped_partial parabola (scaling 1 (1 / 1000) (by norm_num)) y (GaussNewton.defaultOptions (1 / 100)) (le_refl 1)
    (by norm_num [GaussNewton.defaultOptions]) (by norm_num [GaussNewton.defaultOptions])).1

end

end Verif.Motion
