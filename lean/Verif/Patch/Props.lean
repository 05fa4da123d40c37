import Verif.Patch.Model
import Verif.Flux.Props
import Verif.Tip.Props
import Verif.Motion.Lemmas
import Verif.MultiLinear.NewtonProps

/-! Property theorems: affine functions pass the patch test on multilinear elements (C120). -/

namespace Verif.Patch

open Verif.Typ Verif.RefTopo Verif.RefGeom Verif.MatHelp Verif.MultiLinear Verif.Hull Verif.Tip Verif.Motion Verif.Quad Verif.Flux
open Finset hiding ext
open Matrix hiding vec

/-! ### Specification -/

/-- the nodal values are those of the affine function `y ↦ b + c · y` at the corners of the element -/
def Affine (g : MultiLinearGeometry) (b : ℝ) (c : Fin g.cdim → ℝ) (u : Nat → ℝ) : Prop :=
  ∀ k, k < g.corners → u k = b + ∑ j, c j * g.corners_ k j

/-- the Jacobian has full rank -/
def Regular (g : MultiLinearGeometry) (x : Vec ℝ) : Prop := LinearIndependent ℝ (mat g.mydim g.cdim (g.jacobianTransposed x)).row

/-! ### helper lemmas -/

theorem MLd_corners {tol : ℝ} : ∀ (t : Topo) {c c' : Nat → ℝ} (z : Vec ℝ) (r : Nat), (∀ k, k < nv t → c k = c' k) →
    MLd tol t c z r = MLd tol t c' z r
  | .pt, _, _, _, _, _ => rfl
  | .prism t, c, c', z, r, h => by
    rw [nv_prism] at h
    simp only [MLd]
    rw [ML_congr t (c := c) (c' := c') (z := z) (fun k hk => h k (by omega)) fun _ _ => rfl,
      ML_congr t (c := fun k => c (nv t + k)) (c' := fun k => c' (nv t + k)) (z := z) (fun k hk => h _ (by omega)) fun _ _ => rfl,
      MLd_corners t (c := c) (c' := c') z r (fun k hk => h k (by omega)),
      MLd_corners t (c := fun k => c (nv t + k)) (c' := fun k => c' (nv t + k)) z r (fun k hk => h _ (by omega))]
  | .pyr t, c, c', z, r, h => by
    rw [nv_pyr] at h
    simp only [MLd]
    rw [ML_congr t (c := c) (c' := c') (fun k hk => h k (by omega)) fun _ _ => rfl, h (nv t) (by omega),
      MLd_corners t (c := c) (c' := c') _ r (fun k hk => h k (by omega)),
      sum_congr rfl fun j _ => by rw [MLd_corners t (c := c) (c' := c') _ j (fun k hk => h k (by omega))]]

theorem corners_nv (g : MultiLinearGeometry) : g.corners = nv (topoOf g.mydim g.id) := by
  rw [MultiLinearGeometry.corners, refSize, size_eq (rep_topoOf _ _) _ (le_refl _), nv, topo_dim]

theorem value_eq {g : MultiLinearGeometry} (hg : Legal g) (u : Nat → ℝ) (x : Vec ℝ) :
    value g u x = ML g.tol (topoOf g.mydim g.id) u x := global_eq (interpolant g u) hg.id_lt x 0

theorem localGradient_eq {g : MultiLinearGeometry} (hg : Legal g) (u : Nat → ℝ) (x : Vec ℝ) (r : Fin g.mydim) :
    localGradient g u x r = MLd g.tol (topoOf g.mydim g.id) u x r := jt_eq (interpolant g u) hg.id_lt x r 0 r.2

theorem nodal_sum (n : Nat) (u : Nat → ℝ) (l : Nat) (h : l < n) : u l = ∑ k ∈ range n, u k * nodal k l := by
  simp [nodal, h]

theorem affine_const {tol : ℝ} (h0 : 0 ≤ tol) (h1 : tol < 1) (t : Topo) (b : ℝ) (z : Vec ℝ) (h : b = 0 ∨ Ok tol t z) :
    ML tol t (fun _ => b) z = b ∧ ∀ r, r < t.dim → MLd tol t (fun _ => b) z r = 0 := by
  rcases h with rfl | h
  · exact ⟨ML_const h0 t 0 z (Or.inl rfl), MLd_const h0 t 0 z (Or.inl rfl)⟩
  · have he : Exact t (fun _ => b) b (fun _ => 0) := fun _ _ _ => by simp
    refine ⟨?_, MLd_ok h0 h1 t _ _ _ z he h⟩
    rw [ML_ok h0 t _ _ _ z he h]; simp

/-! ### C120 -/

/-- C120: the interpolant is the sum of the nodal values times the shape functions, and so is its gradient. -/
theorem C120_linear (g : MultiLinearGeometry) (hg : Legal g) (u : Nat → ℝ) (x : Vec ℝ) :
    value g u x = ∑ k ∈ range g.corners, u k * value g (nodal k) x ∧
    ∀ r, localGradient g u x r = ∑ k ∈ range g.corners, u k * localGradient g (nodal k) x r := by
  refine ⟨?_, fun r => ?_⟩
  · simp only [value_eq hg]
    rw [← ML_sum]
    exact ML_congr _ (fun l hl => nodal_sum _ u l (by rw [corners_nv]; exact hl)) fun _ _ => rfl
  · simp only [localGradient_eq hg]
    rw [← MLd_sum]
    exact MLd_corners _ _ _ fun l hl => nodal_sum _ u l (by rw [corners_nv]; exact hl)

/-- C120: an affine function of the world is reproduced on the element, whatever its shape. -/
theorem C120_value (g : MultiLinearGeometry) (hg : Legal g) (b : ℝ) (c : Fin g.cdim → ℝ) (u : Nat → ℝ) (hu : Affine g b c u) (x : Vec ℝ)
    (hx : b = 0 ∨ TipsOk g.tol g.mydim g.id x) : value g u x = b + ∑ j, c j * g.global x j := by
  rw [value_eq hg, ML_congr _ (c' := fun k => b + ∑ j, c j * g.corners_ k j) (fun k hk => hu k (by rw [corners_nv]; exact hk)) fun _ _ => rfl,
    ML_add, (affine_const hg.tol_pos.le hg.tol_lt _ b x (hx.imp_right (ok_of_tipsOk _ _ _))).1,
    ML_sum _ _ _ c (fun j k => g.corners_ k j)]
  simp only [global_eq g hg.id_lt]

theorem localGradient_affine (g : MultiLinearGeometry) (hg : Legal g) (b : ℝ) (c : Fin g.cdim → ℝ) (u : Nat → ℝ) (hu : Affine g b c u)
    (x : Vec ℝ) (hx : b = 0 ∨ TipsOk g.tol g.mydim g.id x) :
    localGradient g u x = mat g.mydim g.cdim (g.jacobianTransposed x) *ᵥ c := by
  funext r
  rw [localGradient_eq hg, MLd_corners _ (c' := fun k => b + ∑ j, c j * g.corners_ k j) _ _ (fun k hk => hu k (by rw [corners_nv]; exact hk)),
    MLd_add, (affine_const hg.tol_pos.le hg.tol_lt _ b x (hx.imp_right (ok_of_tipsOk _ _ _))).2 r (by rw [topo_dim]; exact r.2),
    MLd_sum _ _ _ c (fun j k => g.corners_ k j), zero_add, mulVec, dotProduct]
  refine sum_congr rfl fun j _ => ?_
  rw [mat, of_apply, jt_eq g hg.id_lt _ _ _ r.2, mul_comm]

/-- C120: its gradient, computed with `jacobianInverseTransposed`, has the right component along every tangent of the element and no
other component; for elements of the dimension of the world it is the gradient of the function. -/
theorem C120_gradient (g : MultiLinearGeometry) (hg : Legal g) (hmn : g.mydim ≤ g.cdim) (b : ℝ) (c : Fin g.cdim → ℝ) (u : Nat → ℝ)
    (hu : Affine g b c u) (x : Vec ℝ) (hx : b = 0 ∨ TipsOk g.tol g.mydim g.id x) (hr : Regular g x) :
    ∃ v, gradient g u x = some v ∧
      mat g.mydim g.cdim (g.jacobianTransposed x) *ᵥ v = mat g.mydim g.cdim (g.jacobianTransposed x) *ᵥ c ∧
      (∃ w, v = (mat g.mydim g.cdim (g.jacobianTransposed x))ᵀ *ᵥ w) ∧ (g.mydim = g.cdim → v = c) := by
  obtain ⟨R, h1, h2⟩ := rightInvA_eq hmn hr
  have hp := (aat_posDef_iff _).2 hr
  set A := mat g.mydim g.cdim (g.jacobianTransposed x) with hA
  have hu' : A * mat g.cdim g.mydim R = 1 := by
    rw [h2, ← Matrix.mul_assoc, mul_nonsing_inv _ ((isUnit_iff_isUnit_det _).1 hp.isUnit)]
  refine ⟨mat g.cdim g.mydim R *ᵥ (A *ᵥ c), ?_, ?_, ?_, fun hd => ?_⟩
  · rw [gradient, MultiLinearGeometry.jacobianInverseTransposed, h1, Option.map_some, localGradient_affine g hg b c u hu x hx]
  · rw [mulVec_mulVec, hu', one_mulVec]
  · exact ⟨(A * Aᵀ)⁻¹ *ᵥ (A *ᵥ c), by rw [h2, ← mulVec_mulVec]⟩
  · have hcomm : mat g.cdim g.mydim R * A = 1 := by
      rw [← mul_eq_one_comm_of_equiv (finCongr hd)]
      exact hu'
    rw [mulVec_mulVec, hcomm, one_mulVec]

/-- a trapezoid, which is not an affine image of the square, and the function `y ↦ 3 + 2 y₀ - y₁` -/
noncomputable def trapezoid : MultiLinearGeometry where
  mydim := 2
  cdim := 2
  id := 3
  corners_ := fun k j => if k = 1 then (if j = 0 then 2 else 0) else if k = 2 then (if j = 1 then 1 else 0)
    else if k = 3 then 1 else 0
  tol := 1 / 1000

theorem trapezoid_cube : IsCubeId 2 3 := fun k h1 h2 => by
  obtain rfl : k = 1 := by omega
  decide

theorem trapezoid_legal : Legal trapezoid := by constructor <;> norm_num [trapezoid]

theorem trapezoid_regular : Regular trapezoid fun _ => 1 / 2 := by
  have hT : topoOf 2 3 = .prism (.prism .pt) := by decide
  have hn1 : nv .pt = 1 := rfl
  have hn2 : nv (.prism .pt) = 2 := rfl
  have h : ∀ r j, r < 2 → trapezoid.jacobianTransposed (fun _ => 1 / 2) r j =
      MLd (1 / 1000) (.prism (.prism .pt)) (fun k => trapezoid.corners_ k j) (fun _ => 1 / 2) r := fun r j hr => by
    rw [← hT]
    exact jt_eq trapezoid trapezoid_legal.id_lt _ _ _ hr
  change LinearIndependent ℝ (mat 2 2 (trapezoid.jacobianTransposed fun _ => 1 / 2)).row
  refine linearIndependent_rows_of_isUnit ((isUnit_iff_isUnit_det _).2 (isUnit_iff_ne_zero.2 ?_))
  rw [det_fin_two]
  simp only [mat, of_apply, Fin.val_zero, Fin.val_one]
  rw [h 0 0 (by omega), h 0 1 (by omega), h 1 0 (by omega), h 1 1 (by omega)]
  simp [MLd, ML, Topo.dim, hn1, hn2, trapezoid]
  norm_num

theorem tipsOk_of_clear {tol : ℝ} : ∀ (d id : Nat) (x : Vec ℝ), TipsClear tol d id x → TipsOk tol d id x
  | 0, _, _, _ => trivial
  | d + 1, id, x, h => by
    rw [TipsClear] at h
    rw [TipsOk]
    split
    · rename_i hb
      rw [if_pos hb] at h
      exact tipsOk_of_clear d _ x h
    · rename_i hb
      rw [if_neg hb] at h
      exact Or.inl ⟨h.1, tipsOk_of_clear d _ _ h.2⟩

example : Legal trapezoid ∧ TipsOk trapezoid.tol trapezoid.mydim trapezoid.id (fun _ => 1 / 2) ∧ Regular trapezoid (fun _ => 1 / 2) ∧
    Affine trapezoid 3 (fun j : Fin 2 => if j = 0 then 2 else -1) (fun k => if k = 0 then 3 else if k = 1 then 7 else if k = 2 then 2 else 4) := by
  refine ⟨trapezoid_legal, tipsOk_of_clear _ _ _ (clear_cube _ _ _ _ trapezoid_cube), trapezoid_regular, fun k hk => ?_⟩
  have hk : k < 4 := lt_of_lt_of_eq hk (by decide)
  change _ = 3 + ∑ j : Fin 2, (if j = 0 then (2 : ℝ) else -1) * trapezoid.corners_ k j
  rw [Fin.sum_univ_two]
  interval_cases k <;> norm_num [trapezoid]

/-- C120: the shape functions add up to one, their gradients to zero. -/
theorem C120_partition (g : MultiLinearGeometry) (hg : Legal g) (x : Vec ℝ) (hx : TipsOk g.tol g.mydim g.id x) :
    ∑ k ∈ range g.corners, value g (nodal k) x = 1 ∧ ∀ r, ∑ k ∈ range g.corners, localGradient g (nodal k) x r = 0 := by
  obtain ⟨h1, h2⟩ := C120_linear g hg (fun _ => 1) x
  have ha : Affine g 1 (fun _ => 0) fun _ => 1 := fun _ _ => by simp
  have v := C120_value g hg 1 (fun _ => 0) _ ha x (Or.inr hx)
  have w := localGradient_affine g hg 1 (fun _ => 0) _ ha x (Or.inr hx)
  constructor
  · rw [v] at h1
    simpa using h1.symm
  · intro r
    have := h2 r
    rw [w] at this
    simpa [mulVec, dotProduct] using this.symm

theorem sum_list {ι α : Type} (s : Finset ι) (l : List α) (f : ι → α → ℝ) : ∑ i ∈ s, (l.map (f i)).sum = (l.map fun a => ∑ i ∈ s, f i a).sum := by
  induction l with
  | nil => simp
  | cons a l ih => simp only [List.map_cons, List.sum_cons, sum_add_distrib, ih]

/-- C120: the stiffness matrix of an element, assembled with any points and weights: the entries exist and are symmetric, the rows add up to
zero, and the energy of an affine function is the square of its gradient times the sum of the weights times integration elements. -/
theorem C120_stiffness (g : MultiLinearGeometry) (hg : Legal g) (hmn : g.mydim = g.cdim) (pts : List (QPoint ℝ))
    (hx : ∀ q ∈ pts, TipsOk g.tol g.mydim g.id q.position) (hr : ∀ q ∈ pts, Regular g q.position) :
    ∃ (K : Nat → Nat → ℝ) (V : ℝ), (∀ k l, stiffness g pts k l = some (K k l)) ∧ quadrature g.integrationElement pts = some V ∧
      (∀ k l, K k l = K l k) ∧ (∀ k, ∑ l ∈ range g.corners, K k l = 0) ∧
      ∀ b c u, Affine g b c u → ∑ k ∈ range g.corners, ∑ l ∈ range g.corners, u k * K k l * u l = c ⬝ᵥ c * V := by
  classical
  have hR : ∀ q ∈ pts, ∃ R : Mat ℝ, ∃ ie : ℝ, (∃ s, g.jacobianInverseTransposed q.position = some (s, R)) ∧
      g.integrationElement q.position = some ie := fun q hq => by
    obtain ⟨R, h1, -⟩ := rightInvA_eq hmn.le (hr q hq)
    exact ⟨R, _, ⟨_, h1⟩, C27_sqrtDetAAT_partial _ _ _ (Or.inl (hr q hq))⟩
  choose! R ie hR hie using hR
  let G : Nat → QPoint ℝ → Fin g.cdim → ℝ := fun k q => mat g.cdim g.mydim (R q) *ᵥ localGradient g (nodal k) q.position
  have hG : ∀ u, ∀ q ∈ pts, gradient g u q.position = some (mat g.cdim g.mydim (R q) *ᵥ localGradient g u q.position) := fun u q hq => by
    obtain ⟨s, h⟩ := hR q hq
    rw [gradient, h, Option.map_some]
  have hlin : ∀ u q, mat g.cdim g.mydim (R q) *ᵥ localGradient g u q.position = ∑ k ∈ range g.corners, u k • G k q := fun u q => by
    have e : localGradient g u q.position = ∑ k ∈ range g.corners, u k • localGradient g (nodal k) q.position := by
      funext r
      rw [(C120_linear g hg u q.position).2 r, Finset.sum_apply]
      rfl
    rw [e, mulVec_sum]
    exact sum_congr rfl fun k _ => mulVec_smul _ _ _
  have haff : ∀ b c u, Affine g b c u → ∀ q ∈ pts, ∑ k ∈ range g.corners, u k • G k q = c := fun b c u hu q hq => by
    obtain ⟨v, h1, -, -, h4⟩ := C120_gradient g hg hmn.le b c u hu q.position (Or.inr (hx q hq)) (hr q hq)
    rw [hG u q hq] at h1
    rw [← hlin, Option.some.inj h1, h4 hmn]
  have hden : ∀ k l, ∀ q ∈ pts, stiffnessDensity g k l q.position = some (G k q ⬝ᵥ G l q * ie q) := fun k l q hq => by
    rw [stiffnessDensity, hG _ q hq, hG _ q hq, hie q hq]
  refine ⟨fun k l => (pts.map fun q => G k q ⬝ᵥ G l q * ie q * q.weight).sum, (pts.map fun q => ie q * q.weight).sum,
    fun k l => ?_, ?_, fun k l => ?_, fun k => ?_, fun b c u hu => ?_⟩
  · rw [stiffness, quadrature, foldlM_eq (fun q => stiffnessDensity g k l q.position) (fun q => G k q ⬝ᵥ G l q * ie q) (fun q => q.weight) pts (hden k l) 0,
      zero_add]
  · rw [quadrature, foldlM_eq (fun q => g.integrationElement q.position) ie (fun q => q.weight) pts hie 0, zero_add]
  · exact congrArg List.sum (List.map_congr_left fun q _ => by rw [dotProduct_comm])
  · rw [sum_list]
    refine (congrArg List.sum (List.map_congr_left (g := fun _ => (0 : ℝ)) fun q hq => ?_)).trans (by simp)
    rw [← sum_mul, ← sum_mul, ← dotProduct_sum]
    have := haff 1 (fun _ => 0) (fun _ => 1) (fun _ _ => by simp) q hq
    simp only [one_smul] at this
    rw [this]
    simp [dotProduct]
  · have e : ∀ k l, u k * (pts.map fun q => G k q ⬝ᵥ G l q * ie q * q.weight).sum * u l =
        (pts.map fun q => (u k • G k q) ⬝ᵥ (u l • G l q) * (ie q * q.weight)).sum := fun k l => by
      rw [← List.sum_map_mul_left, ← List.sum_map_mul_right]
      exact congrArg List.sum (List.map_congr_left fun q _ => by rw [smul_dotProduct, dotProduct_smul, smul_eq_mul, smul_eq_mul]; ring)
    simp only [e, sum_list]
    rw [← List.sum_map_mul_left]
    refine congrArg List.sum (List.map_congr_left fun q hq => ?_)
    simp only [← sum_mul, ← dotProduct_sum, ← sum_dotProduct]
    rw [haff b c u hu q hq]

end Verif.Patch
