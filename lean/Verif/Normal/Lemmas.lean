import Verif.Neighbour.Props
import Verif.Affine.Props
import Mathlib.Data.Matrix.ColumnRowPartitioned
import Mathlib.LinearAlgebra.Matrix.SchurComplement

/-! Lemmas for the normals of mapped elements: the Jacobian of a facet of a multilinear geometry, and the determinants of
the facet and of the element. -/

namespace Verif.Normal

open Verif.RefGeom Verif.MatHelp Verif.RefTopo Verif.Typ Verif.MultiLinear Verif.Neighbour
open Finset hiding ext
open Matrix hiding vec

/-! ### Jacobians of facets -/

/-- no pyramid over a point: lines are prisms -/
def Lines : Topo → Prop
  | .pt => True
  | .prism t => Lines t
  | .pyr t => t ≠ .pt ∧ Lines t

theorem lines_topoOf : ∀ d id, Lines (topoOf d id)
  | 0, _ => trivial
  | d + 1, id => by
    unfold topoOf
    split
    · exact lines_topoOf d _
    · rename_i h
      refine ⟨fun e => ?_, lines_topoOf d _⟩
      have := (rep_topoOf d (id % 2 ^ d)).dim_eq
      rw [e] at this
      exact h (Or.inl this.symm)

theorem dim_pt {t : Topo} (h : t.dim = 0) : t = .pt := by
  cases t with
  | pt => rfl
  | prism t => simp [Topo.dim] at h
  | pyr t => simp [Topo.dim] at h

theorem away_facet {tol : ℝ} (h0 : 0 ≤ tol) (h1 : tol < 1) {t : Topo} (f : Face t) :
    ∀ x : Vec ℝ, Lines t → f.codim ≤ 1 → Away tol f.shape x → Away tol t (emb f x) := by
  induction f with
  | pt => intro x _ _ _; trivial
  | @edge t f ih =>
    intro x hl hf ha
    refine away_congr t (fun r hr => ?_) (ih x hl hf ha)
    rw [emb_edge]; exact (if_neg (by omega)).symm
  | @bot t f ih =>
    intro x hl hf ha
    rw [emb_bot]
    exact ih x hl (by simp only [Face.codim] at hf; omega) ha
  | @top t f ih =>
    intro x hl hf ha
    rw [emb_top]
    exact away_congr t (fun r hr => (setV_ne _ (by omega) _).symm) (ih x hl (by simp only [Face.codim] at hf; omega) ha)
  | @base t f ih =>
    intro x hl hf ha
    have hz := emb_zero f x t.dim (le_refl _)
    rw [emb_base]
    refine ⟨by rw [hz, sub_zero]; exact far_one h1, ?_⟩
    refine away_congr t (fun r _ => ?_) (ih x hl.2 (by simp only [Face.codim] at hf; omega) ha)
    rw [hz]; simp
  | @cone t f ih =>
    intro x hl hf ha
    obtain ⟨a1, a2⟩ := ha
    have hd : emb (Face.cone f) x t.dim = x f.shape.dim := by rw [emb_cone]; exact if_pos rfl
    have hne := far_ne h0 a1
    refine ⟨by rw [hd]; exact a1, ?_⟩
    refine away_congr t (fun r hr => ?_) (ih _ hl.2 hf a2)
    have : emb (Face.cone f) x r = emb f x r - x f.shape.dim * orig f r := by
      rw [emb_cone]; exact if_neg (by omega)
    rw [hd, this, eq_div_iff hne]
    simp only [emb, embed]
    rw [add_mul, sum_mul]
    have : ∀ r', jac f r' r * (x r' / (1 - x f.shape.dim)) * (1 - x f.shape.dim) = jac f r' r * x r' := by
      intro r'; field_simp
    simp only [this]
    ring
  | @apex t =>
    intro x hl hf _
    simp only [Face.codim] at hf
    exact absurd (dim_pt (by omega)) hl.1

/-- cubes: prisms all the way down -/
def Prisms : Topo → Prop
  | .pt => True
  | .prism t => Prisms t
  | .pyr _ => False

theorem away_prisms (tol : ℝ) : ∀ (t : Topo) (x : Vec ℝ), Prisms t → Away tol t x
  | .pt, _, _ => trivial
  | .prism t, x, h => away_prisms tol t x h
  | .pyr _, _, h => h.elim

theorem prisms_shape {t : Topo} (f : Face t) : Prisms t → Prisms f.shape := by
  induction f with
  | pt => exact id
  | edge f ih => exact ih
  | bot f ih => exact ih
  | top f ih => exact ih
  | base f ih => exact fun h => h.elim
  | cone f ih => exact fun h => h.elim
  | apex => exact fun h => h.elim

theorem topoOf_prisms {d id : Nat} {t : Topo} (h : Rep d id t) : Prisms t → topoOf d id = t := by
  induction h with
  | pt id => exact fun _ => rfl
  | @prism d id t hb hr ih =>
    intro hp
    rw [topoOf, if_pos hb, ih hp]
  | pyr hb hr ih => exact fun h => h.elim

theorem prisms_cube' : ∀ d, Prisms (Topo.cube d)
  | 0 => trivial
  | d + 1 => prisms_cube' d

theorem prisms_cube {d id : Nat} (hc : IsCubeId d id) : Prisms (topoOf d id) := by
  rw [topoOf_cube d id hc]
  exact prisms_cube' d

theorem emb_line {t : Topo} (f : Face t) (x : Vec ℝ) (s : Nat) (hs : s < f.shape.dim) (τ : ℝ) (r : Nat) :
    emb f (fun k => x k + τ * (if k = s then 1 else 0)) r = emb f x r + τ * jac f s r := by
  simp only [emb, embed]
  rw [add_assoc]
  congr 1
  have : ∀ k, jac f k r * (x k + τ * (if k = s then 1 else 0)) = jac f k r * x k + (if k = s then τ * jac f k r else 0) := by
    intro k; split <;> ring
  simp only [this, sum_add_distrib]
  rw [sum_ite_eq' (range f.shape.dim) s, if_pos (mem_range.2 hs)]

theorem MLd_facet {tol : ℝ} (h0 : 0 ≤ tol) (h1 : tol < 1) {d' id' : Nat} {t t' : Topo} (f : Face t)
    (hrs : Rep d' id' f.shape) (hrt : Rep d' id' t') (c c' : Nat → ℝ) (x : Vec ℝ) (hag : Agree f c c')
    (a1 : Away tol f.shape x) (a2 : Away tol t' x) (a3 : Away tol t (emb f x)) (s : Nat) (hs : s < d') :
    MLd tol t' c' x s = ∑ r ∈ range t.dim, jac f s r * MLd tol t c (emb f x) r := by
  have hsd : s < f.shape.dim := by rw [hrs.dim_eq]; exact hs
  let z : Nat → ℝ → ℝ := fun k τ => x k + τ * (if k = s then 1 else 0)
  let w : Nat → ℝ → ℝ := fun r τ => emb f x r + τ * jac f s r
  have line : ∀ a b : ℝ, HasFDerivAt (fun τ : ℝ => a + τ * b) (ContinuousLinearMap.toSpanSingleton ℝ b) 0 := by
    intro a b
    have := ((hasDerivAt_id (0 : ℝ)).mul_const b).const_add a
    rw [one_mul] at this
    exact this.hasFDerivAt
  have ez : (fun r => z r 0) = x := by funext r; simp [z]
  have ew : (fun r => w r 0) = emb f x := by funext r; simp [w]
  have cz : ∀ r, ContinuousAt (z r) 0 := fun r => (line _ _).continuousAt
  have d1 := ML_hasFDerivAt h0 t' c' z _ 0 (fun r _ => line (x r) (if r = s then 1 else 0)) (by rw [ez]; exact a2)
  have d2 := ML_hasFDerivAt h0 t c w _ 0 (fun r _ => line (emb f x r) (jac f s r)) (by rw [ew]; exact a3)
  have e1 := away_eventually h0 f.shape z 0 (fun r _ => cz r) (by rw [ez]; exact a1)
  have e2 := away_eventually h0 t' z 0 (fun r _ => cz r) (by rw [ez]; exact a2)
  have ev : (fun τ => ML tol t' c' (fun r => z r τ)) =ᶠ[nhds 0] fun τ => ML tol t c (fun r => w r τ) := by
    refine (e1.and e2).mono fun τ hτ => ?_
    have h := (ML_rep hrs hrt (c := c') hτ.1 hτ.2).2
    have h' := ML_face h0 h1 f c c' (fun r => z r τ) hag
    have h'' : emb f (fun r => z r τ) = fun r => w r τ := by funext r; exact emb_line f x s hsd τ r
    rw [h''] at h'
    exact (h'.trans h).symm
  have hu := d1.unique (d2.congr_of_eventuallyEq ev)
  have := congrArg (fun L => L 1) hu
  simp only [ez, ew, ContinuousLinearMap.sum_apply, ContinuousLinearMap.smul_apply,
    ContinuousLinearMap.toSpanSingleton_apply, smul_eq_mul, one_mul] at this
  rw [← show ∑ r ∈ range t'.dim, MLd tol t' c' x r * (if r = s then 1 else 0) = MLd tol t' c' x s by
    simp only [mul_ite, mul_one, mul_zero]
    rw [sum_ite_eq' (range t'.dim) s, if_pos (mem_range.2 (by rw [hrt.dim_eq]; exact hs))], this]
  exact sum_congr rfl fun r _ => mul_comm _ _

/-! ### determinants -/

/-- the Gram determinant of the mapped facet -/
theorem facet_gram {m d : Nat} (hd : d = m + 1) (J B : Matrix (Fin d) (Fin d) ℝ) (hJ : J * B = 1) (T : Matrix (Fin m) (Fin d) ℝ)
    (n : Fin d → ℝ) (hn : T *ᵥ n = 0) (hlen : n ⬝ᵥ n = (T * Tᵀ).det) (hpos : 0 < n ⬝ᵥ n) :
    ((T * J) * (T * J)ᵀ).det = J.det ^ 2 * ((B *ᵥ n) ⬝ᵥ (B *ᵥ n)) := by
  subst hd
  have hB : B * J = 1 := mul_eq_one_comm.1 hJ
  let w := B *ᵥ n
  let e : Fin m ⊕ Unit ≃ Fin (m + 1) := Fintype.equivOfCardEq (by simp)
  let R : (Fin (m + 1) → ℝ) → Matrix Unit (Fin (m + 1)) ℝ := fun v => replicateRow Unit v
  let S : Matrix (Fin m) (Fin (m + 1)) ℝ → (Fin (m + 1) → ℝ) → Matrix (Fin m ⊕ Unit) (Fin (m + 1)) ℝ :=
    fun T v => fromRows T (R v)
  have prod : ∀ (T T' : Matrix (Fin m) (Fin (m + 1)) ℝ) (v v' : Fin (m + 1) → ℝ), T *ᵥ v' = 0 →
      (S T v * (S T' v')ᵀ).det = (T * T'ᵀ).det * (v ⬝ᵥ v') := by
    intro T T' v v' h
    have e1 : S T v * (S T' v')ᵀ = fromBlocks (T * T'ᵀ) (T * (R v')ᵀ) (R v * T'ᵀ) (R v * (R v')ᵀ) := by
      rw [transpose_fromRows]
      exact fromRows_mul_fromCols _ _ _ _
    have e2 : T * (R v')ᵀ = 0 := by
      ext i j
      exact congrFun h i
    have e3 : (R v * (R v')ᵀ).det = v ⬝ᵥ v' := by
      rw [det_unique]
      rfl
    rw [e1, e2, det_fromBlocks_zero₁₂, e3]
  have sq : ∀ A A' : Matrix (Fin m ⊕ Unit) (Fin (m + 1)) ℝ, (A * A'ᵀ).det =
      (A.submatrix id e).det * (A'.submatrix id e).det := by
    intro A A'
    rw [← det_transpose (A'.submatrix id e), ← det_mul]
    congr 1
    rw [transpose_submatrix, submatrix_mul_equiv]
    rfl
  have hS : ∀ (v : Fin (m + 1) → ℝ), S (T * J) (v ᵥ* J) = S T v * J := by
    intro v
    rw [fromRows_mul]
    congr 1
  have hTw : (T * J) *ᵥ w = 0 := by
    rw [mulVec_mulVec, Matrix.mul_assoc, hJ, Matrix.mul_one, hn]
  have hwB : (w ᵥ* B) ᵥ* J = w := by rw [vecMul_vecMul, hB, vecMul_one]
  have h1 := prod (T * J) (T * J) w w hTw
  have h2 : (S (T * J) w * (S (T * J) w)ᵀ).det = J.det ^ 2 * (S T (w ᵥ* B) * (S T (w ᵥ* B))ᵀ).det := by
    have hSw : S (T * J) w = S T (w ᵥ* B) * J := by
      have := hS (w ᵥ* B)
      rwa [hwB] at this
    have hsub : (S T (w ᵥ* B) * J).submatrix id e = (S T (w ᵥ* B)).submatrix id e * J.submatrix e e := by
      rw [submatrix_mul_equiv]
    rw [sq, sq, hSw, hsub, det_mul, det_submatrix_equiv_self]
    ring
  have h3 := prod T T (w ᵥ* B) n hn
  have h4 := prod T T n n hn
  have h5 : (w ᵥ* B) ⬝ᵥ n = w ⬝ᵥ w := by rw [← dotProduct_mulVec]
  rw [sq, h5, ← hlen] at h3
  rw [sq, ← hlen] at h4
  have h6 : (S T (w ᵥ* B) * (S T (w ᵥ* B))ᵀ).det = (w ⬝ᵥ w) ^ 2 := by
    rw [sq]
    have hne : ((S T n).submatrix id e).det * ((S T n).submatrix id e).det ≠ 0 := by rw [h4]; positivity
    apply mul_right_cancel₀ hne
    linear_combination (((S T (w ᵥ* B)).submatrix id e).det * ((S T n).submatrix id e).det + (n ⬝ᵥ n) * (w ⬝ᵥ w)) * h3
      - (w ⬝ᵥ w) ^ 2 * h4
  rw [h2, h6] at h1
  have hw : w ⬝ᵥ w ≠ 0 := by
    intro h
    have hz : w = 0 := dotProduct_self_eq_zero.1 h
    have : n = 0 := by
      have := congrArg (J *ᵥ ·) hz
      simp only [w, mulVec_mulVec, hJ, one_mulVec, mulVec_zero] at this
      exact this
    rw [this] at hpos
    simp at hpos
  apply mul_right_cancel₀ hw
  rw [← h1]
  ring

/-- two vectors of the same length, both orthogonal to the same `d - 1` independent vectors -/
theorem parallel {m d : Nat} (hd : d = m + 1) (A : Matrix (Fin m) (Fin d) ℝ) (hA : (A * Aᵀ).det ≠ 0) (v w : Fin d → ℝ)
    (hv : A *ᵥ v = 0) (hw : A *ᵥ w = 0) (hl : w ⬝ᵥ w = v ⬝ᵥ v) : w = v ∨ w = -v := by
  subst hd
  by_cases h0 : v ⬝ᵥ v = 0
  · left
    rw [h0] at hl
    rw [dotProduct_self_eq_zero.1 h0, dotProduct_self_eq_zero.1 hl]
  let e : Fin m ⊕ Unit ≃ Fin (m + 1) := Fintype.equivOfCardEq (by simp)
  let S : Matrix (Fin m ⊕ Unit) (Fin (m + 1)) ℝ := fromRows A (replicateRow Unit v)
  have hS : (S * Sᵀ).det = (A * Aᵀ).det * (v ⬝ᵥ v) := by
    have e1 : S * Sᵀ = fromBlocks (A * Aᵀ) (A * (replicateRow Unit v)ᵀ) (replicateRow Unit v * Aᵀ)
        (replicateRow Unit v * (replicateRow Unit v)ᵀ) := by
      change fromRows _ _ * (fromRows _ _)ᵀ = _
      rw [transpose_fromRows]
      exact fromRows_mul_fromCols _ _ _ _
    have e2 : A * (replicateRow Unit v)ᵀ = 0 := by
      ext i j
      exact congrFun hv i
    rw [e1, e2, det_fromBlocks_zero₁₂, det_unique (replicateRow Unit v * (replicateRow Unit v)ᵀ)]
    rfl
  have hne : (S.submatrix id e).det ≠ 0 := by
    intro h
    have : (S * Sᵀ).det = (S.submatrix id e).det * (S.submatrix id e).det := by
      have hm : S.submatrix id e * (S.submatrix id e)ᵀ = S * Sᵀ := by
        rw [transpose_submatrix, submatrix_mul_equiv]
        rfl
      rw [← hm, det_mul, det_transpose]
    rw [hS, h, mul_zero] at this
    exact mul_ne_zero hA h0 this
  let c := (v ⬝ᵥ w) / (v ⬝ᵥ v)
  let u := w - c • v
  have hu : S *ᵥ u = 0 := by
    funext k
    cases k with
    | inl k =>
      have : (A *ᵥ u) k = 0 := by rw [mulVec_sub, mulVec_smul, hv, hw]; simp
      exact this
    | inr k =>
      have : v ⬝ᵥ u = 0 := by
        rw [dotProduct_sub, dotProduct_smul, smul_eq_mul]
        simp only [c]
        field_simp
        ring
      exact this
  have hu0 : u = 0 := by
    have h1 : (S.submatrix id e) *ᵥ (u ∘ e) = 0 := by
      rw [submatrix_mulVec_equiv]
      have : (u ∘ e) ∘ e.symm = u := by funext k; simp
      rw [this, hu]
      rfl
    have h2 := eq_zero_of_mulVec_eq_zero hne h1
    funext k
    have := congrFun h2 (e.symm k)
    simpa using this
  have hwc : w = c • v := sub_eq_zero.1 hu0
  rw [hwc, dotProduct_smul, smul_dotProduct, smul_eq_mul, smul_eq_mul] at hl
  have hc : (c - 1) * (c + 1) = 0 := by
    apply mul_right_cancel₀ h0
    linear_combination hl
  rcases mul_eq_zero.1 hc with h | h
  · left
    rw [hwc, show c = 1 by linarith, one_smul]
  · right
    rw [hwc, show c = -1 by linarith, neg_one_smul]

end Verif.Normal
