import Verif.Mapped.Model
import Verif.GaussNewton.Props
import Verif.MultiLinear.NewtonProps
import Mathlib.Analysis.Calculus.FDeriv.Comp

/-! Property C37: MappedGeometry. -/

namespace Verif.Mapped

open Verif.RefGeom Verif.MatHelp Verif.GaussNewton Finset
open Matrix hiding vec
open MappedGeometry

noncomputable section

/-- the linear map of a matrix stored as `Mat` -/
def lin (n m : Nat) (A : Mat ℝ) : (Fin m → ℝ) →L[ℝ] (Fin n → ℝ) := (Matrix.toLin' (mat n m A)).toContinuousLinearMap

theorem lin_apply (n m : Nat) (A : Mat ℝ) (x : Fin m → ℝ) : lin n m A x = mat n m A *ᵥ x := rfl

section
variable {m k n : Nat} (g : MappedGeometry m k n)

/-! ### C37 -/

/-- the Jacobian is the matrix product -/
theorem jacobian_mat (x : Fin m → ℝ) :
    mat n m (g.jacobian x) = mat n k (g.dMapping (g.geometry.global x)) * mat k m (g.geometry.jacobian x) := by
  funext i j
  rw [Matrix.mul_apply]
  change addLoop _ _ _ _ = _
  rw [addLoop_eq, zero_add, ← range_eq_Ico,
    ← Fin.sum_univ_eq_sum_range (fun l => g.dMapping (g.geometry.global x) i l * g.geometry.jacobian x l j)]
  rfl

/-- C37: `global` is the composition, and where the mapping and the wrapped geometry are differentiable with the
derivatives they claim, `jacobian` is the derivative of the composition; `jacobianTransposed` is its transpose. -/
theorem C37_chain_rule (x : Fin m → ℝ)
    (hmap : HasFDerivAt g.mapping (lin n k (g.dMapping (g.geometry.global x))) (g.geometry.global x))
    (hgeo : HasFDerivAt g.geometry.global (lin k m (g.geometry.jacobian x)) x) :
    HasFDerivAt (g.mapping ∘ g.geometry.global) (lin n m (g.jacobian x)) x ∧ g.global = g.mapping ∘ g.geometry.global ∧
    mat m n (g.jacobianTransposed x) = (mat n m (g.jacobian x))ᵀ := by
  refine ⟨?_, rfl, rfl⟩
  have h := hmap.comp x hgeo
  have e : (lin n k (g.dMapping (g.geometry.global x))).comp (lin k m (g.geometry.jacobian x)) = lin n m (g.jacobian x) := by
    ext1 v
    rw [ContinuousLinearMap.comp_apply, lin_apply, lin_apply, lin_apply, jacobian_mat, mulVec_mulVec]
  rwa [e] at h

/-- C37: corners and centre are images under the mapping; if the wrapped geometry maps the point `p` to its corner `i`,
so does the mapped geometry. -/
theorem C37_corners (i : Nat) (hi : i < g.geometry.corners) (p : Fin m → ℝ)
    (h : g.geometry.corner i = some (g.geometry.global p)) : g.corner i = some (g.global p) ∧
    g.corner i = some (g.mapping (g.geometry.global p)) := by
  have : g.corner i = some (g.mapping (g.geometry.global p)) := by
    rw [MappedGeometry.corner, MappedGeometry.corners, if_pos hi, h]; rfl
  exact ⟨this, this⟩

theorem C37_center (p : Fin m → ℝ) (h : g.geometry.center = some (g.geometry.global p)) :
    g.center = some (g.mapping (g.geometry.global p)) ∧ g.center = some (g.global p) := by
  have : g.center = some (g.mapping (g.geometry.global p)) := by rw [center, h]; rfl
  exact ⟨this, this⟩

/-- C37: where the composition has full rank, `jacobianInverse` is a left inverse of the Jacobian,
`jacobianInverseTransposed` its transpose, and the integration element is `sqrt(det(JᵀJ))`. -/
theorem C37_inverse (x : Fin m → ℝ) (h : LinearIndependent ℝ (mat n m (g.jacobian x)).col) :
    (∃ B, g.jacobianInverse x = some B ∧ mat m n B * mat n m (g.jacobian x) = 1 ∧
      ∃ C, g.jacobianInverseTransposed x = some C ∧ mat n m C = (mat m n B)ᵀ) ∧
    g.integrationElement x = some (Real.sqrt ((mat n m (g.jacobian x))ᵀ * mat n m (g.jacobian x)).det) := by
  obtain ⟨B, h1, h2, _⟩ := C26_leftInvA n m (g.jacobian x) h
  refine ⟨⟨B, by rw [jacobianInverse, h1]; rfl, h2, fun i j => B j i, ?_, rfl⟩, ?_⟩
  · rw [jacobianInverseTransposed, jacobianInverse, h1]; rfl
  · have e : mat m n (g.jacobianTransposed x) = (mat n m (g.jacobian x))ᵀ := rfl
    rw [integrationElement, C27_sqrtDetAAT_partial m n _ (Or.inl (by rw [e]; exact h)), e, transpose_transpose]

/-- C37: without a change of dimension, integration elements multiply: the absolute determinant of the derivative of the
mapping times that of the wrapped geometry. -/
theorem C37_integrationElement (g : MappedGeometry m m m) (x : Fin m → ℝ)
    (h : (mat m m (g.dMapping (g.geometry.global x))).det ≠ 0) (h' : (mat m m (g.geometry.jacobian x)).det ≠ 0) :
    g.integrationElement x =
      some (|(mat m m (g.dMapping (g.geometry.global x))).det| * |(mat m m (g.geometry.jacobian x)).det|) := by
  have hd : (mat m m (g.jacobian x)).det ≠ 0 := by rw [jacobian_mat, det_mul]; exact mul_ne_zero h h'
  have hli : LinearIndependent ℝ (mat m m (g.jacobian x)).col :=
    Matrix.linearIndependent_cols_iff_isUnit.2 ((isUnit_iff_isUnit_det _).2 (isUnit_iff_ne_zero.2 hd))
  rw [(C37_inverse g x hli).2, det_mul, det_transpose, Real.sqrt_mul_self_eq_abs, jacobian_mat, det_mul, abs_mul]

/-- C37: a point returned by `local` is a pre-image up to the tolerance (at least one pass of both loops allowed) -/
theorem C37_local (hmn : m ≤ n) (y : Fin n → ℝ) (opts : Options) (h1 : 0 < opts.maxIt) (h2 : 0 < opts.maxInnerIt)
    (x : Fin m → ℝ) (h : g.local_ y opts = some (.ok x)) : residual g.global y x < opts.absTol := by
  rw [local_] at h
  rcases hc : g.geometry.refCenter with _ | c
  · rw [hc] at h; simp at h
  · rw [hc] at h
    rcases hg : gaussNewton g.global g.jacobianTransposed y opts c with _ | ⟨err, x'⟩
    · simp [hg] at h
    · simp only [hg, Option.bind_eq_bind, Option.bind_some, ne_eq] at h
      split at h
      · simp at h
      · rename_i he
        rw [not_not] at he
        subst he
        obtain rfl : x' = x := by simpa using h
        exact (C36_ok _ _ _ _ hmn h1 h2 c x' hg).1

/-- what one would expect: `local` inverts `global` at the centre, where the iteration starts -/
def C37_local_center_full : Prop := ∀ (m n : Nat) (g : MappedGeometry m m n) (c : Fin m → ℝ) (opts : Options),
  g.geometry.refCenter = some c → LinearIndependent ℝ (mat n m (g.jacobian c)).col → 0 < opts.maxIt →
  0 < opts.maxInnerIt → ∃ x, g.local_ (g.global c) opts = some (.ok x)

/-- C37: `local(global(c))` always throws for the centre `c`, if the Jacobian is regular there -/
theorem C37_local_center (hmn : m ≤ n) (c : Fin m → ℝ) (hc : g.geometry.refCenter = some c)
    (hr : LinearIndependent ℝ (mat n m (g.jacobian c)).col) (opts : Options) (h1 : 0 < opts.maxIt) :
    g.local_ (g.global c) opts = some (.error .stagnation) := by
  have h := C36_exact_start g.global g.jacobianTransposed (g.global c) opts hmn h1 c hr rfl
  rw [local_, hc]
  simp [h]

/-- the identity map of the unit interval -/
def identity : MappedGeometry 1 1 1 where
  mapping := fun x => x
  dMapping := fun _ _ _ => 1
  geometry := { corners := 2, corner := fun i => some fun _ => i, center := some fun _ => 1 / 2, global := fun x => x,
                jacobian := fun _ _ _ => 1, refCenter := some fun _ => 1 / 2 }
  affine_ := true

theorem identity_jacobian (x : Fin 1 → ℝ) : mat 1 1 (identity.jacobian x) = 1 := by
  funext i j
  have hi : i = 0 := Subsingleton.elim _ _
  have hj : j = 0 := Subsingleton.elim _ _
  subst hi; subst hj
  rw [jacobian_mat]
  simp [Matrix.mul_apply, mat, identity]

theorem identity_regular (x : Fin 1 → ℝ) : LinearIndependent ℝ (mat 1 1 (identity.jacobian x)).col := by
  rw [identity_jacobian, ← Matrix.mulVec_injective_iff]
  intro a b h
  simpa using h

theorem C37_local_center_counterexample : ¬ C37_local_center_full := by
  intro h
  obtain ⟨x, hx⟩ := h 1 1 identity (fun _ => 1 / 2) (defaultOptions 1) rfl (identity_regular _) (by norm_num [defaultOptions])
    (by norm_num [defaultOptions])
  rw [C37_local_center identity (le_refl _) _ rfl (identity_regular _) _ (by norm_num [defaultOptions])] at hx
  simp at hx

/-! #### volume by quadrature -/

theorem volumeOf_eq (rule : Rule m) (ie : (Fin m → ℝ) → ℝ) (h : ∀ q ∈ rule, g.integrationElement q.1 = some (ie q.1)) :
    g.volumeOf rule = some (rule.map fun q => ie q.1 * q.2).sum := by
  have key : ∀ (l : Rule m) (v : ℝ), (∀ q ∈ l, g.integrationElement q.1 = some (ie q.1)) →
      l.foldlM (fun vol qp => do return vol + (← g.integrationElement qp.1) * qp.2) v =
        some (v + (l.map fun q => ie q.1 * q.2).sum) := by
    intro l
    induction l with
    | nil => intro v _; simp
    | cons q l ih =>
      intro v hl
      rw [List.foldlM_cons, hl q List.mem_cons_self]
      simp only [Option.pure_def, Option.bind_eq_bind, Option.bind_some]
      have := ih (v + ie q.1 * q.2) fun q' h' => hl q' (List.mem_cons_of_mem _ h')
      simp only [Option.pure_def, Option.bind_eq_bind] at this
      rw [this, List.map_cons, List.sum_cons, add_assoc]
  rw [volumeOf, key rule 0 h, zero_add]

/-- C37: with constant integration element, every rule whose weights add up to the reference volume gives the exact
volume -/
theorem C37_volume_constant (rule : Rule m) (c v : ℝ) (h : ∀ q ∈ rule, g.integrationElement q.1 = some c)
    (hw : (rule.map (·.2)).sum = v) : g.volumeOf rule = some (c * v) := by
  rw [volumeOf_eq g rule (fun _ => c) h, List.sum_map_mul_left, hw]

end

/-! #### wrapping a multi-linear geometry -/

/-- hh:325 etc. applied to a `MultiLinearGeometry` -/
def ofMultiLinear (b : MultiLinear.MultiLinearGeometry) : Geo b.mydim b.cdim where
  corners := b.corners
  corner := fun i => (b.corner i).map (vec _)
  center := b.center.map (vec _)
  global := fun x => vec _ (b.global (RefGeom.ext x))
  jacobian := fun x => b.jacobian (RefGeom.ext x)
  refCenter := (position b.mydim b.id 0 0).map (vec _)

/-- C37 for a mapped multi-linear geometry: chain rule at every point with the tolerance margin -/
theorem C37_multilinear (b : MultiLinear.MultiLinearGeometry) (hb : MultiLinear.Legal b) (n : Nat)
    (F : (Fin b.cdim → ℝ) → (Fin n → ℝ)) (dF : (Fin b.cdim → ℝ) → Mat ℝ)
    (hF : ∀ p, HasFDerivAt F (lin n b.cdim (dF p)) p) (af : Bool) (x : Fin b.mydim → ℝ)
    (hx : MultiLinear.Inner b (RefGeom.ext x)) :
    HasFDerivAt (fun z : Fin b.mydim → ℝ => F (vec b.cdim (b.global (RefGeom.ext z))))
      (lin n b.mydim ((MappedGeometry.mk F dF (ofMultiLinear b) af).jacobian x)) x :=
  (C37_chain_rule (MappedGeometry.mk F dF (ofMultiLinear b) af) x (hF _) (MultiLinear.C32_derivative b hb x hx).1).1

/-- the hypotheses are met by the shear `(p, q) ↦ (p, p + q)` -/
example : ∀ p, HasFDerivAt (fun v : Fin 2 → ℝ => ![v 0, v 0 + v 1]) (lin 2 2 fun i j => if j ≤ i then 1 else 0) p := by
  intro p
  have e : (fun v : Fin 2 → ℝ => ![v 0, v 0 + v 1]) = lin 2 2 fun i j => if j ≤ i then 1 else 0 := by
    funext v i
    rw [lin_apply, mulVec, dotProduct]
    fin_cases i <;> simp [mat, Fin.sum_univ_two]
  rw [e]
  exact (lin 2 2 fun i j => if j ≤ i then 1 else 0).hasFDerivAt

end

end Verif.Mapped
