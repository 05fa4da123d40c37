import Verif.Quad.ImageProps
import Verif.Quad.Props
import Mathlib.Algebra.MvPolynomial.PDeriv
import Mathlib.Algebra.MvPolynomial.Monad

/-! Polynomials composed with polynomial maps: degrees, derivatives, and quadrature of the transformed integrand. -/

namespace Verif.Quad

open Verif.Typ Verif.RefTopo Verif.RefGeom Verif.MatHelp MeasureTheory MvPolynomial
open Matrix hiding vec ext
open Finset hiding ext

variable {d : Nat}

/-! ### Degrees -/

/-- a degree of polynomials: the total degree, or the degree in one variable -/
structure DegLike (D : MvPolynomial (Fin d) ℝ → Nat) : Prop where
  const : ∀ a, D (C a) = 0
  add : ∀ p q, D (p + q) ≤ max (D p) (D q)
  mul : ∀ p q, D (p * q) ≤ D p + D q

theorem degLike_total : DegLike (d := d) totalDegree := ⟨totalDegree_C, totalDegree_add, totalDegree_mul⟩

theorem degLike_of (i : Fin d) : DegLike (degreeOf i : MvPolynomial (Fin d) ℝ → Nat) :=
  ⟨fun a => degreeOf_C a i, degreeOf_add_le i, degreeOf_mul_le i⟩

namespace DegLike

variable {D : MvPolynomial (Fin d) ℝ → Nat} (h : DegLike D)
include h

theorem sum_le {ι : Type} (s : Finset ι) (f : ι → MvPolynomial (Fin d) ℝ) {c : Nat} (hf : ∀ i ∈ s, D (f i) ≤ c) :
    D (∑ i ∈ s, f i) ≤ c := by
  classical
  induction s using Finset.induction_on with
  | empty => rw [sum_empty, ← C_0, h.const]; exact Nat.zero_le _
  | insert a s ha ih =>
    rw [sum_insert ha]
    exact (h.add _ _).trans (max_le (hf a (mem_insert_self _ _)) (ih fun i hi => hf i (mem_insert_of_mem hi)))

theorem prod_le {ι : Type} (s : Finset ι) (f : ι → MvPolynomial (Fin d) ℝ) : D (∏ i ∈ s, f i) ≤ ∑ i ∈ s, D (f i) := by
  classical
  induction s using Finset.induction_on with
  | empty => rw [prod_empty, sum_empty, ← C_1, h.const]
  | insert a s ha ih =>
    rw [prod_insert ha, sum_insert ha]
    exact (h.mul _ _).trans (Nat.add_le_add_left ih _)

theorem pow_le (p : MvPolynomial (Fin d) ℝ) (n : Nat) : D (p ^ n) ≤ n * D p := by
  have := h.prod_le (range n) fun _ => p
  simpa using this

theorem bind_le {m : Nat} (G : Fin m → MvPolynomial (Fin d) ℝ) {c : Nat} (hG : ∀ j, D (G j) ≤ c)
    (P : MvPolynomial (Fin m) ℝ) : D (bind₁ G P) ≤ c * P.totalDegree := by
  rw [P.as_sum, map_sum]
  refine h.sum_le _ _ fun s hs => ?_
  rw [bind₁_monomial]
  refine (h.mul _ _).trans ?_
  rw [h.const, zero_add, ← P.as_sum]
  refine (h.prod_le _ _).trans ?_
  have : ∑ i ∈ s.support, D (G i ^ s i) ≤ c * s.sum fun _ e => e := by
    rw [Finsupp.sum, mul_sum]
    exact sum_le_sum fun i _ => (h.pow_le _ _).trans (by rw [Nat.mul_comm]; exact Nat.mul_le_mul_right _ (hG i))
  exact this.trans (Nat.mul_le_mul_left _ (le_totalDegree hs))

/-- the determinant: a bound for each column -/
theorem det_le {m : Nat} (A : Matrix (Fin m) (Fin m) (MvPolynomial (Fin d) ℝ)) {c : Fin m → Nat}
    (hA : ∀ i l, D (A i l) ≤ c l) : D A.det ≤ ∑ l, c l := by
  rw [det_apply]
  refine h.sum_le _ _ fun σ _ => ?_
  have e : (Equiv.Perm.sign σ • ∏ i, A (σ i) i : MvPolynomial (Fin d) ℝ) =
      C ((Equiv.Perm.sign σ : ℤ) : ℝ) * ∏ i, A (σ i) i := by
    rw [Units.smul_def, zsmul_eq_mul]; simp
  rw [e]
  refine (h.mul _ _).trans ?_
  rw [h.const, zero_add]
  exact (h.prod_le _ _).trans (sum_le_sum fun i _ => hA _ _)

end DegLike

theorem degreeOf_le_of {i : Fin d} {P : MvPolynomial (Fin d) ℝ} {c : Nat} (h : ∀ s, P.coeff s ≠ 0 → s i ≤ c) :
    P.degreeOf i ≤ c := by
  rw [degreeOf_eq_sup]
  exact Finset.sup_le fun s hs => h s (mem_support_iff.1 hs)

theorem degreeOf_pderiv (i l : Fin d) (P : MvPolynomial (Fin d) ℝ) :
    (pderiv l P).degreeOf i ≤ P.degreeOf i - if i = l then 1 else 0 := by
  refine degreeOf_le_of fun s hs => ?_
  rw [coeff_pderiv] at hs
  have hs' := left_ne_zero_of_mul hs
  have := monomial_le_degreeOf i (mem_support_iff.2 hs')
  rw [Finsupp.add_apply, Finsupp.single_apply] at this
  split_ifs at this ⊢ <;> omega

theorem totalDegree_pderiv (l : Fin d) (P : MvPolynomial (Fin d) ℝ) : (pderiv l P).totalDegree ≤ P.totalDegree - 1 := by
  rw [totalDegree]
  refine Finset.sup_le fun s hs => ?_
  rw [mem_support_iff, coeff_pderiv] at hs
  have hs' := left_ne_zero_of_mul hs
  have := le_totalDegree (mem_support_iff.2 hs')
  rw [Finsupp.sum_add_index' (fun _ => rfl) (fun _ _ _ => rfl), Finsupp.sum_single_index rfl] at this
  omega

/-! ### Derivatives -/

theorem hasFDerivAt_eval (P : MvPolynomial (Fin d) ℝ) (x : Fin d → ℝ) :
    HasFDerivAt (fun y : Fin d → ℝ => P.eval y)
      (∑ l, (pderiv l P).eval x • ContinuousLinearMap.proj (R := ℝ) (φ := fun _ : Fin d => ℝ) l) x := by
  induction P using MvPolynomial.induction_on with
  | C a => simpa using hasFDerivAt_const (𝕜 := ℝ) a x
  | add p q hp hq =>
    have := hp.add hq
    simp only [map_add, add_smul, sum_add_distrib]
    exact this
  | mul_X p i hp =>
    have h := hp.mul (hasFDerivAt_apply (𝕜 := ℝ) i x)
    simp only [map_mul, eval_X]
    refine h.congr_fderiv ?_
    refine ContinuousLinearMap.ext fun v => ?_
    simp only [pderiv_mul, map_add, map_mul, eval_X, _root_.add_apply, _root_.smul_apply,
      _root_.sum_apply, ContinuousLinearMap.proj_apply, smul_eq_mul, add_mul, sum_add_distrib, pderiv_X,
      Pi.single_apply]
    have e : ∀ l, (eval x) (if i = l then (1 : MvPolynomial (Fin d) ℝ) else 0) = if i = l then 1 else 0 := by
      intro l; split_ifs <;> simp
    simp only [e, mul_ite, mul_one, mul_zero, ite_mul, zero_mul, sum_ite_eq, mem_univ, if_true]
    rw [add_comm, mul_sum]
    congr 1
    exact sum_congr rfl fun l _ => by ring

/-- the Jacobian of a polynomial map, as polynomials -/
noncomputable def jacPoly (G : Fin d → MvPolynomial (Fin d) ℝ) : Matrix (Fin d) (Fin d) (MvPolynomial (Fin d) ℝ) :=
  of fun j l => pderiv l (G j)

theorem eval_jacPoly {G : Fin d → MvPolynomial (Fin d) ℝ} {Φ : (Fin d → ℝ) → Fin d → ℝ}
    (hΦ : ∀ x j, Φ x j = (G j).eval x) {A : Matrix (Fin d) (Fin d) ℝ} {x : Fin d → ℝ}
    (h : HasFDerivAt Φ (Matrix.toLin' A).toContinuousLinearMap x) : (jacPoly G).det.eval x = A.det := by
  rw [RingHom.map_det, ← jac_of_hasFDerivAt h]
  congr 1
  refine Matrix.ext fun j l => ?_
  rw [jac, of_apply, partialDeriv]
  have e : (fun y => Φ y j) = fun y => (G j).eval y := funext fun y => hΦ y j
  rw [e, (hasFDerivAt_eval (G j) x).fderiv]
  simp [jacPoly, Pi.single_apply]

/-! ### Quadrature -/

/-- the error of the transformed rule is the error of the given rule for the transformed integrand, a polynomial -/
theorem quad_mapped {id : Nat} {D : Set (MvPolynomial (Fin d) ℝ)} {ε : ℝ} {l : List (QPoint ℝ)} (hin : PointsIn d id l)
    (hl : ∀ Q ∈ D, |quadOf (fun x => Q.eval x) l - ∫ x in refSet d id, Q.eval x| ≤ ε * coeffSum Q)
    {G : Fin d → MvPolynomial (Fin d) ℝ} {Φ : (Fin d → ℝ) → Fin d → ℝ} (hΦ : ∀ x j, Φ x j = (G j).eval x)
    {A : (Fin d → ℝ) → Matrix (Fin d) (Fin d) ℝ}
    (h : ∀ x, HasFDerivAt Φ (Matrix.toLin' (A x)).toContinuousLinearMap x) (hinj : Set.InjOn Φ (refSet d id))
    (hdet : ∀ x ∈ refSet d id, (A x).det ≠ 0) {ie : (Fin d → ℝ) → ℝ} (hie : ∀ x ∈ refSet d id, ie x = |(A x).det|)
    (P : MvPolynomial (Fin d) ℝ) (hD : ∀ s : ℝ, C s * (bind₁ G P * (jacPoly G).det) ∈ D) :
    ∃ Q ∈ D, (∀ x ∈ refSet d id, Q.eval x = P.eval (Φ x) * ie x) ∧
      |quadOf (fun x => P.eval (Φ x) * ie x) l - ∫ y in Φ '' refSet d id, P.eval y| ≤ ε * coeffSum Q := by
  have hdetp : ∀ x, (jacPoly G).det.eval x = (A x).det := fun x => eval_jacPoly hΦ (h x)
  have hc : Continuous fun x => (A x).det := by
    simp only [← hdetp]; exact continuous_iff_continuousAt.2 fun x => (hasFDerivAt_eval _ x).continuousAt
  obtain ⟨s, hs⟩ : ∃ s : ℝ, ∀ x ∈ refSet d id, |(A x).det| = s * (A x).det := by
    rcases sign_const hc hdet with hs | hs
    · exact ⟨1, fun x hx => by rw [hs x hx, one_mul]⟩
    · exact ⟨-1, fun x hx => by rw [hs x hx, neg_one_mul]⟩
  have hb : ∀ x, (bind₁ G P).eval x = P.eval (Φ x) := by
    intro x
    have := hom_bind₁ (eval x) G P
    rw [this]
    have e : (fun j => (eval x) (G j)) = Φ x := funext fun j => (hΦ x j).symm
    rw [e]
    have e2 : ((eval x).comp (C : ℝ →+* MvPolynomial (Fin d) ℝ)) = RingHom.id ℝ := RingHom.ext fun a => by simp
    rw [e2]
    rfl
  have hQ : ∀ x ∈ refSet d id, (C s * (bind₁ G P * (jacPoly G).det)).eval x = P.eval (Φ x) * ie x := by
    intro x hx
    rw [map_mul, map_mul, eval_C, hb, hdetp, hie x hx, hs x hx]; ring
  refine ⟨_, hD s, hQ, ?_⟩
  have := hl _ (hD s)
  rw [setIntegral_congr_fun (measurableSet_refSet d id) hQ] at this
  rw [integral_image h hinj, setIntegral_congr_fun (g := fun x => P.eval (Φ x) * ie x) (measurableSet_refSet d id)
    (fun x hx => by simp only [hie x hx])]
  have e : quadOf (fun x => P.eval (Φ x) * ie x) l = quadOf (fun x => (C s * (bind₁ G P * (jacPoly G).det)).eval x) l := by
    unfold quadOf
    congr 1
    refine List.map_congr_left fun q hq => ?_
    exact congrArg (q.weight * ·) (hQ _ (hin q hq)).symm
  rw [e]
  exact this

end Verif.Quad
