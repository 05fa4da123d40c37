import Verif.Affine.Model
import Verif.MatHelp.Props
import Verif.RefGeom.Props
import Mathlib.MeasureTheory.Measure.Lebesgue.EqHaar

/-! Helper lemmas about AffineGeometry. -/

namespace Verif.Affine

open Verif.RefGeom Verif.MatHelp Verif.RefTopo Finset
open Matrix hiding vec

/-- what a successful construction guarantees -/
structure Good (g : AffineGeometry) : Prop where
  le : g.mydim ≤ g.cdim
  li : LinearIndependent ℝ (mat g.mydim g.cdim g.jt).row
  det : g.integrationElement = Real.sqrt (mat g.mydim g.cdim g.jt * (mat g.mydim g.cdim g.jt)ᵀ).det
  inv : mat g.cdim g.mydim g.jit =
    (mat g.mydim g.cdim g.jt)ᵀ * (mat g.mydim g.cdim g.jt * (mat g.mydim g.cdim g.jt)ᵀ)⁻¹

theorem ofJacobian_eq {m n id : Nat} {o : Vec ℝ} {jt : Mat ℝ} (hmn : m ≤ n)
    (hli : LinearIndependent ℝ (mat m n jt).row) :
    ∃ g, AffineGeometry.ofJacobian m n id o jt = some g ∧ g.mydim = m ∧ g.cdim = n ∧ g.id = id ∧ g.origin = o ∧
      g.jt = jt ∧ Good g := by
  obtain ⟨R, h1, h2⟩ := rightInvA_eq hmn hli
  refine ⟨⟨m, n, id, o, jt, R, Real.sqrt (mat m n jt * (mat m n jt)ᵀ).det⟩, ?_, rfl, rfl, rfl, rfl, rfl, ⟨hmn, hli, rfl, h2⟩⟩
  simp [AffineGeometry.ofJacobian, h1]

theorem ofJacobian_none {m n id : Nat} {o : Vec ℝ} {jt : Mat ℝ} (hmn : m ≤ n)
    (hli : ¬ LinearIndependent ℝ (mat m n jt).row) : AffineGeometry.ofJacobian m n id o jt = none := by
  simp [AffineGeometry.ofJacobian, rightInvA_none hmn hli]

theorem ofJacobian_good {m n id : Nat} {o : Vec ℝ} {jt : Mat ℝ} {g : AffineGeometry} (hmn : m ≤ n)
    (h : AffineGeometry.ofJacobian m n id o jt = some g) :
    g.mydim = m ∧ g.cdim = n ∧ g.id = id ∧ g.origin = o ∧ g.jt = jt ∧ Good g := by
  by_cases hli : LinearIndependent ℝ (mat m n jt).row
  · obtain ⟨g', h1, h2⟩ := ofJacobian_eq (id := id) (o := o) hmn hli
    rw [h] at h1
    obtain rfl : g = g' := by simpa using h1
    exact h2
  · rw [ofJacobian_none hmn hli] at h
    simp at h

theorem global_eq (g : AffineGeometry) (x : Vec ℝ) :
    vec g.cdim (g.global x) = vec g.cdim g.origin + (mat g.mydim g.cdim g.jt)ᵀ *ᵥ vec g.mydim x := by
  funext j
  rw [vec, AffineGeometry.global, addLoop_eq, ← range_eq_Ico, ← sum_fin g.mydim (fun i => g.jt i j * x i)]
  rfl

theorem local_eq (g : AffineGeometry) (y : Vec ℝ) :
    vec g.mydim (g.local_ y) = (mat g.cdim g.mydim g.jit)ᵀ *ᵥ (vec g.cdim y - vec g.cdim g.origin) := by
  rw [AffineGeometry.local_, mtv_eq]; rfl

theorem Good.isUnit {g : AffineGeometry} (h : Good g) :
    IsUnit (mat g.mydim g.cdim g.jt * (mat g.mydim g.cdim g.jt)ᵀ).det :=
  (isUnit_iff_isUnit_det _).1 ((aat_posDef_iff _).2 h.li).isUnit

theorem Good.right_inv {g : AffineGeometry} (h : Good g) :
    mat g.mydim g.cdim g.jt * mat g.cdim g.mydim g.jit = 1 := by
  rw [h.inv, ← Matrix.mul_assoc, mul_nonsing_inv _ h.isUnit]

theorem Good.jitT {g : AffineGeometry} (h : Good g) :
    (mat g.cdim g.mydim g.jit)ᵀ =
      (mat g.mydim g.cdim g.jt * (mat g.mydim g.cdim g.jt)ᵀ)⁻¹ * mat g.mydim g.cdim g.jt := by
  rw [h.inv, transpose_mul, transpose_transpose, transpose_nonsing_inv, transpose_mul, transpose_transpose]

/-- the residual of `local` is orthogonal to the image -/
theorem Good.orthogonal {g : AffineGeometry} (h : Good g) (y : Vec ℝ) :
    mat g.mydim g.cdim g.jt *ᵥ (vec g.cdim (g.global (g.local_ y)) - vec g.cdim y) = 0 := by
  rw [global_eq, local_eq, h.jitT]
  set A := mat g.mydim g.cdim g.jt
  have e : vec g.cdim g.origin + Aᵀ *ᵥ (((A * Aᵀ)⁻¹ * A) *ᵥ (vec g.cdim y - vec g.cdim g.origin)) - vec g.cdim y =
      Aᵀ *ᵥ (((A * Aᵀ)⁻¹ * A) *ᵥ (vec g.cdim y - vec g.cdim g.origin)) - (vec g.cdim y - vec g.cdim g.origin) := by
    abel
  rw [e, mulVec_sub, mulVec_mulVec, mulVec_mulVec, ← Matrix.mul_assoc, mul_nonsing_inv _ h.isUnit, Matrix.one_mul,
    sub_self]

end Verif.Affine
