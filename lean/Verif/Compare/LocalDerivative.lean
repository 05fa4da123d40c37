import Verif.Compare.Model
import Verif.Mapped.Props

/-! Model of `LocalDerivativeGeometry`, dune/geometry/test/referenceelementgeometry.hh:117-182 (cited as ref.hh), and its use in a
mapped geometry (C82). -/

namespace Verif.Compare

open Verif.RefGeom Verif.MatHelp Verif.Mapped

noncomputable section

/-- ref.hh:136-182: everything from the reference element, but the Jacobian of the geometry.  Simplification: the two dimensions of the
geometry agree, as in test-mappedgeometry.cc:92. -/
def localDerivativeGeometry {m : Nat} (id : Nat) (geo : Geo m m) : Geo m m :=
  { referenceElementGeometry m id with jacobian := geo.jacobian }

/-- C82: a mapping given in local coordinates, `F ∘ geo`, whose derivative is the one with respect to global coordinates, together with
the `LocalDerivativeGeometry` of `geo` is the same geometry as `F` with `geo`, and its Jacobian is the derivative of its `global`. -/
theorem C82_local_derivative {m n : Nat} (id : Nat) (geo : Geo m m) (F : (Fin m → ℝ) → (Fin n → ℝ)) (dF : (Fin m → ℝ) → Mat ℝ)
    (affine : Bool) (x : Fin m → ℝ) :
    let g : MappedGeometry m m n := ⟨F ∘ geo.global, dF ∘ geo.global, localDerivativeGeometry id geo, affine⟩
    let h : MappedGeometry m m n := ⟨F, dF, geo, affine⟩
    g.global x = h.global x ∧ g.jacobian x = h.jacobian x ∧ g.integrationElement x = h.integrationElement x ∧
    g.jacobianInverse x = h.jacobianInverse x ∧
    (HasFDerivAt F (lin n m (dF (geo.global x))) (geo.global x) → HasFDerivAt geo.global (lin m m (geo.jacobian x)) x →
      HasFDerivAt g.global (lin n m (g.jacobian x)) x) := by
  intro g h
  exact ⟨rfl, rfl, rfl, rfl, fun h1 h2 => (C37_chain_rule h x h1 h2).1⟩

/-- a stretched interval and the square function: the Jacobian of `(2 x)^2` is `8 x` -/
example : ∃ (geo : Geo 1 1) (F : (Fin 1 → ℝ) → (Fin 1 → ℝ)) (dF : (Fin 1 → ℝ) → Mat ℝ), (∀ x, HasFDerivAt F (lin 1 1 (dF x)) x) ∧
    (∀ x, HasFDerivAt geo.global (lin 1 1 (geo.jacobian x)) x) ∧
    (⟨F ∘ geo.global, dF ∘ geo.global, localDerivativeGeometry 0 geo, false⟩ : MappedGeometry 1 1 1).jacobian (fun _ => 1) 0 0 = 8 := by
  have hl : ∀ (a : ℝ) (x : Fin 1 → ℝ), HasFDerivAt (fun y : Fin 1 → ℝ => fun _ : Fin 1 => a * y 0) (lin 1 1 fun _ _ => a) x := by
    intro a x
    rw [hasFDerivAt_pi']
    intro i
    have := ((hasFDerivAt_apply (𝕜 := ℝ) (F' := fun _ : Fin 1 => ℝ) 0 x).const_mul a)
    refine this.congr_fderiv ?_
    ext v
    fin_cases i
    simp [lin_apply, Matrix.mulVec, dotProduct, mat]
  refine ⟨⟨2, fun i => some fun _ => 2 * i, some fun _ => 1, fun x _ => 2 * x 0, fun _ _ _ => 2, some fun _ => 1 / 2⟩, fun y _ => y 0 ^ 2,
    fun y _ _ => 2 * y 0, fun x => ?_, fun x => hl 2 x, ?_⟩
  · rw [hasFDerivAt_pi']
    intro i
    have := ((hasFDerivAt_apply (𝕜 := ℝ) (F' := fun _ : Fin 1 => ℝ) 0 x).pow 2)
    refine this.congr_fderiv ?_
    ext v
    fin_cases i
    simp [lin_apply, Matrix.mulVec, dotProduct, mat]
  · norm_num [MappedGeometry.jacobian, localDerivativeGeometry, referenceElementGeometry, addLoop]

end

end Verif.Compare
