import Verif.MultiLinear.Props
import Verif.RefGeom.StrataProps
import Mathlib.Analysis.Convex.Combination

/-! The shape functions of multilinear geometries: non-negative on the reference element, with sum one away from the tips. -/

namespace Verif.Hull

open Verif.Typ Verif.RefTopo Verif.RefGeom Verif.MatHelp Verif.MultiLinear Finset

theorem dom_div {t : Topo} {z : Vec ℝ} {s : ℝ} (hs : 0 < s) (h : Dom t s z) : Dom t 1 (fun r => z r / s) := by
  have := dom_smul (a := s⁻¹) (by positivity) t _ z h
  rw [inv_mul_cancel₀ hs.ne'] at this
  exact dom_congr t 1 (fun r _ => by ring) this

/-- the values of the shape functions at `z` -/
theorem shape {tol : ℝ} (h0 : 0 ≤ tol) (h1 : tol < 1) : ∀ (t : Topo) (z : Vec ℝ), Dom t 1 z →
    ∃ w : Nat → ℝ, (∀ k, 0 ≤ w k) ∧ 1 - tol ≤ ∑ k ∈ range (nv t), w k ∧ ∑ k ∈ range (nv t), w k ≤ 1 ∧
      (Away tol t z → ∑ k ∈ range (nv t), w k = 1) ∧ ∀ c : Nat → ℝ, ML tol t c z = ∑ k ∈ range (nv t), w k * c k
  | .pt, z, _ => by
    refine ⟨fun _ => 1, fun _ => zero_le_one, ?_, ?_, fun _ => ?_, fun c => ?_⟩ <;> have : nv .pt = 1 := rfl <;> simp [this, ML, h0]
  | .prism t, z, ⟨z1, z2, z3⟩ => by
    obtain ⟨w, a1, a2, a3, a4, a5⟩ := shape h0 h1 t z z3
    have hs : ∀ c : Nat → ℝ, ∑ k ∈ range (nv t + nv t), (if k < nv t then (1 - z t.dim) * w k else z t.dim * w (k - nv t)) * c k =
        (1 - z t.dim) * ∑ k ∈ range (nv t), w k * c k + z t.dim * ∑ k ∈ range (nv t), w k * c (nv t + k) := by
      intro c
      rw [sum_range_add, mul_sum, mul_sum]
      congr 1
      · exact sum_congr rfl fun k hk => by rw [if_pos (mem_range.1 hk)]; ring
      · exact sum_congr rfl fun k hk => by rw [if_neg (by omega), Nat.add_sub_cancel_left]; ring
    have hs1 := hs fun _ => 1
    simp only [mul_one] at hs1
    refine ⟨fun k => if k < nv t then (1 - z t.dim) * w k else z t.dim * w (k - nv t), fun k => ?_, ?_, ?_, fun ha => ?_,
      fun c => ?_⟩
    · simp only
      split
      · exact mul_nonneg (by linarith) (a1 _)
      · exact mul_nonneg z1 (a1 _)
    · rw [nv_prism, hs1]; linarith
    · rw [nv_prism, hs1]; linarith
    · rw [nv_prism, hs1, a4 ha]; ring
    · rw [nv_prism, hs, ML, a5, a5]
  | .pyr t, z, ⟨z1, z2, z3⟩ => by
    by_cases hf : far tol (1 - z t.dim)
    · have hp : 0 < 1 - z t.dim := by
        rcases hf with h | h <;> linarith
      obtain ⟨w, a1, a2, a3, a4, a5⟩ := shape h0 h1 t _ (dom_div hp z3)
      have hs : ∀ c : Nat → ℝ, ∑ k ∈ range (nv t + 1), (if k < nv t then (1 - z t.dim) * w k else z t.dim) * c k =
          (1 - z t.dim) * ∑ k ∈ range (nv t), w k * c k + z t.dim * c (nv t) := by
        intro c
        rw [sum_range_succ, mul_sum, if_neg (lt_irrefl _)]
        congr 1
        exact sum_congr rfl fun k hk => by rw [if_pos (mem_range.1 hk)]; ring
      have hs1 := hs fun _ => 1
      simp only [mul_one] at hs1
      refine ⟨fun k => if k < nv t then (1 - z t.dim) * w k else z t.dim, fun k => ?_, ?_, ?_, fun ha => ?_, fun c => ?_⟩
      · simp only
        split
        · exact mul_nonneg hp.le (a1 _)
        · exact z1
      · rw [nv_pyr, hs1]; nlinarith
      · rw [nv_pyr, hs1]; nlinarith
      · rw [nv_pyr, hs1, a4 ha.2]; ring
      · rw [nv_pyr, hs, ML_pyr_far hf, a5]
    · have hn : 1 - z t.dim ≤ tol := by
        by_contra h; exact hf (Or.inl (not_le.1 h))
      have hs : ∀ c : Nat → ℝ, ∑ k ∈ range (nv t + 1), (if k < nv t then 0 else z t.dim) * c k = z t.dim * c (nv t) := by
        intro c
        rw [sum_range_succ, if_neg (lt_irrefl _), sum_eq_zero fun k hk => by rw [if_pos (mem_range.1 hk), zero_mul], zero_add]
      have hs1 := hs fun _ => 1
      simp only [mul_one] at hs1
      refine ⟨fun k => if k < nv t then 0 else z t.dim, fun k => ?_, ?_, ?_, fun ha => ?_, fun c => ?_⟩
      · simp only
        split
        · exact le_refl _
        · exact z1
      · rw [nv_pyr, hs1]; linarith
      · rw [nv_pyr, hs1]; linarith
      · exact absurd ha.1 hf
      · rw [nv_pyr, hs, ML_pyr_near hf]

end Verif.Hull
