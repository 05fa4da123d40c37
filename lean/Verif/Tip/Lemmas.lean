import Verif.Hull.Props
import Verif.Neighbour.Props

/-! Helper lemmas for C119: multilinear maps with affine corners at the tips of pyramid constructions. -/

namespace Verif.Tip

open Verif.Typ Verif.RefTopo Verif.RefGeom Verif.MatHelp Verif.MultiLinear Verif.Hull
open Finset hiding ext

/-- every pyramid stage: farther than `tol` from the tip, or at the tip -/
def Ok (tol : ℝ) : Topo → Vec ℝ → Prop
  | .pt, _ => True
  | .prism t, z => Ok tol t z
  | .pyr t, z => (far tol (1 - z t.dim) ∧ Ok tol t (fun r => z r / (1 - z t.dim))) ∨ (z t.dim = 1 ∧ ∀ r, r < t.dim → z r = 0)

theorem ok_congr {tol : ℝ} : ∀ (t : Topo) {z z' : Vec ℝ}, (∀ r, r < t.dim → z r = z' r) → Ok tol t z → Ok tol t z'
  | .pt, _, _, _, _ => trivial
  | .prism t, _, _, h, hz => ok_congr t (fun r hr => h r (by simp only [Topo.dim]; omega)) hz
  | .pyr t, z, z', h, hz => by
    have e : z t.dim = z' t.dim := h _ (by simp [Topo.dim])
    rcases hz with ⟨h1, h2⟩ | ⟨h1, h2⟩
    · exact Or.inl ⟨e ▸ h1, ok_congr t (fun r hr => by rw [h r (by simp only [Topo.dim]; omega), e]) h2⟩
    · exact Or.inr ⟨e ▸ h1, fun r hr => by rw [← h r (by simp only [Topo.dim]; omega)]; exact h2 r hr⟩

theorem ok_corner {tol : ℝ} (h1 : tol < 1) : ∀ (t : Topo) (p : Vec ℝ), p ∈ cornersOf t → Ok tol t p
  | .pt, _, _ => trivial
  | .prism t, p, h => by
    rw [cornersOf_prism, List.mem_append, List.mem_map] at h
    rcases h with h | ⟨q, hq, rfl⟩
    · exact ok_corner h1 t p h
    · exact ok_congr t (fun r hr => by rw [setV_ne _ (by omega)]) (ok_corner h1 t q hq)
  | .pyr t, p, h => by
    rw [cornersOf_pyr, List.mem_append, List.mem_singleton] at h
    rcases h with h | rfl
    · left
      have e : p t.dim = 0 := cornersOf_zero h (le_refl _)
      refine ⟨by rw [e, sub_zero]; exact far_one h1, ok_congr t (fun r _ => ?_) (ok_corner h1 t p h)⟩
      rw [e, sub_zero, div_one]
    · right
      exact ⟨setV_same _ _ _, fun r hr => by rw [setV_ne _ (by omega)]⟩

theorem away_zero {tol : ℝ} (h1 : tol < 1) : ∀ t : Topo, Away tol t (fun _ => 0)
  | .pt => trivial
  | .prism t => away_zero h1 t
  | .pyr t => by
    refine ⟨by simp only [sub_zero]; exact far_one h1, ?_⟩
    simp only [zero_div]
    exact away_zero h1 t

theorem ML_ok {tol : ℝ} (h0 : 0 ≤ tol) : ∀ (t : Topo) (c : Nat → ℝ) (a : ℝ) (M : Nat → ℝ) (z : Vec ℝ),
    Exact t c a M → Ok tol t z → ML tol t c z = a + ∑ r ∈ range t.dim, M r * z r
  | .pt, c, a, M, z, h, _ => by
    simp only [ML, Topo.dim, range_zero, sum_empty, add_zero]
    exact exact_zero h
  | .prism t, c, a, M, z, h, hz => by
    rw [ML, ML_ok h0 t _ _ M z (exact_bot h) hz, ML_ok h0 t _ _ M z (exact_top h) hz]
    simp only [Topo.dim]
    rw [sum_range_succ]; ring
  | .pyr t, c, a, M, z, h, Or.inl ⟨hf, hz⟩ => by
    have hne := far_ne h0 hf
    rw [ML, if_pos hf, ML_ok h0 t _ _ M _ (exact_base h) hz, exact_apex h]
    simp only [Topo.dim]
    rw [sum_range_succ]
    have e : ∑ r ∈ range t.dim, M r * z r = (1 - z t.dim) * ∑ r ∈ range t.dim, M r * (z r / (1 - z t.dim)) := by
      rw [mul_sum]; exact sum_congr rfl fun r _ => by field_simp
    rw [e]; ring
  | .pyr t, c, a, M, z, h, Or.inr ⟨he, hz⟩ => by
    rw [ML, he, _root_.sub_self, if_neg (not_far_zero h0), exact_apex h]
    simp only [Topo.dim]
    rw [sum_range_succ, he, sum_eq_zero fun r hr => by rw [hz r (mem_range.1 hr), mul_zero]]; ring

/-- close to the last tip the code evaluates the base at the origin, which is right for affine corners -/
theorem MLd_near {tol : ℝ} (h0 : 0 ≤ tol) (h1 : tol < 1) {t : Topo} {c : Nat → ℝ} {a : ℝ} {M : Nat → ℝ} {z : Vec ℝ}
    (h : Exact (.pyr t) c a M) (hn : ¬ far tol (1 - z t.dim)) (r : Nat) (hr : r < t.dim + 1) :
    MLd tol (.pyr t) c z r = M r := by
  have hsc : scale tol (z t.dim) = 0 := by rw [scale, if_neg hn]
  rw [MLd]
  simp only [hsc, zero_mul, sum_const_zero, add_zero]
  split_ifs with he
  · rw [ML_affine h0 t _ _ M _ (exact_base h) (away_zero h1 t), exact_apex h, he]
    simp
  · exact MLd_exact h0 t _ _ M _ (exact_base h) (away_zero h1 t) r (by omega)

theorem MLd_ok {tol : ℝ} (h0 : 0 ≤ tol) (h1 : tol < 1) : ∀ (t : Topo) (c : Nat → ℝ) (a : ℝ) (M : Nat → ℝ) (z : Vec ℝ),
    Exact t c a M → Ok tol t z → ∀ r, r < t.dim → MLd tol t c z r = M r
  | .pt, _, _, _, _, _, _, r, hr => absurd hr (by simp [Topo.dim])
  | .prism t, c, a, M, z, h, ha, r, hr => by
    rw [MLd]
    split_ifs with he
    · rw [ML_ok h0 t _ _ M z (exact_top h) ha, ML_ok h0 t _ _ M z (exact_bot h) ha, he]; ring
    · have hr' : r < t.dim := by simp only [Topo.dim] at hr; omega
      rw [MLd_ok h0 h1 t _ _ M z (exact_bot h) ha r hr', MLd_ok h0 h1 t _ _ M z (exact_top h) ha r hr']; ring
  | .pyr t, c, a, M, z, h, Or.inl ⟨hf, ha⟩, r, hr => by
    have hne := far_ne h0 hf
    have hsc : scale tol (z t.dim) = (1 - z t.dim)⁻¹ := by rw [scale, if_pos hf, one_div]
    have hzz : (fun r => scale tol (z t.dim) * z r) = fun r => z r / (1 - z t.dim) := by
      funext r; rw [hsc, div_eq_inv_mul]
    rw [MLd]
    simp only [hzz]
    split_ifs with he
    · rw [ML_ok h0 t _ _ M _ (exact_base h) ha, exact_apex h, he]
      have e : ∀ j ∈ range t.dim, scale tol (z t.dim) * z j * MLd tol t c (fun r => z r / (1 - z t.dim)) j =
          M j * (z j / (1 - z t.dim)) := fun j hj => by
        rw [MLd_ok h0 h1 t _ _ M _ (exact_base h) ha j (mem_range.1 hj), hsc, ← div_eq_inv_mul, mul_comm]
      rw [sum_congr rfl e]
      ring
    · exact MLd_ok h0 h1 t _ _ M _ (exact_base h) ha r (by simp only [Topo.dim] at hr; omega)
  | .pyr t, c, a, M, z, h, Or.inr ⟨he, _⟩, r, hr =>
    MLd_near h0 h1 h (by rw [he, _root_.sub_self]; exact not_far_zero h0) r hr

/-- constant of the error bound -/
def errC : Nat → ℝ
  | 0 => 0
  | d + 1 => 2 + d * errC d

theorem errC_nonneg : ∀ d, 0 ≤ errC d
  | 0 => le_refl _
  | d + 1 => by have := errC_nonneg d; rw [errC]; positivity

theorem errC_le : ∀ d, errC d ≤ errC (d + 1)
  | 0 => by simp [errC]
  | d + 1 => by
    have := errC_nonneg (d + 1)
    rw [show errC (d + 1 + 1) = 2 + ((d + 1 : Nat) : ℝ) * errC (d + 1) from rfl]
    push_cast
    nlinarith [mul_nonneg (Nat.cast_nonneg (α := ℝ) d) this]

theorem MLd_error {tol : ℝ} (h0 : 0 ≤ tol) (h1 : tol < 1) : ∀ (t : Topo) (c : Nat → ℝ) (a C : ℝ) (M : Nat → ℝ) (z : Vec ℝ),
    Exact t c a M → (∀ k, k < nv t → |c k| ≤ C) → 0 ≤ C → Dom t 1 z → ∀ r, r < t.dim →
    |MLd tol t c z r - M r| ≤ errC t.dim * (tol * C)
  | .pt, _, _, _, _, _, _, _, _, _, r, hr => absurd hr (by simp [Topo.dim])
  | .prism t, c, a, C, M, z, h, hc, hC, hd, r, hr => by
    have hT : 0 ≤ tol * C := mul_nonneg h0 hC
    have hcb : ∀ k, k < nv t → |c k| ≤ C := fun k hk => hc k (by rw [nv_prism]; omega)
    have hct : ∀ k, k < nv t → |c (nv t + k)| ≤ C := fun k hk => hc _ (by rw [nv_prism]; omega)
    obtain ⟨z1, z2, z3⟩ := hd
    rw [MLd]
    split_ifs with he
    · have e1 := ML_affine_error h0 t _ _ C M z (exact_top h) hct hC z3
      have e2 := ML_affine_error h0 t _ _ C M z (exact_bot h) hcb hC z3
      have e3 := mul_nonneg (mul_nonneg (Nat.cast_nonneg (α := ℝ) t.dim) (errC_nonneg t.dim)) hT
      simp only [Topo.dim, errC]
      rw [he]
      rw [abs_le] at e1 e2 ⊢
      constructor <;> nlinarith [e1.1, e1.2, e2.1, e2.2]
    · have hr' : r < t.dim := by simp only [Topo.dim] at hr; omega
      have e1 := MLd_error h0 h1 t _ _ C M z (exact_bot h) hcb hC z3 r hr'
      have e2 := MLd_error h0 h1 t _ _ C M z (exact_top h) hct hC z3 r hr'
      have e3 := mul_le_mul_of_nonneg_right (errC_le t.dim) hT
      refine le_trans ?_ e3
      have e : (1 - z t.dim) * MLd tol t c z r + z t.dim * MLd tol t (fun k => c (nv t + k)) z r - M r =
          (1 - z t.dim) * (MLd tol t c z r - M r) + z t.dim * (MLd tol t (fun k => c (nv t + k)) z r - M r) := by ring
      rw [e]
      refine (abs_add_le _ _).trans ?_
      rw [abs_mul, abs_mul, abs_of_nonneg z1, abs_of_nonneg (by linarith : 0 ≤ 1 - z t.dim)]
      nlinarith [mul_le_mul_of_nonneg_left e1 (by linarith : 0 ≤ 1 - z t.dim), mul_le_mul_of_nonneg_left e2 z1]
  | .pyr t, c, a, C, M, z, h, hc, hC, hd, r, hr => by
    have hT : 0 ≤ tol * C := mul_nonneg h0 hC
    have hcb : ∀ k, k < nv t → |c k| ≤ C := fun k hk => hc k (by rw [nv_pyr]; omega)
    by_cases hf : far tol (1 - z t.dim)
    swap
    · rw [MLd_near h0 h1 h hf r hr, _root_.sub_self, abs_zero]
      exact mul_nonneg (errC_nonneg _) hT
    have hne := far_ne h0 hf
    have hz := (dom_div hne hd).2
    have hsc : scale tol (z t.dim) = (1 - z t.dim)⁻¹ := by rw [scale, if_pos hf, one_div]
    have hzz : (fun r => scale tol (z t.dim) * z r) = fun r => z r / (1 - z t.dim) := by
      funext r; rw [hsc, div_eq_inv_mul]
    rw [MLd]
    simp only [hzz]
    split_ifs with he
    · have e1 := ML_affine_error h0 t _ _ C M _ (exact_base h) hcb hC hz
      rw [exact_apex h, he]
      have e2 := sum_bound t.dim (fun j => MLd tol t c (fun r => z r / (1 - z t.dim)) j - M j) (fun j => z j / (1 - z t.dim))
        (errC t.dim * (tol * C)) (fun j hj => MLd_error h0 h1 t _ _ C M _ (exact_base h) hcb hC hz j hj)
        (fun j hj => dom_bounds t 1 _ hz (le_refl _) j hj)
      have e : ∑ j ∈ range t.dim, scale tol (z t.dim) * z j * MLd tol t c (fun r => z r / (1 - z t.dim)) j =
          ∑ j ∈ range t.dim, (MLd tol t c (fun r => z r / (1 - z t.dim)) j - M j) * (z j / (1 - z t.dim)) +
            ∑ j ∈ range t.dim, M j * (z j / (1 - z t.dim)) := by
        rw [← sum_add_distrib]
        exact sum_congr rfl fun j _ => by rw [hsc, div_eq_inv_mul]; ring
      rw [e]
      simp only [Topo.dim, errC]
      rw [abs_le] at e1 e2 ⊢
      constructor <;> nlinarith [e1.1, e1.2, e2.1, e2.2]
    · have := MLd_error h0 h1 t _ _ C M _ (exact_base h) hcb hC hz r (by simp only [Topo.dim] at hr; omega)
      exact this.trans (mul_le_mul_of_nonneg_right (errC_le t.dim) hT)

end Verif.Tip
