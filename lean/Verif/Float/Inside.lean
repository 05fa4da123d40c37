import Verif.Float.Model
import Verif.RefGeom.Props
import Mathlib.Tactic.Positivity.Core

/-! `checkInside` in floating-point arithmetic -/

namespace Verif.Float

open Verif.Typ Verif.RefTopo Verif.RefGeom

variable {φ : Format}

/-- the test with tolerance, as computed -/
def FInside (tol : Fl φ) : Topo → Fl φ → (Nat → Fl φ) → Prop
  | .pt, _, _ => True
  | .prism t, f, x => -tol < x t.dim ∧ -tol < f - x t.dim ∧ FInside tol t f x
  | .pyr t, f, x => -tol < x t.dim ∧ -tol < f - x t.dim ∧ FInside tol t (f - x t.dim) x

theorem checkInside_iff {d id : Nat} {t : Topo} (h : Rep d id t) (x : Nat → Fl φ) (tol : Fl φ) :
    ∀ f : Fl φ, checkInside d id x tol f = true ↔ FInside tol t f x := by
  induction h with
  | pt id => intro f; simp [checkInside, FInside]
  | @prism d id t hb hr ih =>
    intro f
    simp only [checkInside, implBase_eq, isPrism_of_rep hb, if_true, Nat.add_sub_cancel, FInside, hr.dim_eq, gt_iff_lt]
    split
    · rename_i h; rw [ih]; exact ⟨fun h' => ⟨h.1, h.2, h'⟩, fun h' => h'.2.2⟩
    · rename_i h
      constructor
      · intro h'; cases h'
      · intro h'; exact absurd ⟨h'.1, h'.2.1⟩ h
  | @pyr d id t hb hr ih =>
    intro f
    by_cases hd : d = 0
    · subst hd
      obtain rfl := rep_zero hr
      simp only [checkInside, isPrism_of_rep (Or.inl rfl), if_true, FInside, Topo.dim, gt_iff_lt]
      split
      · rename_i h; exact ⟨fun _ => ⟨h.1, h.2, trivial⟩, fun _ => rfl⟩
      · rename_i h
        constructor
        · intro h'; cases h'
        · intro h'; exact absurd ⟨h'.1, h'.2.1⟩ h
    · simp only [checkInside, implBase_eq, isPrism_of_rep_pyr hd hb, Bool.false_eq_true, if_false,
        Nat.add_sub_cancel, FInside, hr.dim_eq, gt_iff_lt]
      split
      · rename_i h; rw [ih]; exact ⟨fun h' => ⟨h.1, h.2, h'⟩, fun h' => h'.2.2⟩
      · rename_i h
        constructor
        · intro h'; cases h'
        · intro h'; exact absurd ⟨h'.1, h'.2.1⟩ h

/-- one step: the error of `factor - x` -/
theorem sub_step (fh xh : Fl φ) {f x e δ : ℝ} (hf : |fh.val - f| ≤ e) (hx : |xh.val - x| ≤ δ) (h0 : 0 ≤ f - x) (h1 : f - x ≤ 1) :
    |(fh - xh).val - (f - x)| ≤ (1 + φ.u) * (1 + e + δ) - 1 := by
  have h := Fl.sub_err fh xh
  rw [abs_le] at hf hx
  have hb : |fh.val - xh.val| ≤ 1 + e + δ := by rw [abs_le]; constructor <;> linarith
  have := mul_le_mul_of_nonneg_left hb φ.u_nonneg
  have h := h.trans this
  rw [abs_le] at h ⊢
  constructor <;> linarith

/-- a point near the element is accepted -/
theorem accept {tol : Fl φ} {δ : ℝ} (hδ : 0 ≤ δ) {x : Nat → Fl φ} {y : Vec ℝ} : ∀ (t : Topo) (fh : Fl φ) (f e : ℝ), f ≤ 1 → 0 ≤ e →
    |fh.val - f| ≤ e → Dom t f y → (∀ k, k < t.dim → |(x k).val - y k| ≤ δ) →
    (1 + φ.u) ^ t.dim * (1 + e + t.dim * δ) - 1 < tol.val → FInside tol t fh x := by
  have hu := φ.u_nonneg
  have h1u : 1 ≤ 1 + φ.u := by linarith
  have common : ∀ (n : ℕ) (e : ℝ), 0 ≤ e →
      (1 + φ.u) ^ n * (1 + ((1 + φ.u) * (1 + e + δ) - 1) + n * δ) ≤ (1 + φ.u) ^ (n + 1) * (1 + e + (n + 1 : ℕ) * δ) := by
    intro n e he
    rw [pow_succ, mul_assoc]
    refine mul_le_mul_of_nonneg_left ?_ (by positivity)
    push_cast
    have : 0 ≤ φ.u * (n * δ) := by positivity
    nlinarith
  have low : ∀ (n : ℕ) (E : ℝ), 0 ≤ E → E ≤ (1 + φ.u) ^ n * (1 + E + n * δ) - 1 := by
    intro n E hE
    have h1 : 1 ≤ (1 + φ.u) ^ n := one_le_pow₀ h1u
    have : 0 ≤ (n:ℝ) * δ := by positivity
    nlinarith
  have step : ∀ (t : Topo) (fh : Fl φ) (f e : ℝ), f ≤ 1 → 0 ≤ e → |fh.val - f| ≤ e → 0 ≤ y t.dim → y t.dim ≤ f →
      |(x t.dim).val - y t.dim| ≤ δ → (1 + φ.u) ^ (t.dim + 1) * (1 + e + (t.dim + 1 : ℕ) * δ) - 1 < tol.val →
      -tol < x t.dim ∧ -tol < fh - x t.dim := by
    intro t fh f e hf he hfe h0 h1 hx ht
    have hs := sub_step fh (x t.dim) hfe hx (by linarith) (by linarith)
    have hE : 0 ≤ (1 + φ.u) * (1 + e + δ) - 1 := by nlinarith
    have h2 := low t.dim _ hE
    have h3 := common t.dim e he
    have h4 : δ ≤ (1 + φ.u) * (1 + e + δ) - 1 := by nlinarith
    rw [abs_le] at hs hx
    rw [Fl.lt_iff, Fl.lt_iff, Fl.neg_val]
    constructor <;> linarith
  intro t
  induction t with
  | pt => intros; trivial
  | prism t ih =>
    intro fh f e hf he hfe hd hx ht
    obtain ⟨h0, h1, hd⟩ := hd
    simp only [Topo.dim] at hx ht
    obtain ⟨h2, h3⟩ := step t fh f e hf he hfe h0 h1 (hx _ (by omega)) ht
    refine ⟨h2, h3, ih fh f e hf he hfe hd (fun k hk => hx k (by omega)) ?_⟩
    have h4 := common t.dim e he
    have h5 : (1 + φ.u) ^ t.dim * (1 + e + t.dim * δ) ≤ (1 + φ.u) ^ t.dim * (1 + ((1 + φ.u) * (1 + e + δ) - 1) + t.dim * δ) :=
      mul_le_mul_of_nonneg_left (by nlinarith) (by positivity)
    linarith
  | pyr t ih =>
    intro fh f e hf he hfe hd hx ht
    obtain ⟨h0, h1, hd⟩ := hd
    simp only [Topo.dim] at hx ht
    obtain ⟨h2, h3⟩ := step t fh f e hf he hfe h0 h1 (hx _ (by omega)) ht
    have h4 := common t.dim e he
    exact ⟨h2, h3, ih _ _ _ (by linarith) (by nlinarith)
      (sub_step fh (x t.dim) hfe (hx _ (by omega)) (by linarith) (by linarith)) hd (fun k hk => hx k (by omega)) (by linarith)⟩

/-- what the computed test accepts, the exact test accepts with a tolerance larger by `2 u` per coordinate -/
theorem accepted (hu : φ.u ≤ 1 / 2) {tol : Fl φ} (h0 : 0 ≤ tol.val) (h1 : tol.val ≤ 1) {x : Nat → Fl φ} :
    ∀ (t : Topo) (fh : Fl φ) (f e F tol' : ℝ), |fh.val - f| ≤ e → fh.val ≤ F → 0 ≤ F →
    (1 + φ.u) ^ t.dim * (F + t.dim * tol.val) ≤ 2 → tol.val + e + 2 * t.dim * φ.u ≤ tol' → FInside tol t fh x →
    Inside tol' t f (fun k => (x k).val) := by
  have hu0 := φ.u_nonneg
  have step : ∀ (n : ℕ) (fh a : Fl φ) (f e F : ℝ), |fh.val - f| ≤ e → fh.val ≤ F → 0 ≤ F →
      (1 + φ.u) ^ (n + 1) * (F + (n + 1 : ℕ) * tol.val) ≤ 2 → -tol < a → -tol < fh - a →
      |(fh - a).val - (f - a.val)| ≤ e + 2 * φ.u ∧ (fh - a).val ≤ (1 + φ.u) * (F + tol.val) ∧
        -(tol.val + 2 * φ.u + e) < f - a.val := by
    intro n fh a f e F hf hF hF0 hb ha hs
    rw [Fl.lt_iff, Fl.neg_val] at ha hs
    have h := Fl.sub_err fh a
    have hn : (1:ℝ) ≤ (1 + φ.u) ^ (n + 1) := one_le_pow₀ (by linarith)
    have hn' : 0 ≤ (n:ℝ) * tol.val := by positivity
    have hFt : F + tol.val ≤ 2 := by push_cast at hb; nlinarith
    have hab : |fh.val - a.val| ≤ 2 ∧ (fh - a).val ≤ (1 + φ.u) * (F + tol.val) := by
      by_cases hc : 0 ≤ fh.val - a.val
      · rw [abs_of_nonneg hc] at h ⊢
        rw [abs_le] at h
        refine ⟨by linarith, ?_⟩
        have : (1 + φ.u) * (fh.val - a.val) ≤ (1 + φ.u) * (F + tol.val) := mul_le_mul_of_nonneg_left (by linarith) (by linarith)
        linarith
      · rw [abs_of_neg (not_le.1 hc)] at h ⊢
        rw [abs_le] at h
        have : 0 ≤ (1 + φ.u) * (F + tol.val) := by positivity
        constructor <;> nlinarith
    have h' : |(fh - a).val - (fh.val - a.val)| ≤ 2 * φ.u := h.trans (by nlinarith [hab.1])
    rw [abs_le] at h' hf
    refine ⟨?_, hab.2, by linarith⟩
    rw [abs_le]; constructor <;> linarith
  intro t
  induction t with
  | pt => intros; trivial
  | prism t ih =>
    intro fh f e F tol' hf hF hF0 hb ht h
    obtain ⟨ha, hs, h⟩ := h
    simp only [Topo.dim] at hb ht
    have he : 0 ≤ e := (abs_nonneg _).trans hf
    have hd : 0 ≤ (t.dim : ℝ) * φ.u := by positivity
    obtain ⟨h2, h3, h4⟩ := step t.dim fh _ f e F hf hF hF0 hb ha hs
    rw [Fl.lt_iff, Fl.neg_val] at ha
    push_cast at ht
    refine ⟨by linarith, by linarith, ih fh f e F tol' hf hF hF0 (le_trans ?_ hb) (by linarith) h⟩
    rw [pow_succ, mul_assoc]
    refine mul_le_mul_of_nonneg_left ?_ (by positivity)
    push_cast
    have : 0 ≤ (t.dim:ℝ) * tol.val := by positivity
    nlinarith
  | pyr t ih =>
    intro fh f e F tol' hf hF hF0 hb ht h
    obtain ⟨ha, hs, h⟩ := h
    simp only [Topo.dim] at hb ht
    have he : 0 ≤ e := (abs_nonneg _).trans hf
    have hd : 0 ≤ (t.dim : ℝ) * φ.u := by positivity
    obtain ⟨h2, h3, h4⟩ := step t.dim fh _ f e F hf hF hF0 hb ha hs
    rw [Fl.lt_iff, Fl.neg_val] at ha
    push_cast at ht
    refine ⟨by linarith, by linarith, ih _ _ _ _ tol' h2 h3 (by positivity) (le_trans ?_ hb) (by linarith) h⟩
    rw [pow_succ, mul_assoc]
    refine mul_le_mul_of_nonneg_left ?_ (by positivity)
    push_cast
    have : 0 ≤ (t.dim:ℝ) * tol.val := by positivity
    nlinarith

/-- the exact test with tolerance accepts only points near the element -/
theorem near {tol : ℝ} (h0 : 0 ≤ tol) (x : Vec ℝ) : ∀ (t : Topo) (f g a : ℝ), 0 ≤ g → |f - g| ≤ a → Inside tol t f x →
    ∃ y : Vec ℝ, Dom t g y ∧ ∀ k, k < t.dim → |y k - x k| ≤ a + t.dim * tol := by
  have glue : ∀ (t : Topo) (g v a : ℝ) (y : Vec ℝ), Dom t g y → (∀ k, k < t.dim → |y k - x k| ≤ a) →
      |v - x t.dim| ≤ a → Dom t g (setV y t.dim v) ∧ ∀ k, k < t.dim + 1 → |setV y t.dim v k - x k| ≤ a := by
    intro t g v a y hy h1 h2
    refine ⟨dom_congr t g (fun k hk => by rw [setV_ne _ (by omega)]) hy, fun k hk => ?_⟩
    by_cases hk' : k = t.dim
    · subst hk'; simpa [setV] using h2
    · rw [setV_ne _ hk']; exact h1 k (by omega)
  have clamp : ∀ (f g a v : ℝ), 0 ≤ g → |f - g| ≤ a → -tol < v → -tol < f - v →
      ∃ w, 0 ≤ w ∧ w ≤ g ∧ |w - v| ≤ a + tol ∧ |f - v - (g - w)| ≤ a + tol := by
    intro f g a v hg hf hv hfv
    rw [abs_le] at hf
    by_cases h1 : v < 0
    · refine ⟨0, le_refl _, hg, ?_, ?_⟩ <;> rw [abs_le] <;> constructor <;> linarith
    · push Not at h1
      by_cases h2 : v ≤ g
      · refine ⟨v, h1, h2, ?_, ?_⟩ <;> rw [abs_le] <;> constructor <;> linarith
      · push Not at h2
        refine ⟨g, hg, le_refl _, ?_, ?_⟩ <;> rw [abs_le] <;> constructor <;> linarith
  intro t
  induction t with
  | pt => intro f g a _ _ _; exact ⟨x, trivial, fun k hk => absurd hk (Nat.not_lt_zero k)⟩
  | prism t ih =>
    intro f g a hg hf h
    obtain ⟨h1, h2, h⟩ := h
    obtain ⟨w, hw0, hw1, hw, -⟩ := clamp f g a _ hg hf h1 h2
    obtain ⟨y, hy, hyx⟩ := ih f g a hg hf h
    have hm : 0 ≤ (t.dim:ℝ) * tol := by positivity
    obtain ⟨h3, h4⟩ := glue t g w (a + (t.dim + 1 : ℕ) * tol) y hy
      (fun k hk => (hyx k hk).trans (by push_cast; linarith)) (hw.trans (by push_cast; linarith))
    refine ⟨setV y t.dim w, ⟨?_, ?_, h3⟩, h4⟩ <;> simpa [setV]
  | pyr t ih =>
    intro f g a hg hf h
    obtain ⟨h1, h2, h⟩ := h
    obtain ⟨w, hw0, hw1, hw, hw'⟩ := clamp f g a _ hg hf h1 h2
    obtain ⟨y, hy, hyx⟩ := ih (f - x t.dim) (g - w) (a + tol) (by linarith) hw' h
    have hm : 0 ≤ (t.dim:ℝ) * tol := by positivity
    obtain ⟨h3, h4⟩ := glue t (g - w) w (a + (t.dim + 1 : ℕ) * tol) y hy
      (fun k hk => (hyx k hk).trans (by push_cast; linarith)) (hw.trans (by push_cast; linarith))
    refine ⟨setV y t.dim w, ⟨?_, ?_, ?_⟩, h4⟩
    · simpa [setV]
    · simpa [setV]
    · simpa [setV] using h3

end Verif.Float
