import Verif.Hull.Props
import Mathlib.LinearAlgebra.Matrix.Determinant.Basic
import Mathlib.LinearAlgebra.Matrix.ToLinearEquiv

/-! The rows of the Jacobian of a cube are averages of edges. -/

namespace Verif.Hull

open Verif.Typ Verif.RefTopo Verif.RefGeom Verif.MatHelp Verif.MultiLinear Finset

/-- the lower ends of the edges in direction `k` -/
def edges (d k : Nat) : Finset Nat := (range (2 ^ d)).filter fun i => i.testBit k = false

theorem sum_edges_last (d : Nat) (f : Nat → ℝ) : ∑ i ∈ edges (d + 1) d, f i = ∑ i ∈ range (2 ^ d), f i := by
  rw [edges, sum_filter, pow_succ, Nat.mul_two, sum_range_add]
  have h1 : ∑ i ∈ range (2 ^ d), (if i.testBit d = false then f i else 0) = ∑ i ∈ range (2 ^ d), f i :=
    sum_congr rfl fun i hi => if_pos (Nat.testBit_lt_two_pow (mem_range.1 hi))
  have h2 : ∑ i ∈ range (2 ^ d), (if (2 ^ d + i).testBit d = false then f (2 ^ d + i) else 0) = 0 := by
    refine sum_eq_zero fun i hi => if_neg ?_
    rw [Nat.testBit_two_pow_add_eq, Nat.testBit_lt_two_pow (mem_range.1 hi)]; decide
  rw [h1, h2, _root_.add_zero]

theorem sum_edges_succ {d k : Nat} (hk : k < d) (f : Nat → ℝ) :
    ∑ i ∈ edges (d + 1) k, f i = ∑ i ∈ edges d k, f i + ∑ i ∈ edges d k, f (2 ^ d + i) := by
  rw [edges, sum_filter, pow_succ, Nat.mul_two, sum_range_add, edges, sum_filter, sum_filter]
  congr 1
  refine sum_congr rfl fun i _ => ?_
  rw [Nat.testBit_two_pow_add_gt hk]

theorem dom_cube : ∀ (d : Nat) (z : Vec ℝ), (∀ r, r < d → 0 ≤ z r ∧ z r ≤ 1) → Dom (Topo.cube d) 1 z
  | 0, _, _ => trivial
  | d + 1, z, h => by
    have hd : (Topo.cube d).dim = d := dim_cube d
    refine ⟨?_, ?_, dom_cube d z fun r hr => h r (by omega)⟩ <;> rw [hd]
    · exact (h d (by omega)).1
    · exact (h d (by omega)).2

theorem cube_edges {tol : ℝ} (h0 : 0 ≤ tol) (h1 : tol < 1) : ∀ (d : Nat) (z : Vec ℝ), (∀ r, r < d → 0 ≤ z r ∧ z r ≤ 1) →
    ∀ k, k < d → ∃ w : Nat → ℝ, (∀ i, 0 ≤ w i) ∧ ∑ i ∈ edges d k, w i = 1 ∧
      ∀ c : Nat → ℝ, MLd tol (Topo.cube d) c z k = ∑ i ∈ edges d k, w i * (c (i + 2 ^ k) - c i)
  | 0, _, _, k, hk => absurd hk (Nat.not_lt_zero k)
  | d + 1, z, h, k, hk => by
    have hd : (Topo.cube d).dim = d := dim_cube d
    have hn : nv (Topo.cube d) = 2 ^ d := nv_cube d
    by_cases hkd : k = d
    · subst hkd
      obtain ⟨w, a1, -, -, a4, a5⟩ := shape h0 h1 (Topo.cube k) z (dom_cube k z fun r hr => h r (by omega))
      have a6 := a4 (away_cube k z)
      rw [hn] at a5 a6
      refine ⟨w, a1, by rw [sum_edges_last, a6], fun c => ?_⟩
      rw [sum_edges_last]
      change (if k = (Topo.cube k).dim then _ else _) = _
      rw [if_pos hd.symm, a5, a5, ← sum_sub_distrib, hn]
      exact sum_congr rfl fun i _ => by rw [Nat.add_comm i]; ring
    · have hk' : k < d := by omega
      obtain ⟨w, a1, a2, a3⟩ := cube_edges h0 h1 d z (fun r hr => h r (by omega)) k hk'
      obtain ⟨z0, z1⟩ := h d (by omega)
      refine ⟨fun i => if i < 2 ^ d then (1 - z d) * w i else z d * w (i - 2 ^ d), fun i => ?_, ?_, fun c => ?_⟩
      · dsimp only
        split
        · exact mul_nonneg (by linarith) (a1 _)
        · exact mul_nonneg z0 (a1 _)
      · rw [sum_edges_succ hk']
        have e1 : ∀ i ∈ edges d k, (if i < 2 ^ d then (1 - z d) * w i else z d * w (i - 2 ^ d)) = (1 - z d) * w i :=
          fun i hi => if_pos (mem_range.1 (mem_filter.1 hi).1)
        have e2 : ∀ i ∈ edges d k, (if 2 ^ d + i < 2 ^ d then (1 - z d) * w (2 ^ d + i) else z d * w (2 ^ d + i - 2 ^ d)) = z d * w i :=
          fun i hi => by rw [if_neg (by omega), Nat.add_sub_cancel_left]
        rw [sum_congr rfl e1, sum_congr rfl e2, ← mul_sum, ← mul_sum, a2]
        ring
      · rw [sum_edges_succ hk']
        change (if k = (Topo.cube d).dim then _ else _) = _
        rw [if_neg (by rw [hd]; exact hkd), hd, hn, a3, a3, mul_sum, mul_sum]
        congr 1
        · exact sum_congr rfl fun i hi => by beta_reduce; rw [if_pos (mem_range.1 (mem_filter.1 hi).1)]; ring
        · exact sum_congr rfl fun i hi => by
            beta_reduce; rw [if_neg (by omega), Nat.add_sub_cancel_left, ← Nat.add_assoc]; ring

/-- along one coordinate the map of a cube is affine -/
theorem cube_step (tol : ℝ) : ∀ (d : Nat) (c : Nat → ℝ) (x y : Vec ℝ) (k : Nat), k < d → (∀ r, r < d → r ≠ k → x r = y r) →
    ML tol (Topo.cube d) c x - ML tol (Topo.cube d) c y = (x k - y k) * MLd tol (Topo.cube d) c x k
  | 0, _, _, _, k, hk, _ => absurd hk (Nat.not_lt_zero k)
  | d + 1, c, x, y, k, hk, h => by
    have hd : (Topo.cube d).dim = d := dim_cube d
    change (1 - x (Topo.cube d).dim) * ML tol (Topo.cube d) c x + x (Topo.cube d).dim * ML tol (Topo.cube d) _ x -
      ((1 - y (Topo.cube d).dim) * ML tol (Topo.cube d) c y + y (Topo.cube d).dim * ML tol (Topo.cube d) _ y) =
      (x k - y k) * (if k = (Topo.cube d).dim then _ else _)
    rw [hd]
    by_cases hkd : k = d
    · subst hkd
      rw [if_pos rfl]
      have hc : ∀ c : Nat → ℝ, ML tol (Topo.cube k) c y = ML tol (Topo.cube k) c x := fun c =>
        ML_congr _ (fun _ _ => rfl) fun q hq => by rw [hd] at hq; exact (h q (by omega) (by omega)).symm
      rw [hc, hc]; ring
    · rw [if_neg hkd, ← h d (by omega) (Ne.symm hkd)]
      have i1 := cube_step tol d c x y k (by omega) fun r hr => h r (by omega)
      have i2 := cube_step tol d (fun k => c (nv (Topo.cube d) + k)) x y k (by omega) fun r hr => h r (by omega)
      linear_combination (1 - x d) * i1 + x d * i2

/-- from `x` to `y`, one coordinate after the other -/
theorem cube_path (tol : ℝ) (d : Nat) (c : Nat → ℝ) (x y : Vec ℝ) :
    ML tol (Topo.cube d) c x - ML tol (Topo.cube d) c y =
      ∑ k ∈ range d, (x k - y k) * MLd tol (Topo.cube d) c (fun r => if r < k then y r else x r) k := by
  have h : ∀ n, n ≤ d → ML tol (Topo.cube d) c x - ML tol (Topo.cube d) c (fun r => if r < n then y r else x r) =
      ∑ k ∈ range n, (x k - y k) * MLd tol (Topo.cube d) c (fun r => if r < k then y r else x r) k := by
    intro n
    induction n with
    | zero => intro _; simp
    | succ n ih =>
      intro hn
      rw [sum_range_succ, ← ih (by omega)]
      have := cube_step tol d c (fun r => if r < n then y r else x r) (fun r => if r < n + 1 then y r else x r) n (by omega)
        (fun r _ hr => by
          by_cases h1 : r < n
          · simp [h1, Nat.lt_succ_of_lt h1]
          · simp [h1, show ¬ r < n + 1 by omega])
      simp only [lt_irrefl, if_false, Nat.lt_succ_self, if_true] at this
      linarith
  rw [← h d (le_refl d)]
  congr 1
  exact ML_congr _ (fun _ _ => rfl) fun q hq => by rw [dim_cube] at hq; simp [hq]

/-- a determinant whose rows are averages is an average of determinants -/
theorem det_average {d : Nat} (A : Fin d → Finset Nat) (w : Fin d → Nat → ℝ) (e : Fin d → Nat → Fin d → ℝ) (a b : ℝ)
    (hw : ∀ k i, 0 ≤ w k i) (hs : ∀ k, ∑ i ∈ A k, w k i = 1)
    (h : ∀ r : Fin d → Nat, (∀ k, r k ∈ A k) → a ≤ (Matrix.of fun k => e k (r k)).det ∧ (Matrix.of fun k => e k (r k)).det ≤ b)
    (M : Matrix (Fin d) (Fin d) ℝ) (hM : ∀ k j, M k j = ∑ i ∈ A k, w k i * e k i j) : a ≤ M.det ∧ M.det ≤ b := by
  have h1 : M = fun k => ∑ i ∈ A k, w k i • e k i := by
    funext k j
    rw [hM, Finset.sum_apply]; rfl
  have h2 : M.det = ∑ r ∈ Fintype.piFinset A, (∏ k, w k (r k)) * (Matrix.of fun k => e k (r k)).det := by
    change Matrix.detRowAlternating M = _
    rw [h1]
    refine (MultilinearMap.map_sum_finset (Matrix.detRowAlternating (R := ℝ)).toMultilinearMap (fun k i => w k i • e k i) A).trans ?_
    refine sum_congr rfl fun r _ => ?_
    exact MultilinearMap.map_smul_univ (Matrix.detRowAlternating (R := ℝ)).toMultilinearMap (fun k => w k (r k)) (fun k => e k (r k))
  have h3 : ∑ r ∈ Fintype.piFinset A, ∏ k, w k (r k) = 1 := by
    rw [← prod_univ_sum]
    exact prod_eq_one fun k _ => hs k
  have h4 : ∀ r ∈ Fintype.piFinset A, 0 ≤ ∏ k, w k (r k) := fun r _ => prod_nonneg fun k _ => hw k _
  rw [h2]
  constructor
  · calc a = ∑ r ∈ Fintype.piFinset A, (∏ k, w k (r k)) * a := by rw [← sum_mul, h3, _root_.one_mul]
      _ ≤ _ := sum_le_sum fun r hr => mul_le_mul_of_nonneg_left (h r (Fintype.mem_piFinset.1 hr)).1 (h4 r hr)
  · calc _ ≤ ∑ r ∈ Fintype.piFinset A, (∏ k, w k (r k)) * b :=
        sum_le_sum fun r hr => mul_le_mul_of_nonneg_left (h r (Fintype.mem_piFinset.1 hr)).2 (h4 r hr)
      _ = b := by rw [← sum_mul, h3, _root_.one_mul]

/-- the least of finitely many positive determinants -/
theorem det_least {d : Nat} (A : Fin d → Finset Nat) (D : (Fin d → Nat) → ℝ) (h : ∀ r : Fin d → Nat, (∀ k, r k ∈ A k) → 0 < D r)
    (hne : ∀ k, (A k).Nonempty) : ∃ a b, 0 < a ∧ ∀ r : Fin d → Nat, (∀ k, r k ∈ A k) → a ≤ D r ∧ D r ≤ b := by
  have hn : (Fintype.piFinset A).Nonempty := Fintype.piFinset_nonempty.2 hne
  refine ⟨(Fintype.piFinset A).inf' hn D, (Fintype.piFinset A).sup' hn D, ?_, fun r hr =>
    ⟨inf'_le _ (Fintype.mem_piFinset.2 hr), le_sup' _ (Fintype.mem_piFinset.2 hr)⟩⟩
  rw [lt_inf'_iff]
  exact fun r hr => h r (Fintype.mem_piFinset.1 hr)

end Verif.Hull
