import Verif.Quad.Poly
import Verif.Quad.OrthoPoly

/-! How many points a rule on the interval needs. -/

namespace Verif.Quad

open Polynomial

/-- a polynomial that vanishes on the points of a rule and is not negative on the interval has a degree greater than the order
of the rule -/
theorem lt_natDegree {α p : Nat} {l : List (QPoint ℝ)} (h : Exact1 α p l) {P : ℝ[X]} (h0 : P ≠ 0)
    (hl : ∀ q ∈ l, P.eval (q.position 0) = 0) (hP : ∀ z : ℝ, 0 < z → z < 1 → 0 ≤ P.eval z) : p < P.natDegree := by
  by_contra hc
  have h1 := h P (by omega)
  have h2 : (l.map fun q => q.weight * P.eval (q.position 0)).sum = 0 := by
    rw [List.sum_eq_zero]
    intro x hx
    obtain ⟨q, hq, rfl⟩ := List.mem_map.1 hx
    rw [hl q hq, mul_zero]
  have h3 : ∫ z in (0:ℝ)..1, P.eval z * (1 - z) ^ α = Ortho.L 0 (P * (1 - X) ^ α) := by
    unfold Ortho.L
    simp
  have h4 := Ortho.L_pos 0 (P * (1 - X) ^ α) (mul_ne_zero h0 (pow_ne_zero _ (by
      intro h
      have := congrArg (Polynomial.eval 0) h
      simp at this))) fun s s0 s1 => by
    rw [eval_mul, eval_pow, eval_sub, eval_one, eval_X]
    exact mul_nonneg (hP s s0 s1) (pow_nonneg (by linarith) _)
  rw [← h3, ← h1, h2] at h4
  exact lt_irrefl _ h4

/-- the monic polynomial with the points of a list as roots -/
noncomputable def nodal (l : List (QPoint ℝ)) : ℝ[X] := (l.map fun q => X - C (q.position 0)).prod

theorem nodal_monic (l : List (QPoint ℝ)) : (nodal l).Monic := by
  induction l with
  | nil => simp [nodal]
  | cons q l ih =>
    have : nodal (q :: l) = (X - C (q.position 0)) * nodal l := by simp [nodal]
    rw [this]
    exact (monic_X_sub_C _).mul ih

theorem nodal_degree (l : List (QPoint ℝ)) : (nodal l).natDegree = l.length := by
  induction l with
  | nil => simp [nodal]
  | cons q l ih =>
    have : nodal (q :: l) = (X - C (q.position 0)) * nodal l := by simp [nodal]
    rw [this, (monic_X_sub_C _).natDegree_mul (nodal_monic l), natDegree_X_sub_C, ih, List.length_cons, add_comm]

theorem nodal_eval {l : List (QPoint ℝ)} {q : QPoint ℝ} (h : q ∈ l) : (nodal l).eval (q.position 0) = 0 := by
  rw [nodal, eval_list_prod, List.prod_eq_zero_iff]
  rw [List.map_map, List.mem_map]
  exact ⟨q, h, by simp⟩

/-- a list with one point removed -/
theorem exists_erase {l : List (QPoint ℝ)} {q : QPoint ℝ} (h : q ∈ l) : ∃ l', l.Perm (q :: l') := by
  obtain ⟨s, t, rfl⟩ := List.append_of_mem h
  exact ⟨s ++ t, List.perm_middle⟩

theorem natDegree_sq {P : ℝ[X]} : (P * P).natDegree = 2 * P.natDegree := by rw [← sq, natDegree_pow]

/-- no condition on the points -/
theorem lower_free {α p : Nat} {l : List (QPoint ℝ)} (h : Exact1 α p l) : p < 2 * l.length := by
  have hm := nodal_monic l
  have := lt_natDegree h (P := nodal l * nodal l) (mul_ne_zero hm.ne_zero hm.ne_zero) (fun q hq => by rw [eval_mul, nodal_eval hq, mul_zero])
    fun z _ _ => by rw [eval_mul]; exact mul_self_nonneg _
  rwa [natDegree_sq, nodal_degree] at this

/-- a point at the left end -/
theorem lower_left {α p : Nat} {l : List (QPoint ℝ)} (h : Exact1 α p l) {q : QPoint ℝ} (hq : q ∈ l) (h0 : q.position 0 = 0) :
    p + 1 < 2 * l.length := by
  obtain ⟨l', hl⟩ := exists_erase hq
  have hm := nodal_monic l'
  have hne := mul_ne_zero hm.ne_zero hm.ne_zero
  have := lt_natDegree h (P := X * (nodal l' * nodal l')) (mul_ne_zero X_ne_zero hne) (fun r hr => by
      rw [eval_mul, eval_mul, eval_X]
      rcases List.mem_cons.1 (hl.mem_iff.1 hr) with rfl | hr'
      · rw [h0, zero_mul]
      · rw [nodal_eval hr']; ring) fun z hz _ => by
    rw [eval_mul, eval_X, eval_mul]; exact mul_nonneg hz.le (mul_self_nonneg _)
  rw [natDegree_X_mul hne, natDegree_sq, nodal_degree] at this
  rw [hl.length_eq, List.length_cons]
  omega

/-- a point at the right end -/
theorem lower_right {α p : Nat} {l : List (QPoint ℝ)} (h : Exact1 α p l) {q : QPoint ℝ} (hq : q ∈ l) (h1 : q.position 0 = 1) :
    p + 1 < 2 * l.length := by
  obtain ⟨l', hl⟩ := exists_erase hq
  have hm := nodal_monic l'
  have hne := mul_ne_zero hm.ne_zero hm.ne_zero
  have hX : (C (-1) * (X - C 1) : ℝ[X]) ≠ 0 := mul_ne_zero (by simp) (X_sub_C_ne_zero 1)
  have hd : (C (-1) * (X - C 1) : ℝ[X]).natDegree = 1 := by rw [natDegree_C_mul (by norm_num), natDegree_X_sub_C]
  have := lt_natDegree h (P := C (-1) * (X - C 1) * (nodal l' * nodal l')) (mul_ne_zero hX hne) (fun r hr => by
      rw [eval_mul, eval_mul, eval_mul, eval_sub, eval_X, eval_C, eval_C]
      rcases List.mem_cons.1 (hl.mem_iff.1 hr) with rfl | hr'
      · rw [h1]; ring
      · rw [nodal_eval hr']; ring) fun z _ hz => by
    rw [eval_mul, eval_mul, eval_mul, eval_sub, eval_X, eval_C, eval_C]; exact mul_nonneg (by linarith) (mul_self_nonneg _)
  rw [natDegree_mul hX hne, hd, natDegree_sq, nodal_degree] at this
  rw [hl.length_eq, List.length_cons]
  omega

/-- points at both ends -/
theorem lower_both {α p : Nat} {l : List (QPoint ℝ)} (h : Exact1 α p l) {q r : QPoint ℝ} (hq : q ∈ l) (h0 : q.position 0 = 0)
    (hr : r ∈ l) (h1 : r.position 0 = 1) : p + 2 < 2 * l.length := by
  obtain ⟨l', hl⟩ := exists_erase hq
  have hr' : r ∈ l' := by
    rcases List.mem_cons.1 (hl.mem_iff.1 hr) with rfl | h
    · rw [h0] at h1; norm_num at h1
    · exact h
  obtain ⟨l'', hl'⟩ := exists_erase hr'
  have hm := nodal_monic l''
  have hne := mul_ne_zero hm.ne_zero hm.ne_zero
  have hX : (C (-1) * (X - C 1) : ℝ[X]) ≠ 0 := mul_ne_zero (by simp) (X_sub_C_ne_zero 1)
  have hd : (C (-1) * (X - C 1) : ℝ[X]).natDegree = 1 := by rw [natDegree_C_mul (by norm_num), natDegree_X_sub_C]
  have := lt_natDegree h (P := X * (C (-1) * (X - C 1) * (nodal l'' * nodal l''))) (mul_ne_zero X_ne_zero (mul_ne_zero hX hne)) (fun s hs => by
      rw [eval_mul, eval_mul, eval_mul, eval_mul, eval_sub, eval_X, eval_C, eval_C]
      rcases List.mem_cons.1 (hl.mem_iff.1 hs) with rfl | hs'
      · rw [h0]; ring
      · rcases List.mem_cons.1 (hl'.mem_iff.1 hs') with rfl | hs''
        · rw [h1]; ring
        · rw [nodal_eval hs'']; ring) fun z hz hz' => by
    rw [eval_mul, eval_mul, eval_mul, eval_mul, eval_sub, eval_X, eval_C, eval_C]
    exact mul_nonneg hz.le (mul_nonneg (by linarith) (mul_self_nonneg _))
  rw [natDegree_X_mul (mul_ne_zero hX hne), natDegree_mul hX hne, hd, natDegree_sq, nodal_degree] at this
  rw [hl.length_eq, List.length_cons, hl'.length_eq, List.length_cons]
  omega

end Verif.Quad
