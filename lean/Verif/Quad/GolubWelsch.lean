import Verif.Quad.Lapack
import Verif.Quad.OrthoPoly
import Verif.Quad.Product
import Mathlib.Analysis.Matrix.Spectrum
import Mathlib.LinearAlgebra.Matrix.Charpoly.Basic

/-! The rules of `Verif.Quad.Lapack` are Gauss rules (Golub and Welsch). -/

namespace Verif.Quad

open Verif.RefGeom Polynomial Finset

open Ortho in
/-- diagonal and off-diagonal entries -/
theorem jacobiMatrix_eq (n α : ℕ) (i j : ℕ) (hi : i < n) (hj : j < n) :
    jacobiMatrix n α i j = if i = j then 1 - 2 * A α i else if i + 1 = j then 2 * Real.sqrt (B α j)
      else if j + 1 = i then 2 * Real.sqrt (B α i) else 0 := by
  have hd0 : -((α : ℤ) : ℝ) / ((2 + (α : ℤ) : ℤ) : ℝ) = 1 - 2 * A α 0 := by
    unfold A
    rw [if_pos rfl]
    have : (0 : ℝ) ≤ α := Nat.cast_nonneg _
    push_cast
    field_simp
    ring
  have hd : ∀ i : ℕ, 1 ≤ i → -(((α : ℤ) * (α : ℤ) : ℤ) : ℝ) / (((2 * (i : ℤ) + (α : ℤ) + 2) * (2 * (i : ℤ) + (α : ℤ)) : ℤ) : ℝ)
      = 1 - 2 * A α i := by
    intro i h
    unfold A
    rw [if_neg (by omega)]
    have h1 : (0 : ℝ) ≤ α := Nat.cast_nonneg _
    have h2 : (1 : ℝ) ≤ i := by exact_mod_cast h
    have h3 : (0 : ℝ) < i := by linarith
    push_cast
    field_simp
    ring
  have hb : ∀ i : ℕ, 1 ≤ i → Real.sqrt (((2 * (i : ℤ) * ((i : ℤ) + (α : ℤ)) : ℤ) : ℝ) /
      (((2 * (i : ℤ) + (α : ℤ) - 1) * (2 * (i : ℤ) + (α : ℤ)) : ℤ) : ℝ) *
      (((2 * (i : ℤ) * ((i : ℤ) + (α : ℤ)) : ℤ) : ℝ) / (((2 * (i : ℤ) + (α : ℤ) + 1) * (2 * (i : ℤ) + (α : ℤ)) : ℤ) : ℝ)))
      = 2 * Real.sqrt (B α i) := by
    intro i h
    have h1 : (0 : ℝ) ≤ α := Nat.cast_nonneg _
    have h2 : (1 : ℝ) ≤ i := by exact_mod_cast h
    have h3 : (0 : ℝ) < i := by linarith
    have h4 : (0 : ℝ) < 2 * i + α - 1 := by linarith
    have : (2 : ℝ) = Real.sqrt (2 ^ 2) := by rw [Real.sqrt_sq (by norm_num)]
    rw [this, ← Real.sqrt_mul (by norm_num)]
    congr 1
    unfold B
    push_cast
    field_simp
  -- the loop
  have key : ∀ m : ℕ, ∀ i j : ℕ, i < m + 1 → j < m + 1 →
      (List.range' 1 m).foldl (jacobiStep α) (setM (fun _ _ => 0) 0 0 (-((α : ℤ) : ℝ) / ((2 + (α : ℤ) : ℤ) : ℝ))) i j =
      if i = j then 1 - 2 * A α i else if i + 1 = j then 2 * Real.sqrt (B α j)
      else if j + 1 = i then 2 * Real.sqrt (B α i) else 0 := by
    have zero : ∀ m : ℕ, ∀ i j : ℕ, (m + 1 ≤ i ∨ m + 1 ≤ j) →
        (List.range' 1 m).foldl (jacobiStep α) (setM (fun _ _ => 0) 0 0 (-((α : ℤ) : ℝ) / ((2 + (α : ℤ) : ℤ) : ℝ))) i j = 0 := by
      intro m
      induction m with
      | zero =>
        intro i j h
        simp only [List.range'_zero, List.foldl_nil, setM]
        rw [if_neg (by omega)]
      | succ m ih =>
        intro i j h
        rw [List.range'_concat, List.foldl_append]
        simp only [List.foldl_cons, List.foldl_nil, one_mul]
        have ih' := ih i j (by omega)
        generalize List.foldl (jacobiStep α) _ (List.range' 1 m) = G at ih' ⊢
        unfold jacobiStep
        simp only [setM]
        rw [if_neg (by omega), if_neg (by omega), if_neg (by omega), ih']
    intro m
    induction m with
    | zero =>
      intro i j h1 h2
      obtain rfl : i = 0 := by omega
      obtain rfl : j = 0 := by omega
      simp only [List.range'_zero, List.foldl_nil, setM]
      simp only [and_self, if_true]
      exact hd0
    | succ m ih =>
      intro i j h1 h2
      rw [List.range'_concat, List.foldl_append]
      simp only [List.foldl_cons, List.foldl_nil, one_mul]
      have ih' := ih i j
      have zero' := zero m i j
      generalize List.foldl (jacobiStep α) _ (List.range' 1 m) = G at ih' zero' ⊢
      unfold jacobiStep
      simp only [setM, and_self, if_true]
      by_cases c1 : i = 1 + m - 1 ∧ j = 1 + m
      · rw [if_pos c1, if_neg (by omega), if_pos (by omega)]
        rw [c1.2]
        exact hb (1 + m) (by omega)
      · rw [if_neg c1]
        by_cases c2 : i = 1 + m ∧ j = 1 + m - 1
        · rw [if_pos c2, if_neg (by omega), if_neg (by omega), if_pos (by omega)]
          rw [c2.1]
          exact hb (1 + m) (by omega)
        · rw [if_neg c2]
          by_cases c3 : i = 1 + m ∧ j = 1 + m
          · rw [if_pos c3, if_pos (by omega), c3.1]
            exact hd (1 + m) (by omega)
          · rw [if_neg c3]
            by_cases c4 : i < m + 1 ∧ j < m + 1
            · exact ih' c4.1 c4.2
            · rw [zero' (by omega), if_neg (by omega), if_neg (by omega), if_neg (by omega)]
  have := key (n - 1) i j (by omega) (by omega)
  exact this

namespace Ortho

/-- a row of the matrix times a vector -/
theorem row_sum (n α : ℕ) (v : ℕ → ℝ) (r : ℕ) (hr : r < n) :
    ∑ c ∈ range n, jacobiMatrix n α r c * v c =
      (1 - 2 * A α r) * v r + (if r + 1 < n then 2 * Real.sqrt (B α (r + 1)) * v (r + 1) else 0) +
      (if 1 ≤ r then 2 * Real.sqrt (B α r) * v (r - 1) else 0) := by
  have h : ∀ c ∈ range n, jacobiMatrix n α r c * v c = (if c = r then (1 - 2 * A α r) * v r else 0) +
      (if c = r + 1 then 2 * Real.sqrt (B α (r + 1)) * v (r + 1) else 0) +
      (if c = r - 1 then (if 1 ≤ r then 2 * Real.sqrt (B α r) * v (r - 1) else 0) else 0) := by
    intro c hc
    rw [jacobiMatrix_eq n α r c hr (mem_range.1 hc)]
    by_cases c1 : r = c
    · subst c1
      rw [if_pos rfl, if_pos rfl, if_neg (by omega)]
      by_cases c2 : r = r - 1
      · rw [if_pos c2, if_neg (by omega)]; ring
      · rw [if_neg c2]; ring
    · have c1' : ¬ c = r := fun h => c1 h.symm
      rw [if_neg c1, if_neg c1']
      by_cases c2 : r + 1 = c
      · subst c2
        rw [if_pos rfl, if_pos rfl, if_neg (by omega)]; ring
      · have c2' : ¬ c = r + 1 := fun h => c2 h.symm
        rw [if_neg c2, if_neg c2']
        by_cases c3 : c + 1 = r
        · subst c3
          rw [if_pos rfl, Nat.add_sub_cancel, if_pos rfl, if_pos (by omega)]; ring
        · rw [if_neg c3]
          by_cases c4 : c = r - 1
          · rw [if_pos c4, if_neg (by omega)]; ring
          · rw [if_neg c4]; ring
  rw [sum_congr rfl h, sum_add_distrib, sum_add_distrib, sum_ite_eq', sum_ite_eq', sum_ite_eq']
  simp only [mem_range]
  rw [if_pos hr, if_pos (show r - 1 < n by omega)]

/-- the orthonormal polynomials, in the variable s = (1 - λ)/2 -/
noncomputable def q (α j : ℕ) (s : ℝ) : ℝ := (-1) ^ j * (E α j).eval s / Real.sqrt (h α j)

theorem sqrt_h_pos (α j : ℕ) : 0 < Real.sqrt (h α j) := Real.sqrt_pos.2 (h_pos α j)

theorem q_zero_rec (α : ℕ) (s : ℝ) : 2 * Real.sqrt (B α 1) * q α 1 s = ((1 - 2 * s) - (1 - 2 * A α 0)) * q α 0 s := by
  unfold q
  rw [E_one, E_zero, h_succ, Real.sqrt_mul (B_pos α 1 le_rfl).le]
  have h1 := sqrt_h_pos α 0
  have h2 : 0 < Real.sqrt (B α (0 + 1)) := Real.sqrt_pos.2 (B_pos α 1 le_rfl)
  simp only [eval_sub, eval_X, eval_C, eval_one, pow_zero, pow_one, Nat.zero_add] at *
  field_simp
  ring

theorem q_rec (α j : ℕ) (s : ℝ) : 2 * Real.sqrt (B α (j + 2)) * q α (j + 2) s =
    ((1 - 2 * s) - (1 - 2 * A α (j + 1))) * q α (j + 1) s - 2 * Real.sqrt (B α (j + 1)) * q α j s := by
  unfold q
  rw [E_rec, h_succ α (j + 1), h_succ α j, Real.sqrt_mul (B_pos α (j + 1 + 1) (by omega)).le, Real.sqrt_mul (B_pos α (j + 1) (by omega)).le]
  have h1 := sqrt_h_pos α j
  have h2 : 0 < Real.sqrt (B α (j + 1)) := Real.sqrt_pos.2 (B_pos α _ (by omega))
  have h3 : 0 < Real.sqrt (B α (j + 1 + 1)) := Real.sqrt_pos.2 (B_pos α _ (by omega))
  have h4 : Real.sqrt (B α (j + 1)) ^ 2 = B α (j + 1) := Real.sq_sqrt (B_pos α _ (by omega)).le
  simp only [eval_sub, eval_mul, eval_X, eval_C]
  rw [show ((s - A α (j + 1)) * eval s (E α (j + 1)) - B α (j + 1) * eval s (E α j)) =
    ((s - A α (j + 1)) * eval s (E α (j + 1)) - Real.sqrt (B α (j + 1)) ^ 2 * eval s (E α j)) by rw [h4]]
  generalize Real.sqrt (B α (j + 1)) = x at *
  generalize Real.sqrt (B α (j + 1 + 1)) = y at *
  rw [pow_succ, pow_succ]
  field_simp
  ring

/-- an eigenvector is a multiple of the values of the orthonormal polynomials -/
theorem eigvec (n α : ℕ) (lam : ℝ) (v : ℕ → ℝ)
    (hv : ∀ r, r < n → ∑ c ∈ range n, jacobiMatrix n α r c * v c = lam * v r) :
    (∀ j, j < n → v j = v 0 * Real.sqrt (h α 0) * q α j ((1 - lam) / 2)) ∧
    (0 < n → v 0 * (E α n).eval ((1 - lam) / 2) = 0) := by
  set s := (1 - lam) / 2 with hs
  have hl : lam = 1 - 2 * s := by rw [hs]; ring
  have q0 : Real.sqrt (h α 0) * q α 0 s = 1 := by
    unfold q
    rw [E_zero]
    have := sqrt_h_pos α 0
    simp only [eval_one, pow_zero]
    field_simp
  have main : ∀ m, ∀ j, j ≤ m → j < n → v j = v 0 * Real.sqrt (h α 0) * q α j s := by
    intro m
    induction m with
    | zero =>
      intro j h1 _
      obtain rfl : j = 0 := by omega
      rw [mul_assoc, q0, mul_one]
    | succ m ih =>
      intro j h1 h2
      by_cases c : j ≤ m
      · exact ih j c h2
      · obtain rfl : j = m + 1 := by omega
        have hr := hv m (by omega)
        rw [row_sum n α v m (by omega), if_pos h2] at hr
        have hb : 0 < Real.sqrt (B α (m + 1)) := Real.sqrt_pos.2 (B_pos α _ (by omega))
        have e0 := ih m le_rfl (by omega)
        rcases m with _ | m
        · rw [if_neg (by omega)] at hr
          have := q_zero_rec α s
          have key : 2 * Real.sqrt (B α (0 + 1)) * v (0 + 1) = 2 * Real.sqrt (B α (0 + 1)) * (v 0 * Real.sqrt (h α 0) * q α (0 + 1) s) := by
            rw [hl] at hr
            calc 2 * Real.sqrt (B α (0 + 1)) * v (0 + 1) = ((1 - 2 * s) - (1 - 2 * A α 0)) * v 0 := by linear_combination hr
              _ = ((1 - 2 * s) - (1 - 2 * A α 0)) * (v 0 * Real.sqrt (h α 0) * q α 0 s) := by rw [← e0]
              _ = _ := by linear_combination (-(v 0 * Real.sqrt (h α 0))) * this
          exact mul_left_cancel₀ (by positivity) key
        · rw [if_pos (by omega)] at hr
          have e1 := ih m (by omega) (by omega)
          have := q_rec α m s
          simp only [Nat.add_sub_cancel] at hr
          have key : 2 * Real.sqrt (B α (m + 1 + 1)) * v (m + 1 + 1) = 2 * Real.sqrt (B α (m + 1 + 1)) * (v 0 * Real.sqrt (h α 0) * q α (m + 1 + 1) s) := by
            rw [hl, e0, e1] at hr
            linear_combination hr - (v 0 * Real.sqrt (h α 0)) * this
          exact mul_left_cancel₀ (by positivity) key
  refine ⟨fun j hj => main j j le_rfl hj, ?_⟩
  intro hn
  obtain ⟨m, rfl⟩ : ∃ m, n = m + 1 := ⟨n - 1, by omega⟩
  have hr := hv m (by omega)
  rw [row_sum (m + 1) α v m (by omega), if_neg (by omega)] at hr
  have hb : 0 < Real.sqrt (B α (m + 1)) := Real.sqrt_pos.2 (B_pos α _ (by omega))
  have key : 2 * Real.sqrt (B α (m + 1)) * (v 0 * Real.sqrt (h α 0) * q α (m + 1) s) = 0 := by
    have e0 := main m m le_rfl (by omega)
    rcases m with _ | m
    · rw [if_neg (by omega)] at hr
      have := q_zero_rec α s
      rw [hl] at hr
      have e : (v 0 * Real.sqrt (h α 0)) * (((1 - 2 * s) - (1 - 2 * A α 0)) * q α 0 s) = ((1 - 2 * s) - (1 - 2 * A α 0)) * v 0 := by
        calc _ = ((1 - 2 * s) - (1 - 2 * A α 0)) * (v 0 * Real.sqrt (h α 0) * q α 0 s) := by ring
          _ = _ := by rw [← e0]
      linear_combination (v 0 * Real.sqrt (h α 0)) * this + e - hr
    · rw [if_pos (by omega)] at hr
      have e1 := main m m le_rfl (by omega)
      have := q_rec α m s
      simp only [Nat.add_sub_cancel] at hr
      rw [hl, e0, e1] at hr
      linear_combination (v 0 * Real.sqrt (h α 0)) * this - hr
  have h0 := sqrt_h_pos α 0
  have h1 := sqrt_h_pos α (m + 1)
  have k2 : v 0 * Real.sqrt (h α 0) * q α (m + 1) s = 0 := by
    rcases mul_eq_zero.1 key with h | h
    · exact absurd h (by positivity)
    · exact h
  unfold q at k2
  have : v 0 * Real.sqrt (h α 0) * ((-1) ^ (m + 1) * eval s (E α (m + 1)) / Real.sqrt (h α (m + 1))) =
      (v 0 * eval s (E α (m + 1))) * (Real.sqrt (h α 0) * (-1) ^ (m + 1) / Real.sqrt (h α (m + 1))) := by ring
  rw [this] at k2
  rcases mul_eq_zero.1 k2 with k | k
  · exact k
  · exfalso
    have : Real.sqrt (h α 0) * (-1) ^ (m + 1) / Real.sqrt (h α (m + 1)) ≠ 0 :=
      div_ne_zero (mul_ne_zero h0.ne' (pow_ne_zero _ (by norm_num))) h1.ne'
    exact this k

/-- the first component of an eigenvector does not vanish -/
theorem eigvec_ne (n α : ℕ) (lam : ℝ) (v : ℕ → ℝ)
    (hv : ∀ r, r < n → ∑ c ∈ range n, jacobiMatrix n α r c * v c = lam * v r)
    (hn : ∃ j, j < n ∧ v j ≠ 0) : v 0 ≠ 0 := by
  intro h0
  obtain ⟨j, hj, hne⟩ := hn
  apply hne
  rw [(eigvec n α lam v hv).1 j hj, h0]
  ring

/-- the matrix is symmetric -/
theorem symm (n α i j : ℕ) (hi : i < n) (hj : j < n) : jacobiMatrix n α i j = jacobiMatrix n α j i := by
  rw [jacobiMatrix_eq n α i j hi hj, jacobiMatrix_eq n α j i hj hi]
  by_cases c1 : i = j
  · subst c1; rfl
  · have c1' : ¬ j = i := fun h => c1 h.symm
    rw [if_neg c1, if_neg c1']
    by_cases c2 : i + 1 = j
    · have c3 : ¬ j + 1 = i := by omega
      rw [if_pos c2, if_neg c3, if_pos c2]
    · rw [if_neg c2, if_neg c2]

/-- eigenvectors for different eigenvalues are orthogonal -/
theorem ortho (n α : ℕ) (l₁ l₂ : ℝ) (v w : ℕ → ℝ) (hl : l₁ ≠ l₂)
    (hv : ∀ r, r < n → ∑ c ∈ range n, jacobiMatrix n α r c * v c = l₁ * v r)
    (hw : ∀ r, r < n → ∑ c ∈ range n, jacobiMatrix n α r c * w c = l₂ * w r) : ∑ r ∈ range n, v r * w r = 0 := by
  have h1 : ∑ r ∈ range n, w r * ∑ c ∈ range n, jacobiMatrix n α r c * v c = l₁ * ∑ r ∈ range n, v r * w r := by
    rw [mul_sum]
    refine sum_congr rfl fun r hr => ?_
    rw [hv r (mem_range.1 hr)]; ring
  have h2 : ∑ r ∈ range n, v r * ∑ c ∈ range n, jacobiMatrix n α r c * w c = l₂ * ∑ r ∈ range n, v r * w r := by
    rw [mul_sum]
    refine sum_congr rfl fun r hr => ?_
    rw [hw r (mem_range.1 hr)]; ring
  have h3 : ∑ r ∈ range n, w r * ∑ c ∈ range n, jacobiMatrix n α r c * v c =
      ∑ r ∈ range n, v r * ∑ c ∈ range n, jacobiMatrix n α r c * w c := by
    simp only [mul_sum]
    rw [sum_comm]
    refine sum_congr rfl fun r hr => sum_congr rfl fun c hc => ?_
    rw [symm n α c r (mem_range.1 hc) (mem_range.1 hr)]; ring
  have : (l₁ - l₂) * ∑ r ∈ range n, v r * w r = 0 := by
    rw [sub_mul, ← h1, ← h2, h3, sub_self]
  rcases mul_eq_zero.1 this with h | h
  · exact absurd (sub_eq_zero.1 h) hl
  · exact h

/-- a full set of normalised eigenvectors for distinct eigenvalues -/
structure Dec (n α : ℕ) (lam : ℕ → ℝ) (v : ℕ → ℕ → ℝ) : Prop where
  eig : ∀ i, i < n → ∀ r, r < n → ∑ c ∈ range n, jacobiMatrix n α r c * v i c = lam i * v i r
  inj : ∀ i j, i < n → j < n → i ≠ j → lam i ≠ lam j
  norm : ∀ i, i < n → ∑ c ∈ range n, v i c * v i c = 1

theorem Dec.ne {n α : ℕ} {lam : ℕ → ℝ} {v : ℕ → ℕ → ℝ} (d : Dec n α lam v) (i : ℕ) (hi : i < n) : v i 0 ≠ 0 := by
  apply eigvec_ne n α (lam i) (v i) (d.eig i hi)
  by_contra hc
  push Not at hc
  have := d.norm i hi
  rw [sum_eq_zero (fun c hc' => by rw [hc c (mem_range.1 hc'), zero_mul])] at this
  exact zero_ne_one this

/-- the columns are orthonormal as well -/
theorem Dec.cols {n α : ℕ} {lam : ℕ → ℝ} {v : ℕ → ℕ → ℝ} (d : Dec n α lam v) (a b : ℕ) (ha : a < n) (hb : b < n) :
    ∑ i ∈ range n, v i a * v i b = if a = b then 1 else 0 := by
  let V : Matrix (Fin n) (Fin n) ℝ := fun i j => v i j
  have h1 : V * V.transpose = 1 := by
    ext i j
    rw [Matrix.mul_apply, Matrix.one_apply]
    have : ∑ c : Fin n, V i c * V.transpose c j = ∑ c ∈ range n, v i c * v j c := by
      rw [← Fin.sum_univ_eq_sum_range (fun c => v i c * v j c) n]
      rfl
    rw [this]
    by_cases c : i = j
    · subst c
      rw [if_pos rfl]
      exact d.norm i i.2
    · rw [if_neg c]
      exact ortho n α (lam i) (lam j) (v i) (v j) (d.inj i j i.2 j.2 (fun h => c (Fin.ext h))) (d.eig i i.2) (d.eig j j.2)
  have h2 := mul_eq_one_comm.1 h1
  have h3 := congrFun (congrFun h2 ⟨a, ha⟩) ⟨b, hb⟩
  rw [Matrix.mul_apply, Matrix.one_apply] at h3
  have : ∑ c : Fin n, V.transpose ⟨a, ha⟩ c * V c ⟨b, hb⟩ = ∑ i ∈ range n, v i a * v i b := by
    rw [← Fin.sum_univ_eq_sum_range (fun i => v i a * v i b) n]
    rfl
  rw [this] at h3
  rw [h3]
  simp only [Fin.mk.injEq]

/-- the quadrature sum in the variable s -/
noncomputable def Q (n α : ℕ) (lam : ℕ → ℝ) (v : ℕ → ℕ → ℝ) (p : ℝ[X]) : ℝ :=
  ∑ i ∈ range n, (1 / ((α : ℝ) + 1) * v i 0 * v i 0) * p.eval ((1 - lam i) / 2)

variable {n α : ℕ} {lam : ℕ → ℝ} {v : ℕ → ℕ → ℝ}

theorem Q_add (p q : ℝ[X]) : Q n α lam v (p + q) = Q n α lam v p + Q n α lam v q := by
  unfold Q
  rw [← sum_add_distrib]
  exact sum_congr rfl fun i _ => by rw [eval_add]; ring

theorem Q_smul (c : ℝ) (p : ℝ[X]) : Q n α lam v (C c * p) = c * Q n α lam v p := by
  unfold Q
  rw [mul_sum]
  exact sum_congr rfl fun i _ => by rw [eval_mul, eval_C]; ring

theorem Q_E (d : Dec n α lam v) (j : ℕ) (hj : j < n) : Q n α lam v (E α j) = L α (E α j) := by
  have h1 : Q n α lam v (E α j) = 1 / ((α : ℝ) + 1) * ((-1) ^ j * Real.sqrt (h α j) / Real.sqrt (h α 0)) *
      ∑ i ∈ range n, v i 0 * v i j := by
    unfold Q
    rw [mul_sum]
    refine sum_congr rfl fun i hi => ?_
    have hi := mem_range.1 hi
    have e := (eigvec n α (lam i) (v i) (d.eig i hi)).1 j hj
    rw [e]
    unfold q
    have h0 := sqrt_h_pos α 0
    have hj := sqrt_h_pos α j
    have hs : ((-1 : ℝ) ^ j) * (-1) ^ j = 1 := by rw [← mul_pow]; norm_num
    field_simp
    linear_combination (-(v i 0 ^ 2 * eval ((1 - lam i) / 2) (E α j))) * hs
  rw [h1, d.cols 0 j (by omega) hj]
  by_cases c : j = 0
  · subst c
    rw [if_pos rfl, E_zero, pow_zero, one_mul, div_self (sqrt_h_pos α 0).ne']
    have := L_X_pow α 0
    rw [pow_zero] at this
    rw [this]
    simp
  · rw [if_neg (fun h => c h.symm), mul_zero]
    have := L_E_mul α j 1 (by rw [natDegree_one]; omega)
    rw [mul_one] at this
    exact this.symm

theorem Q_low (d : Dec n α lam v) : ∀ m, m ≤ n → ∀ p : ℝ[X], p.degree < (m : WithBot ℕ) → Q n α lam v p = L α p := by
  intro m
  induction m with
  | zero =>
    intro _ p hp
    have : p = 0 := by
      rw [← degree_eq_bot]
      exact Nat.WithBot.lt_zero_iff.1 (by simpa using hp)
    subst this
    rw [L_zero]
    unfold Q
    exact sum_eq_zero fun i _ => by rw [eval_zero, mul_zero]
  | succ m ih =>
    intro hm p hp
    have hlow : (p - C (p.coeff m) * E α m).degree < (m : WithBot ℕ) := by
      rw [degree_lt_iff_coeff_zero]
      intro k hk
      rw [coeff_sub, coeff_C_mul, E_coeff]
      rcases Nat.lt_or_ge m k with h | h
      · rw [coef_gt α m k h, mul_zero, sub_zero]
        exact (degree_lt_iff_coeff_zero p (m + 1)).1 hp k h
      · obtain rfl : k = m := by omega
        rw [coef_self, mul_one, sub_self]
    have e : p = (p - C (p.coeff m) * E α m) + C (p.coeff m) * E α m := by ring
    have h1 := ih (by omega) _ hlow
    rw [e, Q_add, L_add, h1, Q_smul, L_smul, Q_E d m (by omega)]

/-- **Golub-Welsch**: the rule is exact for polynomials of degree less than 2n -/
theorem gauss (d : Dec n α lam v) (hn : 0 < n) (p : ℝ[X]) (hp : p.natDegree < 2 * n) : Q n α lam v p = L α p := by
  have hm := E_monic α n
  have e := modByMonic_add_div p (E α n)
  have hdeg : (E α n).degree = (n : WithBot ℕ) := by
    rw [degree_eq_natDegree hm.ne_zero, E_natDegree]
  have hmod : (p %ₘ E α n).degree < (n : WithBot ℕ) := by
    rw [← hdeg]
    exact degree_modByMonic_lt p hm
  have hdiv : (p /ₘ E α n).natDegree < n := by
    rw [natDegree_divByMonic p hm, E_natDegree]
    omega
  rw [← e, Q_add, L_add, Q_low d n le_rfl _ hmod, L_E_mul α n _ hdiv, add_zero]
  rw [add_eq_left]
  unfold Q
  refine sum_eq_zero fun i hi => ?_
  have hi := mem_range.1 hi
  have h0 : (E α n).eval ((1 - lam i) / 2) = 0 := by
    rcases mul_eq_zero.1 ((eigvec n α (lam i) (v i) (d.eig i hi)).2 hn) with h | h
    · exact absurd h (d.ne i hi)
    · exact h
  rw [eval_mul, h0]
  ring

/-- the nodes are the zeros of the orthogonal polynomial -/
theorem Dec.root (d : Dec n α lam v) (i : ℕ) (hi : i < n) : (E α n).eval ((1 - lam i) / 2) = 0 := by
  rcases mul_eq_zero.1 ((eigvec n α (lam i) (v i) (d.eig i hi)).2 (by omega)) with h | h
  · exact absurd h (d.ne i hi)
  · exact h

/-- nodes and weights are determined by the matrix -/
theorem Dec.unique {lam' : ℕ → ℝ} {v' : ℕ → ℕ → ℝ} (d : Dec n α lam v) (d' : Dec n α lam' v') (i : ℕ) (hi : i < n) :
    ∃ j, j < n ∧ lam' j = lam i ∧ v' j 0 * v' j 0 = v i 0 * v i 0 := by
  have ex : ∃ j, j < n ∧ lam' j = lam i := by
    by_contra hc
    push Not at hc
    let s : Finset ℝ := insert ((1 - lam i) / 2) ((range n).image fun j => (1 - lam' j) / 2)
    have hcard : s.card = n + 1 := by
      rw [card_insert_of_notMem, card_image_of_injOn, card_range]
      · intro a ha b hb h
        by_contra hne
        simp only at h
        exact d'.inj a b (mem_range.1 (by simpa using ha)) (mem_range.1 (by simpa using hb)) hne (by linarith)
      · intro h
        obtain ⟨j, hj, e⟩ := mem_image.1 h
        exact hc j (mem_range.1 hj) (by linarith)
    have hr : s.val ⊆ (E α n).roots := by
      intro x hx
      rw [mem_roots (E_monic α n).ne_zero, IsRoot.def]
      rcases mem_insert.1 (show x ∈ s from hx) with h | h
      · rw [h]; exact d.root i hi
      · obtain ⟨j, hj, e⟩ := mem_image.1 h
        rw [← e]; exact d'.root j (mem_range.1 hj)
    have := card_le_degree_of_subset_roots hr
    rw [hcard, E_natDegree] at this
    omega
  obtain ⟨j, hj, e⟩ := ex
  refine ⟨j, hj, e, ?_⟩
  let S := ∑ c ∈ range n, (Real.sqrt (h α 0) * q α c ((1 - lam i) / 2)) * (Real.sqrt (h α 0) * q α c ((1 - lam i) / 2))
  have h1 : v i 0 * v i 0 * S = 1 := by
    rw [← d.norm i hi, mul_sum]
    refine sum_congr rfl fun c hc => ?_
    rw [(eigvec n α (lam i) (v i) (d.eig i hi)).1 c (mem_range.1 hc)]; ring
  have h2 : v' j 0 * v' j 0 * S = 1 := by
    rw [← d'.norm j hj, mul_sum]
    refine sum_congr rfl fun c hc => ?_
    rw [(eigvec n α (lam' j) (v' j) (d'.eig j hj)).1 c (mem_range.1 hc), e]; ring
  have hS : S ≠ 0 := by
    intro h0
    rw [h0, mul_zero] at h1
    exact zero_ne_one h1
  exact mul_right_cancel₀ hS (h2.trans h1.symm)

/-- the nodes are inside -/
theorem inside (d : Dec n α lam v) (i : ℕ) (hi : i < n) : 0 < (1 - lam i) / 2 ∧ (1 - lam i) / 2 < 1 := by
  let s : ℕ → ℝ := fun j => (1 - lam j) / 2
  have hs : ∀ a b, a < n → b < n → a ≠ b → s a ≠ s b := by
    intro a b ha hb hab h
    exact d.inj a b ha hb hab (by simp only [s] at h; linarith)
  let l : ℝ[X] := ∏ j ∈ (range n).erase i, (X - C (s j))
  have lmon : l.Monic := monic_prod_of_monic _ _ fun j _ => monic_X_sub_C _
  have ldeg : l.natDegree = n - 1 := by
    rw [natDegree_prod_of_monic _ _ fun j _ => monic_X_sub_C _]
    simp only [natDegree_X_sub_C, sum_const, smul_eq_mul, mul_one]
    rw [card_erase_of_mem (mem_range.2 hi), card_range]
  have lz : ∀ j, j < n → j ≠ i → l.eval (s j) = 0 := by
    intro j hj hne
    rw [eval_prod]
    exact prod_eq_zero (mem_erase.2 ⟨hne, mem_range.2 hj⟩) (by rw [eval_sub, eval_X, eval_C, sub_self])
  have li : l.eval (s i) ≠ 0 := by
    rw [eval_prod, prod_ne_zero_iff]
    intro j hj
    obtain ⟨h1, h2⟩ := mem_erase.1 hj
    rw [eval_sub, eval_X, eval_C, sub_ne_zero]
    exact hs i j hi (mem_range.1 h2) (fun h => h1 h.symm)
  have hsum : ∀ f : ℝ[X], Q n α lam v (f * (l * l)) = (1 / ((α : ℝ) + 1) * v i 0 * v i 0) * (f.eval (s i) * (l.eval (s i) * l.eval (s i))) := by
    intro f
    unfold Q
    rw [sum_eq_single_of_mem i (mem_range.2 hi)]
    · rw [eval_mul, eval_mul]
    · intro j hj hne
      have : l.eval ((1 - lam j) / 2) = 0 := lz j (mem_range.1 hj) hne
      rw [eval_mul, eval_mul, this]
      ring
  have hw : 0 < 1 / ((α : ℝ) + 1) * v i 0 * v i 0 := by
    have h1 : 0 < v i 0 * v i 0 := mul_self_pos.2 (d.ne i hi)
    have h2 : (0 : ℝ) ≤ α := Nat.cast_nonneg _
    rw [mul_assoc]
    positivity
  have hl2 : 0 < l.eval (s i) * l.eval (s i) := mul_self_pos.2 li
  have main : ∀ f : ℝ[X], f.natDegree ≤ 1 → f ≠ 0 → (∀ x : ℝ, 0 < x → x < 1 → 0 ≤ f.eval x) → 0 < f.eval (s i) := by
    intro f hf hf0 hpos
    have h1 := gauss d (by omega) (f * (l * l)) (by
      refine lt_of_le_of_lt natDegree_mul_le ?_
      have := natDegree_mul_le (p := l) (q := l)
      omega)
    have h2 : 0 < L α (f * (l * l)) := by
      apply L_pos
      · exact mul_ne_zero hf0 (mul_ne_zero lmon.ne_zero lmon.ne_zero)
      · intro x hx hx1
        rw [eval_mul, eval_mul]
        exact mul_nonneg (hpos x hx hx1) (mul_self_nonneg _)
    rw [← h1, hsum] at h2
    have h3 := (pos_iff_pos_of_mul_pos h2).1 hw
    exact (pos_iff_pos_of_mul_pos h3).2 hl2
  constructor
  · have := main X natDegree_X_le X_ne_zero (fun x hx _ => by rw [eval_X]; exact hx.le)
    rwa [eval_X] at this
  · have := main (C 1 - X) (by
        refine (natDegree_sub_le _ _).trans ?_
        simp) (by
        intro h
        have := congrArg (eval (0 : ℝ)) h
        simp at this) (fun x _ hx => by rw [eval_sub, eval_C, eval_X]; linarith)
    rw [eval_sub, eval_C, eval_X] at this
    have h2 : s i < 1 := by linarith
    exact h2

end Ortho

/-! ### What is assumed of the solver -/

/-- For a symmetric matrix the eigenvalues are the roots of the characteristic polynomial with their multiplicities,
and the vector stored for a real eigenvalue is an eigenvector of Euclidean norm one. -/
structure SolverOK (solver : Solver) : Prop where
  charpoly : ∀ (n : Nat) (J : Mat ℝ), (∀ i j, i < n → j < n → J i j = J j i) →
    (Matrix.of fun i j : Fin n => ((J i j : ℝ) : ℂ)).charpoly = ∏ i : Fin n, (X - C ((solver n J).1 i))
  vectors : ∀ (n : Nat) (J : Mat ℝ), (∀ i j, i < n → j < n → J i j = J j i) → ∀ i, i < n → ((solver n J).1 i).im = 0 →
    (∀ r, r < n → ∑ c ∈ range n, J r c * (solver n J).2 i c = ((solver n J).1 i).re * (solver n J).2 i r) ∧
    ∑ c ∈ range n, (solver n J).2 i c ^ 2 = 1

/-- the leading part of a matrix -/
def lead (n : Nat) (J : Mat ℝ) : Matrix (Fin n) (Fin n) ℝ := Matrix.of fun i j => J i j

theorem lead_hermitian (n : Nat) (J : Mat ℝ) (h : ∀ i j, i < n → j < n → J i j = J j i) : (lead n J).IsHermitian := by
  ext i j
  simp only [lead, Matrix.conjTranspose_apply, Matrix.of_apply, star_trivial]
  exact h j i j.2 i.2

theorem lead_charpoly (n : Nat) (J : Mat ℝ) (h : ∀ i j, i < n → j < n → J i j = J j i) :
    (Matrix.of fun i j : Fin n => ((J i j : ℝ) : ℂ)).charpoly =
      ∏ i : Fin n, (X - C (((lead_hermitian n J h).eigenvalues i : ℝ) : ℂ)) := by
  have e : (Matrix.of fun i j : Fin n => ((J i j : ℝ) : ℂ)) = (lead n J).map (Complex.ofRealHom : ℝ → ℂ) := by
    ext i j; rfl
  rw [e]
  have := Matrix.charpoly_map (lead n J) Complex.ofRealHom
  rw [this, (lead_hermitian n J h).charpoly_eq, Polynomial.map_prod]
  refine prod_congr rfl fun i _ => ?_
  rw [Polynomial.map_sub, Polynomial.map_X, Polynomial.map_C]
  rfl

theorem lead_mulVec (n : Nat) (J : Mat ℝ) (x : Fin n → ℝ) (r : Fin n) :
    (lead n J).mulVec x r = ∑ c ∈ range n, J r c * (if hc : c < n then x ⟨c, hc⟩ else 0) := by
  rw [← Fin.sum_univ_eq_sum_range (fun c => J r c * (if hc : c < n then x ⟨c, hc⟩ else 0)) n]
  simp only [Matrix.mulVec, dotProduct, lead, Matrix.of_apply]
  exact sum_congr rfl fun c _ => by rw [dif_pos c.2]

/-- the eigenvectors of the leading part as infinite vectors -/
noncomputable def basisVec (n : Nat) (J : Mat ℝ) (h : ∀ i j, i < n → j < n → J i j = J j i) (i c : Nat) : ℝ :=
  if hi : i < n then if hc : c < n then (lead_hermitian n J h).eigenvectorBasis ⟨i, hi⟩ ⟨c, hc⟩ else 0 else 0

theorem basisVec_eig (n : Nat) (J : Mat ℝ) (h : ∀ i j, i < n → j < n → J i j = J j i) (i : Nat) (hi : i < n) (r : Nat) (hr : r < n) :
    ∑ c ∈ range n, J r c * basisVec n J h i c = (lead_hermitian n J h).eigenvalues ⟨i, hi⟩ * basisVec n J h i r := by
  have e := congrFun ((lead_hermitian n J h).mulVec_eigenvectorBasis ⟨i, hi⟩) ⟨r, hr⟩
  rw [lead_mulVec] at e
  unfold basisVec
  rw [dif_pos hi, dif_pos hr]
  rw [Pi.smul_apply, smul_eq_mul] at e
  rw [← e]
  refine sum_congr rfl fun c hc => ?_
  rw [dif_pos hi]

theorem basisVec_inner (n : Nat) (J : Mat ℝ) (h : ∀ i j, i < n → j < n → J i j = J j i) (i j : Nat) (hi : i < n) (hj : j < n) :
    ∑ c ∈ range n, basisVec n J h i c * basisVec n J h j c = if i = j then 1 else 0 := by
  have o := (lead_hermitian n J h).eigenvectorBasis.orthonormal
  rw [orthonormal_iff_ite] at o
  have := o ⟨j, hj⟩ ⟨i, hi⟩
  rw [EuclideanSpace.inner_eq_star_dotProduct] at this
  simp only [star_trivial, Fin.mk.injEq, dotProduct] at this
  rw [← Fin.sum_univ_eq_sum_range (fun c => basisVec n J h i c * basisVec n J h j c) n]
  have e2 : (if i = j then (1 : ℝ) else 0) = if j = i then 1 else 0 := by
    by_cases c : i = j
    · rw [if_pos c, if_pos c.symm]
    · rw [if_neg c, if_neg (fun h => c h.symm)]
  rw [e2, ← this]
  refine sum_congr rfl fun c _ => ?_
  unfold basisVec
  rw [dif_pos hi, dif_pos c.2, dif_pos hj, dif_pos c.2]

/-- there is such a solver -/
theorem exists_solver : ∃ solver : Solver, SolverOK solver := by
  classical
  refine ⟨fun n J => if h : ∀ i j, i < n → j < n → J i j = J j i then
    (fun i => if hi : i < n then (((lead_hermitian n J h).eigenvalues ⟨i, hi⟩ : ℝ) : ℂ) else 0, basisVec n J h)
    else (fun _ => 0, fun _ _ => 0), ?_, ?_⟩
  · intro n J h
    rw [lead_charpoly n J h, dif_pos h]
    refine prod_congr rfl fun i _ => ?_
    simp only [dif_pos i.2]
  · intro n J h i hi _
    rw [dif_pos h]
    simp only [dif_pos hi, Complex.ofReal_re]
    refine ⟨fun r hr => basisVec_eig n J h i hi r hr, ?_⟩
    have := basisVec_inner n J h i i hi hi
    rw [if_pos rfl] at this
    rw [← this]
    exact sum_congr rfl fun c _ => by rw [sq]

/-- the eigenvalues of the Jacobi matrix are simple -/
theorem jacobi_simple (n α : ℕ) (i j : Fin n)
    (h : (lead_hermitian n (jacobiMatrix n α) (fun i j hi hj => Ortho.symm n α i j hi hj)).eigenvalues i =
      (lead_hermitian n (jacobiMatrix n α) (fun i j hi hj => Ortho.symm n α i j hi hj)).eigenvalues j) : i = j := by
  by_contra hne
  have hs := fun i j hi hj => Ortho.symm n α i j hi hj
  have e1 := fun r hr => basisVec_eig n (jacobiMatrix n α) hs i i.2 r hr
  have e2 := fun r hr => basisVec_eig n (jacobiMatrix n α) hs j j.2 r hr
  have hij := basisVec_inner n (jacobiMatrix n α) hs i j i.2 j.2
  have hjj := basisVec_inner n (jacobiMatrix n α) hs j j j.2 j.2
  have hii := basisVec_inner n (jacobiMatrix n α) hs i i i.2 i.2
  rw [if_neg (fun h => hne (Fin.ext h))] at hij
  rw [if_pos rfl] at hjj hii
  generalize basisVec n (jacobiMatrix n α) hs i = u at *
  generalize basisVec n (jacobiMatrix n α) hs j = w at *
  have hl : (lead_hermitian n (jacobiMatrix n α) hs).eigenvalues ⟨i, i.2⟩ = (lead_hermitian n (jacobiMatrix n α) hs).eigenvalues ⟨j, j.2⟩ := h
  generalize (lead_hermitian n (jacobiMatrix n α) hs).eigenvalues ⟨i, i.2⟩ = l at *
  rw [← hl] at e2
  have a1 := (Ortho.eigvec n α l u e1).1
  have a2 := (Ortho.eigvec n α l w e2).1
  have hw : w 0 ≠ 0 := by
    apply Ortho.eigvec_ne n α l w e2
    by_contra hc
    push Not at hc
    rw [sum_eq_zero (fun c hc' => by rw [hc c (mem_range.1 hc'), zero_mul])] at hjj
    exact zero_ne_one hjj
  have hu : ∀ c, c < n → w 0 * u c = u 0 * w c := by
    intro c hc
    rw [a1 c hc, a2 c hc]; ring
  have : w 0 * ∑ c ∈ range n, u c * w c = u 0 * ∑ c ∈ range n, w c * w c := by
    rw [mul_sum, mul_sum]
    refine sum_congr rfl fun c hc => ?_
    rw [← mul_assoc, hu c (mem_range.1 hc)]; ring
  rw [hij, hjj, mul_zero, mul_one] at this
  rw [sum_eq_zero (fun c hc => by rw [a1 c (mem_range.1 hc), ← this]; ring)] at hii
  exact zero_ne_one hii

theorem roots_prod_univ (n : ℕ) (f : Fin n → ℂ) : (∏ i, (X - C (f i))).roots = univ.val.map f := by
  have : (∏ i, (X - C (f i))) = ((univ.val.map f).map fun a => X - C a).prod := by
    rw [Multiset.map_map]; rfl
  rw [this, roots_multiset_prod_X_sub_C]

/-- what such a solver returns for the Jacobi matrix -/
theorem SolverOK.dec {solver : Solver} (hs : SolverOK solver) (n α : ℕ) :
    Ortho.Dec n α (fun i => ((solver n (jacobiMatrix n α)).1 i).re) (fun i => (solver n (jacobiMatrix n α)).2 i) := by
  have sym := fun i j hi hj => Ortho.symm n α i j hi hj
  have h1 := hs.charpoly n (jacobiMatrix n α) sym
  rw [lead_charpoly n (jacobiMatrix n α) sym] at h1
  have h2 := congrArg Polynomial.roots h1
  rw [roots_prod_univ, roots_prod_univ n (fun i => (solver n (jacobiMatrix n α)).1 i)] at h2
  have nd : (univ.val.map fun i : Fin n => (solver n (jacobiMatrix n α)).1 i).Nodup := by
    rw [← h2]
    refine Multiset.Nodup.map (fun i j h => ?_) univ.nodup
    exact jacobi_simple n α i j (Complex.ofReal_injective h)
  have im : ∀ i, i < n → ((solver n (jacobiMatrix n α)).1 i).im = 0 := by
    intro i hi
    have : (solver n (jacobiMatrix n α)).1 i ∈ univ.val.map fun i : Fin n => (solver n (jacobiMatrix n α)).1 i :=
      Multiset.mem_map.2 ⟨⟨i, hi⟩, mem_univ_val _, rfl⟩
    rw [← h2] at this
    obtain ⟨k, _, hk⟩ := Multiset.mem_map.1 this
    rw [← hk]
    exact Complex.ofReal_im _
  refine ⟨?_, ?_, ?_⟩
  · intro i hi
    exact (hs.vectors n _ sym i hi (im i hi)).1
  · intro i j hi hj hne he
    apply hne
    have : (solver n (jacobiMatrix n α)).1 i = (solver n (jacobiMatrix n α)).1 j :=
      Complex.ext he (by rw [im i hi, im j hj])
    have := Multiset.inj_on_of_nodup_map nd ⟨i, hi⟩ (mem_univ_val _) ⟨j, hj⟩ (mem_univ_val _) this
    exact congrArg Fin.val this
  · intro i hi
    rw [← (hs.vectors n _ sym i hi (im i hi)).2]
    exact sum_congr rfl fun c _ => by rw [sq]

/-- the moments of the weight function -/
theorem L_bet (α m k : ℕ) : Ortho.L α ((C 1 - X) ^ k * X ^ m) = bet ℝ k (m + α) := by
  induction k generalizing m with
  | zero =>
    rw [pow_zero, one_mul, Ortho.L_X_pow]
    have : bet ℝ 0 (m + α) = bet ℝ (m + α) 0 := by
      unfold bet
      rw [Nat.zero_add, Nat.add_zero, mul_comm]
    rw [this, bet_zero]
    push_cast
    ring
  | succ k ih =>
    have e : (C 1 - X : ℝ[X]) ^ (k + 1) * X ^ m = (C 1 - X) ^ k * X ^ m - (C 1 - X) ^ k * X ^ (m + 1) := by
      rw [C_1]; ring
    rw [e, Ortho.L_sub, ih, ih]
    have := bet_rec (K := ℝ) k (m + α)
    rw [show m + 1 + α = m + α + 1 by ring, this]
    ring

theorem map_range_sum (n : ℕ) (f : ℕ → ℝ) : ((List.range n).map f).sum = ∑ i ∈ range n, f i := by
  induction n with
  | zero => rfl
  | succ n ih => rw [List.range_succ, List.map_append, List.sum_append, ih, sum_range_succ]; simp

/-- a quadrature sum of the computed rule -/
theorem quadSum_lapack (solver : Solver) (degree α : ℕ) (p : ℝ[X]) :
    quadSum (fun x => p.eval (1 - x 0)) (jacobiNodesWeights solver degree α) =
      Ortho.Q (degree / 2 + 1) α (fun i => ((solver (degree / 2 + 1) (jacobiMatrix (degree / 2 + 1) α)).1 i).re)
        (fun i => (solver (degree / 2 + 1) (jacobiMatrix (degree / 2 + 1) α)).2 i) p := by
  have hn : ((degree : ℤ) / 2 + 1).toNat = degree / 2 + 1 := by omega
  unfold quadSum jacobiNodesWeights Ortho.Q
  simp only [hn, List.map_map]
  rw [← map_range_sum]
  congr 1
  apply List.map_congr_left
  intro i _
  simp only [Function.comp, setV, if_true]
  push_cast
  congr 1
  · norm_num
  · congr 1; ring

/-- **C61**, the facts: number of points, positions, weights and moments of the computed rules -/
theorem lapack_rule {solver : Solver} (hs : SolverOK solver) (degree α : ℕ) :
    (jacobiNodesWeights solver degree α).length = degree / 2 + 1 ∧
    (∀ q ∈ jacobiNodesWeights solver degree α, 0 < q.position 0 ∧ q.position 0 < 1 ∧ 0 < q.weight ∧ ∀ k, 1 ≤ k → q.position k = 0) ∧
    ((jacobiNodesWeights solver degree α).map fun q => q.position 0).Nodup ∧
    ∀ p : ℝ[X], p.natDegree ≤ 2 * (degree / 2) + 1 →
      quadSum (fun x => p.eval (x 0)) (jacobiNodesWeights solver degree α) = ∫ x in (0 : ℝ)..1, (1 - x) ^ α * p.eval x := by
  have hn : ((degree : ℤ) / 2 + 1).toNat = degree / 2 + 1 := by omega
  have d := hs.dec (degree / 2 + 1) α
  refine ⟨?_, ?_, ?_, ?_⟩
  · unfold jacobiNodesWeights
    simp only [hn, List.length_map, List.length_range]
  · intro q hq
    unfold jacobiNodesWeights at hq
    simp only [hn] at hq
    obtain ⟨i, hi, rfl⟩ := List.mem_map.1 hq
    have hi := List.mem_range.1 hi
    have hin := Ortho.inside d i hi
    have hne := mul_self_pos.2 (d.ne i hi)
    have h2 : (0 : ℝ) ≤ α := Nat.cast_nonneg _
    simp only [setV, if_true]
    refine ⟨?_, ?_, ?_, ?_⟩
    · norm_num; linarith [hin.2]
    · norm_num; linarith [hin.1]
    · rw [mul_assoc]
      apply mul_pos _ hne
      push_cast
      positivity
    · intro k hk
      rw [if_neg (by omega)]
  · unfold jacobiNodesWeights
    simp only [hn, List.map_map]
    refine List.Nodup.map_on ?_ List.nodup_range
    intro i hi j hj h
    by_contra hne
    simp only [Function.comp, setV, if_true] at h
    exact d.inj i j (List.mem_range.1 hi) (List.mem_range.1 hj) hne (by norm_num at h; linarith)
  · intro p hp
    have h1 := quadSum_lapack solver degree α (p.comp (C 1 - X))
    have h2 := Ortho.gauss d (by omega) (p.comp (C 1 - X)) (by
      refine lt_of_le_of_lt natDegree_comp_le ?_
      have : (C 1 - X : ℝ[X]).natDegree ≤ 1 := (natDegree_sub_le _ _).trans (by simp)
      calc p.natDegree * (C 1 - X : ℝ[X]).natDegree ≤ p.natDegree * 1 := Nat.mul_le_mul_left _ this
        _ < _ := by omega)
    rw [h2] at h1
    simp only [eval_comp, eval_sub, eval_C, eval_X, sub_sub_cancel] at h1
    rw [h1]
    unfold Ortho.L
    simp only [eval_comp, eval_sub, eval_C, eval_X]
    have := intervalIntegral.integral_comp_sub_left (a := 0) (b := 1) (fun s : ℝ => s ^ α * p.eval (1 - s)) 1
    simp only [sub_sub_cancel, sub_self, sub_zero] at this
    exact this.symm

end Verif.Quad
