import Verif.MatHelp.Spec
import Mathlib.Analysis.Matrix.PosDef
import Mathlib.Algebra.Order.Star.Real
import Mathlib.LinearAlgebra.Matrix.Block
import Mathlib.LinearAlgebra.Matrix.NonsingularInverse

/-! Loop invariants for the matrix helpers. -/

namespace Verif.MatHelp

open Verif.RefGeom Finset Matrix

theorem setM_apply (M : Mat ℝ) (r c : Nat) (a : ℝ) (i j : Nat) :
    setM M r c a i j = if i = r ∧ j = c then a else M i j := rfl

theorem foldl_add (l : List Nat) (f : Nat → ℝ) : ∀ a, l.foldl (fun x k => x + f k) a = a + (l.map f).sum := by
  induction l with
  | nil => intro a; simp
  | cons k l ih => intro a; rw [List.foldl_cons, ih, List.map_cons, List.sum_cons]; ring

theorem foldl_sub (l : List Nat) (f : Nat → ℝ) : ∀ a, l.foldl (fun x k => x - f k) a = a - (l.map f).sum := by
  induction l with
  | nil => intro a; simp
  | cons k l ih => intro a; rw [List.foldl_cons, ih, List.map_cons, List.sum_cons]; ring

theorem sum_range' (lo m : Nat) (f : Nat → ℝ) : ((List.range' lo m).map f).sum = ∑ k ∈ Ico lo (lo + m), f k := by
  induction m with
  | zero => simp
  | succ m ih =>
    rw [List.range'_concat, List.map_append, List.sum_append, ih, ← Nat.add_assoc, Finset.sum_Ico_succ_top (by omega)]
    simp

theorem addLoop_eq (a : ℝ) (lo hi : Nat) (f : Nat → ℝ) : addLoop a lo hi f = a + ∑ k ∈ Ico lo hi, f k := by
  rw [addLoop, foldl_add, sum_range']
  rcases Nat.le_total lo hi with h | h
  · rw [Nat.add_sub_cancel' h]
  · rw [Nat.sub_eq_zero_of_le h, Ico_eq_empty_of_le (by omega), Ico_eq_empty_of_le h]

theorem subLoop_eq (a : ℝ) (lo hi : Nat) (f : Nat → ℝ) : subLoop a lo hi f = a - ∑ k ∈ Ico lo hi, f k := by
  rw [subLoop, foldl_sub, sum_range']
  rcases Nat.le_total lo hi with h | h
  · rw [Nat.add_sub_cancel' h]
  · rw [Nat.sub_eq_zero_of_le h, Ico_eq_empty_of_le (by omega), Ico_eq_empty_of_le h]

/-! ### Matrices -/

theorem symm_of_symmetric (n : Nat) (A : Mat ℝ) (h : (mat n n A).IsSymm) : symm n A = mat n n A := by
  ext i j
  simp only [symm, mat, of_apply]
  split
  · rfl
  · have := congrFun (congrFun h i) j
    simpa [mat] using this

theorem symm_isSymm (n : Nat) (A : Mat ℝ) : (symm n A).IsSymm := by
  ext i j
  simp only [transpose_apply, symm, of_apply]
  rcases lt_trichotomy i j with h | h | h
  · rw [if_pos h.le, if_neg (not_le.2 h)]
  · subst h; rfl
  · rw [if_neg (not_le.2 h), if_pos h.le]

theorem sum_fin (n : Nat) (f : Nat → ℝ) : ∑ k : Fin n, f k = ∑ k ∈ range n, f k := Fin.sum_univ_eq_sum_range f n

theorem sum_range_eq_Ico_of_zero {n lo hi : Nat} (hhi : hi ≤ n) (f : Nat → ℝ)
    (h : ∀ k, k < n → ¬ (lo ≤ k ∧ k < hi) → f k = 0) : ∑ k ∈ range n, f k = ∑ k ∈ Ico lo hi, f k := by
  symm
  apply sum_subset
  · intro k hk
    rw [mem_Ico] at hk
    exact mem_range.2 (by omega)
  · intro k hk hnk
    rw [mem_Ico] at hnk
    exact h k (mem_range.1 hk) hnk

theorem lower_isLower (n : Nat) (L : Mat ℝ) : (lower n L).IsLowerTriangular := by
  intro i j h
  have : ¬ j ≤ i := not_le.2 h
  simp [lower, this]

theorem det_lower (n : Nat) (L : Mat ℝ) : (lower n L).det = ∏ i ∈ range n, L i i := by
  rw [det_of_isLowerTriangular _ (lower_isLower n L), ← Fin.prod_univ_eq_prod_range (fun i => L i i) n]
  refine prod_congr rfl fun i _ => ?_
  simp [lower]

/-! ### Cholesky -/

theorem choleskyColumn_spec (n : Nat) (A : Mat ℝ) (i : Nat) (a : ℝ) (ret0 : Mat ℝ) : ∀ (ks : List Nat) (ret : Mat ℝ),
    (∀ r c, c ≠ i → ret r c = ret0 r c) →
    ∀ r c, (ks.foldl (fun ret k => setM ret k i (a * subLoop (A k i) 0 i fun j => ret i j * ret k j)) ret) r c =
      if c = i ∧ r ∈ ks then a * (A r i - ∑ j ∈ range i, ret0 i j * ret0 r j) else ret r c := by
  intro ks
  induction ks with
  | nil => intro ret _ r c; simp
  | cons k ks ih =>
    intro ret h r c
    rw [List.foldl_cons, ih]
    · by_cases hc : c = i
      · by_cases hr : r ∈ ks
        · rw [if_pos ⟨hc, hr⟩, if_pos ⟨hc, List.mem_cons_of_mem _ hr⟩]
        · rw [if_neg (by tauto), setM_apply]
          by_cases hk : r = k
          · rw [if_pos ⟨hk, hc⟩, if_pos ⟨hc, by simp [hk]⟩, subLoop_eq, hk]
            congr 2
            rw [range_eq_Ico]
            refine sum_congr rfl fun j hj => ?_
            have := (mem_Ico.1 hj).2
            rw [h i j (by omega), h k j (by omega)]
          · rw [if_neg (by tauto), if_neg (by simp [hk, hr])]
      · rw [if_neg (by tauto), if_neg (by tauto), setM_apply, if_neg (by tauto)]
    · intro r c hc
      rw [setM_apply, if_neg (by tauto), h r c hc]

theorem choleskyColumn_eq (n : Nat) (A : Mat ℝ) (i : Nat) (a : ℝ) (ret : Mat ℝ) (r c : Nat) :
    choleskyColumn n A i a ret r c =
      if c = i ∧ i < r ∧ r < n then a * (A r i - ∑ j ∈ range i, ret i j * ret r j) else ret r c := by
  rw [choleskyColumn, choleskyColumn_spec n A i a ret _ ret (fun _ _ _ => rfl)]
  congr 1
  rw [List.mem_range'_1]
  apply propext
  constructor
  · rintro ⟨h1, h2, h3⟩; exact ⟨h1, by omega, by omega⟩
  · rintro ⟨h1, h2, h3⟩; exact ⟨h1, by omega, by omega⟩

/-- invariant: the columns below `i` are done -/
def CholInv (n : Nat) (A : Mat ℝ) (i : Nat) (L : Mat ℝ) : Prop :=
  ∀ c, c < i → 0 < L c c ∧ ∀ r, c ≤ r → r < n → ∑ j ∈ range (c + 1), L r j * L c j = A r c

theorem cholInv_step {n : Nat} {A L : Mat ℝ} {i : Nat} (h : CholInv n A i L)
    (hx : 0 < A i i - ∑ j ∈ range i, L i j * L i j) :
    CholInv n A (i + 1) (choleskyColumn n A i (1 / Real.sqrt (A i i - ∑ j ∈ range i, L i j * L i j))
      (setM L i i (Real.sqrt (A i i - ∑ j ∈ range i, L i j * L i j)))) := by
  set x := A i i - ∑ j ∈ range i, L i j * L i j with hxd
  set L' := setM L i i (Real.sqrt x) with hL'
  have hs : 0 < Real.sqrt x := Real.sqrt_pos.2 hx
  have hss : Real.sqrt x * Real.sqrt x = x := Real.mul_self_sqrt hx.le
  have hcol : ∀ r c, c < i → choleskyColumn n A i (1 / Real.sqrt x) L' r c = L r c := by
    intro r c hc
    rw [choleskyColumn_eq, if_neg (by omega), hL', setM_apply, if_neg (by omega)]
  have hii : choleskyColumn n A i (1 / Real.sqrt x) L' i i = Real.sqrt x := by
    rw [choleskyColumn_eq, if_neg (by omega), hL', setM_apply, if_pos ⟨rfl, rfl⟩]
  have hri : ∀ r, i < r → r < n → choleskyColumn n A i (1 / Real.sqrt x) L' r i =
      1 / Real.sqrt x * (A r i - ∑ j ∈ range i, L i j * L r j) := by
    intro r h1 h2
    rw [choleskyColumn_eq, if_pos ⟨rfl, h1, h2⟩]
    congr 2
    refine sum_congr rfl fun j hj => ?_
    have := mem_range.1 hj
    rw [hL', setM_apply, setM_apply, if_neg (by omega), if_neg (by omega)]
  intro c hc
  by_cases hci : c = i
  · subst hci
    refine ⟨by rw [hii]; exact hs, fun r h1 h2 => ?_⟩
    rw [sum_range_succ, hii]
    have e : ∑ j ∈ range c, choleskyColumn n A c (1 / Real.sqrt x) L' r j * choleskyColumn n A c (1 / Real.sqrt x) L' c j
        = ∑ j ∈ range c, L r j * L c j := by
      refine sum_congr rfl fun j hj => ?_
      have := mem_range.1 hj
      rw [hcol _ _ this, hcol _ _ this]
    rw [e]
    by_cases hrc : r = c
    · subst hrc
      rw [hii, hss, hxd]; ring
    · rw [hri r (by omega) h2]
      have e2 : ∑ j ∈ range c, L r j * L c j = ∑ j ∈ range c, L c j * L r j :=
        sum_congr rfl fun j _ => mul_comm _ _
      rw [e2]
      field_simp
      ring
  · obtain ⟨h1, h2⟩ := h c (by omega)
    refine ⟨by rw [hcol _ _ (by omega)]; exact h1, fun r h3 h4 => ?_⟩
    rw [← h2 r h3 h4]
    refine sum_congr rfl fun j hj => ?_
    have := mem_range.1 hj
    rw [hcol _ _ (by omega), hcol _ _ (by omega)]

/-- the pivots of a positive definite matrix are positive -/
theorem pivot_pos {n : Nat} {A L : Mat ℝ} {i : Nat} (h : CholInv n A i L) (hi : i < n)
    (hA : (symm n A).PosDef) : 0 < A i i - ∑ j ∈ range i, L i j * L i j := by
  set x := A i i - ∑ j ∈ range i, L i j * L i j with hxd
  have hsub : (symm (i + 1) A).PosDef := by
    have : symm (i + 1) A = (symm n A).submatrix (Fin.castLE hi) (Fin.castLE hi) := by
      ext r c; simp [symm]
    rw [this]
    exact hA.submatrix (Fin.castLE_injective hi)
  let M : Mat ℝ := fun r c => if c < i then L r c else 1
  let d : Fin (i + 1) → ℝ := fun c => if c.1 < i then 1 else x
  have hent : ∀ r c : Fin (i + 1), c ≤ r → (lower (i + 1) M * diagonal d * (lower (i + 1) M)ᵀ) r c = A r c := by
    intro r c hcr
    have hcr' : c.1 ≤ r.1 := hcr
    rw [mul_apply]
    simp only [mul_diagonal, transpose_apply]
    have e : ∑ k : Fin (i + 1), lower (i + 1) M r k * d k * lower (i + 1) M c k =
        ∑ k ∈ range (i + 1), (fun k : Nat => (if k ≤ r.1 then M r k else 0) * (if k < i then 1 else x) * (if k ≤ c.1 then M c k else 0)) k := by
      rw [← sum_fin]; exact sum_congr rfl fun k _ => by simp only [lower, of_apply, d, Fin.le_def]
    rw [e,
      sum_range_eq_Ico_of_zero (lo := 0) (hi := c.1 + 1) (by omega)]
    · rw [← range_eq_Ico]
      by_cases hc : c.1 < i
      · rw [← (h c.1 hc).2 r.1 hcr' (by omega)]
        refine sum_congr rfl fun k hk => ?_
        have := mem_range.1 hk
        rw [if_pos (by omega), if_pos (by omega), if_pos (by omega)]
        simp only [M]; rw [if_pos (by omega), if_pos (by omega)]; ring
      · have hci : c.1 = i := by omega
        have hri : r.1 = i := by omega
        rw [hci, hri, sum_range_succ, if_pos (le_refl _), if_neg (lt_irrefl _)]
        simp only [M]
        rw [if_neg (lt_irrefl _)]
        have : ∑ k ∈ range i, (if k ≤ i then (if k < i then L i k else 1) else 0) * (if k < i then 1 else x) *
            (if k ≤ i then (if k < i then L i k else 1) else 0) = ∑ k ∈ range i, L i k * L i k := by
          refine sum_congr rfl fun k hk => ?_
          have := mem_range.1 hk
          rw [if_pos (by omega), if_pos this, if_pos this]; ring
        rw [this, hxd]; ring
    · intro k _ hk2
      rw [if_neg (show ¬ k ≤ c.1 by omega)]; ring
  have hfac : lower (i + 1) M * diagonal d * (lower (i + 1) M)ᵀ = symm (i + 1) A := by
    have hsy : (lower (i + 1) M * diagonal d * (lower (i + 1) M)ᵀ).IsSymm := by
      rw [IsSymm, transpose_mul, transpose_mul, transpose_transpose, diagonal_transpose, Matrix.mul_assoc]
    ext r c
    by_cases hrc : c ≤ r
    · rw [hent r c hrc]; simp [symm, hrc]
    · have h1 := congrFun (congrFun hsy r) c
      rw [transpose_apply] at h1
      rw [← h1, hent c r (le_of_not_ge hrc)]
      simp [symm, hrc]
  have hdet : IsUnit (lower (i + 1) M) := by
    rw [isUnit_iff_isUnit_det, det_lower, isUnit_iff_ne_zero, prod_ne_zero_iff]
    intro k hk
    simp only [M]
    split
    · exact (h k (by assumption)).1.ne'
    · exact one_ne_zero
  rw [← hfac] at hsub
  have := (IsUnit.posDef_star_right_conjugate_iff (x := diagonal d) hdet).1 (by
    rw [star_eq_conjTranspose, conjTranspose_eq_transpose_of_trivial]; exact hsub)
  rw [posDef_diagonal_iff] at this
  have h0 := this (Fin.last i)
  simpa [d] using h0

/-- the factorisation identity from the invariant -/
theorem cholInv_mul {n : Nat} {A L : Mat ℝ} (h : CholInv n A n L) : lower n L * (lower n L)ᵀ = symm n A := by
  have hent : ∀ r c : Fin n, c ≤ r → (lower n L * (lower n L)ᵀ) r c = A r c := by
    intro r c hcr
    have hcr' : c.1 ≤ r.1 := hcr
    rw [mul_apply]
    have e : ∑ k : Fin n, lower n L r k * (lower n L)ᵀ k c =
        ∑ k ∈ range n, (fun k : Nat => (if k ≤ r.1 then L r k else 0) * (if k ≤ c.1 then L c k else 0)) k := by
      rw [← sum_fin]; exact sum_congr rfl fun k _ => by simp only [lower, transpose_apply, of_apply, Fin.le_def]
    rw [e, sum_range_eq_Ico_of_zero (lo := 0) (hi := c.1 + 1) (by omega)]
    · rw [← range_eq_Ico, ← (h c.1 c.2).2 r.1 hcr' r.2]
      refine sum_congr rfl fun k hk => ?_
      have := mem_range.1 hk
      rw [if_pos (by omega), if_pos (by omega)]
    · intro k _ hk2
      rw [if_neg (show ¬ k ≤ c.1 by omega)]; ring
  have hsy : (lower n L * (lower n L)ᵀ).IsSymm := by
    rw [IsSymm, transpose_mul, transpose_transpose]
  ext r c
  by_cases hrc : c ≤ r
  · rw [hent r c hrc]; simp [symm, hrc]
  · have h1 := congrFun (congrFun hsy r) c
    rw [transpose_apply] at h1
    rw [← h1, hent c r (le_of_not_ge hrc)]
    simp [symm, hrc]

theorem isUnit_lower {n : Nat} {L : Mat ℝ} (h : ∀ i, i < n → L i i ≠ 0) : IsUnit (lower n L) := by
  rw [isUnit_iff_isUnit_det, det_lower, isUnit_iff_ne_zero, prod_ne_zero_iff]
  exact fun k hk => h k (mem_range.1 hk)

theorem posDef_of_cholInv {n : Nat} {A L : Mat ℝ} (h : CholInv n A n L) : (symm n A).PosDef := by
  rw [← cholInv_mul h]
  have hu := isUnit_lower fun i hi => (h i hi).1.ne'
  have := (IsUnit.posDef_star_right_conjugate_iff (x := (1 : Matrix (Fin n) (Fin n) ℝ)) hu).2 PosDef.one
  rw [star_eq_conjTranspose, conjTranspose_eq_transpose_of_trivial, Matrix.mul_one] at this
  exact this

/-- what `cholesky_L` does -/
theorem choleskyFrom_spec (n : Nat) (A : Mat ℝ) (cs : Bool) : ∀ (fuel i : Nat) (ret : Mat ℝ), i + fuel = n →
    CholInv n A i ret →
    ((symm n A).PosDef → ∃ L, choleskyFrom n A cs fuel i ret = some (true, L) ∧ CholInv n A n L ∧
      ∀ r c, r < c → L r c = ret r c) ∧
    (¬ (symm n A).PosDef → if cs then ∃ L, choleskyFrom n A cs fuel i ret = some (false, L)
      else choleskyFrom n A cs fuel i ret = none) := by
  intro fuel
  induction fuel with
  | zero =>
    intro i ret hi h
    obtain rfl : i = n := by omega
    refine ⟨fun _ => ⟨ret, rfl, h, fun _ _ _ => rfl⟩, fun hn => absurd (posDef_of_cholInv h) hn⟩
  | succ fuel ih =>
    intro i ret hi h
    have hx : subLoop (A i i) 0 i (fun j => ret i j * ret i j) = A i i - ∑ j ∈ range i, ret i j * ret i j := by
      rw [subLoop_eq, range_eq_Ico]
    by_cases hpos : 0 < A i i - ∑ j ∈ range i, ret i j * ret i j
    · obtain ⟨ih1, ih2⟩ := ih (i + 1) _ (by omega) (cholInv_step h hpos)
      simp only [choleskyFrom, hx, gt_iff_lt, hpos, not_true_eq_false, and_false, if_false]
      refine ⟨fun hp => ?_, ih2⟩
      obtain ⟨L, h1, h2, h3⟩ := ih1 hp
      refine ⟨L, h1, h2, fun r c hrc => ?_⟩
      rw [h3 r c hrc, choleskyColumn_eq, if_neg (by omega), setM_apply, if_neg (by omega)]
    · refine ⟨fun hp => absurd (pivot_pos h (by omega) hp) hpos, fun _ => ?_⟩
      simp only [choleskyFrom, hx, gt_iff_lt, hpos, not_false_eq_true, and_true]
      cases cs
      · simp
      · exact ⟨ret, by simp⟩

theorem cholesky_spec (n : Nat) (A ret : Mat ℝ) (cs : Bool) :
    ((symm n A).PosDef → ∃ L, cholesky_L n A ret cs = some (true, L) ∧ CholInv n A n L ∧
      ∀ r c, r < c → L r c = ret r c) ∧
    (¬ (symm n A).PosDef → if cs then ∃ L, cholesky_L n A ret cs = some (false, L)
      else cholesky_L n A ret cs = none) :=
  choleskyFrom_spec n A cs n 0 ret (by omega) (fun c hc => absurd hc (by omega))

/-! ### Triangular inverse -/

theorem detL_eq (n : Nat) (L : Mat ℝ) : detL n L = (lower n L).det := by
  rw [det_lower, detL]
  induction n with
  | zero => simp
  | succ n ih => rw [List.range_succ, List.foldl_append, ih, prod_range_succ]; rfl

theorem invLRow_spec (i : Nat) (a : ℝ) (L0 : Mat ℝ) : ∀ m, m ≤ i → ∀ r c,
    ((List.range m).foldl
      (fun L j => setM L i j (-a * addLoop (L i j * L j j) (j + 1) i fun k => L i k * L k j)) L0) r c =
      if r = i ∧ c < m then -a * ∑ k ∈ Ico c i, L0 i k * L0 k c else L0 r c := by
  intro m
  induction m with
  | zero => intro _ r c; simp
  | succ m ih =>
    intro hm r c
    rw [List.range_succ, List.foldl_append, List.foldl_cons, List.foldl_nil, setM_apply]
    have ih := ih (by omega)
    by_cases h : r = i ∧ c = m
    · rw [if_pos h, if_pos ⟨h.1, by omega⟩, addLoop_eq, ih, if_neg (by omega), ih, if_neg (by omega), h.2]
      congr 1
      rw [Finset.sum_eq_sum_Ico_succ_bot (show m < i by omega)]
      congr 1
      refine sum_congr rfl fun k hk => ?_
      have := mem_Ico.1 hk
      rw [ih, ih, if_neg (by omega), if_neg (by omega)]
    · rw [if_neg h, ih]
      by_cases h2 : r = i ∧ c < m
      · rw [if_pos h2, if_pos ⟨h2.1, by omega⟩]
      · rw [if_neg h2, if_neg (by omega)]

theorem invL_spec (L0 : Mat ℝ) (n : Nat) (hd : ∀ i, i < n → L0 i i ≠ 0) :
    (invL n L0).1 = ∏ i ∈ range n, L0 i i ∧
    (∀ r c, n ≤ r ∨ r < c → (invL n L0).2 r c = L0 r c) ∧
    (∀ r c, c ≤ r → r < n → ∑ k ∈ Ico c (r + 1), L0 r k * (invL n L0).2 k c = if r = c then 1 else 0) := by
  induction n with
  | zero => exact ⟨by simp [invL], fun _ _ _ => rfl, fun _ _ _ h => absurd h (by omega)⟩
  | succ n ih =>
    obtain ⟨h1, h2, h3⟩ := ih fun i hi => hd i (by omega)
    have hstep : invL (n + 1) L0 = ((invL n L0).1 * (invL n L0).2 n n,
        invLRow n (1 / (invL n L0).2 n n) (setM (invL n L0).2 n n (1 / (invL n L0).2 n n))) := by
      rw [invL, List.range_succ, List.foldl_append]; rfl
    set M := (invL n L0).2 with hM
    have hnn : M n n = L0 n n := h2 n n (Or.inl (le_refl _))
    have hrow : ∀ r c, (invL (n + 1) L0).2 r c = if r = n ∧ c < n then
        -(1 / L0 n n) * ∑ k ∈ Ico c n, L0 n k * M k c else if r = n ∧ c = n then 1 / L0 n n else M r c := by
      intro r c
      rw [hstep]
      simp only [invLRow]
      rw [invLRow_spec n _ _ n (le_refl _), hnn]
      by_cases h : r = n ∧ c < n
      · rw [if_pos h, if_pos h]
        congr 1
        refine sum_congr rfl fun k hk => ?_
        have := mem_Ico.1 hk
        rw [setM_apply, setM_apply, if_neg (by omega), if_neg (by omega), h2 n k (Or.inl (le_refl _))]
      · rw [if_neg h, if_neg h, setM_apply]
    refine ⟨?_, ?_, ?_⟩
    · rw [hstep, prod_range_succ, h1, hnn]
    · intro r c h
      rw [hrow, if_neg (by omega), if_neg (by omega), h2 r c (by omega)]
    · intro r c hcr hr
      by_cases hrn : r = n
      · subst hrn
        rw [Finset.sum_Ico_succ_top hcr, hrow r c]
        have hne := hd r hr
        by_cases hc : c = r
        · subst hc
          rw [if_neg (by omega), if_pos ⟨rfl, rfl⟩, if_pos rfl]
          simp; field_simp
        · rw [if_pos ⟨rfl, by omega⟩, if_neg (Ne.symm hc)]
          have : ∑ k ∈ Ico c r, L0 r k * (invL (r + 1) L0).2 k c = ∑ k ∈ Ico c r, L0 r k * M k c := by
            refine sum_congr rfl fun k hk => ?_
            have := mem_Ico.1 hk
            rw [hrow, if_neg (by omega), if_neg (by omega)]
          rw [this]; field_simp; ring
      · rw [← h3 r c hcr (by omega)]
        refine sum_congr rfl fun k hk => ?_
        have := mem_Ico.1 hk
        rw [hrow, if_neg (by omega), if_neg (by omega)]

theorem lower_mul_invL {n : Nat} {L : Mat ℝ} (hd : ∀ i, i < n → L i i ≠ 0) :
    lower n L * lower n (invL n L).2 = 1 := by
  obtain ⟨_, _, h3⟩ := invL_spec L n hd
  ext r c
  rw [mul_apply, one_apply]
  have e : ∑ k : Fin n, lower n L r k * lower n (invL n L).2 k c =
        ∑ k ∈ range n, (fun k : Nat => (if k ≤ r.1 then L r k else 0) * (if c.1 ≤ k then (invL n L).2 k c else 0)) k := by
      rw [← sum_fin]; exact sum_congr rfl fun k _ => by simp only [lower, of_apply, Fin.le_def]
  rw [e, sum_range_eq_Ico_of_zero (lo := c.1) (hi := r.1 + 1) (by omega)]
  · by_cases hcr : c.1 ≤ r.1
    · have := h3 r.1 c.1 hcr r.2
      rw [show (if r = c then (1 : ℝ) else 0) = if r.1 = c.1 then 1 else 0 by simp only [Fin.ext_iff], ← this]
      refine sum_congr rfl fun k hk => ?_
      have := mem_Ico.1 hk
      rw [if_pos (by omega), if_pos (by omega)]
    · rw [Ico_eq_empty_of_le (by omega), if_neg (by rw [Fin.ext_iff]; omega)]; rfl
  · intro k _ hk
    by_cases h : c.1 ≤ k
    · rw [if_neg (show ¬ k ≤ r.1 by omega)]; ring
    · rw [if_neg h]; ring

theorem invLx_spec (L : Mat ℝ) (x : Vec ℝ) (n : Nat) (hd : ∀ i, i < n → L i i ≠ 0) :
    (∀ i, n ≤ i → invLx n L x i = x i) ∧
    ∀ i, i < n → ∑ j ∈ range (i + 1), L i j * invLx n L x j = x i := by
  induction n with
  | zero => exact ⟨fun _ _ => rfl, fun _ h => absurd h (by omega)⟩
  | succ n ih =>
    obtain ⟨h1, h2⟩ := ih fun i hi => hd i (by omega)
    have hstep : invLx (n + 1) L x = setV (invLx n L x) n
        ((x n - ∑ j ∈ range n, L n j * invLx n L x j) / L n n) := by
      rw [invLx, List.range_succ, List.foldl_append, List.foldl_cons, List.foldl_nil, subLoop_eq, ← range_eq_Ico]
      rw [← invLx, h1 n (le_refl _)]
    constructor
    · intro i hi
      rw [hstep, setV, if_neg (by omega), h1 i (by omega)]
    · intro i hi
      have hlt : ∀ j, j < n → invLx (n + 1) L x j = invLx n L x j := by
        intro j hj; rw [hstep, setV, if_neg (by omega)]
      by_cases hin : i = n
      · subst hin
        have hii := hd i (by omega)
        rw [sum_range_succ, sum_congr rfl fun j hj => by rw [hlt j (mem_range.1 hj)], hstep, setV, if_pos rfl]
        field_simp; ring
      · rw [← h2 i (by omega)]
        exact sum_congr rfl fun j hj => by rw [hlt j (by have := mem_range.1 hj; omega)]

theorem invLTx_spec (L : Mat ℝ) (b : Vec ℝ) (n : Nat) (hd : ∀ i, i < n → L i i ≠ 0) :
    ∀ i, i < n → ∑ j ∈ Ico i n, L j i * invLTx n L b j = b i := by
  have key : ∀ m, m ≤ n → ∀ x : Vec ℝ, (∀ i, i < m → x i = b i) →
      (∀ i, m ≤ i → i < n → ∑ j ∈ Ico i n, L j i * x j = b i) →
      ∀ i, i < n → ∑ j ∈ Ico i n, L j i * ((List.range m).foldr
        (fun i x => setV x i (subLoop (x i) (i + 1) n (fun j => L j i * x j) / L i i)) x) j = b i := by
    intro m
    induction m with
    | zero => intro _ x _ h i hi; exact h i (by omega) hi
    | succ m ih =>
      intro hm x h1 h2
      rw [List.range_succ, List.foldr_append, List.foldr_cons, List.foldr_nil]
      refine ih (by omega) _ ?_ ?_
      · intro i hi
        rw [setV, if_neg (by omega), h1 i (by omega)]
      · intro i hi hin
        by_cases him : i = m
        · subst him
          have hne := hd i hin
          rw [Finset.sum_eq_sum_Ico_succ_bot hin]
          have : ∀ a, ∑ j ∈ Ico (i + 1) n, L j i * setV x i a j = ∑ j ∈ Ico (i + 1) n, L j i * x j := by
            intro a
            refine sum_congr rfl fun j hj => ?_
            have := mem_Ico.1 hj
            rw [setV, if_neg (by omega)]
          rw [this, setV, if_pos rfl, subLoop_eq, h1 i (by omega)]
          field_simp; ring
        · rw [← h2 i (by omega) hin]
          refine sum_congr rfl fun j hj => ?_
          have := mem_Ico.1 hj
          rw [setV, if_neg (by omega)]
  intro i hi
  rw [invLTx, List.foldl_reverse]
  exact key n (le_refl _) b (fun _ _ => rfl) (fun i h1 h2 => absurd h1 (by omega)) i hi

theorem lower_mulVec {n : Nat} (L : Mat ℝ) (x : Vec ℝ) (i : Fin n) :
    (lower n L).mulVec (vec n x) i = ∑ j ∈ range (i.1 + 1), L i j * x j := by
  rw [mulVec, dotProduct]
  have e : ∑ k : Fin n, lower n L i k * vec n x k =
        ∑ k ∈ range n, (fun k : Nat => (if k ≤ i.1 then L i k else 0) * x k) k := by
      rw [← sum_fin]; exact sum_congr rfl fun k _ => by simp only [lower, of_apply, Fin.le_def, vec]
  rw [e, sum_range_eq_Ico_of_zero (lo := 0) (hi := i.1 + 1) (by omega),
    range_eq_Ico]
  · refine sum_congr rfl fun k hk => ?_
    have := mem_Ico.1 hk
    rw [if_pos (by omega)]
  · intro k _ hk
    rw [if_neg (by omega)]; ring

theorem lowerT_mulVec {n : Nat} (L : Mat ℝ) (x : Vec ℝ) (i : Fin n) :
    (lower n L)ᵀ.mulVec (vec n x) i = ∑ j ∈ Ico i.1 n, L j i * x j := by
  rw [mulVec, dotProduct]
  have e : ∑ k : Fin n, (lower n L)ᵀ i k * vec n x k =
        ∑ k ∈ range n, (fun k : Nat => (if i.1 ≤ k then L k i else 0) * x k) k := by
      rw [← sum_fin]; exact sum_congr rfl fun k _ => by simp only [lower, transpose_apply, of_apply, Fin.le_def, vec]
  rw [e, sum_range_eq_Ico_of_zero (lo := i.1) (hi := n) (by omega)]
  · refine sum_congr rfl fun k hk => ?_
    have := mem_Ico.1 hk
    rw [if_pos (by omega)]
  · intro k _ hk
    rw [if_neg (by omega)]; ring

theorem invLx_mulVec {n : Nat} {L : Mat ℝ} (hd : ∀ i, i < n → L i i ≠ 0) (x : Vec ℝ) :
    (lower n L).mulVec (vec n (invLx n L x)) = vec n x := by
  funext i
  rw [lower_mulVec]
  exact (invLx_spec L x n hd).2 i.1 i.2

theorem invLTx_mulVec {n : Nat} {L : Mat ℝ} (hd : ∀ i, i < n → L i i ≠ 0) (x : Vec ℝ) :
    (lower n L)ᵀ.mulVec (vec n (invLTx n L x)) = vec n x := by
  funext i
  rw [lowerT_mulVec]
  exact invLTx_spec L x n hd i.1 i.2

theorem LTL_eq (n : Nat) (L : Mat ℝ) : mat n n (LTL n L) = (lower n L)ᵀ * lower n L := by
  have hent : ∀ r c : Fin n, c ≤ r → ((lower n L)ᵀ * lower n L) r c = ∑ k ∈ Ico r.1 n, L k r * L k c := by
    intro r c hcr
    have hcr' : c.1 ≤ r.1 := hcr
    rw [mul_apply]
    have e : ∑ k : Fin n, (lower n L)ᵀ r k * lower n L k c =
        ∑ k ∈ range n, (fun k : Nat => (if r.1 ≤ k then L k r else 0) * (if c.1 ≤ k then L k c else 0)) k := by
      rw [← sum_fin]; exact sum_congr rfl fun k _ => by simp only [lower, transpose_apply, of_apply, Fin.le_def]
    rw [e, sum_range_eq_Ico_of_zero (lo := r.1) (hi := n) (by omega)]
    · refine sum_congr rfl fun k hk => ?_
      have := mem_Ico.1 hk
      rw [if_pos (by omega), if_pos (by omega)]
    · intro k _ hk2
      rw [if_neg (show ¬ r.1 ≤ k by omega)]; ring
  ext i j
  simp only [mat, LTL, of_apply, addLoop_eq, zero_add]
  rcases lt_trichotomy i.1 j.1 with h | h | h
  · rw [if_neg (by omega), if_pos h]
    have hsy : ((lower n L)ᵀ * lower n L)ᵀ = (lower n L)ᵀ * lower n L := by
      rw [transpose_mul, transpose_transpose]
    rw [← hsy, transpose_apply, hent j i (le_of_lt h)]
  · have : i = j := Fin.ext h
    subst this
    rw [if_neg (by omega), if_neg (by omega), hent i i (le_refl _)]
  · rw [if_pos h, hent i j (le_of_lt h)]

theorem LLT_eq (n : Nat) (L : Mat ℝ) : mat n n (LLT L) = lower n L * (lower n L)ᵀ := by
  have hent : ∀ r c : Fin n, c ≤ r → (lower n L * (lower n L)ᵀ) r c = ∑ k ∈ Ico 0 (c.1 + 1), L r k * L c k := by
    intro r c hcr
    have hcr' : c.1 ≤ r.1 := hcr
    rw [mul_apply]
    have e : ∑ k : Fin n, lower n L r k * (lower n L)ᵀ k c =
        ∑ k ∈ range n, (fun k : Nat => (if k ≤ r.1 then L r k else 0) * (if k ≤ c.1 then L c k else 0)) k := by
      rw [← sum_fin]; exact sum_congr rfl fun k _ => by simp only [lower, transpose_apply, of_apply, Fin.le_def]
    rw [e, sum_range_eq_Ico_of_zero (lo := 0) (hi := c.1 + 1) (by omega)]
    · refine sum_congr rfl fun k hk => ?_
      have := mem_Ico.1 hk
      rw [if_pos (by omega), if_pos (by omega)]
    · intro k _ hk2
      rw [if_neg (show ¬ k ≤ c.1 by omega)]; ring
  ext i j
  simp only [mat, LLT, of_apply, addLoop_eq, zero_add]
  rcases lt_trichotomy i.1 j.1 with h | h | h
  · rw [if_neg (by omega), if_pos h]
    have hsy : (lower n L * (lower n L)ᵀ)ᵀ = lower n L * (lower n L)ᵀ := by
      rw [transpose_mul, transpose_transpose]
    rw [← hsy, transpose_apply, hent j i (le_of_lt h)]
  · have : i = j := Fin.ext h
    subst this
    rw [if_neg (by omega), if_neg (by omega), hent i i (le_refl _)]
  · rw [if_pos h, hent i j (le_of_lt h)]

theorem ATA_L_eq (m n : Nat) (A ret : Mat ℝ) : symm n (ATA_L m A ret) = (mat m n A)ᵀ * mat m n A := by
  ext i j
  rw [mul_apply]
  have e : ∀ a b : Fin n, ∑ k : Fin m, (mat m n A)ᵀ a k * mat m n A k b = ∑ k ∈ range m, A k a * A k b := by
    intro a b
    rw [← sum_fin m (fun k => A k a * A k b)]
    rfl
  rw [e]
  simp only [symm, ATA_L, of_apply, addLoop_eq, zero_add, range_eq_Ico]
  by_cases h : j ≤ i
  · rw [if_pos h, if_pos (Fin.le_def.1 h)]
  · have h' : i ≤ j := le_of_not_ge h
    rw [if_neg h, if_pos (Fin.le_def.1 h')]
    exact sum_congr rfl fun k _ => mul_comm _ _

theorem AAT_L_eq (m n : Nat) (A ret : Mat ℝ) (hmn : m ≤ n) : symm m (AAT_L n A ret) = mat m n A * (mat m n A)ᵀ := by
  ext i j
  have hn : 0 < n := by have := i.2; omega
  rw [mul_apply]
  have e : ∀ a b : Fin m, ∑ k : Fin n, mat m n A a k * (mat m n A)ᵀ k b = ∑ k ∈ range n, A a k * A b k := by
    intro a b
    rw [← sum_fin n (fun k => A a k * A b k)]
    rfl
  rw [e, range_eq_Ico, Finset.sum_eq_sum_Ico_succ_bot hn]
  simp only [symm, AAT_L, of_apply, addLoop_eq, zero_add]
  by_cases h : j ≤ i
  · rw [if_pos h, if_pos (Fin.le_def.1 h)]
  · have h' : i ≤ j := le_of_not_ge h
    rw [if_neg h, if_pos (Fin.le_def.1 h'), mul_comm (A j 0)]
    congr 1
    exact sum_congr rfl fun k _ => mul_comm _ _

theorem ATBT_eq (m n p : Nat) (A B : Mat ℝ) : mat n p (ATBT m A B) = (mat m n A)ᵀ * (mat p m B)ᵀ := by
  ext i j
  rw [mul_apply, mat, of_apply, ATBT, addLoop_eq, zero_add, ← range_eq_Ico, ← sum_fin m (fun k => A k i * B j k)]
  rfl

theorem mv_eq (m n : Nat) (A : Mat ℝ) (x : Vec ℝ) : vec m (mv m n A x) = (mat m n A).mulVec (vec n x) := by
  funext i
  rw [vec, mv, addLoop_eq, zero_add, ← range_eq_Ico, ← sum_fin n (fun k => A i k * x k)]
  rfl

theorem mtv_eq (m n : Nat) (A : Mat ℝ) (x : Vec ℝ) : vec n (mtv m n A x) = (mat m n A)ᵀ.mulVec (vec m x) := by
  funext i
  rw [vec, mtv, addLoop_eq, zero_add, ← range_eq_Ico, ← sum_fin m (fun k => A k i * x k)]
  rfl

end Verif.MatHelp
