import Verif.Float.EmbedLemmas

/-! The pseudo-inverse of a matrix whose rows are different unit vectors is computed without rounding errors. -/

namespace Verif.FloatEmbed

open Verif.Typ Verif.RefTopo Verif.RefGeom Verif.Float Verif.FloatVol Verif.FloatNewton Finset

variable {φ : Format}

theorem foldl_add_zero (f : Nat → Fl φ) : ∀ (l : List Nat) (a : Fl φ), (∀ k ∈ l, f k = 0) → l.foldl (fun x k => x + f k) a = a
  | [], _, _ => rfl
  | k :: l, a, h => by
    rw [List.foldl_cons, h k List.mem_cons_self, Fl.add_zero]
    exact foldl_add_zero f l a fun k' hk' => h k' (List.mem_cons_of_mem _ hk')

theorem foldl_sub_zero (f : Nat → Fl φ) : ∀ (l : List Nat) (a : Fl φ), (∀ k ∈ l, f k = 0) → l.foldl (fun x k => x - f k) a = a
  | [], _, _ => rfl
  | k :: l, a, h => by
    rw [List.foldl_cons, h k List.mem_cons_self, Fl.sub_zero]
    exact foldl_sub_zero f l a fun k' hk' => h k' (List.mem_cons_of_mem _ hk')

/-- a sum with one term -/
theorem foldl_single (f : Nat → Fl φ) (q : Nat) : ∀ (l : List Nat) (a : Fl φ), q ∈ l → l.Nodup → (∀ k ∈ l, k ≠ q → f k = 0) →
    l.foldl (fun x k => x + f k) a = a + f q
  | [], _, hq, _, _ => absurd hq (by simp)
  | k :: l, a, hq, hn, h => by
    rw [List.foldl_cons]
    rw [List.nodup_cons] at hn
    by_cases hk : k = q
    · subst hk
      exact foldl_add_zero f l _ fun k' hk' => h k' (List.mem_cons_of_mem _ hk') fun e => hn.1 (e ▸ hk')
    · rw [h k List.mem_cons_self hk, Fl.add_zero]
      refine foldl_single f q l a ?_ hn.2 fun k' hk' => h k' (List.mem_cons_of_mem _ hk')
      rcases List.mem_cons.1 hq with h' | h'
      · exact absurd h'.symm hk
      · exact h'

theorem mem_loop {lo hi k : Nat} : k ∈ List.range' lo (hi - lo) ↔ lo ≤ k ∧ k < hi := by
  rw [List.mem_range'_1]; omega

theorem addLoop_zero (a : Fl φ) (lo hi : Nat) (f : Nat → Fl φ) (h : ∀ k, lo ≤ k → k < hi → f k = 0) : addLoop a lo hi f = a :=
  foldl_add_zero f _ a fun k hk => h k (mem_loop.1 hk).1 (mem_loop.1 hk).2

theorem subLoop_zero (a : Fl φ) (lo hi : Nat) (f : Nat → Fl φ) (h : ∀ k, lo ≤ k → k < hi → f k = 0) : subLoop a lo hi f = a :=
  foldl_sub_zero f _ a fun k hk => h k (mem_loop.1 hk).1 (mem_loop.1 hk).2

theorem addLoop_single (a : Fl φ) (lo hi q : Nat) (f : Nat → Fl φ) (h1 : lo ≤ q) (h2 : q < hi) (h : ∀ k, lo ≤ k → k < hi → k ≠ q → f k = 0) :
    addLoop a lo hi f = a + f q :=
  foldl_single f q _ a (mem_loop.2 ⟨h1, h2⟩) (List.nodup_range') fun k hk => h k (mem_loop.1 hk).1 (mem_loop.1 hk).2

/-- the part below the diagonal, and the diagonal, are those of the unit matrix -/
def LowerUnit (n : Nat) (A : Mat (Fl φ)) : Prop := ∀ r c, c ≤ r → r < n → A r c = if r = c then 1 else 0

/-- the rows are different unit vectors -/
structure UnitRows (m n : Nat) (J : Mat (Fl φ)) (p : Nat → Nat) : Prop where
  lt : ∀ r < m, p r < n
  inj : ∀ r < m, ∀ s < m, p r = p s → r = s
  entry : ∀ r < m, ∀ c < n, J r c = if c = p r then 1 else 0

theorem AAT_unit {m n : Nat} {J : Mat (Fl φ)} {p : Nat → Nat} (h : UnitRows m n J p) (ret : Mat (Fl φ)) : LowerUnit m (AAT_L n J ret) := by
  intro r c hcr hr
  have hn : 0 < n := lt_of_le_of_lt (Nat.zero_le _) (h.lt r hr)
  rw [AAT_L, if_pos hcr]
  have hP : ∀ k, k < n → J r k * J c k = if r = c ∧ k = p r then 1 else 0 := by
    intro k hk
    rw [h.entry r hr k hk, h.entry c (by omega) k hk]
    by_cases h1 : k = p r
    · rw [if_pos h1, Fl.one_mul]
      by_cases h2 : r = c
      · rw [if_pos (h2 ▸ h1), if_pos ⟨h2, h1⟩]
      · rw [if_neg (fun h3 => h2 (h.inj r hr c (by omega) (h1.symm.trans h3))), if_neg (fun h3 => h2 h3.1)]
    · rw [if_neg h1, Fl.zero_mul, if_neg (fun h3 => h1 h3.2)]
  rw [hP 0 hn]
  by_cases hrc : r = c
  · rw [if_pos hrc]
    by_cases hp0 : p r = 0
    · rw [if_pos ⟨hrc, hp0.symm⟩]
      refine addLoop_zero _ _ _ _ fun k h1 h2 => ?_
      rw [hP k h2, if_neg (by omega)]
    · rw [if_neg (fun h3 => hp0 h3.2.symm), addLoop_single _ _ _ (p r) _ (by omega) (h.lt r hr), hP _ (h.lt r hr), if_pos ⟨hrc, rfl⟩, Fl.zero_add]
      intro k h1 h2 h3
      rw [hP k h2, if_neg (fun h4 => h3 h4.2)]
  · rw [if_neg hrc, if_neg (fun h3 => hrc h3.1)]
    refine addLoop_zero _ _ _ _ fun k h1 h2 => ?_
    rw [hP k h2, if_neg (fun h3 => hrc h3.1)]

theorem column_unit (A : Mat (Fl φ)) (i : Nat) (a : Fl φ) : ∀ (l : List Nat) (ret : Mat (Fl φ)), (∀ k ∈ l, A k i = 0) → (∀ j < i, ret i j = 0) →
    ∀ r c, (l.foldl (fun ret k => setM ret k i (a * subLoop (A k i) 0 i fun j => ret i j * ret k j)) ret) r c =
      if c = i ∧ r ∈ l then 0 else ret r c
  | [], ret, _, _, r, c => by simp
  | k :: l, ret, hA, hi, r, c => by
    have h0 : a * subLoop (A k i) 0 i (fun j => ret i j * ret k j) = 0 := by
      rw [subLoop_zero _ _ _ _ fun j _ hj => by rw [hi j hj, Fl.zero_mul], hA k List.mem_cons_self, Fl.mul_zero]
    rw [List.foldl_cons, h0, column_unit A i a l _ (fun k' hk' => hA k' (List.mem_cons_of_mem _ hk'))]
    · simp only [setM, List.mem_cons]
      by_cases h1 : c = i ∧ r ∈ l
      · rw [if_pos h1, if_pos ⟨h1.1, Or.inr h1.2⟩]
      · rw [if_neg h1]
        by_cases h2 : r = k ∧ c = i
        · rw [if_pos h2, if_pos ⟨h2.2, Or.inl h2.1⟩]
        · rw [if_neg h2, if_neg]
          rintro ⟨h3, h4 | h4⟩
          · exact h2 ⟨h4, h3⟩
          · exact h1 ⟨h3, h4⟩
    · intro j hj
      rw [setM, if_neg (by omega)]
      exact hi j hj

theorem sqrt_one : HasSqrt.sqrt (1 : Fl φ) = 1 := by
  refine Fl.ext ?_
  change φ.rd (Real.sqrt 1) = 1
  rw [Real.sqrt_one, φ.rd_one]

theorem cholesky_unit (n : Nat) (A : Mat (Fl φ)) (hA : LowerUnit n A) : ∀ (fuel i : Nat) (ret : Mat (Fl φ)), i + fuel = n →
    (∀ c < i, ∀ r, c ≤ r → r < n → ret r c = if r = c then 1 else 0) → ∃ L, choleskyFrom n A fuel i ret = some L ∧ LowerUnit n L
  | 0, i, ret, hi, h => ⟨ret, rfl, fun r c hcr hr => h c (by omega) r hcr hr⟩
  | fuel + 1, i, ret, hi, h => by
    have hz : ∀ j < i, ret i j = 0 := fun j hj => by rw [h j hj i (by omega) (by omega), if_neg (by omega)]
    have hx : subLoop (A i i) 0 i (fun j => ret i j * ret i j) = 1 := by
      rw [subLoop_zero _ _ _ _ fun j _ hj => by rw [hz j hj, Fl.zero_mul], hA i i (le_refl _) (by omega), if_pos rfl]
    have hpos : ¬ ¬ ((1 : Fl φ) > 0) := not_not.2 (by rw [gt_iff_lt, Fl.lt_iff, Fl.zero_val, Fl.one_val]; exact zero_lt_one)
    simp only [choleskyFrom, hx]
    rw [if_neg hpos, sqrt_one, Fl.div_one]
    refine cholesky_unit n A hA fuel (i + 1) _ (by omega) fun c hc r hcr hr => ?_
    rw [choleskyColumn, column_unit]
    · by_cases h1 : c = i
      · by_cases h2 : r = i
        · rw [if_neg (fun h3 => by have := (mem_loop.1 h3.2).1; omega), setM, if_pos ⟨h2, h1⟩, if_pos (h2.trans h1.symm)]
        · rw [if_pos ⟨h1, mem_loop.2 ⟨by omega, hr⟩⟩, if_neg (by omega)]
      · rw [if_neg (fun h3 => h1 h3.1), setM, if_neg (fun h3 => h1 h3.2)]
        exact h c (by omega) r hcr hr
    · intro k hk
      have := mem_loop.1 hk
      rw [hA k i (by omega) (by omega), if_neg (by omega)]
    · intro j hj
      rw [setM, if_neg (by omega)]
      exact hz j hj

theorem invLRow_unit {n i : Nat} (hi : i < n) (a : Fl φ) (L : Mat (Fl φ)) (hL : LowerUnit n L) : LowerUnit n (invLRow i a L) := by
  rw [invLRow]
  have : ∀ (l : List Nat) (L : Mat (Fl φ)), (∀ j ∈ l, j < i) → LowerUnit n L →
      LowerUnit n (l.foldl (fun L j => setM L i j (-a * addLoop (L i j * L j j) (j + 1) i fun k => L i k * L k j)) L) := by
    intro l
    induction l with
    | nil => intro L _ hL; exact hL
    | cons j l ih =>
      intro L hl hL
      rw [List.foldl_cons]
      refine ih _ (fun j' hj' => hl j' (List.mem_cons_of_mem _ hj')) ?_
      have hj := hl j List.mem_cons_self
      have h0 : -a * addLoop (L i j * L j j) (j + 1) i (fun k => L i k * L k j) = 0 := by
        rw [addLoop_zero _ _ _ _ fun k h1 h2 => by rw [hL k j (by omega) (by omega), if_neg (by omega), Fl.mul_zero],
          hL i j (by omega) hi, if_neg (by omega), Fl.zero_mul, Fl.mul_zero]
      rw [h0]
      intro r c hcr hr
      rw [setM]
      split
      · rw [if_neg (by omega)]
      · exact hL r c hcr hr
  exact this _ _ (fun j hj => List.mem_range.1 hj) hL

theorem invL_unit (n : Nat) (L : Mat (Fl φ)) (hL : LowerUnit n L) : (invL n L).1 = 1 ∧ LowerUnit n (invL n L).2 := by
  rw [invL]
  have : ∀ (l : List Nat) (s : Fl φ × Mat (Fl φ)), (∀ i ∈ l, i < n) → s.1 = 1 → LowerUnit n s.2 →
      (l.foldl (fun s i => let det := s.1 * s.2 i i; let lii := 1 / s.2 i i; (det, invLRow i lii (setM s.2 i i lii))) s).1 = 1 ∧
      LowerUnit n (l.foldl (fun s i => let det := s.1 * s.2 i i; let lii := 1 / s.2 i i; (det, invLRow i lii (setM s.2 i i lii))) s).2 := by
    intro l
    induction l with
    | nil => intro s _ h1 h2; exact ⟨h1, h2⟩
    | cons i l ih =>
      intro s hl h1 h2
      rw [List.foldl_cons]
      have hi := hl i List.mem_cons_self
      have hii : s.2 i i = 1 := by rw [h2 i i (le_refl _) hi, if_pos rfl]
      refine ih _ (fun j hj => hl j (List.mem_cons_of_mem _ hj)) ?_ ?_
      · simp only; rw [h1, hii, Fl.one_mul]
      · simp only
        refine invLRow_unit hi _ _ fun r c hcr hr => ?_
        rw [hii, Fl.div_one, setM]
        split
        · rename_i h3; rw [if_pos (h3.1.trans h3.2.symm)]
        · exact h2 r c hcr hr
  exact this _ _ (fun i hi => List.mem_range.1 hi) rfl hL

theorem LTL_unit (n : Nat) (L : Mat (Fl φ)) (hL : LowerUnit n L) (i j : Nat) (hi : i < n) (hj : j < n) : LTL n L i j = if i = j then 1 else 0 := by
  rw [LTL]
  by_cases h1 : j < i
  · rw [if_pos h1, if_neg (by omega)]
    exact addLoop_zero _ _ _ _ fun k h2 h3 => by rw [hL k j (by omega) h3, if_neg (by omega), Fl.mul_zero]
  · rw [if_neg h1]
    by_cases h2 : i < j
    · rw [if_pos h2, if_neg (by omega)]
      exact addLoop_zero _ _ _ _ fun k h3 h4 => by rw [hL k i (by omega) h4, if_neg (by omega), Fl.mul_zero]
    · rw [if_neg h2, if_pos (by omega), addLoop_single _ _ _ i _ (le_refl _) hi, hL i i (le_refl _) hi, if_pos rfl, Fl.mul_one, Fl.zero_add]
      intro k h3 h4 h5
      rw [hL k i h3 h4, if_neg h5, Fl.mul_zero]

theorem ATBT_unit (m : Nat) (A B : Mat (Fl φ)) (hB : ∀ i < m, ∀ j < m, B i j = if i = j then 1 else 0) (i j : Nat) (hj : j < m) :
    ATBT m A B i j = A j i := by
  rw [ATBT, addLoop_single _ _ _ j _ (Nat.zero_le _) hj, hB j hj j hj, if_pos rfl, Fl.mul_one, Fl.zero_add]
  intro k _ hk hne
  rw [hB j hj k hk, if_neg (fun h => hne h.symm), Fl.mul_zero]

theorem neg_zero' : -(0 : Fl φ) = 0 := Fl.ext (by rw [Fl.neg_val, Fl.zero_val, neg_zero])

/-- the pseudo-inverse is the transposed matrix, the integration element is `1` -/
theorem rightInv_unit {m n : Nat} {J : Mat (Fl φ)} {p : Nat → Nat} (h : UnitRows m n J p) (ret ret' : Mat (Fl φ)) :
    ∃ inv, rightInvA m n J ret ret' = some (1, inv) ∧ ∀ i < n, ∀ j < m, inv i j = J j i := by
  rw [rightInvA]
  by_cases hs : n = 2 ∧ m = 2
  · obtain ⟨rfl, rfl⟩ := hs
    rw [if_pos ⟨rfl, rfl⟩, inv22]
    have h0 := h.lt 0 (by norm_num)
    have h1 := h.lt 1 (by norm_num)
    have hne : p 0 ≠ p 1 := fun e => absurd (h.inj 0 (by norm_num) 1 (by norm_num) e) (by norm_num)
    have e00 := h.entry 0 (by norm_num) 0 (by norm_num)
    have e01 := h.entry 0 (by norm_num) 1 (by norm_num)
    have e10 := h.entry 1 (by norm_num) 0 (by norm_num)
    have e11 := h.entry 1 (by norm_num) 1 (by norm_num)
    have hone : (1 : Fl φ) ≠ 0 := fun h => by have := congrArg Fl.val h; rw [Fl.one_val, Fl.zero_val] at this; exact one_ne_zero this
    have hm1 : (0 : Fl φ) - 1 = -1 := Fl.ext (by rw [Fl.sub_val, Fl.zero_val, Fl.one_val, zero_sub, Fl.neg_val, Fl.one_val, φ.rd_neg _ φ.rd_one])
    have hdm : (1 : Fl φ) / -1 = -1 := Fl.ext (by rw [Fl.div_val, Fl.neg_val, Fl.one_val, div_neg, div_one, φ.rd_neg _ φ.rd_one])
    have hmm : -(1 : Fl φ) * -1 = 1 := Fl.ext (by rw [Fl.mul_val, Fl.neg_val, Fl.one_val]; norm_num [φ.rd_one])
    have hmone : -(1 : Fl φ) ≠ 0 := fun h => by
      have := congrArg Fl.val h
      rw [Fl.neg_val, Fl.one_val, Fl.zero_val] at this
      norm_num at this
    by_cases hp : p 0 = 0
    · have hp1 : p 1 = 1 := by omega
      rw [hp] at e00 e01
      rw [hp1] at e10 e11
      norm_num at e00 e01 e10 e11
      simp only [e00, e01, e10, e11, Fl.one_mul, Fl.zero_mul, Fl.sub_zero, Fl.div_one, neg_zero', if_neg hone]
      refine ⟨_, congrArg some (Prod.ext (Fl.ext ?_) rfl), ?_⟩
      · change |(1:ℝ)| = 1; norm_num
      · intro i hi j hj
        interval_cases i <;> interval_cases j <;> simp [e00, e01, e10, e11]
    · have hp0 : p 0 = 1 := by omega
      have hp1 : p 1 = 0 := by omega
      rw [hp0] at e00 e01
      rw [hp1] at e10 e11
      norm_num at e00 e01 e10 e11
      simp only [e00, e01, e10, e11, Fl.one_mul, Fl.zero_mul, hm1, hdm, if_neg hmone, hmm]
      refine ⟨_, congrArg some (Prod.ext (Fl.ext ?_) rfl), ?_⟩
      · change |-(1:ℝ)| = 1; norm_num
      · intro i hi j hj
        interval_cases i <;> interval_cases j <;> simp [e00, e01, e10, e11]
  · rw [if_neg hs]
    obtain ⟨L, hL, hLu⟩ := cholesky_unit m (AAT_L n J ret) (AAT_unit h ret) m 0 ret' (by omega) (fun c hc => absurd hc (Nat.not_lt_zero c))
    obtain ⟨h1, h2⟩ := invL_unit m L hLu
    refine ⟨ATBT m J (LTL m (invL m L).2), ?_, fun i _ j hj => ATBT_unit m _ _ (fun i hi j hj => LTL_unit m _ h2 i j hi hj) i j hj⟩
    rw [spdInvA, cholesky_L, hL, Option.map_some, Option.map_some, h1]

/-- `global` and `local` of a geometry whose Jacobian has unit rows -/
theorem unit_global {m n : Nat} {J : Mat (Fl φ)} {p : Nat → Nat} (h : UnitRows m n J p) (o x : Nat → Fl φ) (c : Nat) (hc : c < n) :
    (∀ r < m, c = p r → o c = 0 → affineGlobal m o J x c = x r) ∧ ((∀ r < m, c ≠ p r) → affineGlobal m o J x c = o c) := by
  refine ⟨fun r hr hcr hoc => ?_, fun hne => ?_⟩
  · refine Eq.trans (foldl_single (fun i => J i c * x i) r _ _ (mem_loop.2 ⟨Nat.zero_le _, hr⟩) List.nodup_range' ?_) ?_
    · intro k hk hkr
      have hk' := (mem_loop.1 hk).2
      rw [h.entry k hk' c hc, if_neg (fun e => hkr (h.inj k hk' r hr (e.symm.trans hcr))), Fl.zero_mul]
    · rw [h.entry r hr c hc, if_pos hcr, Fl.one_mul, hoc, Fl.zero_add]
  · refine foldl_add_zero (fun i => J i c * x i) _ _ fun k hk => ?_
    have hk' := (mem_loop.1 hk).2
    rw [h.entry k hk' c hc, if_neg (hne k hk'), Fl.zero_mul]

theorem unit_local {m n : Nat} {J inv : Mat (Fl φ)} {p : Nat → Nat} (h : UnitRows m n J p) (hinv : ∀ i < n, ∀ j < m, inv i j = J j i)
    (o y : Nat → Fl φ) (ho : ∀ r < m, o (p r) = 0) (j : Nat) (hj : j < m) : addLoop 0 0 n (fun i => inv i j * (y i - o i)) = y (p j) := by
  rw [addLoop_single _ _ _ (p j) _ (Nat.zero_le _) (h.lt j hj), hinv _ (h.lt j hj) j hj, h.entry j hj _ (h.lt j hj), if_pos rfl, ho j hj, Fl.sub_zero,
    Fl.one_mul, Fl.zero_add]
  intro k _ hk hne
  rw [hinv k hk j hj, h.entry j hj k hk, if_neg hne, Fl.zero_mul]

end Verif.FloatEmbed
