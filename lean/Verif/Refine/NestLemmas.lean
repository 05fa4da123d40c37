import Verif.Refine.TileProps

/-! Helper lemmas for C81: an element `K` of the refinement with `n` intervals and an element `e` of the refinement with
`m` intervals give an element of the refinement with `n * m` intervals that lies in `K`. -/

namespace Verif.Refine

open Function Finset
open Equiv (Perm)

variable {K : Type} [Field K] [LinearOrder K] [IsStrictOrderedRing K]

/-- where the origin is constant, the order of the axes is kept -/
theorem insideQ_lt {d : Nat} {o : Nat → Nat} {q : Perm Nat} (h1 : Decreasing d o) (h2 : InsideQ d o q) {a b : Nat} (hab : a < b)
    (hb : b < d) (he : o a = o b) : q.symm a < q.symm b := by
  induction b with
  | zero => omega
  | succ b ih =>
    have e1 := h1 b hb
    rcases Nat.lt_or_eq_of_le (Nat.le_of_lt_succ hab) with h | h
    · have e2 := decreasing_le h1 h.le (by omega : b < d)
      have := ih h (by omega) (by omega)
      rcases h2 b hb with h3 | h3
      · omega
      · omega
    · subst h
      rcases h2 a hb with h3 | h3
      · omega
      · exact h3

theorem compose_sub {d n m : Nat} (hd : 0 < d) {O o : Nat → Nat} {Q q : Perm Nat} (hQ : ∀ k, d ≤ k → Q k = k) (hq : ∀ k, d ≤ k → q k = k)
    (H : SubSimplex d n O Q) (h : SubSimplex d m o q) :
    SubSimplex d (n * m) (fun j => o (Q.symm j) + m * O j) (q.trans Q) := by
  obtain ⟨H1, H2, H3⟩ := (subSimplex_iff d n hd Q hQ O).1 H
  obtain ⟨h1, h2, h3⟩ := (subSimplex_iff d m hd q hq o).1 h
  have hm : ∀ j, j < d → o (Q.symm j) + 1 ≤ m := by
    intro j hj
    have := decreasing_le h1 (Nat.zero_le (Q.symm j)) (symm_lt hQ hj)
    omega
  have hqQ : ∀ k, d ≤ k → (q.trans Q) k = k := by
    intro k hk
    rw [Equiv.trans_apply, hq k hk, hQ k hk]
  have key : ∀ j, j + 1 < d → (o (Q.symm (j + 1)) + m * O (j + 1) < o (Q.symm j) + m * O j) ∨
      (o (Q.symm (j + 1)) + m * O (j + 1) = o (Q.symm j) + m * O j ∧ (q.trans Q).symm j < (q.trans Q).symm (j + 1)) := by
    intro j hj
    rcases Nat.lt_or_eq_of_le (H1 j hj) with h4 | h4
    · left
      have e1 := hm (j + 1) hj
      have e2 : m * O (j + 1) + m ≤ m * O j := by
        calc m * O (j + 1) + m = m * (O (j + 1) + 1) := by ring
          _ ≤ m * O j := Nat.mul_le_mul_left _ h4
      omega
    · have h5 : Q.symm j < Q.symm (j + 1) := by
        rcases H2 j hj with h5 | h5
        · omega
        · exact h5
      have h6 := decreasing_le h1 h5.le (symm_lt hQ hj)
      rw [h4]
      rcases Nat.lt_or_eq_of_le h6 with h7 | h7
      · left; omega
      · right
        refine ⟨by omega, ?_⟩
        change q.symm (Q.symm j) < q.symm (Q.symm (j + 1))
        exact insideQ_lt h1 h2 h5 (symm_lt hQ hj) h7.symm
  refine (subSimplex_iff d (n * m) hd _ hqQ _).2 ⟨fun j hj => ?_, fun j hj => ?_, ?_⟩
  · rcases key j hj with h4 | h4
    · exact h4.le
    · exact h4.1.le
  · rcases key j hj with h4 | h4
    · exact Or.inl h4
    · exact Or.inr h4.2
  · have e1 := hm 0 hd
    calc o (Q.symm 0) + m * O 0 < m + m * O 0 := by omega
      _ = m * (O 0 + 1) := by ring
      _ ≤ m * n := Nat.mul_le_mul_left _ H3
      _ = n * m := Nat.mul_comm _ _

/-- what ties element `k` of the refinement with `n * m` intervals to `a` of that with `n` and `e` of that with `m` -/
def Fine (d n m a e k : Nat) : Prop :=
  ∃ itA itE it, ∃ Q q : Perm Nat, eAt d n a = some itA ∧ eAt d m e = some itE ∧ eAt d (n * m) k = some it ∧
    (∀ j, d ≤ j → Q j = j) ∧ (∀ j, d ≤ j → q j = j) ∧ itA.kuhnIndex < d.factorial ∧ itE.kuhnIndex < d.factorial ∧
    getPermutation d itA.kuhnIndex = some ⇑Q ∧ getPermutation d itE.kuhnIndex = some ⇑q ∧
    getPermutation d it.kuhnIndex = some ⇑(q.trans Q) ∧
    itA.size = n ∧ itE.size = m ∧ it.size = n * m ∧ SubSimplex d n itA.origin Q ∧ SubSimplex d m itE.origin q ∧
    ∀ j, j < d → it.origin j = itE.origin (Q.symm j) + m * itA.origin j

theorem exists_fine (d n m : Nat) (hd : 0 < d) (a e : Nat) (ha : a < nElements d n) (he : e < nElements d m) :
    ∃ k, k < nElements d (n * m) ∧ Fine d n m a e k := by
  obtain ⟨itA, Q, a1, a2, a3, a4, a5, a6, a7⟩ := elem d n hd a ha
  obtain ⟨itE, q, b1, b2, b3, b4, b5, b6, b7⟩ := elem d m hd e he
  have hqQ : ∀ k, d ≤ k → (q.trans Q) k = k := by
    intro k hk
    rw [Equiv.trans_apply, b4 k hk, a4 k hk]
  obtain ⟨σ, hσ⟩ := restrict d (q.trans Q) hqQ
  obtain ⟨k, ⟨hk, it, p', c1, c2, c3, c4⟩, -⟩ := C41_once d (n * m) hd _ (q.trans Q) σ (fun i => (hσ i).symm) (compose_sub hd a4 b4 a7 b7)
  obtain ⟨it', p, d1, d2, d3, d4, d5, d6, d7⟩ := elem d (n * m) hd k hk
  obtain rfl := Option.some.inj (c1.symm.trans d1)
  obtain rfl := Option.some.inj (c2.symm.trans d6)
  have hp : p = q.trans Q := Equiv.ext fun i => by
    by_cases hi : i < d
    · exact c4 i hi
    · rw [d4 i (by omega), hqQ i (by omega)]
  exact ⟨k, hk, itA, itE, it, Q, q, a1, b1, c1, a4, b4, a5, b5, a6, b6, by rw [d6, hp], a2, b2, d2, a7, b7, c3⟩

/-- element `k` is contained in element `a` -/
theorem fine_inside {d n m a e k : Nat} (hd : 0 < d) (he : e < nElements d m) (h : Fine d n m a e k) (z : Nat → K) (hz : InSimplex d z) :
    ∃ itA it Z y Y, eAt d n a = some itA ∧ eAt d (n * m) k = some it ∧ InSimplex d Z ∧ (InnerSimplex d z → InnerSimplex d Z) ∧
      it.global d z = some y ∧ itA.global d Z = some Y ∧ ∀ i, i < d → y i = Y i := by
  obtain ⟨itA, itE, it, Q, q, h1, h2, h3, h4, h5, h6, h6', h7, h8, h9, h10, h11, h12, h13, h14, h15⟩ := h
  have hqQ : ∀ k, d ≤ k → (q.trans Q) k = k := by
    intro k hk
    rw [Equiv.trans_apply, h5 k hk, h4 k hk]
  have hm0 : itE.origin 0 < m := ((subSimplex_iff d m hd q h5 _).1 h14).2.2
  have hn0 : itA.origin 0 < n := ((subSimplex_iff d n hd Q h4 _).1 h13).2.2
  have hm : (0 : K) < m := Nat.cast_pos.2 (by omega)
  have hn : (0 : K) < n := Nat.cast_pos.2 (by omega)
  set r := referenceToKuhn d z (q.trans Q) with hr
  let s : Nat → K := fun i => r (Q i)
  have hrk : InKuhn d (q.trans Q) r := (inKuhn_iff d (q.trans Q) hqQ z).2 hz
  have hs : InKuhn d q s := hrk
  let z' := kuhnToReference d s q
  have hz' : InSimplex d z' := ((C59_image d _ q h6' h8).2 s).2 hs
  have hsz : referenceToKuhn d z' q = s := (C59_inverse d _ q h6' h8 s).2
  obtain ⟨itE', w, e1, e2, e3⟩ := C60_inside d m e hd he z' hz'
  obtain rfl := Option.some.inj (e1.symm.trans h2)
  rw [global_eq d itE' q h8, hsz, h11] at e2
  obtain rfl := Option.some.inj e2
  rw [diff_simplex] at e3
  let u : Nat → K := fun j => (s (Q.symm j) + itE'.origin (Q.symm j)) / m
  have hu : InKuhn d Q u := by
    refine ⟨fun j hj => ?_, fun j hj => ?_⟩
    · have := e3.1 j hj
      simpa [u] using this
    · have := e3.2 j hj
      simpa [u] using this
  have huR : referenceToKuhn d (kuhnToReference d u Q) Q = u := (C59_inverse d _ Q h6 h7 u).2
  refine ⟨itA, it, kuhnToReference d u Q, _, _, h1, h3, ((C59_image d _ Q h6 h7).2 u).2 hu, fun hin => ?_,
    global_eq d it _ h9 z, global_eq d itA Q h7 _, fun i hi => ?_⟩
  · -- strictness
    obtain ⟨g1, g2⟩ := inner_strict hqQ hin
    obtain ⟨f1, f2, -⟩ := (subSimplex_iff d m hd q h5 _).1 h14
    have hs1 : ∀ i, i < d → 0 < s i ∧ s i < 1 := fun i hi => g2 _ (perm_lt h4 hi)
    have hdec : ∀ j, j + 1 < d → u (Q (j + 1)) < u (Q j) := by
      intro j hj
      simp only [u, Equiv.symm_apply_apply]
      refine div_lt_div_of_pos_right ?_ hm
      rcases f2 j hj with h | h
      · have e1 := (hs1 j (by omega)).1
        have e2 := (hs1 (j + 1) hj).2
        have e3 : (itE'.origin (j + 1) : K) + 1 ≤ itE'.origin j := by exact_mod_cast h
        linarith
      · have e1 := g1 _ _ h (symm_lt h5 hj)
        simp only [Equiv.trans_apply, Equiv.apply_symm_apply] at e1
        have e2 : (itE'.origin (j + 1) : K) ≤ itE'.origin j := by exact_mod_cast f1 j hj
        change r (Q (j + 1)) + _ < r (Q j) + _
        linarith
    have hbd : ∀ j, j < d → 0 < u (Q j) ∧ u (Q j) < 1 := by
      intro j hj
      simp only [u, Equiv.symm_apply_apply]
      have e1 := hs1 j hj
      have e2 := decreasing_le f1 (Nat.zero_le j) hj
      have e3 : (itE'.origin j : K) + 1 ≤ m := by exact_mod_cast (show itE'.origin j + 1 ≤ m by omega)
      refine ⟨div_pos (add_pos_of_pos_of_nonneg e1.1 (Nat.cast_nonneg _)) hm, ?_⟩
      rw [div_lt_one hm]; linarith
    have hZ : ∀ j, kuhnToReference d u Q (Q j) = if j + 1 < d then u (Q j) - u (Q (j + 1)) else u (Q j) := kuhnToReference_eq d Q u
    refine ⟨fun i hi => ?_, ?_⟩
    · rw [← Equiv.apply_symm_apply Q i, hZ]
      have hj := symm_lt h4 hi
      split
      · rename_i h'; exact sub_pos.2 (hdec _ h')
      · exact (hbd _ hj).1
    · have e1 := referenceToKuhn_eq d Q (kuhnToReference d u Q) 0 hd
      rw [huR, ← range_eq_Ico, sum_perm d Q h4] at e1
      rw [← e1]
      exact (hbd 0 hd).2
  · rw [huR, h10, h12]
    refine diff_congr (fun j hj => ?_) i hi
    have e1 : s (Q.symm j) = r j := by simp [s]
    simp only [u]
    rw [e1, h15 j hj, Nat.cast_add, Nat.cast_mul, Nat.cast_mul]
    field_simp
    ring

end Verif.Refine
