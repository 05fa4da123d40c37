import Verif.Refine.TriangLemmas

/-! Properties C44, C58, C60 for the refinements of cubes, prisms and pyramids into simplices. -/

namespace Verif.Refine.Triang

open Function Finset
open Equiv (Perm)

/-! ### specification -/

section
variable {K : Type} (s : Scheme K)

/-- the iterator after `k` increments, starting with `vBegin` -/
def vAt (n : Nat) : Nat → Option VIterator
  | 0 => some (vBegin n)
  | k + 1 => (vAt n k).bind (VIterator.increment s)

/-- the iterator after `k` increments, starting with `eBegin` -/
def eAt (n : Nat) : Nat → Option EIterator
  | 0 => some (eBegin n)
  | k + 1 => (eAt n k).bind (EIterator.increment s)
end

section
variable {K : Type} [Field K] [LinearOrder K]

/-- the reference cube -/
def InCube (d : Nat) (x : Nat → K) : Prop := ∀ i, i < d → 0 ≤ x i ∧ x i ≤ 1

/-- the reference prism: triangle times interval -/
def InPrism (x : Nat → K) : Prop := 0 ≤ x 0 ∧ 0 ≤ x 1 ∧ x 0 + x 1 ≤ 1 ∧ 0 ≤ x 2 ∧ x 2 ≤ 1

/-- the reference pyramid: square basis, tip above the origin -/
def InPyramid (x : Nat → K) : Prop := 0 ≤ x 0 ∧ 0 ≤ x 1 ∧ 0 ≤ x 2 ∧ x 0 + x 2 ≤ 1 ∧ x 1 + x 2 ≤ 1

/-- what a triangulation scheme of the body `dom` has to satisfy: the Kuhn simplices used are different simplices, the
transformation is affine and injective and maps the Kuhn simplices into `dom`, together they cover `dom` -/
structure Fits (s : Scheme K) (dom : (Nat → K) → Prop) : Prop where
  pos : 0 < s.dimension
  perm_lt : ∀ κ, κ < s.nKuhnSimplices → s.permutation κ < s.dimension.factorial
  perm_inj : ∀ κ κ', κ < s.nKuhnSimplices → κ' < s.nKuhnSimplices → s.permutation κ = s.permutation κ' → κ = κ'
  congr : ∀ x y : Nat → K, (∀ i, i < s.dimension → x i = y i) → ∀ i, i < s.dimension → s.transform x i = s.transform y i
  inj : ∀ x y : Nat → K, (∀ i, i < s.dimension → s.transform x i = s.transform y i) → ∀ i, i < s.dimension → x i = y i
  affine : ∀ (c : Nat → Nat → K) (z : Nat → K) (i : Nat), i < s.dimension →
    s.transform (interp s.dimension c z) i = interp s.dimension (fun l => s.transform (c l)) z i
  into : ∀ κ p y, κ < s.nKuhnSimplices → getPermutation s.dimension (s.permutation κ) = some p → InKuhn s.dimension p y →
    dom (s.transform y)
  onto : ∀ x, dom x → ∃ κ p y, κ < s.nKuhnSimplices ∧ getPermutation s.dimension (s.permutation κ) = some p ∧
    InKuhn s.dimension p y ∧ ∀ i, i < s.dimension → s.transform y i = x i

end

/-! ### C44: enumeration -/

section
variable {K : Type} (s : Scheme K)

theorem vAt_eq (hd : 0 < s.dimension) (n k : Nat) :
    ∃ b, Refine.vAt s.dimension n (k % Refine.nVertices s.dimension n) = some b ∧
      vAt s n k = some ⟨n, k / Refine.nVertices s.dimension n, b⟩ := by
  have hN : 0 < Refine.nVertices s.dimension n := Nat.choose_pos (by omega)
  set N := Refine.nVertices s.dimension n with hNdef
  induction k with
  | zero => exact ⟨_, by rw [Nat.zero_mod]; rfl, by rw [Nat.zero_div]; rfl⟩
  | succ k ih =>
    obtain ⟨b, h1, h2⟩ := ih
    have hlt := Nat.mod_lt k hN
    obtain ⟨b', h3, -⟩ := C40_index s.dimension n hd (k % N + 1) (by omega)
    have h4 := C40_end s.dimension n hd (k % N + 1) (by omega) b' h3
    have h5 := h3
    rw [Refine.vAt, h1, Option.bind_some] at h5
    rw [vAt, h2, Option.bind_some, VIterator.increment, h5, Option.map_some]
    by_cases hlast : k % N + 1 = N
    · refine ⟨Refine.vBegin n, ?_, ?_⟩
      · rw [Nat.add_mod, show k % N + 1 % N = k % N + 1 % N from rfl, ← Nat.add_mod, ← Nat.mod_add_mod, hlast, Nat.mod_self]; rfl
      · rw [if_pos (h4.2 hlast)]
        have : (k + 1) / N = k / N + 1 := by
          conv_lhs => rw [← Nat.div_add_mod k N, Nat.add_assoc, hlast, Nat.mul_add_div hN, Nat.div_self hN]
        rw [this]
    · have hlt2 : k % N + 1 < N := by omega
      refine ⟨b', ?_, ?_⟩
      · rw [← Nat.mod_add_mod, Nat.mod_eq_of_lt hlt2]; exact h3
      · rw [if_neg fun h => hlast (h4.1 h)]
        have : (k + 1) / N = k / N := by
          conv_lhs => rw [← Nat.div_add_mod k N, Nat.add_assoc, Nat.mul_add_div hN, Nat.div_eq_of_lt hlt2]
          rw [Nat.add_zero]
        rw [this]

/-- C44: vertices are numbered consecutively -/
theorem C44_vertex_index (hd : 0 < s.dimension) (n k : Nat) : ∃ it, vAt s n k = some it ∧ it.index s = k := by
  obtain ⟨b, h1, h2⟩ := vAt_eq s hd n k
  have hN : 0 < Refine.nVertices s.dimension n := Nat.choose_pos (by omega)
  obtain ⟨b', h3, h4⟩ := C40_index s.dimension n hd _ (Nat.mod_lt k hN).le
  obtain rfl := Option.some.inj (h1.symm.trans h3)
  refine ⟨_, h2, ?_⟩
  rw [VIterator.index, h4, Nat.mul_comm]
  exact Nat.div_add_mod k _

/-- C44: the loop from `vBegin` to `vEnd` makes exactly `nVertices()` passes -/
theorem C44_vertex_end (hd : 0 < s.dimension) (n k : Nat) (it : VIterator) (h : vAt s n k = some it) :
    it.equals s (vEnd s n) ↔ k = nVertices s n := by
  obtain ⟨b, h1, h2⟩ := vAt_eq s hd n k
  have hN : 0 < Refine.nVertices s.dimension n := Nat.choose_pos (by omega)
  obtain rfl := Option.some.inj (h.symm.trans h2)
  obtain ⟨b', h3, h4⟩ := C40_index s.dimension n hd _ (Nat.mod_lt k hN).le
  obtain rfl := Option.some.inj (h1.symm.trans h3)
  rw [nVertices]
  constructor
  · rintro ⟨e1, e2, e3⟩
    simp only [vEnd] at e1 e3
    have : b.index s.dimension = 0 := by
      rw [VertexIterator.index, pointIndex_eq, tailIndex_congr (w := fun _ => 0) fun j _ hj => e3 j (by omega), ← pointIndex_eq,
        pointIndex_zero]
    rw [← Nat.div_add_mod k (Refine.nVertices s.dimension n), e1, ← h4, this, Nat.add_zero]
  · intro hk
    have hz : k % Refine.nVertices s.dimension n = 0 := by rw [hk, Nat.mul_mod_right]
    rw [hz] at h1
    obtain rfl := Option.some.inj h1
    refine ⟨?_, rfl, fun _ _ => rfl⟩
    simp only [vEnd]
    rw [hk, Nat.mul_div_cancel_left _ hN]

theorem eAt_eq (hd : 0 < s.dimension) (n : Nat) (hn : 0 < n) (k : Nat) :
    ∃ b, Refine.eAt s.dimension n (k % Refine.nElements s.dimension n) = some b ∧
      eAt s n k = some ⟨n, k / Refine.nElements s.dimension n, b⟩ := by
  have hN : 0 < Refine.nElements s.dimension n := pow_pos hn _
  set N := Refine.nElements s.dimension n with hNdef
  induction k with
  | zero => exact ⟨_, by rw [Nat.zero_mod]; rfl, by rw [Nat.zero_div]; rfl⟩
  | succ k ih =>
    obtain ⟨b, h1, h2⟩ := ih
    have hlt := Nat.mod_lt k hN
    obtain ⟨b', h3, -⟩ := C41_index s.dimension n hd (k % N + 1) (by omega)
    have h4 := C41_end s.dimension n hd (k % N + 1) (by omega) b' h3
    have h5 := h3
    rw [Refine.eAt, h1, Option.bind_some] at h5
    rw [eAt, h2, Option.bind_some, EIterator.increment, h5, Option.map_some]
    by_cases hlast : k % N + 1 = N
    · refine ⟨Refine.eBegin n, ?_, ?_⟩
      · rw [← Nat.mod_add_mod, hlast, Nat.mod_self]; rfl
      · rw [if_pos (h4.2 hlast)]
        have : (k + 1) / N = k / N + 1 := by
          conv_lhs => rw [← Nat.div_add_mod k N, Nat.add_assoc, hlast, Nat.mul_add_div hN, Nat.div_self hN]
        rw [this]
    · have hlt2 : k % N + 1 < N := by omega
      refine ⟨b', ?_, ?_⟩
      · rw [← Nat.mod_add_mod, Nat.mod_eq_of_lt hlt2]; exact h3
      · rw [if_neg fun h => hlast (h4.1 h)]
        have : (k + 1) / N = k / N := by
          conv_lhs => rw [← Nat.div_add_mod k N, Nat.add_assoc, Nat.mul_add_div hN, Nat.div_eq_of_lt hlt2]
          rw [Nat.add_zero]
        rw [this]

/-- C44: elements are numbered consecutively -/
theorem C44_element_index (hd : 0 < s.dimension) (n : Nat) (hn : 0 < n) (k : Nat) : ∃ it, eAt s n k = some it ∧ it.index s = k := by
  obtain ⟨b, h1, h2⟩ := eAt_eq s hd n hn k
  have hN : 0 < Refine.nElements s.dimension n := pow_pos hn _
  obtain ⟨b', h3, h4, _⟩ := C41_index s.dimension n hd _ (Nat.mod_lt k hN).le
  obtain rfl := Option.some.inj (h1.symm.trans h3)
  refine ⟨_, h2, ?_⟩
  rw [EIterator.index, h4, Nat.mul_comm]
  exact Nat.div_add_mod k _

/-- the full claim on the end of the element loop, for all numbers of intervals -/
def C44_element_end_full : Prop := ∀ n k it, eAt s n k = some it → (it.equals (eEnd s n) ↔ k = nElements s n)

/-- C44: the loop from `eBegin` to `eEnd` makes exactly `nElements()` passes, for at least one interval.  (Missing: zero
intervals, see `C44_element_end_counterexample`.) -/
theorem C44_element_end_partial (hd : 0 < s.dimension) (n : Nat) (hn : 0 < n) (k : Nat) (it : EIterator) (h : eAt s n k = some it) :
    it.equals (eEnd s n) ↔ k = nElements s n := by
  obtain ⟨b, h1, h2⟩ := eAt_eq s hd n hn k
  have hN : 0 < Refine.nElements s.dimension n := pow_pos hn _
  obtain rfl := Option.some.inj (h.symm.trans h2)
  obtain ⟨b', h3, h4, h5⟩ := C41_index s.dimension n hd _ (Nat.mod_lt k hN).le
  obtain rfl := Option.some.inj (h1.symm.trans h3)
  rw [nElements]
  constructor
  · rintro ⟨e1, e2, e3⟩
    simp only [eEnd, Refine.eBegin] at e1 e3
    have e4 : b.index_ = k % Refine.nElements s.dimension n := h4
    rw [← Nat.div_add_mod k (Refine.nElements s.dimension n), e1, ← e4, e3, Nat.add_zero]
  · intro hk
    have hz : k % Refine.nElements s.dimension n = 0 := by rw [hk, Nat.mul_mod_right]
    rw [hz] at h1
    obtain rfl := Option.some.inj h1
    refine ⟨?_, rfl, rfl⟩
    simp only [eEnd]
    rw [hk, Nat.mul_div_cancel_left _ hN]

/-- with zero intervals the element loop has zero elements, but `eBegin() != eEnd()` and the first increment trips the assertion of
the backend -/
theorem C44_element_end_counterexample (hd : 0 < s.dimension) (hs : 0 < s.nKuhnSimplices) :
    ¬ C44_element_end_full s ∧ nElements s 0 = 0 ∧ eAt s 0 1 = none := by
  have hz : nElements s 0 = 0 := by rw [nElements, Refine.nElements, zero_pow (by omega), Nat.zero_mul]
  refine ⟨fun h => ?_, hz, rfl⟩
  have h1 := (h 0 0 _ rfl).2 hz.symm
  have h2 : 0 = s.nKuhnSimplices := h1.1
  omega

end

/-! ### the three schemes -/

section
variable {K : Type} [Field K] [LinearOrder K] [IsStrictOrderedRing K]

/-- C44: the `d!` Kuhn simplices triangulate the cube -/
theorem C44_cube_scheme (d : Nat) (hd : 0 < d) : Fits (hcube d : Scheme K) (InCube d) where
  pos := hd
  perm_lt := fun κ h => h
  perm_inj := fun κ κ' _ _ h => h
  congr := fun x y h => h
  inj := fun x y h => h
  affine := fun c z i _ => rfl
  into := by
    intro κ p y hκ hp hy
    obtain ⟨q, h1, h2⟩ := getPermutation_perm d κ hκ
    obtain rfl := Option.some.inj (hp.symm.trans h2)
    exact fun i hi => kuhn_bounds h1 hy i hi
  onto := by
    intro x hx
    obtain ⟨κ, p, h1, h2, h3, _⟩ := kuhn_cover d x hx
    exact ⟨κ, p, x, h1, h2, h3, fun _ _ => rfl⟩

/-- the permutations in which 0 comes before 1 -/
theorem prism_perm : ∀ κ : Fin 6, ∀ a b : Fin 3, a < b →
    (getPermutation 3 κ).map (fun p => (p a, p b)) = some (0, 1) → (κ : Nat) = 0 ∨ (κ : Nat) = 2 ∨ (κ : Nat) = 3 := by decide +kernel

theorem prism_perm' : ∀ κ, κ < 3 → ∃ a, a < 3 ∧ ∃ b, b < 3 ∧ a < b ∧
    (getPermutation 3 ((κ + 2) % 4)).map (fun p => (p a, p b)) = some (0, 1) := by decide +kernel

/-- the permutations with 2 in the last place -/
theorem pyramid_perm : ∀ κ : Fin 6, ∀ a b a' b' : Fin 3, a < b → a' < b' →
    (getPermutation 3 κ).map (fun p => (p a, p b, p a', p b')) = some (0, 2, 1, 2) → (κ : Nat) < 2 := by decide +kernel

theorem pyramid_perm' : ∀ κ, κ < 2 → ∃ a, a < 3 ∧ ∃ a', a' < 3 ∧ a < 2 ∧ a' < 2 ∧
    (getPermutation 3 κ).map (fun p => (p a, p a', p 2)) = some (0, 1, 2) := by decide +kernel

theorem forall_lt_three {P : Nat → Prop} : (∀ i, i < 3 → P i) ↔ P 0 ∧ P 1 ∧ P 2 := by
  constructor
  · intro h; exact ⟨h 0 (by omega), h 1 (by omega), h 2 (by omega)⟩
  · rintro ⟨h0, h1, h2⟩ i hi
    obtain rfl | rfl | rfl : i = 0 ∨ i = 1 ∨ i = 2 := by omega
    · exact h0
    · exact h1
    · exact h2

/-- C44: three of the six Kuhn simplices triangulate the prism -/
theorem C44_prism_scheme : Fits (prism : Scheme K) InPrism where
  pos := show 0 < 3 by decide
  perm_lt := show ∀ κ, κ < 3 → (κ + 2) % 4 < Nat.factorial 3 by decide
  perm_inj := by
    intro κ κ' h h' he
    simp only [prism] at h h' he
    omega
  congr := by
    intro x y h
    simp only [prism] at h ⊢
    rw [forall_lt_three] at h ⊢
    simp only [prismTransform, h.1, h.2.1, h.2.2, and_self]
  inj := by
    intro x y h
    simp only [prism] at h ⊢
    rw [forall_lt_three] at h ⊢
    simp only [prismTransform, sub_right_inj] at h
    exact ⟨h.2.1, h.1, h.2.2⟩
  affine := by
    intro c z
    simp only [prism]
    rw [forall_lt_three]
    exact ⟨rfl, interp_const_sub 3 1 c z 1 0, rfl⟩
  into := by
    intro κ p y hκ hp hy
    simp only [prism] at hκ hp hy
    obtain ⟨q, h1, h2⟩ := getPermutation_perm 3 ((κ + 2) % 4) (by have : Nat.factorial 3 = 6 := rfl; omega)
    obtain rfl := Option.some.inj (hp.symm.trans h2)
    obtain ⟨a, ha, b, hb, hab, h3⟩ := prism_perm' κ hκ
    rw [hp, Option.map_some, Option.some.injEq, Prod.mk.injEq] at h3
    have h4 := antitone_of_kuhn hy hab.le hb
    rw [h3.1, h3.2] at h4
    have hb := kuhn_bounds h1 hy
    obtain ⟨b0, b1, b2⟩ := forall_lt_three.1 hb
    simp only [InPrism, prism, prismTransform]
    exact ⟨b1.1, by linarith [b0.2], by linarith, b2.1, b2.2⟩
  onto := by
    rintro x ⟨h0, h1, h01, h2, h2'⟩
    let y : Nat → K := fun i => match i with
      | 0 => 1 - x 1
      | 1 => x 0
      | _ => x 2
    have hy : ∀ i, i < 3 → 0 ≤ y i ∧ y i ≤ 1 := by
      rw [forall_lt_three]
      exact ⟨⟨by simp only [y]; linarith, by simp only [y]; linarith⟩, ⟨h0, by simp only [y]; linarith⟩, h2, h2'⟩
    obtain ⟨κ, p, hκ, hp, hk, ho⟩ := kuhn_cover 3 y hy
    obtain ⟨a, b, hab, hb, e1, e2⟩ := ho 0 1 (by omega) (by omega) (by simp only [y]; linarith)
    have h3 := prism_perm ⟨κ, hκ⟩ ⟨a, by omega⟩ ⟨b, hb⟩ hab (by simp only; rw [hp, Option.map_some, e1, e2])
    simp only at h3
    obtain ⟨κ', hκ', hp'⟩ : ∃ κ', κ' < 3 ∧ (κ' + 2) % 4 = κ := by
      rcases h3 with h | h | h
      · exact ⟨2, by omega, by omega⟩
      · exact ⟨0, by omega, by omega⟩
      · exact ⟨1, by omega, by omega⟩
    refine ⟨κ', p, y, hκ', by simp only [prism]; rw [hp', hp], hk, ?_⟩
    simp only [prism]
    rw [forall_lt_three]
    exact ⟨rfl, sub_sub_cancel 1 (x 1), rfl⟩

/-- C44: two of the six Kuhn simplices triangulate the pyramid -/
theorem C44_pyramid_scheme : Fits (pyramid : Scheme K) InPyramid where
  pos := show 0 < 3 by decide
  perm_lt := show ∀ κ, κ < 2 → κ < Nat.factorial 3 by decide
  perm_inj := fun κ κ' _ _ h => h
  congr := by
    intro x y h
    simp only [pyramid] at h ⊢
    rw [forall_lt_three] at h ⊢
    simp only [pyramidTransform, h.1, h.2.1, h.2.2, and_self]
  inj := by
    intro x y h
    simp only [pyramid] at h ⊢
    rw [forall_lt_three] at h ⊢
    simp only [pyramidTransform, sub_right_inj] at h
    exact h
  affine := by
    intro c z
    simp only [pyramid]
    rw [forall_lt_three]
    exact ⟨interp_const_sub 3 1 c z 0 0, interp_const_sub 3 1 c z 1 1, rfl⟩
  into := by
    intro κ p y hκ hp hy
    simp only [pyramid] at hκ hp hy
    obtain ⟨q, h1, h2⟩ := getPermutation_perm 3 κ (by have : Nat.factorial 3 = 6 := rfl; omega)
    obtain rfl := Option.some.inj (hp.symm.trans h2)
    obtain ⟨a, ha, b, hb, hab, hab', h3⟩ := pyramid_perm' κ hκ
    rw [hp, Option.map_some, Option.some.injEq, Prod.mk.injEq, Prod.mk.injEq] at h3
    have h4 := antitone_of_kuhn hy hab.le (show 2 < 3 by omega)
    have h5 := antitone_of_kuhn hy hab'.le (show 2 < 3 by omega)
    rw [h3.1, h3.2.2] at h4
    rw [h3.2.1, h3.2.2] at h5
    have hb := kuhn_bounds h1 hy
    obtain ⟨b0, b1, b2⟩ := forall_lt_three.1 hb
    simp only [InPyramid, pyramid, pyramidTransform]
    exact ⟨by linarith [b0.2], by linarith [b1.2], b2.1, by linarith, by linarith⟩
  onto := by
    rintro x ⟨h0, h1, h2, h02, h12⟩
    let y : Nat → K := fun i => match i with
      | 0 => 1 - x 0
      | 1 => 1 - x 1
      | _ => x 2
    have hy : ∀ i, i < 3 → 0 ≤ y i ∧ y i ≤ 1 := by
      rw [forall_lt_three]
      refine ⟨⟨?_, ?_⟩, ⟨?_, ?_⟩, h2, ?_⟩ <;> simp only [y] <;> linarith
    obtain ⟨κ, p, hκ, hp, hk, ho⟩ := kuhn_cover 3 y hy
    obtain ⟨a, b, hab, hb, e1, e2⟩ := ho 0 2 (by omega) (by omega) (by simp only [y]; linarith)
    obtain ⟨a', b', hab', hb', e1', e2'⟩ := ho 1 2 (by omega) (by omega) (by simp only [y]; linarith)
    have h3 := pyramid_perm ⟨κ, hκ⟩ ⟨a, by omega⟩ ⟨b, hb⟩ ⟨a', by omega⟩ ⟨b', hb'⟩ hab hab' (by simp only; rw [hp, Option.map_some, e1, e2, e1', e2'])
    refine ⟨κ, p, y, h3, hp, hk, ?_⟩
    simp only [pyramid]
    rw [forall_lt_three]
    exact ⟨sub_sub_cancel 1 (x 0), sub_sub_cancel 1 (x 1), rfl⟩

/-! ### C44: vertices and elements -/

variable {s : Scheme K} {dom : (Nat → K) → Prop}

theorem kuhn_lt {a b k : Nat} (h : k < a * b) : 0 < a ∧ k / a < b ∧ k % a < a := by
  have ha : 0 < a := by
    rcases Nat.eq_zero_or_pos a with h0 | h0
    · rw [h0, Nat.zero_mul] at h; omega
    · exact h0
  exact ⟨ha, Nat.div_lt_of_lt_mul h, Nat.mod_lt _ ha⟩

theorem intervals_pos {d n : Nat} (hd : 0 < d) (h : 0 < Refine.nElements d n) : 0 < n := by
  rcases Nat.eq_zero_or_pos n with h0 | h0
  · rw [h0, Refine.nElements, zero_pow (by omega)] at h; omega
  · exact h0

/-- the data of the Kuhn simplex number `κ` -/
theorem Fits.kuhn (h : Fits s dom) (κ : Nat) (hκ : κ < s.nKuhnSimplices) : ∃ q : Perm Nat, (∀ k, s.dimension ≤ k → q k = k) ∧
    getPermutation s.dimension (s.permutation κ) = some ⇑q ∧ ∀ x, toKuhn s κ x = some (referenceToKuhn s.dimension x q) := by
  obtain ⟨q, h1, h2⟩ := getPermutation_perm s.dimension _ (h.perm_lt κ hκ)
  exact ⟨q, h1, h2, fun x => by rw [toKuhn, h2, Option.map_some]⟩

/-- C44: every vertex lies in the reference element -/
theorem C44_inside (h : Fits s dom) (n k : Nat) (hn : 0 < n) (hk : k < nVertices s n) :
    ∃ it x, vAt s n k = some it ∧ it.coords s = some x ∧ dom x := by
  obtain ⟨hN, h1, h2⟩ := kuhn_lt hk
  obtain ⟨b, h3, h4⟩ := vAt_eq s h.pos n k
  obtain ⟨q, h5, h6, h7⟩ := h.kuhn _ h1
  obtain ⟨b', x, p, h8, h9, h10, h11⟩ := C40_inside (K := K) s.dimension n h.pos _ h2
  obtain rfl := Option.some.inj (h3.symm.trans h8)
  refine ⟨_, s.transform (referenceToKuhn s.dimension x q), h4, ?_, h.into _ q _ h1 h6 ((inKuhn_iff _ q h5 x).2 ⟨fun i hi => ?_, ?_⟩)⟩
  · rw [VIterator.coords, h9]
    exact (congrArg (fun o => o.bind fun y => some (s.transform y)) (h7 x))
  · rw [h11 i hi]
    exact div_nonneg (Nat.cast_nonneg _) (Nat.cast_nonneg _)
  · rw [sum_congr rfl fun i hi => h11 i (mem_range.1 hi), ← sum_div, div_le_one (Nat.cast_pos.2 hn), ← Nat.cast_sum]
    exact_mod_cast h10

/-- C44: the vertices listed by `vertexIndices()` are, in some order, the corners of `geometry()` -/
theorem C44_vertexIndices (h : Fits s dom) (n k : Nat) (hk : k < nElements s n) :
    ∃ it idx corners, eAt s n k = some it ∧ it.vertexIndices s = some idx ∧ it.geometry s = some corners ∧
      corners.length = s.dimension + 1 ∧ ∃ f : Fin (s.dimension + 1) → Fin (s.dimension + 1), Bijective f ∧
        ∀ r : Fin (s.dimension + 1), idx r < nVertices s n ∧ ∃ v x c, vAt s n (idx r) = some v ∧ v.coords s = some x ∧
          corners[(f r : Nat)]? = some c ∧ ∀ i, i < s.dimension → x i = c i := by
  obtain ⟨hN, h1, h2⟩ := kuhn_lt hk
  have hn := intervals_pos h.pos hN
  obtain ⟨b, h3, h4⟩ := eAt_eq s h.pos n hn k
  obtain ⟨q, h5, h6, h7⟩ := h.kuhn _ h1
  obtain ⟨b', idx, corners, e1, e2, e3, e4, f, e5, e6⟩ := C42_set_partial (K := K) s.dimension n _ h.pos h2
  obtain rfl := Option.some.inj (h3.symm.trans e1)
  set κ := k / Refine.nElements s.dimension n with hκ
  have hg : ∀ x, (EIterator.global s ⟨n, κ, b⟩ x) = some (s.transform (referenceToKuhn s.dimension x q)) := fun x => by
    rw [EIterator.global, h7, Option.map_some]
  refine ⟨_, fun i => idx i + κ * Refine.nVertices s.dimension n, corners.map fun x => s.transform (referenceToKuhn s.dimension x q), h4, ?_, ?_,
    by rw [List.length_map, e4], f, e5, fun r => ?_⟩
  · rw [EIterator.vertexIndices, e2, Option.map_some]
  · rw [EIterator.geometry, e3, Option.bind_some]
    exact RefGeom.mapM_some _ _ _ fun x _ => hg x
  obtain ⟨e7, v, x, c, e8, e9, e10, e11⟩ := e6 r
  have hV : 0 < Refine.nVertices s.dimension n := by omega
  refine ⟨?_, ?_⟩
  · rw [nVertices]
    calc idx r + κ * Refine.nVertices s.dimension n < Refine.nVertices s.dimension n + κ * Refine.nVertices s.dimension n := by omega
      _ = Refine.nVertices s.dimension n * (κ + 1) := by ring
      _ ≤ _ := Nat.mul_le_mul_left _ h1
  · obtain ⟨v', f1, f2⟩ := vAt_eq s h.pos n (idx r + κ * Refine.nVertices s.dimension n)
    rw [Nat.add_mul_mod_self_right, Nat.mod_eq_of_lt e7] at f1
    obtain rfl := Option.some.inj (e8.symm.trans f1)
    rw [Nat.add_mul_div_right _ _ hV, Nat.div_eq_of_lt e7, Nat.zero_add] at f2
    refine ⟨_, s.transform (referenceToKuhn s.dimension x q), s.transform (referenceToKuhn s.dimension c q), f2, ?_, ?_, ?_⟩
    · rw [VIterator.coords, e9]
      exact (congrArg (fun o => o.bind fun y => some (s.transform y)) (h7 x))
    · rw [List.getElem?_map, e10, Option.map_some]
    · exact h.congr _ _ fun i hi => r2k_congr h5 e11 i hi

/-! ### C60 -/

/-- C60: the elements' corners, and the simplex they span, in terms of the backend -/
theorem elemT (h : Fits s dom) (n k : Nat) (hk : k < nElements s n) :
    ∃ it corners, ∃ c : Nat → Nat → K, ∃ q : Perm Nat, ∃ b, eAt s n k = some it ∧ it.geometry s = some corners ∧
      corners.length = s.dimension + 1 ∧ (∀ i, i ≤ s.dimension → corners[i]? = some (c i)) ∧
      (∀ k, s.dimension ≤ k → q k = k) ∧
      getPermutation s.dimension (s.permutation (k / Refine.nElements s.dimension n)) = some ⇑q ∧
      Refine.eAt s.dimension n (k % Refine.nElements s.dimension n) = some b ∧
      ∀ z, ∃ y, b.global s.dimension z = some y ∧
        ∀ i, i < s.dimension → interp s.dimension c z i = s.transform (referenceToKuhn s.dimension y q) i := by
  obtain ⟨hN, h1, h2⟩ := kuhn_lt hk
  have hn := intervals_pos h.pos hN
  obtain ⟨b, h3, h4⟩ := eAt_eq s h.pos n hn k
  obtain ⟨q, h5, h6, h7⟩ := h.kuhn _ h1
  obtain ⟨b', corners, c, e1, e2, e3, e4, e5⟩ := global_interp (K := K) s.dimension n _ h.pos h2
  obtain rfl := Option.some.inj (h3.symm.trans e1)
  set κ := k / Refine.nElements s.dimension n with hκ
  have hg : ∀ x, (EIterator.global s ⟨n, κ, b⟩ x) = some (s.transform (referenceToKuhn s.dimension x q)) := fun x => by
    rw [EIterator.global, h7, Option.map_some]
  refine ⟨_, corners.map fun x => s.transform (referenceToKuhn s.dimension x q),
    fun l => s.transform (referenceToKuhn s.dimension (c l) q), q, b, h4, ?_, by rw [List.length_map, e3], fun i hi => ?_, h5, h6, h3, fun z => ?_⟩
  · rw [EIterator.geometry, e2, Option.bind_some]
    exact RefGeom.mapM_some _ _ _ fun x _ => hg x
  · rw [List.getElem?_map, e4 i hi, Option.map_some]
  · obtain ⟨y, e6, e7⟩ := e5 z
    refine ⟨y, e6, fun i hi => ?_⟩
    rw [← h.affine _ _ i hi]
    refine h.congr _ _ (fun j hj => ?_) i hi
    rw [← r2k_interp h5 _ _ j hj]
    exact r2k_congr h5 (fun i hi => (e7 i hi).symm) j hj

/-- C60: the simplex spanned by the corners of `geometry()` of an element lies in the reference element -/
theorem C60_triang_inside (h : Fits s dom) (hdom : ∀ x y : Nat → K, (∀ i, i < s.dimension → x i = y i) → dom x → dom y) (n k : Nat)
    (hk : k < nElements s n) (z : Nat → K) (hz : InSimplex s.dimension z) :
    ∃ it corners, ∃ c : Nat → Nat → K, eAt s n k = some it ∧ it.geometry s = some corners ∧ corners.length = s.dimension + 1 ∧
      (∀ i, i ≤ s.dimension → corners[i]? = some (c i)) ∧ dom (interp s.dimension c z) := by
  obtain ⟨it, corners, c, q, b, h1, h2, h3, h4, h5, h6, h7, h8⟩ := elemT h n k hk
  obtain ⟨hN, e1, e2⟩ := kuhn_lt hk
  obtain ⟨y, h9, h10⟩ := h8 z
  obtain ⟨b', y', e3, e4, e5⟩ := C60_inside s.dimension n _ h.pos e2 z hz
  obtain rfl := Option.some.inj (h7.symm.trans e3)
  obtain rfl := Option.some.inj (h9.symm.trans e4)
  refine ⟨it, corners, c, h1, h2, h3, h4, hdom _ _ (fun i hi => (h10 i hi).symm) ?_⟩
  exact h.into _ q _ e1 h6 ((inKuhn_iff _ q h5 _).2 e5)

/-- C60: every point of the reference element lies in some element -/
theorem C60_triang_cover (h : Fits s dom) (n : Nat) (hn : 0 < n) (x : Nat → K) (hx : dom x) :
    ∃ k it corners, ∃ c : Nat → Nat → K, ∃ z, k < nElements s n ∧ eAt s n k = some it ∧ it.geometry s = some corners ∧
      (∀ i, i ≤ s.dimension → corners[i]? = some (c i)) ∧ InSimplex s.dimension z ∧
      ∀ i, i < s.dimension → interp s.dimension c z i = x i := by
  obtain ⟨κ, p, y, hκ, hp, hy, hT⟩ := h.onto x hx
  have hinv := (C59_inverse s.dimension _ p (h.perm_lt κ hκ) hp y).2
  have hs := ((C59_image s.dimension _ p (h.perm_lt κ hκ) hp).2 y).2 hy
  obtain ⟨e, b, z, w, h1, h2, h3, h4, h5⟩ := C60_cover s.dimension n h.pos hn _ hs
  set E := Refine.nElements s.dimension n with hE
  have hEpos : 0 < E := by omega
  have hk : E * κ + e < nElements s n := by
    rw [nElements, ← hE]
    calc E * κ + e < E * κ + E := by omega
      _ = E * (κ + 1) := by ring
      _ ≤ _ := Nat.mul_le_mul_left _ hκ
  obtain ⟨it, corners, c, q, b', f1, f2, f3, f4, f5, f6, f7, f8⟩ := elemT h n _ hk
  rw [← hE, Nat.mul_add_div hEpos, Nat.div_eq_of_lt h1, Nat.add_zero] at f6
  rw [← hE, Nat.mul_add_mod, Nat.mod_eq_of_lt h1] at f7
  obtain rfl := Option.some.inj (f7.symm.trans h2)
  obtain rfl := Option.some.inj (f6.symm.trans hp)
  obtain ⟨w', f9, f10⟩ := f8 z
  obtain rfl := Option.some.inj (f9.symm.trans h4)
  refine ⟨_, it, corners, c, z, hk, f1, f2, f4, h3, fun i hi => ?_⟩
  rw [f10 i hi, ← hT i hi]
  refine h.congr _ _ (fun j hj => ?_) i hi
  conv_rhs => rw [← hinv]
  exact r2k_congr f5 h5 j hj

/-- C60: a point in the interior of an element lies in no other element -/
theorem C60_triang_disjoint (h : Fits s dom) (n k k' : Nat) (hk : k < nElements s n) (hk' : k' < nElements s n)
    (it it' : EIterator) (hi : eAt s n k = some it) (hi' : eAt s n k' = some it') (corners corners' : List (Nat → K))
    (hc : it.geometry s = some corners) (hc' : it'.geometry s = some corners') (c c' : Nat → Nat → K)
    (hcc : ∀ i, i ≤ s.dimension → corners[i]? = some (c i)) (hcc' : ∀ i, i ≤ s.dimension → corners'[i]? = some (c' i)) (z z' : Nat → K)
    (hz : InnerSimplex s.dimension z) (hz' : InSimplex s.dimension z')
    (he : ∀ i, i < s.dimension → interp s.dimension c z i = interp s.dimension c' z' i) : k = k' := by
  obtain ⟨it1, corners1, c1, q, b, h1, h2, h3, h4, h5, h6, h7, h8⟩ := elemT h n k hk
  obtain ⟨it2, corners2, c2, q', b', g1, g2, g3, g4, g5, g6, g7, g8⟩ := elemT h n k' hk'
  obtain rfl := Option.some.inj (h1.symm.trans hi)
  obtain rfl := Option.some.inj (g1.symm.trans hi')
  obtain rfl := Option.some.inj (h2.symm.trans hc)
  obtain rfl := Option.some.inj (g2.symm.trans hc')
  have e1 : ∀ i, i < s.dimension → interp s.dimension c z i = interp s.dimension c1 z i := fun i _ =>
    interp_congr (fun l hl => congrFun (Option.some.inj ((hcc l hl).symm.trans (h4 l hl))) i) z
  have e2 : ∀ i, i < s.dimension → interp s.dimension c' z' i = interp s.dimension c2 z' i := fun i _ =>
    interp_congr (fun l hl => congrFun (Option.some.inj ((hcc' l hl).symm.trans (g4 l hl))) i) z'
  obtain ⟨y, h9, h10⟩ := h8 z
  obtain ⟨y', g9, g10⟩ := g8 z'
  obtain ⟨hN, a1, a2⟩ := kuhn_lt hk
  obtain ⟨_, a1', a2'⟩ := kuhn_lt hk'
  have e3 : ∀ i, i < s.dimension → referenceToKuhn s.dimension y q i = referenceToKuhn s.dimension y' q' i :=
    h.inj _ _ fun i hi => by rw [← h10 i hi, ← g10 i hi, ← e1 i hi, ← e2 i hi]; exact he i hi
  obtain ⟨b1, y1, f1, f2, f3⟩ := inner_global s.dimension n _ h.pos a2 z hz
  obtain ⟨b2, y2, f1', f2', f3'⟩ := C60_inside s.dimension n _ h.pos a2' z' hz'
  obtain rfl := Option.some.inj (h7.symm.trans f1)
  obtain rfl := Option.some.inj (g7.symm.trans f1')
  obtain rfl := Option.some.inj (h9.symm.trans f2)
  obtain rfl := Option.some.inj (g9.symm.trans f2')
  have hκ := h.perm_inj _ _ a1 a1' (kuhn_disjoint s.dimension _ _ (h.perm_lt _ a1) (h.perm_lt _ a1') q q' h6 g6 y _ f3
    ((inKuhn_iff _ q' g5 y').2 f3') e3)
  rw [← hκ] at g6
  have hqq : (⇑q : Nat → Nat) = q' := Option.some.inj (h6.symm.trans g6)
  rw [← hqq] at e3
  have e4 : ∀ i, i < s.dimension → y i = y' i := by
    intro i hi
    have i1 := (C59_inverse s.dimension _ q (h.perm_lt _ a1) h6 y).1
    have i2 := (C59_inverse s.dimension _ q (h.perm_lt _ a1) h6 y').1
    rw [← i1, ← i2]
    rw [← Equiv.apply_symm_apply q i, kuhnToReference_eq, kuhnToReference_eq, Equiv.apply_symm_apply, e3 i hi]
    split
    · rw [e3 _ (perm_lt h5 (by assumption))]
    · rfl
  have he := C60_disjoint s.dimension n _ _ h.pos a2 a2' z z' hz hz' b b' h7 g7 y y' h9 g9 e4
  rw [← Nat.div_add_mod k (Refine.nElements s.dimension n), ← Nat.div_add_mod k' (Refine.nElements s.dimension n), hκ, he]

theorem cube_congr (d : Nat) (x y : Nat → K) (h : ∀ i, i < (hcube d : Scheme K).dimension → x i = y i) (hx : InCube d x) : InCube d y :=
  fun i hi => h i hi ▸ hx i hi

theorem prism_congr (x y : Nat → K) (h : ∀ i, i < (prism : Scheme K).dimension → x i = y i) (hx : InPrism x) : InPrism y := by
  obtain ⟨h0, h1, h2⟩ := forall_lt_three.1 h
  rw [InPrism, ← h0, ← h1, ← h2]; exact hx

theorem pyramid_congr (x y : Nat → K) (h : ∀ i, i < (pyramid : Scheme K).dimension → x i = y i) (hx : InPyramid x) : InPyramid y := by
  obtain ⟨h0, h1, h2⟩ := forall_lt_three.1 h
  rw [InPyramid, ← h0, ← h1, ← h2]; exact hx

/-- C60: cube, prism and pyramid contain all their elements -/
theorem C60_triang_contained (n k : Nat) (z : Nat → K) :
    (∀ d, 0 < d → k < nElements (hcube d : Scheme K) n → InSimplex d z → ∃ it corners, ∃ c : Nat → Nat → K,
      eAt (hcube d : Scheme K) n k = some it ∧ it.geometry (hcube d) = some corners ∧ corners.length = d + 1 ∧
      (∀ i, i ≤ d → corners[i]? = some (c i)) ∧ InCube d (interp d c z)) ∧
    (k < nElements (prism : Scheme K) n → InSimplex 3 z → ∃ it corners, ∃ c : Nat → Nat → K,
      eAt (prism : Scheme K) n k = some it ∧ it.geometry prism = some corners ∧ corners.length = 4 ∧
      (∀ i, i ≤ 3 → corners[i]? = some (c i)) ∧ InPrism (interp 3 c z)) ∧
    (k < nElements (pyramid : Scheme K) n → InSimplex 3 z → ∃ it corners, ∃ c : Nat → Nat → K,
      eAt (pyramid : Scheme K) n k = some it ∧ it.geometry pyramid = some corners ∧ corners.length = 4 ∧
      (∀ i, i ≤ 3 → corners[i]? = some (c i)) ∧ InPyramid (interp 3 c z)) :=
  ⟨fun d hd hk hz => C60_triang_inside (C44_cube_scheme d hd) (cube_congr d) n k hk z hz,
    fun hk hz => C60_triang_inside C44_prism_scheme prism_congr n k hk z hz,
    fun hk hz => C60_triang_inside C44_pyramid_scheme pyramid_congr n k hk z hz⟩

/-! ### C58 -/

omit [LinearOrder K] [IsStrictOrderedRing K] in
/-- C58: in triangulated cubes and prisms the vertex geometry sits at `coords()` -/
theorem C58_cube_prism (it : VIterator) (d : Nat) :
    it.geometry (hcube d : Scheme K) = it.coords (hcube d) ∧ it.geometry (prism : Scheme K) = it.coords prism := ⟨rfl, rfl⟩

/-- the full claim for the pyramid -/
def C58_pyramid_full : Prop := ∀ n k it x y, 0 < n → k < nVertices (pyramid : Scheme ℚ) n → vAt (pyramid : Scheme ℚ) n k = some it →
  it.coords (pyramid : Scheme ℚ) = some x → it.geometry (pyramid : Scheme ℚ) = some y → ∀ i, i < 3 → y i = x i

omit [LinearOrder K] [IsStrictOrderedRing K] in
/-- C58: in triangulated pyramids the transformation of the coordinates is missing in `geometry()`.  (Missing: equality, see
`C58_pyramid_counterexample`.) -/
theorem C58_pyramid_partial (it : VIterator) :
    it.coords (pyramid : Scheme K) = (it.geometry (pyramid : Scheme K)).map pyramidTransform := by
  rw [VIterator.coords, VIterator.geometry]
  rcases it.backend.coords (K := K) pyramid.dimension with _ | x
  · rfl
  · rcases h : toKuhn pyramid it.kuhnIndex x with _ | y
    · simp [h]
    · simp [h]
      rfl

/-- the vertex number 0 of the pyramid is the corner (1, 1, 0), its geometry is at the origin -/
theorem C58_pyramid_counterexample : ¬ C58_pyramid_full := by
  intro h
  have h1 : ((vBegin 1).coords (pyramid : Scheme ℚ)).map (fun x => x 0) = some 1 := by decide +kernel
  have h2 : ((vBegin 1).geometry (pyramid : Scheme ℚ)).map (fun x => x 0) = some 0 := by decide +kernel
  rw [Option.map_eq_some_iff] at h1 h2
  obtain ⟨x, e1, e2⟩ := h1
  obtain ⟨y, e3, e4⟩ := h2
  have := h 1 0 _ x y (by omega) (by decide) rfl e1 e3 0 (by omega)
  rw [e2, e4] at this
  exact absurd this (by norm_num)

/-- the full claim for the simplex -/
def C58_simplex_full : Prop := ∀ d n k it x, 0 < d → 0 < n → k < Refine.nVertices d n → Refine.vAt d n k = some it →
  it.coords (K := ℚ) d = some x → ∀ i, i < d → it.geometry (K := ℚ) i = x i

/-- C58: the vertex geometry of the simplex refinement sits at `n` times the Kuhn coordinates of the vertex.  (Missing: equality with
`coords()`, see `C58_simplex_counterexample`.) -/
theorem C58_simplex_partial (d n k : Nat) (hd : 0 < d) (hn : 0 < n) (hk : k < Refine.nVertices d n) :
    ∃ it x, Refine.vAt d n k = some it ∧ it.coords (K := K) d = some x ∧
      ∀ i, i < d → it.geometry (K := K) i = n * ∑ j ∈ Ico i d, x j := by
  have hc := iterate_cone d hd k
  have h1 := Refine.vAt_eq d n hd k hk.le
  have hv : pointIndex d ((incLoop d)^[k] fun _ => 0) = k := hc.2
  obtain ⟨h2, it, x, h3, h4, h5, h6⟩ := vertex_coords (K := K) d n hd _ hc.1
    ((pointIndex_lt_iff d hd _ hc.1 n).1 (by rw [hv]; exact hk))
  rw [hv] at h3
  refine ⟨it, x, h3, h4, fun i hi => ?_⟩
  have hr := referenceToKuhn_eq d (1 : Perm Nat) x i hi
  have e1 : (⇑(1 : Perm Nat) : Nat → Nat) = fun i => i := rfl
  rw [e1] at hr
  rw [← hr, h6]
  have := (C59_inverse d 0 _ (Nat.factorial_pos d) (C39_identity d) fun i => ((incLoop d)^[k] (fun _ => 0) i : K) / n).2
  rw [kuhnToReference_id] at this
  have e2 : referenceToKuhn d (diff d fun i => ((incLoop d)^[k] (fun _ => 0) i : K) / n) (fun i => i) i = _ := congrFun this i
  have hn' : (n : K) ≠ 0 := Nat.cast_ne_zero.2 (by omega)
  rw [e2, mul_div_cancel₀ _ hn', VertexIterator.geometry, h5]

/-- the line with two intervals: vertex 1 has coordinate 1/2, its geometry sits at 1 -/
theorem C58_simplex_counterexample : ¬ C58_simplex_full := by
  intro h
  have h1 : ((Refine.vAt 1 2 1).bind fun it => it.coords (K := ℚ) 1).map (fun x => x 0) = some (1 / 2) := by decide +kernel
  have h2 : (Refine.vAt 1 2 1).map (fun it => it.geometry (K := ℚ) 0) = some 1 := by decide +kernel
  obtain ⟨it, hit, _⟩ := C40_index 1 2 (by omega) 1 (by decide)
  rw [hit, Option.map_some, Option.some.injEq] at h2
  rw [hit, Option.bind_some, Option.map_eq_some_iff] at h1
  obtain ⟨x, e1, e2⟩ := h1
  have := h 1 2 1 it x (by omega) (by omega) (by decide) hit e1 0 (by omega)
  rw [e2, h2] at this
  exact absurd this (by norm_num)

/-! ### examples -/

/-- the 8 elements of the square with two intervals -/
example : (List.range 9).map (fun k => (eAt (hcube 2 : Scheme ℚ) 2 k).map fun it => (it.kuhnIndex, it.backend.index_)) =
    [some (0, 0), some (0, 1), some (0, 2), some (0, 3), some (1, 0), some (1, 1), some (1, 2), some (1, 3), some (2, 0)] := by
  decide +kernel

/-- the corners of the last tetrahedron of the prism with one interval -/
example : ((eAt (prism : Scheme ℚ) 1 2).bind (EIterator.geometry (prism : Scheme ℚ))).map (fun l => l.map fun c => [c 0, c 1, c 2]) =
    some [[(0 : ℚ), 1, 0], [0, 0, 0], [1, 0, 0], [1, 0, 1]] := by decide +kernel

example : ∃ k it corners, ∃ c : Nat → Nat → ℚ, ∃ z, k < nElements (pyramid : Scheme ℚ) 3 ∧ eAt (pyramid : Scheme ℚ) 3 k = some it ∧
    it.geometry pyramid = some corners ∧ (∀ i, i ≤ 3 → corners[i]? = some (c i)) ∧ InSimplex 3 z ∧
    ∀ i, i < 3 → interp 3 c z i = (fun i => if i = 2 then 1 / 2 else 1 / 5 : Nat → ℚ) i :=
  C60_triang_cover (s := pyramid) C44_pyramid_scheme 3 (by omega) _ (by unfold InPyramid; norm_num)

end

end Verif.Refine.Triang
