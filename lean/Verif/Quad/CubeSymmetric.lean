import Verif.Quad.Symmetric
import Verif.Neighbour.Props

/-! Rules on cubes as products, and the symmetries of cubes. -/

namespace Verif.Quad

open Verif.Typ Verif.RefTopo Verif.RefGeom Verif.Neighbour
open Finset hiding ext

theorem univ_zero (O : List (QPoint ℝ)) : (univ : Finset (Fin 0 → Fin O.length)).val.map (prodPt O 0) = {⟨fun _ => 0, 1⟩} := by
  have : (univ : Finset (Fin 0 → Fin O.length)) = {Fin.elim0} := by
    refine Finset.eq_singleton_iff_unique_mem.2 ⟨mem_univ _, fun x _ => ?_⟩
    funext i; exact i.elim0
  rw [this, Finset.singleton_val, Multiset.map_singleton]
  simp [prodPt]

theorem univ_one {O : List (QPoint ℝ)} (hz : ∀ q ∈ O, ∀ k, 1 ≤ k → q.position k = 0) :
    (O : Multiset (QPoint ℝ)) = univ.val.map (prodPt O 1) := by
  have h := tensor_univ (d := 0) (B := [⟨fun _ => 0, 1⟩]) (O := O) (by rw [univ_zero]; rfl)
  rw [← h]
  congr 1
  simp only [tensorProduct, List.flatMap_cons, List.flatMap_nil, List.append_nil]
  conv_lhs => rw [← List.map_id O]
  refine List.map_congr_left fun o ho => ?_
  obtain ⟨pos, w⟩ := o
  simp only [id, one_mul]
  congr 1
  funext i
  simp only [setV]
  by_cases hi : i = 0
  · subst hi; simp
  · rw [if_neg hi]
    have := hz _ ho i (by omega)
    simpa using this

theorem rule_cube_univ (env : Env ℝ) (qt : QType) (p : Nat) (o : Rule ℝ)
    (hone : ∀ id, id < 2 → rule1 env ⟨1, false, id⟩ p qt = .ok o) (hz : ∀ q ∈ o.pts, ∀ k, 1 ≤ k → q.position k = 0) :
    ∀ (d id : Nat), d ≤ 30 → id < 2 ^ d → IsCubeId d id →
    (∀ k, 1 ≤ k → k ≤ d → ∃ m : Nat, maxOrder k ⟨k, false, id % 2 ^ k⟩ qt = .ok m ∧ p ≤ m) →
    ∃ r, rule env d ⟨d, false, id⟩ p qt = .ok r ∧ (r.pts : Multiset (QPoint ℝ)) = univ.val.map (prodPt o.pts d)
  | 0, id, _, hid, _, _ => by
    have hid0 : id = 0 := by simpa using hid
    subst hid0
    rw [rule, ruleWith_ok (by omega) hid (Or.inl rfl)]
    refine ⟨pointRule, by simp [factory, isVertex], ?_⟩
    rw [univ_zero]
    rfl
  | 1, id, _, hid, _, _ => ⟨o, hone id (by simpa using hid), univ_one hz⟩
  | d + 2, id, hd, hid, hc, hmax => by
    have hbit : id.testBit (d + 1) = true := hc (d + 1) (by omega) (by omega)
    obtain ⟨B, b1, b2⟩ := rule_cube_univ env qt p o hone hz (d + 1) (id % 2 ^ (d + 1)) (by omega)
      (Nat.mod_lt _ (Nat.two_pow_pos _)) (fun k h1 h2 => by rw [testBit_mod' h2]; exact hc k h1 (by omega))
      (fun k hk1 hk2 => by rw [mod_pow_mod hk2]; exact hmax k hk1 (by omega))
    obtain ⟨m, hm, hpm⟩ := hmax (d + 2) (by omega) (le_refl _)
    rw [Nat.mod_eq_of_lt hid] at hm
    have hr : rule env (d + 2) ⟨d + 2, false, id⟩ p qt =
        factory env (d + 2) ⟨d + 2, false, id⟩ p qt (.ok B) := by
      rw [rule, ruleWith_ok hd hid (Or.inr ⟨m, hm, by omega, by omega⟩)]
      simp only
      rw [baseTypeOf_eq (by omega) hid, b1]
    have hge := Nat.ge_two_pow_of_testBit hbit
    have hs : isSimplex ⟨d + 2, false, id⟩ = false := by
      by_contra h
      have := isSimplex_iff.1 (by simpa using h)
      have : 2 ≤ 2 ^ (d + 1) := by rw [pow_succ]; have := Nat.one_le_two_pow (n := d); omega
      omega
    have hp3 : d + 2 = 3 → isPrism ⟨d + 2, false, id⟩ = false := by
      intro h3
      have hb1 := hc 1 (by omega) (by omega)
      by_contra h
      simp only [isPrism, Bool.not_false, Bool.true_and, Bool.and_eq_true, beq_iff_eq, or_one_eq, Bool.not_eq_false] at h
      rw [Nat.testBit_eq_decide_div_mod_eq] at hb1
      simp at hb1
      omega
    have hf : factory env (d + 2) ⟨d + 2, false, id⟩ p qt (.ok B) = tensorRule env (d + 2) id p qt (.ok B) := by
      match d, hs, hp3 with
      | 0, hs, _ => simp only [factory, hs]; simp
      | 1, hs, hp3 => simp only [factory, hs, hp3 rfl]; simp
      | d + 2, _, _ => simp only [factory]
    have o1 := hone 0 (by omega)
    rw [hr, hf, tensorRule]
    simp only [ok_bind, show d + 2 - 1 = d + 1 from rfl, hbit, if_true, line_eq, o1]
    exact ⟨_, rfl, tensor_univ b2⟩

/-! ### Symmetries of cubes -/

theorem cube_corner {d id : Nat} (hc : IsCubeId d id) {k : Nat} (hk : k < 2 ^ d) (r : Nat) :
    corner (K := ℝ) d id k r = if k.testBit r then 1 else 0 := by
  rw [corner, C17_cube d _ hc, List.getD_eq_getElem?_getD, List.getElem?_map, List.getElem?_range hk]
  rfl

/-- an affine function with values 0 and 1 at the corners of the cube depends on at most one coordinate -/
theorem affine_bits {d : Nat} {a : ℝ} {m : Nat → ℝ}
    (h : ∀ k, k < 2 ^ d → a + ∑ r ∈ range d, m r * (if k.testBit r then 1 else 0) = 0 ∨
      a + ∑ r ∈ range d, m r * (if k.testBit r then 1 else 0) = 1) :
    (a = 0 ∨ a = 1) ∧ (∀ r, r < d → m r = 0 ∨ m r = 1 - 2 * a) ∧
      ∀ r r', r < d → r' < d → m r ≠ 0 → m r' ≠ 0 → r = r' := by
  have h0 : a = 0 ∨ a = 1 := by
    have := h 0 (Nat.two_pow_pos d)
    simpa using this
  have h1 : ∀ r, r < d → a + m r = 0 ∨ a + m r = 1 := by
    intro r hr
    have := h (2 ^ r) (Nat.pow_lt_pow_right (by omega) hr)
    have e : ∑ s ∈ range d, m s * (if (2 ^ r).testBit s then 1 else 0) = m r := by
      rw [sum_eq_single r]
      · simp
      · intro s _ hs
        rw [Nat.testBit_two_pow]
        simp [Ne.symm hs]
      · intro hn; exact absurd (mem_range.2 hr) hn
    rwa [e] at this
  have h1' : ∀ r, r < d → m r = 0 ∨ m r = 1 - 2 * a := by
    intro r hr
    rcases h0 with h0 | h0 <;> rcases h1 r hr with h | h <;> rw [h0] at h ⊢
    · left; linarith
    · right; linarith
    · right; linarith
    · left; linarith
  refine ⟨h0, h1', fun r r' hr hr' n1 n2 => ?_⟩
  by_contra hne
  wlog hlt : r < r' generalizing r r'
  · exact this r' r hr' hr n2 n1 (Ne.symm hne) (by omega)
  have hk : 2 ^ r + 2 ^ r' < 2 ^ d := by
    have h1 : 2 ^ (r' + 1) ≤ 2 ^ d := Nat.pow_le_pow_right (by omega) hr'
    have h2 : 2 ^ r < 2 ^ r' := Nat.pow_lt_pow_right (by omega) hlt
    rw [pow_succ] at h1
    omega
  have hb : ∀ s, (2 ^ r + 2 ^ r').testBit s = (decide (r = s) || decide (r' = s)) := by
    intro s
    have e : 2 ^ r + 2 ^ r' = 2 ^ r ||| 2 ^ r' := by
      rw [Nat.add_comm, Nat.or_comm]
      have := Nat.two_pow_add_eq_or_of_lt (Nat.pow_lt_pow_right (by omega) hlt : 2 ^ r < 2 ^ r') 1
      simpa using this
    rw [e, Nat.testBit_or, Nat.testBit_two_pow, Nat.testBit_two_pow]
  have := h _ hk
  have e : ∑ s ∈ range d, m s * (if (2 ^ r + 2 ^ r').testBit s then 1 else 0) = m r + m r' := by
    simp only [hb]
    rw [← sum_subset (s₁ := {r, r'}) (by intro s hs; simp only [mem_insert, mem_singleton] at hs; rw [mem_range]; omega), sum_pair hne]
    · simp
    · intro s _ hs
      simp only [mem_insert, mem_singleton, not_or] at hs
      simp [Ne.symm hs.1, Ne.symm hs.2]
  rw [e] at this
  have e1 := (h1' r hr).resolve_left n1
  have e2 := (h1' r' hr').resolve_left n2
  rw [e1, e2] at this
  rcases h0 with h0 | h0 <;> rw [h0] at this <;> rcases this with h | h <;> linarith

/-- the symmetries of a cube exchange and reflect coordinates -/
theorem cube_symmetry {d id : Nat} (hc : IsCubeId d id) {σ : Nat → Nat} {a : Vec ℝ} {M : Mat ℝ}
    (h : Symmetry d id σ a M) : ∃ (π : Equiv.Perm (Fin d)) (s : Fin d → Bool), ∀ x i, i < d →
      affMap d a M x i = signedPerm π s x i := by
  have hsz : refSize d id d = 2 ^ d := cube_size d id hc
  have hrow : ∀ i, i < d → _ := fun i hi => affine_bits (d := d) (a := a i) (m := M i) (fun k hk => by
    have := h.corner k (by rw [hsz]; exact hk) i hi
    have hl := h.lt k (by rw [hsz]; exact hk)
    rw [hsz] at hl
    rw [cube_corner hc hl, affMap] at this
    simp only [cube_corner hc hk] at this
    rw [← this]
    split
    · right; rfl
    · left; rfl)
  have hdet := C97_det d id σ a M h
  have hne : (MatHelp.mat d d M).det ≠ 0 := by intro e; rw [e, abs_zero] at hdet; exact zero_ne_one hdet
  have hex : ∀ i : Fin d, ∃ r : Fin d, M i r ≠ 0 := by
    intro i
    by_contra hn
    push Not at hn
    exact hne (Matrix.det_eq_zero_of_row_eq_zero i hn)
  choose f hf using hex
  have hval : ∀ i : Fin d, M i (f i) = 1 - 2 * a i := fun i => ((hrow i i.2).2.1 (f i) (f i).2).resolve_left (hf i)
  have hz : ∀ (i : Fin d) (r : Fin d), r ≠ f i → M i r = 0 := by
    intro i r hr
    by_contra hn
    exact hr (Fin.ext ((hrow i i.2).2.2 r (f i) r.2 (f i).2 hn (hf i)))
  have hinj : Function.Injective f := by
    intro i j hij
    by_contra hne'
    apply hne
    -- row i is a multiple of row j
    have hj := hf j
    have e : ∀ r, MatHelp.mat d d M i r = (M i (f i) / M j (f j)) * MatHelp.mat d d M j r := by
      intro r
      change M i r = _ * M j r
      by_cases hr : r = f i
      · subst hr
        rw [hij, div_mul_cancel₀]
        exact hj
      · rw [hz i r hr, hz j r (by rw [← hij]; exact hr), mul_zero]
    have hu : MatHelp.mat d d M = (MatHelp.mat d d M).updateRow i ((M i (f i) / M j (f j)) • (MatHelp.mat d d M) j) := by
      ext p q
      rw [Matrix.updateRow_apply]
      split
      · rename_i hp; rw [hp]; exact e q
      · rfl
    rw [hu, Matrix.det_updateRow_smul, Matrix.det_zero_of_row_eq hne' (by
      rw [Matrix.updateRow_self, Matrix.updateRow_ne (Ne.symm hne')]), mul_zero]
  refine ⟨Equiv.ofBijective f (Finite.injective_iff_bijective.1 hinj), fun i => decide (a i = 1), fun x i hi => ?_⟩
  simp only [signedPerm, affMap]
  rw [dif_pos hi]
  have e : ∑ r ∈ range d, M i r * x r = M i (f ⟨i, hi⟩) * x (f ⟨i, hi⟩) := by
    refine sum_eq_single _ (fun r hr hne => ?_) fun hn => absurd (mem_range.2 (f ⟨i, hi⟩).2) hn
    rw [hz ⟨i, hi⟩ ⟨r, mem_range.1 hr⟩ (fun e => hne (congrArg Fin.val e)), zero_mul]
  have hv := hval ⟨i, hi⟩
  simp only at hv
  rw [e, hv, Equiv.ofBijective_apply]
  rcases (hrow i hi).1 with h0 | h0
  · simp [h0]
  · simp [h0]; ring

end Verif.Quad
