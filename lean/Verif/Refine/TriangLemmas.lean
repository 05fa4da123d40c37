import Verif.Refine.TileProps
import Verif.Refine.TriangModel

/-! Lemmas on the Kuhn simplices of the cube and on the triangulating iterators. -/

namespace Verif.Refine

open Function Finset
open Equiv (Perm)

/-- the point with local coordinates `z` in the simplex with corners `c 0, …, c d` -/
def interp {K : Type} [Field K] (d : Nat) (c : Nat → Nat → K) (z : Nat → K) : Nat → K :=
  fun i => c 0 i + ∑ l ∈ range d, z l * (c (l + 1) i - c 0 i)

section
variable {K : Type} [Field K]

theorem interp_congr {d : Nat} {c c' : Nat → Nat → K} {i : Nat} (h : ∀ l, l ≤ d → c l i = c' l i) (z : Nat → K) :
    interp d c z i = interp d c' z i := by
  rw [interp, interp, h 0 (by omega)]
  congr 1
  refine sum_congr rfl fun l hl => ?_
  rw [h (l + 1) (by have := mem_range.1 hl; omega)]

theorem interp_sum {ι : Type} (s : Finset ι) (d : Nat) (c : ι → Nat → Nat → K) (z : Nat → K) (i : Nat) :
    ∑ a ∈ s, interp d (c a) z i = interp d (fun l j => ∑ a ∈ s, c a l j) z i := by
  simp only [interp, sum_add_distrib, ← sum_sub_distrib, mul_sum]
  rw [sum_comm]

theorem interp_sub (d : Nat) (c c' : Nat → Nat → K) (z : Nat → K) (i j : Nat) :
    interp d c z i - interp d c' z j = interp d (fun l _ => c l i - c' l j) z i := by
  simp only [interp]
  rw [add_sub_add_comm, ← sum_sub_distrib]
  congr 1
  refine sum_congr rfl fun l _ => ?_
  ring

theorem interp_const_sub (d : Nat) (a : K) (c : Nat → Nat → K) (z : Nat → K) (i j : Nat) :
    a - interp d c z j = interp d (fun l _ => a - c l j) z i := by
  simp only [interp]
  rw [sub_add_eq_sub_sub, sub_eq_add_neg, ← sum_neg_distrib]
  congr 1
  refine sum_congr rfl fun l _ => ?_
  ring

theorem interp_div (d : Nat) (a : K) (c : Nat → Nat → K) (z : Nat → K) (i : Nat) :
    interp d c z i / a = interp d (fun l _ => c l i / a) z i := by
  simp only [interp]
  rw [add_div, sum_div]
  congr 1
  refine sum_congr rfl fun l _ => ?_
  ring

theorem interp_add_const (d : Nat) (a : K) (c : Nat → Nat → K) (z : Nat → K) (i : Nat) :
    interp d c z i + a = interp d (fun l _ => c l i + a) z i := by
  simp only [interp]
  rw [add_right_comm]
  congr 1
  refine sum_congr rfl fun l _ => ?_
  ring

/-- the unit corners reproduce the point -/
theorem interp_unit (d : Nat) (z : Nat → K) (i : Nat) (hi : i < d) :
    interp d (fun l k => if k + 1 = l then (1 : K) else 0) z i = z i := by
  simp only [interp]
  rw [sum_eq_single i]
  · simp
  · intro l _ h
    simp [h.symm]
  · intro h
    exact absurd (mem_range.2 hi) h

theorem r2k_congr {d : Nat} {q : Perm Nat} (hq : ∀ k, d ≤ k → q k = k) {x y : Nat → K} (h : ∀ i, i < d → x i = y i) (i : Nat) (hi : i < d) :
    referenceToKuhn d x q i = referenceToKuhn d y q i := by
  have hj := symm_lt hq hi
  rw [← Equiv.apply_symm_apply q i, referenceToKuhn_eq d q x _ hj, referenceToKuhn_eq d q y _ hj]
  exact sum_congr rfl fun k hk => h _ (perm_lt hq (mem_Ico.1 hk).2)

theorem r2k_interp {d : Nat} {q : Perm Nat} (hq : ∀ k, d ≤ k → q k = k) (c : Nat → Nat → K) (z : Nat → K) (i : Nat) (hi : i < d) :
    referenceToKuhn d (interp d c z) q i = interp d (fun l => referenceToKuhn d (c l) q) z i := by
  have hj := symm_lt hq hi
  have h1 : ∀ x : Nat → K, referenceToKuhn d x q i = ∑ k ∈ Ico (q.symm i) d, x (q k) := by
    intro x
    rw [← referenceToKuhn_eq d q x _ hj, Equiv.apply_symm_apply]
  rw [h1]
  have h2 : interp d (fun l => referenceToKuhn d (c l) q) z i =
      interp d (fun l _ => ∑ k ∈ Ico (q.symm i) d, c l (q k)) z i := interp_congr (fun l _ => h1 (c l)) z
  rw [h2, ← interp_sum (Ico (q.symm i) d) d (fun k l _ => c l (q k)) z i]
  rfl

theorem diff_interp (d : Nat) (c : Nat → Nat → K) (z : Nat → K) (i : Nat) :
    diff d (interp d c z) i = interp d (fun l => diff d (c l)) z i := by
  by_cases h : i + 1 < d
  · have e : ∀ y : Nat → K, diff d y i = y i - y (i + 1) := fun y => if_pos h
    rw [e, interp_sub]
    exact interp_congr (fun l _ => (e (c l)).symm) z
  · have e : ∀ y : Nat → K, diff d y i = y i := fun y => if_neg h
    rw [e]
    exact interp_congr (fun l _ => (e (c l)).symm) z

variable [LinearOrder K] [IsStrictOrderedRing K]

/-- the map of an element is the affine map to its corners -/
theorem global_interp (d n k : Nat) (hd : 0 < d) (hk : k < nElements d n) :
    ∃ it corners, ∃ c : Nat → Nat → K, eAt d n k = some it ∧ it.geometry (K := K) d = some corners ∧ corners.length = d + 1 ∧
      (∀ i, i ≤ d → corners[i]? = some (c i)) ∧
      ∀ z : Nat → K, ∃ y, it.global d z = some y ∧ ∀ i, i < d → y i = interp d c z i := by
  obtain ⟨it, q, h1, h2, h3, h4, h5, h6, h7⟩ := elem d n hd k hk
  refine ⟨it, _, fun i => diff d fun j => (referenceToKuhn d (fun k => if k + 1 = i then (1 : K) else 0) q j + it.origin j) / it.size,
    h1, geometry_eq d it q h6, by simp, fun i hi => ?_, fun z => ⟨_, global_eq d it q h6 z, fun i hi => ?_⟩⟩
  · rw [List.getElem?_map, List.getElem?_range (by omega), Option.map_some]
  · rw [← diff_interp]
    refine diff_congr (fun j hj => ?_) i hi
    have e1 := r2k_congr h4 (fun i hi => (interp_unit d z i hi).symm) j hj
    rw [e1, r2k_interp h4 _ _ _ hj, interp_add_const, interp_div]
    rfl

end

variable {K : Type} [Field K] [LinearOrder K] [IsStrictOrderedRing K]

theorem diff_inner (d : Nat) (hd : 0 < d) (y : Nat → K) (h1 : ∀ j, j + 1 < d → y (j + 1) < y j) (h2 : ∀ j, j < d → 0 < y j ∧ y j < 1) :
    InnerSimplex d (diff d y) := by
  constructor
  · intro i hi
    rw [diff]
    split
    · exact sub_pos.2 (h1 i (by assumption))
    · exact (h2 i hi).1
  · have := (C59_inverse d 0 _ (Nat.factorial_pos d) (C39_identity d) y).2
    rw [kuhnToReference_id] at this
    have h3 := referenceToKuhn_eq d (1 : Perm Nat) (diff d y) 0 hd
    simp only [Equiv.Perm.coe_one, _root_.id] at h3
    have h4 : referenceToKuhn d (diff d y) (fun i => i) 0 = y 0 := congrFun this 0
    have h5 : (_root_.id : Nat → Nat) = fun i => i := rfl
    rw [h5, h4] at h3
    rw [range_eq_Ico, ← h3]
    exact (h2 0 hd).2

/-- interior points of the reference simplex are mapped to interior points -/
theorem inner_global (d n k : Nat) (hd : 0 < d) (hk : k < nElements d n) (z : Nat → K) (hz : InnerSimplex d z) :
    ∃ it y, eAt d n k = some it ∧ it.global d z = some y ∧ InnerSimplex d y := by
  obtain ⟨it, q, h1, h2, h3, h4, h5, h6, h7⟩ := elem d n hd k hk
  refine ⟨it, _, h1, global_eq d it q h6 z, ?_⟩
  obtain ⟨h8, h9, h10⟩ := (subSimplex_iff d n hd q h4 _).1 h7
  obtain ⟨hs, hb⟩ := inner_strict h4 hz
  have hn : (0 : K) < n := Nat.cast_pos.2 (by omega)
  rw [h2]
  refine diff_inner d hd _ (fun j hj => ?_) fun j hj => ⟨?_, ?_⟩
  · refine div_lt_div_of_pos_right ?_ hn
    rcases h9 j hj with h | h
    · have e1 := (hb j (by omega)).1
      have e2 := (hb (j + 1) hj).2
      have e3 : (it.origin (j + 1) : K) + 1 ≤ it.origin j := by exact_mod_cast h
      linarith
    · have e1 := hs _ _ h (symm_lt h4 hj)
      rw [Equiv.apply_symm_apply, Equiv.apply_symm_apply] at e1
      have e2 : (it.origin (j + 1) : K) ≤ it.origin j := by exact_mod_cast h8 j hj
      linarith
  · have := (hb j hj).1
    exact div_pos (add_pos_of_pos_of_nonneg this (Nat.cast_nonneg _)) hn
  · rw [div_lt_one hn]
    have e1 := (hb j hj).2
    have e2 := decreasing_le h8 (Nat.zero_le j) hj
    have e3 : (it.origin j : K) + 1 ≤ n := by exact_mod_cast (show it.origin j + 1 ≤ n by omega)
    linarith

omit [IsStrictOrderedRing K] in
/-- every point of the unit cube lies in a Kuhn simplex; ties are ordered by index -/
theorem kuhn_cover (d : Nat) (y : Nat → K) (hy : ∀ i, i < d → 0 ≤ y i ∧ y i ≤ 1) :
    ∃ κ p, κ < d.factorial ∧ getPermutation d κ = some p ∧ InKuhn d p y ∧
      ∀ i j, i < j → j < d → y j ≤ y i → ∃ a b, a < b ∧ b < d ∧ p a = i ∧ p b = j := by
  let σ := Tuple.sort fun i : Fin d => OrderDual.toDual (y i)
  obtain ⟨hσ1, hσ2⟩ := (Tuple.eq_sort_iff (f := fun i : Fin d => OrderDual.toDual (y i)) (σ := σ)).1 rfl
  obtain ⟨κ, hκ, p, hp1, hp2⟩ := exists_index d σ
  have hanti : ∀ i j, i ≤ j → j < d → y (p j) ≤ y (p i) := by
    intro i j hij hj
    have := hσ1 (show (⟨i, by omega⟩ : Fin d) ≤ ⟨j, hj⟩ from hij)
    have e1 := hp2 ⟨i, by omega⟩
    have e2 := hp2 ⟨j, hj⟩
    simp only at e1 e2
    rw [e1, e2]
    exact OrderDual.toDual_le_toDual.1 this
  have htie : ∀ i j, i < j → j < d → y (p i) = y (p j) → p i < p j := by
    intro i j hij hj he
    have e1 := hp2 ⟨i, by omega⟩
    have e2 := hp2 ⟨j, hj⟩
    simp only at e1 e2
    rw [e1, e2] at he ⊢
    exact hσ2 _ _ (show (⟨i, by omega⟩ : Fin d) < ⟨j, hj⟩ from hij) (congrArg OrderDual.toDual he)
  refine ⟨κ, p, hκ, hp1, ⟨fun j hj => hanti _ _ (by omega) hj, fun j hj => ?_⟩, fun i j hij hj hle => ?_⟩
  · have := hp2 ⟨j, hj⟩
    simp only at this
    rw [this]
    exact hy _ (σ ⟨j, hj⟩).2
  · have e1 := hp2 (σ.symm ⟨i, by omega⟩)
    have e2 := hp2 (σ.symm ⟨j, hj⟩)
    rw [Equiv.apply_symm_apply] at e1 e2
    refine ⟨_, _, ?_, (σ.symm ⟨j, hj⟩).2, e1, e2⟩
    by_contra hge
    have hne : (σ.symm ⟨j, hj⟩ : Nat) ≠ σ.symm ⟨i, by omega⟩ := by
      intro h
      rw [h, e1] at e2
      simp only at e2
      omega
    have h3 := hanti _ _ (not_lt.1 hge) (σ.symm ⟨i, by omega⟩).2
    rw [e1, e2] at h3
    have h4 := htie _ _ (lt_of_le_of_ne (not_lt.1 hge) hne) (σ.symm ⟨i, by omega⟩).2 (by rw [e1, e2]; exact le_antisymm hle h3)
    rw [e1, e2] at h4
    simp only at h4
    omega

/-- the interior of a Kuhn simplex meets no other Kuhn simplex -/
theorem kuhn_disjoint (d κ κ' : Nat) (hκ : κ < d.factorial) (hκ' : κ' < d.factorial) (p p' : Nat → Nat) (hp : getPermutation d κ = some p)
    (hp' : getPermutation d κ' = some p') (x y : Nat → K) (hx : InnerSimplex d x) (hy : InKuhn d p' y)
    (h : ∀ i, i < d → referenceToKuhn d x p i = y i) : κ = κ' := by
  obtain ⟨q, a1, a2⟩ := getPermutation_perm d κ hκ
  obtain ⟨q', b1, b2⟩ := getPermutation_perm d κ' hκ'
  obtain rfl := Option.some.inj (hp.symm.trans a2)
  obtain rfl := Option.some.inj (hp'.symm.trans b2)
  obtain ⟨hs1, hs2⟩ := inner_strict a1 hx
  obtain ⟨σ, hσ⟩ := restrict d q a1
  obtain ⟨σ', hσ'⟩ := restrict d q' b1
  have hmono : StrictMono fun i : Fin d => σ.symm (σ' i) := by
    intro i j hij
    have hne : σ.symm (σ' i) ≠ σ.symm (σ' j) := fun h => hij.ne (σ'.injective (σ.symm.injective h))
    by_contra hlt
    have hlt : σ.symm (σ' j) < σ.symm (σ' i) := lt_of_le_of_ne (not_lt.1 hlt) hne.symm
    have e1 := hs1 _ _ hlt (σ.symm (σ' i)).2
    rw [← hσ, ← hσ, Equiv.apply_symm_apply, Equiv.apply_symm_apply, h _ (σ' i).2, h _ (σ' j).2, hσ', hσ'] at e1
    exact absurd (antitone_of_kuhn hy (show (i : Nat) ≤ j from hij.le) j.2) (not_le.2 e1)
  have hid := hmono.eq_id
  refine C39_injective d κ κ' hκ hκ' q q' hp hp' fun i hi => ?_
  have := congrFun hid ⟨i, hi⟩
  simp only [_root_.id] at this
  rw [Equiv.symm_apply_eq] at this
  have e1 := hσ ⟨i, hi⟩
  have e2 := hσ' ⟨i, hi⟩
  rw [this] at e2
  exact e1.symm.trans e2

end Verif.Refine
