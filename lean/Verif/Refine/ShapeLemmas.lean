import Verif.Refine.ConformProps

/-! Edges of the elements of refined simplices, cubes, prisms and pyramids, in units of the mesh width.  The theorems are in
`ShapeProps.lean`. -/

namespace Verif.Refine

open Function Finset
open Equiv (Perm)

/-! ### integer vectors -/

/-- the difference of two corners on a Kuhn path -/
def pathEdge (q : Perm Nat) (a b i : Nat) : ℤ := (if q.symm i < a then 1 else 0) - if q.symm i < b then 1 else 0

theorem pathEdge_comm (q : Perm Nat) (a b i : Nat) : pathEdge q a b i = -pathEdge q b a i := by
  rw [pathEdge, pathEdge]; ring

theorem pathEdge_bit {q : Perm Nat} {a b : Nat} (h : b ≤ a) (i : Nat) : pathEdge q a b i = 0 ∨ pathEdge q a b i = 1 := by
  rw [pathEdge]
  split <;> split <;> first | omega | (left; rfl) | (right; rfl)

theorem diff_neg (d : Nat) (w : Nat → ℤ) (i : Nat) : diff d (fun j => -w j) i = -diff d w i := by
  rw [diff, diff]
  split
  · ring
  · rfl

theorem diff_bit {d : Nat} {w : Nat → ℤ} (h : ∀ i, w i = 0 ∨ w i = 1) (i : Nat) : diff d w i = -1 ∨ diff d w i = 0 ∨ diff d w i = 1 := by
  have h1 := h i
  have h2 := h (i + 1)
  rw [diff]
  split <;> omega

/-- entries of an edge of a refined simplex -/
theorem diff_pathEdge (d : Nat) (q : Perm Nat) (a b i : Nat) :
    diff d (pathEdge q a b) i = -1 ∨ diff d (pathEdge q a b) i = 0 ∨ diff d (pathEdge q a b) i = 1 := by
  rcases Nat.le_total b a with h | h
  · exact diff_bit (fun i => pathEdge_bit h i) i
  · have e : pathEdge q a b = fun j => -pathEdge q b a j := funext fun j => pathEdge_comm q a b j
    rw [e, diff_neg]
    have := diff_bit (d := d) (fun i => pathEdge_bit (q := q) h i) i
    omega

/-- a set without neighbours -/
theorem card_apart {d : Nat} {S : Finset Nat} (h1 : ∀ i ∈ S, i < d) (h2 : ∀ i ∈ S, i + 1 ∉ S) : 2 * S.card ≤ d + 1 := by
  have e : (S.image (· + 1)).card = S.card := card_image_of_injective _ fun a b h => Nat.succ_injective h
  have hd : Disjoint S (S.image (· + 1)) := by
    rw [disjoint_left]
    intro a ha hb
    obtain ⟨b, hb', rfl⟩ := mem_image.1 hb
    exact h2 b hb' ha
  have hs : S ∪ S.image (· + 1) ⊆ range (d + 1) := by
    intro a ha
    rcases mem_union.1 ha with ha | ha
    · exact mem_range.2 (Nat.lt_succ_of_lt (h1 a ha))
    · obtain ⟨b, hb, rfl⟩ := mem_image.1 ha
      have := h1 b hb
      exact mem_range.2 (by omega)
  have := card_le_card hs
  rw [card_union_of_disjoint hd, e, card_range] at this
  omega

theorem sum_diff_bit {d : Nat} {w : Nat → ℤ} (h : ∀ i, w i = 0 ∨ w i = 1) {T : Finset Nat} (hT : ∀ i ∈ T, i < d) :
    |∑ i ∈ T, diff d w i| ≤ ((d + 1) / 2 : Nat) := by
  have apart : ∀ v : ℤ, v = 1 ∨ v = -1 → 2 * (T.filter fun i => diff d w i = v).card ≤ d + 1 := by
    intro v hv
    refine card_apart (fun i hi => hT i (mem_filter.1 hi).1) fun i hi hi' => ?_
    have a1 := (mem_filter.1 hi).2
    have a2 := (mem_filter.1 hi').2
    have b := hT _ (mem_filter.1 hi').1
    rw [diff, if_pos b] at a1
    have c1 := h i
    have c2 := h (i + 1)
    have c3 := h (i + 1 + 1)
    rw [diff] at a2
    split at a2 <;> omega
  have up : ∀ i ∈ T, diff d w i ≤ if diff d w i = 1 then 1 else 0 := fun i _ => by
    have := diff_bit (d := d) h i
    split <;> omega
  have lo : ∀ i ∈ T, -(if diff d w i = -1 then 1 else 0) ≤ diff d w i := fun i _ => by
    have := diff_bit (d := d) h i
    split <;> omega
  have h1 := sum_le_sum up
  have h2 := sum_le_sum lo
  rw [sum_boole] at h1
  rw [sum_neg_distrib, sum_boole] at h2
  have g1 := apart 1 (.inl rfl)
  have g2 := apart (-1) (.inr rfl)
  rw [abs_le]
  constructor <;> omega

/-- entries of an edge of a triangulated body -/
theorem sum_diff_pathEdge (d : Nat) (q : Perm Nat) (a b : Nat) {T : Finset Nat} (hT : ∀ i ∈ T, i < d) :
    |∑ i ∈ T, diff d (pathEdge q a b) i| ≤ ((d + 1) / 2 : Nat) := by
  rcases Nat.le_total b a with h | h
  · exact sum_diff_bit (fun i => pathEdge_bit h i) hT
  · have e : pathEdge q a b = fun j => -pathEdge q b a j := funext fun j => pathEdge_comm q a b j
    have e' : ∑ i ∈ T, diff d (pathEdge q a b) i = -∑ i ∈ T, diff d (pathEdge q b a) i := by
      rw [← sum_neg_distrib]
      exact sum_congr rfl fun i _ => by rw [e, diff_neg]
    rw [e', abs_neg]
    exact sum_diff_bit (fun i => pathEdge_bit h i) hT

/-! ### edges of pieces -/

variable {K : Type} [Field K]

theorem diff_edge (d : Nat) (q : Perm Nat) (o : Nat → Nat) (n a b i : Nat) :
    diff d (fun j => (lcorner q o a j : K) / n) i - diff d (fun j => (lcorner q o b j : K) / n) i =
      (diff d (pathEdge q a b) i : ℤ) / n := by
  simp only [diff, lcorner, pathEdge]
  split
  · push_cast
    ring
  · push_cast
    ring

theorem r2k_edge {d : Nat} {p : Perm Nat} (hp : ∀ k, d ≤ k → p k = k) (q : Perm Nat) (o : Nat → Nat) (n a b i : Nat) (hi : i < d) :
    ∃ m : ℤ, |m| ≤ ((d + 1) / 2 : Nat) ∧
      referenceToKuhn d (diff d fun j => (lcorner q o a j : K) / n) p i - referenceToKuhn d (diff d fun j => (lcorner q o b j : K) / n) p i =
        m / n := by
  have hj := symm_lt hp hi
  refine ⟨∑ k ∈ (Ico (p.symm i) d).image p, diff d (pathEdge q a b) k, sum_diff_pathEdge d q a b fun k hk => ?_, ?_⟩
  · obtain ⟨l, hl, rfl⟩ := mem_image.1 hk
    exact perm_lt hp (mem_Ico.1 hl).2
  · have h1 : ∀ x : Nat → K, referenceToKuhn d x p i = ∑ k ∈ Ico (p.symm i) d, x (p k) := fun x => by
      conv_lhs => rw [← Equiv.apply_symm_apply p i]
      rw [referenceToKuhn_eq d p x _ hj]
    rw [h1, h1, ← sum_sub_distrib, sum_image fun a _ b _ h => p.injective h, Int.cast_sum, sum_div]
    exact sum_congr rfl fun k _ => diff_edge d q o n a b (p k)

variable [LinearOrder K] [IsStrictOrderedRing K]

/-- the map selects coordinates, up to sign -/
def Signed (d : Nat) (Φ : (Nat → K) → Nat → K) : Prop :=
  ∀ i, i < d → ∃ j, j < d ∧ ((∀ x y, Φ x i - Φ y i = x j - y j) ∨ ∀ x y, Φ x i - Φ y i = -(x j - y j))

section
variable {d n : Nat} {Φ : (Nat → K) → Nat → K} {c c' : Nat → Nat → K} {κ κ' : Nat} {p p' q q' : Perm Nat} {o o' : Nat → Nat}

theorem Piece.edge (P : Piece d n Φ c κ p q o) (hs : Signed d Φ)
    (hΦ : ∀ x y : Nat → K, (∀ i, i < d → x i = y i) → ∀ i, i < d → Φ x i = Φ y i) {i j : Nat} (hi : i ≤ d) (hj : j ≤ d) {l : Nat} (hl : l < d) :
    ∃ m : ℤ, |m| ≤ ((d + 1) / 2 : Nat) ∧ c i l - c j l = m / n := by
  obtain ⟨a, ha, rfl⟩ := pathOrder_surj P.hq hi
  obtain ⟨b, hb, rfl⟩ := pathOrder_surj P.hq hj
  rw [P.corner hΦ ha l hl, P.corner hΦ hb l hl]
  obtain ⟨r, hr, h | h⟩ := hs l hl
  · rw [h]
    exact r2k_edge P.hp q o n a b r hr
  · rw [h]
    obtain ⟨m, h1, h2⟩ := r2k_edge (K := K) P.hp q o n a b r hr
    exact ⟨-m, by rwa [abs_neg], by rw [h2]; push_cast; ring⟩

theorem Piece.shape (P : Piece d n Φ c κ p q o) (hs : Signed d Φ) {i : Nat} (hi : i ≤ d) {l : Nat} (hl : l < d) :
    c i l - c 0 l = (Φ (referenceToKuhn d (diff d (referenceToKuhn d (unit i) q)) p) l - Φ (fun _ => 0) l) / n := by
  have hz : ∀ (q : Perm Nat), (∀ k, d ≤ k → q k = k) → ∀ j, j < d → referenceToKuhn d (fun _ => (0 : K)) q j = 0 := fun q hq j hj => by
    rw [← Equiv.apply_symm_apply q j, referenceToKuhn_eq d q _ _ (symm_lt hq hj)]
    exact sum_const_zero
  have h0 : unit (K := K) 0 = fun _ => 0 := rfl
  have lin : ∀ j, j < d → referenceToKuhn d (diff d fun j => (referenceToKuhn d (unit i) q j + o j) / (n : K)) p j -
      referenceToKuhn d (diff d fun j => (referenceToKuhn d (unit 0) q j + o j) / (n : K)) p j =
      referenceToKuhn d (diff d (referenceToKuhn d (unit i) q)) p j / n := fun j hj => by
    have h1 : ∀ x : Nat → K, referenceToKuhn d x p j = ∑ k ∈ Ico (p.symm j) d, x (p k) := fun x => by
      conv_lhs => rw [← Equiv.apply_symm_apply p j]
      rw [referenceToKuhn_eq d p x _ (symm_lt P.hp hj)]
    rw [h1, h1, h1, ← sum_sub_distrib, sum_div]
    refine sum_congr rfl fun k hk => ?_
    have hk' := perm_lt P.hp (mem_Ico.1 hk).2
    rw [h0]
    simp only [diff]
    split
    · rename_i h
      rw [hz q P.hq _ hk', hz q P.hq _ h]
      ring
    · rw [hz q P.hq _ hk']
      ring
  rw [← interp_corner c hi l, ← interp_corner c (Nat.zero_le d) l, P.map _ l hl, P.map _ l hl]
  obtain ⟨r, hr, h | h⟩ := hs l hl
  · rw [h, h, lin r hr, sub_zero]
  · rw [h, h, lin r hr, sub_zero]
    ring

end

end Verif.Refine
