import Verif.Float.RefineModel

/-! The coordinates of the refinements as functions of the integer Kuhn coordinates, for any coordinate type. -/

namespace Verif.FloatRefine

open Function Verif.Float Verif.Refine
open Equiv (Perm)

/-! ### the map to a Kuhn simplex as a recursion -/

section
variable {K : Type} [Add K]

theorem r2kLoop_ge (q : Perm Nat) (m : Nat) (x : Nat → K) (j : Nat) (h : m ≤ j) : r2kLoop q m x (q j) = x (q j) := by
  induction m generalizing x with
  | zero => rfl
  | succ m ih => rw [r2kLoop, ih _ (by omega), update_of_ne (q.injective.ne (by omega))]

theorem r2kLoop_step (q : Perm Nat) (m : Nat) (x : Nat → K) (j : Nat) (h : j < m) :
    r2kLoop q m x (q j) = x (q j) + r2kLoop q m x (q (j + 1)) := by
  induction m generalizing x with
  | zero => omega
  | succ m ih =>
    rw [r2kLoop]
    rcases Nat.lt_or_ge j m with h' | h'
    · rw [ih _ h', update_of_ne (q.injective.ne (by omega))]
    · obtain rfl : j = m := by omega
      rw [r2kLoop_ge q j _ j le_rfl, r2kLoop_ge q j _ (j + 1) (by omega), update_self, update_of_ne (q.injective.ne (by omega))]

theorem r2k_last (d : Nat) (q : Perm Nat) (x : Nat → K) (j : Nat) (h : d ≤ j + 1) : referenceToKuhn d x q (q j) = x (q j) :=
  r2kLoop_ge q _ x j (by omega)

theorem r2k_step (d : Nat) (q : Perm Nat) (x : Nat → K) (j : Nat) (h : j + 1 < d) :
    referenceToKuhn d x q (q j) = x (q j) + referenceToKuhn d x q (q (j + 1)) :=
  r2kLoop_step q _ x j (by omega)

end

/-! ### small integers -/

/-- sums of integers up to `N` are exact -/
structure Lat (K : Type) [Zero K] [One K] [Add K] [NatCast K] (N : Nat) : Prop where
  zero : ((0 : Nat) : K) = 0
  one : ((1 : Nat) : K) = 1
  add : ∀ a b : Nat, a + b ≤ N → (a : K) + (b : K) = ((a + b : Nat) : K)

theorem lat_real (N : Nat) : Lat ℝ N := ⟨Nat.cast_zero, Nat.cast_one, fun a b _ => (Nat.cast_add a b).symm⟩

theorem cast_exact {φ : Format} {N : Nat} (h : ∀ m : Nat, m ≤ N → φ.rd m = m) {m : Nat} (hm : m ≤ N) : (m : Fl φ).val = m := h m hm

theorem lat_float {φ : Format} {N : Nat} (h : ∀ m : Nat, m ≤ N → φ.rd m = m) : Lat (Fl φ) N where
  zero := Fl.ext (by rw [Fl.natCast_val, Nat.cast_zero, φ.rd_zero, Fl.zero_val])
  one := Fl.ext (by rw [Fl.natCast_val, Nat.cast_one, φ.rd_one, Fl.one_val])
  add := fun a b hab => Fl.ext (by
    rw [Fl.add_val, cast_exact h (by omega), cast_exact h (by omega), cast_exact h hab, ← Nat.cast_add, h _ hab])

section
variable {K : Type} [Zero K] [One K] [Add K] [NatCast K]

theorem r2k_cast {N : Nat} (L : Lat K N) (d : Nat) (q : Perm Nat) (hq : ∀ k, d ≤ k → q k = k) (w : Nat → Nat)
    (h : ∀ i, i < d → referenceToKuhn d w q i ≤ N) (i : Nat) :
    referenceToKuhn d (fun i => (w i : K)) q i = ((referenceToKuhn d w q i : Nat) : K) := by
  obtain ⟨j, rfl⟩ : ∃ j, q j = i := ⟨q.symm i, Equiv.apply_symm_apply q i⟩
  by_cases hj : d ≤ j + 1
  · rw [r2k_last d q _ j hj, r2k_last d q _ j hj]
  obtain ⟨m, rfl⟩ : ∃ m, d = j + 1 + m := ⟨d - (j + 1), by omega⟩
  clear hj
  generalize hd : j + 1 + m = d at hq h ⊢
  induction m generalizing j with
  | zero => rw [r2k_last d q _ j (by omega), r2k_last d q _ j (by omega)]
  | succ m ih =>
    have h1 := h (q j) (perm_lt hq (by omega))
    rw [r2k_step d q _ j (by omega)] at h1
    rw [r2k_step d q _ j (by omega), ih (j + 1) (by omega), L.add _ _ h1, r2k_step d q w j (by omega)]

end

/-! ### vertices of the simplex -/

/-- the vertex number `k` is a lattice point of the Kuhn cone -/
theorem vertex_lattice (d n k : Nat) (hd : 0 < d) (hk : k < Refine.nVertices d n) :
    ∃ v, Refine.vAt d n k = some ⟨n, v⟩ ∧ Cone d v ∧ v 0 ≤ n := by
  refine ⟨_, Refine.vAt_eq d n hd k hk.le, (iterate_cone d hd k).1, ?_⟩
  rw [← pointIndex_lt_iff d hd _ (iterate_cone d hd k).1, (iterate_cone d hd k).2]
  exact hk

theorem cone_le {d : Nat} {v : Nat → Nat} (h : Cone d v) (i : Nat) : v (i + 1) ≤ v i := by
  by_cases hi : i + 1 < d
  · exact h.dec i hi
  · rw [h.zero (i + 1) (by omega)]
    exact Nat.zero_le _

theorem cone_le_zero {d : Nat} {v : Nat → Nat} (h : Cone d v) (i : Nat) : v i ≤ v 0 := by
  induction i with
  | zero => exact le_rfl
  | succ i ih => exact (cone_le h i).trans ih

/-- the reference coordinates of a lattice point, times the number of intervals -/
def refCoord (v : Nat → Nat) (i : Nat) : Nat := v i - v (i + 1)

theorem coords_lattice {K : Type} [IntCast K] [NatCast K] [Div K] {d : Nat} {v : Nat → Nat} (hv : Cone d v) (n : Nat) :
    VertexIterator.coords (K := K) d ⟨n, v⟩ = some fun i => (((refCoord v i : Nat) : Int) : K) / n := by
  rw [VertexIterator.coords, C39_identity, Option.map_some, kuhnToReference_id]
  congr 1
  funext i
  dsimp only
  congr 2
  have := cone_le hv i
  rw [refCoord]
  split
  · omega
  · rw [hv.zero (i + 1) (by omega)]
    omega

/-! ### corners of the elements of the simplex -/

section
variable {K : Type} [Zero K] [One K]

theorem referenceCorners_simplex (d : Nat) :
    Float.referenceCorners (K := K) d 0 = (fun _ => 0) :: (List.range d).map (fun i k => if k = i then 1 else 0) := by
  induction d with
  | zero => rfl
  | succ d ih =>
    simp only [Float.referenceCorners, Typ.implBase_eq, Nat.add_sub_cancel, Nat.zero_mod]
    rw [ih, List.range_succ, List.map_append]
    rcases Nat.eq_zero_or_pos d with rfl | hd
    · rw [RefGeom.isPrism_of_rep (Or.inl rfl)]; simp
    · rw [RefGeom.isPrism_of_rep_pyr (by omega) (Or.inr (Nat.zero_testBit d))]
      rfl

theorem position_vertex [Add K] [Mul K] [Div K] [NatCast K] (d i : Nat) (hi : i ≤ d) :
    Float.position (K := K) d 0 i d = some fun k => if k + 1 = i then 1 else 0 := by
  simp only [Float.position, if_true, referenceCorners_simplex]
  rcases i with _ | i
  · simp
  · rw [List.getElem?_cons_succ, List.getElem?_map, List.getElem?_range (by omega), Option.map_some]
    simp

end

/-- corner number `i` of the element, in Kuhn coordinates times the number of intervals -/
def kuhnCorner (d : Nat) (o : Nat → Nat) (q : Nat → Nat) (i : Nat) : Nat → Nat :=
  fun j => referenceToKuhn d (fun k => if k + 1 = i then 1 else 0) q j + o j

theorem kuhnCorner_path {d : Nat} {q : Perm Nat} (hq : ∀ k, d ≤ k → q k = k) (o : Nat → Nat) (i : Nat) (hi : i ≤ d) :
    ∃ s, s ≤ d ∧ ∀ j, j < d → kuhnCorner d o q i j = pathCorner o q s j := by
  obtain ⟨s, hs, rfl⟩ : ∃ s, s ≤ d ∧ pathOrder q s = i := by
    rcases i with _ | i
    · exact ⟨0, Nat.zero_le _, rfl⟩
    · refine ⟨q.symm i + 1, symm_lt hq (by omega), ?_⟩
      rw [pathOrder, if_neg (by omega), Nat.add_sub_cancel, Equiv.apply_symm_apply]
  refine ⟨s, hs, fun j hj => ?_⟩
  rw [kuhnCorner, r2k_corner d q hq s hs j hj, pathCorner, Nat.add_comm]
  simp only [exists_lt_iff]

theorem kuhnCorner_cone {d n : Nat} {q : Perm Nat} (hq : ∀ k, d ≤ k → q k = k) {o : Nat → Nat} (ho : ∀ j, d ≤ j → o j = 0)
    (hd : 0 < d) (h : SubSimplex d n o q) (i : Nat) (hi : i ≤ d) : Cone d (kuhnCorner d o q i) ∧ kuhnCorner d o q i 0 ≤ n := by
  obtain ⟨s, hs, e⟩ := kuhnCorner_path hq o i hi
  refine ⟨⟨fun j hj => ?_, fun j hj => ?_⟩, ?_⟩
  · rw [e _ hj, e _ (by omega)]
    exact (h s hs).1 j hj
  · rw [kuhnCorner, ho j hj, ← hq j hj, r2k_last d q _ j (by omega), hq j hj, if_neg (by omega)]
  · rw [e 0 hd]
    exact (h s hs).2

theorem geometry_lattice {K : Type} [Zero K] [One K] [Add K] [Sub K] [Mul K] [Div K] [NatCast K] {d n : Nat} (L : Lat K n) (hd : 0 < d)
    {it : ElementIterator} {q : Perm Nat} (hq : ∀ k, d ≤ k → q k = k) (ho : ∀ j, d ≤ j → it.origin j = 0)
    (hp : getPermutation d it.kuhnIndex = some ⇑q) (hn : it.size = n) (h : SubSimplex d n it.origin q) :
    geometry (K := K) d it = some ((List.range (d + 1)).map fun i => diff d fun j => ((kuhnCorner d it.origin q i j : Nat) : K) / n) := by
  rw [geometry]
  refine RefGeom.mapM_some _ _ _ fun i hi => ?_
  have hi : i ≤ d := by rw [List.mem_range] at hi; omega
  obtain ⟨hc, h0⟩ := kuhnCorner_cone hq ho hd h i hi
  have hle : ∀ j, kuhnCorner d it.origin q i j ≤ n := fun j => (cone_le_zero hc j).trans h0
  rw [position_vertex d i hi, Option.bind_some, global_eq d it q hp, hn]
  congr 2
  funext j
  have e : (fun k => if k + 1 = i then (1 : K) else 0) = fun k => (((if k + 1 = i then 1 else 0 : Nat)) : K) := by
    funext k
    split
    · exact L.one.symm
    · exact L.zero.symm
  rw [e, r2k_cast L d q hq _ (fun j _ => (Nat.le_add_right _ _).trans (hle j)), L.add _ _ (hle j)]
  rfl

end Verif.FloatRefine
