import Verif.Refine.MapLemmas
import Verif.Refine.VertexProps
import Verif.RefGeom.Props
import Mathlib.LinearAlgebra.Matrix.Block

/-! Properties C42 (elements and their vertices) and C59 (maps between the reference simplex and the Kuhn simplices) for the
simplex refinement. -/

namespace Verif.Refine

open Function Finset Verif.RefGeom
open Equiv (Perm)

variable {K : Type} [Field K] [LinearOrder K] [IsStrictOrderedRing K]

/-! ### C59 -/

/-- C59: mapping to a Kuhn simplex and back changes nothing -/
theorem C59_inverse {K : Type} [AddCommGroup K] (d m : Nat) (p : Nat → Nat) (hm : m < d.factorial) (hp : getPermutation d m = some p)
    (x : Nat → K) : kuhnToReference d (referenceToKuhn d x p) p = x ∧ referenceToKuhn d (kuhnToReference d x p) p = x := by
  obtain ⟨q, h1, h2⟩ := getPermutation_perm d m hm
  obtain rfl := Option.some.inj (hp.symm.trans h2)
  rcases Nat.eq_zero_or_pos d with rfl | hd
  · exact ⟨rfl, rfl⟩
  constructor
  · funext i
    obtain ⟨j, rfl⟩ : ∃ j, q j = i := ⟨q.symm i, Equiv.apply_symm_apply q i⟩
    rw [kuhnToReference_eq]
    split
    · rename_i hj
      rw [referenceToKuhn_eq d q x j (by omega), referenceToKuhn_eq d q x (j + 1) hj, sum_eq_sum_Ico_succ_bot (by omega), add_sub_cancel_right]
    · rename_i hj
      by_cases hj' : j < d
      · obtain rfl : d = j + 1 := by omega
        rw [referenceToKuhn_eq _ q x j (by omega)]
        simp
      · rw [h1 j (by omega), referenceToKuhn_ge d hd q h1 x j (by omega)]
  · funext i
    obtain ⟨j, rfl⟩ : ∃ j, q j = i := ⟨q.symm i, Equiv.apply_symm_apply q i⟩
    by_cases hj : j < d
    · rw [referenceToKuhn_eq d q _ j hj]
      simp only [kuhnToReference_eq]
      obtain ⟨k, rfl⟩ : ∃ k, d = j + k + 1 := ⟨d - 1 - j, by omega⟩
      rw [Finset.sum_Ico_succ_top (by omega), if_neg (by omega)]
      rw [sum_congr rfl fun i hi => if_pos (by rw [mem_Ico] at hi; omega)]
      have := Finset.sum_Ico_sub (fun i => x (q i)) (show j ≤ j + k by omega)
      rw [← neg_inj, ← sum_neg_distrib] at this
      rw [sum_congr rfl fun i _ => (neg_sub (x (q (i + 1))) (x (q i))).symm, this]
      abel
    · have : q j = j := h1 j (by omega)
      rw [this, referenceToKuhn_ge d hd q h1 _ j (by omega)]
      have h3 := kuhnToReference_eq d q x j
      rw [this, if_neg (by omega)] at h3
      exact h3

/-- the reference simplex -/
def InSimplex (d : Nat) (x : Nat → K) : Prop := (∀ i, i < d → 0 ≤ x i) ∧ ∑ i ∈ range d, x i ≤ 1

/-- its interior -/
def InnerSimplex (d : Nat) (x : Nat → K) : Prop := (∀ i, i < d → 0 < x i) ∧ ∑ i ∈ range d, x i < 1

/-- the Kuhn simplex of the order `p`: `1 ≥ y (p 0) ≥ y (p 1) ≥ … ≥ 0` -/
def InKuhn (d : Nat) (p : Nat → Nat) (y : Nat → K) : Prop :=
  (∀ j, j + 1 < d → y (p (j + 1)) ≤ y (p j)) ∧ ∀ j, j < d → 0 ≤ y (p j) ∧ y (p j) ≤ 1

theorem sum_perm (d : Nat) (q : Perm Nat) (hq : ∀ k, d ≤ k → q k = k) (x : Nat → K) : ∑ k ∈ range d, x (q k) = ∑ k ∈ range d, x k := by
  refine sum_bij (fun k _ => q k) ?_ ?_ ?_ fun _ _ => rfl
  · intro k hk
    exact mem_range.2 (perm_lt hq (mem_range.1 hk))
  · intro a _ b _ h
    exact q.injective h
  · intro b hb
    exact ⟨q.symm b, mem_range.2 (symm_lt hq (mem_range.1 hb)), Equiv.apply_symm_apply q b⟩

theorem inKuhn_iff (d : Nat) (q : Perm Nat) (hq : ∀ k, d ≤ k → q k = k) (x : Nat → K) :
    InKuhn d q (referenceToKuhn d x q) ↔ InSimplex d x := by
  have hnn : (∀ j, j < d → 0 ≤ x (q j)) ↔ ∀ i, i < d → 0 ≤ x i := by
    constructor
    · intro h i hi
      have := h _ (symm_lt hq hi)
      rwa [Equiv.apply_symm_apply] at this
    · intro h j hj
      exact h _ (perm_lt hq hj)
  constructor
  · rintro ⟨h1, h2⟩
    have h3 : ∀ j, j < d → 0 ≤ x (q j) := by
      intro j hj
      by_cases hj' : j + 1 < d
      · have := h1 j hj'
        rw [referenceToKuhn_eq d q x j hj, referenceToKuhn_eq d q x (j + 1) hj', sum_eq_sum_Ico_succ_bot hj] at this
        linarith
      · have := (h2 j hj).1
        rw [referenceToKuhn_eq d q x j hj, sum_eq_sum_Ico_succ_bot hj, show j + 1 = d by omega, Ico_self, sum_empty, add_zero] at this
        exact this
    refine ⟨hnn.1 h3, ?_⟩
    rw [← sum_perm d q hq]
    rcases Nat.eq_zero_or_pos d with rfl | hd
    · simp
    · have := (h2 0 hd).2
      rw [referenceToKuhn_eq d q x 0 hd, Nat.Ico_zero_eq_range] at this
      exact this
  · rintro ⟨h1, h2⟩
    have h3 := hnn.2 h1
    refine ⟨fun j hj => ?_, fun j hj => ⟨?_, ?_⟩⟩
    · rw [referenceToKuhn_eq d q x j (by omega), referenceToKuhn_eq d q x (j + 1) hj, sum_eq_sum_Ico_succ_bot (show j < d by omega)]
      have := h3 j (by omega)
      linarith
    · rw [referenceToKuhn_eq d q x j hj]
      exact sum_nonneg fun k hk => h3 k (mem_Ico.1 hk).2
    · rw [referenceToKuhn_eq d q x j hj]
      refine le_trans ?_ h2
      rw [← sum_perm d q hq]
      refine sum_le_sum_of_subset_of_nonneg ?_ ?_
      · intro k hk
        exact mem_range.2 (mem_Ico.1 hk).2
      · intro k hk _
        exact h3 k (mem_range.1 hk)

/-- C59: the image of the reference simplex is the Kuhn simplex of the permutation -/
theorem C59_image (d m : Nat) (p : Nat → Nat) (hm : m < d.factorial) (hp : getPermutation d m = some p) :
    (∀ x : Nat → K, InKuhn d p (referenceToKuhn d x p) ↔ InSimplex d x) ∧
      ∀ y : Nat → K, InSimplex d (kuhnToReference d y p) ↔ InKuhn d p y := by
  have hx : ∀ x : Nat → K, InKuhn d p (referenceToKuhn d x p) ↔ InSimplex d x := by
    intro x
    obtain ⟨q, h1, h2⟩ := getPermutation_perm d m hm
    obtain rfl := Option.some.inj (hp.symm.trans h2)
    exact inKuhn_iff d q h1 x
  refine ⟨hx, fun y => ?_⟩
  rw [← hx, (C59_inverse d m p hm hp y).2]

example : (getPermutation 2 1).map (fun p => (p 0, p 1)) = some (1, 0) ∧
    (fun y : Nat → ℚ => (y 0, y 1)) (referenceToKuhn 2 (fun i => if i = 0 then 1 / 4 else 1 / 2) fun i => 1 - i) = (1 / 4, 3 / 4) := by
  refine ⟨by decide, ?_⟩
  simp [referenceToKuhn, r2kLoop, update]
  norm_num

/-! ### the elements -/

theorem elem (d n : Nat) (hd : 0 < d) (k : Nat) (hk : k < nElements d n) :
    ∃ it, ∃ q : Perm Nat, eAt d n k = some it ∧ it.size = n ∧ (∀ j, d ≤ j → it.origin j = 0) ∧ (∀ j, d ≤ j → q j = j) ∧
      it.kuhnIndex < d.factorial ∧ getPermutation d it.kuhnIndex = some ⇑q ∧ SubSimplex d n it.origin q := by
  obtain ⟨it, p, h1, h2, h3⟩ := C41_inside d n hd k hk
  obtain ⟨x, _, _, h5⟩ := eAt_eq d n hd k hk.le
  obtain ⟨q, h6, h7, _⟩ := good_iff d hd x
  rw [h5] at h1
  obtain rfl := Option.some.inj h1
  obtain rfl := Option.some.inj (h7.symm.trans h2)
  exact ⟨_, q, h5, rfl, (stO_cone d hd x).1.zero, h6, stK_lt d x, h7, h3⟩

theorem position_vertex (d i : Nat) (hi : i ≤ d) : position (K := K) d 0 i d = some fun k => if k + 1 = i then 1 else 0 := by
  rw [C21_vertex, C17_simplex d 0 fun k _ _ => Nat.zero_testBit k]
  rcases i with _ | i
  · simp
  · rw [List.getElem?_cons_succ, List.getElem?_map, List.getElem?_range (by omega), Option.map_some]
    simp

theorem geometry_eq (d : Nat) (it : ElementIterator) (p : Nat → Nat) (hp : getPermutation d it.kuhnIndex = some p) :
    it.geometry (K := K) d = some ((List.range (d + 1)).map fun i =>
      diff d fun j => (referenceToKuhn d (fun k => if k + 1 = i then (1 : K) else 0) p j + it.origin j) / it.size) := by
  rw [ElementIterator.geometry]
  refine mapM_some _ _ _ fun i hi => ?_
  rw [position_vertex d i (by rw [List.mem_range] at hi; omega), Option.bind_some, global_eq d it p hp]

theorem pathOrder_le {d : Nat} {q : Perm Nat} (hq : ∀ k, d ≤ k → q k = k) {s : Nat} (hs : s ≤ d) : pathOrder q s < d + 1 := by
  rw [pathOrder]
  split
  · omega
  · have := perm_lt hq (show s - 1 < d by omega)
    omega

theorem diff_congr {d : Nat} {y z : Nat → K} (h : ∀ i, i < d → y i = z i) : ∀ i, i < d → diff d y i = diff d z i := by
  intro i hi
  rw [diff, diff, h i hi]
  split
  · rw [h (i + 1) (by assumption)]
  · rfl

/-- the coordinates of the vertex with a given number -/
theorem vertex_coords (d n : Nat) (hd : 0 < d) (v : Nat → Nat) (hv : Cone d v) (h0 : v 0 ≤ n) :
    pointIndex d v < nVertices d n ∧ ∃ it x, vAt d n (pointIndex d v) = some it ∧ it.coords (K := K) d = some x ∧ it.vertex = v ∧
      x = diff d fun i => (v i : K) / n := by
  have hlt := (pointIndex_lt_iff d hd v hv n).2 h0
  refine ⟨hlt, _, _, vAt_eq d n hd _ hlt.le, ?_, ?_, rfl⟩
  · rw [VertexIterator.coords, C39_identity, Option.map_some, iterate_index d hd v hv]
    congr 1
    funext i
    simp only [kuhnToReference_id, diff]
    split
    · rw [← sub_div]; simp
    · simp
  · exact iterate_index d hd v hv

/-! ### C42 -/

/-- C42 as stated: the `r`-th vertex listed has the coordinates of the `r`-th corner -/
def C42_order_full : Prop := ∀ (d n k r : Nat), 0 < d → k < nElements d n → r ≤ d →
  ∃ it idx corners v x c, eAt d n k = some it ∧ it.vertexIndices d = some idx ∧ it.geometry (K := ℚ) d = some corners ∧
    vAt d n (idx r) = some v ∧ v.coords (K := ℚ) d = some x ∧ corners[r]? = some c ∧ ∀ i, i < d → x i = c i

/-- C42: the `r`-th vertex listed is, for even Kuhn index, the corner number `0, p 0 + 1, …, p (d - 1) + 1` of `geometry()`,
for odd Kuhn index the list is reversed.  (Missing: the order is not that of `geometry()`, see
`C42_order_counterexample`.) -/
theorem C42_order_partial (d n k : Nat) (hd : 0 < d) (hk : k < nElements d n) :
    ∃ it p idx corners, eAt d n k = some it ∧ getPermutation d it.kuhnIndex = some p ∧ it.vertexIndices d = some idx ∧
      it.geometry (K := K) d = some corners ∧ corners.length = d + 1 ∧
      ∀ r, r ≤ d → idx r < nVertices d n ∧ ∃ v x c, vAt d n (idx r) = some v ∧ v.coords (K := K) d = some x ∧
        corners[pathOrder p (if it.kuhnIndex % 2 = 1 then d - r else r)]? = some c ∧ ∀ i, i < d → x i = c i := by
  obtain ⟨it, q, h1, h2, h3, h4, h5, h6, h7⟩ := elem d n hd k hk
  obtain ⟨idx, h8, h9⟩ := vertexIndices_eq d it q h6
  refine ⟨it, q, idx, _, h1, h6, h8, geometry_eq d it q h6, by simp, fun r hr => ?_⟩
  rw [h9 r hr]
  set s := if it.kuhnIndex % 2 = 1 then d - r else r
  have hs : s ≤ d := by
    simp only [s]
    split <;> omega
  have hc : Cone d (pathCorner it.origin q s) := by
    refine ⟨(h7 s hs).1, fun j hj => ?_⟩
    have : q.symm j = j := by rw [Equiv.symm_apply_eq, h4 j hj]
    simp only [pathCorner, h3 j hj, exists_lt_iff]
    rw [if_neg (by omega)]
  obtain ⟨h10, v, x, h11, h12, _, h13⟩ := vertex_coords (K := K) d n hd _ hc (h7 s hs).2
  have hcorner : ((List.range (d + 1)).map fun i =>
      diff d fun j => (referenceToKuhn d (fun k => if k + 1 = i then (1 : K) else 0) q j + it.origin j) / it.size)[pathOrder q s]? =
      some (diff d fun j => (referenceToKuhn d (fun k => if k + 1 = pathOrder q s then (1 : K) else 0) q j + it.origin j) / it.size) := by
    rw [List.getElem?_map, List.getElem?_range (pathOrder_le h4 hs), Option.map_some]
  refine ⟨h10, v, x, _, h11, h12, hcorner, ?_⟩
  · rw [h13]
    refine diff_congr fun i hi => ?_
    rw [r2k_corner d q h4 s hs i hi, h2]
    simp only [pathCorner, exists_lt_iff]
    split <;> simp [add_comm]

/-- C42: the vertices listed are the corners of `geometry()`, each once -/
theorem C42_set_partial (d n k : Nat) (hd : 0 < d) (hk : k < nElements d n) :
    ∃ it idx corners, eAt d n k = some it ∧ it.vertexIndices d = some idx ∧ it.geometry (K := K) d = some corners ∧
      corners.length = d + 1 ∧ ∃ f : Fin (d + 1) → Fin (d + 1), Bijective f ∧ ∀ r : Fin (d + 1), idx r < nVertices d n ∧
        ∃ v x c, vAt d n (idx r) = some v ∧ v.coords (K := K) d = some x ∧ corners[(f r : Nat)]? = some c ∧ ∀ i, i < d → x i = c i := by
  obtain ⟨it, p, idx, corners, h1, h2, h3, h4, h5, h6⟩ := C42_order_partial (K := K) d n k hd hk
  obtain ⟨it', q, h1', _, _, hq, _, h2', _⟩ := elem d n hd k hk
  obtain rfl := Option.some.inj (h1.symm.trans h1')
  obtain rfl := Option.some.inj (h2.symm.trans h2')
  refine ⟨it, idx, corners, h1, h3, h4, h5, fun r => ⟨pathOrder q (if it.kuhnIndex % 2 = 1 then d - r else r), ?_⟩, ?_, fun r => h6 r (by omega)⟩
  · exact pathOrder_le hq (by split <;> omega)
  · refine Finite.injective_iff_bijective.1 fun a b hab => ?_
    have hab := congrArg Fin.val hab
    simp only [pathOrder] at hab
    have ha := a.2
    have hb := b.2
    ext
    by_cases hodd : it.kuhnIndex % 2 = 1
    · simp only [if_pos hodd] at hab
      split at hab
      · split at hab
        · omega
        · omega
      · split at hab
        · omega
        · have := q.injective (Nat.succ_injective hab)
          omega
    · simp only [if_neg hodd] at hab
      split at hab
      · split at hab
        · omega
        · omega
      · split at hab
        · omega
        · have := q.injective (Nat.succ_injective hab)
          omega

/-- element 2 of the triangle with two intervals per edge: `vertexIndices()` starts with the vertex (1/2, 1/2), `geometry()`
with the corner (1/2, 0) -/
theorem C42_order_counterexample : ¬ C42_order_full := by
  intro h
  obtain ⟨it, idx, corners, v, x, c, h1, h2, h3, h4, h5, h6, h7⟩ := h 2 2 2 0 (by omega) (by decide) (by omega)
  have e1 : ((eAt 2 2 2).bind fun it => it.vertexIndices 2).map (fun idx => idx 0) = some 4 := by decide +kernel
  have e2 : ((vAt 2 2 4).bind fun v => v.coords (K := ℚ) 2).map (fun x => x 1) = some (1 / 2) := by decide +kernel
  have e3 : (((eAt 2 2 2).bind fun it => it.geometry (K := ℚ) 2).bind fun c => c[0]?).map (fun c => c 1) = some 0 := by decide +kernel
  rw [h1, Option.bind_some, h2, Option.map_some, Option.some.injEq] at e1
  rw [← e1, h4, Option.bind_some, h5, Option.map_some, Option.some.injEq] at e2
  rw [h1, Option.bind_some, h3, Option.bind_some, h6, Option.map_some, Option.some.injEq] at e3
  have := h7 1 (by omega)
  rw [e2, e3] at this
  norm_num at this

/-- C42: the corner differences of `geometry()` have determinant `1 / n^dim`, so that the volume of the element is
`1 / (dim! n^dim)` and all elements are oriented as the reference simplex -/
theorem C42_determinant (d n k : Nat) (hd : 0 < d) (hk : k < nElements d n) :
    ∃ it corners, ∃ c : Nat → Nat → K, eAt d n k = some it ∧ it.geometry (K := K) d = some corners ∧
      (∀ i, i ≤ d → corners[i]? = some (c i)) ∧
      Matrix.det (fun i l : Fin d => c (l + 1) i - c 0 i) = 1 / (n : K) ^ d := by
  obtain ⟨it, q, h1, h2, h3, h4, h5, h6, h7⟩ := elem d n hd k hk
  refine ⟨it, _, fun i => diff d fun j => (referenceToKuhn d (fun k => if k + 1 = i then (1 : K) else 0) q j + it.origin j) / it.size,
    h1, geometry_eq d it q h6, fun i hi => ?_, ?_⟩
  · rw [List.getElem?_map, List.getElem?_range (by omega), Option.map_some]
  obtain ⟨σ, hσ⟩ := restrict d q h4
  -- the matrices of `referenceToKuhn` and `kuhnToReference`
  let U : Matrix (Fin d) (Fin d) K := fun i l => if i ≤ l then 1 else 0
  let D : Matrix (Fin d) (Fin d) K := fun i l => if i = l then 1 else if (i : Nat) + 1 = l then -1 else 0
  have hU : U.det = 1 := by
    rw [Matrix.det_of_upperTriangular (M := U) (fun i j (hij : j < i) => if_neg (not_le.2 hij))]
    exact prod_eq_one fun i _ => if_pos le_rfl
  have hD : D.det = 1 := by
    rw [Matrix.det_of_upperTriangular (M := D) (fun i j (hij : j < i) => ?_)]
    · exact prod_eq_one fun i _ => if_pos rfl
    · have hij' : (j : Nat) < i := hij
      simp only [D]
      rw [if_neg (ne_of_gt hij), if_neg (by omega)]
  have hinv : ∀ i : Fin d, ((σ.symm i : Fin d) : Nat) = q.symm i := by
    intro i
    rw [Equiv.eq_symm_apply, ← hσ, Equiv.apply_symm_apply]
  have hM : (fun i l : Fin d => (diff d fun j => (referenceToKuhn d (fun k => if k + 1 = (l : Nat) + 1 then (1 : K) else 0) q j + it.origin j) / it.size) i -
      (diff d fun j => (referenceToKuhn d (fun k => if k + 1 = 0 then (1 : K) else 0) q j + it.origin j) / it.size) i) =
      (1 / (n : K)) • (D * U.submatrix σ.symm σ.symm : Matrix (Fin d) (Fin d) K) := by
    funext i l
    -- linear part
    have hl : ∀ j, j < d → referenceToKuhn d (fun k => if k + 1 = (l : Nat) + 1 then (1 : K) else 0) q j = if q.symm j ≤ q.symm l then 1 else 0 := by
      intro j hj
      have := r2k_corner (K := K) d q h4 (q.symm l + 1) (symm_lt h4 l.2) j hj
      rw [pathOrder, if_neg (by omega), Nat.add_sub_cancel, Equiv.apply_symm_apply] at this
      rw [this]
      exact if_congr Nat.lt_succ_iff rfl rfl
    have h0 : ∀ j, j < d → referenceToKuhn d (fun k => if k + 1 = 0 then (1 : K) else 0) q j = 0 := by
      intro j hj
      have := r2k_corner (K := K) d q h4 0 (by omega) j hj
      rw [pathOrder, if_pos rfl] at this
      rw [this, if_neg (by omega)]
    have hr : ((1 / (n : K)) • (D * U.submatrix σ.symm σ.symm : Matrix (Fin d) (Fin d) K)) i l =
        1 / (n : K) * ∑ j : Fin d, D i j * if q.symm j ≤ q.symm l then 1 else 0 := by
      rw [Matrix.smul_apply, Matrix.mul_apply, smul_eq_mul]
      congr 1
      refine sum_congr rfl fun j _ => ?_
      rw [Matrix.submatrix_apply]
      simp only [U]
      congr 1
      refine if_congr ?_ rfl rfl
      rw [Fin.le_def, hinv, hinv]
    rw [hr, diff, diff, hl i i.2, h0 i i.2, h2]
    by_cases hi : (i : Nat) + 1 < d
    · rw [if_pos hi, if_pos hi, hl _ hi, h0 _ hi]
      have hne : i ≠ ⟨i + 1, hi⟩ := by
        intro he
        have := congrArg Fin.val he
        simp at this
      rw [Finset.sum_eq_add i ⟨i + 1, hi⟩ hne]
      · simp only [D, if_pos, if_neg hne]
        field_simp
        ring
      · intro j _ hj
        simp only [D]
        rw [if_neg (fun he => hj.1 he.symm), if_neg, zero_mul]
        intro he
        exact hj.2 (Fin.ext he.symm)
      · simp
      · simp
    · rw [if_neg hi, if_neg hi, Finset.sum_eq_single i]
      · simp only [D, if_pos]
        field_simp
        ring
      · intro j _ hj
        simp only [D]
        rw [if_neg (fun he => hj he.symm), if_neg (by have := j.2; omega), zero_mul]
      · simp
  rw [hM, Matrix.det_smul, Matrix.det_mul, hD, Matrix.det_submatrix_equiv_self, hU, Fintype.card_fin]
  simp

end Verif.Refine
