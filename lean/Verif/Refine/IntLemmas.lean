import Verif.Refine.IntModel
import Verif.Refine.TriangProps
import Verif.Refine.HCubeProps
import Verif.Refine.IntervalProps
import Mathlib.Data.Nat.Factorial.BigOperators

/-! Lemmas for property C98: if the numbers fit, the machine computes what the model with natural numbers computes. -/

namespace Verif.Refine.Machine

open Function (update)
open Verif.Typ (intOk)
open Equiv (Perm)

theorem chk_of {x : Nat} (h : x < 2 ^ 31) : chk x = some x := if_pos h

/-! ### loops -/

theorem foldlM_add (l : List Nat) (h : Nat → Option Nat) (g : Nat → Nat) (hg : ∀ i ∈ l, h i = some (g i)) :
    ∀ s, s + (l.map g).sum < 2 ^ 31 → l.foldlM (fun s i => (h i).bind fun b => chk (s + b)) s = some (s + (l.map g).sum) := by
  induction l with
  | nil => intro s _; simp
  | cons i l ih =>
    intro s hs
    rw [List.map_cons, List.sum_cons] at hs
    rw [List.foldlM_cons, hg i List.mem_cons_self, Option.bind_some, chk_of (by omega)]
    change l.foldlM _ (s + g i) = _
    rw [ih (fun j hj => hg j (List.mem_cons_of_mem _ hj)) _ (by omega), List.map_cons, List.sum_cons, Nat.add_assoc]

theorem foldlM_mul (g : Nat → Nat) (hg : ∀ i, 0 < g i) : ∀ n, ((List.range n).map g).prod < 2 ^ 31 →
    (List.range n).foldlM (fun r i => chk (r * g i)) 1 = some ((List.range n).map g).prod := by
  intro n
  induction n with
  | zero => intro _; rfl
  | succ n ih =>
    intro h
    rw [List.range_succ, List.map_append, List.prod_append, List.map_singleton, List.prod_singleton] at h ⊢
    rw [List.foldlM_append, ih (lt_of_le_of_lt (Nat.le_mul_of_pos_right _ (hg n)) h)]
    rw [Option.bind_eq_bind, Option.bind_some, List.foldlM_cons, chk_of h]; rfl

theorem prod_factorial : ∀ n, ((List.range n).map fun i => i + 1).prod = n.factorial
  | 0 => rfl
  | n + 1 => by
    rw [List.range_succ, List.map_append, List.prod_append, prod_factorial n, List.map_singleton, List.prod_singleton, Nat.factorial_succ,
      Nat.mul_comm]

theorem factorial_eq {n : Nat} (h : n.factorial < 2 ^ 31) : factorial n = some n.factorial := by
  rw [factorial, foldlM_mul (fun i => i + 1) (fun i => Nat.succ_pos i) n (by rwa [prod_factorial]), prod_factorial]

theorem power_eq {m p : Nat} (hp : 0 < p) (h : m ^ p < 2 ^ 31) : power m p = some (m ^ p) := by
  rcases Nat.eq_zero_or_pos m with rfl | hm
  · obtain ⟨p, rfl⟩ := Nat.exists_eq_succ_of_ne_zero hp.ne'
    have : ∀ l : List Nat, l.foldlM (fun r _ => chk (r * 0)) 0 = some 0 := fun l => by
      induction l with
      | nil => rfl
      | cons i l ih => rw [List.foldlM_cons, Nat.mul_zero, chk_of (by norm_num)]; exact ih
    rw [power, List.range_succ_eq_map, List.foldlM_cons, Nat.mul_zero, chk_of (by norm_num)]
    exact (this _).trans (by rw [zero_pow (Nat.succ_ne_zero p)])
  · have e : ((List.range p).map fun _ => m).prod = m ^ p := by rw [List.map_const', List.prod_replicate, List.length_range]
    rw [power, foldlM_mul (fun _ => m) (fun _ => hm) p (by rwa [e]), e]

theorem power_overflow : ∀ {p m : Nat}, 0 < m → 2 ^ 31 ≤ m ^ p → power m p = none
  | 0, m, _, h => by rw [pow_zero] at h; norm_num at h
  | p + 1, m, hm, h => by
    rw [power, List.range_succ, List.foldlM_append]
    change (power m p).bind _ = _
    by_cases hp : m ^ p < 2 ^ 31
    · rcases Nat.eq_zero_or_pos p with rfl | hp0
      · change (chk (1 * m)).bind _ = none
        rw [chk, if_neg (by rw [Nat.one_mul]; rw [_root_.zero_add, pow_one] at h; omega)]; rfl
      · rw [power_eq hp0 hp, Option.bind_some, List.foldlM_cons, chk, if_neg (by rw [← pow_succ]; omega)]; rfl
    · rw [power_overflow hm (by omega)]; rfl

/-! ### the condition -/

/-- `(n + 1) (n + 2) … (n + d)` is an `int` -/
def Fits (d n : Nat) : Prop := (n + d).descFactorial d < 2 ^ 31

theorem desc_mono {N : Nat} : ∀ {k k' : Nat}, k ≤ k' → k' ≤ N → N.descFactorial k ≤ N.descFactorial k'
  | k, k', h, h' => by
    obtain ⟨j, rfl⟩ := Nat.exists_eq_add_of_le h
    induction j with
    | zero => exact le_rfl
    | succ j ih =>
      refine (ih (by omega) (by omega)).trans ?_
      rw [← Nat.add_assoc, Nat.descFactorial_succ]
      exact Nat.le_mul_of_pos_left _ (by omega)

theorem choose_le_desc (N k : Nat) : N.choose k ≤ N.descFactorial k := by
  rw [Nat.descFactorial_eq_factorial_mul_choose]
  exact Nat.le_mul_of_pos_left _ k.factorial_pos

variable {d n : Nat}

theorem Fits.fact (h : Fits d n) : d.factorial < 2 ^ 31 := by
  refine lt_of_le_of_lt ?_ h
  rw [Nat.descFactorial_eq_factorial_mul_choose]
  exact Nat.le_mul_of_pos_right _ (Nat.choose_pos (by omega))

theorem Fits.pow (h : Fits d n) : (n + 1) ^ d < 2 ^ 31 := by
  refine lt_of_le_of_lt ?_ h
  have := Nat.pow_sub_le_descFactorial (n + d) d
  rwa [show n + d + 1 - d = n + 1 by omega] at this

theorem Fits.vertices (h : Fits d n) : Refine.nVertices d n < 2 ^ 31 := by
  rw [Refine.nVertices, Nat.add_comm]
  exact (choose_le_desc _ _).trans_lt h

theorem Fits.elements (h : Fits d n) : Refine.nElements d n < 2 ^ 31 :=
  lt_of_le_of_lt (Nat.pow_le_pow_left (Nat.le_succ n) d) h.pow

theorem Fits.sum (hd : 0 < d) (h : Fits d n) : n + d < 2 ^ 31 := by
  refine lt_of_le_of_lt ?_ h
  have := desc_mono (N := n + d) (k := 1) (k' := d) hd (by omega)
  rwa [Nat.descFactorial_one] at this

theorem binomial_eq (h : Fits d n) {N k : Nat} (hN : N ≤ n + d) (hk : k ≤ d) : binomial N k = some (N.choose k) := by
  rw [binomial]
  split
  · next h => rw [Nat.choose_eq_zero_of_lt h]
  · next hkN =>
    rw [if_pos]
    refine lt_of_le_of_lt ?_ h
    refine (desc_mono (Nat.min_le_left _ _) (by omega)).trans ?_
    exact (Nat.descFactorial_le _ hN).trans (desc_mono hk (by omega))

theorem nVertices_eq (hd : 0 < d) (h : Fits d n) : nVertices d n = some (Refine.nVertices d n) := by
  have := h.sum hd
  rw [nVertices, chk_of (by omega), Option.bind_some, binomial_eq h (by omega) le_rfl, Refine.nVertices]

theorem nElements_eq (hd : 0 < d) (h : Fits d n) : nElements d n = some (Refine.nElements d n) := power_eq hd h.elements

theorem getPermutation_eq (h : Fits d n) (m : Nat) : getPermutation d m = Refine.getPermutation d m := by
  rw [getPermutation, factorial_eq h.fact, Option.bind_some, Refine.getPermutation, base_eq]

theorem vEnd_eq (hd : 0 < d) (h : Fits d n) : vEnd n = some (Refine.vEnd n) := by
  have := h.sum hd
  rw [vEnd, chk_of (by omega)]; rfl

theorem eEnd_eq (hd : 0 < d) (h : Fits d n) : eEnd d n = some (Refine.eEnd d n) := by
  rw [eEnd, nElements_eq hd h]; rfl

theorem Cone.le {v : Nat → Nat} (h : Cone d v) (j : Nat) : v j ≤ v 0 := by
  by_cases hj : j < d
  · exact decreasing_le h.1 (Nat.zero_le j) hj
  · rw [h.2 j (by omega)]; omega

/-- the machine computes the index of a lattice point -/
theorem pointIndex_eq' (hd : 0 < d) (h : Fits d n) {v : Nat → Nat} (hv : Cone d v) (h0 : v 0 ≤ n) :
    pointIndex d v = some (Refine.pointIndex d v) := by
  have hs := h.sum hd
  have hi := ((pointIndex_lt_iff d hd v hv n).2 h0).trans h.vertices
  rw [Refine.pointIndex, foldl_add, Nat.zero_add] at hi ⊢
  have key := foldlM_add (List.range d)
    (fun i => (chk (d - i + v i)).bind fun s => binomial (s - 1) (d - i))
    (fun i => (d - i + v i - 1).choose (d - i)) (fun i hi' => by
      have := Cone.le hv i
      rw [chk_of (by omega), Option.bind_some, binomial_eq h (by omega) (by omega)]) 0 (by rwa [Nat.zero_add])
  rw [Nat.zero_add] at key
  rw [← key, pointIndex]
  congr 1
  funext s i
  simp only [Option.bind_eq_bind, Option.bind_assoc]

theorem incLoop_eq : ∀ (i : Nat) (v : Nat → Nat), (∀ j, j < i → v j + 1 < 2 ^ 31) → incLoop i v = some (Refine.incLoop i v)
  | 0, v, _ => rfl
  | i + 1, v, h => by
    rw [incLoop, chk_of (h i (Nat.lt_succ_self i)), Option.bind_some, Refine.incLoop]
    dsimp only
    split
    · rfl
    · refine incLoop_eq i _ fun j hj => ?_
      rw [Function.update_of_ne (by omega), Function.update_of_ne (by omega)]
      exact h j (by omega)

theorem outsideLoop_eq (p : Nat → Nat) : ∀ (l : List Nat) (c : Nat → Nat), (∀ j, c j + l.length < 2 ^ 31) →
    outsideLoop p l c = some (Refine.outsideLoop p l c)
  | [], c, _ => rfl
  | i :: l, c, h => by
    rw [List.length_cons] at h
    have := h (p i)
    rw [outsideLoop, chk_of (by omega), Option.bind_some, Refine.outsideLoop]
    dsimp only
    split
    · rfl
    · refine outsideLoop_eq p l _ fun j => ?_
      have := h j
      by_cases hj : j = p i
      · subst hj; rw [Function.update_self]; omega
      · rw [Function.update_of_ne hj]; omega

theorem kuhnToReference_eq (x : Nat → Int) : ∀ m, (∀ i, i < m → -2 ^ 31 ≤ x i - x (i + 1) ∧ x i - x (i + 1) < 2 ^ 31) →
    kuhnToReference (m + 1) x (fun i => i) = some (Refine.kuhnToReference (m + 1) x fun i => i)
  | 0, _ => rfl
  | m + 1, h => by
    have ih := kuhnToReference_eq x m fun i hi => h i (by omega)
    have e := kuhnToReference_id (m + 1) x
    rw [kuhnToReference, Refine.kuhnToReference] at ih ⊢
    rw [Refine.kuhnToReference] at e
    rw [Nat.add_sub_cancel] at ih e ⊢
    rw [List.range_succ, List.foldlM_append, ih, List.foldl_append]
    rw [Option.bind_eq_bind, Option.bind_some, List.foldlM_cons, e]
    dsimp only
    rw [if_neg (by omega), if_neg (by omega)]
    have := h m (by omega)
    rw [intOk, if_pos (by constructor <;> linarith [this.1, this.2])]
    simp only [List.foldl_cons, List.foldl_nil, lt_irrefl, if_false]
    rw [if_neg (by omega)]; rfl

/-! ### vertices -/

theorem vIncrement_eq (hd : 0 < d) (h : Fits d n) {v : Nat → Nat} (hv : Cone d v) (h0 : v 0 ≤ n) :
    vIncrement d ⟨n, v⟩ = VertexIterator.increment d ⟨n, v⟩ := by
  have hs := h.sum hd
  rw [vIncrement, VertexIterator.increment, if_pos h0, if_pos h0, incLoop_eq]
  · rfl
  · intro j _
    have := Cone.le hv j
    dsimp only
    omega

theorem vCoords_eq {K : Type} [IntCast K] [NatCast K] [Div K] (hd : 0 < d) (h : Fits d n) {v : Nat → Nat} (hv : Cone d v) (h0 : v 0 ≤ n) :
    vCoords (K := K) d ⟨n, v⟩ = VertexIterator.coords d ⟨n, v⟩ := by
  have hs := h.sum hd
  obtain ⟨d, rfl⟩ := Nat.exists_eq_succ_of_ne_zero hd.ne'
  rw [vCoords, getPermutation_eq h, VertexIterator.coords, C39_identity]
  simp only [Option.bind_eq_bind, Option.bind_some, Option.map_some]
  rw [kuhnToReference_eq _ d fun i _ => ?_]
  · rfl
  · have := Cone.le hv i
    have := Cone.le hv (i + 1)
    omega

/-! ### elements -/

theorem step_eq' (hd : 0 < d) (h : Fits d n) {x idx : Nat} (h0 : stO d x 0 ≤ n) :
    step d ⟨stO d x, stK d x, n, idx⟩ = some (Refine.step d ⟨stO d x, stK d x, n, idx⟩) := by
  have hs := h.sum hd
  have hk := stK_lt d x
  have hf := h.fact
  rw [step, factorial_eq hf]
  simp only [Option.bind_eq_bind, Option.bind_some]
  rw [chk_of (by omega), Option.bind_some, Refine.step]
  dsimp only
  split
  · rw [incLoop_eq]
    · rfl
    · intro j _
      have := Cone.le (stO_cone d hd x).1 j
      omega
  · rfl

theorem outside_eq (hd : 0 < d) (h : Fits d n) {x : Nat} (h0 : stO d x 0 ≤ n) (k : Nat) :
    outside d (stO d x) k = Refine.outside d (stO d x) k := by
  have hs := h.sum hd
  rw [outside, getPermutation_eq h, Refine.outside]
  cases Refine.getPermutation d k with
  | none => rfl
  | some p =>
    rw [Option.bind_some, outsideLoop_eq]
    · rfl
    · intro j
      have := Cone.le (stO_cone d hd x).1 j
      rw [List.length_range]
      omega

theorem st_mono (hd : 0 < d) {x y : Nat} (hxy : x ≤ y) (h : stO d y 0 ≤ n) : stO d x 0 ≤ n :=
  (st_lt_iff d hd n x).1 (lt_of_le_of_lt hxy ((st_lt_iff d hd n y).2 h))

theorem search_eq' (hd : 0 < d) (h : Fits d n) {y idx : Nat} (hy : Good d y) (h0 : stO d y 0 ≤ n) :
    ∀ fuel x, x < y → search d fuel ⟨stO d x, stK d x, n, idx⟩ = Refine.search d fuel ⟨stO d x, stK d x, n, idx⟩
  | 0, x, _ => rfl
  | fuel + 1, x, hx => by
    have hx1 : stO d (x + 1) 0 ≤ n := st_mono hd (Nat.succ_le_of_lt hx) h0
    rw [search, step_eq' hd h (st_mono hd (Nat.le_succ x) hx1), Option.bind_some, Refine.search, step_eq]
    dsimp only
    rw [outside_eq hd h hx1]
    obtain ⟨q, hq, hg, hi⟩ := good_iff d hd (x + 1)
    rw [Refine.outside, hg, Option.map_some, Option.bind_some, Option.bind_some]
    split
    · next ho =>
      refine search_eq' hd h hy h0 fuel (x + 1) (lt_of_le_of_ne (Nat.succ_le_of_lt hx) fun e => ?_)
      subst e
      have := (outside_iff d q hq _ (stO_cone d hd (x + 1)).1.1).2 (hi.1 hy)
      rw [this] at ho
      exact absurd ho (by simp)
    · rfl

theorem eIncrement_eq (hd : 0 < d) (h : Fits d n) {x k : Nat} (hk : k < Refine.nElements d n) (h0 : stO d x 0 < n) :
    eIncrement d ⟨stO d x, stK d x, n, k⟩ = ElementIterator.increment d ⟨stO d x, stK d x, n, k⟩ := by
  have he := h.elements
  rw [eIncrement, ElementIterator.increment, if_pos h0, if_pos h0]
  dsimp only
  rw [chk_of (by omega), Option.bind_some]
  obtain ⟨y, h1, h2, h3⟩ := exists_good d hd x
  refine search_eq' hd h h3 ((st_lt_iff d hd n y).1 ?_) _ x h1
  have hx := (st_lt_iff d hd (n - 1) x).2 (by omega)
  have hm := (C46_strict (K := ℚ) d (n - 1) n hd (Triang.prism : Triang.Scheme ℚ) (by decide) (by decide) (by omega)).1
  have : (Refine.nVertices d (n - 1) + 1) * d.factorial ≤ Refine.nVertices d n * d.factorial := Nat.mul_le_mul_right _ hm
  rw [Nat.add_mul, Nat.one_mul] at this
  omega

theorem pathCorner_step (q : Perm Nat) (o : Nat → Nat) (i : Nat) :
    update (pathCorner o q i) (q i) (pathCorner o q i (q i) + 1) = pathCorner o q (i + 1) := by
  funext m
  by_cases h : m = q i
  · subst h
    simp only [Function.update_self, pathCorner, exists_lt_iff, Equiv.symm_apply_apply]
    simp
  · rw [Function.update_of_ne h]
    simp only [pathCorner, exists_lt_iff]
    have : q.symm m ≠ i := fun he => h (by rw [← he, Equiv.apply_symm_apply])
    by_cases h2 : q.symm m < i
    · rw [if_pos h2, if_pos (by omega)]
    · rw [if_neg h2, if_neg (by omega)]

theorem pathLoop_eq (hd : 0 < d) (h : Fits d n) (q : Perm Nat) (o : Nat → Nat)
    (hc : ∀ i, i ≤ d → Cone d (pathCorner o q i) ∧ pathCorner o q i 0 ≤ n) : ∀ k i idx, i + k ≤ d →
    pathLoop d q (List.range' i k) (pathCorner o q i) idx = some (ElementIterator.pathLoop d q (List.range' i k) (pathCorner o q i) idx)
  | 0, i, idx, _ => rfl
  | k + 1, i, idx, hik => by
    have hs := h.sum hd
    have := Cone.le (hc i (by omega)).1 (q i)
    have := (hc i (by omega)).2
    rw [List.range'_succ, pathLoop, chk_of (by omega)]
    simp only [Option.bind_eq_bind, Option.bind_some]
    rw [ElementIterator.pathLoop]
    simp only [pathCorner_step]
    rw [pointIndex_eq' hd h (hc (i + 1) (by omega)).1 (hc (i + 1) (by omega)).2, Option.bind_some]
    exact pathLoop_eq hd h q o hc k (i + 1) _ (by omega)

theorem vertexIndices_eq' (hd : 0 < d) (h : Fits d n) {x k : Nat} (hg : Good d x) (h0 : stO d x 0 < n) :
    vertexIndices d ⟨stO d x, stK d x, n, k⟩ = ElementIterator.vertexIndices d ⟨stO d x, stK d x, n, k⟩ := by
  obtain ⟨q, hq, hp, hi⟩ := good_iff d hd x
  have hcone := (stO_cone d hd x).1
  have hdec := (inside_iff d q hq (stO d x)).2 ⟨hcone.1, hi.1 hg⟩
  have hlast := (pathCorner_last d hd q hq (stO d x) n).2 h0
  have hc : ∀ i, i ≤ d → Cone d (pathCorner (stO d x) q i) ∧ pathCorner (stO d x) q i 0 ≤ n := fun i hi =>
    ⟨⟨hdec i hi, fun j hj => by
      rw [pathCorner, hcone.2 j hj, if_neg]
      rintro ⟨s, hs, e⟩
      have := hq j hj
      rw [← this] at e
      have := q.injective e
      omega⟩, hlast i hi⟩
  have e0 : pathCorner (stO d x) q 0 = stO d x := by funext k; simp [pathCorner]
  rw [vertexIndices, getPermutation_eq h, ElementIterator.vertexIndices, hp]
  simp only [Option.bind_eq_bind, Option.bind_some, Option.map_some]
  rw [pointIndex_eq' hd h hcone h0.le, Option.bind_some]
  have := pathLoop_eq hd h q (stO d x) hc d 0 (fun i => if i = 0 then Refine.pointIndex d (stO d x) else 0) (by omega)
  rw [e0, ← List.range_eq_range'] at this
  rw [this]
  rfl

end Verif.Refine.Machine
