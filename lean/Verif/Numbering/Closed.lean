import Verif.Numbering.Lemmas

/-! Numbers of the faces of simplices and of cubes in closed form; their facets and normals. -/

namespace Verif.Numbering

open Verif.RefTopo Verif.RefGeom Verif.Typ

/-! ### all vertices, one vertex -/

theorem vlist_whole {t : Topo} (f : Face t) (h : f.codim = 0) : vlist f = List.range (t.sz t.dim) := by
  induction f with
  | pt => rfl
  | @edge t f ih =>
    simp only [Face.codim] at h
    rw [vlist_edge, ih h, Topo.dim, Topo.sz, Topo.sz_eq_zero t (t.dim + 1) (by omega), zero_add, two_mul, List.range_add]
  | bot f ih => simp [Face.codim] at h
  | top f ih => simp [Face.codim] at h
  | base f ih => simp [Face.codim] at h
  | @cone t f ih =>
    simp only [Face.codim] at h
    rw [vlist_cone, ih h, Topo.dim, Topo.sz, Topo.sz_eq_zero t (t.dim + 1) (by omega), if_pos rfl, zero_add, List.range_succ]
  | apex => simp [Face.codim] at h

theorem vlist_vertex {t : Topo} (f : Face t) (h : f.codim = t.dim) : vlist f = [f.idx] := by
  induction f with
  | pt => rfl
  | @edge t f ih =>
    have := Face.codim_le f
    simp only [Face.codim, Topo.dim] at h
    omega
  | bot f ih =>
    simp only [Face.codim, Topo.dim] at h
    rw [vlist_bot, ih (by omega), bot_idx _ (by omega)]
  | top f ih =>
    simp only [Face.codim, Topo.dim] at h
    rw [vlist_top, ih (by omega), top_idx _ (by omega)]
    rfl
  | base f ih =>
    simp only [Face.codim, Topo.dim] at h
    rw [vlist_base, ih (by omega)]
    rfl
  | @cone t f ih =>
    have := Face.codim_le f
    simp only [Face.codim, Topo.dim] at h
    omega
  | apex => rfl

/-! ### simplices -/

theorem dim_simplex (n : Nat) : (Topo.simplex n).dim = n := by
  induction n with
  | zero => rfl
  | succ n ih => rw [Topo.simplex, Topo.dim, ih]

theorem dim_cube (n : Nat) : (Topo.cube n).dim = n := by
  induction n with
  | zero => rfl
  | succ n ih => rw [Topo.cube, Topo.dim, ih]

theorem nv_simplex (n : Nat) : (Topo.simplex n).sz n = n + 1 := by
  rw [Topo.sz_simplex n n (le_refl _), Nat.choose_succ_self_right]

theorem nv_cube (n : Nat) : (Topo.cube n).sz n = 2 ^ n := by
  rw [Topo.sz_cube, Nat.choose_self, one_mul]

/-- `Σⱼ binomial(lⱼ, j+1)`: the position of an ascending list among all ascending lists of its length,
ordered by their last entries first -/
def rank (l : List Nat) : Nat := ∑ j ∈ Finset.range l.length, (l.getD j 0).choose (j + 1)

theorem rank_append (l : List Nat) (x : Nat) : rank (l ++ [x]) = rank l + x.choose (l.length + 1) := by
  rw [rank, List.length_append, List.length_singleton, Finset.sum_range_succ]
  congr 1
  · refine Finset.sum_congr rfl fun j hj => ?_
    rw [List.getD_append _ _ _ _ (Finset.mem_range.1 hj)]
  · rw [List.getD_append_right _ _ _ _ (le_refl _), Nat.sub_self]
    rfl

theorem vlist_simplex : ∀ (n : Nat) (f : Face (Topo.simplex n)),
    (vlist f).length + f.codim = n + 1 ∧ f.idx = rank (vlist f) := by
  intro n
  induction n with
  | zero =>
    intro f
    change Face .pt at f
    cases f
    exact ⟨rfl, rfl⟩
  | succ n ih =>
    change ∀ f : Face (.pyr (Topo.simplex n)), (vlist f).length + f.codim = n + 1 + 1 ∧ f.idx = rank (vlist f)
    intro f
    cases f with
    | base f =>
      rw [vlist_base]
      obtain ⟨h1, h2⟩ := ih f
      exact ⟨by change (vlist f).length + (f.codim + 1) = _; omega, h2⟩
    | cone f =>
      rw [vlist_cone, dim_simplex, nv_simplex, rank_append, List.length_append, List.length_singleton]
      obtain ⟨h1, h2⟩ := ih f
      refine ⟨by simp only [Face.codim]; omega, ?_⟩
      simp only [Face.idx]
      rw [← h2, Nat.add_comm]
      congr 1
      have hle := Face.codim_le f
      rw [dim_simplex] at hle
      cases hc : f.codim with
      | zero => exact (Nat.choose_eq_zero_of_lt (by omega)).symm
      | succ c =>
        simp only
        rw [Topo.sz_simplex n c (by omega), show (vlist f).length + 1 = n + 1 - c by omega,
          Nat.choose_symm (by omega)]
    | apex =>
      rw [vlist_apex, dim_simplex, nv_simplex]
      refine ⟨?_, ?_⟩
      · simp only [Face.codim, List.length_singleton, dim_simplex]
        omega
      · simp only [Face.idx, dim_simplex, nv_simplex]
        rw [rank]
        simp

theorem exists_simplex_face (n : Nat) : ∀ l : List Nat, l ≠ [] → l.Pairwise (· < ·) → (∀ x ∈ l, x ≤ n) →
    ∃ f : Face (Topo.simplex n), vlist f = l := by
  induction n with
  | zero =>
    intro l hne hs hle
    change ∃ f : Face .pt, vlist f = l
    refine ⟨Face.pt, ?_⟩
    rw [vlist_pt]
    match l, hne with
    | [x], _ => rw [Nat.le_zero.1 (hle x (by simp))]
    | x :: y :: l, _ =>
      have h1 := hle y (by simp)
      have h2 := List.rel_of_pairwise_cons hs (a' := y) (by simp)
      omega
  | succ n ih =>
    intro l hne hs hle
    obtain ⟨l', x, rfl⟩ : ∃ l' x, l = l' ++ [x] := ⟨l.dropLast, l.getLast hne, (List.dropLast_append_getLast hne).symm⟩
    have hs' := List.pairwise_append.1 hs
    change ∃ f : Face (.pyr (Topo.simplex n)), vlist f = l' ++ [x]
    by_cases hx : x = n + 1
    · subst hx
      by_cases hl : l' = []
      · subst hl
        exact ⟨Face.apex, by rw [vlist_apex, dim_simplex, nv_simplex]; rfl⟩
      · obtain ⟨f, hf⟩ := ih l' hl hs'.1 fun y hy => by
          have := hs'.2.2 y hy (n + 1) (by simp)
          omega
        exact ⟨Face.cone f, by rw [vlist_cone, dim_simplex, nv_simplex, hf]⟩
    · have hxn := hle x (by simp)
      obtain ⟨f, hf⟩ := ih (l' ++ [x]) hne hs fun y hy => by
        rcases List.mem_append.1 hy with hy | hy
        · have := hs'.2.2 y hy x (by simp)
          omega
        · rw [List.mem_singleton.1 hy]
          omega
      exact ⟨Face.base f, by rw [vlist_base, hf]⟩

theorem vlist_simplex_facet : ∀ (n : Nat) (f : Face (Topo.simplex n)), f.codim = 1 →
    vlist f = (List.range (n + 1)).filter fun v => v ≠ n - f.idx := by
  intro n
  induction n with
  | zero =>
    intro f h
    change Face .pt at f
    cases f
    exact absurd h (by decide)
  | succ n ih =>
    change ∀ f : Face (.pyr (Topo.simplex n)), f.codim = 1 →
      vlist f = (List.range (n + 1 + 1)).filter fun v => v ≠ n + 1 - f.idx
    intro f h
    cases f with
    | base f =>
      have h0 : f.codim = 0 := by simpa [Face.codim] using h
      rw [vlist_base, vlist_whole f h0, dim_simplex, nv_simplex]
      have hi : (Face.base f).idx = 0 := Face.idx_of_codim_zero f h0
      rw [hi, Nat.sub_zero, List.range_succ (n := n + 1), List.filter_append]
      rw [List.filter_eq_self.2 fun v hv => by have := List.mem_range.1 hv; simp; omega]
      simp
    | cone f =>
      have h0 : f.codim = 1 := by simpa [Face.codim] using h
      have hi : (Face.cone f).idx = 1 + f.idx := by simp only [Face.idx, h0, Topo.sz_zero]
      rw [vlist_cone, dim_simplex, nv_simplex, ih f h0, hi, List.range_succ (n := n + 1), List.filter_append,
        show n + 1 - (1 + f.idx) = n - f.idx by omega]
      congr 1
      have : n + 1 ≠ n - f.idx := by omega
      simp [this]
    | apex =>
      have h0 : n = 0 := by simpa [Face.codim, dim_simplex] using h
      subst h0
      rfl

/-! ### cubes -/

/-- the face of the cube whose coordinate `k` is fixed to `b` where `a k = some b` and free where `a k = none` -/
def ofDig (a : Nat → Option Bool) : (n : Nat) → Face (Topo.cube n)
  | 0 => Face.pt
  | n + 1 => match a n with
    | none => Face.edge (ofDig a n)
    | some false => Face.bot (ofDig a n)
    | some true => Face.top (ofDig a n)

theorem ofDig_congr {a b : Nat → Option Bool} : ∀ n, (∀ k, k < n → a k = b k) → ofDig a n = ofDig b n
  | 0, _ => rfl
  | n + 1, h => by rw [ofDig, ofDig, ofDig_congr n fun k hk => h k (by omega), h n (by omega)]

theorem ofDig_surj : ∀ (n : Nat) (f : Face (Topo.cube n)), ∃ a, ofDig a n = f := by
  intro n
  induction n with
  | zero =>
    intro f
    change Face .pt at f
    cases f
    exact ⟨fun _ => none, rfl⟩
  | succ n ih =>
    have key : ∀ (f : Face (Topo.cube n)) (o : Option Bool), ∃ a, ofDig a n = f ∧ a n = o := by
      intro f o
      obtain ⟨a, ha⟩ := ih f
      refine ⟨Function.update a n o, ?_, Function.update_self ..⟩
      rw [← ha]
      exact ofDig_congr n fun k hk => Function.update_of_ne (by omega) ..
    change ∀ f : Face (.prism (Topo.cube n)), ∃ a, (match a n with
        | none => Face.edge (ofDig a n)
        | some false => Face.bot (ofDig a n)
        | some true => Face.top (ofDig a n) : Face (.prism (Topo.cube n))) = f
    intro f
    cases f with
    | edge f => obtain ⟨a, ha, hn⟩ := key f none; exact ⟨a, by rw [hn, ← ha]⟩
    | bot f => obtain ⟨a, ha, hn⟩ := key f (some false); exact ⟨a, by rw [hn, ← ha]⟩
    | top f => obtain ⟨a, ha, hn⟩ := key f (some true); exact ⟨a, by rw [hn, ← ha]⟩

/-- number of fixed directions among the first `k` -/
def fixedBelow (a : Nat → Option Bool) (k : Nat) : Nat := ((Finset.range k).filter fun j => (a j).isSome).card

theorem fixedBelow_succ (a : Nat → Option Bool) (k : Nat) :
    fixedBelow a (k + 1) = fixedBelow a k + if (a k).isSome then 1 else 0 := by
  rw [fixedBelow, Finset.range_add_one, Finset.filter_insert]
  by_cases h : (a k).isSome
  · rw [if_pos h, if_pos h, Finset.card_insert_of_notMem (by simp)]
    rfl
  · rw [if_neg h, if_neg h]
    rfl

theorem ofDig_codim (a : Nat → Option Bool) (n : Nat) : (ofDig a n).codim = fixedBelow a n := by
  induction n with
  | zero => rfl
  | succ n ih =>
    rw [fixedBelow_succ, ofDig, ← ih]
    rcases h : a n with _ | _ | _ <;> rfl

/-- the number of the face with the given fixed coordinates -/
def cubeNumber (a : Nat → Option Bool) (n : Nat) : Nat :=
  ∑ k ∈ Finset.range n, match a k with
    | none => 0
    | some b => k.choose (fixedBelow a k + 1) * 2 ^ (fixedBelow a k + 1) +
        if b then k.choose (fixedBelow a k) * 2 ^ fixedBelow a k else 0

theorem ofDig_idx (a : Nat → Option Bool) (n : Nat) : (ofDig a n).idx = cubeNumber a n := by
  induction n with
  | zero => rfl
  | succ n ih =>
    rw [cubeNumber, Finset.sum_range_succ, ← cubeNumber, ← ih, ofDig]
    rcases h : a n with _ | _ | _
    · rfl
    · simp only [Face.idx, ofDig_codim, Topo.sz_cube]
      simp only [Bool.false_eq_true, if_false]
      omega
    · simp only [Face.idx, ofDig_codim, Topo.sz_cube, if_true]
      omega

/-- vertex `v` of the cube (coordinate `k` of which is bit `k` of `v`) has the fixed coordinates -/
def matchesDig (a : Nat → Option Bool) (n v : Nat) : Bool :=
  (List.range n).all fun k => (a k).isNone || a k == some (v.testBit k)

theorem matchesDig_succ (a : Nat → Option Bool) (n v : Nat) :
    matchesDig a (n + 1) v = (matchesDig a n v && ((a n).isNone || a n == some (v.testBit n))) := by
  rw [matchesDig, List.range_succ, List.all_append, matchesDig]
  simp

theorem matchesDig_add (a : Nat → Option Bool) (n v : Nat) : matchesDig a n (2 ^ n + v) = matchesDig a n v := by
  rw [matchesDig, matchesDig, Bool.eq_iff_iff, List.all_eq_true, List.all_eq_true]
  refine forall₂_congr fun k hk => ?_
  rw [Nat.testBit_two_pow_add_gt (List.mem_range.1 hk)]

theorem ofDig_vlist (a : Nat → Option Bool) (n : Nat) : vlist (ofDig a n) = (List.range (2 ^ n)).filter (matchesDig a n) := by
  induction n with
  | zero => rfl
  | succ n ih =>
    have h1 : ∀ v ∈ List.range (2 ^ n), v.testBit n = false := fun v hv =>
      Nat.testBit_lt_two_pow (List.mem_range.1 hv)
    have h2 : ∀ v ∈ List.range (2 ^ n), (2 ^ n + v).testBit n = true := fun v hv => by
      rw [Nat.testBit_two_pow_add_eq, h1 v hv]
      rfl
    rw [pow_succ, mul_two, List.range_add, List.filter_append, List.filter_map, ofDig]
    rcases h : a n with _ | _ | _
    · simp only
      refine (vlist_edge (ofDig a n)).trans ?_
      rw [ih, dim_cube, nv_cube]
      congr 1
      · refine List.filter_congr fun v hv => ?_
        rw [matchesDig_succ, h]; simp
      · congr 1
        refine List.filter_congr fun v hv => ?_
        simp only [Function.comp]
        rw [matchesDig_succ, h, matchesDig_add]; simp
    · simp only
      refine (vlist_bot (ofDig a n)).trans ?_
      have e1 : (List.range (2 ^ n)).filter (matchesDig a (n + 1)) = (List.range (2 ^ n)).filter (matchesDig a n) :=
        List.filter_congr fun v hv => by rw [matchesDig_succ, h, h1 v hv]; simp
      have e2 : (List.range (2 ^ n)).filter (matchesDig a (n + 1) ∘ fun x => 2 ^ n + x) = [] :=
        List.filter_eq_nil_iff.2 fun v hv => by
          simp only [Function.comp]
          rw [matchesDig_succ, h, h2 v hv]; simp
      rw [ih, e1, e2, List.map_nil, List.append_nil]
    · simp only
      refine (vlist_top (ofDig a n)).trans ?_
      have e1 : (List.range (2 ^ n)).filter (matchesDig a (n + 1)) = [] :=
        List.filter_eq_nil_iff.2 fun v hv => by rw [matchesDig_succ, h, h1 v hv]; simp
      have e2 : (List.range (2 ^ n)).filter (matchesDig a (n + 1) ∘ fun x => 2 ^ n + x) =
          (List.range (2 ^ n)).filter (matchesDig a n) :=
        List.filter_congr fun v hv => by
          simp only [Function.comp]
          rw [matchesDig_succ, h, matchesDig_add, h2 v hv]; simp
      rw [ih, dim_cube, nv_cube, e1, e2, List.nil_append]

/-! ### normals -/

section Normals
variable {K : Type} [Field K]

theorem orig_of_codim_zero {t : Topo} (f : Face t) (h : f.codim = 0) : orig (K := K) f = fun _ => 0 := by
  induction f with
  | pt => rfl
  | edge f ih => exact ih h
  | bot f ih => simp [Face.codim] at h
  | top f ih => simp [Face.codim] at h
  | base f ih => simp [Face.codim] at h
  | cone f ih => exact ih h
  | apex => simp [Face.codim] at h

theorem simplex_facet_normal : ∀ (n : Nat) (f : Face (Topo.simplex n)), f.codim = 1 →
    (orig (K := K) f = fun k => if f.idx = n ∧ k = 0 then 1 else 0) ∧
    (nrm (K := K) f = fun k => if f.idx = n then (if k < n then 1 else 0) else if k + f.idx + 1 = n then -1 else 0) := by
  intro n
  induction n with
  | zero =>
    intro f h
    change Face .pt at f
    cases f
    exact absurd h (by decide)
  | succ n ih =>
    change ∀ f : Face (.pyr (Topo.simplex n)), f.codim = 1 →
      (orig (K := K) f = fun k => if f.idx = n + 1 ∧ k = 0 then 1 else 0) ∧
      (nrm (K := K) f = fun k => if f.idx = n + 1 then (if k < n + 1 then 1 else 0) else if k + f.idx + 1 = n + 1 then -1 else 0)
    intro f h
    cases f with
    | base f =>
      have h0 : f.codim = 0 := by simpa [Face.codim] using h
      have hi : (Face.base f).idx = 0 := Face.idx_of_codim_zero f h0
      rw [hi]
      constructor
      · refine (orig_of_codim_zero f h0).trans ?_
        funext k
        rw [if_neg (by omega)]
      · funext k
        simp only [nrm, setV, dim_simplex]
        rw [if_neg (show ¬ 0 = n + 1 by omega)]
        by_cases hk : k = n
        · rw [if_pos hk, if_pos (by omega)]
        · rw [if_neg hk, if_neg (by omega)]
    | cone f =>
      have h0 : f.codim = 1 := by simpa [Face.codim] using h
      have hi : (Face.cone f).idx = 1 + f.idx := by simp only [Face.idx, h0, Topo.sz_zero]
      obtain ⟨h1, h2⟩ := ih f h0
      rw [hi]
      constructor
      · refine h1.trans ?_
        funext k
        simp only [show (1 + f.idx = n + 1) = (f.idx = n) by simp; omega]
      · have hn : 0 < n := by
          have := Face.codim_le f
          rw [dim_simplex, h0] at this
          omega
        have hd : dot n (nrm (K := K) f) (orig f) = if f.idx = n then 1 else 0 := by
          rw [dot, h1, h2]
          by_cases hf : f.idx = n
          · rw [if_pos hf, Finset.sum_eq_single 0]
            · simp [hf, hn]
            · intro k _ hk
              simp [hk]
            · intro hk
              exact absurd (Finset.mem_range.2 hn) hk
          · rw [if_neg hf]
            refine Finset.sum_eq_zero fun k _ => ?_
            simp [hf]
        funext k
        simp only [nrm, setV, dim_simplex]
        rw [hd, h2]
        by_cases hf : f.idx = n
        · simp only [hf, if_true, if_pos (Nat.add_comm 1 n)]
          by_cases hk : k = n
          · rw [if_pos hk, if_pos (by omega)]
          · rw [if_neg hk]
            by_cases hkn : k < n
            · rw [if_pos hkn, if_pos (by omega)]
            · rw [if_neg hkn, if_neg (by omega)]
        · simp only [if_neg hf, if_neg (show ¬ 1 + f.idx = n + 1 by omega)]
          by_cases hk : k = n
          · rw [if_pos hk, if_neg (by omega)]
          · rw [if_neg hk]
            by_cases hkn : k + f.idx + 1 = n
            · rw [if_pos hkn, if_pos (by omega)]
            · rw [if_neg hkn, if_neg (by omega)]
    | apex =>
      have h0 : n = 0 := by simpa [Face.codim, dim_simplex] using h
      subst h0
      constructor
      · funext k
        simp [orig, setV, Face.idx, Topo.simplex, Topo.dim]
      · funext k
        simp [nrm, setV, Face.idx, Topo.simplex, Topo.dim]

theorem ofDig_normal (a : Nat → Option Bool) (n m : Nat) (b : Bool) (hm : m < n) (ha : a m = some b)
    (h : ∀ k, k < n → k ≠ m → a k = none) :
    nrm (K := K) (ofDig a n) = fun k => if k = m then (if b then 1 else -1) else 0 := by
  induction n with
  | zero => omega
  | succ n ih =>
    by_cases hmn : m = n
    · subst hmn
      rw [ofDig, ha]
      cases b <;> (funext k; simp only [nrm, setV, dim_cube]; simp)
    · rw [ofDig, h n (by omega) (Ne.symm hmn)]
      exact ih (by omega) fun k hk hkm => h k (by omega) hkm

end Normals

theorem fixedBelow_single {a : Nat → Option Bool} {m : Nat} {b : Bool} (ha : a m = some b)
    (h : ∀ k, k ≠ m → a k = none) (n : Nat) : fixedBelow a n = if m < n then 1 else 0 := by
  induction n with
  | zero => rfl
  | succ n ih =>
    rw [fixedBelow_succ, ih]
    by_cases hn : n = m
    · subst hn
      rw [ha]; simp
    · rw [h n hn]
      simp only [Option.isSome_none, Bool.false_eq_true, if_false, add_zero]
      by_cases hmn : m < n
      · rw [if_pos hmn, if_pos (by omega)]
      · rw [if_neg hmn, if_neg (by omega)]

theorem cubeNumber_single {a : Nat → Option Bool} {m n : Nat} {b : Bool} (hm : m < n) (ha : a m = some b)
    (h : ∀ k, k ≠ m → a k = none) : cubeNumber a n = 2 * m + if b then 1 else 0 := by
  rw [cubeNumber, Finset.sum_eq_single m]
  · rw [ha, fixedBelow_single ha h, if_neg (lt_irrefl _)]
    simp only [zero_add, Nat.choose_one_right, pow_one, Nat.choose_zero_right, pow_zero, mul_one]
    rw [mul_comm]
  · intro k _ hk
    rw [h k hk]
  · intro hk
    exact absurd (Finset.mem_range.2 hm) hk

theorem matchesDig_single {a : Nat → Option Bool} {m n : Nat} {b : Bool} (hm : m < n) (ha : a m = some b)
    (h : ∀ k, k ≠ m → a k = none) (v : Nat) : matchesDig a n v = (v.testBit m == b) := by
  rw [matchesDig, Bool.eq_iff_iff, List.all_eq_true, beq_iff_eq]
  constructor
  · intro hv
    have := hv m (List.mem_range.2 hm)
    rw [ha] at this
    simp only [Option.isNone_some, Bool.false_or, beq_iff_eq, Option.some.injEq] at this
    exact this.symm
  · intro hv k _
    by_cases hk : k = m
    · subst hk
      rw [ha, hv]; simp
    · rw [h k hk]; rfl

end Verif.Numbering
