import Verif.Quad.CubeSymmetric

/-! Symmetries of simplices, and of the tables for them. -/

namespace Verif.Quad

open Verif.Typ Verif.RefTopo Verif.RefGeom Verif.Neighbour
open Finset hiding ext

/-- barycentric coordinates -/
def baryL (x : List Lit) : List Lit := x.foldl Lit.sub ⟨1, 1⟩ :: x

/-- the image under the symmetry that takes corner `k` to corner `s[k]` -/
def Node.img (d : Nat) (s : List Nat) (n : Node) : Node :=
  ⟨(List.range d).map fun i => (baryL n.x).getD (s.idxOf (i + 1)) ⟨0, 1⟩, n.w⟩

/-- all permutations of the corners map the rule to itself -/
def Row.allSym (d T : Nat) (r : Row) : Bool :=
  (List.range (d + 1)).permutations'.all (fun s => r.symOK d T (Node.img d s)) &&
    r.pts.all fun n => n.x.length == d && n.x.all fun l => l.den != 0

theorem simplex2_sym : (Simplex2.blocks.all fun r => r.cases == [12] || r.allSym 2 (10 ^ 14)) = true := by decide +kernel

theorem simplex3_sym : (Simplex3.blocks.all fun r => r.allSym 3 (10 ^ 14)) = true := by decide +kernel

/-- barycentric coordinates -/
noncomputable def baryV (d : Nat) (x : Vec ℝ) (k : Nat) : ℝ := if k = 0 then 1 - ∑ r ∈ range d, x r else x (k - 1)

theorem foldl_sub (x : List Lit) (h : ∀ l ∈ x, l.den ≠ 0) (a : Lit) (ha : a.den ≠ 0) :
    (x.foldl Lit.sub a).den ≠ 0 ∧ ((x.foldl Lit.sub a).val : ℝ) = a.val - (x.map fun l => (l.val : ℝ)).sum := by
  induction x generalizing a with
  | nil => exact ⟨ha, by simp⟩
  | cons l x ih =>
    have hl := h l List.mem_cons_self
    have hd : (a.sub l).den ≠ 0 := Nat.mul_ne_zero ha hl
    obtain ⟨h1, h2⟩ := ih (fun l hl => h l (List.mem_cons_of_mem _ hl)) (a.sub l) hd
    refine ⟨h1, ?_⟩
    rw [List.foldl_cons, h2, sub_val ha hl, List.map_cons, List.sum_cons]
    ring

theorem baryL_val {d : Nat} {n : Node} (hl : n.x.length = d) (hd : ∀ l ∈ n.x, l.den ≠ 0) {k : Nat} (hk : k ≤ d) :
    (((baryL n.x).getD k ⟨0, 1⟩).val : ℝ) = baryV d (Node.point n).position k := by
  cases k with
  | zero =>
    simp only [baryL, baryV, List.getD_cons_zero, if_true]
    rw [(foldl_sub n.x hd ⟨1, 1⟩ one_ne_zero).2]
    congr 1
    · simp [Lit.val]
    · rw [Finset.sum_range]
      subst hl
      rw [← List.sum_ofFn]
      congr 1
      apply List.ext_getElem
      · simp
      · intro i h1 h2
        simp only [List.getElem_map, List.getElem_ofFn, Node.point]
        rw [dif_pos (by simpa using h1)]
  | succ k =>
    have hk' : k < n.x.length := by omega
    simp only [baryL, baryV, List.getD_cons_succ, Nat.succ_ne_zero, if_false, Nat.add_sub_cancel, Node.point]
    rw [dif_pos hk', List.getD_eq_getElem?_getD, List.getElem?_eq_getElem hk', Option.getD_some]

theorem simplex_corner {d id : Nat} (hs : IsSimplexId d id) {k : Nat} (hk : k ≤ d) {i : Nat} (hi : i < d) :
    corner (K := ℝ) d id k i = if k = i + 1 then 1 else 0 := by
  rw [corner, C17_simplex d _ hs, List.getD_eq_getElem?_getD]
  cases k with
  | zero => simp
  | succ k =>
    rw [List.getElem?_cons_succ, List.getElem?_map, List.getElem?_range (by omega)]
    simp only [Option.map_some, Option.getD_some, Nat.add_right_cancel_iff]
    by_cases h : i = k
    · simp [h]
    · rw [if_neg h, if_neg (fun e => h e.symm)]

theorem simplex_size {d id : Nat} (hs : IsSimplexId d id) : refSize d id d = d + 1 := by
  rw [← C17_count (K := ℝ), C17_simplex d _ hs]; simp

/-- the image of a point in barycentric coordinates -/
theorem simplex_affMap {d id : Nat} (hs : IsSimplexId d id) {σ : Nat → Nat} {a : Vec ℝ} {M : Mat ℝ}
    (h : Symmetry d id σ a M) (x : Vec ℝ) {i : Nat} (hi : i < d) :
    affMap d a M x i = ∑ k ∈ range (d + 1), baryV d x k * if σ k = i + 1 then 1 else 0 := by
  have hsz := simplex_size hs
  have hc : ∀ k, k ≤ d → (if σ k = i + 1 then (1:ℝ) else 0) = affMap d a M (corner d id k) i := by
    intro k hk
    have hl := h.lt k (by omega)
    rw [← simplex_corner hs (by omega) hi]
    exact h.corner k (by omega) i hi
  have ha : affMap d a M (corner d id 0) i = a i := by
    rw [affMap, sum_eq_zero, add_zero]
    intro r hr
    rw [simplex_corner hs (Nat.zero_le _) (mem_range.1 hr), if_neg (by omega), mul_zero]
  have hM : ∀ r, r < d → affMap d a M (corner d id (r + 1)) i = a i + M i r := by
    intro r hr
    rw [affMap, sum_eq_single r]
    · rw [simplex_corner hs (by omega) hr, if_pos rfl, mul_one]
    · intro r' hr' hne
      rw [simplex_corner hs (by omega) (mem_range.1 hr'), if_neg (by omega), mul_zero]
    · intro hn; exact absurd (mem_range.2 hr) hn
  rw [sum_range_succ', hc 0 (Nat.zero_le _), ha]
  have e : ∀ r ∈ range d, baryV d x (r + 1) * (if σ (r + 1) = i + 1 then (1:ℝ) else 0) = x r * a i + M i r * x r := by
    intro r hr
    rw [hc (r + 1) (by rw [mem_range] at hr; omega), hM r (mem_range.1 hr)]
    simp only [baryV, Nat.succ_ne_zero, if_false, Nat.add_sub_cancel]
    ring
  rw [sum_congr rfl e, sum_add_distrib, ← sum_mul]
  simp only [affMap, baryV, if_true]
  ring

theorem sigma_perm {d id : Nat} (hs : IsSimplexId d id) {σ : Nat → Nat} {a : Vec ℝ} {M : Mat ℝ}
    (h : Symmetry d id σ a M) : ((List.range (d + 1)).map σ).Perm (List.range (d + 1)) := by
  have hsz := simplex_size hs
  have hnd : ((List.range (d + 1)).map σ).Nodup := by
    refine List.Nodup.map_on (fun x hx y hy e => ?_) List.nodup_range
    exact h.inj x y (by rw [hsz]; exact List.mem_range.1 hx) (by rw [hsz]; exact List.mem_range.1 hy) e
  refine List.Subperm.perm_of_length_le (hnd.subperm ?_) (by simp)
  intro y hy
  obtain ⟨x, hx, rfl⟩ := List.mem_map.1 hy
  have := h.lt x (by rw [hsz]; exact List.mem_range.1 hx)
  rw [hsz] at this
  exact List.mem_range.2 this

theorem simplex_img {d id : Nat} (hs : IsSimplexId d id) {σ : Nat → Nat} {a : Vec ℝ} {M : Mat ℝ}
    (h : Symmetry d id σ a M) {n : Node} (hl : n.x.length = d) (hd : ∀ l ∈ n.x, l.den ≠ 0) {i : Nat} (hi : i < d) :
    (Node.point (K := ℝ) (Node.img d ((List.range (d + 1)).map σ) n)).position i = affMap d a M (Node.point n).position i := by
  have hsz := simplex_size hs
  have hperm := sigma_perm hs h
  set s := (List.range (d + 1)).map σ with hsd
  have hmem : i + 1 ∈ s := hperm.mem_iff.2 (List.mem_range.2 (by omega))
  have hlt : s.idxOf (i + 1) < d + 1 := by
    have := List.idxOf_lt_length_of_mem hmem
    rwa [hsd, List.length_map, List.length_range] at this
  have hval : σ (s.idxOf (i + 1)) = i + 1 := by
    have := List.getElem_idxOf (List.idxOf_lt_length_of_mem hmem)
    simp only [hsd, List.getElem_map, List.getElem_range] at this
    exact this
  rw [simplex_affMap hs h _ hi]
  have hi' : i < (Node.img d s n).x.length := by simpa [Node.img] using hi
  have hp : (Node.point (K := ℝ) (Node.img d s n)).position i = ((Node.img d s n).x[i].val : ℝ) := dif_pos hi'
  rw [hp]
  simp only [Node.img, List.getElem_map, List.getElem_range]
  rw [baryL_val hl hd (by omega), sum_eq_single (s.idxOf (i + 1))]
  · rw [if_pos hval, mul_one]
  · intro k hk hne
    rw [if_neg, mul_zero]
    intro e
    exact hne (h.inj k _ (by rw [hsz]; exact mem_range.1 hk) (by rw [hsz]; exact hlt) (e.trans hval.symm))
  · intro hn; exact absurd (mem_range.2 hlt) hn

theorem simplex_invariant {d id T : Nat} (hT : 0 < T) (hs : IsSimplexId d id) {r : Row} (hr : r.allSym d T = true)
    {σ : Nat → Nat} {a : Vec ℝ} {M : Mat ℝ} (h : Symmetry d id σ a M) :
    Multiset.Rel (Close d (1 / T) (affMap d a M)) ((r.pts.map Node.point : List (QPoint ℝ)) : Multiset (QPoint ℝ))
      ((r.pts.map Node.point : List (QPoint ℝ)) : Multiset (QPoint ℝ)) := by
  simp only [Row.allSym, Bool.and_eq_true, List.all_eq_true, beq_iff_eq, bne_iff_ne, ne_eq] at hr
  obtain ⟨h1, h2⟩ := hr
  refine symOK_rel hT (h1 _ (List.mem_permutations'.2 (sigma_perm hs h))) fun n hn => ⟨rfl, fun i hi => ?_⟩
  exact simplex_img hs h (h2 n hn).1 (h2 n hn).2 hi

theorem near_of_val {T : Nat} (hT : 0 < T) {a b : Lit} (ha : a.den ≠ 0) (hb : b.den ≠ 0)
    (h : |(a.val : ℝ) - b.val| ≤ 1 / T) : a.near T b = true := by
  simp only [Lit.near, Bool.and_eq_true, bne_iff_ne, ne_eq, decide_eq_true_eq]
  refine ⟨⟨ha, hb⟩, ?_⟩
  have ha' : (0:ℝ) < a.den := by exact_mod_cast Nat.pos_of_ne_zero ha
  have hb' : (0:ℝ) < b.den := by exact_mod_cast Nat.pos_of_ne_zero hb
  have hT' : (0:ℝ) < T := by exact_mod_cast hT
  have e : (a.val : ℝ) - b.val = (a.num * b.den - b.num * a.den) / (a.den * b.den) := by
    unfold Lit.val; field_simp
  rw [e, abs_div, abs_of_pos (mul_pos ha' hb'), div_le_div_iff₀ (mul_pos ha' hb') hT', one_mul] at h
  have : (((a.num * b.den - b.num * a.den).natAbs * T : Nat) : ℝ) ≤ ((a.den * b.den : Nat) : ℝ) := by
    rw [Nat.cast_mul, Nat.cast_natAbs]
    push_cast
    exact h
  exact_mod_cast this

/-- the rotations map the rule of orders 6 and 7 on the triangle to itself -/
theorem block6_rot : ([[0, 1, 2], [1, 2, 0], [2, 0, 1]].all fun s => Simplex2.block6.symOK 2 (10 ^ 14) (Node.img 2 s)) = true := by
  decide +kernel

theorem block6_lit : (Simplex2.block6.pts.all fun n => n.x.length == 2 && n.x.all fun l => l.den != 0) = true := by
  decide +kernel

/-- exchanging the coordinates does not: this point has no partner -/
theorem block6_far : (Simplex2.block6.pts.all fun m => !((Node.img 2 [0, 2, 1] (Simplex2.block6.pts.getD 3 ⟨[], ⟨0, 1⟩⟩)).x.getD 0 ⟨0, 1⟩).near 100
    (m.x.getD 0 ⟨0, 1⟩) || !((Node.img 2 [0, 2, 1] (Simplex2.block6.pts.getD 3 ⟨[], ⟨0, 1⟩⟩)).x.getD 1 ⟨0, 1⟩).near 100
    (m.x.getD 1 ⟨0, 1⟩)) = true := by
  decide +kernel

/-! ### The rules -/

theorem triangle_rule (env : Env ℝ) (p : Nat) (hp : p ≤ 12) :
    rule env 2 ⟨2, false, 0⟩ p .GaussLegendre = simplex2Rule (p : Int) := by
  obtain ⟨m, hm, hs⟩ := maxOrder_tab (qt := .GaussLegendre) (h := 61) rfl (by omega) (by omega) 1 0 (by omega) (by omega)
  have hpm : p ≤ m := by
    rcases hs.2.2 with rfl | ⟨k, hk1, hk2, -, hk⟩ <;> omega
  rw [rule, ruleWith_ok (by omega) (by omega) (Or.inr ⟨m, hm, by omega, by omega⟩)]
  simp only [factory]
  rw [if_pos ⟨by decide, by simp, by simp [simplex2Highest]; omega⟩]

theorem tetrahedron_rule (env : Env ℝ) (p : Nat) (hp : p ≤ 5) :
    rule env 3 ⟨3, false, 0⟩ p .GaussLegendre = simplex3Rule (p : Int) := by
  obtain ⟨m, hm, hs⟩ := maxOrder_tab (qt := .GaussLegendre) (h := 61) rfl (by omega) (by omega) 2 0 (by omega) (by omega)
  have hpm : p ≤ m := by
    rcases hs.2.2 with rfl | ⟨k, hk1, hk2, -, hk⟩ <;> omega
  rw [rule, ruleWith_ok (by omega) (by omega) (Or.inr ⟨m, hm, by omega, by omega⟩)]
  simp only [factory]
  rw [if_pos ⟨by decide, by simp, by simp [simplex3Highest]; omega⟩]

theorem triangle_row (p : Nat) (hp : p ≤ 12) : ∃ row, simplex2Rule (K := ℝ) (p : Int) =
    .ok ⟨triangle, row.order, row.pts.map Node.point⟩ ∧
    Simplex2.blocks.reverse.find? (fun r => r.cases == [simplex2Index p]) = some row := by
  have h : (lastBlock Simplex2.blocks (simplex2Index p)).isSome = true := by
    interval_cases p <;> decide +kernel
  obtain ⟨row, hrow⟩ := Option.isSome_iff_exists.1 h
  refine ⟨row, ?_, hrow⟩
  rw [simplex2Rule, if_neg (by simp [simplex2Highest]; omega), blockRule, hrow]

theorem tetrahedron_row (p : Nat) (hp : p ≤ 5) : ∃ row, simplex3Rule (K := ℝ) (p : Int) =
    .ok ⟨tetrahedron, row.order, row.pts.map Node.point⟩ ∧
    Simplex3.blocks.reverse.find? (fun r => r.cases == [simplex3Index p]) = some row := by
  have h : (lastBlock Simplex3.blocks (simplex3Index p)).isSome = true := by
    interval_cases p <;> decide +kernel
  obtain ⟨row, hrow⟩ := Option.isSome_iff_exists.1 h
  refine ⟨row, ?_, hrow⟩
  rw [simplex3Rule, if_neg (by simp [simplex3Highest]; omega), blockRule, hrow]

end Verif.Quad
