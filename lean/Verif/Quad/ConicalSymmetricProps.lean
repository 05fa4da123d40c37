import Verif.Quad.SymmetricProps

/-! Property theorems: the Gauss-Lobatto rules on the triangle are conical products and prefer two of the three corners (C108). -/

namespace Verif.Quad

open Verif.Typ Verif.RefTopo Verif.RefGeom Verif.Neighbour
open Finset hiding ext

/-- a rule has a point within `10⁻⁷` of 0 with a weight of at least 1/300 (some rows hold a rounded literal instead of 0) -/
def hasZero (r : Row) : Bool :=
  r.pts.any fun n => n.x.length == 1 && n.x.all (fun l => decide (0 ≤ l.num ∧ l.num * 10 ^ 7 ≤ l.den ∧ l.den ≠ 0)) && n.w.den != 0 && decide ((n.w.den : Int) ≤ 300 * n.w.num)

theorem lobatto_zero : (Lobatto.table.all hasZero) = true := by decide +kernel

theorem exists_zero {r : Row} (h : hasZero r = true) : ∃ q ∈ r.pts.map (Node.point (K := ℝ)), (0 ≤ q.position 0 ∧ q.position 0 ≤ 1 / 10 ^ 7) ∧ 1 / 300 ≤ q.weight := by
  simp only [hasZero, List.any_eq_true, Bool.and_eq_true, beq_iff_eq, List.all_eq_true, bne_iff_ne, ne_eq, decide_eq_true_eq] at h
  obtain ⟨n, hn, ⟨⟨h1, h2⟩, h3⟩, h4⟩ := h
  refine ⟨_, List.mem_map.2 ⟨n, hn, rfl⟩, ?_, ?_⟩
  · have : (Node.point (K := ℝ) n).position 0 = (n.x[0].val : ℝ) := dif_pos (by omega)
    obtain ⟨g1, g2, g3⟩ := h2 _ (List.getElem_mem (show 0 < n.x.length by omega))
    rw [this, Lit.val]
    have hd : (0:ℝ) < n.x[0].den := by exact_mod_cast Nat.pos_of_ne_zero g3
    have g1' : (0:ℝ) ≤ n.x[0].num := by exact_mod_cast g1
    have g2' : (n.x[0].num : ℝ) * 10 ^ 7 ≤ n.x[0].den := by exact_mod_cast g2
    refine ⟨div_nonneg g1' hd.le, ?_⟩
    rw [div_le_iff₀ hd]
    norm_num at g2' ⊢
    linarith
  · change (1 : ℝ) / 300 ≤ (n.w.num : ℝ) / n.w.den
    have hd : (0:ℝ) < n.w.den := by exact_mod_cast Nat.pos_of_ne_zero h3
    have h4' : (n.w.den : ℝ) ≤ 300 * n.w.num := by exact_mod_cast h4
    rw [le_div_iff₀ hd]; linarith

theorem plain_row {qt : QType} {tab : List Row} {h : Nat} (hq : IsPlain qt) (ht : tableOf qt = some (tab, h)) {p : Nat} (hp : p ≤ h) :
    ∃ row, row ∈ tab ∧ initHelper tab (p : Int) = .ok row ∧ (p : Int) ≤ row.order ∧ In01 (row.pts.map (Node.point (K := ℝ))) := by
  obtain ⟨-, -, row, hrow, hone⟩ := plain_table (K := ℝ) hq ht hp
  have hmem : row ∈ tab := by
    unfold initHelper at hrow
    split at hrow
    · rename_i r' hf; cases hrow; exact List.mem_of_find?_eq_some hf
    · cases hrow
  exact ⟨row, hmem, hrow, hone.order, hone.in01⟩

theorem lobatto_weight {row : Row} (hmem : row ∈ Lobatto.table) : ∀ o ∈ row.pts.map (Node.point (K := ℝ)), 0 ≤ o.weight ∧ o.weight ≤ 1 := by
  intro o ho
  have hok := List.all_eq_true.1 flip_ok row (List.mem_append_right _ hmem)
  rw [Bool.and_eq_true] at hok
  obtain ⟨n, n1, rfl⟩ := List.mem_map.1 ho
  exact plain1_weight (List.all_eq_true.1 hok.2 n n1)

/-- the rule on the triangle is a conical product, except for GaussLegendre up to order 12 -/
theorem conical_triangle (env : Env ℝ) {qt : QType} {tab : List Row} {h p m : Nat} (hq : IsPlain qt) (ht : tableOf qt = some (tab, h))
    (h30 : 30 ≤ h) (h61 : h ≤ 61) (hm : maxOrder 2 ⟨2, false, 0⟩ qt = .ok m) (hp : p ≤ m) (hc : qt = .GaussLegendre → 12 < p) :
    ∃ r B O, rule env 2 ⟨2, false, 0⟩ p qt = .ok r ∧ B ∈ tab ∧ O ∈ tab ∧ (p : Int) ≤ B.order ∧ (p : Int) ≤ O.order ∧
      r.pts = conicalProduct 2 false (B.pts.map Node.point) (O.pts.map Node.point) ∧
      In01 (O.pts.map (Node.point (K := ℝ))) := by
  obtain ⟨m', hm', hs⟩ := maxOrder_tab ht h30 h61 1 0 (by omega) (by omega)
  rw [hm] at hm'
  cases hm'
  have hp1 : p + 1 ≤ h := by
    have := hs.2.1 1 (by omega) (by omega) (by decide)
    omega
  have hn : qt ≠ .GaussJacobi_n_0 := by rintro rfl; cases ht
  obtain ⟨B, b1, b2, b3, -⟩ := plain_row hq ht (show p ≤ h by omega)
  obtain ⟨O, o1, o2, o3, o4⟩ := plain_row hq ht hp1
  have e1 : rule (K := ℝ) env 1 ⟨1, false, 0⟩ p qt = rule1D tab p := rule1_eq env (by omega) ht (by omega)
  have e2 : rule1 (K := ℝ) env ⟨1, false, 0⟩ ((p + 1 : Nat) : Int) qt = rule1D tab ((p + 1 : Nat) : Int) :=
    rule1_eq env (by omega) ht hp1
  refine ⟨⟨mk2 0 2, p, conicalProduct 2 false (B.pts.map Node.point) (O.pts.map Node.point)⟩, B, O, ?_, b1, o1, b3, by omega, rfl, o4⟩
  rw [rule, ruleWith_ok (by omega) (by omega) (Or.inr ⟨m, hm, by omega, by omega⟩)]
  simp only
  rw [baseTypeOf_eq (by omega) (by omega)]
  have e0 : 0 % 2 ^ (0 + 1) = 0 := rfl
  rw [e0, e1, rule1D, b2]
  simp only [factory]
  rw [if_neg (by
    rintro ⟨-, h1 | h1, h2⟩
    · have := hc h1
      simp only [simplex2Highest] at h2
      omega
    · exact hn h1)]
  unfold tensorRule
  have ep : ∀ x : Rule ℝ, (pure x : Res (Rule ℝ)) = .ok x := fun _ => rfl
  simp only [ok_bind, ep, show 2 - 1 = 1 from rfl]
  rw [if_neg (by simp), if_pos hn, line_eq]
  have e3 : (p : Int) + ((1 : Nat) : Int) = ((p + 1 : Nat) : Int) := by push_cast; ring
  rw [e3, e2, rule1D, o2]
  rfl

/-- exchanging the corners 0 and 2 of the triangle -/
def swap02 (k : Nat) : Nat := [2, 1, 0].getD k k

theorem swap02_symmetry : ∃ a M, Symmetry 2 0 swap02 a M :=
  C97_simplex_any 2 0 (fun k h1 h2 => by simp) _ (by decide) (fun k k' hk hk' => by
    interval_cases k <;> interval_cases k' <;> simp [swap02])

theorem swap02_coord {a : Vec ℝ} {M : Mat ℝ} (hs : Symmetry 2 0 swap02 a M) (y : Vec ℝ) : affMap 2 a M y 1 = 1 - y 0 - y 1 := by
  have hs2 : IsSimplexId 2 0 := fun k _ _ => by simp
  have c : ∀ k, k < 3 → _ := fun k hk => hs.corner k (by rw [simplex_size hs2]; omega) 1 (by omega)
  have c0 := c 0 (by omega)
  have c1 := c 1 (by omega)
  have c2 := c 2 (by omega)
  simp only [affMap, sum_range_succ, range_zero, sum_empty, zero_add, show swap02 0 = 2 from rfl, show swap02 1 = 1 from rfl,
    show swap02 2 = 0 from rfl, simplex_corner hs2 (show 0 ≤ 2 by omega) (show 0 < 2 by omega),
    simplex_corner hs2 (show 0 ≤ 2 by omega) (show 1 < 2 by omega), simplex_corner hs2 (show 1 ≤ 2 by omega) (show 0 < 2 by omega),
    simplex_corner hs2 (show 1 ≤ 2 by omega) (show 1 < 2 by omega), simplex_corner hs2 (show 2 ≤ 2 by omega) (show 0 < 2 by omega),
    simplex_corner hs2 (show 2 ≤ 2 by omega) (show 1 < 2 by omega)] at c0 c1 c2 ⊢
  norm_num at c0 c1 c2
  rw [← c0] at c1 c2 ⊢
  have d1 : M 1 0 = -1 := by linarith
  have d2 : M 1 1 = -1 := by linarith
  rw [d1, d2]; ring

/-- C108 fails for every Gauss-Lobatto rule on the triangle: corner 0 has positive weight, all points near corner 2 have (almost) none -/
theorem C108_lobatto_counterexample (env : Env ℝ) (p m : Nat) (hm : maxOrder 2 ⟨2, false, 0⟩ .GaussLobatto = .ok m) (hp : p ≤ m) :
    ∃ r a M, Symmetry 2 0 swap02 a M ∧ rule env 2 ⟨2, false, 0⟩ p .GaussLobatto = .ok r ∧ ¬ Invariant 2 (1 / 10 ^ 6) (affMap 2 a M) r.pts := by
  obtain ⟨a, M, hs⟩ := swap02_symmetry
  obtain ⟨r, B, O, hr, hB, hO, -, -, hpts, hO1⟩ := conical_triangle env (qt := .GaussLobatto) (Or.inr (Or.inl rfl)) rfl (by omega) (by omega)
    hm hp (fun h => by cases h)
  have hBw := lobatto_weight hB
  have hOw := lobatto_weight hO
  refine ⟨r, a, M, hs, hr, fun hinv => ?_⟩
  obtain ⟨b, b1, b2, b3⟩ := exists_zero (List.all_eq_true.1 lobatto_zero B hB)
  obtain ⟨o, o1, o2, o3⟩ := exists_zero (List.all_eq_true.1 lobatto_zero O hO)
  rw [Invariant, hpts] at hinv
  have hq : (⟨setV (fun i => if i < 1 then (1 - o.position 0) * b.position i else 0) 1 (o.position 0), b.weight * o.weight * (1 - o.position 0)⟩ : QPoint ℝ) ∈
      conicalProduct 2 false (B.pts.map Node.point) (O.pts.map Node.point) := List.mem_flatMap.2 ⟨b, b1, List.mem_map.2 ⟨o, o1, rfl⟩⟩
  obtain ⟨q', hq', hc, hw⟩ := Multiset.exists_mem_of_rel_of_mem hinv (Multiset.mem_coe.2 hq)
  obtain ⟨b', hb', h'⟩ := List.mem_flatMap.1 (Multiset.mem_coe.1 hq')
  obtain ⟨o', ho', rfl⟩ := List.mem_map.1 h'
  have h1 := hc 1 (by omega)
  have hA := swap02_coord hs
  rw [hA] at h1
  change |1 - (1 - o.position 0) * b.position 0 - o.position 0 - o'.position 0| ≤ _ at h1
  change |b.weight * o.weight * (1 - o.position 0) - b'.weight * o'.weight * (1 - o'.position 0)| ≤ _ at hw
  obtain ⟨u1, u2⟩ := hBw b' hb'
  obtain ⟨v1, v2⟩ := hOw o' ho'
  have hz := (hO1 o' ho').2
  have hx : (1 - o.position 0) * b.position 0 ≤ 1 / 10 ^ 7 := by nlinarith [o2.1, b2.1, b2.2]
  have h1' : 1 - o'.position 0 ≤ 2 / 10 ^ 6 := by
    have h2 := (abs_le.1 h1).2
    have h3 := o2.2
    norm_num at h2 h3 hx ⊢
    linarith
  have t1 : b'.weight * o'.weight * (1 - o'.position 0) ≤ 2 / 10 ^ 6 := by
    have : b'.weight * o'.weight ≤ 1 := by nlinarith
    have h0 : 0 ≤ b'.weight * o'.weight := mul_nonneg u1 v1
    nlinarith
  have t2 : (1 : ℝ) / 300 * (1 / 300) ≤ b.weight * o.weight := mul_le_mul b3 o3 (by norm_num) (by linarith)
  have t3 : (1 : ℝ) / 300 * (1 / 300) * (1 / 2) ≤ b.weight * o.weight * (1 - o.position 0) := by
    refine mul_le_mul t2 ?_ (by norm_num) (by positivity)
    have h3 := o2.2
    norm_num at h3 ⊢
    linarith
  have := (abs_le.1 hw).2
  norm_num at this t1 t3
  linarith

/-- a row of order 13 or more: the distance of a point `n` to the right end is at most 1/30 and less than 30 times the distance of all
points from the left end -/
def wide (r : Row) : Bool :=
  decide (r.order < 13) || r.pts.all (fun m => m.x.length == 1 && m.x.all fun l => l.den != 0) &&
    r.pts.any fun n => n.x.all (fun l => decide (30 * ((l.den : Int) - l.num) ≤ l.den ∧ l.num ≤ l.den)) && r.pts.all fun m =>
      n.x.all fun l => m.x.all fun k => decide (((l.den : Int) - l.num) * k.den * 10 ^ 5 + 30 * k.den * l.den ≤ 30 * k.num * l.den * 10 ^ 5)

theorem gauss_wide : (Gauss.table.all wide) = true := by decide +kernel

theorem exists_wide {r : Row} (h : wide r = true) (ho : 13 ≤ r.order) : ∃ q ∈ r.pts.map (Node.point (K := ℝ)),
    1 - q.position 0 ≤ 1 / 30 ∧ q.position 0 ≤ 1 ∧
      ∀ q' ∈ r.pts.map (Node.point (K := ℝ)), (1 - q.position 0) / 30 + 1 / 10 ^ 5 ≤ q'.position 0 := by
  simp only [wide, Bool.or_eq_true, decide_eq_true_eq, Bool.and_eq_true, List.any_eq_true, List.all_eq_true, beq_iff_eq, bne_iff_ne,
    ne_eq] at h
  rcases h with h | ⟨h0, n, hn, h1, h2⟩
  · omega
  have pos : ∀ m ∈ r.pts, ∃ l ∈ m.x, (Node.point (K := ℝ) m).position 0 = (l.num : ℝ) / l.den ∧ (0:ℝ) < l.den := by
    intro m hm
    have hl := (h0 m hm).1
    refine ⟨m.x[0], List.getElem_mem _, dif_pos (by omega), ?_⟩
    exact_mod_cast Nat.pos_of_ne_zero ((h0 m hm).2 _ (List.getElem_mem _))
  obtain ⟨l, l1, l2, l3⟩ := pos n hn
  obtain ⟨g1, g2⟩ := h1 l l1
  have g1' : 30 * ((l.den : ℝ) - l.num) ≤ l.den := by exact_mod_cast g1
  have g2' : (l.num : ℝ) ≤ l.den := by exact_mod_cast g2
  refine ⟨_, List.mem_map.2 ⟨n, hn, rfl⟩, ?_, ?_, ?_⟩
  · rw [l2, one_sub_div l3.ne', div_le_iff₀ l3]; linarith
  · rw [l2, div_le_one l3]; exact g2'
  · intro q' hq'
    obtain ⟨m, hm, rfl⟩ := List.mem_map.1 hq'
    obtain ⟨k, k1, k2, k3⟩ := pos m hm
    have g3 : ((l.den : ℝ) - l.num) * k.den * 10 ^ 5 + 30 * k.den * l.den ≤ 30 * k.num * l.den * 10 ^ 5 := by
      exact_mod_cast h2 m hm l l1 k k1
    rw [l2, k2, one_sub_div l3.ne', div_div, div_add_div _ _ (by positivity) (by positivity), div_le_div_iff₀ (by positivity) k3]
    nlinarith

/-- C108 fails for every Gauss-Legendre rule on the triangle of order above 12: no row of points lies so near to the base as the image of
one of the points near corner 1 -/
theorem C108_gauss_counterexample (env : Env ℝ) (p m : Nat) (hm : maxOrder 2 ⟨2, false, 0⟩ .GaussLegendre = .ok m) (hp : p ≤ m)
    (h12 : 12 < p) :
    ∃ r a M, Symmetry 2 0 swap02 a M ∧ rule env 2 ⟨2, false, 0⟩ p .GaussLegendre = .ok r ∧ ¬ Invariant 2 (1 / 10 ^ 6) (affMap 2 a M) r.pts := by
  obtain ⟨a, M, hs⟩ := swap02_symmetry
  obtain ⟨r, B, O, hr, hB, hO, oB, oO, hpts, hO1⟩ := conical_triangle env (qt := .GaussLegendre) (Or.inl rfl) rfl (by omega) (by omega)
    hm hp (fun _ => h12)
  refine ⟨r, a, M, hs, hr, fun hinv => ?_⟩
  obtain ⟨b, b1, b2, b3, -⟩ := exists_wide (List.all_eq_true.1 gauss_wide B hB) (by omega)
  obtain ⟨o, o1, -, o2, o3⟩ := exists_wide (List.all_eq_true.1 gauss_wide O hO) (by omega)
  rw [Invariant, hpts] at hinv
  have hq : (⟨setV (fun i => if i < 1 then (1 - o.position 0) * b.position i else 0) 1 (o.position 0), b.weight * o.weight * (1 - o.position 0)⟩ : QPoint ℝ) ∈
      conicalProduct 2 false (B.pts.map Node.point) (O.pts.map Node.point) := List.mem_flatMap.2 ⟨b, b1, List.mem_map.2 ⟨o, o1, rfl⟩⟩
  obtain ⟨q', hq', hc, -⟩ := Multiset.exists_mem_of_rel_of_mem hinv (Multiset.mem_coe.2 hq)
  obtain ⟨b', hb', h'⟩ := List.mem_flatMap.1 (Multiset.mem_coe.1 hq')
  obtain ⟨o', ho', rfl⟩ := List.mem_map.1 h'
  have h1 := hc 1 (by omega)
  rw [swap02_coord hs] at h1
  change |1 - (1 - o.position 0) * b.position 0 - o.position 0 - o'.position 0| ≤ _ at h1
  have h2 := o3 o' ho'
  have h3 : (1 - o.position 0) * (1 - b.position 0) ≤ (1 - o.position 0) * (1 / 30) := mul_le_mul_of_nonneg_left b2 (by linarith)
  have h4 := (abs_le.1 h1).1
  norm_num at h2 h3 h4
  linarith

example : maxOrder 2 ⟨2, false, 0⟩ .GaussLegendre = .ok 60 := by decide

example : maxOrder 2 ⟨2, false, 0⟩ .GaussLobatto = .ok 30 := by decide

end Verif.Quad
