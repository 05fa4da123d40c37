import Verif.Quad.SimplexSymmetric

/-! Property theorems: quadrature rules and the symmetries of the reference elements (C108).

Two elements which share a facet may number its corners differently; the coordinates on the facet then differ by a symmetry
of the reference element.  If the rule is mapped to itself by the symmetry, both elements evaluate at the same points. -/

namespace Verif.Quad

open Verif.Typ Verif.RefTopo Verif.RefGeom Verif.Neighbour
open Finset hiding ext

/-! ### Specification -/

/-- the map takes the points of the rule to its points, with the same weights, up to `ε`: the points can be paired such that
the image of each point and its partner, and their weights, differ by at most `ε` -/
def Invariant (d : Nat) (ε : ℝ) (A : Vec ℝ → Vec ℝ) (l : List (QPoint ℝ)) : Prop :=
  Multiset.Rel (fun a b => (∀ i, i < d → |A a.position i - b.position i| ≤ ε) ∧ |a.weight - b.weight| ≤ ε)
    (l : Multiset (QPoint ℝ)) (l : Multiset (QPoint ℝ))

/-- C108, full statement: the rules of every type, order and family which has one are invariant under the symmetries of the
reference element, up to `10^(-12)`. -/
def C108_full : Prop :=
  ∀ (env : Env ℝ) (d id p m : Nat) (qt : QType) (r : Rule ℝ), d ≤ 30 → id < 2 ^ d → IsPlain qt →
    maxOrder d ⟨d, false, id⟩ qt = .ok m → p ≤ m → rule env d ⟨d, false, id⟩ p qt = .ok r →
    ∀ (σ : Nat → Nat) (a : Vec ℝ) (M : Mat ℝ), Symmetry d id σ a M → Invariant d (1 / 10 ^ 12) (affMap d a M) r.pts

/-! ### Cubes -/

/-- C108: rules on cubes of the two symmetric families are invariant under all symmetries, up to `10^(-79)`. -/
theorem C108_cube_partial (env : Env ℝ) (d id p m : Nat) (qt : QType) (hd : d ≤ 30) (hid : id < 2 ^ d) (hc : IsCubeId d id)
    (hq : qt = .GaussLegendre ∨ qt = .GaussLobatto) (hm : maxOrder d ⟨d, false, id⟩ qt = .ok m) (h0 : 0 < d) (hp : p ≤ m)
    (σ : Nat → Nat) (a : Vec ℝ) (M : Mat ℝ) (hs : Symmetry d id σ a M) :
    ∃ r, rule env d ⟨d, false, id⟩ p qt = .ok r ∧ Invariant d (1 / 10 ^ 79) (affMap d a M) r.pts := by
  have hq' : IsPlain qt := by rcases hq with h | h <;> simp [IsPlain, h]
  obtain ⟨tab, h, ht⟩ : ∃ tab h, tableOf qt = some (tab, h) := by
    rcases hq with rfl | rfl <;> exact ⟨_, _, rfl⟩
  have htab : ∀ r ∈ tab, r.symOK 1 (10 ^ 81) Node.flip = true ∧ r.pts.all Node.plain1 = true := by
    intro r hr
    have := List.all_eq_true.1 flip_ok r (by
      rcases hq with rfl | rfl
      · simp only [tableOf, Option.some.injEq, Prod.mk.injEq] at ht
        rw [← ht.1] at hr; exact List.mem_append_left _ hr
      · simp only [tableOf, Option.some.injEq, Prod.mk.injEq] at ht
        rw [← ht.1] at hr; exact List.mem_append_right _ hr)
    simpa using this
  obtain ⟨h30, h61, -⟩ := plain_table (K := ℝ) hq' ht (p := 0) (Nat.zero_le _)
  obtain ⟨d, rfl⟩ : ∃ e, d = e + 1 := ⟨d - 1, by omega⟩
  obtain ⟨m', e1, e2⟩ := maxOrder_tab ht h30 h61 d id hd hid
  rw [e1] at hm
  cases hm
  obtain ⟨-, -, row, hrow, hone⟩ := plain_table (K := ℝ) hq' ht (hp.trans e2.1)
  have hmem : row ∈ tab := by
    unfold initHelper at hrow
    split at hrow
    · rename_i r' hf; cases hrow; exact List.mem_of_find?_eq_some hf
    · cases hrow
  obtain ⟨r, r1, r2⟩ := rule_cube_univ env qt p ⟨line, row.order, row.pts.map Node.point⟩
    (fun i hi => by rw [rule1_eq env hi ht (hp.trans e2.1), rule1D, hrow]; rfl) hone.zero (d + 1) id hd hid hc (by
      intro k hk1 hk2
      obtain ⟨k, rfl⟩ : ∃ j, k = j + 1 := ⟨k - 1, by omega⟩
      obtain ⟨m'', h3, h4⟩ := maxOrder_tab ht h30 h61 k (id % 2 ^ (k + 1)) (by omega) (Nat.mod_lt _ (Nat.two_pow_pos _))
      exact ⟨m'', h3, hp.trans (e2.anti hk2 h4)⟩)
  refine ⟨r, r1, ?_⟩
  obtain ⟨π, s, hA⟩ := cube_symmetry hc hs
  obtain ⟨hk1, hk2⟩ := htab row hmem
  have hpl := List.all_eq_true.1 hk2
  obtain ⟨τ, hτ⟩ := symOK_perm (A := fun x i => 1 - x i) (by positivity) hk1 fun n hn => flip_point (hpl n hn)
  have := product_symmetric (O := row.pts.map Node.point) (d := d + 1) (ε := 1 / ((10 ^ 81 : Nat) : ℝ)) (by positivity) τ
    (fun k => ⟨(hτ k).1 0 one_pos, (hτ k).2⟩)
    (fun k => by
      have hk := List.get_mem (row.pts.map (Node.point (K := ℝ))) k
      obtain ⟨n, n1, n2⟩ := List.mem_map.1 hk
      rw [← n2]
      exact plain1_weight (hpl n n1)) π s
  unfold Invariant
  rw [r2]
  refine Multiset.Rel.mono this fun q _ q' _ hqq => ?_
  have hle : ((d + 1 + 1 : Nat) : ℝ) * (1 / ((10 ^ 81 : Nat) : ℝ)) ≤ 1 / 10 ^ 79 := by
    have : ((d + 1 + 1 : Nat) : ℝ) ≤ 100 := by exact_mod_cast (show d + 1 + 1 ≤ 100 by omega)
    calc _ ≤ (100:ℝ) * (1 / ((10 ^ 81 : Nat) : ℝ)) := mul_le_mul_of_nonneg_right this (by positivity)
      _ = _ := by push_cast; norm_num
  exact ⟨fun i hi => by rw [hA _ i hi]; exact (hqq.1 i hi).trans hle, hqq.2.trans hle⟩

/-! ### Simplices -/

theorem pow14 : (1:ℝ) / ((10 ^ 14 : Nat) : ℝ) = 1 / 10 ^ 14 := by norm_num

/-- C108: the tabulated rules on the triangle, orders up to 12, are invariant under all six symmetries, except for the one of
orders 6 and 7. -/
theorem C108_triangle_partial (env : Env ℝ) (p : Nat) (hp : p ≤ 12) (h6 : p ≠ 6) (h7 : p ≠ 7)
    (σ : Nat → Nat) (a : Vec ℝ) (M : Mat ℝ) (hs : Symmetry 2 0 σ a M) :
    ∃ r, rule env 2 ⟨2, false, 0⟩ p .GaussLegendre = .ok r ∧ Invariant 2 (1 / 10 ^ 14) (affMap 2 a M) r.pts := by
  obtain ⟨row, h1, h2⟩ := triangle_row p hp
  refine ⟨_, (triangle_rule env p hp).trans h1, ?_⟩
  have hm := List.mem_of_find?_eq_some h2
  rw [List.mem_reverse] at hm
  have hcase := List.find?_some h2
  have hne : row.cases ≠ [12] := by
    intro e
    rw [beq_iff_eq, e] at hcase
    revert hcase
    interval_cases p <;> simp_all [simplex2Index]
  have := simplex_invariant (d := 2) (T := 10 ^ 14) (by positivity) (fun k h1 h2 => by simp) (by
    have := List.all_eq_true.1 simplex2_sym row hm
    simpa [hne] using this) hs
  rw [pow14] at this
  exact this

/-- the rule of orders 6 and 7 -/
theorem triangle_seven (env : Env ℝ) (p : Nat) (hp : p = 6 ∨ p = 7) :
    rule env 2 ⟨2, false, 0⟩ p .GaussLegendre = .ok ⟨triangle, 7, Simplex2.block6.pts.map Node.point⟩ := by
  rw [triangle_rule env p (by omega)]
  rcases hp with rfl | rfl <;> rfl

/-- C108: the rule of orders 6 and 7 on the triangle is invariant under rotations. -/
theorem C108_triangle_rotation_partial (env : Env ℝ) (p : Nat) (hp : p = 6 ∨ p = 7)
    (σ : Nat → Nat) (a : Vec ℝ) (M : Mat ℝ) (hs : Symmetry 2 0 σ a M) (hrot : ∀ k, k < 3 → σ k = (k + σ 0) % 3) :
    ∃ r, rule env 2 ⟨2, false, 0⟩ p .GaussLegendre = .ok r ∧ Invariant 2 (1 / 10 ^ 14) (affMap 2 a M) r.pts := by
  refine ⟨_, triangle_seven env p hp, ?_⟩
  have h0 : σ 0 < 3 := by simpa [simplex_size (d := 2) (id := 0) (fun k _ _ => by simp)] using hs.lt 0 (by
    rw [simplex_size (d := 2) (id := 0) (fun k _ _ => by simp)]; omega)
  have hmem : (List.range (2 + 1)).map σ ∈ [[0, 1, 2], [1, 2, 0], [2, 0, 1]] := by
    have e : (List.range (2 + 1)).map σ = [σ 0, σ 1, σ 2] := rfl
    rw [e, hrot 1 (by omega), hrot 2 (by omega)]
    interval_cases σ 0 <;> simp
  have hl := List.all_eq_true.1 block6_lit
  have := symOK_rel (A := affMap 2 a M) (by positivity) (List.all_eq_true.1 block6_rot _ hmem) fun n hn => ⟨rfl, fun i hi => by
    have h := hl n hn
    simp only [Bool.and_eq_true, List.all_eq_true, beq_iff_eq, bne_iff_ne, ne_eq] at h
    exact simplex_img (id := 0) (fun k _ _ => by simp) hs h.1 h.2 hi⟩
  rw [pow14] at this
  exact this

/-- C108: the tabulated rules on the tetrahedron, orders up to 5, are invariant under all 24 symmetries. -/
theorem C108_tetrahedron_partial (env : Env ℝ) (p : Nat) (hp : p ≤ 5)
    (σ : Nat → Nat) (a : Vec ℝ) (M : Mat ℝ) (hs : Symmetry 3 0 σ a M) :
    ∃ r, rule env 3 ⟨3, false, 0⟩ p .GaussLegendre = .ok r ∧ Invariant 3 (1 / 10 ^ 14) (affMap 3 a M) r.pts := by
  obtain ⟨row, h1, h2⟩ := tetrahedron_row p hp
  refine ⟨_, (tetrahedron_rule env p hp).trans h1, ?_⟩
  have hm := List.mem_of_find?_eq_some h2
  rw [List.mem_reverse] at hm
  have := simplex_invariant (d := 3) (T := 10 ^ 14) (by positivity) (fun k h1 h2 => by simp)
    (List.all_eq_true.1 simplex3_sym row hm) hs
  rw [pow14] at this
  exact this

/-! ### The counterexample -/

/-- exchanging the corners 1 and 2 of the triangle -/
def swap12 (k : Nat) : Nat := [0, 2, 1].getD k k

theorem swap12_symmetry : ∃ a M, Symmetry 2 0 swap12 a M :=
  C97_simplex_any 2 0 (fun k h1 h2 => by simp) _ (by decide) (fun k k' hk hk' => by
    interval_cases k <;> interval_cases k' <;> simp [swap12])

/-- C108 fails on the triangle, for orders 6 and 7: exchanging two corners moves a point of the rule to a place which is at a
distance of more than 1/100 from all of its points. -/
theorem C108_swap_counterexample (env : Env ℝ) (p : Nat) (hp : p = 6 ∨ p = 7) : ∃ r a M, Symmetry 2 0 swap12 a M ∧
    rule env 2 ⟨2, false, 0⟩ p .GaussLegendre = .ok r ∧
    ∃ q ∈ r.pts, ∀ q' ∈ r.pts, ∃ i, i < 2 ∧ 1 / 100 < |affMap 2 a M q.position i - q'.position i| := by
  obtain ⟨a, M, hs⟩ := swap12_symmetry
  refine ⟨_, a, M, hs, triangle_seven env p hp, ?_⟩
  have hl := List.all_eq_true.1 block6_lit
  simp only [Bool.and_eq_true, List.all_eq_true, beq_iff_eq, bne_iff_ne, ne_eq] at hl
  set n := Simplex2.block6.pts.getD 3 ⟨[], ⟨0, 1⟩⟩ with hn
  have hmem : n ∈ Simplex2.block6.pts := by
    rw [hn, List.getD_eq_getElem?_getD, List.getElem?_eq_getElem (by decide), Option.getD_some]
    exact List.getElem_mem _
  refine ⟨Node.point n, List.mem_map.2 ⟨n, hmem, rfl⟩, fun q' hq' => ?_⟩
  obtain ⟨m, hm, rfl⟩ := List.mem_map.1 hq'
  by_contra hcon
  push Not at hcon
  have key : ∀ i, i < 2 → ((Node.img 2 [0, 2, 1] n).x.getD i ⟨0, 1⟩).near 100 (m.x.getD i ⟨0, 1⟩) = true := by
    intro i hi
    have h := hcon i hi
    have himg := simplex_img (id := 0) (fun k _ _ => by simp) hs (hl n hmem).1 (hl n hmem).2 hi
    rw [← himg] at h
    have e : (List.range (2 + 1)).map swap12 = [0, 2, 1] := rfl
    rw [e] at h
    have hli : i < (Node.img 2 [0, 2, 1] n).x.length := by simpa [Node.img] using hi
    have hlm : i < m.x.length := by rw [(hl m hm).1]; exact hi
    have p1 : (Node.point (K := ℝ) (Node.img 2 [0, 2, 1] n)).position i = ((Node.img 2 [0, 2, 1] n).x[i].val : ℝ) := dif_pos hli
    have p2 : (Node.point (K := ℝ) m).position i = (m.x[i].val : ℝ) := dif_pos hlm
    rw [p1, p2] at h
    rw [List.getD_eq_getElem?_getD, List.getElem?_eq_getElem hli, Option.getD_some,
      List.getD_eq_getElem?_getD, List.getElem?_eq_getElem hlm, Option.getD_some]
    refine near_of_val (by omega) ?_ ((hl m hm).2 _ (List.getElem_mem _)) (by exact_mod_cast h)
    have hd : ((Node.img 2 [0, 2, 1] n).x.all fun l => l.den != 0) = true := by decide +kernel
    simpa using List.all_eq_true.1 hd _ (List.getElem_mem hli)
  have hf := List.all_eq_true.1 block6_far m hm
  rw [← hn, key 0 (by omega), key 1 (by omega)] at hf
  exact absurd hf (by decide)

theorem C108_counterexample : ¬ C108_full := by
  intro h
  obtain ⟨r, a, M, hs, hr, q, hq, hfar⟩ := C108_swap_counterexample ⟨none⟩ 7 (Or.inr rfl)
  obtain ⟨m, hm, hms⟩ := maxOrder_tab (qt := .GaussLegendre) (h := 61) rfl (by omega) (by omega) 1 0 (by omega) (by omega)
  have hpm : 7 ≤ m := by
    rcases hms.2.2 with rfl | ⟨k, hk1, hk2, -, hk⟩ <;> omega
  have := h ⟨none⟩ 2 0 7 m .GaussLegendre r (by omega) (by omega) (Or.inl rfl) hm hpm hr swap12 a M hs
  obtain ⟨q', hq', hc, -⟩ := Multiset.exists_mem_of_rel_of_mem this (Multiset.mem_coe.2 hq)
  obtain ⟨i, hi, hlt⟩ := hfar q' (Multiset.mem_coe.1 hq')
  have := hc i hi
  have h2 : (1:ℝ) / 10 ^ 12 < 1 / 100 := by norm_num
  linarith

/-! ### examples -/

/-- the edge of two neighbouring triangles, run through in opposite directions -/
example (env : Env ℝ) (p : Nat) (hp : p ≤ 61) : ∃ a M r, Symmetry 1 0 (fun k => 1 - k) a M ∧
    rule env 1 ⟨1, false, 0⟩ p .GaussLegendre = .ok r ∧ Invariant 1 (1 / 10 ^ 79) (affMap 1 a M) r.pts := by
  obtain ⟨a, M, hs⟩ := C97_simplex_any 1 0 (fun k h1 h2 => by omega) (fun k => 1 - k) (fun k hk => by omega)
    (fun k k' hk hk' h => by omega)
  obtain ⟨r, h1, h2⟩ := C108_cube_partial env 1 0 p 61 .GaussLegendre (by omega) (by omega) (fun k h1 h2 => by omega) (Or.inl rfl)
    (by decide +kernel) one_pos hp _ a M hs
  exact ⟨a, M, r, hs, h1, h2⟩

/-- the quarter turn of the square -/
example (env : Env ℝ) (p : Nat) (hp : p ≤ 31) : ∃ a M r, Symmetry 2 3 (fun k => [1, 3, 0, 2].getD k k) a M ∧
    rule env 2 ⟨2, false, 3⟩ p .GaussLobatto = .ok r ∧ Invariant 2 (1 / 10 ^ 79) (affMap 2 a M) r.pts := by
  obtain ⟨a, M, hs⟩ := (C97_quadrilateral 3 square_cube (fun k => [1, 3, 0, 2].getD k k) (by decide) (fun k k' hk hk' => by
    interval_cases k <;> interval_cases k' <;> simp)).2 (by simp)
  obtain ⟨r, h1, h2⟩ := C108_cube_partial env 2 3 p 31 .GaussLobatto (by omega) (by omega) square_cube (Or.inr rfl)
    (by decide +kernel) two_pos hp _ a M hs
  exact ⟨a, M, r, hs, h1, h2⟩

/-- two tetrahedra with a common triangle -/
example (env : Env ℝ) : ∃ a M r, Symmetry 2 0 swap12 a M ∧
    rule env 2 ⟨2, false, 0⟩ (5 : Nat) .GaussLegendre = .ok r ∧ Invariant 2 (1 / 10 ^ 14) (affMap 2 a M) r.pts := by
  obtain ⟨a, M, hs⟩ := swap12_symmetry
  obtain ⟨r, h1, h2⟩ := C108_triangle_partial env 5 (by omega) (by omega) (by omega) _ a M hs
  exact ⟨a, M, r, hs, h1, h2⟩

end Verif.Quad
