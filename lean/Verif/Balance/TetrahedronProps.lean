import Verif.Balance.AffineProps

/-!
Property theorems: the divergence theorem of the quadrature rules on tetrahedra (C123).
-/

namespace Verif.Balance

open Verif.Typ Verif.RefTopo Verif.RefGeom Verif.MatHelp Verif.Affine Verif.MultiLinear Verif.Normal Verif.Flux Verif.Tip Verif.Neighbour MvPolynomial
open Verif.Quad hiding jac absWeights
open Matrix hiding vec ext
open Finset hiding ext

/-! ### helper lemmas -/

/-- the points of the rules for tetrahedra keep away from the edge between the last two corners, or are one of these corners -/
def clear (n : Node) : Bool :=
  n.x.length == 3 && match n.x[0]?, n.x[1]?, n.x[2]? with
    | some l, some m, some k => l.den != 0 && m.den != 0 && k.den != 0 && decide (0 ≤ m.num ∧ 0 ≤ k.num) &&
      (decide (900 * (m.num * k.den + k.num * m.den) ≤ 899 * ((m.den : Int) * k.den)) ||
        decide (l.num = 0 ∧ m.num = 0 ∧ k.num = k.den) || decide (l.num = 0 ∧ m.num = m.den ∧ k.num = 0))
    | _, _, _ => false

theorem blocks_clear : (Simplex3.blocks.all fun r => r.pts.all clear) = true := by decide +kernel

theorem tips_tet {tol : ℝ} (htol : tol ≤ 1 / 1000) {x : Vec ℝ} (h1 : 0 ≤ x 1) (h2 : 0 ≤ x 2) (h : x 1 + x 2 ≤ 899 / 900) : TipsOk tol 3 0 x := by
  simp only [TipsOk]
  norm_num
  left
  refine ⟨by linarith, ?_⟩
  left
  have h3 : 0 < 1 - x 2 := by linarith
  rw [lt_sub_comm, div_lt_iff₀ h3]
  nlinarith

theorem tips_tet_corner {tol : ℝ} (htol : tol ≤ 1 / 1000) {x : Vec ℝ} (h0 : x 0 = 0) (h : x 1 = 0 ∧ x 2 = 1 ∨ x 1 = 1 ∧ x 2 = 0) : TipsOk tol 3 0 x := by
  simp only [TipsOk]
  rcases h with ⟨h1, h2⟩ | ⟨h1, h2⟩
  · rw [if_neg (by decide)]
    refine Or.inr ⟨h2, fun r hr => ?_⟩
    interval_cases r <;> assumption
  · rw [if_neg (by decide)]
    refine Or.inl ⟨by rw [h2]; linarith, ?_⟩
    rw [if_neg (by decide)]
    refine Or.inr ⟨by simp [h1, h2], fun r hr => ?_⟩
    obtain rfl : r = 0 := by omega
    simp [h0]

theorem face_below {i : Nat} {n : Vec ℝ} {e : Vec ℝ × Mat ℝ} (h : IsFacet 3 0 i n e) {y : Vec ℝ} (h0 : 0 ≤ y 0) (h1 : 0 ≤ y 1)
    (h01 : y 0 + y 1 ≤ 899 / 900) : 0 ≤ embed 2 e y 1 ∧ 0 ≤ embed 2 e y 2 ∧ embed 2 e y 1 + embed 2 e y 2 ≤ 899 / 900 := by
  have hi : i < 4 := lt_of_lt_of_eq h.lt (by decide)
  have he := h.embedding
  have : (embed 2 e y 1 = y 1 ∧ embed 2 e y 2 = 0) ∨ (embed 2 e y 1 = 0 ∧ embed 2 e y 2 = y 1) ∨ (embed 2 e y 1 = y 0 ∧ embed 2 e y 2 = y 1) := by
    simp only [embed, sum_range_succ, sum_range_zero]
    interval_cases i
    · obtain rfl := Option.some.inj he
      left
      constructor <;> simp [setM, setV]
    · obtain rfl := Option.some.inj he
      right; left
      constructor <;> simp [setM, setV]
    · obtain rfl := Option.some.inj he
      right; right
      constructor <;> simp [setM, setV]
    · obtain rfl := Option.some.inj he
      right; right
      constructor <;> simp [setM, setV]
  rcases this with ⟨a, b⟩ | ⟨a, b⟩ | ⟨a, b⟩ <;> rw [a, b] <;> refine ⟨?_, ?_, ?_⟩ <;> linarith

theorem tetrahedron_points (env : Env ℝ) {p : Nat} (hp : p ≤ 5) {g : MultiLinearGeometry} (hid : g.id = 0) (htol : g.tol ≤ 1 / 1000) :
    PointsOk env 3 p .GaussLegendre g := by
  constructor
  · intro r hr q hq
    rw [hid, tetrahedron_rule env p hp] at hr
    obtain ⟨row, g1, g2⟩ := tetrahedron_row p hp
    have e := hr.symm.trans g1
    injection e with e
    subst e
    obtain ⟨n, hn, rfl⟩ := List.mem_map.1 hq
    have hm := List.mem_of_find?_eq_some g2
    rw [List.mem_reverse] at hm
    have hb := List.all_eq_true.1 (List.all_eq_true.1 blocks_clear row hm) n hn
    rw [clear, Bool.and_eq_true, beq_iff_eq] at hb
    obtain ⟨h1, h2⟩ := hb
    rw [List.getElem?_eq_getElem (by omega), List.getElem?_eq_getElem (by omega), List.getElem?_eq_getElem (by omega)] at h2
    simp only [Bool.and_eq_true, Bool.or_eq_true, bne_iff_ne, ne_eq, decide_eq_true_eq] at h2
    obtain ⟨⟨⟨⟨l0, l1⟩, l2⟩, l3, l4⟩, l5⟩ := h2
    have e0 : (Node.point (K := ℝ) n).position 0 = (n.x[0].num : ℝ) / n.x[0].den := dif_pos (by omega)
    have e1 : (Node.point (K := ℝ) n).position 1 = (n.x[1].num : ℝ) / n.x[1].den := dif_pos (by omega)
    have e2 : (Node.point (K := ℝ) n).position 2 = (n.x[2].num : ℝ) / n.x[2].den := dif_pos (by omega)
    have d0 : (0:ℝ) < n.x[0].den := by exact_mod_cast Nat.pos_of_ne_zero l0
    have d1 : (0:ℝ) < n.x[1].den := by exact_mod_cast Nat.pos_of_ne_zero l1
    have d2 : (0:ℝ) < n.x[2].den := by exact_mod_cast Nat.pos_of_ne_zero l2
    have p1 : (0:ℝ) ≤ n.x[1].num := by exact_mod_cast l3
    have p2 : (0:ℝ) ≤ n.x[2].num := by exact_mod_cast l4
    rw [hid]
    rcases l5 with (l5 | ⟨a, b, c⟩) | ⟨a, b, c⟩
    · have l5' : 900 * ((n.x[1].num : ℝ) * n.x[2].den + n.x[2].num * n.x[1].den) ≤ 899 * ((n.x[1].den : ℝ) * n.x[2].den) := by
        exact_mod_cast l5
      refine tips_tet htol (by rw [e1]; positivity) (by rw [e2]; positivity) ?_
      rw [e1, e2, div_add_div _ _ d1.ne' d2.ne', div_le_iff₀ (by positivity)]
      norm_num at l5' ⊢
      linarith
    · refine tips_tet_corner htol (by rw [e0, a]; simp) (Or.inl ⟨by rw [e1, b]; simp, ?_⟩)
      rw [e2, c]; push_cast; exact div_self d2.ne'
    · refine tips_tet_corner htol (by rw [e0, a]; simp) (Or.inr ⟨?_, by rw [e2, c]; simp⟩)
      rw [e1, b]; push_cast; exact div_self d1.ne'
  · intro i n e r hf hr q hq
    have hi : i < 4 := by have := hf.lt; rw [hid] at this; exact lt_of_lt_of_eq this (by decide)
    have ht : refType 3 g.id i 1 = ⟨2, false, 0⟩ := by
      rw [hid]; interval_cases i <;> decide
    rw [ht, show 3 - 1 = 2 from rfl, triangle_rule env p (by omega)] at hr
    obtain ⟨row, g1, g2⟩ := triangle_row p (by omega)
    have e' := hr.symm.trans g1
    injection e' with e'
    subst e'
    obtain ⟨n', hn, rfl⟩ := List.mem_map.1 hq
    have hm := List.mem_of_find?_eq_some g2
    rw [List.mem_reverse] at hm
    have hcase := List.find?_some g2
    have hne : row.cases ≠ [28] := by
      intro e
      rw [beq_iff_eq, e] at hcase
      revert hcase
      interval_cases p <;> simp [simplex2Index]
    have hdeep := List.all_eq_true.1 blocks_deep row hm
    simp only [Bool.or_eq_true, beq_iff_eq, hne, false_or, List.all_eq_true] at hdeep
    have hin := deep_near (hdeep n' hn) le_rfl (y := (Node.point n').position) fun i _ => by rw [_root_.sub_self, abs_zero]; positivity
    have hin' : 1 / 250 < (Node.point (K := ℝ) n').position 1 ∧ 1 / 250 < (Node.point (K := ℝ) n').position 0 ∧
        1 / 250 < 1 - (Node.point (K := ℝ) n').position 1 - (Node.point (K := ℝ) n').position 0 := by
      generalize (Node.point (K := ℝ) n').position = y at hin
      unfold checkInside at hin
      simp only [show implIsPrism 0 (1 + 1) 0 = false by decide, Bool.false_eq_true, if_false] at hin
      split_ifs at hin with c2
      unfold checkInside at hin
      simp only at hin
      split_ifs at hin with c3
      all_goals
        obtain ⟨a1, a2⟩ := c2
        obtain ⟨a3, a4⟩ := c3
        refine ⟨?_, ?_, ?_⟩ <;> linarith
    rw [hid] at hf ⊢
    obtain ⟨k1, k2, k3⟩ := face_below hf (y := (Node.point n').position) (by linarith [hin'.2.1]) (by linarith [hin'.1]) (by linarith [hin'.2.2])
    exact tips_tet htol k1 k2 k3

/-! ### C123 -/

/-- C123: the divergence theorem of the rules on tetrahedra that are not degenerate, for the orders up to 5. -/
theorem C123_tetrahedron (env : Env ℝ) (p : Nat) (hp : p ≤ 5) (g : MultiLinearGeometry) (hg : Legal g) (hdim : g.mydim = 3)
    (hfull : g.cdim = 3) (hid : g.id = 0) (htol : g.tol ≤ 1 / 1000) (M : Mat ℝ) (hedges : M = fun j r => g.corners_ (r + 1) j - g.corners_ 0 j)
    (hM : (mat 3 3 M).det ≠ 0) (P : Fin 3 → MvPolynomial (Fin 3) ℝ) (hP : ∀ k, (P k).totalDegree ≤ p) :
    ∃ (D : ℝ) (S : Nat → ℝ) (Q : Fin 3 → MvPolynomial (Fin 3) ℝ), elementIntegral env 3 p .GaussLegendre (polyDiv P) g = some D ∧
      (∀ i, i < 4 → facetFlux env 3 p .GaussLegendre (polyField P) g i = some (S i)) ∧
      (∀ k x, (Q k).eval x = (P k).eval fun j : Fin 3 => g.corners_ 0 j + ∑ r : Fin 3, M j r * x r) ∧
      |D - (S 0 + S 1 + S 2 + S 3)| ≤
        ∑ k, tabTol * ((p + 6 * 3 ^ p) * coeffSum (Q k)) * ∑ j, |adjugate (mat 3 3 M) j k| := by
  have h : ImageOf g (g.corners_ 0) M := by rw [hedges]; exact imageOf_simplex g fun k _ _ => by simp [hid]
  obtain ⟨m, hm, hs⟩ := maxOrder_tab (qt := .GaussLegendre) (h := 61) rfl (by omega) (by omega) 2 g.id (by omega) (by omega)
  have hpm : p ≤ m := by
    rcases hs.2.2 with rfl | ⟨k, hk1, hk2, -, hk⟩ <;> omega
  obtain ⟨D, S, Q, h1, h2, h3, h4⟩ := C123_affine env 3 p m .GaussLegendre g hg hdim hfull (by omega) (by omega) (Or.inl rfl) hm hpm _ M h hM
    (tetrahedron_points env hp hid htol) P hP
  have e : refSize 3 g.id 1 = 4 := by rw [hid]; decide
  rw [e] at h2 h4
  refine ⟨D, S, Q, h1, h2, h3, ?_⟩
  rw [sum_range_succ, sum_range_succ, sum_range_succ, sum_range_succ, sum_range_zero, zero_add] at h4
  norm_num at h4 ⊢
  exact h4

/-- a tetrahedron with edges along the axes and the order 3, whose rule has points at the corners -/
example (env : Env ℝ) : Legal sampleTet ∧ sampleTet.tol ≤ 1 / 1000 ∧ PointsOk env 3 3 .GaussLegendre sampleTet ∧
    (mat 3 3 fun j r => sampleTet.corners_ (r + 1) j - sampleTet.corners_ 0 j).det ≠ 0 := by
  have h : sampleTet.tol ≤ 1 / 1000 := by norm_num [sampleTet]
  refine ⟨by constructor <;> norm_num [sampleTet], h, tetrahedron_points env (by omega) rfl h, ?_⟩
  rw [Matrix.det_fin_three]
  norm_num [mat, sampleTet]

end Verif.Balance
