import Verif.Quad.PrismSymmetric
import Verif.Quad.SymmetricProps

/-! Property theorems: quadrature rules on the prism and its symmetries (C108). -/

namespace Verif.Quad

open Verif.Typ Verif.RefTopo Verif.RefGeom Verif.Neighbour
open Finset hiding ext

/-! ### helper lemmas -/

/-- the rules on the interval are symmetric -/
theorem line_symmetric (env : Env ℝ) (p : Nat) (hp : p ≤ 61) : ∃ O, rule1 env line p .GaussLegendre = .ok O ∧ (∀ o ∈ O.pts, |o.weight| ≤ 1) ∧
    Multiset.Rel (fun a b => |1 - a.position 0 - b.position 0| ≤ 1 / 10 ^ 14 ∧ |a.weight - b.weight| ≤ 1 / 10 ^ 14)
      (O.pts : Multiset (QPoint ℝ)) (O.pts : Multiset (QPoint ℝ)) := by
  have ht : tableOf .GaussLegendre = some (Gauss.table, 61) := rfl
  obtain ⟨-, -, row, hrow, -⟩ := plain_table (K := ℝ) (Or.inl rfl) ht hp
  have hmem : row ∈ Gauss.table := by
    unfold initHelper at hrow
    split at hrow
    · rename_i r' hf; cases hrow; exact List.mem_of_find?_eq_some hf
    · cases hrow
  have hok := List.all_eq_true.1 flip_ok row (List.mem_append_left _ hmem)
  rw [Bool.and_eq_true] at hok
  obtain ⟨hk1, hk2⟩ := hok
  have hpl := List.all_eq_true.1 hk2
  refine ⟨⟨line, row.order, row.pts.map Node.point⟩, ?_, fun o ho => ?_, ?_⟩
  · have hl : line = ⟨1, false, 1⟩ ∨ line = ⟨1, false, 0⟩ := by decide
    rcases hl with h | h <;> rw [h, rule1_eq env (by omega) ht hp, rule1D, hrow] <;> rw [← h] <;> rfl
  · obtain ⟨n, n1, rfl⟩ := List.mem_map.1 ho
    have := plain1_weight (hpl n n1)
    rw [abs_of_nonneg this.1]; exact this.2
  · refine (symOK_rel (A := fun x i => 1 - x i) (by positivity) hk1 fun n hn => flip_point (hpl n hn)).mono fun a _ b _ h => ?_
    have hle : (1 : ℝ) / ((10 ^ 81 : Nat) : ℝ) ≤ 1 / 10 ^ 14 := by push_cast; norm_num
    exact ⟨(h.1 0 one_pos).trans hle, h.2.trans hle⟩

theorem affMap_congr {d : Nat} {a : Vec ℝ} {M : Mat ℝ} {x y : Vec ℝ} (h : ∀ i, i < d → x i = y i) (i : Nat) : affMap d a M x i = affMap d a M y i := by
  rw [affMap, affMap, sum_congr rfl fun r hr => by rw [h r (mem_range.1 hr)]]

theorem point_position {n : Node} {i : Nat} (h : i < n.x.length) : (Node.point (K := ℝ) n).position i = (n.x[i].val : ℝ) := dif_pos h

theorem prismImg_length (s : List Nat) (f : Bool) (n : Node) : (Node.prismImg s f n).x.length = 3 := by simp [Node.prismImg, Node.img]

theorem prismImg_lt (s : List Nat) (f : Bool) (n : Node) {i : Nat} (hi : i < 2) :
    (Node.point (K := ℝ) (Node.prismImg s f n)).position i = (Node.point (K := ℝ) (Node.img 2 s ⟨n.x.take 2, n.w⟩)).position i := by
  rw [point_position (by rw [prismImg_length]; omega), point_position (by simpa [Node.img] using hi)]
  congr 1
  exact List.getElem_append_left _

theorem prismImg_two (s : List Nat) (f : Bool) (n : Node) : (Node.point (K := ℝ) (Node.prismImg s f n)).position 2 =
    ((if f then (n.x.getD 2 ⟨0, 1⟩).compl else n.x.getD 2 ⟨0, 1⟩).val : ℝ) := by
  rw [point_position (by rw [prismImg_length]; omega)]
  congr 1

/-! ### C108 -/

/-- C108: the rules on the prism, orders up to 12, are invariant under all twelve symmetries, except for orders 6 and 7. -/
theorem C108_prism_partial (env : Env ℝ) (p id : Nat) (hid : id = 4 ∨ id = 5) (hp : p ≤ 12) (h6 : p ≠ 6) (h7 : p ≠ 7)
    (σ : Nat → Nat) (a : Vec ℝ) (M : Mat ℝ) (hs : Symmetry 3 id σ a M) :
    ∃ r, rule env 3 ⟨3, false, id⟩ p .GaussLegendre = .ok r ∧ Invariant 3 (1 / 10 ^ 13) (affMap 3 a M) r.pts := by
  obtain ⟨h2, hxy, hz⟩ := prism_symmetry hid hs
  have hs2 : IsSimplexId 2 0 := fun k _ _ => by simp
  by_cases hlow : p ≤ 2
  · refine ⟨_, prism_rule_low env p hlow hid, ?_⟩
    obtain ⟨f, hf⟩ : ∃ f : Bool, ∀ x, affMap 3 a M x 2 = if f then 1 - x 2 else x 2 :=
      hz.elim (fun h => ⟨false, fun x => by simp [h]⟩) fun h => ⟨true, fun x => by simp [h]⟩
    have hsym := List.all_eq_true.1 (List.all_eq_true.1 prism_sym _ (List.mem_permutations'.2 (sigma_perm hs2 h2))) f (by cases f <;> simp)
    refine (symOK_rel (A := affMap 3 a M) (by positivity) hsym fun n hn => ⟨rfl, fun i hi => ?_⟩).mono fun q _ q' _ h => ?_
    · have hl := List.all_eq_true.1 prism_lit n hn
      simp only [Bool.and_eq_true, List.all_eq_true, beq_iff_eq, bne_iff_ne, ne_eq] at hl
      obtain ⟨hl1, hl2⟩ := hl
      by_cases hi2 : i = 2
      · subst hi2
        rw [hf]
        have hget : n.x.getD 2 ⟨0, 1⟩ = n.x[2] := by rw [List.getD_eq_getElem?_getD, List.getElem?_eq_getElem (by omega)]; rfl
        have hv : (Node.point (K := ℝ) n).position 2 = (n.x[2].val : ℝ) := dif_pos (by omega)
        have hd2 := hl2 n.x[2] (List.getElem_mem _)
        rw [prismImg_two, hget, hv]
        cases f
        · simp
        · simp [compl_val hd2]
      · have hi' : i < 2 := by omega
        rw [hxy _ i hi']
        have := simplex_img hs2 h2 (n := ⟨n.x.take 2, n.w⟩) (by simp [hl1]) (fun l hl => hl2 l (List.mem_of_mem_take hl)) hi'
        rw [affMap_congr (y := (Node.point (K := ℝ) ⟨n.x.take 2, n.w⟩).position), ← this]
        · exact prismImg_lt _ _ _ hi'
        · intro j hj
          rw [point_position (by omega), point_position (by simp; omega)]
          congr 1
          exact List.getElem_take.symm
    · have hle : (1 : ℝ) / ((10 ^ 14 : Nat) : ℝ) ≤ 1 / 10 ^ 13 := by push_cast; norm_num
      exact ⟨fun i hi => (h.1 i hi).trans hle, h.2.trans hle⟩
  · obtain ⟨row, r1, r2⟩ := triangle_row p hp
    obtain ⟨O, o1, o2, o3⟩ := line_symmetric env p (by omega)
    refine ⟨_, prism_rule_high env p (by omega) hp hid r1 o1, ?_⟩
    have hm := List.mem_of_find?_eq_some r2
    rw [List.mem_reverse] at hm
    have hcase := List.find?_some r2
    have hne : row.cases ≠ [12] := by
      intro e
      rw [beq_iff_eq, e] at hcase
      revert hcase
      interval_cases p <;> simp_all [simplex2Index]
    have hB := simplex_invariant (d := 2) (T := 10 ^ 14) (by positivity) hs2 (by
      have := List.all_eq_true.1 simplex2_sym row hm
      simpa [hne] using this) h2
    rw [pow14] at hB
    have hw : ∀ b ∈ row.pts.map (Node.point (K := ℝ)), |b.weight| ≤ 1 := fun b hb => by
      obtain ⟨n, hn, rfl⟩ := List.mem_map.1 hb
      have := List.all_eq_true.1 (List.all_eq_true.1 simplex2_weight row hm) n hn
      simp only [Bool.and_eq_true, bne_iff_ne, ne_eq, decide_eq_true_eq] at this
      exact weight_le this.1 this.2
    obtain ⟨ρ, hρ, hO⟩ : ∃ ρ : ℝ → ℝ, (∀ x, affMap 3 a M x 2 = ρ (x 2)) ∧
        Multiset.Rel (fun a b => |ρ (a.position 0) - b.position 0| ≤ 1 / 10 ^ 14 ∧ |a.weight - b.weight| ≤ 1 / 10 ^ 14)
          (O.pts : Multiset (QPoint ℝ)) (O.pts : Multiset (QPoint ℝ)) := by
      rcases hz with h | h
      · exact ⟨fun t => t, h, Multiset.rel_refl_of_refl_on fun o _ => by simp⟩
      · exact ⟨fun t => 1 - t, h, o3⟩
    refine (tensor_rel (A' := affMap 3 a M) hB hO hw o2 (by positivity) (by positivity) (fun x y hxy' i hi => ?_) hρ).mono fun q _ q' _ h => ?_
    · rw [hxy x i hi]; exact affMap_congr hxy' i
    · have hle : (1 : ℝ) / 10 ^ 14 + 1 / 10 ^ 14 ≤ 1 / 10 ^ 13 := by norm_num
      exact ⟨fun i hi => (h.1 i hi).trans hle, h.2.trans hle⟩

/-- exchange of bottom and top is a symmetry of the prism -/
example : Symmetry 3 5 (fun k => (k + 3) % 6) (fun i => if i = 2 then 1 else 0) fun i j => if i = j then (if i = 2 then -1 else 1) else 0 := by
  refine ⟨fun k hk => ?_, fun k k' hk hk' e => ?_, fun k hk i hi => ?_⟩ <;> rw [prism_size (Or.inr rfl)] at *
  · exact Nat.mod_lt _ (by omega)
  · change (k + 3) % 6 = (k' + 3) % 6 at e; omega
  · rw [prism_corner (Or.inr rfl) (Nat.mod_lt _ (by omega)) hi, affMap, sum_range_succ, sum_range_succ, sum_range_one,
      prism_corner (Or.inr rfl) hk (by omega), prism_corner (Or.inr rfl) hk (by omega), prism_corner (Or.inr rfl) hk (by omega)]
    interval_cases k <;> interval_cases i <;> norm_num [prismCorner]

end Verif.Quad
