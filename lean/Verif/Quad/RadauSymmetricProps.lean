import Verif.Quad.ConicalSymmetricProps

/-! Property theorems: the Gauss-Radau rules on the line have a point at one end only (C108). -/

namespace Verif.Quad

open Verif.Typ Verif.RefTopo Verif.RefGeom Verif.Neighbour
open Finset hiding ext

/-- exchanging the corners of the line -/
def swap01 (k : Nat) : Nat := [1, 0].getD k k

theorem swap01_symmetry : ∃ a M, Symmetry 1 0 swap01 a M :=
  C97_simplex_any 1 0 (fun k h1 h2 => by simp) _ (by decide) (fun k k' hk hk' => by
    interval_cases k <;> interval_cases k' <;> simp [swap01])

theorem swap01_coord {a : Vec ℝ} {M : Mat ℝ} (hs : Symmetry 1 0 swap01 a M) (y : Vec ℝ) : affMap 1 a M y 0 = 1 - y 0 := by
  have hs2 : IsSimplexId 1 0 := fun k _ _ => by simp
  have c : ∀ k, k < 2 → _ := fun k hk => hs.corner k (by rw [simplex_size hs2]; omega) 0 (by omega)
  have c0 := c 0 (by omega)
  have c1 := c 1 (by omega)
  simp only [affMap, sum_range_succ, range_zero, sum_empty, zero_add, show swap01 0 = 1 from rfl, show swap01 1 = 0 from rfl,
    simplex_corner hs2 (show 0 ≤ 1 by omega) (show 0 < 1 by omega), simplex_corner hs2 (show 1 ≤ 1 by omega) (show 0 < 1 by omega)]
    at c0 c1 ⊢
  norm_num at c0 c1
  rw [← c0] at c1 ⊢
  have d1 : M 0 0 = -1 := by linarith
  rw [d1]; ring

/-- a point within `10⁻⁷` of `e`, none within `10⁻³` of `1 - e` (`e` is 0 or 1) -/
def oneSided (e : Int) (r : Row) : Bool :=
  r.pts.all (fun m => m.x.length == 1 && m.x.all fun l => l.den != 0 &&
    decide ((l.den : Int) ≤ 1000 * |(1 - e) * l.den - l.num|)) &&
  r.pts.any fun n => n.x.all fun l => decide (|e * l.den - l.num| * 10 ^ 7 ≤ l.den)

theorem radauLeft_oneSided : (RadauLeft.table.all (oneSided 0)) = true := by decide +kernel
theorem radauRight_oneSided : (RadauRight.table.all (oneSided 1)) = true := by decide +kernel

theorem exists_oneSided {e : Int} {r : Row} (h : oneSided e r = true) : ∃ q ∈ r.pts.map (Node.point (K := ℝ)),
    |(e : ℝ) - q.position 0| ≤ 1 / 10 ^ 7 ∧ ∀ q' ∈ r.pts.map (Node.point (K := ℝ)), 1 / 1000 ≤ |1 - (e : ℝ) - q'.position 0| := by
  simp only [oneSided, Bool.and_eq_true, List.any_eq_true, List.all_eq_true, beq_iff_eq, bne_iff_ne, ne_eq, decide_eq_true_eq] at h
  obtain ⟨h0, n, hn, h1⟩ := h
  have pos : ∀ m ∈ r.pts, ∃ l ∈ m.x, (Node.point (K := ℝ) m).position 0 = (l.num : ℝ) / l.den ∧ (0:ℝ) < l.den := by
    intro m hm
    have hl := (h0 m hm).1
    refine ⟨m.x[0], List.getElem_mem _, dif_pos (by omega), ?_⟩
    exact_mod_cast Nat.pos_of_ne_zero ((h0 m hm).2 _ (List.getElem_mem _)).1
  refine ⟨_, List.mem_map.2 ⟨n, hn, rfl⟩, ?_, ?_⟩
  · obtain ⟨l, l1, l2, l3⟩ := pos n hn
    have g : |(e : ℝ) * l.den - l.num| * 10 ^ 7 ≤ l.den := by exact_mod_cast h1 l l1
    have : (e : ℝ) - l.num / l.den = (e * l.den - l.num) / l.den := by field_simp
    rw [l2, this, abs_div, abs_of_pos l3, div_le_div_iff₀ l3 (by norm_num), one_mul]
    exact g
  · intro q' hq'
    obtain ⟨m, hm, rfl⟩ := List.mem_map.1 hq'
    obtain ⟨l, l1, l2, l3⟩ := pos m hm
    have g : (l.den : ℝ) ≤ 1000 * |(1 - (e : ℝ)) * l.den - l.num| := by exact_mod_cast ((h0 m hm).2 l l1).2
    have : 1 - (e : ℝ) - l.num / l.den = ((1 - e) * l.den - l.num) / l.den := by field_simp
    rw [l2, this, abs_div, abs_of_pos l3, div_le_div_iff₀ (by norm_num) l3]
    linarith

/-- C108 fails for all Gauss-Radau rules on the line -/
theorem C108_radau_counterexample (env : Env ℝ) (p : Nat) (hp : p ≤ 30) (qt : QType) (hq : qt = .GaussRadauLeft ∨ qt = .GaussRadauRight) :
    ∃ r a M, Symmetry 1 0 swap01 a M ∧ rule env 1 ⟨1, false, 0⟩ p qt = .ok r ∧ ¬ Invariant 1 (1 / 10 ^ 4) (affMap 1 a M) r.pts := by
  obtain ⟨a, M, hs⟩ := swap01_symmetry
  obtain ⟨tab, e, ht, htab, hpl⟩ : ∃ tab e, tableOf qt = some (tab, 30) ∧ (tab.all (oneSided e)) = true ∧ IsPlain qt := by
    rcases hq with rfl | rfl
    · exact ⟨_, 0, rfl, radauLeft_oneSided, Or.inr (Or.inr (Or.inl rfl))⟩
    · exact ⟨_, 1, rfl, radauRight_oneSided, Or.inr (Or.inr (Or.inr rfl))⟩
  obtain ⟨row, h1, h2, -⟩ := plain_row hpl ht hp
  have e1 : rule (K := ℝ) env 1 ⟨1, false, 0⟩ p qt = rule1D tab p := rule1_eq env (by omega) ht hp
  rw [rule1D, h2] at e1
  refine ⟨_, a, M, hs, e1, fun hinv => ?_⟩
  obtain ⟨q, q1, q2, q3⟩ := exists_oneSided (List.all_eq_true.1 htab row h1)
  obtain ⟨q', hq', hc, -⟩ := Multiset.exists_mem_of_rel_of_mem hinv (Multiset.mem_coe.2 q1)
  have h3 := hc 0 (by omega)
  rw [swap01_coord hs] at h3
  have h4 := q3 q' (Multiset.mem_coe.1 hq')
  have h5 : |1 - (e : ℝ) - q'.position 0| ≤ |1 - q.position 0 - q'.position 0| + |(e : ℝ) - q.position 0| := by
    have := abs_sub (1 - q.position 0 - q'.position 0) ((e : ℝ) - q.position 0)
    refine le_trans (le_of_eq ?_) this
    congr 1; ring
  norm_num at h3 h4 h5 q2
  linarith

example : IsPlain .GaussRadauLeft ∧ maxOrder 1 ⟨1, false, 0⟩ .GaussRadauLeft = .ok 30 := ⟨Or.inr (Or.inr (Or.inl rfl)), by decide⟩

end Verif.Quad
