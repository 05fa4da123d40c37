import Verif.Quad.MassTab

/-!
The delivered rules are definite on the polynomials of half their order.
-/

namespace Verif.Quad

open Verif.Typ Verif.RefTopo Verif.RefGeom
open Finset hiding ext
open MvPolynomial
open MeasureTheory

/-! ### The tables of simplices and prisms -/

theorem tri_moments : (triExps.all fun α => triExps.all fun β =>
    (α.getD 0 0 + β.getD 0 0 + (α.getD 1 0 + β.getD 1 0) ≤ 12) ∧ (List.zipWith (· + ·) α β).getD 0 0 = α.getD 0 0 + β.getD 0 0 ∧
      (List.zipWith (· + ·) α β).getD 1 0 = α.getD 1 0 + β.getD 1 0) = true := by decide +kernel

theorem tet_moments : (tetExps.all fun α => tetExps.all fun β =>
    (α.getD 0 0 + β.getD 0 0 + (α.getD 1 0 + β.getD 1 0) + (α.getD 2 0 + β.getD 2 0) ≤ 4) ∧ (List.zipWith (· + ·) α β).getD 0 0 = α.getD 0 0 + β.getD 0 0 ∧
      (List.zipWith (· + ·) α β).getD 1 0 = α.getD 1 0 + β.getD 1 0 ∧ (List.zipWith (· + ·) α β).getD 2 0 = α.getD 2 0 + β.getD 2 0) = true := by
  decide +kernel

theorem prism_moments : (prismExps.all fun α => prismExps.all fun β =>
    (α.getD 0 0 + β.getD 0 0 + (α.getD 1 0 + β.getD 1 0) + (α.getD 2 0 + β.getD 2 0) ≤ 2) ∧ (List.zipWith (· + ·) α β).getD 0 0 = α.getD 0 0 + β.getD 0 0 ∧
      (List.zipWith (· + ·) α β).getD 1 0 = α.getD 1 0 + β.getD 1 0 ∧ (List.zipWith (· + ·) α β).getD 2 0 = α.getD 2 0 + β.getD 2 0) = true := by
  decide +kernel

theorem tri_exps {a b : Nat} (h : a + b ≤ 6) : [a, b] ∈ triExps := by
  have h1 : a ≤ 6 := by omega
  have h2 : b ≤ 6 := by omega
  interval_cases a <;> interval_cases b <;> first | (exfalso; omega) | decide

theorem tet_exps {a b c : Nat} (h : a + b + c ≤ 2) : [a, b, c] ∈ tetExps := by
  have h1 : a ≤ 2 := by omega
  have h2 : b ≤ 2 := by omega
  have h3 : c ≤ 2 := by omega
  interval_cases a <;> interval_cases b <;> interval_cases c <;> first | (exfalso; omega) | decide

theorem prism_exps {a b c : Nat} (h : a + b + c ≤ 1) : [a, b, c] ∈ prismExps := by
  have h1 : a ≤ 1 := by omega
  have h2 : b ≤ 1 := by omega
  have h3 : c ≤ 1 := by omega
  interval_cases a <;> interval_cases b <;> interval_cases c <;> first | (exfalso; omega) | decide

theorem fact_quot {a n : Nat} (h : a ≤ n) : ((n.factorial / a.factorial : Nat) : ℝ) = n.factorial / a.factorial :=
  Nat.cast_div (Nat.factorial_dvd_factorial h) (Nat.cast_ne_zero.2 (Nat.factorial_ne_zero _))

theorem tri_bound (P : MvPolynomial (Fin 2) ℝ) (hP : P.totalDegree ≤ 6) :
    coeffSum P ^ 2 ≤ 9093606585728 * ∫ x in refSet 2 0, P.eval x ^ 2 := by
  have hr : Rep 2 0 (.pyr (.prism .pt)) := rep_topoOf 2 0
  have := coeff_bound hr triExps triDual gramTri (Nat.factorial 14) (Nat.factorial_pos _) (by decide) (by decide) (K := 6) (fun s hs => by
    rw [Finsupp.sum_fintype _ _ (fun _ => rfl), Fin.sum_univ_two] at hs
    exact tri_exps hs) (fun α hα β hβ => by
      have h := List.all_eq_true.1 (List.all_eq_true.1 tri_moments α hα) β hβ
      simp only [decide_eq_true_eq] at h
      rw [mom_tri, gramTri, h.2.1, h.2.2]
      push_cast [fact_quot (show α.getD 0 0 + β.getD 0 0 + (α.getD 1 0 + β.getD 1 0) + 2 ≤ 14 by omega)]
      have : ((Nat.factorial 14 : Nat) : ℝ) ≠ 0 := Nat.cast_ne_zero.2 (Nat.factorial_ne_zero _)
      field_simp) tri_check P hP
  have e : (triExps.length : ℝ) * ((∑ i : Fin triExps.length, (triDual.getD i []).getD i 0 : Int) : ℝ) = 9093606585728 := by
    have e1 : (∑ i : Fin triExps.length, (triDual.getD i []).getD i 0 : Int) = 324771663776 := by decide +kernel
    have e2 : triExps.length = 28 := by decide +kernel
    rw [e1, e2]; norm_num
  rwa [e] at this

theorem tet_bound (P : MvPolynomial (Fin 3) ℝ) (hP : P.totalDegree ≤ 2) :
    coeffSum P ^ 2 ≤ 1096800 * ∫ x in refSet 3 0, P.eval x ^ 2 := by
  have hr : Rep 3 0 (.pyr (.pyr (.prism .pt))) := rep_topoOf 3 0
  have := coeff_bound hr tetExps tetDual gramTet (Nat.factorial 7) (Nat.factorial_pos _) (by decide) (by decide) (K := 2) (fun s hs => by
    rw [Finsupp.sum_fintype _ _ (fun _ => rfl), Fin.sum_univ_three] at hs
    exact tet_exps hs) (fun α hα β hβ => by
      have h := List.all_eq_true.1 (List.all_eq_true.1 tet_moments α hα) β hβ
      simp only [decide_eq_true_eq] at h
      rw [mom_tet, gramTet, h.2.1, h.2.2.1, h.2.2.2]
      push_cast [fact_quot (show α.getD 0 0 + β.getD 0 0 + (α.getD 1 0 + β.getD 1 0) + (α.getD 2 0 + β.getD 2 0) + 3 ≤ 7 by omega)]
      have : ((Nat.factorial 7 : Nat) : ℝ) ≠ 0 := Nat.cast_ne_zero.2 (Nat.factorial_ne_zero _)
      field_simp) tet_check P hP
  have e : (tetExps.length : ℝ) * ((∑ i : Fin tetExps.length, (tetDual.getD i []).getD i 0 : Int) : ℝ) = 1096800 := by
    have e1 : (∑ i : Fin tetExps.length, (tetDual.getD i []).getD i 0 : Int) = 109680 := by decide +kernel
    have e2 : tetExps.length = 10 := by decide +kernel
    rw [e1, e2]; norm_num
  rwa [e] at this

theorem prism_bound (P : MvPolynomial (Fin 3) ℝ) (hP : P.totalDegree ≤ 1) :
    coeffSum P ^ 2 ≤ 576 * ∫ x in refSet 3 5, P.eval x ^ 2 := by
  have hr : Rep 3 5 (.prism (.pyr (.prism .pt))) := rep_topoOf 3 5
  have := coeff_bound hr prismExps prismDual gramPrism (Nat.factorial 4 * 6) (by decide) (by decide) (by decide) (K := 1) (fun s hs => by
    rw [Finsupp.sum_fintype _ _ (fun _ => rfl), Fin.sum_univ_three] at hs
    exact prism_exps hs) (fun α hα β hβ => by
      have h := List.all_eq_true.1 (List.all_eq_true.1 prism_moments α hα) β hβ
      simp only [decide_eq_true_eq] at h
      rw [mom_pri, gramPrism, h.2.1, h.2.2.1, h.2.2.2]
      have h6 : ((6 / (α.getD 2 0 + β.getD 2 0 + 1) : Nat) : ℝ) = 6 / ((α.getD 2 0 + β.getD 2 0 + 1 : Nat) : ℝ) := by
        have h0 : α.getD 2 0 + β.getD 2 0 ≤ 2 := by omega
        generalize α.getD 2 0 + β.getD 2 0 = c at h0
        interval_cases c <;> norm_num
      push_cast [fact_quot (show α.getD 0 0 + β.getD 0 0 + (α.getD 1 0 + β.getD 1 0) + 2 ≤ 4 by omega), h6]
      have : ((Nat.factorial 4 : Nat) : ℝ) ≠ 0 := Nat.cast_ne_zero.2 (Nat.factorial_ne_zero _)
      field_simp) prism_check P hP
  have e : (prismExps.length : ℝ) * ((∑ i : Fin prismExps.length, (prismDual.getD i []).getD i 0 : Int) : ℝ) = 576 := by
    have e1 : (∑ i : Fin prismExps.length, (prismDual.getD i []).getD i 0 : Int) = 144 := by decide +kernel
    have e2 : prismExps.length = 4 := by decide +kernel
    rw [e1, e2]; norm_num
  rwa [e] at this

theorem simplex2_definite {p k : Nat} (hp : p ≤ 12) (hk : 2 * k ≤ p) : ∃ r, simplex2Rule (K := ℝ) p = .ok r ∧ Definite 2 k r.pts := by
  obtain ⟨r, h1, -, h2⟩ := simplex2_good (K := ℝ) (qt := .GaussLegendre) hp (Or.inl rfl)
  have hr : Rep 2 0 (.pyr (.prism .pt)) := rep_topoOf 2 0
  refine ⟨r, h1, definite_of_exact (exactUpTo_of_approx hr (h2.approx.mono (p' := p) (by have := h2.order; omega) le_rfl)) hk (by unfold epsT; positivity)
    (fun P hP => tri_bound P (hP.trans (by omega))) (by unfold epsT; norm_num)⟩

theorem simplex3_definite {p k : Nat} (hp : p ≤ 5) (hk : 2 * k ≤ p) : ∃ r, simplex3Rule (K := ℝ) p = .ok r ∧ Definite 3 k r.pts := by
  obtain ⟨r, h1, -, h2⟩ := simplex3_good (K := ℝ) (qt := .GaussLegendre) hp
  have hr : Rep 3 0 (.pyr (.pyr (.prism .pt))) := rep_topoOf 3 0
  refine ⟨r, h1, definite_of_exact (exactUpTo_of_approx hr (h2.approx.mono (p' := p) (by have := h2.order; omega) le_rfl)) hk (by unfold epsT; positivity)
    (fun P hP => tet_bound P (hP.trans (by omega))) (by unfold epsT; norm_num)⟩

theorem prism3_definite {p k : Nat} (hp : p ≤ 2) (hk : 2 * k ≤ p) : ∃ r, prism3Rule (K := ℝ) p = .ok r ∧ Definite 3 k r.pts := by
  obtain ⟨r, h1, -, h2⟩ := prism3_good (K := ℝ) (qt := .GaussLegendre) hp
  have hr : Rep 3 5 (.prism (.pyr (.prism .pt))) := rep_topoOf 3 5
  refine ⟨r, h1, definite_of_exact (exactUpTo_of_approx hr (h2.approx.mono (p' := p) (by have := h2.order; omega) le_rfl)) hk (by unfold epsT; positivity)
    (fun P hP => prism_bound P (hP.trans (by omega))) (by unfold epsT; norm_num)⟩

/-! ### The rules of the interval -/

/-- what the tables of the interval have in common -/
structure Fine (O : List (QPoint ℝ)) : Prop where
  apart : O.Pairwise (Apart 1)
  in01 : In01 O
  pos : PosW O

theorem Fine.card {O : List (QPoint ℝ)} (h : Fine O) : #(O.map fun o => o.position 0).toFinset = O.length := by
  have : (O.map fun o => o.position 0).Nodup := by
    rw [List.Nodup, List.pairwise_map]
    refine h.apart.imp fun {a b} hab => ?_
    obtain ⟨k, hk, hne⟩ := hab
    obtain rfl : k = 0 := by omega
    exact hne
  rw [List.toFinset_card_of_nodup this, List.length_map]

theorem rich_of_fine {O : List (QPoint ℝ)} (h : Fine O) {k : Nat} (hk : k < O.length) : Rich false k O where
  nonneg o ho := (h.pos o ho).le
  le_one o ho := (h.in01 o ho).2
  many := by
    refine ⟨_, by rw [h.card]; exact hk, fun z hz => ?_⟩
    obtain ⟨o, ho, rfl⟩ := List.mem_map.1 (List.mem_toFinset.1 hz)
    exact ⟨o, ho, rfl, h.pos o ho, fun hb => absurd hb (by decide)⟩

theorem rich_cone {O : List (QPoint ℝ)} (h : Fine O) {k : Nat} (hk : k + 1 < O.length) : Rich true k O where
  nonneg o ho := (h.pos o ho).le
  le_one o ho := (h.in01 o ho).2
  many := by
    refine ⟨(O.map fun o => o.position 0).toFinset.erase 1, lt_of_lt_of_le ?_ pred_card_le_card_erase, fun z hz => ?_⟩
    · rw [h.card]; omega
    obtain ⟨h1, h2⟩ := mem_erase.1 hz
    obtain ⟨o, ho, rfl⟩ := List.mem_map.1 (List.mem_toFinset.1 h2)
    exact ⟨o, ho, rfl, h.pos o ho, fun _ => lt_of_le_of_ne (h.in01 o ho).2 h1⟩

theorem rich_below {O : List (QPoint ℝ)} (h : Fine O) (hb : ∀ o ∈ O, o.position 0 < 1) {k : Nat} (hk : k < O.length) : Rich true k O where
  nonneg o ho := (h.pos o ho).le
  le_one o ho := (h.in01 o ho).2
  many := by
    obtain ⟨S, h1, h2⟩ := (rich_of_fine h hk).many
    refine ⟨S, h1, fun z hz => ?_⟩
    obtain ⟨o, ho, rfl, h3, -⟩ := h2 z hz
    exact ⟨o, ho, rfl, h3, fun _ => hb o ho⟩

theorem rich_row {qt : QType} {tab : List Row} {h : Nat} (hq : IsPlain qt) (ht : tableOf qt = some (tab, h)) {p k : Nat} {row : Row}
    (hp : p ≤ h) (hr : initHelper tab p = .ok row) :
    (2 * k ≤ p → Rich false k (row.pts.map Node.point)) ∧ (2 * k < p → Rich true k (row.pts.map Node.point)) := by
  obtain ⟨h30, h61, row', e, ho⟩ := plain_table (K := ℝ) hq ht hp
  rw [e] at hr
  cases hr
  have hm : row ∈ tab := initHelper_mem e
  have hl := tab_lengths
  simp only [Bool.and_eq_true, List.all_eq_true, List.mem_range] at hl
  rcases hq with rfl | rfl | rfl | rfl <;> cases ht
  · have hf : Fine (row.pts.map (Node.point (K := ℝ))) := ⟨distinct_tab (by simp [hm]), ho.in01, ho.pos⟩
    have h1 := hl.1.1 p (by omega)
    have hlen : row.pts.length = p / 2 + 1 := by
      revert h1
      rw [e]
      cases initHelper Jacobi1.table p <;> cases initHelper Jacobi2.table p <;> simp
      tauto
    refine ⟨fun h => rich_of_fine hf (by rw [List.length_map]; omega), fun h => rich_below hf (ho.below (by decide)) (by rw [List.length_map]; omega)⟩
  · have hf : Fine (row.pts.map (Node.point (K := ℝ))) := ⟨distinct_tab (by simp [hm]), ho.in01, ho.pos⟩
    have h1 := hl.1.2 p (by omega)
    rw [e] at h1
    have hlen : row.pts.length = p / 2 + 2 := of_decide_eq_true h1
    refine ⟨fun h => rich_of_fine hf (by rw [List.length_map]; omega), fun h => rich_cone hf (by rw [List.length_map]; omega)⟩
  · have hf : Fine (row.pts.map (Node.point (K := ℝ))) := ⟨distinct_tab (by simp [hm]), ho.in01, ho.pos⟩
    have h1 := hl.2 p (by omega)
    have hlen : row.pts.length = (p + 1) / 2 + 1 := by
      revert h1
      rw [e]
      cases initHelper RadauRight.table p <;> simp
      tauto
    refine ⟨fun h => rich_of_fine hf (by rw [List.length_map]; omega), fun h => rich_below hf (ho.below (by decide)) (by rw [List.length_map]; omega)⟩
  · have hf : Fine (row.pts.map (Node.point (K := ℝ))) := ⟨distinct_tab (by simp [hm]), ho.in01, ho.pos⟩
    have h1 := hl.2 p (by omega)
    have hlen : row.pts.length = (p + 1) / 2 + 1 := by
      revert h1
      rw [e]
      cases initHelper RadauLeft.table p <;> simp
    refine ⟨fun h => rich_of_fine hf (by rw [List.length_map]; omega), fun h => rich_cone hf (by rw [List.length_map]; omega)⟩

theorem rule_definite (env : Env ℝ) {qt : QType} (hq : IsPlain qt) {d id p m k : Nat} (hd : d ≤ 30) (hid : id < 2 ^ d)
    (hm : maxOrder d ⟨d, false, id⟩ qt = .ok m) (hp : p ≤ m) (hk : 2 * k ≤ p) :
    ∃ r, rule env d ⟨d, false, id⟩ p qt = .ok r ∧ Definite d k r.pts := by
  obtain ⟨tab, h, ht⟩ : ∃ tab h, tableOf qt = some (tab, h) := by
    rcases hq with rfl | rfl | rfl | rfl <;> exact ⟨_, _, rfl⟩
  have hok : tab.all (Row.ok1 0) = true := by
    rcases hq with rfl | rfl | rfl | rfl <;> cases ht
    exacts [gauss_ok, lobatto_ok, radauLeft_ok, radauRight_ok]
  obtain ⟨r, h1, h2⟩ := rule_induct2 env hq ht p d (fun row => Rich false k (row.pts.map Node.point)) (fun row => Rich true k (row.pts.map Node.point))
    (fun row _ hph hr _ => (rich_row hq ht hph hr).1 hk) (fun p' row h1 _ h2 hr _ => (rich_row hq ht h2 hr).2 (by omega))
    (fun t l => Definite t.dim k l) (definite_pt k) (fun row hr hR => one_of_tensor (P := fun t l => Definite t.dim k l) hok hr (definite_tensor (definite_pt k) hR))
    (fun t B hB row _ hR => definite_tensor hB hR) (fun t B hB row _ hR => definite_conical hB hR)
    (fun _ h => simplex2_definite h hk) (fun _ h => simplex3_definite h hk) (fun _ h => prism3_definite h hk) d id m hd le_rfl hid hm hp
  refine ⟨r, h1, ?_⟩
  have hdim : (topoOf d id).dim = d := (rep_topoOf _ _).dim_eq
  rwa [hdim] at h2

end Verif.Quad
