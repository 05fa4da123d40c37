import Verif.Quad.MassForms
import Verif.Quad.CubeRule

/-!
Rules on cubes as nodes of Lagrange polynomials.
-/

namespace Verif.Quad

open Verif.Typ Verif.RefTopo Verif.RefGeom
open Finset hiding ext
open MvPolynomial
open Matrix hiding vec
open MeasureTheory

variable {d : Nat}

/-- the Lagrange polynomial of the grid `S^d` for the node `z` -/
noncomputable def lagrange (S : Finset ℝ) (z : Fin d → ℝ) : MvPolynomial (Fin d) ℝ :=
  ∏ i, ∏ s ∈ S.erase (z i), C (z i - s)⁻¹ * (X i - C s)

theorem lagrange_eval (S : Finset ℝ) {z w : Fin d → ℝ} (hw : ∀ i, w i ∈ S) : (lagrange S z).eval w = if w = z then 1 else 0 := by
  simp only [lagrange, map_prod, map_mul, map_sub, eval_C, eval_X]
  by_cases h : w = z
  · subst h
    rw [if_pos rfl]
    exact prod_eq_one fun i _ => prod_eq_one fun s hs => inv_mul_cancel₀ (sub_ne_zero.2 (ne_of_mem_erase hs).symm)
  · rw [if_neg h]
    obtain ⟨i, hi⟩ : ∃ i, w i ≠ z i := by by_contra h'; push Not at h'; exact h (_root_.funext h')
    exact prod_eq_zero (mem_univ i) (prod_eq_zero (mem_erase.2 ⟨hi, hw i⟩) (by rw [_root_.sub_self, mul_zero]))

theorem lagrange_degree (S : Finset ℝ) {z : Fin d → ℝ} (hz : ∀ i, z i ∈ S) (j : Fin d) : (lagrange S z).degreeOf j ≤ #S - 1 := by
  classical
  refine (degreeOf_prod_le _ _ _).trans ?_
  have h : ∀ i, degreeOf j (∏ s ∈ S.erase (z i), C (z i - s)⁻¹ * (X i - C s)) ≤ if i = j then #S - 1 else 0 := by
    intro i
    refine (degreeOf_prod_le _ _ _).trans ?_
    have h1 : ∀ s, degreeOf j (C (z i - s)⁻¹ * (X i - C s) : MvPolynomial (Fin d) ℝ) ≤ if i = j then 1 else 0 := by
      intro s
      refine (degreeOf_C_mul_le _ _ _).trans ((degreeOf_sub_le _ _ _).trans ?_)
      rw [degreeOf_C, degreeOf_X]
      simp only [eq_comm (a := j), Nat.max_zero]
      exact le_rfl
    refine (sum_le_sum fun s _ => h1 s).trans ?_
    rw [sum_const, card_erase_of_mem (hz i), smul_eq_mul]
    split <;> simp
  refine (sum_le_sum fun i _ => h i).trans ?_
  rw [sum_ite_eq' univ j, if_pos (mem_univ j)]

/-- the points of the rule are the points of a grid, once each -/
structure IsGrid (S : Finset ℝ) (d : Nat) (l : List (QPoint ℝ)) : Prop where
  length : l.length = #S ^ d
  mem : ∀ q ∈ l, ∀ i < d, q.position i ∈ S
  pos : ∀ q ∈ l, 0 < q.weight
  grid : Grid S d l

theorem isGrid_pt (S : Finset ℝ) : IsGrid S 0 [⟨fun _ => 0, 1⟩] where
  length := rfl
  mem q _ i hi := absurd hi (Nat.not_lt_zero i)
  pos q hq := by rw [List.mem_singleton.1 hq]; exact one_pos
  grid := ⟨fun q hq => by rw [List.mem_singleton.1 hq]; exact zero_le_one,
    fun z _ => ⟨_, List.mem_singleton.2 rfl, one_pos, fun i hi => absurd hi (Nat.not_lt_zero i)⟩⟩

theorem isGrid_tensor {S : Finset ℝ} {B O : List (QPoint ℝ)} (hB : IsGrid S d B) (hpos : PosW O) (hlen : O.length = #S)
    (hO : ∀ z, z ∈ S ↔ ∃ o ∈ O, o.position 0 = z) : IsGrid S (d + 1) (tensorProduct (d + 1) B O) where
  length := by rw [length_tensor, hB.length, hlen, pow_succ]
  mem q hq i hi := by
    obtain ⟨b, hb, o, ho, rfl⟩ := mem_tensor.1 hq
    by_cases hid : i = d
    · simpa only [hid, if_true] using (hO _).2 ⟨o, ho, rfl⟩
    · simpa only [if_neg hid, if_pos (show i < d by omega)] using hB.mem b hb i (by omega)
  pos q hq := by
    obtain ⟨b, hb, o, ho, rfl⟩ := mem_tensor.1 hq
    exact mul_pos (hB.pos b hb) (hpos o ho)
  grid := grid_tensor hB.grid (fun o ho => (hpos o ho).le) fun z hz => by
    obtain ⟨o, ho, h⟩ := (hO z).1 hz
    exact ⟨o, ho, h, hpos o ho⟩

theorem IsGrid.at_mem {S : Finset ℝ} {l : List (QPoint ℝ)} (h : IsGrid S d l) {q : QPoint ℝ} (hq : q ∈ l) (i : Fin d) : q.at d i ∈ S :=
  h.mem q hq i i.2

theorem IsGrid.exists {S : Finset ℝ} {l : List (QPoint ℝ)} (h : IsGrid S d l) (x : Fin d → ℝ) (hx : ∀ i, x i ∈ S) : ∃ q ∈ l, q.at d = x := by
  obtain ⟨q, hq, -, h2⟩ := h.grid.2 (RefGeom.ext x) fun i hi => by rw [RefGeom.ext, dif_pos hi]; exact hx _
  exact ⟨q, hq, _root_.funext fun i => by rw [QPoint.at, h2 i i.2, RefGeom.ext, dif_pos i.2]⟩

theorem IsGrid.nodup {S : Finset ℝ} {l : List (QPoint ℝ)} (h : IsGrid S d l) : (l.map fun q => q.at d).Nodup := by
  classical
  refine Multiset.coe_nodup.1 (Multiset.toFinset_card_eq_card_iff_nodup.1 ?_)
  rw [Multiset.coe_card, List.length_map, h.length]
  have e : ((l.map fun q => q.at d : List (Fin d → ℝ)) : Multiset (Fin d → ℝ)).toFinset = Fintype.piFinset fun _ : Fin d => S := by
    ext x
    rw [Multiset.mem_toFinset, Multiset.mem_coe, List.mem_map, Fintype.mem_piFinset]
    constructor
    · rintro ⟨q, hq, rfl⟩ i
      exact h.at_mem hq i
    · exact h.exists x
  rw [e, Fintype.card_piFinset_const]

/-- number of points of the rules of the interval (gauss: quadraturerules/gaussquadrature.hh, and so on) -/
def pointsPerLine : QType → Nat → Nat
  | .GaussLobatto, p => p / 2 + 2
  | .GaussRadauLeft, p | .GaussRadauRight, p => (p + 1) / 2 + 1
  | _, p => p / 2 + 1

theorem fine_row {qt : QType} {tab : List Row} {h : Nat} (hq : IsPlain qt) (ht : tableOf qt = some (tab, h)) {p : Nat} {row : Row}
    (hp : p ≤ h) (hr : initHelper tab p = .ok row) :
    Fine (row.pts.map (Node.point (K := ℝ))) ∧ row.pts.length = pointsPerLine qt p := by
  obtain ⟨h30, h61, row', e, ho⟩ := plain_table (K := ℝ) hq ht hp
  rw [e] at hr
  cases hr
  have hm : row ∈ tab := initHelper_mem e
  have hl := tab_lengths
  simp only [Bool.and_eq_true, List.all_eq_true, List.mem_range] at hl
  rcases hq with rfl | rfl | rfl | rfl <;> cases ht <;> refine ⟨⟨distinct_tab (by simp [hm]), ho.in01, ho.pos⟩, ?_⟩
  · have h1 := hl.1.1 p (by omega)
    revert h1
    rw [e]
    cases initHelper Jacobi1.table p <;> cases initHelper Jacobi2.table p <;> simp [pointsPerLine]
    tauto
  · have h1 := hl.1.2 p (by omega)
    rw [e] at h1
    exact of_decide_eq_true h1
  · have h1 := hl.2 p (by omega)
    revert h1
    rw [e]
    cases initHelper RadauRight.table p <;> simp [pointsPerLine]
    tauto
  · have h1 := hl.2 p (by omega)
    revert h1
    rw [e]
    cases initHelper RadauLeft.table p <;> simp [pointsPerLine]

/-- the nodes of a row of a table -/
noncomputable def Row.nodes (row : Row) : Finset ℝ := ((row.pts.map (Node.point (K := ℝ))).map fun o => o.position 0).toFinset

theorem mem_nodes {row : Row} {z : ℝ} : z ∈ row.nodes ↔ ∃ o ∈ row.pts.map (Node.point (K := ℝ)), o.position 0 = z := by
  rw [Row.nodes, List.mem_toFinset, List.mem_map]

theorem rule_isGrid_row (env : Env ℝ) {qt : QType} (hq : IsPlain qt) {tab : List Row} {h : Nat} (ht : tableOf qt = some (tab, h))
    {d id p m : Nat} (hd : d ≤ 30) (hid : id < 2 ^ d) (hc : topoOf d id = Topo.cube d) (hm : maxOrder d ⟨d, false, id⟩ qt = .ok m)
    (hp : p ≤ m) (hph : p ≤ h) {row : Row} (e : initHelper tab p = .ok row) :
    ∃ r, rule env d ⟨d, false, id⟩ p qt = .ok r ∧ IsGrid row.nodes d r.pts := by
  have hok : tab.all (Row.ok1 0) = true := by
    rcases hq with rfl | rfl | rfl | rfl <;> cases ht
    exacts [gauss_ok, lobatto_ok, radauLeft_ok, radauRight_ok]
  obtain ⟨hf, hl⟩ := fine_row hq ht hph e
  have hcard : row.pts.length = #row.nodes := by rw [Row.nodes, hf.card, List.length_map]
  have hten : ∀ (t : Topo) (B : List (QPoint ℝ)), (∀ n, t = Topo.cube n → IsGrid row.nodes n B) → ∀ row' ∈ tab, row' = row →
      ∀ n, Topo.prism t = Topo.cube n → IsGrid row.nodes n (tensorProduct (t.dim + 1) B (row'.pts.map Node.point)) := by
    rintro t B hB row' hr rfl n hn
    obtain _ | n := n
    · exact absurd hn (by simp [Topo.cube])
    have e : t = Topo.cube n := by simpa [Topo.cube] using hn
    have hdim : t.dim = n := by rw [e]; exact (rep_cube n).dim_eq
    rw [hdim]
    exact isGrid_tensor (hB n e) hf.pos (by rw [List.length_map, hcard]) fun z => mem_nodes
  have hpt : ∀ n, Topo.pt = Topo.cube n → IsGrid row.nodes n [⟨fun _ => 0, 1⟩] := fun n hn => by
    obtain _ | n := n
    · exact isGrid_pt _
    · exact absurd hn (by simp [Topo.cube])
  have hnc : ∀ {t : Topo} {n : Nat}, Topo.pyr t ≠ Topo.cube n := fun {t n} => by obtain _ | n := n <;> simp [Topo.cube]
  obtain ⟨r, h1, h2⟩ := rule_induct2 env hq ht p d (fun row' => row' = row) (fun _ => True)
    (fun row' h0 _ hr _ => by rw [e] at hr; cases hr; rfl) (fun _ _ _ _ _ _ _ => trivial)
    (fun t l => ∀ n, t = Topo.cube n → IsGrid row.nodes n l) hpt
    (fun row' hr hR => one_of_tensor (P := fun t l => ∀ n, t = Topo.cube n → IsGrid row.nodes n l) hok hr (hten .pt _ hpt row' hr hR))
    hten
    (fun t B _ row _ _ n hn => absurd hn hnc)
    (fun _ h => by
      obtain ⟨r, h1, -⟩ := simplex2_good (K := ℝ) (qt := .GaussLegendre) h (Or.inl rfl)
      exact ⟨r, h1, fun n hn => absurd hn hnc⟩)
    (fun _ h => by
      obtain ⟨r, h1, -⟩ := simplex3_good (K := ℝ) (qt := .GaussLegendre) h
      exact ⟨r, h1, fun n hn => absurd hn hnc⟩)
    (fun _ h => by
      obtain ⟨r, h1, -⟩ := prism3_good (K := ℝ) (qt := .GaussLegendre) h
      exact ⟨r, h1, fun n hn => by
        obtain _ | _ | n := n <;> exact absurd hn (by simp [Topo.cube])⟩) d id m hd le_rfl hid hm hp
  exact ⟨r, h1, h2 d hc⟩

theorem rule_isGrid (env : Env ℝ) {qt : QType} (hq : IsPlain qt) {d id p m : Nat} (hd : d ≤ 30) (hid : id < 2 ^ d) (hc : IsCubeId d id)
    (hm : maxOrder d ⟨d, false, id⟩ qt = .ok m) (hp : p ≤ m) :
    ∃ r S, rule env d ⟨d, false, id⟩ p qt = .ok r ∧ IsGrid S d r.pts ∧ (0 < d → #S = pointsPerLine qt p) ∧ ∀ s ∈ S, 0 ≤ s ∧ s ≤ 1 := by
  obtain ⟨tab, h, ht⟩ : ∃ tab h, tableOf qt = some (tab, h) := by
    rcases hq with rfl | rfl | rfl | rfl <;> exact ⟨_, _, rfl⟩
  obtain _ | d := d
  · have hid0 : id = 0 := by simpa using hid
    subst hid0
    refine ⟨pointRule, ∅, ?_, isGrid_pt ∅, fun h => absurd h (Nat.lt_irrefl 0), fun s hs => absurd hs (notMem_empty s)⟩
    rw [rule, ruleWith_ok (by have : m = 2 ^ 31 - 1 := by simp [maxOrder, isVertex] at hm; omega
                              omega) hid (Or.inl rfl)]
    simp [factory, isVertex]
  obtain ⟨h30, h61, -⟩ := plain_table (K := ℝ) hq ht (p := 0) (Nat.zero_le _)
  obtain ⟨m', e1, e2⟩ := maxOrder_tab ht h30 h61 d id hd hid
  rw [e1] at hm
  cases hm
  have hph : p ≤ h := hp.trans e2.1
  obtain ⟨-, -, row, e, -⟩ := plain_table (K := ℝ) hq ht hph
  obtain ⟨hf, hl⟩ := fine_row hq ht hph e
  obtain ⟨r, h1, h2⟩ := rule_isGrid_row env hq ht hd hid (MultiLinear.topoOf_cube _ id hc) e1 hp hph e
  refine ⟨r, row.nodes, h1, h2, fun _ => ?_, fun s hs => ?_⟩
  · rw [Row.nodes, hf.card, List.length_map, hl]
  · obtain ⟨o, ho, rfl⟩ := mem_nodes.1 hs
    exact hf.in01 o ho

/-- the Lagrange polynomials of the points of a rule -/
structure Nodal (d k : Nat) (l : List (QPoint ℝ)) (P : Fin l.length → MvPolynomial (Fin d) ℝ) : Prop where
  degree : ∀ a j, (P a).degreeOf j ≤ k
  eval : ∀ a b, (P a).eval ((l.get b).at d) = if a = b then 1 else 0
  interpolate : ∀ Q : MvPolynomial (Fin d) ℝ, (∀ j, Q.degreeOf j ≤ k) → Q = ∑ a, C (Q.eval ((l.get a).at d)) * P a

theorem IsGrid.inj {S : Finset ℝ} {l : List (QPoint ℝ)} (h : IsGrid S d l) {a b : Fin l.length}
    (hab : (l.get a).at d = (l.get b).at d) : a = b := by
  have h1 := List.nodup_iff_injective_get.1 h.nodup
  have := @h1 ⟨a, by simp⟩ ⟨b, by simp⟩ (by simpa using hab)
  exact Fin.ext (by simpa using this)

theorem IsGrid.nodal {S : Finset ℝ} {l : List (QPoint ℝ)} (h : IsGrid S d l) {k : Nat} (hk : 0 < d → #S = k + 1) :
    Nodal d k l fun a => lagrange S ((l.get a).at d) := by
  have hS : ∀ j : Fin d, #S = k + 1 := fun j => hk (Nat.pos_of_ne_zero fun h0 => by subst h0; exact j.elim0)
  have hdeg : ∀ a j, (lagrange S ((l.get a).at d)).degreeOf j ≤ k := fun a j =>
    (lagrange_degree S (h.at_mem (List.get_mem _ _)) j).trans (by rw [hS j]; exact le_rfl)
  have hev : ∀ a b, (lagrange S ((l.get a).at d)).eval ((l.get b).at d) = if a = b then 1 else 0 := fun a b => by
    rw [lagrange_eval S (h.at_mem (List.get_mem _ _))]
    by_cases hab : a = b
    · rw [if_pos hab, hab, if_pos rfl]
    · rw [if_neg hab, if_neg fun h' => hab (h.inj h').symm]
  refine ⟨hdeg, hev, fun Q hQ => ?_⟩
  refine sub_eq_zero.1 (eq_zero_of_eval_zero_at_prod_finset _ (fun _ => S) (fun j => ?_) fun x hx => ?_)
  · rw [hS j, Nat.lt_succ_iff]
    refine (degreeOf_sub_le _ _ _).trans (max_le (hQ j) ((degreeOf_sum_le _ _ _).trans (Finset.sup_le fun a _ => ?_)))
    exact (degreeOf_C_mul_le _ _ _).trans (hdeg a j)
  · obtain ⟨q, hq, rfl⟩ := h.exists x hx
    obtain ⟨b, rfl⟩ := List.get_of_mem hq
    simp only [map_sub, map_sum, map_mul, eval_C, hev]
    simp

end Verif.Quad
