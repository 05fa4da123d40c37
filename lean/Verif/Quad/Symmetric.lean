import Verif.Quad.CubeRule
import Mathlib.Logic.Equiv.Fin.Basic
import Mathlib.Data.Fintype.Pi
import Mathlib.Data.Fintype.Prod
import Mathlib.Data.Multiset.Bind

/-! Symmetries of quadrature rules: a decision procedure for tables, and products. -/

namespace Verif.Quad

open Verif.Typ Verif.RefTopo Verif.RefGeom
open Finset hiding ext

/-! ### Pairing the elements of a list -/

theorem rel_univ {ι α : Type} [Fintype ι] {r : α → α → Prop} (e : Equiv.Perm ι) (P : ι → α) (h : ∀ i, r (P i) (P (e i))) :
    Multiset.Rel r ((univ : Finset ι).val.map P) ((univ : Finset ι).val.map P) := by
  have e1 : (univ : Finset ι).val.map P = (univ : Finset ι).val.map (fun i => P (e i)) := by
    conv_lhs => rw [← Finset.map_univ_equiv e, Finset.map_val, Multiset.map_map]
    rfl
  conv_rhs => rw [e1]
  rw [Multiset.rel_map]
  exact Multiset.rel_refl_of_refl_on fun i _ => h i

theorem coe_eq_univ {α : Type} (l : List α) : (l : Multiset α) = (univ : Finset (Fin l.length)).val.map l.get := by
  change _ = Multiset.map l.get (List.finRange l.length : Multiset (Fin l.length))
  rw [Multiset.map_coe]
  congr 1
  exact (List.map_get_finRange l).symm

theorem perm_of_idx {α : Type} (l : List α) {r : α → α → Prop} (js : List Nat) (hlen : js.length = l.length) (hn : js.Nodup)
    (h : ∀ (k : Nat) (hk : k < l.length) (hk' : k < js.length), ∃ h' : js[k] < l.length, r l[k] l[js[k]]) :
    ∃ τ : Equiv.Perm (Fin l.length), ∀ k, r (l.get k) (l.get (τ k)) := by
  let τ : Fin l.length → Fin l.length := fun k => ⟨js[k.1]'(by rw [hlen]; exact k.2), (h k k.2 _).1⟩
  have hinj : Function.Injective τ := by
    intro a b hab
    have := Fin.mk.inj_iff.1 hab
    exact Fin.ext ((List.Nodup.getElem_inj_iff hn).1 this)
  refine ⟨Equiv.ofBijective τ (Finite.injective_iff_bijective.1 hinj), fun k => ?_⟩
  exact (h k k.2 (by rw [hlen]; exact k.2)).2

/-! ### Tables -/

/-- the literals differ by at most `1/T` -/
def Lit.near (T : Nat) (a b : Lit) : Bool :=
  a.den != 0 && b.den != 0 && decide ((a.num * b.den - b.num * a.den).natAbs * T ≤ a.den * b.den)

/-- `1 - a` -/
def Lit.compl (a : Lit) : Lit := ⟨a.den - a.num, a.den⟩

/-- `a - b` -/
def Lit.sub (a b : Lit) : Lit := ⟨a.num * b.den - b.num * a.den, a.den * b.den⟩

theorem near_val {T : Nat} (hT : 0 < T) {a b : Lit} (h : a.near T b = true) : |(a.val : ℝ) - b.val| ≤ 1 / T := by
  simp only [Lit.near, Bool.and_eq_true, bne_iff_ne, ne_eq, decide_eq_true_eq] at h
  obtain ⟨⟨ha, hb⟩, h⟩ := h
  have ha' : (0:ℝ) < a.den := by exact_mod_cast Nat.pos_of_ne_zero ha
  have hb' : (0:ℝ) < b.den := by exact_mod_cast Nat.pos_of_ne_zero hb
  have hT' : (0:ℝ) < T := by exact_mod_cast hT
  have h' : |((a.num * b.den - b.num * a.den : Int) : ℝ)| * T ≤ a.den * b.den := by
    have : (((a.num * b.den - b.num * a.den).natAbs * T : Nat) : ℝ) ≤ ((a.den * b.den : Nat) : ℝ) := by exact_mod_cast h
    rw [Nat.cast_mul, Nat.cast_natAbs] at this
    push_cast at this ⊢
    exact this
  push_cast at h'
  have e : (a.val : ℝ) - b.val = (a.num * b.den - b.num * a.den) / (a.den * b.den) := by
    unfold Lit.val; field_simp
  rw [e, abs_div, abs_of_pos (mul_pos ha' hb'), div_le_div_iff₀ (mul_pos ha' hb') hT', one_mul]
  exact h'

theorem compl_val {a : Lit} (h : a.den ≠ 0) : (a.compl.val : ℝ) = 1 - a.val := by
  have : (a.den : ℝ) ≠ 0 := by exact_mod_cast h
  unfold Lit.val Lit.compl
  push_cast
  field_simp

theorem sub_val {a b : Lit} (ha : a.den ≠ 0) (hb : b.den ≠ 0) : ((a.sub b).val : ℝ) = a.val - b.val := by
  have : (a.den : ℝ) ≠ 0 := by exact_mod_cast ha
  have : (b.den : ℝ) ≠ 0 := by exact_mod_cast hb
  unfold Lit.val Lit.sub
  push_cast
  field_simp

/-- the points of `d` coordinates differ by at most `1/T`, and so do the weights -/
def Node.near (d T : Nat) (a b : Node) : Bool :=
  a.x.length == d && b.x.length == d && (List.zipWith (Lit.near T) a.x b.x).all id && a.w.near T b.w

/-- the rule is mapped to itself by `img` -/
def Row.symOK (d T : Nat) (img : Node → Node) (r : Row) : Bool :=
  let js := r.pts.map fun n => r.pts.findIdx fun m => (img n).near d T m
  js.all (fun j => decide (j < r.pts.length)) && decide js.Nodup

/-- the points are `1/T` close in the first `d` coordinates and the weights are close -/
def Close (d : Nat) (ε : ℝ) (A : Vec ℝ → Vec ℝ) (a b : QPoint ℝ) : Prop :=
  (∀ i, i < d → |A a.position i - b.position i| ≤ ε) ∧ |a.weight - b.weight| ≤ ε

theorem symOK_perm {d T : Nat} (hT : 0 < T) {img : Node → Node} {A : Vec ℝ → Vec ℝ} {r : Row} (h : r.symOK d T img = true)
    (himg : ∀ n ∈ r.pts, (img n).w = n.w ∧ ∀ i, i < d → (Node.point (K := ℝ) (img n)).position i = A (Node.point n).position i) :
    ∃ τ : Equiv.Perm (Fin (r.pts.map (Node.point (K := ℝ))).length),
      ∀ k, Close d (1 / T) A ((r.pts.map Node.point).get k) ((r.pts.map Node.point).get (τ k)) := by
  simp only [Row.symOK, Bool.and_eq_true, List.all_eq_true, decide_eq_true_eq] at h
  obtain ⟨h1, h2⟩ := h
  refine perm_of_idx (r.pts.map Node.point) _ (by rw [List.length_map, List.length_map]) h2 fun k hk₀ hk' => ?_
  have hk : k < r.pts.length := by rwa [List.length_map] at hk₀
  have hlt := h1 _ (List.getElem_mem hk')
  refine ⟨by rw [List.length_map]; exact hlt, ?_⟩
  simp only [List.getElem_map] at hlt ⊢
  have hn := List.findIdx_getElem (w := hlt)
  set n := r.pts[k] with hn'
  obtain ⟨i1, i2⟩ := himg n (List.getElem_mem hk)
  generalize r.pts[r.pts.findIdx fun m => (img n).near d T m] = m at hn ⊢
  rw [← hn'] at hn ⊢
  simp only [Node.near, Bool.and_eq_true, beq_iff_eq] at hn
  obtain ⟨⟨⟨n1, n2⟩, n3⟩, n4⟩ := hn
  refine ⟨fun i hi => ?_, ?_⟩
  · rw [← i2 i hi]
    simp only [Node.point]
    rw [dif_pos (by omega), dif_pos (by omega)]
    apply near_val hT
    rw [List.all_eq_true] at n3
    have hl : i < (List.zipWith (Lit.near T) (img n).x m.x).length := by rw [List.length_zipWith]; omega
    have := n3 _ (List.getElem_mem hl)
    rw [List.getElem_zipWith] at this
    exact this
  · have := near_val hT n4
    rw [i1] at this
    exact this

theorem symOK_rel {d T : Nat} (hT : 0 < T) {img : Node → Node} {A : Vec ℝ → Vec ℝ} {r : Row} (h : r.symOK d T img = true)
    (himg : ∀ n ∈ r.pts, (img n).w = n.w ∧ ∀ i, i < d → (Node.point (K := ℝ) (img n)).position i = A (Node.point n).position i) :
    Multiset.Rel (Close d (1 / T) A) ((r.pts.map Node.point : List (QPoint ℝ)) : Multiset (QPoint ℝ))
      ((r.pts.map Node.point : List (QPoint ℝ)) : Multiset (QPoint ℝ)) := by
  obtain ⟨τ, hτ⟩ := symOK_perm hT h himg
  rw [coe_eq_univ]
  exact rel_univ τ _ hτ

/-! ### One dimensional tables -/

/-- the reflection of the interval -/
def Node.flip (n : Node) : Node := ⟨n.x.map Lit.compl, n.w⟩

/-- one coordinate, denominators, and weights between 0 and 1 -/
def Node.plain1 (n : Node) : Bool :=
  n.x.length == 1 && (n.x.all fun l => l.den != 0) && n.w.den != 0 && decide (0 ≤ n.w.num) && decide (n.w.num ≤ n.w.den)

theorem flip_ok : ((Gauss.table ++ Lobatto.table).all fun r => r.symOK 1 (10 ^ 81) Node.flip && r.pts.all Node.plain1) = true := by
  decide +kernel

theorem flip_point {n : Node} (h : n.plain1 = true) : n.flip.w = n.w ∧ ∀ i, i < 1 →
    (Node.point (K := ℝ) n.flip).position i = 1 - (Node.point (K := ℝ) n).position i := by
  refine ⟨rfl, fun i hi => ?_⟩
  simp only [Node.plain1, Bool.and_eq_true, beq_iff_eq, List.all_eq_true, bne_iff_ne, ne_eq] at h
  obtain ⟨⟨⟨⟨h1, h2⟩, -⟩, -⟩, -⟩ := h
  have hl : i < n.x.length := by omega
  have hl' : i < n.flip.x.length := by simp only [Node.flip, List.length_map]; exact hl
  simp only [Node.point]
  rw [dif_pos hl, dif_pos hl']
  simp only [Node.flip, List.getElem_map]
  exact compl_val (h2 _ (List.getElem_mem hl))

theorem plain1_weight {n : Node} (h : n.plain1 = true) : 0 ≤ (Node.point (K := ℝ) n).weight ∧ (Node.point (K := ℝ) n).weight ≤ 1 := by
  simp only [Node.plain1, Bool.and_eq_true, decide_eq_true_eq, bne_iff_ne, ne_eq] at h
  obtain ⟨⟨⟨-, h3⟩, h4⟩, h5⟩ := h
  have hd : (0:ℝ) < n.w.den := by exact_mod_cast Nat.pos_of_ne_zero h3
  have h4' : (0:ℝ) ≤ n.w.num := by exact_mod_cast h4
  have h5' : (n.w.num:ℝ) ≤ n.w.den := by exact_mod_cast h5
  exact ⟨div_nonneg h4' hd.le, (div_le_one hd).2 h5'⟩

/-! ### Products -/

/-- the point of the `d`-dimensional product with the given factors -/
noncomputable def prodPt (O : List (QPoint ℝ)) (d : Nat) (u : Fin d → Fin O.length) : QPoint ℝ :=
  ⟨fun i => if h : i < d then (O.get (u ⟨i, h⟩)).position 0 else 0, ∏ j, (O.get (u j)).weight⟩

theorem tensor_univ {d : Nat} {B O : List (QPoint ℝ)} (hB : (B : Multiset (QPoint ℝ)) = univ.val.map (prodPt O d)) :
    ((tensorProduct (d + 1) B O : List (QPoint ℝ)) : Multiset (QPoint ℝ)) = univ.val.map (prodPt O (d + 1)) := by
  unfold tensorProduct
  rw [← Multiset.coe_bind]
  simp only [← Multiset.map_coe]
  rw [hB, Multiset.bind_map]
  conv_lhs => rw [coe_eq_univ O]
  simp only [Multiset.map_map]
  rw [← Finset.map_univ_equiv ((Equiv.prodComm _ _).trans (Fin.snocEquiv fun _ : Fin (d + 1) => Fin O.length)), Finset.map_val, Multiset.map_map,
    ← Finset.univ_product_univ, Finset.product_val]
  change _ = Multiset.map _ (Multiset.bind _ fun a => Multiset.map (Prod.mk a) _)
  rw [Multiset.map_bind]
  simp only [Multiset.map_map]
  refine Multiset.bind_congr fun u _ => Multiset.map_congr rfl fun k _ => ?_
  simp only [Function.comp_apply, prodPt]
  congr 1
  · funext i
    simp only [setV, Nat.add_sub_cancel]
    by_cases h1 : i = d
    · subst h1
      rw [if_pos rfl, dif_pos (Nat.lt_succ_self _)]
      congr 2
      exact (Fin.snoc_last (α := fun _ => Fin O.length) _ _).symm
    · rw [if_neg h1]
      by_cases h2 : i < d
      · rw [if_pos h2, dif_pos h2, dif_pos (by omega)]
        congr 2
        exact (Fin.snoc_castSucc (α := fun _ => Fin O.length) _ _ ⟨i, h2⟩).symm
      · rw [if_neg h2, dif_neg (by omega)]
  · rw [Fin.prod_univ_castSucc]
    congr 1
    · refine prod_congr rfl fun j _ => ?_
      congr 2
      exact (Fin.snoc_castSucc (α := fun _ => Fin O.length) _ _ j).symm
    · congr 2
      exact (Fin.snoc_last (α := fun _ => Fin O.length) _ _).symm

theorem prod_close {ι : Type} (s : Finset ι) (a b : ι → ℝ) {ε : ℝ} (ha : ∀ i, 0 ≤ a i ∧ a i ≤ 1) (hb : ∀ i, 0 ≤ b i ∧ b i ≤ 1)
    (h : ∀ i, |a i - b i| ≤ ε) : |∏ i ∈ s, a i - ∏ i ∈ s, b i| ≤ s.card * ε := by
  classical
  induction s using Finset.induction_on with
  | empty => simp
  | insert i s hi ih =>
    rw [prod_insert hi, prod_insert hi, card_insert_of_notMem hi]
    have hp : |∏ j ∈ s, b j| ≤ 1 := by
      rw [abs_of_nonneg (prod_nonneg fun j _ => (hb j).1)]
      exact prod_le_one (fun j _ => (hb j).1) fun j _ => (hb j).2
    have e : a i * ∏ j ∈ s, a j - b i * ∏ j ∈ s, b j =
        a i * (∏ j ∈ s, a j - ∏ j ∈ s, b j) + (a i - b i) * ∏ j ∈ s, b j := by ring
    rw [e]
    refine (abs_add_le _ _).trans ?_
    rw [abs_mul, abs_mul, abs_of_nonneg (ha i).1]
    have h0 : 0 ≤ ε := (abs_nonneg _).trans (h i)
    have h1 : a i * |∏ j ∈ s, a j - ∏ j ∈ s, b j| ≤ 1 * (s.card * ε) :=
      mul_le_mul (ha i).2 ih (abs_nonneg _) zero_le_one
    have h2 : |a i - b i| * |∏ j ∈ s, b j| ≤ ε * 1 := mul_le_mul (h i) hp (abs_nonneg _) h0
    push_cast
    linarith

/-- exchange of coordinates and reflections -/
def signedPerm {d : Nat} (π : Equiv.Perm (Fin d)) (s : Fin d → Bool) (x : Vec ℝ) : Vec ℝ := fun i =>
  if h : i < d then if s ⟨i, h⟩ then 1 - x (π ⟨i, h⟩) else x (π ⟨i, h⟩) else 0

theorem product_symmetric {O : List (QPoint ℝ)} {d : Nat} {ε : ℝ} (h0 : 0 ≤ ε) (τ : Equiv.Perm (Fin O.length))
    (hτ : ∀ k, |1 - (O.get k).position 0 - (O.get (τ k)).position 0| ≤ ε ∧ |(O.get k).weight - (O.get (τ k)).weight| ≤ ε)
    (hw : ∀ k, 0 ≤ (O.get k).weight ∧ (O.get k).weight ≤ 1) (π : Equiv.Perm (Fin d)) (s : Fin d → Bool) :
    Multiset.Rel (Close d ((d + 1 : Nat) * ε) (signedPerm π s)) (univ.val.map (prodPt O d)) (univ.val.map (prodPt O d)) := by
  let e : Equiv.Perm (Fin d → Fin O.length) := (Equiv.arrowCongr π.symm (Equiv.refl _)).trans
    (Equiv.piCongrRight fun j => if s j then τ else Equiv.refl _)
  have he : ∀ u j, e u j = if s j then τ (u (π j)) else u (π j) := by
    intro u j
    simp only [e, Equiv.trans_apply, Equiv.piCongrRight_apply, Equiv.arrowCongr_apply, Pi.map_apply]
    cases s j <;> simp
  refine rel_univ e _ fun u => ⟨fun i hi => ?_, ?_⟩
  · have hle : ε ≤ (d + 1 : Nat) * ε := le_mul_of_one_le_left h0 (by exact_mod_cast Nat.succ_le_succ (Nat.zero_le d))
    refine le_trans ?_ hle
    simp only [signedPerm, prodPt]
    rw [dif_pos hi, dif_pos hi, he]
    simp only [Fin.is_lt, dif_pos, Fin.eta]
    cases s ⟨i, hi⟩
    · simpa using h0
    · simpa using (hτ (u (π ⟨i, hi⟩))).1
  · simp only [prodPt]
    rw [← Equiv.prod_comp π fun j => (O.get (u j)).weight]
    refine (prod_close univ _ _ (fun j => hw _) (fun j => hw _) (ε := ε) fun j => ?_).trans ?_
    · rw [he]
      cases s j
      · simpa using h0
      · simpa using (hτ (u (π j))).2
    · rw [card_univ, Fintype.card_fin]
      push_cast
      linarith

end Verif.Quad
