import Verif.Quad.NodesTab
import Verif.Quad.Recursion

/-! Properties of the points of a delivered rule, by induction over the construction. -/

namespace Verif.Quad

open Verif.Typ Verif.RefTopo Verif.RefGeom
open Finset hiding ext

set_option linter.unusedSectionVars false

variable {K : Type} [Field K] [LinearOrder K] [IsStrictOrderedRing K]

/-- The rules of the types Gauss-Legendre, Gauss-Lobatto and Gauss-Radau: a property of the rules used on the way (`R` for the row
of the one dimensional table used in tensor products, `R'` for those used in conical products, which have a higher
order, the tables of dimension two and three for Gauss-Legendre) that passes to the products holds for every delivered rule. -/
theorem rule_induct2 (env : Env K) {qt : QType} (hq : IsPlain qt) {tab : List Row} {h : Nat} (ht : tableOf qt = some (tab, h)) (p D : Nat)
    (R R' : Row → Prop) (hR : ∀ row : Row, 0 < D → p ≤ h → initHelper tab p = .ok row → row ∈ tab → R row)
    (hR' : ∀ (p' : Nat) (row : Row), p < p' → p' < p + D → p' ≤ h → initHelper tab p' = .ok row → row ∈ tab → R' row)
    (P : Topo → List (QPoint K) → Prop) (h0 : P .pt [⟨fun _ => 0, 1⟩])
    (h1 : ∀ row ∈ tab, R row → P (.prism .pt) (row.pts.map Node.point))
    (hten : ∀ (t : Topo) (B : List (QPoint K)), P t B → ∀ row ∈ tab, R row →
      P (.prism t) (tensorProduct (t.dim + 1) B (row.pts.map Node.point)))
    (hcon : ∀ (t : Topo) (B : List (QPoint K)), P t B → ∀ row ∈ tab, R' row →
      P (.pyr t) (conicalProduct (t.dim + 1) false B (row.pts.map Node.point)))
    (hs2 : qt = .GaussLegendre → p ≤ simplex2Highest → ∃ r, simplex2Rule (K := K) p = .ok r ∧ P (.pyr (.prism .pt)) r.pts)
    (hs3 : qt = .GaussLegendre → p ≤ simplex3Highest → ∃ r, simplex3Rule (K := K) p = .ok r ∧ P (.pyr (.pyr (.prism .pt))) r.pts)
    (hp3 : qt = .GaussLegendre → p ≤ prism3Highest → ∃ r, prism3Rule (K := K) p = .ok r ∧ P (.prism (.pyr (.prism .pt))) r.pts) :
    ∀ (d id m : Nat), d ≤ 30 → d ≤ D → id < 2 ^ d → maxOrder d ⟨d, false, id⟩ qt = .ok m → p ≤ m →
      ∃ r, rule env d ⟨d, false, id⟩ p qt = .ok r ∧ P (topoOf d id) r.pts := by
  obtain ⟨h30, h61, -⟩ := plain_table (K := K) hq ht (p := 0) (Nat.zero_le _)
  have hn : qt ≠ .GaussJacobi_n_0 := by rintro rfl; simp [tableOf] at ht
  have hrow : ∀ p', p' ≤ h → ∃ row, initHelper tab p' = .ok row ∧ row ∈ tab := by
    intro p' hp'
    obtain ⟨-, -, r, h1, -⟩ := plain_table (K := K) hq ht hp'
    exact ⟨r, h1, initHelper_mem h1⟩
  intro d
  induction d with
  | zero =>
    intro id m hd hD hid hm hpm
    have hid0 : id = 0 := by simpa using hid
    subst hid0
    rw [rule, ruleWith_ok (by omega) hid (Or.inl rfl)]
    exact ⟨pointRule, by simp [factory, isVertex], h0⟩
  | succ d ih =>
    intro id m hd hD hid hm hpm
    obtain ⟨m', e1, e2⟩ := maxOrder_tab ht h30 h61 d id hd hid
    rw [e1] at hm
    cases hm
    match d, hd, hD, hid, e1, e2, ih with
    | 0, hd, hD, hid, e1, e2, ih =>
      have hr : rule env 1 ⟨1, false, id⟩ p qt = rule1 env ⟨1, false, id⟩ p qt := rfl
      have hph : p ≤ h := hpm.trans e2.1
      obtain ⟨row, r1, r2⟩ := hrow p hph
      have ht1 : topoOf 1 id = .prism .pt := by simp [topoOf]
      rw [hr, rule1_eq env (by simpa using hid) ht hph, rule1D, r1, ht1]
      exact ⟨_, rfl, h1 row r2 (hR row (by omega) hph r1 r2)⟩
    | d + 1, hd, hD, hid, e1, e2, ih =>
      obtain ⟨m'', e3, e4⟩ := maxOrder_tab ht h30 h61 d (id % 2 ^ (d + 1)) (by omega) (Nat.mod_lt _ (Nat.two_pow_pos _))
      obtain ⟨B, b1, b2⟩ := ih (id % 2 ^ (d + 1)) m'' (by omega) (by omega) (Nat.mod_lt _ (Nat.two_pow_pos _)) e3
        (hpm.trans (e2.anti (by omega) e4))
      have hr : rule env (d + 2) ⟨d + 2, false, id⟩ p qt = factory env (d + 2) ⟨d + 2, false, id⟩ p qt (.ok B) := by
        rw [rule, ruleWith_ok hd hid (Or.inr ⟨_, e1, by omega, by omega⟩)]
        simp only
        rw [baseTypeOf_eq (by omega) hid, b1]
      have htopo : topoOf (d + 2) id = if id.testBit (d + 1) then .prism (topoOf (d + 1) (id % 2 ^ (d + 1)))
          else .pyr (topoOf (d + 1) (id % 2 ^ (d + 1))) := by
        rw [topoOf]; simp
      have hdim : (topoOf (d + 1) (id % 2 ^ (d + 1))).dim = d + 1 := (rep_topoOf _ _).dim_eq
      have htens : ∃ r, tensorRule env (d + 2) id p qt (.ok B) = .ok r ∧ P (topoOf (d + 2) id) r.pts := by
        unfold tensorRule
        simp only [ok_bind, show d + 2 - 1 = d + 1 from rfl]
        rw [htopo]
        by_cases hb : id.testBit (d + 1) = true
        · have hph : p ≤ h := hpm.trans e2.1
          obtain ⟨row, r1, r2⟩ := hrow p hph
          rw [if_pos hb, if_pos hb, line_eq, rule1_eq env (by omega) ht hph, rule1D, r1]
          have := hten _ _ b2 row r2 (hR row (by omega) hph r1 r2)
          rw [hdim] at this
          exact ⟨_, rfl, this⟩
        · have hph : p + (d + 1) ≤ h := (Nat.add_le_add_right hpm _).trans (e2.2.1 (d + 1) (by omega) (by omega) (by simpa using hb))
          obtain ⟨row, r1, r2⟩ := hrow (p + (d + 1)) hph
          have e : ((p : Int) + ((d + 1 : Nat) : Int)) = ((p + (d + 1) : Nat) : Int) := by push_cast; ring
          rw [if_neg hb, if_neg hb, if_pos hn, line_eq, e, rule1_eq env (by omega) ht hph, rule1D, r1]
          have := hcon _ _ b2 row r2 (hR' _ row (by omega) (by omega) hph r1 r2)
          rw [hdim] at this
          exact ⟨_, rfl, this⟩
      rw [hr]
      match d, hd, hid, htens with
      | 0, hd, hid, htens =>
        simp only [factory]
        split
        · rename_i h
          obtain ⟨hs, hq', hp2⟩ := h
          have hid2 : id < 2 := isSimplex_iff.mp hs
          rw [topoOf_tri hid2]
          exact hs2 (hq'.resolve_right hn) (by exact_mod_cast hp2)
        · exact htens
      | 1, hd, hid, htens =>
        simp only [factory]
        split
        · rename_i h
          obtain ⟨hs, hq', hp2⟩ := h
          have hid2 : id < 2 := isSimplex_iff.mp hs
          have : topoOf 3 id = .pyr (.pyr (.prism .pt)) := by interval_cases id <;> decide
          rw [this]
          exact hs3 (hq'.resolve_right hn) (by exact_mod_cast hp2)
        · split
          · rename_i h
            obtain ⟨hs, hq', hp2⟩ := h
            have hid2 : id / 2 = 2 := by
              simp only [isPrism, Bool.not_false, Bool.true_and, Bool.and_eq_true, beq_iff_eq, or_one_eq] at hs; omega
            have : topoOf 3 id = .prism (.pyr (.prism .pt)) := by
              have h1 : 4 ≤ id := by omega
              have h2 : id ≤ 5 := by omega
              interval_cases id <;> decide
            rw [this]
            exact hp3 hq' (by exact_mod_cast hp2)
          · exact htens
      | d + 2, hd, hid, htens =>
        simp only [factory]
        exact htens

/-- the same with one property for all rows -/
theorem rule_induct (env : Env K) {qt : QType} (hq : IsPlain qt) {tab : List Row} {h : Nat} (ht : tableOf qt = some (tab, h)) (p D : Nat)
    (R : Row → Prop) (hR : ∀ (p' : Nat) (row : Row), p ≤ p' → p' < p + D → p' ≤ h → initHelper tab p' = .ok row → row ∈ tab → R row)
    (P : Topo → List (QPoint K) → Prop) (h0 : P .pt [⟨fun _ => 0, 1⟩])
    (h1 : ∀ row ∈ tab, R row → P (.prism .pt) (row.pts.map Node.point))
    (hten : ∀ (t : Topo) (B : List (QPoint K)), P t B → ∀ row ∈ tab, R row →
      P (.prism t) (tensorProduct (t.dim + 1) B (row.pts.map Node.point)))
    (hcon : ∀ (t : Topo) (B : List (QPoint K)), P t B → ∀ row ∈ tab, R row →
      P (.pyr t) (conicalProduct (t.dim + 1) false B (row.pts.map Node.point)))
    (hs2 : qt = .GaussLegendre → p ≤ simplex2Highest → ∃ r, simplex2Rule (K := K) p = .ok r ∧ P (.pyr (.prism .pt)) r.pts)
    (hs3 : qt = .GaussLegendre → p ≤ simplex3Highest → ∃ r, simplex3Rule (K := K) p = .ok r ∧ P (.pyr (.pyr (.prism .pt))) r.pts)
    (hp3 : qt = .GaussLegendre → p ≤ prism3Highest → ∃ r, prism3Rule (K := K) p = .ok r ∧ P (.prism (.pyr (.prism .pt))) r.pts) :
    ∀ (d id m : Nat), d ≤ 30 → d ≤ D → id < 2 ^ d → maxOrder d ⟨d, false, id⟩ qt = .ok m → p ≤ m →
      ∃ r, rule env d ⟨d, false, id⟩ p qt = .ok r ∧ P (topoOf d id) r.pts :=
  rule_induct2 env hq ht p D R R (fun row h1 h2 h3 h4 => hR p row (le_refl _) (by omega) h2 h3 h4)
    (fun p' row h1 h2 h3 h4 h5 => hR p' row h1.le h2 h3 h4 h5) P h0 h1 hten hcon hs2 hs3 hp3

/-! ### Corners -/

/-- every corner is a point of the rule, up to `δ` per dimension; all coordinates lie between 0 and 1 -/
def NearCorners (δ : K) (t : Topo) (l : List (QPoint K)) : Prop :=
  (∀ q ∈ l, ∀ k, k < t.dim → 0 ≤ q.position k ∧ q.position k ≤ 1) ∧
  ∀ c ∈ cornersOf (K := K) t, ∃ q ∈ l, ∀ k, k < t.dim → |q.position k - c k| ≤ δ * t.dim

theorem mem_tensor {d : Nat} {B O : List (QPoint K)} {q : QPoint K} : q ∈ tensorProduct (d + 1) B O ↔ ∃ b ∈ B, ∃ o ∈ O,
    q = ⟨fun k => if k = d then o.position 0 else if k < d then b.position k else 0, b.weight * o.weight⟩ := by
  simp only [tensorProduct, List.mem_flatMap, List.mem_map, Nat.add_sub_cancel]
  refine exists_congr fun b => and_congr_right fun _ => exists_congr fun o => and_congr_right fun _ => ?_
  exact ⟨fun h => h.symm, fun h => h.symm⟩

theorem mem_conical {d : Nat} {B O : List (QPoint K)} {q : QPoint K} : q ∈ conicalProduct (d + 1) false B O ↔ ∃ b ∈ B, ∃ o ∈ O,
    q = ⟨fun k => if k = d then o.position 0 else if k < d then (1 - o.position 0) * b.position k else 0,
      mulPow (b.weight * o.weight) (1 - o.position 0) d⟩ := by
  simp only [conicalProduct, List.mem_flatMap, List.mem_map, Nat.add_sub_cancel]
  refine exists_congr fun b => and_congr_right fun _ => exists_congr fun o => and_congr_right fun _ => ?_
  exact ⟨fun h => h.symm, fun h => h.symm⟩

theorem cornersOf_ne_nil : ∀ t : Topo, cornersOf (K := K) t ≠ []
  | .pt => by simp [cornersOf, faces, Topo.dim]
  | .prism t => by rw [cornersOf_prism]; simp [cornersOf_ne_nil t]
  | .pyr t => by rw [cornersOf_pyr]; simp

/-- the one dimensional rule has points near both ends -/
structure Ends (δ : K) (O : List (QPoint K)) : Prop where
  in01 : In01 O
  left : ∃ o ∈ O, o.position 0 ≤ δ
  right : ∃ o ∈ O, 1 - o.position 0 ≤ δ

theorem nearCorners_tensor {δ : K} (hδ : 0 ≤ δ) {t : Topo} {B O : List (QPoint K)} (hB : NearCorners δ t B) (hO : Ends δ O) :
    NearCorners δ (.prism t) (tensorProduct (t.dim + 1) B O) := by
  have hdim : (Topo.prism t).dim = t.dim + 1 := rfl
  have hd0 : (0 : K) ≤ t.dim := Nat.cast_nonneg _
  refine ⟨fun q hq k hk => ?_, fun c hc => ?_⟩
  · obtain ⟨b, hb, o, ho, rfl⟩ := mem_tensor.1 hq
    rw [hdim] at hk
    by_cases hkd : k = t.dim
    · simp only [hkd, if_true]; exact hO.in01 o ho
    · simp only [if_neg hkd, if_pos (show k < t.dim by omega)]; exact hB.1 b hb k (by omega)
  · rw [cornersOf_prism, List.mem_append, List.mem_map] at hc
    rw [hdim]
    push_cast
    rcases hc with hc | ⟨c, hc, rfl⟩
    · obtain ⟨b, hb, h⟩ := hB.2 c hc
      obtain ⟨o, ho, h'⟩ := hO.left
      refine ⟨_, mem_tensor.2 ⟨b, hb, o, ho, rfl⟩, fun k hk => ?_⟩
      by_cases hkd : k = t.dim
      · simp only [hkd, if_true, cornersOf_zero hc (le_refl _), sub_zero, abs_of_nonneg (hO.in01 o ho).1]
        nlinarith
      · simp only [if_neg hkd, if_pos (show k < t.dim by omega)]
        have := h k (by omega)
        linarith
    · obtain ⟨b, hb, h⟩ := hB.2 c hc
      obtain ⟨o, ho, h'⟩ := hO.right
      refine ⟨_, mem_tensor.2 ⟨b, hb, o, ho, rfl⟩, fun k hk => ?_⟩
      by_cases hkd : k = t.dim
      · simp only [hkd, if_true, setV_same]
        rw [abs_sub_comm, abs_of_nonneg (by linarith [(hO.in01 o ho).2])]
        nlinarith
      · simp only [if_neg hkd, if_pos (show k < t.dim by omega), setV_ne _ hkd]
        have := h k (by omega)
        linarith

theorem nearCorners_conical {δ : K} (hδ : 0 ≤ δ) {t : Topo} {B O : List (QPoint K)} (hB : NearCorners δ t B) (hO : Ends δ O) :
    NearCorners δ (.pyr t) (conicalProduct (t.dim + 1) false B O) := by
  have hdim : (Topo.pyr t).dim = t.dim + 1 := rfl
  have hd0 : (0 : K) ≤ t.dim := Nat.cast_nonneg _
  have key : ∀ b ∈ B, ∀ o ∈ O, ∀ k, k < t.dim → 0 ≤ (1 - o.position 0) * b.position k ∧ (1 - o.position 0) * b.position k ≤ 1 := by
    intro b hb o ho k hk
    have h1 := hO.in01 o ho
    have h2 := hB.1 b hb k hk
    constructor
    · exact mul_nonneg (by linarith) h2.1
    · nlinarith
  refine ⟨fun q hq k hk => ?_, fun c hc => ?_⟩
  · obtain ⟨b, hb, o, ho, rfl⟩ := mem_conical.1 hq
    rw [hdim] at hk
    by_cases hkd : k = t.dim
    · simp only [hkd, if_true]; exact hO.in01 o ho
    · simp only [if_neg hkd, if_pos (show k < t.dim by omega)]; exact key b hb o ho k (by omega)
  · rw [cornersOf_pyr, List.mem_append, List.mem_singleton] at hc
    rw [hdim]
    push_cast
    rcases hc with hc | rfl
    · obtain ⟨b, hb, h⟩ := hB.2 c hc
      obtain ⟨o, ho, h'⟩ := hO.left
      refine ⟨_, mem_conical.2 ⟨b, hb, o, ho, rfl⟩, fun k hk => ?_⟩
      have h0 := (hO.in01 o ho).1
      by_cases hkd : k = t.dim
      · simp only [hkd, if_true, cornersOf_zero hc (le_refl _), sub_zero, abs_of_nonneg h0]
        nlinarith
      · simp only [if_neg hkd, if_pos (show k < t.dim by omega)]
        have h1 := abs_le.1 (h k (by omega))
        have h2 := hB.1 b hb k (by omega)
        have h3 : 0 ≤ o.position 0 * b.position k := mul_nonneg h0 h2.1
        have h4 : o.position 0 * b.position k ≤ δ := by nlinarith
        rw [abs_le]
        constructor <;> nlinarith
    · obtain ⟨o, ho, h'⟩ := hO.right
      obtain ⟨b, hb⟩ : ∃ b, b ∈ B := by
        obtain ⟨c, hc⟩ := List.exists_mem_of_ne_nil _ (cornersOf_ne_nil (K := K) t)
        obtain ⟨b, hb, -⟩ := hB.2 c hc
        exact ⟨b, hb⟩
      refine ⟨_, mem_conical.2 ⟨b, hb, o, ho, rfl⟩, fun k hk => ?_⟩
      have h0 := (hO.in01 o ho).2
      by_cases hkd : k = t.dim
      · simp only [hkd, if_true, setV_same]
        rw [abs_sub_comm, abs_of_nonneg (by linarith)]
        nlinarith
      · simp only [if_neg hkd, if_pos (show k < t.dim by omega), setV_ne _ hkd, sub_zero]
        have h1 := key b hb o ho k (by omega)
        have h2 := hB.1 b hb k (by omega)
        rw [abs_of_nonneg h1.1]
        nlinarith

/-- some point of the rule is near the first corner, the origin -/
def NearFirst (δ : K) (t : Topo) (l : List (QPoint K)) : Prop := ∃ q ∈ l, ∀ k, k < t.dim → 0 ≤ q.position k ∧ q.position k ≤ δ

theorem nearFirst_tensor {δ : K} {t : Topo} {B O : List (QPoint K)} (hB : NearFirst δ t B)
    (hO : ∃ o ∈ O, 0 ≤ o.position 0 ∧ o.position 0 ≤ δ) : NearFirst δ (.prism t) (tensorProduct (t.dim + 1) B O) := by
  obtain ⟨b, hb, h⟩ := hB
  obtain ⟨o, ho, h'⟩ := hO
  refine ⟨_, mem_tensor.2 ⟨b, hb, o, ho, rfl⟩, fun k hk => ?_⟩
  have hk : k < t.dim + 1 := hk
  by_cases hkd : k = t.dim
  · simpa only [hkd, if_true] using h'
  · simpa only [if_neg hkd, if_pos (show k < t.dim by omega)] using h k (by omega)

theorem nearFirst_conical {δ : K} {t : Topo} {B O : List (QPoint K)} (hB : NearFirst δ t B)
    (hO : ∃ o ∈ O, 0 ≤ o.position 0 ∧ o.position 0 ≤ δ) (h1 : In01 O) : NearFirst δ (.pyr t) (conicalProduct (t.dim + 1) false B O) := by
  obtain ⟨b, hb, h⟩ := hB
  obtain ⟨o, ho, h'⟩ := hO
  refine ⟨_, mem_conical.2 ⟨b, hb, o, ho, rfl⟩, fun k hk => ?_⟩
  have hk : k < t.dim + 1 := hk
  by_cases hkd : k = t.dim
  · simpa only [hkd, if_true] using h'
  · have e1 := h k (by omega)
    have e2 := h1 o ho
    simp only [if_neg hkd, if_pos (show k < t.dim by omega)]
    constructor
    · exact mul_nonneg (by linarith) e1.1
    · nlinarith

/-- the last corner of the numbering of the reference element -/
def lastCorner (t : Topo) : Vec K := (cornersOf t).getLast (cornersOf_ne_nil t)

theorem lastCorner_prism (t : Topo) : lastCorner (K := K) (.prism t) = setV (lastCorner t) t.dim 1 := by
  unfold lastCorner
  simp only [cornersOf_prism]
  have h : (cornersOf (K := K) t).map (fun c => setV c t.dim 1) ≠ [] := by rw [Ne, List.map_eq_nil_iff]; exact cornersOf_ne_nil t
  rw [List.getLast_append_of_ne_nil _ h, List.getLast_map]

theorem lastCorner_pyr (t : Topo) : lastCorner (K := K) (.pyr t) = setV (fun _ => 0) t.dim 1 := by
  unfold lastCorner
  simp only [cornersOf_pyr, List.getLast_append_of_ne_nil _ (List.cons_ne_nil _ _), List.getLast_singleton]

/-- some point of the rule is near the last corner -/
def NearLast (δ : K) (t : Topo) (l : List (QPoint K)) : Prop :=
  (∀ q ∈ l, ∀ k, k < t.dim → 0 ≤ q.position k ∧ q.position k ≤ 1) ∧
  ∃ q ∈ l, ∀ k, k < t.dim → |q.position k - lastCorner t k| ≤ δ

theorem box_tensor {t : Topo} {B O : List (QPoint K)} (hB : ∀ q ∈ B, ∀ k, k < t.dim → 0 ≤ q.position k ∧ q.position k ≤ 1) (hO : In01 O) :
    ∀ q ∈ tensorProduct (t.dim + 1) B O, ∀ k, k < t.dim + 1 → 0 ≤ q.position k ∧ q.position k ≤ 1 := by
  intro q hq k hk
  obtain ⟨b, hb, o, ho, rfl⟩ := mem_tensor.1 hq
  by_cases hkd : k = t.dim
  · simp only [hkd, if_true]; exact hO o ho
  · simp only [if_neg hkd, if_pos (show k < t.dim by omega)]; exact hB b hb k (by omega)

theorem box_conical {t : Topo} {B O : List (QPoint K)} (hB : ∀ q ∈ B, ∀ k, k < t.dim → 0 ≤ q.position k ∧ q.position k ≤ 1) (hO : In01 O) :
    ∀ q ∈ conicalProduct (t.dim + 1) false B O, ∀ k, k < t.dim + 1 → 0 ≤ q.position k ∧ q.position k ≤ 1 := by
  intro q hq k hk
  obtain ⟨b, hb, o, ho, rfl⟩ := mem_conical.1 hq
  by_cases hkd : k = t.dim
  · simp only [hkd, if_true]; exact hO o ho
  · simp only [if_neg hkd, if_pos (show k < t.dim by omega)]
    have h1 := hO o ho
    have h2 := hB b hb k (by omega)
    constructor
    · exact mul_nonneg (by linarith) h2.1
    · nlinarith

theorem nearLast_tensor {δ : K} {t : Topo} {B O : List (QPoint K)} (hB : NearLast δ t B) (hO : In01 O)
    (hr : ∃ o ∈ O, 1 - o.position 0 ≤ δ) : NearLast δ (.prism t) (tensorProduct (t.dim + 1) B O) := by
  refine ⟨box_tensor hB.1 hO, ?_⟩
  obtain ⟨b, hb, h⟩ := hB.2
  obtain ⟨o, ho, h'⟩ := hr
  refine ⟨_, mem_tensor.2 ⟨b, hb, o, ho, rfl⟩, fun k hk => ?_⟩
  have hk : k < t.dim + 1 := hk
  rw [lastCorner_prism]
  by_cases hkd : k = t.dim
  · simp only [hkd, if_true, setV_same]
    rwa [abs_sub_comm, abs_of_nonneg (by linarith [(hO o ho).2])]
  · simp only [if_neg hkd, if_pos (show k < t.dim by omega), setV_ne _ hkd]
    exact h k (by omega)

theorem nearLast_conical {δ : K} {t : Topo} {B O : List (QPoint K)} (hB : NearLast δ t B) (hO : In01 O)
    (hr : ∃ o ∈ O, 1 - o.position 0 ≤ δ) : NearLast δ (.pyr t) (conicalProduct (t.dim + 1) false B O) := by
  refine ⟨box_conical hB.1 hO, ?_⟩
  obtain ⟨b, hb, h⟩ := hB.2
  obtain ⟨o, ho, h'⟩ := hr
  refine ⟨_, mem_conical.2 ⟨b, hb, o, ho, rfl⟩, fun k hk => ?_⟩
  have hk : k < t.dim + 1 := hk
  rw [lastCorner_pyr]
  have h1 := hO o ho
  by_cases hkd : k = t.dim
  · simp only [hkd, if_true, setV_same]
    rwa [abs_sub_comm, abs_of_nonneg (by linarith)]
  · simp only [if_neg hkd, if_pos (show k < t.dim by omega), setV_ne _ hkd, sub_zero]
    have h2 := hB.1 b hb k (by omega)
    rw [abs_of_nonneg (mul_nonneg (by linarith) h2.1)]
    nlinarith

/-! ### Interior -/

theorem inside0_congr {t : Topo} {f : K} {x y : Vec K} (h : ∀ k, k < t.dim → x k = y k) (hx : Inside 0 t f x) : Inside 0 t f y := by
  induction t generalizing f with
  | pt => trivial
  | prism t ih =>
    have hd : (Topo.prism t).dim = t.dim + 1 := rfl
    rw [hd] at h
    simp only [Inside, ← h t.dim (by omega)] at hx ⊢
    exact ⟨hx.1, hx.2.1, ih (fun k hk => h k (by omega)) hx.2.2⟩
  | pyr t ih =>
    have hd : (Topo.pyr t).dim = t.dim + 1 := rfl
    rw [hd] at h
    simp only [Inside, ← h t.dim (by omega)] at hx ⊢
    exact ⟨hx.1, hx.2.1, ih (fun k hk => h k (by omega)) hx.2.2⟩

theorem inside0_smul {c : K} (hc : 0 < c) {t : Topo} {f : K} {x : Vec K} (hx : Inside 0 t f x) : Inside 0 t (c * f) fun k => c * x k := by
  induction t generalizing f with
  | pt => trivial
  | prism t ih =>
    simp only [Inside, neg_zero] at hx ⊢
    exact ⟨mul_pos hc hx.1, by rw [← mul_sub]; exact mul_pos hc hx.2.1, ih hx.2.2⟩
  | pyr t ih =>
    simp only [Inside, neg_zero] at hx ⊢
    exact ⟨mul_pos hc hx.1, by rw [← mul_sub]; exact mul_pos hc hx.2.1, by rw [← mul_sub]; exact ih hx.2.2⟩

/-- all points strictly inside -/
def Inner (t : Topo) (l : List (QPoint K)) : Prop := ∀ q ∈ l, Inside 0 t 1 q.position

/-- all points of the interval rule strictly inside -/
def Inner1 (O : List (QPoint K)) : Prop := ∀ o ∈ O, 0 < o.position 0 ∧ o.position 0 < 1

theorem inner_tensor {t : Topo} {B O : List (QPoint K)} (hB : Inner t B) (hO : Inner1 O) :
    Inner (.prism t) (tensorProduct (t.dim + 1) B O) := by
  intro q hq
  obtain ⟨b, hb, o, ho, rfl⟩ := mem_tensor.1 hq
  simp only [Inside, if_true, neg_zero, sub_pos]
  refine ⟨(hO o ho).1, (hO o ho).2, inside0_congr (fun k hk => ?_) (hB b hb)⟩
  rw [if_neg (by omega), if_pos hk]

theorem inner_conical {t : Topo} {B O : List (QPoint K)} (hB : Inner t B) (hO : Inner1 O) :
    Inner (.pyr t) (conicalProduct (t.dim + 1) false B O) := by
  intro q hq
  obtain ⟨b, hb, o, ho, rfl⟩ := mem_conical.1 hq
  simp only [Inside, if_true, neg_zero, sub_pos]
  refine ⟨(hO o ho).1, (hO o ho).2, ?_⟩
  have := inside0_smul (sub_pos.2 (hO o ho).2) (hB b hb)
  rw [mul_one] at this
  refine inside0_congr (fun k hk => ?_) this
  rw [if_neg (by omega), if_pos hk]

/-! ### Distinct points -/

theorem distinct_tensor {d : Nat} {B O : List (QPoint K)} (hB : B.Pairwise (Apart d)) (hO : O.Pairwise (Apart 1)) :
    (tensorProduct (d + 1) B O).Pairwise (Apart (d + 1)) := by
  unfold tensorProduct
  rw [List.pairwise_flatMap]
  refine ⟨fun b _ => ?_, hB.imp_of_mem fun {b b'} _ _ h => ?_⟩
  · rw [List.pairwise_map]
    refine hO.imp fun {o o'} h => ?_
    obtain ⟨k, hk, h⟩ := h
    have : k = 0 := by omega
    subst this
    exact ⟨d, by omega, by simpa only [Nat.add_sub_cancel, setV, if_true] using h⟩
  · obtain ⟨k, hk, h⟩ := h
    intro x hx y hy
    rw [List.mem_map] at hx hy
    obtain ⟨o, -, rfl⟩ := hx
    obtain ⟨o', -, rfl⟩ := hy
    refine ⟨k, by omega, ?_⟩
    have hkd : k ≠ d := by omega
    simp only [Nat.add_sub_cancel, setV, if_neg hkd, if_pos hk]
    exact h

theorem distinct_conical {d : Nat} {B O : List (QPoint K)} (hB : B.Pairwise (Apart d)) (hO : O.Pairwise (Apart 1))
    (h1 : ∀ o ∈ O, o.position 0 < 1) : (conicalProduct (d + 1) false B O).Pairwise (Apart (d + 1)) := by
  unfold conicalProduct
  rw [List.pairwise_flatMap]
  refine ⟨fun b _ => ?_, hB.imp_of_mem fun {b b'} _ _ h => ?_⟩
  · rw [List.pairwise_map]
    refine hO.imp fun {o o'} h => ?_
    obtain ⟨k, hk, h⟩ := h
    have : k = 0 := by omega
    subst this
    exact ⟨d, by omega, by simpa only [Nat.add_sub_cancel, setV, if_true] using h⟩
  · obtain ⟨k, hk, h⟩ := h
    intro x hx y hy
    rw [List.mem_map] at hx hy
    obtain ⟨o, ho, rfl⟩ := hx
    obtain ⟨o', ho', rfl⟩ := hy
    by_cases he : o.position 0 = o'.position 0
    · refine ⟨k, by omega, ?_⟩
      have hkd : k ≠ d := by omega
      simp only [Nat.add_sub_cancel, setV, if_neg hkd, if_pos hk, he]
      intro hc
      exact h (mul_left_cancel₀ (sub_pos.2 (h1 o' ho')).ne' hc)
    · exact ⟨d, by omega, by simpa only [Nat.add_sub_cancel, setV, if_true] using he⟩

end Verif.Quad
