import Verif.Float.QuadModel
import Verif.Quad.Recursion

/-! Rules for two number types: the same control flow, related points. -/

namespace Verif.FloatQuad

open Verif.Typ hiding Res
open Verif.RefTopo Verif.RefGeom
open Verif.Quad (Res Rule QPoint QType Row Node Lit Env initHelper tableOf maxOrder maxOrder1 lastBlock simplex2Highest simplex3Highest
  prism3Highest simplex2Index simplex3Index baseTypeOf)

/-! ### Exact numbers -/

section exact

variable {K : Type} [Field K]

/-- the tables without rounding -/
def exactTables (K : Type) [Field K] : Tables K := ⟨Lit.val, fun r => r.pts.map Node.point⟩

theorem ruleWith_exact (dim : Nat) (t : GeometryType) (p : Int) (m : Res Nat) (f : Res (Rule K)) :
    ruleWith dim t p m f = Quad.ruleWith dim t p m f := rfl

theorem rule1_exact (env : Env K) (t : GeometryType) (p : Int) (qt : QType) :
    rule1 (exactTables K) (Quad.jacobiN env) t p qt = Quad.rule1 env t p qt := rfl

theorem mulPow_exact (w s : K) : ∀ n, mulPow w s n = Quad.mulPow w s n
  | 0 => rfl
  | n + 1 => by rw [mulPow, Quad.mulPow, mulPow_exact w s n]

theorem tensorProduct_exact (dim : Nat) (b o : List (QPoint K)) : tensorProduct dim b o = Quad.tensorProduct dim b o := rfl

theorem conicalProduct_exact (dim : Nat) (c : Bool) (b o : List (QPoint K)) :
    conicalProduct dim c b o = Quad.conicalProduct dim c b o := by
  unfold conicalProduct Quad.conicalProduct conicalPoint
  simp only [mulPow_exact]
  rfl

theorem tensorRule_exact (env : Env K) (dim id : Nat) (p : Int) (qt : QType) (base : Res (Rule K)) :
    tensorRule (exactTables K) (Quad.jacobiN env) dim id p qt base = Quad.tensorRule env dim id p qt base := by
  unfold tensorRule Quad.tensorRule
  simp only [rule1_exact, tensorProduct_exact, conicalProduct_exact]

theorem factory_exact (env : Env K) (dim : Nat) (t : GeometryType) (p : Int) (qt : QType) (base : Res (Rule K)) :
    factory (exactTables K) (Quad.jacobiN env) dim t p qt base = Quad.factory env dim t p qt base := by
  unfold factory Quad.factory
  split
  · rfl
  · rfl
  · simp only [tensorRule_exact]; rfl
  · simp only [tensorRule_exact]; rfl
  · simp only [tensorRule_exact]

/-- for exact numbers the two models agree -/
theorem rule_exact (env : Env K) : ∀ (dim : Nat) (t : GeometryType) (p : Int) (qt : QType),
    rule (exactTables K) (Quad.jacobiN env) dim t p qt = Quad.rule env dim t p qt
  | 0, t, p, qt => by rw [rule, Quad.rule, factory_exact]; rfl
  | d + 1, t, p, qt => by rw [rule, Quad.rule, factory_exact, rule_exact env d]; rfl

end exact

/-! ### Two number types -/

section rel

variable {K : Type} [Zero K] [One K] [Sub K] [Mul K] {K' : Type} [Zero K'] [One K'] [Sub K'] [Mul K']

/-- the same outcome, type, order and number of points, and the pairs of points satisfy `P` -/
def RelRes (P : List (QPoint K × QPoint K') → Prop) : Res (Rule K) → Res (Rule K') → Prop
  | .ok r, .ok r' => r.type = r'.type ∧ r.order = r'.order ∧ ∃ L, L.map Prod.fst = r.pts ∧ L.map Prod.snd = r'.pts ∧ P L
  | .throw, .throw => True
  | .ub, .ub => True
  | _, _ => False

theorem ruleWith_rel {P : List (QPoint K × QPoint K') → Prop} {a : Res (Rule K)} {b : Res (Rule K')} (h : RelRes P a b) (dim : Nat)
    (t : GeometryType) (p : Int) (m : Res Nat) : RelRes P (ruleWith dim t p m a) (ruleWith dim t p m b) := by
  unfold ruleWith
  split
  · trivial
  · split
    · split
      · trivial
      · split
        · exact h
        · split
          · split
            · trivial
            · exact h
          · trivial
          · trivial
    · trivial

variable (T : Tables K) (T' : Tables K')

/-- the pairs of a row of a one dimensional table -/
def pairs (row : Row) : List (QPoint K × QPoint K') := row.pts.map fun n => (nodePoint T n, nodePoint T' n)

/-- the pairs of a product -/
def pairs2 (f : QPoint K → QPoint K → QPoint K) (f' : QPoint K' → QPoint K' → QPoint K') (B O : List (QPoint K × QPoint K')) :
    List (QPoint K × QPoint K') :=
  B.flatMap fun b => O.map fun o => (f b.1 o.1, f' b.2 o.2)

theorem pairs2_fst (f : QPoint K → QPoint K → QPoint K) (f' : QPoint K' → QPoint K' → QPoint K') (B O : List (QPoint K × QPoint K')) :
    (pairs2 f f' B O).map Prod.fst = (B.map Prod.fst).flatMap fun b => (O.map Prod.fst).map fun o => f b o := by
  unfold pairs2
  rw [List.map_flatMap, List.flatMap_map]
  simp [List.map_map, Function.comp_def]

theorem pairs2_snd (f : QPoint K → QPoint K → QPoint K) (f' : QPoint K' → QPoint K' → QPoint K') (B O : List (QPoint K × QPoint K')) :
    (pairs2 f f' B O).map Prod.snd = (B.map Prod.snd).flatMap fun b => (O.map Prod.snd).map fun o => f' b o := by
  unfold pairs2
  rw [List.map_flatMap, List.flatMap_map]
  simp [List.map_map, Function.comp_def]

theorem rule1D_rel (tab : List Row) (p : Int) : RelRes (fun L => ∃ row ∈ tab, L = pairs T T' row) (rule1D T tab p) (rule1D T' tab p) := by
  unfold rule1D
  rcases h : initHelper tab p with row | _ | _
  · refine ⟨rfl, rfl, pairs T T' row, ?_, ?_, row, ?_, rfl⟩
    · simp [pairs, List.map_map, Function.comp_def]
    · simp [pairs, List.map_map, Function.comp_def]
    · unfold initHelper at h
      split at h
      · cases h; exact List.mem_of_find?_eq_some (by assumption)
      · cases h
  · trivial
  · trivial

/-- Two number types: whatever relation of the points of the tables passes to the products holds for every rule; the calls have the
same outcome for every request. -/
theorem rule_rel (jac : Int → Int → Res (Rule K)) (jac' : Int → Int → Res (Rule K')) {qt : QType} (hq : qt ≠ .GaussJacobi_n_0)
    {tab : List Row} {h : Nat} (ht : tableOf qt = some (tab, h)) (P : Topo → List (QPoint K × QPoint K') → Prop)
    (h0 : P .pt [(⟨fun _ => 0, 1⟩, ⟨fun _ => 0, 1⟩)])
    (h1 : ∀ row ∈ tab, P (.prism .pt) (pairs T T' row))
    (hten : ∀ t B, 1 ≤ t.dim → P t B → ∀ row ∈ tab,
      P (.prism t) (pairs2 (tensorPoint (t.dim + 1)) (tensorPoint (t.dim + 1)) B (pairs T T' row)))
    (hcon : ∀ t B, 1 ≤ t.dim → P t B → ∀ row ∈ tab,
      P (.pyr t) (pairs2 (conicalPoint (t.dim + 1) false) (conicalPoint (t.dim + 1) false) B (pairs T T' row)))
    (hs2 : qt = .GaussLegendre → ∀ row ∈ Quad.Simplex2.blocks, ∃ L, L.map Prod.fst = T.block row ∧ L.map Prod.snd = T'.block row ∧
      P (.pyr (.prism .pt)) L)
    (hs3 : qt = .GaussLegendre → ∀ row ∈ Quad.Simplex3.blocks, ∃ L, L.map Prod.fst = T.block row ∧ L.map Prod.snd = T'.block row ∧
      P (.pyr (.pyr (.prism .pt))) L)
    (hp3 : qt = .GaussLegendre → ∀ row ∈ Quad.Prism3.blocks, lastBlock Quad.Prism3.blocks 6 = some row →
      ∃ L, L.map Prod.fst = T.block row ∧ L.map Prod.snd = T'.block row ∧ P (.prism (.pyr (.prism .pt))) L) :
    ∀ (d id : Nat), d ≤ 30 → id < 2 ^ d → ∀ p : Int,
      RelRes (P (topoOf d id)) (rule T jac d ⟨d, false, id⟩ p qt) (rule T' jac' d ⟨d, false, id⟩ p qt) := by
  have hmem : ∀ {blocks : List Row} {m : Nat} {row : Row}, lastBlock blocks m = some row → row ∈ blocks := by
    intro blocks m row h
    have := List.mem_of_find?_eq_some h
    simpa using this
  have hblock : ∀ (Q : List (QPoint K × QPoint K') → Prop) (blocks : List Row) (m : Nat) (t : GeometryType),
      (∀ row ∈ blocks, lastBlock blocks m = some row → ∃ L, L.map Prod.fst = T.block row ∧ L.map Prod.snd = T'.block row ∧ Q L) →
      RelRes Q (blockRule T t blocks m) (blockRule T' t blocks m) := by
    intro Q blocks m t hQ
    unfold blockRule
    rcases hl : lastBlock blocks m with _ | row
    · trivial
    · exact ⟨rfl, rfl, hQ row (hmem hl) hl⟩
  have h1D : ∀ (t : GeometryType) (p : Int), RelRes (fun L => ∃ row ∈ tab, L = pairs T T' row) (rule1 T jac t p qt) (rule1 T' jac' t p qt) := by
    intro t p
    refine ruleWith_rel ?_ _ _ _ _
    unfold factory1
    rw [ht]
    by_cases hl : isLine t = true
    · rw [if_pos hl, if_pos hl]; exact rule1D_rel T T' tab p
    · rw [if_neg hl, if_neg hl]; trivial
  intro d
  induction d with
  | zero =>
    intro id hd hid p
    refine ruleWith_rel ?_ _ _ _ _
    have hid0 : id = 0 := by simpa using hid
    subst hid0
    exact ⟨rfl, rfl, _, rfl, rfl, h0⟩
  | succ d ih =>
    intro id hd hid p
    have hb := Quad.baseTypeOf_eq (d := d) (by omega) hid
    have ih := ih (id % 2 ^ d) (by omega) (Nat.mod_lt _ (Nat.two_pow_pos _)) p
    refine ruleWith_rel ?_ _ _ _ _
    simp only
    rw [hb]
    have htens : d ≠ 0 → RelRes (P (topoOf (d + 1) id)) (tensorRule T jac (d + 1) id p qt (rule T jac d ⟨d, false, id % 2 ^ d⟩ p qt))
        (tensorRule T' jac' (d + 1) id p qt (rule T' jac' d ⟨d, false, id % 2 ^ d⟩ p qt)) := by
      intro hd0
      have hdim : (topoOf d (id % 2 ^ d)).dim = d := (rep_topoOf _ _).dim_eq
      have htopo : topoOf (d + 1) id = if id.testBit d then .prism (topoOf d (id % 2 ^ d)) else .pyr (topoOf d (id % 2 ^ d)) := by
        rw [topoOf]; simp [hd0]
      unfold tensorRule
      generalize rule T jac d ⟨d, false, id % 2 ^ d⟩ p qt = a at ih
      generalize rule T' jac' d ⟨d, false, id % 2 ^ d⟩ p qt = a' at ih
      match a, a', ih with
      | .throw, .throw, _ => trivial
      | .ub, .ub, _ => trivial
      | .ok r, .ok r', ih =>
        obtain ⟨-, -, B, b1, b2, b3⟩ := ih
        simp only [Quad.ok_bind, Nat.add_sub_cancel, Quad.pure_ok]
        rw [htopo]
        by_cases hbit : id.testBit d = true
        · rw [if_pos hbit, if_pos hbit, if_pos hbit]
          have h2 := h1D line p
          generalize rule1 T jac line p qt = o at h2
          generalize rule1 T' jac' line p qt = o' at h2
          match o, o', h2 with
          | .throw, .throw, _ => trivial
          | .ub, .ub, _ => trivial
          | .ok o, .ok o', h2 =>
            obtain ⟨-, -, L, l1, l2, row, hrow, rfl⟩ := h2
            refine ⟨rfl, rfl, pairs2 (tensorPoint (d + 1)) (tensorPoint (d + 1)) B (pairs T T' row), ?_, ?_, ?_⟩
            · rw [pairs2_fst, b1, l1]; rfl
            · rw [pairs2_snd, b2, l2]; rfl
            · have := hten _ _ (by omega) b3 row hrow
              rwa [hdim] at this
        · rw [if_neg hbit, if_neg hbit, if_neg hbit, if_pos hq, if_pos hq]
          have h2 := h1D line (p + d)
          generalize rule1 T jac line (p + d) qt = o at h2
          generalize rule1 T' jac' line (p + d) qt = o' at h2
          match o, o', h2 with
          | .throw, .throw, _ => trivial
          | .ub, .ub, _ => trivial
          | .ok o, .ok o', h2 =>
            obtain ⟨-, -, L, l1, l2, row, hrow, rfl⟩ := h2
            refine ⟨rfl, rfl, pairs2 (conicalPoint (d + 1) false) (conicalPoint (d + 1) false) B (pairs T T' row), ?_, ?_, ?_⟩
            · rw [pairs2_fst, b1, l1]; rfl
            · rw [pairs2_snd, b2, l2]; rfl
            · have := hcon _ _ (by omega) b3 row hrow
              rwa [hdim] at this
    match d, hd, hid, hb, ih, htens with
    | 0, hd, hid, hb, ih, htens =>
      have htopo : topoOf 1 id = .prism .pt := by simp [topoOf]
      rw [htopo]
      simp only [factory, factory1, ht]
      split
      · have := rule1D_rel T T' tab p
        generalize rule1D T tab p = o at this
        generalize rule1D T' tab p = o' at this
        match o, o', this with
        | .throw, .throw, _ => trivial
        | .ub, .ub, _ => trivial
        | .ok o, .ok o', h2 =>
          obtain ⟨e1, e2, L, l1, l2, row, hrow, rfl⟩ := h2
          exact ⟨e1, e2, _, l1, l2, h1 row hrow⟩
      · trivial
    | 1, hd, hid, hb, ih, htens =>
      simp only [factory]
      split
      · rename_i hc
        have hqq : qt = .GaussLegendre := hc.2.1.resolve_right hq
        have htopo : topoOf 2 id = .pyr (.prism .pt) := by
          have := hc.1
          have hid4 : id < 4 := by simpa using hid
          interval_cases id <;> simp [isSimplex] at this <;> decide
        rw [htopo]
        unfold simplex2Rule
        split
        · trivial
        · exact hblock _ _ _ _ fun row hrow _ => hs2 hqq row hrow
      · exact htens (by omega)
    | 2, hd, hid, hb, ih, htens =>
      simp only [factory]
      split
      · rename_i hc
        have hqq : qt = .GaussLegendre := hc.2.1.resolve_right hq
        have htopo : topoOf 3 id = .pyr (.pyr (.prism .pt)) := by
          have := hc.1
          have hid4 : id < 8 := by simpa using hid
          interval_cases id <;> simp [isSimplex] at this <;> decide
        rw [htopo]
        unfold simplex3Rule
        split
        · trivial
        · exact hblock _ _ _ _ fun row hrow _ => hs3 hqq row hrow
      · split
        · rename_i hc
          have htopo : topoOf 3 id = .prism (.pyr (.prism .pt)) := by
            have := hc.1
            have hid4 : id < 8 := by simpa using hid
            interval_cases id <;> simp [Typ.isPrism] at this <;> decide
          rw [htopo]
          exact hblock _ _ _ _ fun row hrow hl => hp3 hc.2.1 row hrow hl
        · exact htens (by omega)
    | d + 3, hd, hid, hb, ih, htens =>
      simp only [factory]
      exact htens (by omega)

end rel

end Verif.FloatQuad
