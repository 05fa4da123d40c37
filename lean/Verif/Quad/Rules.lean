import Verif.Quad.Tables
import Verif.Type.Lemmas
import Mathlib.Tactic.IntervalCases

/-! The rules that `QuadratureRules::rule` delivers: recursion over the dimension. -/

namespace Verif.Quad

open Verif.Typ Verif.RefTopo Verif.RefGeom
open Finset hiding ext

set_option linter.unusedSectionVars false

variable {K : Type} [Field K] [LinearOrder K] [IsStrictOrderedRing K]

@[simp] theorem ok_bind {α β : Type} (a : α) (f : α → Res β) : (Res.ok a >>= f) = f a := rfl
@[simp] theorem pure_ok {α : Type} (a : α) : (pure a : Res α) = .ok a := rfl

/-! ### Orders -/

theorem ruleWith_ok {d id : Nat} {p : Int} {mo : Res Nat} {f : Res (Rule K)} (hd : d ≤ 30) (hid : id < 2 ^ d)
    (h : d = 0 ∨ ∃ m : Nat, mo = .ok m ∧ 0 ≤ p ∧ p ≤ m) : ruleWith d ⟨d, false, id⟩ p mo f = f := by
  have hs : localSize d = some (2 ^ d - 2 ^ d / 2 + 1) := by
    unfold localSize; rw [regularSize_eq hd]; rfl
  have hi : localIndex ⟨d, false, id⟩ = some (id / 2) := by simp [localIndex, shr_one]
  have hlt := half_lt_pow hid
  unfold ruleWith
  rw [hs, hi]
  simp only [ne_eq, not_true_eq_false, if_false]
  rw [if_neg (by omega)]
  rcases h with rfl | ⟨m, rfl, h0, hm⟩
  · simp
  · by_cases hd0 : d = 0
    · simp [hd0]
    · rw [if_neg hd0]
      simp only
      rw [if_neg (by omega)]

theorem baseTypeOf_eq {d id : Nat} (hd : d ≤ 30) (hid : id < 2 ^ (d + 1)) :
    baseTypeOf (d + 1) id = ⟨d, false, id % 2 ^ d⟩ := by
  have hp := pow_le_30 hd
  have hp0 : 0 < 2 ^ d := Nat.two_pow_pos d
  have hmod : id % 2 ^ d < 2 ^ d := Nat.mod_lt _ hp0
  have e : (if id.testBit d then id - 2 ^ d else id) = id % 2 ^ d := by
    rw [pow_succ] at hid
    by_cases hb : id.testBit d = true
    · rw [if_pos hb]
      have := Nat.ge_two_pow_of_testBit hb
      rw [Nat.mod_eq_sub_mod this, Nat.mod_eq_of_lt (by omega)]
    · rw [if_neg hb]
      by_cases hlt : id < 2 ^ d
      · rw [Nat.mod_eq_of_lt hlt]
      · exfalso
        apply hb
        rw [Nat.testBit_eq_decide_div_mod_eq]
        have : id / 2 ^ d = 1 := Nat.div_eq_of_lt_le (by omega) (by omega)
        simp [this]
  unfold baseTypeOf mk2
  rw [Nat.add_sub_cancel, e, mk3_eq (by omega) (by omega)]

/-- the highest order of the products: `h`, lowered by `k` for a cone over an element of dimension `k` -/
def MaxSpec (h d id m : Nat) : Prop :=
  m ≤ h ∧ (∀ k, 1 ≤ k → k < d → id.testBit k = false → m + k ≤ h) ∧
    (m = h ∨ ∃ k, 1 ≤ k ∧ k < d ∧ id.testBit k = false ∧ m + k = h)

theorem testBit_mod' {id d k : Nat} (hk : k < d) : (id % 2 ^ d).testBit k = id.testBit k := by
  rw [Nat.testBit_mod_two_pow]; simp [hk]

theorem maxOrder_tab {qt : QType} {tab : List Row} {h : Nat} (ht : tableOf qt = some (tab, h)) (h30 : 30 ≤ h)
    (h61 : h ≤ 61) : ∀ (d id : Nat), d + 1 ≤ 30 → id < 2 ^ (d + 1) →
      ∃ m, maxOrder (d + 1) ⟨d + 1, false, id⟩ qt = .ok m ∧ MaxSpec h (d + 1) id m
  | 0, id, _, _ => by
    refine ⟨h, ?_, le_refl _, fun k h1 h2 => by omega, Or.inl rfl⟩
    simp [maxOrder, maxOrder1, isLine, ht]
  | d + 1, id, hd, hid => by
    have hb := baseTypeOf_eq (d := d + 1) (by omega) hid
    obtain ⟨m, hm, h1, h2, h3⟩ := maxOrder_tab ht h30 h61 d (id % 2 ^ (d + 1)) (by omega)
      (Nat.mod_lt _ (Nat.two_pow_pos _))
    have hm30 : h - d ≤ m := by
      rcases h3 with rfl | ⟨k, hk1, hk2, -, hk⟩ <;> omega
    have hn : qt ≠ .GaussJacobi_n_0 := by rintro rfl; simp [tableOf] at ht
    have h1' : maxOrder1 line qt = .ok h := by simp [maxOrder1, isLine, line, mk3, ht]
    have hspec : ∃ m', tensorMaxOrder (d + 2) id qt (.ok m) = .ok m' ∧ MaxSpec h (d + 2) id m' ∧ h - (d + 1) ≤ m' := by
      unfold tensorMaxOrder
      rw [h1']
      simp only [ok_bind, show d + 2 - 1 = d + 1 from rfl]
      by_cases hbit : id.testBit (d + 1) = true
      · rw [if_pos hbit]
        refine ⟨_, rfl, ⟨by omega, ?_, ?_⟩, by omega⟩
        · intro k hk1 hk2 hk
          have hkd : k < d + 1 := by
            rcases Nat.lt_succ_iff_lt_or_eq.mp hk2 with h | rfl
            · exact h
            · rw [hbit] at hk; cases hk
          have := h2 k hk1 hkd (by rw [testBit_mod' hkd]; exact hk)
          omega
        · rcases h3 with rfl | ⟨k, hk1, hk2, hk, hk4⟩
          · left; omega
          · right; exact ⟨k, hk1, by omega, by rw [testBit_mod' hk2] at hk; exact hk, by omega⟩
      · rw [if_neg hbit, if_pos hn]
        have e : (h + 2 ^ 32 - (d + 1)) % 2 ^ 32 = h - (d + 1) := by omega
        rw [e]
        have hbit' : id.testBit (d + 1) = false := by simpa using hbit
        refine ⟨_, rfl, ⟨by omega, ?_, ?_⟩, by omega⟩
        · intro k hk1 hk2 hk
          omega
        · right
          exact ⟨d + 1, by omega, by omega, hbit', by omega⟩
    obtain ⟨m', e1, e2, e3⟩ := hspec
    refine ⟨m', ?_, e2⟩
    rw [show maxOrder (d + 1 + 1) ⟨d + 1 + 1, false, id⟩ qt = (do
      let order ← tensorMaxOrder (d + 2) id qt (maxOrder (d + 1) (baseTypeOf (d + 2) id) qt)
      if d + 2 = 2 then
        return if isSimplex ⟨d + 2, false, id⟩ then max order simplex2Highest else order
      else if d + 2 = 3 then
        let order := if isSimplex ⟨d + 2, false, id⟩ then max order simplex3Highest else order
        return if isPrism ⟨d + 2, false, id⟩ then max order prism3Highest else order
      else return order) from rfl, hb, hm, e1]
    simp only [ok_bind, pure_ok, simplex2Highest, simplex3Highest, prism3Highest]
    by_cases hd2 : d + 2 = 2
    · rw [if_pos hd2]
      split
      · congr 1; omega
      · rfl
    · rw [if_neg hd2]
      by_cases hd3 : d + 2 = 3
      · rw [if_pos hd3]
        congr 1
        split <;> split <;> omega
      · rw [if_neg hd3]

theorem maxOrder_n : ∀ (d id : Nat), d + 1 ≤ 30 → id < 2 ^ (d + 1) →
      maxOrder (d + 1) ⟨d + 1, false, id⟩ .GaussJacobi_n_0 = .ok 127
  | 0, id, _, _ => by simp [maxOrder, maxOrder1, isLine, tableOf, jacobiNMaxOrder]
  | d + 1, id, hd, hid => by
    have hb := baseTypeOf_eq (d := d + 1) (by omega) hid
    have hm := maxOrder_n d (id % 2 ^ (d + 1)) (by omega) (Nat.mod_lt _ (Nat.two_pow_pos _))
    have e1 : tensorMaxOrder (d + 2) id .GaussJacobi_n_0 (.ok 127) = .ok 127 := by
      have h1' : maxOrder1 line .GaussJacobi_n_0 = .ok 127 := by
        simp [maxOrder1, isLine, line, mk3, tableOf, jacobiNMaxOrder]
      unfold tensorMaxOrder
      rw [h1']
      simp
    rw [show maxOrder (d + 1 + 1) ⟨d + 1 + 1, false, id⟩ .GaussJacobi_n_0 = (do
      let order ← tensorMaxOrder (d + 2) id .GaussJacobi_n_0 (maxOrder (d + 1) (baseTypeOf (d + 2) id) .GaussJacobi_n_0)
      if d + 2 = 2 then
        return if isSimplex ⟨d + 2, false, id⟩ then max order simplex2Highest else order
      else if d + 2 = 3 then
        let order := if isSimplex ⟨d + 2, false, id⟩ then max order simplex3Highest else order
        return if isPrism ⟨d + 2, false, id⟩ then max order prism3Highest else order
      else return order) from rfl, hb, hm, e1]
    simp only [ok_bind, pure_ok, simplex2Highest, simplex3Highest, prism3Highest]
    split
    · split <;> rfl
    · split
      · congr 1
        split <;> split <;> rfl
      · rfl

/-! ### Properties of a rule -/

/-- weights of the rules of this family and order are not negative: all but the triangle rule of order 3 -/
def NonnegCase (qt : QType) (p : Nat) : Prop := ¬ (p = 3 ∧ (qt = .GaussLegendre ∨ qt = .GaussJacobi_n_0))

/-- and positive: no point at the apex of a cone -/
def PosCase (qt : QType) (p : Nat) : Prop := NonnegCase qt p ∧ qt ≠ .GaussLobatto ∧ qt ≠ .GaussRadauRight

/-- what is proved of a delivered rule -/
structure Good (t : Topo) (qt : QType) (p : Nat) (ε : K) (r : Rule K) : Prop where
  order : (p : Int) ≤ r.order
  approx : Approx t r.order.toNat ε r.pts
  inDom : InDom t r.pts
  zero : ∀ q ∈ r.pts, ∀ k, t.dim ≤ k → q.position k = 0
  nonneg : NonnegCase qt p → ∀ q ∈ r.pts, 0 ≤ q.weight
  pos : PosCase qt p → PosW r.pts

theorem Approx.mono {t : Topo} {p p' : Nat} {ε ε' : K} {l : List (QPoint K)} (h : Approx t p ε l) (hp : p' ≤ p)
    (hε : ε ≤ ε') : Approx t p' ε' l := fun a ha => (h a (ha.trans hp)).trans hε

theorem Good.mono {t : Topo} {qt : QType} {p : Nat} {ε ε' : K} {r : Rule K} (h : Good t qt p ε r) (hε : ε ≤ ε') :
    Good t qt p ε' r := ⟨h.order, h.approx.mono (le_refl _) hε, h.inDom, h.zero, h.nonneg, h.pos⟩

/-- a one dimensional rule as used in the products -/
structure Oned (α : Nat) (p : Nat) (δ : K) (below : Prop) (r : Rule K) : Prop where
  order : (p : Int) ≤ r.order
  approx : Approx1 α r.order.toNat 1 δ r.pts
  in01 : In01 r.pts
  zero : ∀ q ∈ r.pts, ∀ k, 1 ≤ k → q.position k = 0
  pos : PosW r.pts
  below : below → ∀ q ∈ r.pts, q.position 0 < 1

theorem Approx1.mono {α p p' : Nat} {c ε : K} {l : List (QPoint K)} (h : Approx1 α p c ε l) (hp : p' ≤ p) :
    Approx1 α p' c ε l := fun k m hkm => h k m (hkm.trans hp)

/-- the last step of the construction finds a good one dimensional rule -/
def StepOK (env : Env K) (d : Nat) (bit : Bool) (p : Nat) (qt : QType) (δ : K) : Prop :=
  if bit = true then ∃ o, rule1 env line p qt = .ok o ∧ Oned 0 p δ False o
  else if qt ≠ .GaussJacobi_n_0 then
    ∃ o, rule1 env line ((p : Int) + d) qt = .ok o ∧ Oned 0 (p + d) δ (qt ≠ .GaussLobatto ∧ qt ≠ .GaussRadauRight) o
  else ∃ o, jacobiN env p d = .ok o ∧ Oned d p δ False o

theorem mk2_eq {id d : Nat} (hd : d ≤ 30) (hid : id < 2 ^ d) : mk2 id d = ⟨d, false, id⟩ := by
  have := pow_le_30 hd
  exact mk3_eq (by omega) (by omega)

theorem step_err {ε δ : K} (h0 : 0 ≤ δ) (h1 : ε ≤ 1) : ε * (1 + δ) + δ ≤ ε + 2 * δ := by nlinarith

theorem tensor_good {env : Env K} {d id p : Nat} {qt : QType} {ε δ : K} {t : Topo} {B : Rule K}
    (hd : d + 1 ≤ 30) (hid : id < 2 ^ (d + 1)) (ht : t.dim = d) (hB : Good t qt p ε B) (h0 : 0 ≤ δ) (h1 : ε ≤ 1)
    (hs : StepOK env d (id.testBit d) p qt δ) :
    ∃ r, tensorRule env (d + 1) id p qt (.ok B) = .ok r ∧ r.type = ⟨d + 1, false, id⟩ ∧ r.order = p ∧
      Good (if id.testBit d then .prism t else .pyr t) qt p (ε + 2 * δ) r := by
  have hB' : Approx t p ε B.pts := hB.approx.mono (by have := hB.order; omega) (le_refl _)
  unfold tensorRule StepOK at *
  simp only [ok_bind, Nat.add_sub_cancel]
  by_cases hb : id.testBit d = true
  · simp only [hb, if_true] at hs ⊢
    obtain ⟨o, ho, hO⟩ := hs
    rw [ho]
    refine ⟨_, rfl, mk2_eq hd hid, rfl, ⟨le_refl _, ?_, ?_, ?_, ?_, ?_⟩⟩
    · simp only [Int.toNat_natCast]
      rw [← ht]
      exact (approx_tensor hB' (hO.approx.mono (by have := hO.order; omega))).mono (le_refl _) (step_err h0 h1)
    · simp only; rw [← ht]; exact inDom_tensor hB.inDom hO.in01
    · intro q hq k hk
      simp only [tensorProduct, List.mem_flatMap, List.mem_map] at hq
      obtain ⟨b, hb, o, ho, rfl⟩ := hq
      simp only [Topo.dim, ht] at hk
      simp only [setV, Nat.add_sub_cancel]
      rw [if_neg (by omega), if_neg (by omega)]
    · intro hn q hq
      simp only [tensorProduct, List.mem_flatMap, List.mem_map] at hq
      obtain ⟨b, hb, o, ho, rfl⟩ := hq
      exact mul_nonneg (hB.nonneg hn b hb) (hO.pos o ho).le
    · intro hn; exact posW_tensor (hB.pos hn) hO.pos
  · have hbf : id.testBit d = false := by simpa using hb
    simp only [hbf, Bool.false_eq_true, if_false] at hs ⊢
    have hz : ∀ (r : Bool) (O : List (QPoint K)), ∀ q ∈ conicalProduct (d + 1) r B.pts O, ∀ k, t.dim + 1 ≤ k →
        q.position k = 0 := by
      intro r O q hq k hk
      simp only [conicalProduct, List.mem_flatMap, List.mem_map] at hq
      obtain ⟨b, hb, o, ho, rfl⟩ := hq
      rw [ht] at hk
      simp only [setV, Nat.add_sub_cancel]
      rw [if_neg (by omega), if_neg (by omega)]
    by_cases hn : qt ≠ .GaussJacobi_n_0
    · rw [if_pos hn] at hs ⊢
      obtain ⟨o, ho, hO⟩ := hs
      rw [ho]
      refine ⟨_, rfl, mk2_eq hd hid, rfl, ⟨le_refl _, ?_, ?_, ?_, ?_, ?_⟩⟩
      · simp only [Int.toNat_natCast]
        rw [← ht]
        exact (approx_conical hB' (hO.approx.mono (by have := hO.order; omega))).mono (le_refl _) (step_err h0 h1)
      · simp only; rw [← ht]; exact inDom_conical hB.inDom hO.in01
      · exact hz _ _
      · intro hn; exact nonnegW_conical (hB.nonneg hn) (fun q hq => (hO.pos q hq).le) hO.in01
      · intro hn; exact posW_conical (hB.pos hn) hO.pos fun _ => hO.below hn.2
    · rw [if_neg hn] at hs ⊢
      obtain ⟨o, ho, hO⟩ := hs
      rw [ho]
      refine ⟨_, rfl, mk2_eq hd hid, rfl, ⟨le_refl _, ?_, ?_, ?_, ?_, ?_⟩⟩
      · simp only [Int.toNat_natCast]
        have hA : Approx1 t.dim p 1 δ o.pts := by rw [ht]; exact hO.approx.mono (by have := hO.order; omega)
        rw [← ht]
        exact (approx_conical_weighted hB' hA).mono (le_refl _) (step_err h0 h1)
      · simp only; rw [← ht]; exact inDom_conical hB.inDom hO.in01
      · exact hz _ _
      · intro hn; exact nonnegW_conical (hB.nonneg hn) (fun q hq => (hO.pos q hq).le) hO.in01
      · intro hn; exact posW_conical (hB.pos hn) hO.pos fun h => by cases h

end Verif.Quad
