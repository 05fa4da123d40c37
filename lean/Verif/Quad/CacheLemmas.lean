import Verif.Quad.Cache
import Verif.Quad.Rules

/-! Lemmas about the quadrature rule caches: the computations with caches refine those without. -/

namespace Verif.Quad

open Verif.Typ

variable {K : Type} [Field K]

/-! ### Outcomes that can not be told apart -/

/-- two outcomes that agree up to a relation between the values -/
def Res.Rel {α β : Type} (R : α → β → Prop) : Res α → Res β → Prop
  | .ok a, .ok b => R a b
  | .throw, .throw => True
  | .ub, .ub => True
  | _, _ => False

/-- two rules with the same points, the same order and equal types (`==`) -/
def SameRule (a b : Rule K) : Prop := a.pts = b.pts ∧ a.order = b.order ∧ eq a.type b.type = true

theorem Res.Rel.eq_iff {α : Type} {a b : Res α} : Res.Rel (· = ·) a b ↔ a = b := by
  cases a <;> cases b <;> simp [Res.Rel]

theorem eq_refl' (t : GeometryType) : eq t t = true := by simp [eq]

theorem eq_of_half {d a b : Nat} (h : a / 2 = b / 2) : eq ⟨d, false, a⟩ ⟨d, false, b⟩ = true := by
  simp [eq, shr_one, h]

theorem SameRule.refl (a : Rule K) : SameRule a a := ⟨rfl, rfl, eq_refl' _⟩

theorem Same.refl (a : Res (Rule K)) : Res.Rel SameRule a a := by
  cases a <;> simp [Res.Rel, SameRule.refl]

/-! ### Types with the same local index get the same rule -/

/-- a type that may be requested from `QuadratureRules<ctype,d>`: valid regular types, and the none type -/
def Wf (d : Nat) (t : GeometryType) : Prop :=
  d ≤ 30 ∧ ((∃ id, id < 2 ^ d ∧ t = ⟨d, false, id⟩) ∨ t = ⟨d, true, 0⟩)

theorem or_one_congr {a b : Nat} (h : a / 2 = b / 2) : (a ||| 1) = (b ||| 1) := by
  apply Nat.eq_of_testBit_eq
  intro i
  cases i with
  | zero => simp
  | succ i =>
    have ha := Nat.testBit_div_two a i
    have hb := Nat.testBit_div_two b i
    simp only [Nat.testBit_or]
    rw [← ha, ← hb, h]

theorem isSimplex_congr {d a b : Nat} (h : a / 2 = b / 2) :
    isSimplex ⟨d, false, a⟩ = isSimplex ⟨d, false, b⟩ := by
  simp only [isSimplex]; rw [or_one_congr h]

theorem isPrism_congr {d a b : Nat} (h : a / 2 = b / 2) :
    isPrism ⟨d, false, a⟩ = isPrism ⟨d, false, b⟩ := by
  simp only [isPrism]; rw [or_one_congr h]

theorem testBit_congr {a b k : Nat} (h : a / 2 = b / 2) : a.testBit (k + 1) = b.testBit (k + 1) := by
  have ha := Nat.testBit_div_two a k
  have hb := Nat.testBit_div_two b k
  rw [← ha, ← hb, h]

theorem mod_half_congr {a b k : Nat} (h : a / 2 = b / 2) : a % 2 ^ (k + 1) / 2 = b % 2 ^ (k + 1) / 2 := by
  rw [pow_succ', Nat.mod_mul_right_div_self, Nat.mod_mul_right_div_self, h]

theorem maxOrder_congr (qt : QType) : ∀ (d a b : Nat), d ≤ 30 → a < 2 ^ d → b < 2 ^ d → a / 2 = b / 2 →
    maxOrder d ⟨d, false, a⟩ qt = maxOrder d ⟨d, false, b⟩ qt
  | 0, a, b, _, _, _, _ => rfl
  | 1, a, b, _, _, _, _ => rfl
  | d + 2, a, b, hd, ha, hb, h => by
    have ih := maxOrder_congr qt (d + 1) (a % 2 ^ (d + 1)) (b % 2 ^ (d + 1)) (by omega)
      (Nat.mod_lt _ (Nat.two_pow_pos _)) (Nat.mod_lt _ (Nat.two_pow_pos _)) (mod_half_congr h)
    unfold maxOrder
    simp only
    rw [baseTypeOf_eq (by omega) ha, baseTypeOf_eq (by omega) hb, ih, isSimplex_congr h, isPrism_congr h]
    unfold tensorMaxOrder
    simp only [show d + 2 - 1 = d + 1 from rfl, testBit_congr h]

theorem bind_rel {α β α' β' : Type} {R : α → α' → Prop} {S : β → β' → Prop} {x : Res α} {y : Res α'} {f : α → Res β}
    {g : α' → Res β'} (h : Res.Rel R x y) (hf : ∀ a b, R a b → Res.Rel S (f a) (g b)) :
    Res.Rel S (Res.bind x f) (Res.bind y g) := by
  cases x <;> cases y <;> simp only [Res.Rel] at h <;> simp only [Res.bind, Res.Rel]
  exact hf _ _ h

theorem ruleWith_regular {d id : Nat} {p : Int} {mo : Res Nat} {f : Res (Rule K)} (hd : d ≤ 30) (hid : id < 2 ^ d) :
    ruleWith d ⟨d, false, id⟩ p mo f = if d = 0 then f else
      match mo with
      | .ok m => if p < 0 ∨ ((m + 1 : Nat) : Int) ≤ p then .ub else f
      | .throw => .throw
      | .ub => .ub := by
  have hs : localSize d = some (2 ^ d - 2 ^ d / 2 + 1) := by
    unfold localSize; rw [regularSize_eq hd]; rfl
  have hi : localIndex ⟨d, false, id⟩ = some (id / 2) := by simp [localIndex, shr_one]
  have hlt := half_lt_pow hid
  unfold ruleWith
  rw [hs, hi]
  simp only [ne_eq, not_true_eq_false, if_false]
  rw [if_neg (by omega)]
  rfl

theorem rule_succ (env : Env K) (d : Nat) (t : GeometryType) (p : Int) (qt : QType) : rule env (d + 1) t p qt =
    ruleWith (d + 1) t p (maxOrder (d + 1) t qt)
      (factory env (d + 1) t p qt (rule env d (baseTypeOf (d + 1) t.id) p qt)) := rfl

theorem tensorRule_congr (env : Env K) {d a b : Nat} (hd : d + 2 ≤ 30) (ha : a < 2 ^ (d + 2)) (hb : b < 2 ^ (d + 2))
    (h : a / 2 = b / 2) (p : Int) (qt : QType) {x y : Res (Rule K)} (hxy : Res.Rel SameRule x y) :
    Res.Rel SameRule (tensorRule env (d + 2) a p qt x) (tensorRule env (d + 2) b p qt y) := by
  have he : eq (mk2 a (d + 2)) (mk2 b (d + 2)) = true := by
    rw [mk2_eq hd ha, mk2_eq hd hb]; exact eq_of_half h
  unfold tensorRule
  refine bind_rel hxy fun B B' hB => ?_
  simp only [show d + 2 - 1 = d + 1 from rfl, testBit_congr h, hB.1]
  split
  · refine bind_rel (R := (· = ·)) (Res.Rel.eq_iff.2 rfl) fun O O' hO => ?_
    subst hO
    exact ⟨rfl, rfl, he⟩
  · split
    · refine bind_rel (R := (· = ·)) (Res.Rel.eq_iff.2 rfl) fun O O' hO => ?_
      subst hO
      exact ⟨rfl, rfl, he⟩
    · refine bind_rel (R := (· = ·)) (Res.Rel.eq_iff.2 rfl) fun O O' hO => ?_
      subst hO
      exact ⟨rfl, rfl, he⟩

theorem rule_congr (env : Env K) (p : Int) (qt : QType) : ∀ (d a b : Nat), d ≤ 30 → a < 2 ^ d → b < 2 ^ d →
    a / 2 = b / 2 → Res.Rel SameRule (rule env d ⟨d, false, a⟩ p qt) (rule env d ⟨d, false, b⟩ p qt)
  | 0, a, b, hd, ha, hb, h => by
    rw [rule, rule, ruleWith_regular hd ha, ruleWith_regular hd hb, if_pos rfl, if_pos rfl]
    exact Same.refl _
  | 1, a, b, hd, ha, hb, h => by
    rw [rule_succ env 0 ⟨1, false, a⟩, rule_succ env 0 ⟨1, false, b⟩, ruleWith_regular hd ha, ruleWith_regular hd hb,
      maxOrder_congr qt 1 a b hd ha hb h]
    exact Same.refl _
  | d + 2, a, b, hd, ha, hb, h => by
    have ih := rule_congr env p qt (d + 1) (a % 2 ^ (d + 1)) (b % 2 ^ (d + 1)) (by omega)
      (Nat.mod_lt _ (Nat.two_pow_pos _)) (Nat.mod_lt _ (Nat.two_pow_pos _)) (mod_half_congr h)
    have ht := tensorRule_congr env hd ha hb h p qt ih
    have hf : Res.Rel SameRule
        (factory env (d + 2) ⟨d + 2, false, a⟩ p qt (rule env (d + 1) ⟨d + 1, false, a % 2 ^ (d + 1)⟩ p qt))
        (factory env (d + 2) ⟨d + 2, false, b⟩ p qt (rule env (d + 1) ⟨d + 1, false, b % 2 ^ (d + 1)⟩ p qt)) := by
      match d, ht with
      | 0, ht =>
        simp only [factory]
        rw [isSimplex_congr h]
        split
        · exact Same.refl _
        · exact ht
      | 1, ht =>
        simp only [factory]
        rw [isSimplex_congr h, isPrism_congr h]
        split
        · exact Same.refl _
        · split
          · exact Same.refl _
          · exact ht
      | d + 2, ht => exact ht
    rw [rule_succ env (d + 1) ⟨d + 2, false, a⟩, rule_succ env (d + 1) ⟨d + 2, false, b⟩, ruleWith_regular hd ha,
      ruleWith_regular hd hb, maxOrder_congr qt (d + 2) a b hd ha hb h,
      baseTypeOf_eq (by omega) ha, baseTypeOf_eq (by omega) hb, if_neg (by omega), if_neg (by omega)]
    cases maxOrder (d + 2) ⟨d + 2, false, b⟩ qt with
    | ok m =>
      simp only
      split
      · trivial
      · exact hf
    | throw => trivial
    | ub => trivial

theorem localIndex_none {d : Nat} (hd : d ≤ 30) : localIndex ⟨d, true, 0⟩ = some (2 ^ d - 2 ^ d / 2) := by
  simp [localIndex, regularSize_eq hd]

theorem localIndex_regular (d id : Nat) : localIndex ⟨d, false, id⟩ = some (id / 2) := by simp [localIndex, shr_one]

theorem wf_congr {d : Nat} {t t' : GeometryType} (h : Wf d t) (h' : Wf d t') (hi : localIndex t = localIndex t') :
    t = t' ∨ ∃ a b, a < 2 ^ d ∧ b < 2 ^ d ∧ t = ⟨d, false, a⟩ ∧ t' = ⟨d, false, b⟩ ∧ a / 2 = b / 2 := by
  obtain ⟨hd, h⟩ := h
  obtain ⟨-, h'⟩ := h'
  rcases h with ⟨a, ha, rfl⟩ | rfl <;> rcases h' with ⟨b, hb, rfl⟩ | rfl
  · right
    rw [localIndex_regular, localIndex_regular, Option.some.injEq] at hi
    exact ⟨a, b, ha, hb, rfl, rfl, hi⟩
  · rw [localIndex_none hd, localIndex_regular, Option.some.injEq] at hi
    have := half_lt_pow ha
    omega
  · rw [localIndex_none hd, localIndex_regular, Option.some.injEq] at hi
    have := half_lt_pow hb
    omega
  · left; rfl

theorem rule_wf_congr (env : Env K) {d : Nat} {t t' : GeometryType} (h : Wf d t) (h' : Wf d t')
    (hi : localIndex t = localIndex t') (p : Int) (qt : QType) :
    Res.Rel SameRule (rule env d t p qt) (rule env d t' p qt) := by
  rcases wf_congr h h' hi with rfl | ⟨a, b, ha, hb, rfl, rfl, hab⟩
  · exact Same.refl _
  · exact rule_congr env p qt d a b h.1 ha hb hab

theorem maxOrder_wf_congr {d : Nat} {t t' : GeometryType} (h : Wf d t) (h' : Wf d t')
    (hi : localIndex t = localIndex t') (qt : QType) : maxOrder d t qt = maxOrder d t' qt := by
  rcases wf_congr h h' hi with rfl | ⟨a, b, ha, hb, rfl, rfl, hab⟩
  · rfl
  · exact maxOrder_congr qt d a b h.1 ha hb hab

theorem rule_zero_order (env : Env K) (t : GeometryType) (p p' : Int) (qt : QType) :
    rule env 0 t p qt = rule env 0 t p' qt := by
  simp only [rule, factory, ruleWith]
  split
  · rfl
  · split <;> rfl

/-! ### Invariant of the store -/

/-- order in which flags may be taken: a function guarded by a flag requests only flags of lower rank -/
def rank (d : Nat) (qt : QType) : Nat := 2 * d + if qt = .GaussJacobi_n_0 then 1 else 0

/-- the number of entries of `quadratureOrders`, quadraturerules.hh:293 -/
def numRules (d : Nat) (t : GeometryType) (qt : QType) : Res Nat :=
  if d = 0 then .ok 1 else (maxOrder d t qt).bind fun m => .ok (m + 1)

/-- every finished flag holds what an uncached computation yields, running flags have rank at least `r` -/
structure Inv (env : Env K) (r : Nat) (s : Store K) : Prop where
  types : ∀ d qt, s.types d qt = .idle ∨ ∃ n, s.types d qt = .done n ∧ localSize d = some n
  orders : ∀ d qt i, s.orders d qt i = .idle ∨
    ∃ n t, s.orders d qt i = .done n ∧ Wf d t ∧ localIndex t = some i ∧ numRules d t qt = .ok n
  rules : ∀ d qt i k, s.rules d qt i k = .idle ∨ (s.rules d qt i k = .running ∧ r ≤ rank d qt) ∨
    ∃ R t, s.rules d qt i k = .done R ∧ Wf d t ∧ localIndex t = some i ∧ rule env d t k qt = .ok R

/-- a later store: finished flags keep their value, the same functions are running -/
structure Later (s s' : Store K) : Prop where
  types : ∀ d qt n, s.types d qt = .done n → s'.types d qt = .done n
  orders : ∀ d qt i n, s.orders d qt i = .done n → s'.orders d qt i = .done n
  rules : ∀ d qt i k R, s.rules d qt i k = .done R → s'.rules d qt i k = .done R
  running : ∀ d qt i k, s'.rules d qt i k = .running ↔ s.rules d qt i k = .running

theorem Later.refl (s : Store K) : Later s s := ⟨fun _ _ _ h => h, fun _ _ _ _ h => h, fun _ _ _ _ _ h => h, fun _ _ _ _ => Iff.rfl⟩

theorem Later.trans {s s' s'' : Store K} (h : Later s s') (h' : Later s' s'') : Later s s'' :=
  ⟨fun d qt n e => h'.types d qt n (h.types d qt n e), fun d qt i n e => h'.orders d qt i n (h.orders d qt i n e),
   fun d qt i k R e => h'.rules d qt i k R (h.rules d qt i k R e),
   fun d qt i k => (h'.running d qt i k).trans (h.running d qt i k)⟩

/-- the computation `x` with caches refines the computation `y` without, in stores where only flags of rank
`≥ r` are running -/
def Refines {α β : Type} (env : Env K) (r : Nat) (R : α → β → Prop) (x : CM K α) (y : Res β) : Prop :=
  ∀ s, Inv env r s → Res.Rel R (x s).1 y ∧ ((x s).1 ≠ .ub → Inv env r (x s).2 ∧ Later s (x s).2)

theorem refines_lift {α β : Type} {env : Env K} {r : Nat} {R : α → β → Prop} {x : Res α} {y : Res β} (h : Res.Rel R x y) :
    Refines env r R (CM.lift x) y := fun s hs => ⟨h, fun _ => ⟨hs, Later.refl s⟩⟩

theorem refines_bind {α β α' β' : Type} {env : Env K} {r : Nat} {R : α → α' → Prop} {S : β → β' → Prop} {x : CM K α}
    {y : Res α'} {f : α → CM K β} {g : α' → Res β'} (h : Refines env r R x y)
    (hf : ∀ a b, R a b → Refines env r S (f a) (g b)) : Refines env r S (x.bind f) (y.bind g) := by
  intro s hs
  obtain ⟨h1, h2⟩ := h s hs
  unfold CM.bind
  rcases hx : x s with ⟨a, s'⟩
  rw [hx] at h1 h2
  cases a with
  | ok a =>
    cases y with
    | ok b =>
      obtain ⟨i1, l1⟩ := h2 (by simp)
      obtain ⟨h3, h4⟩ := hf a b h1 s' i1
      exact ⟨h3, fun hne => ⟨(h4 hne).1, l1.trans (h4 hne).2⟩⟩
    | throw => cases h1
    | ub => cases h1
  | throw =>
    cases y with
    | ok b => cases h1
    | throw => exact ⟨trivial, fun _ => h2 (by simp)⟩
    | ub => cases h1
  | ub =>
    cases y with
    | ok b => cases h1
    | throw => cases h1
    | ub => exact ⟨trivial, fun hne => absurd rfl hne⟩

theorem Refines.mono {α β : Type} {env : Env K} {r : Nat} {R S : α → β → Prop} {x : CM K α} {y : Res β}
    (h : Refines env r R x y) (hRS : ∀ a b, R a b → S a b) : Refines env r S x y := by
  intro s hs
  obtain ⟨h1, h2⟩ := h s hs
  refine ⟨?_, h2⟩
  cases hx : (x s).1 <;> cases y <;> rw [hx] at h1 <;> first | exact hRS _ _ h1 | exact h1

/-! ### The three levels -/

theorem refines_types (env : Env K) (r d : Nat) (qt : QType) (hd : d ≤ 30) :
    Refines env r (fun a b => a = b) (callOnce (·.types d qt) (Store.setTypes d qt) (CM.lift (.ofOption (localSize d))))
      (.ofOption (localSize d)) := by
  obtain ⟨n, hn⟩ : ∃ n, localSize d = some n := ⟨_, by unfold localSize; rw [regularSize_eq hd]; rfl⟩
  intro s hs
  unfold callOnce
  beta_reduce
  rcases hs.types d qt with h | ⟨m, h, hm⟩
  · rw [h, hn]
    have hss : ∀ f g, Store.setTypes d qt f (Store.setTypes d qt g s) = Store.setTypes d qt f s := by
      intro f g
      simp only [Store.setTypes]
      congr 1
      funext d' qt'
      split <;> rfl
    simp only [CM.lift, Res.ofOption, hss]
    refine ⟨rfl, fun _ => ⟨⟨?_, hs.orders, hs.rules⟩, ⟨?_, fun _ _ _ _ h => h, fun _ _ _ _ _ h => h, fun _ _ _ _ => Iff.rfl⟩⟩⟩
    · intro d' qt'
      simp only [Store.setTypes]
      by_cases hc : d' = d ∧ qt' = qt
      · obtain ⟨rfl, rfl⟩ := hc
        right
        exact ⟨n, by simp, hn⟩
      · simp only [if_neg hc]
        exact hs.types d' qt'
    · intro d' qt' m hm
      simp only [Store.setTypes]
      have hc : ¬ (d' = d ∧ qt' = qt) := by rintro ⟨rfl, rfl⟩; rw [h] at hm; cases hm
      simp only [if_neg hc]
      exact hm
  · rw [h, hm]
    exact ⟨rfl, fun _ => ⟨hs, Later.refl s⟩⟩

theorem refines_orders (env : Env K) (r d : Nat) (qt : QType) (t : GeometryType) (ht : Wf d t) (i : Nat)
    (hi : localIndex t = some i) :
    Refines env r (fun a b => a = b ∧ numRules d t qt = .ok a)
      (callOnce (·.orders d qt i) (Store.setOrders d qt i) (CM.lift (numRules d t qt)))
      (numRules d t qt) := by
  intro s hs
  unfold callOnce
  beta_reduce
  rcases hs.orders d qt i with h | ⟨m, t', h, ht', hi', hm⟩
  · rw [h]
    have hset : ∀ f, (∀ d' qt' i' m, s.orders d' qt' i' = .done m →
        (Store.setOrders d qt i f s).orders d' qt' i' = .done m) := by
      intro f d' qt' i' m hm
      simp only [Store.setOrders]
      have hc : ¬ (d' = d ∧ qt' = qt ∧ i' = i) := by rintro ⟨rfl, rfl, rfl⟩; rw [h] at hm; cases hm
      rw [if_neg hc]
      exact hm
    have hss : ∀ f g, Store.setOrders d qt i f (Store.setOrders d qt i g s) = Store.setOrders d qt i f s := by
      intro f g
      simp only [Store.setOrders]
      congr 1
      funext d' qt' i'
      split <;> rfl
    simp only [CM.lift]
    cases hr : numRules d t qt with
    | ok n =>
      simp only [hss]
      refine ⟨⟨rfl, rfl⟩, fun _ => ⟨⟨hs.types, ?_, hs.rules⟩, ⟨fun _ _ _ h => h, hset _, fun _ _ _ _ _ h => h, fun _ _ _ _ => Iff.rfl⟩⟩⟩
      intro d' qt' i'
      simp only [Store.setOrders]
      by_cases hc : d' = d ∧ qt' = qt ∧ i' = i
      · obtain ⟨rfl, rfl, rfl⟩ := hc
        right
        exact ⟨n, t, by simp, ht, hi, hr⟩
      · simp only [if_neg hc]
        exact hs.orders d' qt' i'
    | throw =>
      simp only [hss]
      refine ⟨trivial, fun _ => ⟨⟨hs.types, ?_, hs.rules⟩, ⟨fun _ _ _ h => h, hset _, fun _ _ _ _ _ h => h, fun _ _ _ _ => Iff.rfl⟩⟩⟩
      intro d' qt' i'
      simp only [Store.setOrders]
      by_cases hc : d' = d ∧ qt' = qt ∧ i' = i
      · left; simp [hc]
      · simp only [if_neg hc]
        exact hs.orders d' qt' i'
    | ub => exact ⟨trivial, fun hne => absurd rfl hne⟩
  · rw [h]
    have : numRules d t qt = .ok m := by
      rw [← hm]
      unfold numRules
      rw [maxOrder_wf_congr ht ht' (by rw [hi, hi'])]
    rw [this]
    exact ⟨⟨rfl, rfl⟩, fun _ => ⟨hs, Later.refl s⟩⟩

theorem refines_rules (env : Env K) (r d : Nat) (qt : QType) (t : GeometryType) (ht : Wf d t) (i k : Nat)
    (hi : localIndex t = some i) (hr : rank d qt < r) (x : CM K (Rule K)) (y : Res (Rule K))
    (hy : rule env d t k qt = y) (hx : Refines env (rank d qt) (fun a b => a = b) x y) :
    Refines env r SameRule (callOnce (·.rules d qt i k) (Store.setRules d qt i k) x) y := by
  intro s hs
  unfold callOnce
  beta_reduce
  rcases hs.rules d qt i k with h | ⟨h, hle⟩ | ⟨R, t', h, ht', hi', hR⟩
  · rw [h]
    have i1 : Inv env (rank d qt) (Store.setRules d qt i k .running s) := by
      refine ⟨hs.types, hs.orders, ?_⟩
      intro d' qt' i' k'
      simp only [Store.setRules]
      by_cases hc : d' = d ∧ qt' = qt ∧ i' = i ∧ k' = k
      · right; left
        refine ⟨if_pos hc, ?_⟩
        rw [hc.1, hc.2.1]
      · simp only [if_neg hc]
        rcases hs.rules d' qt' i' k' with h | ⟨h, hle⟩ | h
        · exact Or.inl h
        · exact Or.inr (Or.inl ⟨h, by omega⟩)
        · exact Or.inr (Or.inr h)
    obtain ⟨h1, h2⟩ := hx _ i1
    rcases hxs : x (Store.setRules d qt i k .running s) with ⟨a, s'⟩
    rw [hxs] at h1 h2
    simp only at h1 h2
    -- writing the flag at the end keeps the invariant
    have key : ∀ f : Flag (Rule K), (f = .idle ∨ ∃ R, f = .done R ∧ rule env d t k qt = .ok R) → Inv env (rank d qt) s' →
        Later (Store.setRules d qt i k .running s) s' →
        Inv env r (Store.setRules d qt i k f s') ∧ Later s (Store.setRules d qt i k f s') := by
      intro f hf i2 l2
      refine ⟨⟨i2.types, i2.orders, ?_⟩, ⟨l2.types, l2.orders, ?_, ?_⟩⟩
      · intro d' qt' i' k'
        simp only [Store.setRules]
        by_cases hc : d' = d ∧ qt' = qt ∧ i' = i ∧ k' = k
        · simp only [if_pos hc]
          obtain ⟨rfl, rfl, rfl, rfl⟩ := hc
          rcases hf with rfl | ⟨R, rfl, hR⟩
          · exact Or.inl rfl
          · exact Or.inr (Or.inr ⟨R, t, rfl, ht, hi, hR⟩)
        · simp only [if_neg hc]
          rcases i2.rules d' qt' i' k' with h | ⟨h, -⟩ | h
          · exact Or.inl h
          · right; left
            refine ⟨h, ?_⟩
            have := (l2.running d' qt' i' k').1 h
            simp only [Store.setRules, if_neg hc] at this
            rcases hs.rules d' qt' i' k' with h' | ⟨-, h'⟩ | ⟨R, _, h', -⟩
            · rw [h'] at this; cases this
            · exact h'
            · rw [h'] at this; cases this
          · exact Or.inr (Or.inr h)
      · intro d' qt' i' k' R hR
        simp only [Store.setRules]
        have hc : ¬ (d' = d ∧ qt' = qt ∧ i' = i ∧ k' = k) := by rintro ⟨rfl, rfl, rfl, rfl⟩; rw [h] at hR; cases hR
        simp only [if_neg hc]
        apply l2.rules
        simp only [Store.setRules, if_neg hc]
        exact hR
      · intro d' qt' i' k'
        simp only [Store.setRules]
        by_cases hc : d' = d ∧ qt' = qt ∧ i' = i ∧ k' = k
        · simp only [if_pos hc]
          obtain ⟨rfl, rfl, rfl, rfl⟩ := hc
          rw [h]
          rcases hf with rfl | ⟨R, rfl, -⟩ <;> simp
        · simp only [if_neg hc]
          rw [l2.running]
          simp only [Store.setRules, if_neg hc]
    cases a with
    | ok a =>
      cases y with
      | ok b =>
        have hab : a = b := h1
        obtain ⟨i2, l2⟩ := h2 (by simp)
        exact ⟨hab ▸ SameRule.refl _, fun _ => key _ (Or.inr ⟨a, rfl, by rw [hy, hab]⟩) i2 l2⟩
      | throw => cases h1
      | ub => cases h1
    | throw =>
      cases y with
      | ok b => cases h1
      | throw =>
        obtain ⟨i2, l2⟩ := h2 (by simp)
        exact ⟨trivial, fun _ => key _ (Or.inl rfl) i2 l2⟩
      | ub => cases h1
    | ub =>
      cases y with
      | ok b => cases h1
      | throw => cases h1
      | ub => exact ⟨trivial, fun hne => absurd rfl hne⟩
  · omega
  · rw [h]
    refine ⟨?_, fun _ => ⟨hs, Later.refl s⟩⟩
    have := rule_wf_congr env ht' ht (by rw [hi, hi']) k qt
    rw [hR, hy] at this
    exact this

theorem refines_ruleWith (env : Env K) (r d : Nat) (qt : QType) (t : GeometryType) (p : Int) (ht : Wf d t)
    (hr : rank d qt < r) (x : CM K (Rule K)) (y : Res (Rule K))
    (hy : rule env d t p qt = ruleWith d t p (maxOrder d t qt) y)
    (hx : Refines env (rank d qt) (fun a b => a = b) x y) :
    Refines env r SameRule (cachedRuleWith d t p qt (maxOrder d t qt) x) (rule env d t p qt) := by
  have hd := ht.1
  have htd : t.dim = d := by rcases ht.2 with ⟨id, _, rfl⟩ | rfl <;> rfl
  have hs : localSize d = some (2 ^ d - 2 ^ d / 2 + 1) := by
    unfold localSize; rw [regularSize_eq hd]; rfl
  obtain ⟨i, hi, hlt⟩ : ∃ i, localIndex t = some i ∧ i < 2 ^ d - 2 ^ d / 2 + 1 := by
    rcases ht.2 with ⟨id, hid, rfl⟩ | rfl
    · have := half_lt_pow hid
      exact ⟨_, localIndex_regular d id, by omega⟩
    · exact ⟨_, localIndex_none hd, by omega⟩
  have e : ruleWith d t p (maxOrder d t qt) y = (Res.ofOption (localSize d)).bind fun size =>
      (Res.ofOption (localIndex t)).bind fun index => if size ≤ index then .ub else
      (numRules d t qt).bind fun n => if (if d = 0 then (0 : Int) else p) < 0 ∨ (n : Int) ≤ (if d = 0 then (0 : Int) else p) then .ub
        else y := by
    unfold ruleWith
    rw [hs, hi, if_neg (by simp [htd])]
    simp only [Res.ofOption, Res.bind]
    have hlt' : ¬ (2 ^ d - 2 ^ d / 2 + 1 ≤ i) := by omega
    rw [if_neg hlt', if_neg hlt']
    unfold numRules
    by_cases h0 : d = 0
    · simp [h0]
    · simp only [if_neg h0]
      cases maxOrder d t qt <;> simp [Res.bind]
  rw [hy, e]
  unfold cachedRuleWith
  rw [if_neg (by simp [htd])]
  refine refines_bind (refines_types env r d qt hd) fun n n' hn => ?_
  subst hn
  refine refines_bind (R := fun a b => a = b ∧ localIndex t = some a) (refines_lift (by rw [hi]; exact ⟨rfl, rfl⟩)) fun j j' hii => ?_
  obtain ⟨rfl, hj⟩ := hii
  obtain rfl : i = j := by rw [hi] at hj; exact Option.some.inj hj
  by_cases hni : n ≤ i
  · rw [if_pos hni, if_pos hni]
    exact refines_lift trivial
  · rw [if_neg hni, if_neg hni]
    refine refines_bind (refines_orders env r d qt t ht i hi) fun m m' hm => ?_
    obtain ⟨rfl, hm⟩ := hm
    have hp : 0 ≤ (if d = 0 then (0 : Int) else p) →
        rule env d t (((if d = 0 then (0 : Int) else p).toNat : Nat) : Int) qt = rule env d t p qt := by
      intro hk0
      by_cases h0 : d = 0
      · subst h0; exact rule_zero_order env t _ _ qt
      · rw [if_neg h0] at hk0 ⊢
        rw [Int.toNat_of_nonneg hk0]
    generalize (if d = 0 then (0 : Int) else p) = k at *
    simp only
    by_cases hk : k < 0 ∨ (m : Int) ≤ k
    · rw [if_pos hk, if_pos hk]
      exact refines_lift trivial
    · rw [if_neg hk, if_neg hk]
      refine refines_rules env r d qt t ht i _ hi hr x y ?_ hx
      rw [hp (by omega), hy, e, hs, hi, hm]
      simp only [Res.ofOption, Res.bind]
      have hlt' : ¬ (2 ^ d - 2 ^ d / 2 + 1 ≤ i) := by omega
      rw [if_neg hlt', if_neg hk]

/-! ### The factories -/

theorem Refines.cast {α : Type} {env : Env K} {r : Nat} {x : CM K α} {y y' : Res α} (h : Refines env r (fun a b => a = b) x y)
    (e : y = y') : Refines env r (fun a b => a = b) x y' := e ▸ h

theorem refines_eq_lift {α : Type} (env : Env K) (r : Nat) (y : Res α) : Refines env r (fun a b => a = b) (CM.lift y) y :=
  refines_lift (Res.Rel.eq_iff.2 rfl)

theorem rule_one (env : Env K) (t : GeometryType) (p : Int) (qt : QType) : rule env 1 t p qt = rule1 env t p qt := rfl

theorem rule1Tab_eq (env : Env K) (t : GeometryType) (p : Int) (qt : QType) (h : qt ≠ .GaussJacobi_n_0) :
    rule1Tab t p qt = rule env 1 t p qt := by
  rw [rule_one]
  unfold rule1Tab rule1
  congr 1
  unfold factory1Tab factory1
  cases qt <;> simp_all [tableOf]

theorem wf_line : Wf 1 line := ⟨by omega, Or.inl ⟨0, by decide, by decide⟩⟩

theorem refines_rule1Tab (env : Env K) (r : Nat) (hr : 2 < r) (p : Int) (qt : QType) (hq : qt ≠ .GaussJacobi_n_0) :
    Refines env r SameRule (cachedRule1Tab line p qt) (rule1Tab line p qt) := by
  rw [rule1Tab_eq env _ _ _ hq]
  refine refines_ruleWith env r 1 qt line p wf_line (by simpa [rank, hq] using hr) _ (factory1Tab line p qt) ?_ (refines_eq_lift _ _ _)
  rw [← rule1Tab_eq env _ _ _ hq]
  rfl

theorem refines_exponent (env : Env K) (r : Nat) (hr : 2 < r) (degree alpha : Int) :
    Refines env r (fun a b => a = b) (cachedDecideRuleExponent env degree alpha) (decideRuleExponent env degree alpha) := by
  unfold cachedDecideRuleExponent decideRuleExponent
  split
  · exact refines_bind (refines_rule1Tab env r hr _ _ (by simp)) fun a b h => refines_lift h.1
  · split
    · exact refines_bind (refines_rule1Tab env r hr _ _ (by simp)) fun a b h => refines_lift (by rw [h.1]; exact rfl)
    · split
      · exact refines_bind (refines_rule1Tab env r hr _ _ (by simp)) fun a b h => refines_lift (by rw [h.1]; exact rfl)
      · exact refines_eq_lift _ _ _

theorem refines_jacobiN (env : Env K) (r : Nat) (hr : 2 < r) (order alpha : Int) :
    Refines env r (fun a b => a = b) (cachedJacobiN env order alpha) (jacobiN env order alpha) := by
  have hd : Refines env r (fun a b => a = b) (cachedDecideRule env order alpha) (decideRule env order alpha) := by
    unfold cachedDecideRule decideRule
    split
    · exact refines_exponent env r hr order alpha
    · exact refines_eq_lift _ _ _
  unfold cachedJacobiN jacobiN
  split
  · exact refines_lift trivial
  · exact refines_bind hd fun a b h => refines_lift (by rw [h]; exact rfl)

theorem refines_factory1 (env : Env K) (t : GeometryType) (p : Int) (qt : QType) :
    Refines env (rank 1 qt) (fun a b => a = b) (cachedFactory1 env t p qt) (factory1 env t p qt) := by
  unfold cachedFactory1 factory1
  split
  · cases qt <;> first | exact refines_eq_lift _ _ _ | exact refines_jacobiN env _ (by simp [rank]) p 0
  · exact refines_lift trivial

theorem refines_rule1 (env : Env K) (r : Nat) (hr : 3 < r) (p : Int) (qt : QType) :
    Refines env r SameRule (cachedRule1 env line p qt) (rule1 env line p qt) :=
  refines_ruleWith env r 1 qt line p wf_line (by unfold rank; split <;> omega) _ (factory1 env line p qt) rfl
    (refines_factory1 env line p qt)

theorem refines_tensor (env : Env K) (r : Nat) (hr : 3 < r) (dim id : Nat) (order : Int) (qt : QType) (x : CM K (Rule K))
    (y : Res (Rule K)) (h : Refines env r SameRule x y) :
    Refines env r (fun a b => a = b) (cachedTensorRule env dim id order qt x) (tensorRule env dim id order qt y) := by
  unfold cachedTensorRule tensorRule
  refine refines_bind h fun B B' hB => ?_
  split
  · exact refines_bind (refines_rule1 env r hr _ _) fun a b h => refines_lift (by rw [h.1, hB.1]; exact rfl)
  · split
    · exact refines_bind (refines_rule1 env r hr _ _) fun a b h => refines_lift (by rw [h.1, hB.1]; exact rfl)
    · exact refines_bind (refines_jacobiN env r (by omega) _ _) fun a b h => refines_lift (by rw [h, hB.1]; exact rfl)

theorem wf_base {d : Nat} {t : GeometryType} (h : Wf (d + 1) t) : Wf d (baseTypeOf (d + 1) t.id) := by
  obtain ⟨hd, h⟩ := h
  refine ⟨by omega, Or.inl ?_⟩
  rcases h with ⟨id, hid, rfl⟩ | rfl
  · exact ⟨id % 2 ^ d, Nat.mod_lt _ (Nat.two_pow_pos _), baseTypeOf_eq (by omega) hid⟩
  · exact ⟨0 % 2 ^ d, Nat.mod_lt _ (Nat.two_pow_pos _), baseTypeOf_eq (by omega) (Nat.two_pow_pos _)⟩

theorem refines_rule (env : Env K) : ∀ (d : Nat) (r : Nat) (t : GeometryType) (p : Int) (qt : QType), Wf d t →
    rank d qt < r → Refines env r SameRule (cachedRule env d t p qt) (rule env d t p qt)
  | 0, r, t, p, qt, ht, hr => by
    refine refines_ruleWith env r 0 qt t p ht hr _ (factory env 0 t p qt .ub) rfl ?_
    simp only [cachedFactory, factory]
    split <;> exact refines_eq_lift _ _ _
  | 1, r, t, p, qt, ht, hr =>
    refines_ruleWith env r 1 qt t p ht hr _ (factory1 env t p qt) rfl (refines_factory1 env t p qt)
  | d + 2, r, t, p, qt, ht, hr => by
    have hb := refines_rule env (d + 1) (rank (d + 2) qt) (baseTypeOf (d + 2) t.id) p qt (wf_base ht)
      (by unfold rank; omega)
    have htr := refines_tensor env (rank (d + 2) qt) (by unfold rank; omega) (d + 2) t.id p qt _ _ hb
    refine refines_ruleWith env r (d + 2) qt t p ht hr _ (factory env (d + 2) t p qt (rule env (d + 1) (baseTypeOf (d + 2) t.id) p qt)) rfl ?_
    match d, htr with
    | 0, htr =>
      simp only [cachedFactory, factory]
      split
      · exact refines_eq_lift _ _ _
      · exact htr
    | 1, htr =>
      simp only [cachedFactory, factory]
      split
      · exact refines_eq_lift _ _ _
      · split
        · exact refines_eq_lift _ _ _
        · exact htr
    | d + 2, htr => exact htr

end Verif.Quad
