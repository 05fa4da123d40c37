import Verif.Quad.Threads
import Verif.Quad.CacheLemmas

/-! Lemmas about concurrent requests of quadrature rules. -/

namespace Verif.Quad

open Verif.Typ

variable {K : Type} [Field K]

/-! ### A thread that is not interrupted -/

theorem CM.bind_assoc {α β γ : Type} (x : CM K α) (f : α → CM K β) (g : β → CM K γ) :
    (x.bind f).bind g = x.bind fun a => (f a).bind g := by
  funext s
  simp only [CM.bind]
  rcases x s with ⟨a, s'⟩
  cases a <;> rfl

theorem CM.bind_pure {α : Type} (x : CM K α) : (x.bind fun a => CM.lift (.ok a)) = x := by
  funext s
  simp only [CM.bind, CM.lift]
  rcases x s with ⟨a, s'⟩
  cases a <;> rfl

theorem exec_bind {α β : Type} (p : Prog K α) (g : α → Prog K β) : (p.bind g).exec = CM.bind p.exec fun a => (g a).exec := by
  induction p with
  | ret r => cases r <;> rfl
  | once f init k _ ih =>
    rw [Prog.bind, Prog.exec, Prog.exec, CM.bind_assoc]
    congr 1
    funext v
    exact ih v g

theorem exec_ite {α : Type} {c : Prop} [Decidable c] (p q : Prog K α) : (if c then p else q).exec = if c then p.exec else q.exec := by
  split <;> rfl

theorem exec_ruleWith (dim : Nat) (t : GeometryType) (p : Int) (qt : QType) (mo : Res Nat) (x : Prog K (Rule K)) :
    (progRuleWith dim t p qt mo x).exec = cachedRuleWith dim t p qt mo x.exec := by
  unfold progRuleWith cachedRuleWith
  rw [exec_ite]
  split
  · rfl
  · rw [Prog.exec]
    change _ = CM.bind _ _
    congr 1
    funext size
    rw [exec_bind]
    change _ = CM.bind _ _
    congr 1
    funext index
    rw [exec_ite]
    split
    · rfl
    · rw [Prog.exec]
      change _ = CM.bind _ _
      congr 1
      funext n
      generalize (if dim = 0 then (0 : Int) else p) = k
      dsimp only
      rw [exec_ite]
      by_cases hk : k < 0 ∨ ((show Nat from n) : Int) ≤ k
      · rw [if_pos hk, if_pos hk]
        rfl
      · rw [if_neg hk, if_neg hk, Prog.exec]
        exact CM.bind_pure _

theorem exec_rule1Tab (t : GeometryType) (p : Int) (qt : QType) : (progRule1Tab (K := K) t p qt).exec = cachedRule1Tab t p qt :=
  exec_ruleWith ..

theorem exec_jacobiN (env : Env K) (o a : Int) : (progJacobiN env o a).exec = cachedJacobiN env o a := by
  have h1 : (progDecideRuleExponent env o a).exec = cachedDecideRuleExponent env o a := by
    unfold progDecideRuleExponent cachedDecideRuleExponent
    simp only [exec_ite, exec_bind, exec_rule1Tab]
    rfl
  have h2 : (progDecideRule env o a).exec = cachedDecideRule env o a := by
    unfold progDecideRule cachedDecideRule
    rw [exec_ite, h1]
    rfl
  unfold progJacobiN cachedJacobiN
  rw [exec_ite, exec_bind, h2]
  rfl

theorem exec_factory1 (env : Env K) (t : GeometryType) (p : Int) (qt : QType) :
    (progFactory1 env t p qt).exec = cachedFactory1 env t p qt := by
  unfold progFactory1 cachedFactory1
  rw [exec_ite]
  split
  · cases qt <;> first | rfl | exact exec_jacobiN ..
  · rfl

theorem exec_rule1 (env : Env K) (t : GeometryType) (p : Int) (qt : QType) : (progRule1 env t p qt).exec = cachedRule1 env t p qt := by
  unfold progRule1 cachedRule1
  rw [exec_ruleWith, exec_factory1]

theorem exec_tensorRule (env : Env K) (dim id : Nat) (o : Int) (qt : QType) (x : Prog K (Rule K)) :
    (progTensorRule env dim id o qt x).exec = cachedTensorRule env dim id o qt x.exec := by
  unfold progTensorRule cachedTensorRule
  rw [exec_bind]
  change _ = CM.bind _ _
  congr 1
  funext B
  rw [exec_ite, exec_ite, exec_bind, exec_bind, exec_bind, exec_rule1, exec_rule1, exec_jacobiN]
  rfl

theorem exec_factory (env : Env K) (dim : Nat) (t : GeometryType) (p : Int) (qt : QType) (x : Prog K (Rule K)) :
    (progFactory env dim t p qt x).exec = cachedFactory env dim t p qt x.exec := by
  match dim with
  | 0 => simp only [progFactory, cachedFactory, exec_ite]; rfl
  | 1 => exact exec_factory1 ..
  | 2 => simp only [progFactory, cachedFactory, exec_ite, exec_tensorRule]; rfl
  | 3 => simp only [progFactory, cachedFactory, exec_ite, exec_tensorRule]; rfl
  | d + 4 => exact exec_tensorRule ..

/-- the programs of this model, executed by one thread, are those of the sequential model -/
theorem exec_rule (env : Env K) : ∀ (d : Nat) (t : GeometryType) (p : Int) (qt : QType),
    (progRule env d t p qt).exec = cachedRule env d t p qt
  | 0, t, p, qt => by
    rw [progRule, cachedRule, exec_ruleWith, exec_factory]
    rfl
  | d + 1, t, p, qt => by
    rw [progRule, cachedRule, exec_ruleWith, exec_factory, exec_rule env d]

/-! ### The store -/

theorem get_put (s : Store K) (f : FlagId) (x : Flag (f.Val K)) : (s.put f x).get f = x := by
  cases f <;> simp [Store.get, Store.put, Store.setTypes, Store.setOrders, Store.setRules]

theorem get_put_ne (s : Store K) {f g : FlagId} (h : g ≠ f) (x : Flag (f.Val K)) : (s.put f x).get g = s.get g := by
  cases f <;> cases g <;> simp only [Store.get, Store.put, Store.setTypes, Store.setOrders, Store.setRules] <;>
    exact if_neg fun hc => h (by simp [hc])

/-! ### What a program may do -/

/-- values that an uncached computation yields for some request with this place -/
def GoodVal (env : Env K) : (f : FlagId) → f.Val K → Prop
  | .types d _, n => localSize d = some n
  | .orders d qt i, n => ∃ t, Wf d t ∧ localIndex t = some i ∧ numRules d t qt = .ok n
  | .rules d qt i k, R => ∃ t, Wf d t ∧ localIndex t = some i ∧ rule env d t k qt = .ok R

/-- order in which flags are taken -/
def FlagId.rank : FlagId → Nat
  | .types _ _ => 0
  | .orders _ _ _ => 0
  | .rules d qt _ _ => Verif.Quad.rank d qt + 1

/-- the program takes only flags of rank less than `r`, and if all values that it reads are good, then it ends like `y` -/
def PRef (env : Env K) {α : Type} : Prog K α → Nat → {β : Type} → (α → β → Prop) → Res β → Prop
  | .ret x => fun _ _ R y => Res.Rel R x y
  | .once f init k => fun r _ R y => f.rank < r ∧
      (∃ yi : Res Unit, PRef env init f.rank (fun v _ => GoodVal env f v) yi ∧ yi ≠ .ub ∧ (yi = .throw → y = .throw)) ∧
      ∀ v, GoodVal env f v → PRef env (k v) r R y

theorem pref_bind {env : Env K} {α β α' β' : Type} {r : Nat} {R : α → α' → Prop} {S : β → β' → Prop} {x : Prog K α} {y : Res α'}
    {f : α → Prog K β} {g : α' → Res β'} (h : PRef env x r R y) (hf : ∀ a b, y = .ok b → R a b → PRef env (f a) r S (g b)) :
    PRef env (x.bind f) r S (y.bind g) := by
  induction x with
  | ret x =>
    cases x <;> cases y <;> simp only [PRef, Res.Rel] at h
    · exact hf _ _ rfl h
    · trivial
    · trivial
  | once fl init k _ ih =>
    obtain ⟨h1, ⟨yi, h2, h3, h4⟩, h5⟩ := h
    exact ⟨h1, ⟨yi, h2, h3, fun e => by rw [h4 e]; rfl⟩, fun v hv => ih v (h5 v hv) hf⟩

theorem pref_mono {env : Env K} {α β : Type} {r r' : Nat} {R S : α → β → Prop} {x : Prog K α} {y : Res β}
    (h : PRef env x r R y) (hr : r ≤ r') (hRS : ∀ a b, R a b → S a b) : PRef env x r' S y := by
  induction x with
  | ret x =>
    cases x <;> cases y <;> first | exact hRS _ _ h | exact h
  | once fl init k _ ih =>
    obtain ⟨h1, h2, h5⟩ := h
    exact ⟨by omega, h2, fun v hv => ih v (h5 v hv) hRS⟩

theorem pref_ret {env : Env K} {α : Type} (r : Nat) (y : Res α) : PRef env (.ret y) r (fun a b => a = b) y :=
  Res.Rel.eq_iff.2 rfl

/-- forget the value -/
def Res.void {α : Type} : Res α → Res Unit
  | .ok _ => .ok ()
  | .throw => .throw
  | .ub => .ub

theorem pref_void {env : Env K} {α β : Type} {r : Nat} {R : α → β → Prop} {x : Prog K α} {y : Res β} {P : α → Prop}
    (h : PRef env x r R y) (hP : ∀ a b, y = .ok b → R a b → P a) : PRef env x r (fun a (_ : Unit) => P a) y.void := by
  induction x with
  | ret x =>
    cases x <;> cases y <;> simp only [PRef, Res.Rel] at h ⊢ <;> simp only [Res.void]
    exact hP _ _ rfl h
  | once fl init k _ ih =>
    obtain ⟨h1, ⟨yi, h2, h3, h4⟩, h5⟩ := h
    exact ⟨h1, ⟨yi, h2, h3, fun e => by rw [h4 e]; rfl⟩, fun v hv => ih v (h5 v hv) hP⟩

theorem pref_ruleWith (env : Env K) (r d : Nat) (qt : QType) (t : GeometryType) (p : Int) (ht : Wf d t)
    (hr : rank d qt + 1 < r) (x : Prog K (Rule K)) (y : Res (Rule K))
    (hy : rule env d t p qt = ruleWith d t p (maxOrder d t qt) y) (hne : rule env d t p qt ≠ .ub)
    (hx : y ≠ .ub → PRef env x (rank d qt + 1) (fun a b => a = b) y) :
    PRef env (progRuleWith d t p qt (maxOrder d t qt) x) r SameRule (rule env d t p qt) := by
  have hd := ht.1
  have htd : t.dim = d := by rcases ht.2 with ⟨id, _, rfl⟩ | rfl <;> rfl
  have hs : localSize d = some (2 ^ d - 2 ^ d / 2 + 1) := by
    unfold localSize; rw [regularSize_eq hd]; rfl
  obtain ⟨i, hi, hlt⟩ : ∃ i, localIndex t = some i ∧ i < 2 ^ d - 2 ^ d / 2 + 1 := by
    rcases ht.2 with ⟨id, hid, rfl⟩ | rfl
    · have := half_lt_pow hid
      exact ⟨_, localIndex_regular d id, by omega⟩
    · exact ⟨_, localIndex_none hd, by omega⟩
  have e : ruleWith d t p (maxOrder d t qt) y = (numRules d t qt).bind fun n =>
      if (if d = 0 then (0 : Int) else p) < 0 ∨ (n : Int) ≤ (if d = 0 then (0 : Int) else p) then .ub else y := by
    unfold ruleWith
    rw [hs, hi, if_neg (by simp [htd])]
    simp only
    rw [if_neg (by omega)]
    unfold numRules
    by_cases h0 : d = 0
    · simp [h0, Res.bind]
    · simp only [if_neg h0]
      cases maxOrder d t qt <;> simp [Res.bind]
  unfold progRuleWith
  rw [if_neg (by simp [htd])]
  refine ⟨by simp only [FlagId.rank]; omega, ⟨.ok (), by rw [hs]; exact hs, nofun, nofun⟩, fun n hn => ?_⟩
  rw [show localSize d = some n from hn, Option.some.injEq] at hs
  rw [hi]
  simp only [Res.ofOption, Prog.bind]
  rw [if_neg (by rw [hs]; omega)]
  have hnn : numRules d t qt ≠ .ub := by
    intro h
    rw [hy, e, h] at hne
    exact hne rfl
  refine ⟨by simp only [FlagId.rank]; omega, ⟨(numRules d t qt).void, ?_, ?_, ?_⟩, fun m hm => ?_⟩
  · exact pref_void (pref_ret _ _) fun a b h1 h2 => ⟨t, ht, hi, by rw [h1, h2]⟩
  · cases h : numRules d t qt
    · nofun
    · nofun
    · exact absurd h hnn
  · cases h : numRules d t qt
    · nofun
    · intro _
      rw [hy, e, h]
      rfl
    · exact absurd h hnn
  · obtain ⟨t', ht', hi', hm⟩ := hm
    have hm : numRules d t qt = .ok m := by
      rw [← hm]
      unfold numRules
      rw [maxOrder_wf_congr ht ht' (by rw [hi, hi'])]
    have hp : 0 ≤ (if d = 0 then (0 : Int) else p) →
        rule env d t (((if d = 0 then (0 : Int) else p).toNat : Nat) : Int) qt = rule env d t p qt := by
      intro hk0
      by_cases h0 : d = 0
      · subst h0; exact rule_zero_order env t _ _ qt
      · rw [if_neg h0] at hk0 ⊢
        rw [Int.toNat_of_nonneg hk0]
    rw [hm] at e
    generalize (if d = 0 then (0 : Int) else p) = k at *
    simp only [Res.bind] at e ⊢
    by_cases hk : k < 0 ∨ (m : Int) ≤ k
    · rw [if_pos hk] at e
      rw [hy, e] at hne
      exact absurd rfl hne
    · rw [if_neg hk] at e
      rw [if_neg hk]
      have hye : rule env d t p qt = y := by rw [hy, e]
      refine ⟨hr, ⟨y.void, ?_, ?_, ?_⟩, fun R hR => ?_⟩
      · refine pref_void (hx (by rw [← hye]; exact hne)) fun a b h1 h2 => ⟨t, ht, hi, ?_⟩
        rw [hp (by omega), hye, h1, h2]
      · intro h
        rw [hye] at hne
        cases hyy : y <;> rw [hyy] at h hne <;> first | exact hne rfl | exact nomatch h
      · intro h
        rw [hye]
        cases hyy : y <;> rw [hyy] at h <;> first | rfl | exact nomatch h
      · obtain ⟨t', ht', hi', hR⟩ := hR
        have := rule_wf_congr env ht' ht (by rw [hi, hi']) k.toNat qt
        rw [hR, hp (by omega)] at this
        exact this

theorem bind_ne_ub {α β : Type} {x : Res α} {f : α → Res β} (h : x.bind f ≠ .ub) : x ≠ .ub ∧ ∀ a, x = .ok a → f a ≠ .ub := by
  cases x with
  | ok a => exact ⟨nofun, fun b hb => by injection hb with hb; subst hb; exact h⟩
  | throw => exact ⟨nofun, nofun⟩
  | ub => exact absurd rfl h

theorem pref_rule1Tab (env : Env K) (r : Nat) (hr : 3 < r) (p : Int) (qt : QType) (hq : qt ≠ .GaussJacobi_n_0)
    (hne : rule1Tab (K := K) line p qt ≠ .ub) :
    PRef env (progRule1Tab line p qt) r SameRule (rule1Tab line p qt) := by
  rw [rule1Tab_eq env _ _ _ hq] at hne ⊢
  refine pref_ruleWith env r 1 qt line p wf_line (by simpa [rank, hq] using hr) _ (factory1Tab line p qt) ?_ hne
    fun _ => pref_ret _ _
  rw [← rule1Tab_eq env _ _ _ hq]
  rfl

theorem pref_exponent (env : Env K) (r : Nat) (hr : 3 < r) (degree alpha : Int) (hne : decideRuleExponent env degree alpha ≠ .ub) :
    PRef env (progDecideRuleExponent env degree alpha) r (fun a b => a = b) (decideRuleExponent env degree alpha) := by
  unfold progDecideRuleExponent
  unfold decideRuleExponent at hne ⊢
  by_cases h0 : alpha = 0
  · rw [if_pos h0] at hne ⊢
    rw [if_pos h0]
    exact pref_bind (pref_rule1Tab env r hr _ _ (by simp) (bind_ne_ub hne).1) fun a b _ h => h.1
  rw [if_neg h0] at hne ⊢
  rw [if_neg h0]
  by_cases h1 : alpha = 1
  · rw [if_pos h1] at hne ⊢
    rw [if_pos h1]
    exact pref_bind (pref_rule1Tab env r hr _ _ (by simp) (bind_ne_ub hne).1) fun a b _ h => by rw [h.1]; exact rfl
  rw [if_neg h1] at hne ⊢
  rw [if_neg h1]
  by_cases h2 : alpha = 2
  · rw [if_pos h2] at hne ⊢
    rw [if_pos h2]
    exact pref_bind (pref_rule1Tab env r hr _ _ (by simp) (bind_ne_ub hne).1) fun a b _ h => by rw [h.1]; exact rfl
  rw [if_neg h2] at hne ⊢
  rw [if_neg h2]
  exact pref_ret _ _

theorem pref_jacobiN (env : Env K) (r : Nat) (hr : 3 < r) (order alpha : Int) (hne : jacobiN env order alpha ≠ .ub) :
    PRef env (progJacobiN env order alpha) r (fun a b => a = b) (jacobiN env order alpha) := by
  have hd : decideRule env order alpha ≠ .ub →
      PRef env (progDecideRule env order alpha) r (fun a b => a = b) (decideRule env order alpha) := by
    intro hne
    unfold progDecideRule
    unfold decideRule at hne ⊢
    by_cases h : toU32 order < 61
    · rw [if_pos h] at hne ⊢
      rw [if_pos h]
      exact pref_exponent env r hr order alpha hne
    · rw [if_neg h] at hne ⊢
      rw [if_neg h]
      exact pref_ret _ _
  unfold progJacobiN
  unfold jacobiN at hne ⊢
  by_cases h : toU32 order > jacobiNMaxOrder
  · rw [if_pos h, if_pos h]
    trivial
  · rw [if_neg h] at hne ⊢
    rw [if_neg h]
    exact pref_bind (hd (bind_ne_ub hne).1) fun a b _ h => by rw [h]; exact rfl

theorem pref_factory1 (env : Env K) (t : GeometryType) (p : Int) (qt : QType) (hne : factory1 env t p qt ≠ .ub) :
    PRef env (progFactory1 env t p qt) (rank 1 qt + 1) (fun a b => a = b) (factory1 env t p qt) := by
  unfold progFactory1
  unfold factory1 at hne ⊢
  by_cases h : isLine t
  · rw [if_pos h] at hne ⊢
    rw [if_pos h]
    cases qt <;> first | exact pref_ret _ _ | exact pref_jacobiN env _ (by simp [rank]) p 0 hne
  · rw [if_neg h, if_neg h]
    trivial

theorem pref_rule1 (env : Env K) (r : Nat) (hr : 4 < r) (p : Int) (qt : QType) (hne : rule1 env line p qt ≠ .ub) :
    PRef env (progRule1 env line p qt) r SameRule (rule1 env line p qt) :=
  pref_ruleWith env r 1 qt line p wf_line (by unfold rank; split <;> omega) _ (factory1 env line p qt) rfl hne
    fun h => pref_factory1 env line p qt h

theorem pref_tensor (env : Env K) (r : Nat) (hr : 4 < r) (dim id : Nat) (order : Int) (qt : QType) (x : Prog K (Rule K))
    (y : Res (Rule K)) (h : y ≠ .ub → PRef env x r SameRule y) (hne : tensorRule env dim id order qt y ≠ .ub) :
    PRef env (progTensorRule env dim id order qt x) r (fun a b => a = b) (tensorRule env dim id order qt y) := by
  unfold progTensorRule
  unfold tensorRule at hne ⊢
  refine pref_bind (h (bind_ne_ub hne).1) fun B B' hy hB => ?_
  have hne' := (bind_ne_ub hne).2 B' hy
  by_cases h1 : id.testBit (dim - 1) = true
  · simp only [if_pos h1] at hne' ⊢
    exact pref_bind (pref_rule1 env r hr _ _ (bind_ne_ub hne').1) fun a b _ h => by rw [h.1, hB.1]; exact rfl
  · simp only [if_neg h1] at hne' ⊢
    by_cases h2 : qt ≠ .GaussJacobi_n_0
    · rw [if_pos h2] at hne' ⊢
      rw [if_pos h2]
      exact pref_bind (pref_rule1 env r hr _ _ (bind_ne_ub hne').1) fun a b _ h => by rw [h.1, hB.1]; exact rfl
    · rw [if_neg h2] at hne' ⊢
      rw [if_neg h2]
      exact pref_bind (pref_jacobiN env r (by omega) _ _ (bind_ne_ub hne').1) fun a b _ h => by rw [h, hB.1]; exact rfl

theorem pref_rule (env : Env K) : ∀ (d : Nat) (r : Nat) (t : GeometryType) (p : Int) (qt : QType), Wf d t →
    rank d qt + 1 < r → rule env d t p qt ≠ .ub → PRef env (progRule env d t p qt) r SameRule (rule env d t p qt)
  | 0, r, t, p, qt, ht, hr, hne => by
    refine pref_ruleWith env r 0 qt t p ht hr _ (factory env 0 t p qt .ub) rfl hne fun _ => ?_
    simp only [progFactory, factory]
    split <;> exact pref_ret _ _
  | 1, r, t, p, qt, ht, hr, hne =>
    pref_ruleWith env r 1 qt t p ht hr _ (factory1 env t p qt) rfl hne fun h => pref_factory1 env t p qt h
  | d + 2, r, t, p, qt, ht, hr, hne => by
    have hb := pref_rule env (d + 1) (rank (d + 2) qt + 1) (baseTypeOf (d + 2) t.id) p qt (wf_base ht)
      (by unfold rank; omega)
    have htr := pref_tensor env (rank (d + 2) qt + 1) (by unfold rank; omega) (d + 2) t.id p qt _ _ hb
    refine pref_ruleWith env r (d + 2) qt t p ht hr _ (factory env (d + 2) t p qt (rule env (d + 1) (baseTypeOf (d + 2) t.id) p qt)) rfl
      hne fun hf => ?_
    match d, htr, hf with
    | 0, htr, hf =>
      simp only [progFactory, factory] at hf ⊢
      split
      · exact pref_ret _ _
      · rename_i hc
        rw [if_neg hc] at hf
        exact htr hf
    | 1, htr, hf =>
      simp only [progFactory, factory] at hf ⊢
      split
      · exact pref_ret _ _
      · rename_i hc
        rw [if_neg hc] at hf
        split
        · exact pref_ret _ _
        · rename_i hc
          rw [if_neg hc] at hf
          exact htr hf
    | d + 2, htr, hf => exact htr hf

end Verif.Quad
