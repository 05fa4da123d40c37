import Verif.Quad.CacheLemmas

/-! Property theorems for the caches of the quadrature rules: C51. -/

namespace Verif.Quad

open Verif.Typ

variable {K : Type} [Field K]

/-- the answer of the factories to a request, without any cache -/
def Request.plain (env : Env K) (q : Request) : Res (Rule K) := rule env q.dim q.type q.order q.qt

/-- a request that the interface allows: a type of the right dimension, and an order that is not undefined
behaviour (see `C50_out_of_range`) -/
def Request.Allowed (env : Env K) (q : Request) : Prop := Wf q.dim q.type ∧ q.plain env ≠ .ub

theorem inv_empty (env : Env K) (r : Nat) : Inv env r Store.empty :=
  ⟨fun _ _ => Or.inl rfl, fun _ _ _ => Or.inl rfl, fun _ _ _ _ => Or.inl rfl⟩

/-- no function is running -/
def Quiet (s : Store K) : Prop := ∀ d qt i k, s.rules d qt i k ≠ .running

theorem Inv.raise {env : Env K} {r r' : Nat} {s : Store K} (h : Inv env r s) (hq : Quiet s) : Inv env r' s :=
  ⟨h.types, h.orders, fun d qt i k => by
    rcases h.rules d qt i k with h | ⟨h, -⟩ | h
    · exact Or.inl h
    · exact absurd h (hq d qt i k)
    · exact Or.inr (Or.inr h)⟩

theorem step_spec (env : Env K) {s : Store K} (hi : Inv env 0 s) (hq : Quiet s) {q : Request} (h : q.Allowed env) :
    Res.Rel SameRule (cachedRule env q.dim q.type q.order q.qt s).1 (q.plain env) ∧
    Inv env 0 (cachedRule env q.dim q.type q.order q.qt s).2 ∧ Quiet (cachedRule env q.dim q.type q.order q.qt s).2 ∧
    Later s (cachedRule env q.dim q.type q.order q.qt s).2 := by
  obtain ⟨h1, h2⟩ := refines_rule env q.dim (rank q.dim q.qt + 1) q.type q.order q.qt h.1 (by omega) s (hi.raise hq)
  have hne : (cachedRule env q.dim q.type q.order q.qt s).1 ≠ .ub := by
    intro e
    rw [e] at h1
    have := h.2
    unfold Request.plain at this
    cases hr : rule env q.dim q.type q.order q.qt <;> rw [hr] at h1 this
    · exact h1
    · exact h1
    · exact this rfl
  obtain ⟨h3, h4⟩ := h2 hne
  have hq' : Quiet (cachedRule env q.dim q.type q.order q.qt s).2 := fun d qt i k e => hq d qt i k ((h4.running d qt i k).1 e)
  exact ⟨h1, h3.raise hq', hq', h4⟩

theorem serve_spec (env : Env K) : ∀ (l : List Request) (s : Store K), (∀ q ∈ l, q.Allowed env) → Inv env 0 s → Quiet s →
    List.Forall₂ (Res.Rel SameRule) (serve env l s).1 (l.map fun q => q.plain env) ∧ Inv env 0 (serve env l s).2 ∧
      Quiet (serve env l s).2 ∧ Later s (serve env l s).2
  | [], s, _, hi, hq => ⟨.nil, hi, hq, Later.refl s⟩
  | q :: l, s, hl, hi, hq => by
    obtain ⟨h1, h2, h3, h4⟩ := step_spec env hi hq (hl q (by simp))
    obtain ⟨g1, g2, g3, g4⟩ := serve_spec env l _ (fun q' hq' => hl q' (by simp [hq'])) h2 h3
    exact ⟨.cons h1 g1, g2, g3, h4.trans g4⟩

/-- C51: for every list of allowed requests, starting with empty caches, every request is answered with the
rule that the factory creates for it (same points and order, equal type), or with the exception that the
factory throws; no request hits a flag that is being initialised (which would never return). -/
theorem C51_transparent (env : Env K) (l : List Request) (h : ∀ q ∈ l, q.Allowed env) :
    List.Forall₂ (Res.Rel SameRule) (serve env l Store.empty).1 (l.map fun q => q.plain env) :=
  (serve_spec env l _ h (inv_empty env 0) (fun _ _ _ _ => by simp [Store.empty])).1

theorem callOnce_done {V : Type} {get : Store K → Flag V} {set : Flag V → Store K → Store K} {init : CM K V} {s : Store K} {v : V}
    (hset : ∀ f s, get (set f s) = f) (h : (callOnce get set init s).1 = .ok v) : get (callOnce get set init s).2 = .done v := by
  unfold callOnce at h ⊢
  cases hg : get s with
  | idle =>
    rw [hg] at h
    rcases hx : init (set .running s) with ⟨a, s'⟩
    rw [hx] at h
    cases a with
    | ok a => obtain rfl : a = v := by simpa using h
              exact hset _ _
    | throw => simp at h
    | ub => simp at h
  | running => rw [hg] at h; simp at h
  | done w => rw [hg] at h; obtain rfl : w = v := by simpa using h
              exact hg

/-- if the computation yields a value, then the value and the new store satisfy `P` -/
def Post {α : Type} (x : CM K α) (P : α → Store K → Prop) : Prop := ∀ s v, (x s).1 = .ok v → P v (x s).2

theorem post_bind {α β : Type} {x : CM K α} {f : α → CM K β} {Q : α → Prop} {P : β → Store K → Prop}
    (hx : Post x fun a _ => Q a) (hf : ∀ a, Q a → Post (f a) P) : Post (x.bind f) P := by
  intro s v h
  unfold CM.bind at h ⊢
  have hxs := hx s
  rcases hxe : x s with ⟨a, s'⟩
  rw [hxe] at h hxs
  cases a with
  | ok a => exact hf a (hxs a rfl) s' v h
  | throw => simp at h
  | ub => simp at h

theorem post_any {α : Type} (x : CM K α) : Post x fun _ _ => True := fun _ _ _ => trivial

theorem post_ub {α : Type} {P : α → Store K → Prop} : Post (CM.lift .ub) P := fun s v h => by simp [CM.lift] at h

theorem ruleWith_place {d : Nat} {t : GeometryType} {p : Int} {qt : QType} {mo : Res Nat} {x : CM K (Rule K)} :
    Post (cachedRuleWith d t p qt mo x) fun R s => ∃ i, localIndex t = some i ∧
      s.rules d qt i (if d = 0 then 0 else p.toNat) = .done R := by
  unfold cachedRuleWith
  split
  · exact post_ub
  refine post_bind (post_any _) fun n _ => ?_
  refine post_bind (Q := fun i => localIndex t = some i) ?_ fun i hi => ?_
  · intro s i hi
    cases hl : localIndex t with
    | none => rw [hl] at hi; simp [CM.lift, Res.ofOption] at hi
    | some j => rw [hl] at hi; simpa [CM.lift, Res.ofOption] using hi
  split
  · exact post_ub
  refine post_bind (post_any _) fun m _ => ?_
  have hk : (if d = 0 then 0 else p.toNat) = (if d = 0 then (0 : Int) else p).toNat := by split <;> rfl
  rw [hk]
  generalize (if d = 0 then (0 : Int) else p) = k
  simp only
  split
  · exact post_ub
  · exact fun s v h => ⟨i, hi, callOnce_done (fun f s => by simp [Store.setRules]) h⟩

/-- the request is answered with the object at its place -/
theorem answer_place (env : Env K) {s : Store K} {q : Request} {R : Rule K}
    (hR : (cachedRule env q.dim q.type q.order q.qt s).1 = .ok R) :
    ∃ i, q.place = some (q.dim, q.qt, i, if q.dim = 0 then 0 else q.order.toNat) ∧
      (cachedRule env q.dim q.type q.order q.qt s).2.rules q.dim q.qt i (if q.dim = 0 then 0 else q.order.toNat) = .done R := by
  obtain ⟨d, t, p, qt⟩ := q
  simp only [Request.place] at *
  cases d with
  | zero =>
    obtain ⟨i, hi, h⟩ := ruleWith_place _ _ hR
    exact ⟨i, by rw [hi]; rfl, h⟩
  | succ d =>
    obtain ⟨i, hi, h⟩ := ruleWith_place _ _ hR
    exact ⟨i, by rw [hi]; rfl, h⟩

theorem serve_append (env : Env K) : ∀ (l l' : List Request) (s : Store K),
    (serve env (l ++ l') s).2 = (serve env l' (serve env l s).2).2
  | [], _, _ => rfl
  | q :: l, l', s => by simp only [List.cons_append, serve]; exact serve_append env l l' _

/-- C51: the answer is a reference to an object of the cache, and that object is never changed by later
requests. -/
theorem C51_stable (env : Env K) (l l' : List Request) (q : Request) (h : ∀ q' ∈ l ++ q :: l', q'.Allowed env) (R : Rule K)
    (hR : (cachedRule env q.dim q.type q.order q.qt (serve env l Store.empty).2).1 = .ok R) :
    ∃ d qt i k, q.place = some (d, qt, i, k) ∧ (serve env (l ++ q :: l') Store.empty).2.rules d qt i k = .done R := by
  obtain ⟨-, h2, h3, -⟩ := serve_spec env l _ (fun q' hq' => h q' (by simp [hq'])) (inv_empty env 0)
    (fun _ _ _ _ => by simp [Store.empty])
  obtain ⟨-, g2, g3, -⟩ := step_spec env h2 h3 (h q (by simp))
  obtain ⟨-, -, -, f4⟩ := serve_spec env l' _ (fun q' hq' => h q' (by simp [hq'])) g2 g3
  obtain ⟨i, h5, h6⟩ := answer_place env hR
  refine ⟨_, _, i, _, h5, ?_⟩
  rw [serve_append]
  exact f4.rules _ _ _ _ _ h6

theorem maxOrder1_line (qt : QType) : ∃ m, maxOrder1 line qt = .ok m := by cases qt <;> exact ⟨_, rfl⟩

theorem maxOrder_regular (qt : QType) : ∀ (d : Nat) (t : GeometryType), Wf d t → ∃ m, maxOrder d t qt = .ok m
  | 0, t, ht => by
    have : t.dim = 0 := by rcases ht.2 with ⟨id, _, rfl⟩ | rfl <;> rfl
    exact ⟨_, by simp only [maxOrder, isVertex, this]; rfl⟩
  | 1, t, ht => by
    have : t.dim = 1 := by rcases ht.2 with ⟨id, _, rfl⟩ | rfl <;> rfl
    simp only [maxOrder, maxOrder1, isLine, this]
    cases qt <;> exact ⟨_, rfl⟩
  | d + 2, t, ht => by
    obtain ⟨m, hm⟩ := maxOrder_regular qt (d + 1) _ (wf_base ht)
    obtain ⟨m1, hm1⟩ := maxOrder1_line qt
    have : ∃ o, tensorMaxOrder (d + 2) t.id qt (.ok m) = .ok o := by
      unfold tensorMaxOrder
      rw [hm1]
      simp only [ok_bind]
      split
      · exact ⟨_, rfl⟩
      · split <;> exact ⟨_, rfl⟩
    obtain ⟨o, ho⟩ := this
    unfold maxOrder
    rw [hm, ho]
    simp only [ok_bind]
    split
    · exact ⟨_, rfl⟩
    · split <;> exact ⟨_, rfl⟩

theorem plain_order (env : Env K) {q : Request} (h : q.Allowed env) : q.dim = 0 ∨ 0 ≤ q.order := by
  by_contra hc
  push Not at hc
  obtain ⟨hw, hne⟩ := h
  obtain ⟨d, t, p, qt⟩ := q
  simp only at hc hw
  apply hne
  obtain ⟨m, hm⟩ := maxOrder_regular qt d t hw
  have hs : localSize d = some (2 ^ d - 2 ^ d / 2 + 1) := by
    unfold localSize; rw [regularSize_eq hw.1]; rfl
  obtain ⟨i, hi⟩ : ∃ i, localIndex t = some i := by
    rcases hw.2 with ⟨id, hid, rfl⟩ | rfl
    · exact ⟨_, localIndex_regular d id⟩
    · exact ⟨_, localIndex_none hw.1⟩
  unfold Request.plain
  simp only
  cases d with
  | zero => exact absurd rfl hc.1
  | succ d =>
    rw [rule_succ]
    unfold ruleWith
    rw [hs, hi, hm]
    simp only
    rw [if_neg hc.1]
    split
    · rfl
    · split
      · rfl
      · rw [if_pos (Or.inl hc.2)]

theorem localIndex_eq_iff {d : Nat} {t t' : GeometryType} (h : Wf d t) (h' : Wf d t') :
    localIndex t = localIndex t' ↔ eq t t' = true := by
  constructor
  · intro hi
    rcases wf_congr h h' hi with rfl | ⟨a, b, -, -, rfl, rfl, hab⟩
    · exact eq_refl' _
    · exact eq_of_half hab
  · intro he
    rw [eq_iff] at he
    obtain ⟨hd, h⟩ := h
    obtain ⟨-, h'⟩ := h'
    rcases h with ⟨a, ha, rfl⟩ | rfl <;> rcases h' with ⟨b, hb, rfl⟩ | rfl <;> simp at he
    · rw [localIndex_regular, localIndex_regular, he]
    · rfl

/-- C51: two requests are answered with the same object if and only if they ask for the same family and order
and for equal types (`==`) of the same dimension (in dimension 0 the order does not matter). -/
theorem C51_same_object (env : Env K) (a b : Request) (ha : a.Allowed env) (hb : b.Allowed env) :
    a.place = b.place ↔ a.dim = b.dim ∧ eq a.type b.type = true ∧ a.qt = b.qt ∧ (a.dim = 0 ∨ a.order = b.order) := by
  have oa := plain_order env ha
  have ob := plain_order env hb
  have hwa := ha.1
  have hwb := hb.1
  clear ha hb
  obtain ⟨d, t, p, qt⟩ := a
  obtain ⟨d', t', p', qt'⟩ := b
  simp only [Request.place] at *
  obtain ⟨i, hi⟩ : ∃ i, localIndex t = some i := by
    rcases hwa.2 with ⟨id, hid, rfl⟩ | rfl
    · exact ⟨_, localIndex_regular d id⟩
    · exact ⟨_, localIndex_none hwa.1⟩
  obtain ⟨j, hj⟩ : ∃ i, localIndex t' = some i := by
    rcases hwb.2 with ⟨id, hid, rfl⟩ | rfl
    · exact ⟨_, localIndex_regular d' id⟩
    · exact ⟨_, localIndex_none hwb.1⟩
  rw [hi, hj]
  simp only [Option.bind_eq_bind, Option.bind_some, Option.pure_def, Option.some.injEq, Prod.mk.injEq]
  constructor
  · rintro ⟨rfl, rfl, rfl, hk⟩
    refine ⟨rfl, (localIndex_eq_iff hwa hwb).1 (by rw [hi, hj]), rfl, ?_⟩
    by_cases h0 : d = 0
    · exact Or.inl h0
    · rw [if_neg h0, if_neg h0] at hk
      right
      omega
  · rintro ⟨rfl, he, rfl, hk⟩
    have := (localIndex_eq_iff hwa hwb).2 he
    rw [hi, hj, Option.some.injEq] at this
    refine ⟨rfl, rfl, this, ?_⟩
    rcases hk with rfl | rfl <;> rfl

/-- allowed requests: a pyramid and afterwards the same pyramid under its other topology id -/
example : Request.Allowed (K := ℚ) ⟨none⟩ ⟨3, ⟨3, false, 2⟩, 0, .GaussLegendre⟩ ∧
    Request.Allowed (K := ℚ) ⟨none⟩ ⟨3, ⟨3, false, 3⟩, 0, .GaussLegendre⟩ := by
  refine ⟨⟨⟨by decide, Or.inl ⟨2, by decide, rfl⟩⟩, ?_⟩, ⟨by decide, Or.inl ⟨3, by decide, rfl⟩⟩, ?_⟩ <;>
    exact fun h => by cases h

/-- malformed none types (a topology id other than 0 with the none flag) compare equal but are not
interchangeable: the second request is answered with the rule of the first -/
theorem C51_malformed_none_counterexample (env : Env K) : ∃ a b R R',
    (serve env [⟨2, ⟨2, true, 0⟩, 0, .GaussLegendre⟩, ⟨2, ⟨2, true, 3⟩, 0, .GaussLegendre⟩] Store.empty).1 = [a, .ok R] ∧
    rule env 2 ⟨2, true, 3⟩ 0 .GaussLegendre = b ∧ b = .ok R' ∧ eq R.type R'.type = false :=
  ⟨_, _, _, _, rfl, rfl, rfl, show eq (mk2 0 2) (mk2 3 2) = false by decide⟩

end Verif.Quad
