import Verif.Quad.ThreadsSteps
import Verif.Quad.CacheProps
import Mathlib.Algebra.BigOperators.Fin

/-! Property theorems for concurrent requests of quadrature rules: C69. -/

namespace Verif.Quad

open Verif.Typ

variable {K : Type} [Field K]

/-! ### Where the answer comes from -/

/-- the flag of the object that is returned for a request -/
def Request.flag (q : Request) (i : Nat) : FlagId := .rules q.dim q.qt i (if q.dim = 0 then 0 else q.order.toNat)

/-- the program ends with an exception, or returns the value of the flag `rules d qt i k` -/
inductive EndsAt (d : Nat) (qt : QType) (i k : Nat) : Prog K (Rule K) → Prop
  | throw : EndsAt d qt i k (.ret .throw)
  | ub : EndsAt d qt i k (.ret .ub)
  | last (init : Prog K (Rule K)) : EndsAt d qt i k (.once (.rules d qt i k) init fun R => .ret (.ok R))
  | once (f : FlagId) (init : Prog K (f.Val K)) (g : f.Val K → Prog K (Rule K)) (h : ∀ v, EndsAt d qt i k (g v)) :
    EndsAt d qt i k (.once f init g)

theorem endsAt_ruleWith {d : Nat} {t : GeometryType} {p : Int} {qt : QType} {mo : Res Nat} {x : Prog K (Rule K)} {i : Nat}
    (hi : localIndex t = some i) : EndsAt d qt i (if d = 0 then 0 else p.toNat) (progRuleWith d t p qt mo x) := by
  unfold progRuleWith
  by_cases hd : t.dim ≠ d
  · rw [if_pos hd]; exact .ub
  · rw [if_neg hd]
    refine .once _ _ _ fun size => ?_
    rw [hi]
    simp only [Res.ofOption, Prog.bind]
    have hk : (if d = 0 then 0 else p.toNat) = (if d = 0 then (0 : Int) else p).toNat := by split <;> rfl
    rw [hk]
    generalize (if d = 0 then (0 : Int) else p) = k
    by_cases h : (show Nat from size) ≤ i
    · rw [if_pos h]; exact .ub
    · rw [if_neg h]
      refine .once _ _ _ fun m => ?_
      by_cases hk : k < 0 ∨ ((show Nat from m) : Int) ≤ k
      · rw [if_pos hk]; exact .ub
      · rw [if_neg hk]; exact .last _

/-- a thread that will return the value of this flag, or has read it -/
def TEndsAt (s : Store K) (d : Nat) (qt : QType) (i k : Nat) : Thread K (Rule K) → Prop
  | .run p => EndsAt d qt i k p ∨ ∃ R, p = .ret (.ok R) ∧ s.get (.rules d qt i k) = .done R
  | .inside f _ g => EndsAt d qt i k (.once f (.ret .ub) g)

theorem endsAt_init {d : Nat} {qt : QType} {i k : Nat} {f : FlagId} {init : Prog K (f.Val K)} {g : f.Val K → Prog K (Rule K)}
    (h : EndsAt d qt i k (.once f init g)) (init' : Prog K (f.Val K)) : EndsAt d qt i k (.once f init' g) := by
  cases h with
  | last => exact .last _
  | once _ _ _ h => exact .once _ _ _ h

theorem endsAt_next {d : Nat} {qt : QType} {i k : Nat} {f : FlagId} {init : Prog K (f.Val K)} {g : f.Val K → Prog K (Rule K)}
    (h : EndsAt d qt i k (.once f init g)) {s : Store K} {v : f.Val K} (hv : s.get f = .done v) : TEndsAt s d qt i k (.run (g v)) := by
  cases h with
  | last => exact Or.inr ⟨v, rfl, hv⟩
  | once _ _ _ h => exact Or.inl (h v)

theorem step_endsAt {d : Nat} {qt : QType} {i k : Nat} {t t' : Thread K (Rule K)} {s s' : Store K} (h : TEndsAt s d qt i k t)
    (hst : t.step s = some (t', s')) : TEndsAt s' d qt i k t' := by
  cases t with
  | run p =>
    cases p with
    | ret x => exact nomatch hst
    | once f init g =>
      have h : EndsAt d qt i k (.once f init g) := by
        rcases h with h | ⟨R, h, -⟩
        · exact h
        · exact nomatch h
      rw [Thread.step] at hst
      split at hst
      · rename_i v hv
        injection hst with hst
        injection hst with e1 e2
        subst e1 e2
        exact endsAt_next h hv
      · exact nomatch hst
      · injection hst with hst
        injection hst with e1 e2
        subst e1 e2
        exact endsAt_init h _
  | inside f t g =>
    have h : EndsAt d qt i k (.once f (.ret .ub) g) := h
    have sub : (t.step s).map (fun x => (Thread.inside f x.1 g, x.2)) = some (t', s') → TEndsAt s' d qt i k t' := by
      intro hst
      simp only [Option.map_eq_some_iff, Prod.mk.injEq] at hst
      obtain ⟨⟨u, s''⟩, e1, rfl, rfl⟩ := hst
      exact h
    cases t with
    | run p =>
      cases p with
      | ret x =>
        cases x with
        | ok v =>
          injection hst with hst
          injection hst with e1 e2
          subst e1 e2
          exact endsAt_next h (get_put ..)
        | throw =>
          injection hst with hst
          injection hst with e1 e2
          subst e1 e2
          exact Or.inl .throw
        | ub =>
          injection hst with hst
          injection hst with e1 e2
          subst e1 e2
          exact Or.inl .ub
      | once f' init k' => exact sub hst
    | inside f' t k' => exact sub hst

/-! ### The invariant of the system -/

/-- the flags whose functions a thread of the user's program is executing -/
def Worker.held (w : Worker K) : List FlagId :=
  match w.current with
  | none => []
  | some t => t.held

/-- finished flags stay as they are -/
def Keeps (s s' : Store K) : Prop := ∀ f v, s.get f = .done v → s'.get f = .done v

/-- the flags are consistent with the threads -/
structure FInv (env : Env K) {n : Nat} (H : Fin n → List FlagId) (s : Store K) : Prop where
  good : StoreGood env s
  running : ∀ f, s.get f = .running ↔ ∃ i, f ∈ H i
  unique : ∀ i j f, f ∈ H i → f ∈ H j → i = j

theorem effect_inv {env : Env K} {n : Nat} {H : Fin n → List FlagId} {s s' : Store K} (h : FInv env H s) (i : Fin n)
    {l : List FlagId} (hn : (H i).Nodup) (he : Effect env (H i) s l s') : FInv env (Function.update H i l) s' ∧ Keeps s s' := by
  -- releasing the innermost flag
  have release : ∀ (l : List FlagId) (f : FlagId) (x : Flag (f.Val K)), H i = l ++ [f] → x ≠ .running →
      (∀ v, x = .done v → GoodVal env f v) → FInv env (Function.update H i l) (s.put f x) ∧ Keeps s (s.put f x) := by
    intro l f x e hx hg
    rw [e] at hn
    have hfl : f ∉ l := fun hm => (List.nodup_append.1 hn).2.2 f hm f (by simp) rfl
    have hrun : s.get f = .running := (h.running f).2 ⟨i, by rw [e]; simp⟩
    have hmem : ∀ j g, g ≠ f → (g ∈ Function.update H i l j ↔ g ∈ H j) := by
      intro j g hgf
      by_cases hj : j = i
      · subst hj
        rw [Function.update_self, e]
        simp [hgf]
      · rw [Function.update_of_ne hj]
    have hnf : ∀ j, f ∉ Function.update H i l j := by
      intro j
      by_cases hj : j = i
      · subst hj
        rw [Function.update_self]
        exact hfl
      · rw [Function.update_of_ne hj]
        exact fun hm => hj (h.unique j i f hm (by rw [e]; simp))
    refine ⟨⟨?_, ?_, ?_⟩, ?_⟩
    · intro g v hv
      by_cases hgf : g = f
      · subst hgf
        rw [get_put] at hv
        exact hg v hv
      · rw [get_put_ne s hgf] at hv
        exact h.good g v hv
    · intro g
      by_cases hgf : g = f
      · subst hgf
        rw [get_put]
        exact ⟨fun e => absurd e hx, fun ⟨j, hj⟩ => absurd hj (hnf j)⟩
      · rw [get_put_ne s hgf, h.running g]
        simp only [hmem _ g hgf]
    · intro j j' g h1 h2
      by_cases hgf : g = f
      · subst hgf
        exact absurd h1 (hnf j)
      · exact h.unique j j' g ((hmem j g hgf).1 h1) ((hmem j' g hgf).1 h2)
    · intro g v hv
      by_cases hgf : g = f
      · subst hgf
        rw [hrun] at hv
        exact nomatch hv
      · rw [get_put_ne s hgf]
        exact hv
  generalize hl : H i = l0 at he
  cases he with
  | read =>
    rw [← hl, Function.update_eq_self]
    exact ⟨h, fun _ _ h => h⟩
  | finish _ _ f v hv => exact release l f (.done v) hl nofun fun w e => by injection e with e; subst e; exact hv
  | fail _ _ f => exact release l f .idle hl nofun nofun
  | take _ _ f hf =>
    have hno : ∀ j, f ∉ H j := fun j hj => by
      have := (h.running f).2 ⟨j, hj⟩
      rw [hf] at this
      exact nomatch this
    have hmem : ∀ j g, g ∈ Function.update H i (l0 ++ [f]) j ↔ g ∈ H j ∨ (g = f ∧ j = i) := by
      intro j g
      by_cases hj : j = i
      · subst hj
        rw [Function.update_self, hl]
        simp
      · rw [Function.update_of_ne hj]
        simp [hj]
    refine ⟨⟨?_, ?_, ?_⟩, ?_⟩
    · intro g v hv
      by_cases hgf : g = f
      · subst hgf
        rw [get_put] at hv
        exact nomatch hv
      · rw [get_put_ne s hgf] at hv
        exact h.good g v hv
    · intro g
      simp only [hmem]
      by_cases hgf : g = f
      · subst hgf
        rw [get_put]
        exact ⟨fun _ => ⟨i, Or.inr ⟨rfl, rfl⟩⟩, fun _ => rfl⟩
      · rw [get_put_ne s hgf, h.running g]
        simp [hgf]
    · intro j j' g h1 h2
      rcases (hmem j g).1 h1 with h1 | ⟨e, e'⟩ <;> rcases (hmem j' g).1 h2 with h2 | ⟨e₂, e₂'⟩
      · exact h.unique j j' g h1 h2
      · rw [e₂] at h1
        exact absurd h1 (hno j)
      · rw [e] at h2
        exact absurd h2 (hno j')
      · rw [e', e₂']
    · intro g v hv
      by_cases hgf : g = f
      · subst hgf
        rw [hf] at hv
        exact nomatch hv
      · rw [get_put_ne s hgf]
        exact hv

/-- an answer is what the factory gives for the request, and the object at the place of the request -/
def AnswerOK (env : Env K) (s : Store K) (a : Res (Rule K)) (q : Request) : Prop :=
  Res.Rel SameRule a (q.plain env) ∧ ∀ R, a = .ok R → ∃ i, localIndex q.type = some i ∧ s.get (q.flag i) = .done R

/-- a thread has the right answers for the calls that it has finished, and the call in progress will have -/
def WInv (env : Env K) (s : Store K) (w : Worker K) (calls : List Request) : Prop :=
  ∃ l, List.Forall₂ (AnswerOK env s) w.answers l ∧
    match w.current with
    | none => calls = l ++ w.todo
    | some t => ∃ q i r, calls = l ++ q :: w.todo ∧ localIndex q.type = some i ∧ TRef env t r SameRule (q.plain env) ∧
        TEndsAt s q.dim q.qt i (if q.dim = 0 then 0 else q.order.toNat) t

theorem AnswerOK.keep {env : Env K} {s s' : Store K} {a : Res (Rule K)} {q : Request} (h : AnswerOK env s a q) (hk : Keeps s s') :
    AnswerOK env s' a q :=
  ⟨h.1, fun R hR => by
    obtain ⟨i, h1, h2⟩ := h.2 R hR
    exact ⟨i, h1, hk _ _ h2⟩⟩

theorem TEndsAt.keep {s s' : Store K} {d : Nat} {qt : QType} {i k : Nat} {t : Thread K (Rule K)} (h : TEndsAt s d qt i k t)
    (hk : Keeps s s') : TEndsAt s' d qt i k t := by
  cases t with
  | run p =>
    rcases h with h | ⟨R, h1, h2⟩
    · exact Or.inl h
    · exact Or.inr ⟨R, h1, hk _ _ h2⟩
  | inside f t g => exact h

theorem WInv.keep {env : Env K} {s s' : Store K} {w : Worker K} {calls : List Request} (h : WInv env s w calls) (hk : Keeps s s') :
    WInv env s' w calls := by
  obtain ⟨l, h1, h2⟩ := h
  refine ⟨l, h1.imp fun _ _ h => h.keep hk, ?_⟩
  cases hc : w.current with
  | none => rw [hc] at h2; exact h2
  | some t =>
    rw [hc] at h2
    obtain ⟨q, i, r, e1, e2, e3, e4⟩ := h2
    exact ⟨q, i, r, e1, e2, e3, e4.keep hk⟩

theorem forall₂_append {α β : Type*} {R : α → β → Prop} {l : List α} {m : List β} {a : α} {b : β} (h : List.Forall₂ R l m) (hab : R a b) :
    List.Forall₂ R (l ++ [a]) (m ++ [b]) := List.rel_append h (.cons hab .nil)

theorem localIndex_wf {d : Nat} {t : GeometryType} (h : Wf d t) : ∃ i, localIndex t = some i := by
  rcases h.2 with ⟨id, hid, rfl⟩ | rfl
  · exact ⟨_, localIndex_regular d id⟩
  · exact ⟨_, localIndex_none h.1⟩

theorem endsAt_rule (env : Env K) (q : Request) {i : Nat} (hi : localIndex q.type = some i) :
    EndsAt q.dim q.qt i (if q.dim = 0 then 0 else q.order.toNat) (progRule env q.dim q.type q.order q.qt) := by
  obtain ⟨d, t, p, qt⟩ := q
  cases d <;> exact endsAt_ruleWith hi

/-- one step of a thread of the user's program -/
theorem worker_step {env : Env K} {s s' : Store K} {w w' : Worker K} {calls : List Request} (h : WInv env s w calls)
    (hall : ∀ q ∈ calls, q.Allowed env) (hg : StoreGood env s) (hst : w.step env s = some (w', s')) :
    Effect env w.held s w'.held s' ∧ w.held.Nodup ∧ (Keeps s s' → WInv env s' w' calls) := by
  obtain ⟨answers, current, todo⟩ := w
  obtain ⟨l, h1, h2⟩ := h
  cases current with
  | none =>
    cases todo with
    | nil => exact nomatch hst
    | cons q todo =>
      injection hst with hst
      injection hst with e1 e2
      subst e1 e2
      refine ⟨.read _ _, List.nodup_nil, fun _ => ⟨l, h1, ?_⟩⟩
      have h2 : calls = l ++ q :: todo := h2
      obtain ⟨hw, hne⟩ := hall q (by rw [h2]; simp)
      obtain ⟨i, hi⟩ := localIndex_wf hw
      exact ⟨q, i, rank q.dim q.qt + 2, h2, hi, pref_rule env _ _ _ _ _ hw (by omega) hne, Or.inl (endsAt_rule env q hi)⟩
  | some t =>
    obtain ⟨q, i, r, e1, e2, e3, e4⟩ := h2
    by_cases hx : ∃ x, t = .run (.ret x)
    · obtain ⟨x, rfl⟩ := hx
      injection hst with hst
      injection hst with f1 f2
      subst f1 f2
      refine ⟨.read _ _, List.nodup_nil, fun _ => ⟨l ++ [q], forall₂_append h1 ⟨e3, ?_⟩, ?_⟩⟩
      · rintro R rfl
        rcases e4 with e4 | ⟨R', e4, e5⟩
        · exact nomatch e4
        · injection e4 with _ e4
          injection e4 with e4
          subst e4
          exact ⟨i, e2, e5⟩
      · change calls = l ++ [q] ++ todo
        rw [e1]
        simp
    · have hst : (t.step s).map (fun x => ((⟨answers, some x.1, todo⟩ : Worker K), x.2)) = some (w', s') := by
        rw [← hst]
        cases t with
        | run p =>
          cases p with
          | ret x => exact absurd ⟨x, rfl⟩ hx
          | once _ _ _ => rfl
        | inside _ _ _ => rfl
      simp only [Option.map_eq_some_iff, Prod.mk.injEq] at hst
      obtain ⟨⟨t', s''⟩, f1, rfl, rfl⟩ := hst
      obtain ⟨g1, g2⟩ := step_ref e3 hg f1
      refine ⟨g2, ?_, fun hk => ⟨l, h1.imp fun _ _ h => h.keep hk, q, i, r, e1, e2, g1, step_endsAt e4 f1⟩⟩
      exact (held_rank e3).2.imp fun {a b} h e => by rw [e] at h; omega

/-- the invariant -/
structure SInv (env : Env K) {n : Nat} (calls : Fin n → List Request) (S : System K n) : Prop where
  flags : FInv env (fun i => (S.workers i).held) S.store
  workers : ∀ i, WInv env S.store (S.workers i) (calls i)

theorem sinv_start (env : Env K) {n : Nat} (calls : Fin n → List Request) : SInv env calls (System.start (K := K) calls) := by
  have he : ∀ f, (Store.empty (K := K)).get f = .idle := fun f => by cases f <;> rfl
  refine ⟨⟨fun f v h => ?_, fun f => ?_, fun i j f h => ?_⟩, fun i => ⟨[], .nil, rfl⟩⟩
  · rw [System.start, he f] at h
    exact nomatch h
  · rw [System.start, he f]
    simp [Worker.held]
  · exact absurd h (by simp [System.start, Worker.held])

theorem sinv_step {env : Env K} {n : Nat} {calls : Fin n → List Request} (hall : ∀ i, ∀ q ∈ calls i, q.Allowed env) {S S' : System K n}
    (h : SInv env calls S) (hst : S.Step env S') : SInv env calls S' ∧ Keeps S.store S'.store := by
  cases hst with
  | step i w s hst =>
    obtain ⟨h1, h2, h3⟩ := worker_step (h.workers i) (hall i) h.flags.good hst
    obtain ⟨g1, g2⟩ := effect_inv h.flags i h2 h1
    refine ⟨⟨?_, fun j => ?_⟩, g2⟩
    · have : (fun j => (Function.update S.workers i w j).held) = Function.update (fun j => (S.workers j).held) i w.held := by
        funext j
        by_cases hj : j = i
        · subst hj; simp
        · simp [hj]
      rw [this]
      exact g1
    · by_cases hj : j = i
      · subst hj
        simp only [Function.update_self]
        exact h3 g2
      · simp only [Function.update_of_ne hj]
        exact (h.workers j).keep g2

/-- `k` steps of the system, in any order of the threads -/
inductive System.Steps (env : Env K) {n : Nat} : Nat → System K n → System K n → Prop
  | zero (S : System K n) : System.Steps env 0 S S
  | succ {k : Nat} {S S' S'' : System K n} (h : System.Steps env k S S') (h' : S'.Step env S'') : System.Steps env (k + 1) S S''

theorem sinv_steps {env : Env K} {n : Nat} {calls : Fin n → List Request} (hall : ∀ i, ∀ q ∈ calls i, q.Allowed env) {S S' : System K n} {k : Nat}
    (h : SInv env calls S) (hst : System.Steps env k S S') : SInv env calls S' ∧ Keeps S.store S'.store := by
  induction hst with
  | zero => exact ⟨h, fun _ _ h => h⟩
  | succ _ h' ih =>
    obtain ⟨g1, g2⟩ := ih h
    obtain ⟨f1, f2⟩ := sinv_step hall g1 h'
    exact ⟨f1, fun f v hv => f2 f v (g2 f v hv)⟩

/-- all calls of the thread are answered -/
def Worker.Finished (w : Worker K) : Prop := w.current = none ∧ w.todo = []

/-! ### C69 -/

/-- C69: for any number of threads, each with any list of allowed calls, starting with empty caches, in every interleaving:
every thread gets for its calls, in order, the rules that the factories create (same points and order, equal type) or the
exceptions that they throw; a thread that has finished has got them for all its calls -/
theorem C69_answers (env : Env K) {n : Nat} (calls : Fin n → List Request) (hall : ∀ i, ∀ q ∈ calls i, q.Allowed env) (k : Nat)
    (S : System K n) (h : System.Steps env k (System.start calls) S) (i : Fin n) :
    ∃ l l', calls i = l ++ l' ∧ List.Forall₂ (fun a q => Res.Rel SameRule a (Request.plain env q)) (S.workers i).answers l ∧
      ((S.workers i).Finished → l' = []) := by
  obtain ⟨l, h1, h2⟩ := (sinv_steps hall (sinv_start env calls) h).1.workers i
  have h1 : List.Forall₂ (fun a q => Res.Rel SameRule a (Request.plain env q)) (S.workers i).answers l := h1.imp fun _ _ h => h.1
  cases hc : (S.workers i).current with
  | none =>
    rw [hc] at h2
    exact ⟨l, _, h2, h1, fun h => h.2⟩
  | some t =>
    rw [hc] at h2
    obtain ⟨q, -, -, e, -⟩ := h2
    refine ⟨l, _, e, h1, fun h => ?_⟩
    rw [Worker.Finished, hc] at h
    exact nomatch h.1

/-- C69: equal requests (same place in the cache) get the same object, whichever threads make them; and the object is the one
in the cache -/
theorem C69_same_object (env : Env K) {n : Nat} (calls : Fin n → List Request) (hall : ∀ i, ∀ q ∈ calls i, q.Allowed env) (k : Nat)
    (S : System K n) (h : System.Steps env k (System.start calls) S) (i j : Fin n) (a b : Nat) (q q' : Request) (R R' : Rule K)
    (hq : (calls i)[a]? = some q) (hq' : (calls j)[b]? = some q') (hR : (S.workers i).answers[a]? = some (.ok R))
    (hR' : (S.workers j).answers[b]? = some (.ok R')) (hp : q.place = q'.place) : R = R' := by
  have key : ∀ (i : Fin n) (a : Nat) (q : Request) (R : Rule K), (calls i)[a]? = some q → (S.workers i).answers[a]? = some (.ok R) →
      ∃ d qt m p, q.place = some (d, qt, m, p) ∧ S.store.get (.rules d qt m p) = .done R := by
    intro i a q R hq hR
    obtain ⟨l, h1, h2⟩ := (sinv_steps hall (sinv_start env calls) h).1.workers i
    obtain ⟨l', hl'⟩ : ∃ l', calls i = l ++ l' := by
      cases hc : (S.workers i).current with
      | none => rw [hc] at h2; exact ⟨_, h2⟩
      | some t => rw [hc] at h2; obtain ⟨q, -, -, e, -⟩ := h2; exact ⟨_, e⟩
    obtain ⟨ha, e⟩ := List.getElem?_eq_some_iff.1 hR
    have hl := h1.length_eq
    rw [hl', List.getElem?_append_left (by omega)] at hq
    obtain ⟨ha', e'⟩ := List.getElem?_eq_some_iff.1 hq
    have := h1.get ha ha'
    rw [List.get_eq_getElem, List.get_eq_getElem, e, e'] at this
    obtain ⟨m, f1, f2⟩ := this.2 R rfl
    exact ⟨_, _, m, _, by rw [Request.place, f1]; rfl, f2⟩
  obtain ⟨d, qt, m, p, e1, e2⟩ := key i a q R hq hR
  obtain ⟨d', qt', m', p', f1, f2⟩ := key j b q' R' hq' hR'
  rw [e1, f1] at hp
  simp only [Option.some.injEq, Prod.mk.injEq] at hp
  obtain ⟨rfl, rfl, rfl, rfl⟩ := hp
  rw [e2] at f2
  injection f2

/-- C69: an object in the caches that has been initialised is never written again -/
theorem C69_stable (env : Env K) {n : Nat} (calls : Fin n → List Request) (hall : ∀ i, ∀ q ∈ calls i, q.Allowed env) (k k' : Nat)
    (S S' : System K n) (h : System.Steps env k (System.start calls) S) (h' : System.Steps env k' S S') (f : FlagId) (v : f.Val K)
    (hv : S.store.get f = .done v) : S'.store.get f = .done v :=
  (sinv_steps hall (sinv_steps hall (sinv_start env calls) h).1 h').2 f v hv

/-- C69: at no time are two threads in the initialisation of the same object, nor one thread twice; and an object that is being
initialised is not accessible -/
theorem C69_exclusive (env : Env K) {n : Nat} (calls : Fin n → List Request) (hall : ∀ i, ∀ q ∈ calls i, q.Allowed env) (k : Nat)
    (S : System K n) (h : System.Steps env k (System.start calls) S) (i : Fin n) (f : FlagId) (hf : f ∈ (S.workers i).held) :
    (S.workers i).held.count f = 1 ∧ (∀ j, f ∈ (S.workers j).held → j = i) ∧ ∀ v, S.store.get f ≠ .done v := by
  have hi := (sinv_steps hall (sinv_start env calls) h).1
  refine ⟨?_, fun j hj => hi.flags.unique j i f hj hf, fun v hv => ?_⟩
  · refine List.count_eq_one_of_mem ?_ hf
    obtain ⟨l, -, h2⟩ := hi.workers i
    rw [Worker.held]
    cases hc : (S.workers i).current with
    | none => exact List.nodup_nil
    | some t =>
      rw [hc] at h2
      obtain ⟨q, _, r, -, -, h3, -⟩ := h2
      exact (held_rank h3).2.imp fun {a b} h e => by rw [e] at h; omega
  · have := (hi.flags.running f).2 ⟨i, hf⟩
    rw [hv] at this
    exact nomatch this

/-- C69: there is no deadlock: as long as a thread has not finished, some thread can make a step -/
theorem C69_progress (env : Env K) {n : Nat} (calls : Fin n → List Request) (hall : ∀ i, ∀ q ∈ calls i, q.Allowed env) (k : Nat)
    (S : System K n) (h : System.Steps env k (System.start calls) S) (hf : ∃ i, ¬ (S.workers i).Finished) : ∃ S', S.Step env S' := by
  by_contra hno
  have hi := (sinv_steps hall (sinv_start env calls) h).1
  have hstuck : ∀ i, (S.workers i).step env S.store = none := by
    intro i
    cases hst : (S.workers i).step env S.store with
    | none => rfl
    | some x => exact absurd ⟨_, .step S i x.1 x.2 hst⟩ hno
  -- a thread that has not finished waits for a flag of lower rank than those that it holds
  have wait : ∀ i, ¬ (S.workers i).Finished → ∃ f, S.store.get f = .running ∧ ∀ g ∈ (S.workers i).held, f.rank < g.rank := by
    intro i hnf
    obtain ⟨l, -, h2⟩ := hi.workers i
    have hst := hstuck i
    rcases hw : S.workers i with ⟨answers, current, todo⟩
    rw [hw] at hst h2 hnf
    cases current with
    | none =>
      cases todo with
      | nil => exact absurd ⟨rfl, rfl⟩ hnf
      | cons q l => exact nomatch hst
    | some t =>
      obtain ⟨q, _, r, -, -, h3, -⟩ := h2
      by_cases hx : ∃ x, t = .run (.ret x)
      · obtain ⟨x, rfl⟩ := hx
        exact nomatch hst
      · have hst : t.step S.store = none := by
          cases t with
          | run p =>
            cases p with
            | ret x => exact absurd ⟨x, rfl⟩ hx
            | once _ _ _ => simpa [Worker.step] using hst
          | inside _ _ _ => simpa [Worker.step] using hst
        obtain ⟨f, f1, -, f3⟩ := (blocked_ref h3 hst).resolve_left hx
        exact ⟨f, f1, f3⟩
  -- descent
  have descent : ∀ m f, f.rank = m → S.store.get f ≠ .running := by
    intro m
    induction m using Nat.strong_induction_on with
    | _ m ih =>
      rintro f rfl hr
      obtain ⟨j, hj⟩ := (hi.flags.running f).1 hr
      have hnf : ¬ (S.workers j).Finished := by
        rintro ⟨h1, -⟩
        rw [Worker.held, h1] at hj
        simp at hj
      obtain ⟨g, g1, g2⟩ := wait j hnf
      exact ih g.rank (g2 f hj) g rfl g1
  obtain ⟨i, hnf⟩ := hf
  obtain ⟨f, f1, -⟩ := wait i hnf
  exact descent _ f rfl f1

/-- an upper bound for the number of steps that the calls of a thread take -/
def costs (l : List Request) : Nat := (l.map fun q => 18 * q.dim + 8).sum

/-- the steps that a thread of the user's program has still to make -/
def Worker.Bounded (w : Worker K) (m : Nat) : Prop :=
  match w.current with
  | none => costs w.todo ≤ m
  | some t => ∃ a, t.Bounded a ∧ a + 1 + costs w.todo ≤ m

theorem worker_bounded {env : Env K} {w w' : Worker K} {s s' : Store K} {m : Nat} (h : w.Bounded m)
    (hst : w.step env s = some (w', s')) : ∃ m', m' < m ∧ w'.Bounded m' := by
  obtain ⟨answers, current, todo⟩ := w
  cases current with
  | none =>
    cases todo with
    | nil => exact nomatch hst
    | cons q l =>
      injection hst with hst
      injection hst with e1 e2
      subst e1
      have h : costs (q :: l) ≤ m := h
      have hc : costs (q :: l) = 18 * q.dim + 8 + costs l := by simp [costs]
      exact ⟨18 * q.dim + 6 + 1 + costs l, by omega, _, bounded_rule env _ _ _ _, le_refl _⟩
  | some t =>
    obtain ⟨a, h1, h2⟩ := h
    by_cases hx : ∃ x, t = .run (.ret x)
    · obtain ⟨x, rfl⟩ := hx
      injection hst with hst
      injection hst with f1 f2
      subst f1
      exact ⟨costs todo, by dsimp only at h2; omega, le_refl (costs todo)⟩
    · have hst : (t.step s).map (fun x => ((⟨answers, some x.1, todo⟩ : Worker K), x.2)) = some (w', s') := by
        rw [← hst]
        cases t with
        | run p =>
          cases p with
          | ret x => exact absurd ⟨x, rfl⟩ hx
          | once _ _ _ => rfl
        | inside _ _ _ => rfl
      simp only [Option.map_eq_some_iff, Prod.mk.injEq] at hst
      obtain ⟨⟨t', s''⟩, f1, rfl, rfl⟩ := hst
      obtain ⟨b, g1, g2⟩ := step_bounded h1 f1
      exact ⟨b + 1 + costs todo, by dsimp only at h2; omega, b, g2, le_refl _⟩

/-- C69: every run is finite: the number of steps of all threads together is at most the sum of `18 dim + 8` over all calls
(so with C69_progress all calls return in every fair or unfair execution that does not stop as long as it can go on) -/
theorem C69_terminates (env : Env K) {n : Nat} (calls : Fin n → List Request) (k : Nat)
    (S : System K n) (h : System.Steps env k (System.start calls) S) : k ≤ ∑ i, ((calls i).map fun q => 18 * q.dim + 8).sum := by
  have key : ∀ k (S : System K n), System.Steps env k (System.start calls) S → ∃ m : Fin n → Nat, (∀ i, (S.workers i).Bounded (m i)) ∧
      k + ∑ i, m i ≤ ∑ i, costs (calls i) := by
    intro k S h
    generalize hS : System.start calls = S₀ at h
    induction h with
    | zero =>
      subst hS
      exact ⟨fun i => costs (calls i), fun i => le_refl (costs (calls i)), by simp⟩
    | succ _ h' ih =>
      obtain ⟨m, h1, h2⟩ := ih hS
      cases h' with
      | step i w s hst =>
        obtain ⟨a, g1, g2⟩ := worker_bounded (h1 i) hst
        refine ⟨Function.update m i a, fun j => ?_, ?_⟩
        · by_cases hj : j = i
          · subst hj; simpa using g2
          · simpa [hj] using h1 j
        · have := Finset.sum_update_of_mem (Finset.mem_univ i) m a
          rw [this]
          have h3 := Finset.add_sum_erase Finset.univ m (Finset.mem_univ i)
          rw [← Finset.sdiff_singleton_eq_erase] at h3
          omega
  obtain ⟨m, -, h2⟩ := key k S h
  have : ∀ l, costs l = (l.map fun q => 18 * q.dim + 8).sum := fun _ => rfl
  simp only [this] at h2
  omega

/-- C69: from every state that can be reached all threads can finish (and by the two theorems before, they do so unless the
scheduler stops) -/
theorem C69_complete (env : Env K) {n : Nat} (calls : Fin n → List Request) (hall : ∀ i, ∀ q ∈ calls i, q.Allowed env) (k : Nat)
    (S : System K n) (h : System.Steps env k (System.start calls) S) :
    ∃ k' S', System.Steps env k' S S' ∧ ∀ i, (S'.workers i).Finished := by
  have key : ∀ m k' S', (∑ i, ((calls i).map fun q => 18 * q.dim + 8).sum) + 1 ≤ k + k' + m → System.Steps env k' S S' →
      System.Steps env (k + k') (System.start calls) S' → ∃ k' S', System.Steps env k' S S' ∧ ∀ i, (S'.workers i).Finished := by
    intro m
    induction m with
    | zero =>
      intro k' S' hm _ h'
      have := C69_terminates env calls _ _ h'
      omega
    | succ m ih =>
      intro k' S' hm h1 h2
      by_cases hf : ∀ i, (S'.workers i).Finished
      · exact ⟨k', S', h1, hf⟩
      · obtain ⟨S'', h3⟩ := C69_progress env calls hall _ S' h2 (by push Not at hf; exact hf)
        exact ih (k' + 1) S'' (by omega) (h1.succ h3) (h2.succ h3)
  exact key _ 0 S (Nat.le_add_left _ _) (.zero S) h

/-- C69: a thread that runs alone does what the sequential model of C51 does -/
theorem C69_sequential (env : Env K) (q : Request) (s : Store K) :
    (progRule env q.dim q.type q.order q.qt).exec s = cachedRule env q.dim q.type q.order q.qt s := by
  rw [exec_rule]

/-- two threads that request the same prism rule -/
example : ∀ i : Fin 2, ∀ q ∈ (fun _ : Fin 2 => [(⟨3, ⟨3, false, 5⟩, 0, .GaussLegendre⟩ : Request)]) i, q.Allowed (K := ℚ) ⟨none⟩ := by
  intro i q hq
  simp only [List.mem_singleton] at hq
  subst hq
  exact ⟨⟨by decide, Or.inl ⟨5, by decide, rfl⟩⟩, fun h => nomatch h⟩

end Verif.Quad
