import Verif.Quad.ThreadsLemmas


/-! The steps of threads that request quadrature rules: what they compute, which flags they take, how many there are. -/

namespace Verif.Quad

open Verif.Typ

variable {K : Type} [Field K]

/-! ### Threads -/

/-- the flags whose functions the thread is executing, the innermost last -/
def Thread.held {α : Type} : Thread K α → List FlagId
  | .run _ => []
  | .inside f t _ => f :: t.held

/-- the thread takes only flags of rank less than `r`, and ends like `y` -/
def TRef (env : Env K) {α : Type} : Thread K α → Nat → {β : Type} → (α → β → Prop) → Res β → Prop
  | .run p => fun r _ R y => PRef env p r R y
  | .inside f t k => fun r _ R y => f.rank < r ∧
      (∃ yi : Res Unit, TRef env t f.rank (fun v _ => GoodVal env f v) yi ∧ yi ≠ .ub ∧ (yi = .throw → y = .throw)) ∧
      ∀ v, GoodVal env f v → PRef env (k v) r R y

theorem held_rank {env : Env K} {α β : Type} {t : Thread K α} {r : Nat} {R : α → β → Prop} {y : Res β} (h : TRef env t r R y) :
    (∀ f ∈ t.held, f.rank < r) ∧ t.held.Pairwise fun f g => g.rank < f.rank := by
  induction t generalizing r β with
  | run p => simp [Thread.held]
  | inside f t k ih =>
    obtain ⟨h1, ⟨yi, h2, -⟩, -⟩ := h
    obtain ⟨h3, h4⟩ := ih h2
    simp only [Thread.held, List.mem_cons, List.pairwise_cons]
    refine ⟨?_, h3, h4⟩
    rintro g (rfl | hg)
    · exact h1
    · exact (h3 g hg).trans h1

/-- all finished flags have good values -/
def StoreGood (env : Env K) (s : Store K) : Prop := ∀ f v, s.get f = .done v → GoodVal env f v

/-- the effect of a step on the flags: nothing; an idle flag is taken; or the innermost flag is released -/
inductive Effect (env : Env K) : List FlagId → Store K → List FlagId → Store K → Prop
  | read (l : List FlagId) (s : Store K) : Effect env l s l s
  | take (l : List FlagId) (s : Store K) (f : FlagId) (h : s.get f = .idle) : Effect env l s (l ++ [f]) (s.put f .running)
  | finish (l : List FlagId) (s : Store K) (f : FlagId) (v : f.Val K) (h : GoodVal env f v) : Effect env (l ++ [f]) s l (s.put f (.done v))
  | fail (l : List FlagId) (s : Store K) (f : FlagId) : Effect env (l ++ [f]) s l (s.put f .idle)

theorem Effect.cons {env : Env K} {l l' : List FlagId} {s s' : Store K} (f : FlagId) (h : Effect env l s l' s') :
    Effect env (f :: l) s (f :: l') s' := by
  cases h with
  | read => exact .read _ _
  | take _ _ f' h => exact .take (f :: l) s f' h
  | finish _ _ f' v h => exact .finish (f :: l') s f' v h
  | fail _ _ f' => exact .fail (f :: l') s f'

theorem step_ref {env : Env K} {α β : Type} {t t' : Thread K α} {r : Nat} {R : α → β → Prop} {y : Res β} {s s' : Store K}
    (h : TRef env t r R y) (hs : StoreGood env s) (hst : t.step s = some (t', s')) :
    TRef env t' r R y ∧ Effect env t.held s t'.held s' := by
  induction t generalizing r β with
  | run p =>
    cases p with
    | ret x => exact nomatch hst
    | once f init k =>
      obtain ⟨h1, h2, h3⟩ := h
      rw [Thread.step] at hst
      split at hst
      · rename_i v hv
        injection hst with hst
        injection hst with e1 e2
        subst e1 e2
        exact ⟨h3 v (hs f v hv), .read _ _⟩
      · exact nomatch hst
      · rename_i hv
        injection hst with hst
        injection hst with e1 e2
        subst e1 e2
        exact ⟨⟨h1, h2, h3⟩, .take [] s f hv⟩
  | inside f t k ih =>
    obtain ⟨h1, ⟨yi, h2, h3, h4⟩, h5⟩ := h
    have sub : ∀ (u : Thread K (f.Val K)), (t.step s).map (fun x => (Thread.inside f x.1 k, x.2)) = some (t', s') →
        TRef env t' r R y ∧ Effect env (Thread.inside f t k).held s t'.held s' := by
      intro _ hst
      simp only [Option.map_eq_some_iff, Prod.mk.injEq] at hst
      obtain ⟨⟨u, s''⟩, e1, rfl, rfl⟩ := hst
      obtain ⟨g1, g2⟩ := ih h2 e1
      exact ⟨⟨h1, ⟨yi, g1, h3, h4⟩, h5⟩, g2.cons f⟩
    cases t with
    | run p =>
      cases p with
      | ret x =>
        cases x with
        | ok v =>
          injection hst with hst
          injection hst with e1 e2
          subst e1 e2
          have hv : GoodVal env f v := by
            cases yi with
            | ok _ => exact h2
            | throw => exact h2.elim
            | ub => exact h2.elim
          exact ⟨h5 v hv, .finish [] s f v hv⟩
        | throw =>
          injection hst with hst
          injection hst with e1 e2
          subst e1 e2
          have hv : yi = .throw := by
            cases yi with
            | ok _ => exact h2.elim
            | throw => rfl
            | ub => exact h2.elim
          rw [h4 hv]
          exact ⟨trivial, .fail [] s f⟩
        | ub =>
          have hv : yi = .ub := by
            cases yi with
            | ok _ => exact h2.elim
            | throw => exact h2.elim
            | ub => rfl
          exact absurd hv h3
      | once f' init k' => exact sub (.run (.once f' init k')) hst
    | inside f' t k' => exact sub (.inside f' t k') hst

/-- a thread that can not go on has finished, or waits for a flag of smaller rank than those that it holds -/
theorem blocked_ref {env : Env K} {α β : Type} {t : Thread K α} {r : Nat} {R : α → β → Prop} {y : Res β} {s : Store K}
    (h : TRef env t r R y) (hst : t.step s = none) :
    (∃ x, t = .run (.ret x)) ∨ ∃ f, s.get f = .running ∧ f.rank < r ∧ ∀ g ∈ t.held, f.rank < g.rank := by
  induction t generalizing r β with
  | run p =>
    cases p with
    | ret x => exact Or.inl ⟨x, rfl⟩
    | once f init k =>
      right
      rw [Thread.step] at hst
      split at hst
      · exact nomatch hst
      · rename_i hv
        exact ⟨f, hv, h.1, by simp [Thread.held]⟩
      · exact nomatch hst
  | inside f t k ih =>
    right
    obtain ⟨h1, ⟨yi, h2, h3, h4⟩, h5⟩ := h
    have sub : (¬ ∃ x, t = .run (.ret x)) → t.step s = none →
        ∃ g, s.get g = .running ∧ g.rank < r ∧ ∀ g' ∈ (Thread.inside f t k).held, g.rank < g'.rank := by
      intro hn hst
      obtain ⟨g, g1, g2, g3⟩ := (ih h2 hst).resolve_left hn
      refine ⟨g, g1, g2.trans h1, ?_⟩
      simp only [Thread.held, List.mem_cons]
      rintro g' (rfl | hg')
      · exact g2
      · exact g3 g' hg'
    cases t with
    | run p =>
      cases p with
      | ret x => cases x <;> exact nomatch hst
      | once f' init k' =>
        refine sub nofun ?_
        simpa [Thread.step] using hst
    | inside f' t k' =>
      refine sub nofun ?_
      have hst : (((Thread.inside f' t k').step s).map fun x => (Thread.inside f x.1 k, x.2)) = none := hst
      simpa using hst

/-! ### The number of steps -/

/-- the program makes at most `n` steps, whatever it reads -/
def Prog.Bounded {α : Type} : Prog K α → Nat → Prop
  | .ret _, _ => True
  | .once _ init k, n => ∃ a b, init.Bounded a ∧ (∀ v, (k v).Bounded b) ∧ a + b + 2 ≤ n

theorem bounded_mono {α : Type} {p : Prog K α} {m n : Nat} (h : p.Bounded m) (hmn : m ≤ n) : p.Bounded n := by
  cases p with
  | ret _ => trivial
  | once f init k =>
    obtain ⟨a, b, h1, h2, h3⟩ := h
    exact ⟨a, b, h1, h2, by omega⟩

theorem bounded_bind {α β : Type} {p : Prog K α} {g : α → Prog K β} {m n : Nat} (h : p.Bounded m) (hg : ∀ a, (g a).Bounded n) :
    (p.bind g).Bounded (m + n) := by
  induction p generalizing m with
  | ret x =>
    cases x with
    | ok a => exact bounded_mono (hg a) (by omega)
    | throw => trivial
    | ub => trivial
  | once f init k _ ih =>
    obtain ⟨a, b, h1, h2, h3⟩ := h
    exact ⟨a, b + n, h1, fun v => ih v (h2 v) hg, by omega⟩

theorem bounded_ruleWith {dim : Nat} {t : GeometryType} {p : Int} {qt : QType} {mo : Res Nat} {x : Prog K (Rule K)} {n : Nat}
    (h : x.Bounded n) : (progRuleWith dim t p qt mo x).Bounded (n + 6) := by
  unfold progRuleWith
  split
  · trivial
  · refine ⟨0, n + 4, trivial, fun size => ?_, by omega⟩
    rw [show n + 4 = 0 + (n + 4) by omega]
    refine bounded_bind (m := 0) trivial fun index => ?_
    split
    · trivial
    · refine ⟨0, n + 2, trivial, fun m => ?_, by omega⟩
      dsimp only
      generalize (if dim = 0 then (0 : Int) else p) = k
      by_cases hk : k < 0 ∨ ((show Nat from m) : Int) ≤ k
      · rw [if_pos hk]; trivial
      · rw [if_neg hk]
        exact ⟨n, 0, h, fun _ => trivial, by omega⟩

theorem bounded_jacobiN (env : Env K) (o a : Int) : (progJacobiN env o a).Bounded 6 := by
  have h0 : ∀ qt, (progRule1Tab (K := K) line o qt).Bounded 6 := fun qt => bounded_ruleWith (n := 0) trivial
  have h1 : (progDecideRuleExponent env o a).Bounded 6 := by
    unfold progDecideRuleExponent
    split
    · exact bounded_bind (n := 0) (h0 _) fun _ => trivial
    · split
      · exact bounded_bind (n := 0) (h0 _) fun _ => trivial
      · split
        · exact bounded_bind (n := 0) (h0 _) fun _ => trivial
        · trivial
  have h2 : (progDecideRule env o a).Bounded 6 := by
    unfold progDecideRule
    split
    · exact h1
    · trivial
  unfold progJacobiN
  split
  · trivial
  · exact bounded_bind (n := 0) h2 fun _ => trivial

theorem bounded_factory1 (env : Env K) (t : GeometryType) (p : Int) (qt : QType) : (progFactory1 env t p qt).Bounded 6 := by
  unfold progFactory1
  split
  · split
    · trivial
    · exact bounded_jacobiN ..
  · trivial

theorem bounded_tensor (env : Env K) {dim id : Nat} {o : Int} {qt : QType} {x : Prog K (Rule K)} {n : Nat} (h : x.Bounded n) :
    (progTensorRule env dim id o qt x).Bounded (n + 12) := by
  refine bounded_bind h fun B => ?_
  split
  · exact bounded_bind (n := 0) (bounded_ruleWith (bounded_factory1 ..)) fun _ => trivial
  · split
    · exact bounded_bind (n := 0) (bounded_ruleWith (bounded_factory1 ..)) fun _ => trivial
    · exact bounded_mono (bounded_bind (n := 0) (bounded_jacobiN ..) fun _ => trivial) (by omega)

theorem bounded_rule (env : Env K) : ∀ (d : Nat) (t : GeometryType) (p : Int) (qt : QType),
    (progRule env d t p qt).Bounded (18 * d + 6)
  | 0, t, p, qt => by
    refine bounded_ruleWith (n := 0) ?_
    simp only [progFactory]
    split <;> trivial
  | d + 1, t, p, qt => by
    have ih := bounded_rule env d (baseTypeOf (d + 1) t.id) p qt
    refine bounded_mono (bounded_ruleWith (n := 18 * d + 18) ?_) (by omega)
    have ht := bounded_tensor env (dim := d + 1) (id := t.id) (o := p) (qt := qt) ih
    match d, ht with
    | 0, _ => exact bounded_mono (bounded_factory1 ..) (by omega)
    | 1, ht =>
      simp only [progFactory]
      split
      · trivial
      · exact ht
    | 2, ht =>
      simp only [progFactory]
      split
      · trivial
      · split
        · trivial
        · exact ht
    | d + 3, ht => exact ht

/-- the same for threads -/
def Thread.Bounded {α : Type} : Thread K α → Nat → Prop
  | .run p, n => p.Bounded n
  | .inside _ t k, n => ∃ a b, t.Bounded a ∧ (∀ v, (k v).Bounded b) ∧ a + b + 1 ≤ n

theorem step_bounded {α : Type} {t t' : Thread K α} {n : Nat} {s s' : Store K} (h : t.Bounded n)
    (hst : t.step s = some (t', s')) : ∃ m, m < n ∧ t'.Bounded m := by
  induction t generalizing n with
  | run p =>
    cases p with
    | ret x => exact nomatch hst
    | once f init k =>
      obtain ⟨a, b, h1, h2, h3⟩ := h
      rw [Thread.step] at hst
      split at hst
      · injection hst with hst
        injection hst with e1 e2
        subst e1
        exact ⟨b, by omega, h2 _⟩
      · exact nomatch hst
      · injection hst with hst
        injection hst with e1 e2
        subst e1
        exact ⟨a + b + 1, by omega, a, b, h1, h2, by omega⟩
  | inside f t k ih =>
    obtain ⟨a, b, h1, h2, h3⟩ := h
    have sub : (t.step s).map (fun x => (Thread.inside f x.1 k, x.2)) = some (t', s') → ∃ m, m < n ∧ t'.Bounded m := by
      intro hst
      simp only [Option.map_eq_some_iff, Prod.mk.injEq] at hst
      obtain ⟨⟨u, s''⟩, e1, rfl, rfl⟩ := hst
      obtain ⟨m, g1, g2⟩ := ih h1 e1
      exact ⟨m + b + 1, by omega, m, b, g2, h2, by omega⟩
    cases t with
    | run p =>
      cases p with
      | ret x =>
        cases x with
        | ok v =>
          injection hst with hst
          injection hst with e1 e2
          subst e1
          exact ⟨b, by omega, h2 v⟩
        | throw =>
          injection hst with hst
          injection hst with e1 e2
          subst e1
          exact ⟨0, by omega, trivial⟩
        | ub =>
          injection hst with hst
          injection hst with e1 e2
          subst e1
          exact ⟨0, by omega, trivial⟩
      | once f' init k' => exact sub hst
    | inside f' t k' => exact sub hst

end Verif.Quad
