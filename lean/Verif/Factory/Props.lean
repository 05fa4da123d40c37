import Verif.Factory.Lemmas

/-!
Property theorems for the singleton factory: C08.

They hold for every comparison of keys that the standard allows, every underlying factory that does not request the
object it is creating (`Ranked`), and every history of requests for regular types of the dimension, through any of
the three `create` methods.
-/

namespace Verif.Factory

open Verif.Typ

variable {Key : Type} {lt : Key → Key → Bool} {dim fuel : Nat} {factory : Nat → GeometryType → Key → Prog Key}
  {rank : Key → Nat → Nat} {rs : List (Request Key)} {os : List Out} {s : State Key}

theorem getObject_some {call : Request Key → State Key → Out × State Key} {key : Key} {id h : Nat} {t : Option GeometryType}
    {s : State Key} (hh : s.at lt key id = some h) : (getObject lt call factory key id t s).1 = .ok (some h) := by
  unfold getObject
  have : lookup lt (touch lt s.storage key) key id = some h := (lookup_touch _ _ _ _).trans hh
  simp only [this]

theorem create_some (n : Nat) (r : Request Key) (s : State Key) (hv : r.Valid dim) {h : Nat}
    (hh : s.at lt r.key r.id = some h) : (create lt dim factory (n + 1) r s).1 = .ok (some h) := by
  obtain ⟨⟨v1, v2⟩, v3⟩ := hv
  cases r with
  | dynamic gt key =>
    simp only [Request.type] at v1 v2 v3
    rw [create, if_pos (v3 ▸ v2)]
    exact getObject_some hh
  | static g key =>
    simp only [Request.type] at v1 v2 v3
    rw [create, if_pos ⟨v3, v3 ▸ v2⟩]
    exact getObject_some hh
  | topology i d key =>
    simp only [Request.type] at v1 v2 v3
    rw [create, if_pos ⟨v3, v3 ▸ v2⟩]
    exact getObject_some hh

/-- C08: no request is undefined, and each comes to an end. -/
theorem C08_defined (hlt : StrictWeak lt) (hdim : dim ≤ 30) (hr : Ranked lt dim factory rank) (hv : ∀ r ∈ rs, r.Valid dim)
    (hf : ∀ r ∈ rs, rank r.key (r.id / 2) < fuel) (hrun : history lt dim factory fuel rs State.init = (os, s)) :
    os.length = rs.length ∧ ∀ o ∈ os, o ≠ .ub ∧ o ≠ .diverge := by
  have h := history_good hlt hdim hr fuel rs State.init hv (inv_init lt dim)
  rw [hrun] at h
  obtain ⟨-, -, h3, h4⟩ := h
  refine ⟨h3, fun o ho => ?_⟩
  obtain ⟨n, hn, rfl⟩ := List.getElem_of_mem ho
  simp only at h3
  have hn' : n < rs.length := by omega
  have := h4 n rs[n] os[n] (List.getElem?_eq_getElem hn') (List.getElem?_eq_getElem hn)
  exact ⟨this.1, this.2.1 (hf _ (List.getElem_mem hn'))⟩

/-- C08: once a request has been answered with an object, every later request with the same (an equivalent) key and
the same topology id is answered with this object. -/
theorem C08_same (hlt : StrictWeak lt) (hdim : dim ≤ 30) (hr : Ranked lt dim factory rank) (hv : ∀ r ∈ rs, r.Valid dim)
    (hrun : history lt dim factory fuel rs State.init = (os, s)) (m n : Nat) (hmn : m ≤ n) (r r' : Request Key) (h : Nat)
    (hm : rs[m]? = some r) (hn : rs[n]? = some r') (hk : same lt r.key r'.key = true) (hi : r.id = r'.id)
    (ho : os[m]? = some (.ok (some h))) : os[n]? = some (.ok (some h)) := by
  -- for any initial state in which the entry is filled, all answers agree
  have key : ∀ (rs : List (Request Key)) (s₀ : State Key), (∀ r ∈ rs, r.Valid dim) → Inv lt dim s₀ →
      s₀.at lt r.key r.id = some h → ∀ n : Nat, rs[n]? = some r' → (history lt dim factory (fuel - 1 + 1) rs s₀).1[n]? = some (Out.ok (some h)) := by
    intro rs
    induction rs with
    | nil => intro s₀ _ _ _ n hn; simp at hn
    | cons q rs ih =>
      intro s₀ hv hinv hs n hn
      have hg := create_good hlt hdim hr (fuel - 1 + 1) q s₀ (hv q (by simp)) hinv
      cases e : create lt dim factory (fuel - 1 + 1) q s₀ with
      | mk o s₁ =>
        rw [e] at hg
        simp only [history, e]
        cases n with
        | zero =>
          simp only [List.getElem?_cons_zero, Option.some.injEq] at hn
          subst hn
          have hh : s₀.at lt q.key q.id = some h := by
            rw [State.at, ← lookup_congr hlt hk, ← hi]; exact hs
          have := create_some (factory := factory) (fuel - 1) q s₀ (hv q (by simp)) hh
          rw [e] at this
          simp only at this
          simp [this]
        | succ n =>
          simp only [List.getElem?_cons_succ] at hn ⊢
          exact ih s₁ (fun r hr => hv r (by simp [hr])) hg.inv (hg.later.keep _ _ _ hs) n hn
  have main : ∀ (rs : List (Request Key)) (s₀ : State Key), (∀ r ∈ rs, r.Valid dim) → Inv lt dim s₀ → ∀ m n : Nat, m ≤ n →
      rs[m]? = some r → rs[n]? = some r' → (history lt dim factory fuel rs s₀).1[m]? = some (Out.ok (some h)) →
      (history lt dim factory fuel rs s₀).1[n]? = some (Out.ok (some h)) := by
    intro rs
    induction rs with
    | nil => intro s₀ _ _ m n _ hm; simp at hm
    | cons q rs ih =>
      intro s₀ hv hinv m n hmn hm hn ho
      have hg := create_good hlt hdim hr fuel q s₀ (hv q (by simp)) hinv
      cases e : create lt dim factory fuel q s₀ with
      | mk o s₁ =>
        rw [e] at hg
        simp only [history, e] at ho ⊢
        cases n with
        | zero =>
          obtain rfl : m = 0 := by omega
          exact ho
        | succ n =>
          simp only [List.getElem?_cons_succ] at hn ⊢
          cases m with
          | zero =>
            simp only [List.getElem?_cons_zero, Option.some.injEq] at hm ho
            subst hm ho
            have hf : fuel = fuel - 1 + 1 := by
              cases fuel with
              | zero => simp [create] at e
              | succ f => rfl
            rw [hf]
            exact key rs s₁ (fun r hr => hv r (by simp [hr])) hg.inv (hg.result _ rfl) n hn
          | succ m =>
            exact ih s₁ (fun r hr => hv r (by simp [hr])) hg.inv m n (by omega) (by simpa using hm) hn (by simpa using ho)
  have := main rs State.init hv (inv_init lt dim) m n hmn hm hn (by rw [hrun]; exact ho)
  rwa [hrun] at this

/-- C08: requests with different keys or different topology ids get different objects. -/
theorem C08_different (hlt : StrictWeak lt) (hdim : dim ≤ 30) (hr : Ranked lt dim factory rank) (hv : ∀ r ∈ rs, r.Valid dim)
    (hrun : history lt dim factory fuel rs State.init = (os, s)) (m n : Nat) (r r' : Request Key) (h h' : Nat)
    (hm : rs[m]? = some r) (hn : rs[n]? = some r') (hk : ¬ (same lt r.key r'.key = true ∧ r.id = r'.id))
    (ho : os[m]? = some (.ok (some h))) (ho' : os[n]? = some (.ok (some h'))) : h ≠ h' := by
  have hg := history_good hlt hdim hr fuel rs State.init hv (inv_init lt dim)
  rw [hrun] at hg
  obtain ⟨h1, -, -, h4⟩ := hg
  rintro rfl
  exact hk (h1.inj _ _ _ _ _ ((h4 m r _ hm ho).2.2 h rfl) ((h4 n r' _ hn ho').2.2 h rfl))

/-- C08: at the end of the history each returned pointer points to a living object, which the underlying factory made
for the requested type (`operator==`) and an equivalent key. -/
theorem C08_object (hlt : StrictWeak lt) (hdim : dim ≤ 30) (hr : Ranked lt dim factory rank) (hv : ∀ r ∈ rs, r.Valid dim)
    (hrun : history lt dim factory fuel rs State.init = (os, s)) (n : Nat) (r : Request Key) (h : Nat)
    (hn : rs[n]? = some r) (ho : os[n]? = some (.ok (some h))) :
    ∃ o, s.heap[h]? = some o ∧ o.alive = true ∧ same lt o.key r.key = true ∧ Typ.eq o.type r.type = true := by
  have hg := history_good hlt hdim hr fuel rs State.init hv (inv_init lt dim)
  rw [hrun] at hg
  obtain ⟨h1, -, -, h4⟩ := hg
  obtain ⟨o, e1, e2, e3, e4, e5, e6⟩ := h1.object _ _ _ ((h4 n r _ hn ho).2.2 h rfl)
  refine ⟨o, e1, e2, e3, ?_⟩
  obtain ⟨⟨v1, v2⟩, v3⟩ := hv r (List.mem_of_getElem? hn)
  refine (C02_eq_spec _ _ e4 v1).2 ⟨e5.trans v3.symm, (half_eq_iff _ _).1 ?_⟩
  rw [e6]
  cases r <;> rfl

/-- C08: after the underlying factory has made the object for a key and an id it is not called for them again; in
particular it makes at most one object for them. -/
theorem C08_once (hlt : StrictWeak lt) (hdim : dim ≤ 30) (hr : Ranked lt dim factory rank) (hv : ∀ r ∈ rs, r.Valid dim)
    (hrun : history lt dim factory fuel rs State.init = (os, s)) (l₁ l₂ : List (Call Key)) (c : Call Key)
    (hl : s.log = l₁ ++ c :: l₂) (hm : c.made = true) :
    ∀ c' ∈ l₂, ¬ (same lt c.key c'.key = true ∧ c.id = c'.id) := by
  have hg := history_good hlt hdim hr fuel rs State.init hv (inv_init lt dim)
  rw [hrun] at hg
  exact hg.1.last _ _ _ hl hm

/-- C08: `release` does nothing; objects live on. -/
theorem C08_release (p : Option Nat) : singletonRelease s p = s := rfl

/-! ### Examples and limits -/

/-- keys are numbers; making an object for a key `k + 1` needs that for `k` -/
private def chain : Nat → GeometryType → Nat → Prog Nat
  | _, _, 0 => .object
  | _, t, k + 1 => .ask (.static ⟨3, false, t.id % 8⟩ k) fun
    | some (some _) => .object
    | _ => .throw

private def less (a b : Nat) : Bool := decide (a < b)

theorem less_strictWeak : StrictWeak less :=
  ⟨by simp [less], by simp only [less, decide_eq_true_eq]; omega, by
    simp only [same, less, Bool.and_eq_true, Bool.not_eq_true', decide_eq_false_iff_not]; omega⟩

theorem chain_ranked : Ranked less 3 chain (fun k _ => k) := by
  refine ⟨?_, ?_⟩
  · simp only [same, less, Bool.and_eq_true, Bool.not_eq_true', decide_eq_false_iff_not]; omega
  · intro n t k
    cases k with
    | zero => trivial
    | succ k =>
      refine ⟨⟨⟨⟨rfl, ?_⟩, rfl⟩, ?_⟩, ?_⟩
      · simp only [Request.type]; omega
      · simp [Request.key]
      · intro p
        match p with
        | none => trivial
        | some none => trivial
        | some (some _) => trivial

example : ∃ rs os s, StrictWeak less ∧ Ranked less 3 chain (fun k _ => k) ∧ (∀ r ∈ rs, r.Valid 3) ∧
    history less 3 chain 3 rs State.init = (os, s) ∧ os = [.ok (some 2), .ok (some 1), .ok (some 3), .ok (some 2)] := by
  refine ⟨[.dynamic prism 2, .static ⟨3, false, 4⟩ 1, .static prism 0, .topology 5 3 2], _, _, less_strictWeak, chain_ranked, ?_, rfl, ?_⟩
  · intro r hr
    simp only [List.mem_cons, List.not_mem_nil, or_false] at hr
    rcases hr with rfl | rfl | rfl | rfl <;> exact ⟨⟨rfl, by decide⟩, rfl⟩
  · decide +kernel

/-- the statement of `C08_object` for all types that `create` accepts -/
def C08_object_full : Prop := ∀ (dim : Nat) (factory : Nat → GeometryType → Nat → Prog Nat) (rank : Nat → Nat → Nat)
  (rs : List (Request Nat)) (fuel n : Nat) (r : Request Nat) (h : Nat), dim ≤ 30 → Ranked less dim factory rank →
  (∀ r ∈ rs, r.type.dim = dim ∧ r.type.id < 2 ^ dim) → rs[n]? = some r →
  (history less dim factory fuel rs State.init).1[n]? = some (.ok (some h)) →
  ∃ o, (history less dim factory fuel rs State.init).2.heap[h]? = some o ∧ Typ.eq o.type r.type = true

/-- the none type shares the entry of the simplex: whichever is requested first is delivered for both -/
theorem C08_object_counterexample : ¬ C08_object_full := by
  intro hf
  obtain ⟨o, h1, h2⟩ := hf 3 (fun _ _ _ => .object) (fun _ _ => 0) [.dynamic (noneType 3) 0] 1 0 (.dynamic (noneType 3) 0) 0
    (by omega) ⟨fun _ _ _ _ => rfl, fun _ _ _ => trivial⟩ (by
      intro r hr
      simp only [List.mem_cons, List.not_mem_nil, or_false] at hr
      subst hr; exact ⟨rfl, by decide⟩) rfl (by decide +kernel)
  have : (history less 3 (fun _ _ _ => .object) 1 [.dynamic (noneType 3) 0] State.init).2.heap[0]? =
      some ⟨⟨3, false, 0⟩, 0, true⟩ := rfl
  rw [this] at h1
  cases h1
  revert h2
  decide

/-- user code that requests the object it is creating, after a request for another key -/
private def loop : Nat → GeometryType → Nat → Prog Nat
  | 0, t, 0 => .ask (.static t 1) fun _ => .ask (.static t 0) fun _ => .object
  | _, _, 0 => .object
  | _, _, _ => .null

/-- `Ranked` is needed: an object requested while it is being created is made twice, and the pointer delivered to
the nested request points to an object that is destroyed. -/
theorem C08_reentrant_counterexample : ∃ s, history less 1 loop 3 [.static line 0] State.init = ([.ok (some 1)], s) ∧
    s.log.map (fun c => (c.key, c.id, c.made)) = [(1, 0, false), (0, 0, true), (0, 0, true)] ∧
    s.heap.map Object.alive = [false, true] := by
  refine ⟨_, rfl, ?_, ?_⟩ <;> decide +kernel

end Verif.Factory
