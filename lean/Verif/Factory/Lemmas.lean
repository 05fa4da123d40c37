import Verif.Factory.Model
import Verif.Type.Props

/-! Lemmas on the singleton factory: lookups, and the invariant kept by every request. -/

namespace Verif.Factory

open Verif.Typ

variable {Key : Type}

/-- what the standard requires of the comparison of a map -/
structure StrictWeak (lt : Key → Key → Bool) : Prop where
  irrefl : ∀ a, lt a a = false
  trans : ∀ a b c, lt a b = true → lt b c = true → lt a c = true
  incomp : ∀ a b c, same lt a b = true → same lt b c = true → same lt a c = true

/-- no request nested in the program violates `P`, whatever it gets -/
def Prog.All (P : Request Key → Prop) : Prog Key → Prop
  | .object => True
  | .null => True
  | .throw => True
  | .ask r k => P r ∧ ∀ p, (k p).All P

/-- a request for a regular type of the dimension -/
def Request.Valid (dim : Nat) (r : Request Key) : Prop := Regular r.type ∧ r.type.dim = dim

/-- user code does not request, directly or indirectly, the object that is being created: each nested request is for
a pair of key and type that is lower in some ranking -/
structure Ranked (lt : Key → Key → Bool) (dim : Nat) (factory : Nat → GeometryType → Key → Prog Key)
    (rank : Key → Nat → Nat) : Prop where
  congr : ∀ a b i, same lt a b = true → rank a i = rank b i
  below : ∀ n t key, (factory n t key).All fun r => r.Valid dim ∧ rank r.key (r.id / 2) < rank key (t.id / 2)

section
variable {lt : Key → Key → Bool} (hlt : StrictWeak lt)
include hlt

theorem same_refl (a : Key) : same lt a a = true := by simp [same, hlt.irrefl]

omit hlt in
theorem same_symm {a b : Key} (h : same lt a b = true) : same lt b a = true := by
  simp only [same, Bool.and_eq_true] at h ⊢; exact ⟨h.2, h.1⟩

theorem same_congr {a b : Key} (h : same lt a b = true) (c : Key) : same lt a c = same lt b c := by
  rw [Bool.eq_iff_iff]
  exact ⟨fun g => hlt.incomp _ _ _ (same_symm h) g, fun g => hlt.incomp _ _ _ h g⟩

theorem lookup_congr {a b : Key} (h : same lt a b = true) (i : Nat) : ∀ l : List (Key × (Nat → Option Nat)),
    lookup lt l a i = lookup lt l b i
  | [] => rfl
  | e :: l => by rw [lookup, lookup, same_congr hlt h, lookup_congr h i l]

theorem lookup_update (k : Key) (i : Nat) (v : Option Nat) (k' : Key) (i' : Nat) : ∀ l : List (Key × (Nat → Option Nat)),
    lookup lt (update lt l k i v) k' i' = if same lt k' k = true ∧ i' = i then v else lookup lt l k' i'
  | [] => by
    rw [update, lookup]
    by_cases h : same lt k' k = true <;> by_cases h' : i' = i <;> simp [h, h', lookup]
  | e :: l => by
    rw [update]
    by_cases h : same lt k e.1 = true
    · rw [if_pos h, lookup]
      by_cases h' : same lt k' e.1 = true
      · have hs : same lt k' k = true := hlt.incomp _ _ _ h' (same_symm h)
        rw [lookup]
        by_cases hi : i' = i <;> simp [h', hs, hi]
      · have hs : ¬ same lt k' k = true := fun g => h' (hlt.incomp _ _ _ g h)
        rw [lookup]
        simp [h', hs]
    · rw [if_neg h, lookup, lookup, lookup_update k i v k' i' l]
      by_cases h' : same lt k' e.1 = true
      · have hs : ¬ same lt k' k = true := fun g => h (hlt.incomp _ _ _ (same_symm g) h')
        simp [h', hs]
      · simp [h']

omit hlt in
theorem lookup_append (k k' : Key) (i : Nat) : ∀ l : List (Key × (Nat → Option Nat)),
    lookup lt (l ++ [(k, fun _ => none)]) k' i = lookup lt l k' i
  | [] => by simp [lookup]
  | e :: l => by simp only [List.cons_append, lookup, lookup_append k k' i l]

omit hlt in
theorem lookup_touch (l : List (Key × (Nat → Option Nat))) (k k' : Key) (i : Nat) :
    lookup lt (touch lt l k) k' i = lookup lt l k' i := by
  unfold touch
  split
  · rfl
  · exact lookup_append k k' i l

end

/-- the stored pointer -/
def State.at (lt : Key → Key → Bool) (s : State Key) (k : Key) (i : Nat) : Option Nat := lookup lt s.storage k i

/-- Invariant: a stored pointer points to a living object, made for an equivalent key and an equal type; different
entries have different objects; a call that made an object is recorded only for entries that are filled, and no call
for such an entry follows. -/
structure Inv (lt : Key → Key → Bool) (dim : Nat) (s : State Key) : Prop where
  object : ∀ k i h, s.at lt k i = some h → ∃ o, s.heap[h]? = some o ∧ o.alive = true ∧ same lt o.key k = true ∧
    o.type.isNone = false ∧ o.type.dim = dim ∧ o.type.id / 2 = i / 2
  inj : ∀ k i k' i' h, s.at lt k i = some h → s.at lt k' i' = some h → same lt k k' = true ∧ i = i'
  filled : ∀ c ∈ s.log, c.made = true → (s.at lt c.key c.id).isSome = true
  last : ∀ l₁ c l₂, s.log = l₁ ++ c :: l₂ → c.made = true → ∀ c' ∈ l₂, ¬ (same lt c.key c'.key = true ∧ c.id = c'.id)

/-- Nothing stored is changed, and no object is changed. -/
structure Later (lt : Key → Key → Bool) (s s' : State Key) : Prop where
  keep : ∀ k i h, s.at lt k i = some h → s'.at lt k i = some h
  heap : ∀ (h : Nat) (o : Object Key), s.heap[h]? = some o → s'.heap[h]? = some o

theorem Later.refl {lt : Key → Key → Bool} (s : State Key) : Later lt s s := ⟨fun _ _ _ h => h, fun _ _ h => h⟩

theorem Later.trans {lt : Key → Key → Bool} {s s' s'' : State Key} (h : Later lt s s') (h' : Later lt s' s'') : Later lt s s'' :=
  ⟨fun k i x e => h'.keep k i x (h.keep k i x e), fun x o e => h'.heap x o (h.heap x o e)⟩

theorem inv_init (lt : Key → Key → Bool) (dim : Nat) : Inv lt dim (State.init : State Key) := by
  refine ⟨?_, ?_, ?_, ?_⟩
  · intro k i h e; simp [State.at, State.init, lookup] at e
  · intro k i k' i' h e; simp [State.at, State.init, lookup] at e
  · intro c hc; simp [State.init] at hc
  · intro l₁ c l₂ e; simp [State.init] at e

/-- what a request for rank `R` may change: entries of rank at most `R` -/
def Frame (lt : Key → Key → Bool) (rank : Key → Nat → Nat) (R : Nat) (s s' : State Key) : Prop :=
  ∀ k i, R < rank k (i / 2) → s'.at lt k i = s.at lt k i

/-- what is shown of every request -/
structure Good (lt : Key → Key → Bool) (dim : Nat) (rank : Key → Nat → Nat) (fuel : Nat) (key : Key) (id : Nat) (s : State Key)
    (x : Out × State Key) : Prop where
  inv : Inv lt dim x.2
  later : Later lt s x.2
  frame : Frame lt rank (rank key (id / 2)) s x.2
  result : ∀ p, x.1 = .ok p → x.2.at lt key id = p
  ub : x.1 ≠ .ub
  term : rank key (id / 2) < fuel → x.1 ≠ .diverge

theorem exec_good {lt : Key → Key → Bool} {dim : Nat} {rank : Key → Nat → Nat} {R n : Nat}
    {call : Request Key → State Key → Out × State Key}
    (hcall : ∀ r s, r.Valid dim → Inv lt dim s → Good lt dim rank n r.key r.id s (call r s)) :
    ∀ (p : Prog Key) (s : State Key), p.All (fun r => r.Valid dim ∧ rank r.key (r.id / 2) < R) → Inv lt dim s →
      Inv lt dim (exec call p s).2 ∧ Later lt s (exec call p s).2 ∧
      (∀ k i, R ≤ rank k (i / 2) → (exec call p s).2.at lt k i = s.at lt k i) ∧
      (exec call p s).1 ≠ .ub ∧ (R ≤ n → (exec call p s).1 ≠ .diverge) ∧
      (∀ h, (exec call p s).1 = .ok (some h) → h = (exec call p s).2.heap.length)
  | .object, s, _, hs => ⟨hs, .refl s, fun _ _ _ => rfl, by simp [exec], by simp [exec], by simp [exec]⟩
  | .null, s, _, hs => ⟨hs, .refl s, fun _ _ _ => rfl, by simp [exec], by simp [exec], by simp [exec]⟩
  | .throw, s, _, hs => ⟨hs, .refl s, fun _ _ _ => rfl, by simp [exec], by simp [exec], by simp [exec]⟩
  | .ask r k, s, hp, hs => by
    have hg := hcall r s hp.1.1 hs
    have hR := hp.1.2
    have key : ∀ q s', call r s = (q, s') → ∀ x, Inv lt dim (exec call (k x) s').2 ∧ Later lt s (exec call (k x) s').2 ∧
        (∀ kk i, R ≤ rank kk (i / 2) → (exec call (k x) s').2.at lt kk i = s.at lt kk i) ∧
        (exec call (k x) s').1 ≠ .ub ∧ (R ≤ n → (exec call (k x) s').1 ≠ .diverge) ∧
        (∀ h, (exec call (k x) s').1 = .ok (some h) → h = (exec call (k x) s').2.heap.length) := by
      intro q s' e x
      rw [e] at hg
      obtain ⟨h1, h2, h3, h4, h5, h6⟩ := exec_good hcall (k x) s' (hp.2 x) hg.inv
      exact ⟨h1, hg.later.trans h2, fun kk i hk => (h3 kk i hk).trans (hg.frame kk i (by omega)), h4, h5, h6⟩
    rw [exec]
    cases e : call r s with
    | mk q s' =>
      cases q with
      | ok p => exact key _ _ e (some p)
      | thrown => exact key _ _ e none
      | ub => rw [e] at hg; exact absurd rfl hg.ub
      | diverge =>
        rw [e] at hg
        exact ⟨hg.inv, hg.later, fun kk i hk => hg.frame kk i (by omega), by simp, fun hn => absurd rfl (hg.term (by omega)),
          by simp⟩

section
variable {lt : Key → Key → Bool} (hlt : StrictWeak lt)
include hlt

/-- a call that did not make an object is recorded for an empty entry -/
theorem inv_log {dim : Nat} {s : State Key} (hs : Inv lt dim s) {key : Key} {id : Nat} (he : s.at lt key id = none) :
    Inv lt dim { s with log := s.log ++ [⟨key, id, false⟩] } := by
  refine ⟨hs.object, hs.inj, ?_, ?_⟩
  · intro c hc hm
    rcases List.mem_append.1 hc with hc | hc
    · exact hs.filled c hc hm
    · rw [List.mem_singleton] at hc; subst hc; cases hm
  · intro l₁ c l₂ e hm c' hc'
    rcases List.eq_nil_or_concat l₂ with rfl | ⟨l₃, z, rfl⟩
    · cases hc'
    · rw [List.concat_eq_append, ← List.cons_append, ← List.append_assoc] at e
      obtain ⟨e1, e2⟩ := List.append_inj' e rfl
      rw [List.concat_eq_append, List.mem_append] at hc'
      rcases hc' with hc' | hc'
      · exact hs.last _ _ _ e1 hm c' hc'
      · rw [List.mem_singleton] at hc'
        subst hc'
        rw [List.cons.injEq] at e2
        rw [← e2.1]
        rintro ⟨g1, g2⟩
        simp only at g1 g2
        have := hs.filled c (by rw [e1]; simp) hm
        rw [State.at, lookup_congr hlt g1, g2] at this
        rw [State.at] at he
        rw [he] at this
        cases this

/-- a call that made an object: the entry is filled with it -/
theorem inv_made {dim : Nat} {s : State Key} (hs : Inv lt dim s) {key : Key} {id : Nat} (he : s.at lt key id = none)
    {t : GeometryType} (ht : t.isNone = false) (htd : t.dim = dim) (hti : t.id / 2 = id / 2) :
    Inv lt dim ⟨update lt s.storage key id (some s.heap.length), s.heap ++ [⟨t, key, true⟩], s.log ++ [⟨key, id, true⟩]⟩ := by
  have hl := inv_log hlt hs he
  have hat : ∀ k i, lookup lt (update lt s.storage key id (some s.heap.length)) k i =
      if same lt k key = true ∧ i = id then some s.heap.length else s.at lt k i := fun k i => lookup_update hlt _ _ _ _ _ _
  have hb : ∀ k i h, s.at lt k i = some h → h < s.heap.length := by
    intro k i h e
    obtain ⟨o, e1, -⟩ := hs.object k i h e
    exact (List.getElem?_eq_some_iff.1 e1).1
  refine ⟨?_, ?_, ?_, ?_⟩
  · intro k i h e
    rw [State.at, hat] at e
    split at e
    · rename_i g
      cases e
      refine ⟨⟨t, key, true⟩, by simp, rfl, same_symm g.1, ht, htd, by simp only; rw [g.2, hti]⟩
    · obtain ⟨o, e1, e2⟩ := hs.object k i h e
      refine ⟨o, ?_, e2⟩
      rw [List.getElem?_append_left (hb k i h e)]; exact e1
  · intro k i k' i' h e e'
    rw [State.at, hat] at e e'
    split at e
    · rename_i g
      split at e'
      · rename_i g'
        exact ⟨hlt.incomp _ _ _ g.1 (same_symm g'.1), g.2.trans g'.2.symm⟩
      · cases e; have := hb _ _ _ e'; omega
    · split at e'
      · cases e'; have := hb _ _ _ e; omega
      · exact hs.inj k i k' i' h e e'
  · intro c hc hm
    rw [State.at, hat]
    split
    · rfl
    · rename_i g
      rcases List.mem_append.1 hc with hc | hc
      · exact hs.filled c hc hm
      · rw [List.mem_singleton] at hc; subst hc; exact absurd ⟨same_refl hlt _, rfl⟩ g
  · intro l₁ c l₂ e hm c' hc'
    rcases List.eq_nil_or_concat l₂ with rfl | ⟨l₃, z, rfl⟩
    · cases hc'
    · simp only at e
      rw [List.concat_eq_append, ← List.cons_append, ← List.append_assoc] at e
      obtain ⟨e1, e2⟩ := List.append_inj' e rfl
      rw [List.concat_eq_append] at hc'
      rw [List.cons.injEq] at e2
      refine (?_ : ¬ (same lt c.key c'.key = true ∧ c.id = c'.id))
      rcases List.mem_append.1 hc' with hc' | hc'
      · exact hs.last _ _ _ e1 hm c' hc'
      · rw [List.mem_singleton] at hc'
        subst hc'
        rw [← e2.1]
        rintro ⟨g1, g2⟩
        simp only at g1 g2
        have := hs.filled c (by rw [e1]; simp) hm
        rw [State.at, lookup_congr hlt g1, g2] at this
        rw [State.at] at he
        rw [he] at this
        cases this

theorem getObject_good {dim n : Nat} {factory : Nat → GeometryType → Key → Prog Key} {rank : Key → Nat → Nat}
    (hr : Ranked lt dim factory rank) {call : Request Key → State Key → Out × State Key}
    (hcall : ∀ r s, r.Valid dim → Inv lt dim s → Good lt dim rank n r.key r.id s (call r s))
    (key : Key) (id : Nat) (t : GeometryType) (ht : t.isNone = false) (htd : t.dim = dim) (hti : t.id / 2 = id / 2)
    (s : State Key) (hs : Inv lt dim s) :
    Good lt dim rank (n + 1) key id s (getObject lt call factory key id (some t) s) := by
  have htouch : ∀ k i, State.at lt { s with storage := touch lt s.storage key } k i = s.at lt k i :=
    fun k i => lookup_touch _ _ _ _
  have hs1 : Inv lt dim { s with storage := touch lt s.storage key } := by
    refine ⟨?_, ?_, ?_, hs.last⟩
    · intro k i h e; rw [htouch] at e; exact hs.object k i h e
    · intro k i k' i' h e e'; rw [htouch] at e e'; exact hs.inj _ _ _ _ _ e e'
    · intro c hc hm; rw [htouch]; exact hs.filled c hc hm
  have hl1 : Later lt s { s with storage := touch lt s.storage key } :=
    ⟨fun k i h e => by rw [htouch]; exact e, fun h o e => e⟩
  unfold getObject
  simp only
  cases e0 : lookup lt (touch lt s.storage key) key id with
  | some h =>
    refine ⟨hs1, hl1, fun k i _ => htouch k i, ?_, by simp, by simp⟩
    intro p hp; cases hp; exact e0
  | none =>
    simp only
    have hx := exec_good (R := rank key (id / 2)) hcall (factory s.log.length t key) { s with storage := touch lt s.storage key }
      (by have := hr.below s.log.length t key; rwa [hti] at this) hs1
    cases ex : exec call (factory s.log.length t key) { s with storage := touch lt s.storage key } with
    | mk q s2 =>
      rw [ex] at hx
      obtain ⟨h1, h2, h3, h4, h5, h6⟩ := hx
      simp only at h1 h2 h3 h4 h5 h6
      have hnone : s2.at lt key id = none := (h3 key id le_rfl).trans e0
      have hfr : ∀ k i, rank key (id / 2) < rank k (i / 2) → ¬ (same lt k key = true ∧ i = id) := by
        rintro k i hk ⟨g1, rfl⟩
        rw [hr.congr k key _ g1] at hk
        omega
      have h3' : ∀ k i, rank key (id / 2) < rank k (i / 2) → s2.at lt k i = s.at lt k i := fun k i hk =>
        (h3 k i hk.le).trans (htouch k i)
      cases q with
      | ub => exact absurd rfl h4
      | diverge =>
        exact ⟨h1, hl1.trans h2, h3', by simp, by simp, fun hn => absurd rfl (h5 (by omega))⟩
      | thrown =>
        refine ⟨inv_log hlt h1 hnone, hl1.trans ⟨h2.keep, h2.heap⟩, h3', by simp, by simp, by simp⟩
      | ok p =>
        cases p with
        | none =>
          have hat : ∀ k i, lookup lt (update lt s2.storage key id none) k i = s2.at lt k i := by
            intro k i
            rw [lookup_update hlt]
            split
            · rename_i g
              rw [State.at, lookup_congr hlt g.1, g.2]; exact hnone.symm
            · rfl
          have hh : lookup lt s2.storage key id = none := hnone
          have hi := inv_log hlt h1 hnone
          simp only [reset, hh]
          refine ⟨⟨?_, ?_, ?_, hi.last⟩, hl1.trans ⟨?_, h2.heap⟩, ?_, ?_, by simp, by simp⟩
          · intro k i h e; rw [State.at, hat] at e; exact hi.object k i h e
          · intro k i k' i' h e e'; rw [State.at, hat] at e e'; exact hi.inj _ _ _ _ _ e e'
          · intro c hc hm; rw [State.at, hat]; exact hi.filled c hc hm
          · intro k i h e; rw [State.at, hat]; exact h2.keep k i h e
          · intro k i hk; rw [State.at, hat]; exact h3' k i hk
          · intro p hp; cases hp; rfl
        | some h =>
          have hh : lookup lt s2.storage key id = none := hnone
          have e6 := h6 h rfl
          subst e6
          simp only [reset, hh]
          have hat : ∀ k i, lookup lt (update lt s2.storage key id (some s2.heap.length)) k i =
              if same lt k key = true ∧ i = id then some s2.heap.length else s2.at lt k i :=
            fun k i => lookup_update hlt _ _ _ _ _ _
          refine ⟨inv_made hlt h1 hnone ht htd hti, hl1.trans ⟨?_, ?_⟩, ?_, ?_, by simp, by simp⟩
          · intro k i h e
            rw [State.at, hat, if_neg, h2.keep k i h e]
            rintro ⟨g1, rfl⟩
            have := h2.keep k i h e
            rw [State.at, lookup_congr hlt g1] at this
            rw [hh] at this; cases this
          · intro h o e
            have e' := h2.heap h o e
            have := (List.getElem?_eq_some_iff.1 e').1
            rw [List.getElem?_append_left this]; exact e'
          · intro k i hk
            rw [State.at, hat, if_neg (hfr k i hk)]
            exact h3' k i hk
          · intro p hp
            cases hp; rfl

/-- every request for a regular type of the dimension, nested or not -/
theorem create_good {dim : Nat} (hdim : dim ≤ 30) {factory : Nat → GeometryType → Key → Prog Key} {rank : Key → Nat → Nat}
    (hr : Ranked lt dim factory rank) : ∀ (fuel : Nat) (r : Request Key) (s : State Key), r.Valid dim → Inv lt dim s →
      Good lt dim rank fuel r.key r.id s (create lt dim factory fuel r s)
  | 0, r, s, _, hs => ⟨hs, .refl s, fun _ _ _ => rfl, by simp [create], by simp [create], by omega⟩
  | n + 1, .dynamic gt key, s, hv, hs => by
    obtain ⟨⟨v1, v2⟩, v3⟩ := hv
    simp only [Request.type] at v1 v2 v3
    subst v3
    obtain ⟨t, t1, t2, t3⟩ := C07_toGeometryTypeIdConstant gt ⟨v1, v2⟩ hdim
    have t4 := (C02_eq_spec t gt t2.notNone v1).1 t3
    rw [create, if_pos v2, t1]
    exact getObject_good hlt hr (fun r s => create_good hdim hr n r s) key gt.id t t2.notNone t4.1
      ((half_eq_iff _ _).2 t4.2) s hs
  | n + 1, .static g key, s, hv, hs => by
    obtain ⟨⟨v1, v2⟩, v3⟩ := hv
    simp only [Request.type] at v1 v2 v3
    rw [create, if_pos ⟨v3, v3 ▸ v2⟩]
    exact getObject_good hlt hr (fun r s => create_good hdim hr n r s) key g.id g v1 v3 rfl s hs
  | n + 1, .topology i d key, s, hv, hs => by
    obtain ⟨⟨v1, v2⟩, v3⟩ := hv
    simp only [Request.type] at v1 v2 v3
    rw [create, if_pos ⟨v3, v3 ▸ v2⟩]
    exact getObject_good hlt hr (fun r s => create_good hdim hr n r s) key i _ rfl rfl rfl s hs

/-- the state after a history -/
theorem history_good {dim : Nat} (hdim : dim ≤ 30) {factory : Nat → GeometryType → Key → Prog Key} {rank : Key → Nat → Nat}
    (hr : Ranked lt dim factory rank) (fuel : Nat) : ∀ (rs : List (Request Key)) (s : State Key), (∀ r ∈ rs, r.Valid dim) →
      Inv lt dim s → Inv lt dim (history lt dim factory fuel rs s).2 ∧ Later lt s (history lt dim factory fuel rs s).2 ∧
      (history lt dim factory fuel rs s).1.length = rs.length ∧
      ∀ (n : Nat) (r : Request Key) (o : Out), rs[n]? = some r → (history lt dim factory fuel rs s).1[n]? = some o →
        o ≠ .ub ∧ (rank r.key (r.id / 2) < fuel → o ≠ .diverge) ∧
        ∀ h, o = .ok (some h) → (history lt dim factory fuel rs s).2.at lt r.key r.id = some h
  | [], s, _, hs => ⟨hs, .refl s, rfl, by simp⟩
  | r :: rs, s, hv, hs => by
    have hg := create_good hlt hdim hr fuel r s (hv r (by simp)) hs
    cases e : create lt dim factory fuel r s with
    | mk o s' =>
      rw [e] at hg
      obtain ⟨i1, i2, i3, i4⟩ := history_good hdim hr fuel rs s' (fun r hr => hv r (by simp [hr])) hg.inv
      simp only [history, e]
      refine ⟨i1, hg.later.trans i2, by simp [i3], ?_⟩
      intro n r' o' hn ho
      cases n with
      | zero =>
        simp only [List.getElem?_cons_zero, Option.some.injEq] at hn ho
        subst hn ho
        exact ⟨hg.ub, hg.term, fun h hh => i2.keep _ _ _ (hg.result _ hh)⟩
      | succ n => exact i4 n r' o' (by simpa using hn) (by simpa using ho)

end

end Verif.Factory
