import Verif.Thread.Model

/-! Lemmas about programs and interleavings. -/

namespace Verif.Thread

variable {C : Type} {V : C → Type} {α β ι : Type} [DecidableEq C] [DecidableEq ι]

namespace Prog

/-- reads only, with the given memory -/
def quiet (m : Mem C V) : Prog C V α → Prop
  | .ret _ => True
  | .read c k => (k (m c)).quiet m
  | .write _ _ _ => False

/-- writes location `c`, as long as it contains `v` -/
def mustWrite (c : C) (v : V c) : Prog C V α → Prop
  | .ret _ => False
  | .read c' k => ∀ m : Mem C V, m c = v → (k (m c')).mustWrite c v
  | .write c' _ p => c' = c ∨ p.mustWrite c v

/-- accesses location `c` -/
def mustTouch (c : C) : Prog C V α → Prop
  | .ret _ => False
  | .read c' k => c' = c ∨ ∀ x, (k x).mustTouch c
  | .write c' _ p => c' = c ∨ p.mustTouch c

theorem solo_bind (p : Prog C V α) (f : α → Prog C V β) (m : Mem C V) :
    (p.bind f).solo m = (f (p.solo m).2).solo (p.solo m).1 := by
  induction p generalizing m with
  | ret a => rfl
  | read c k ih => exact ih _ m
  | write c g p ih => exact ih _

theorem solo_map (p : Prog C V α) (f : α → β) (m : Mem C V) :
    (p.map f).solo m = ((p.solo m).1, f (p.solo m).2) := by
  rw [map, solo_bind]; rfl

theorem quiet_bind {p : Prog C V α} {f : α → Prog C V β} {m : Mem C V} (h : p.quiet m) (hf : (f (p.solo m).2).quiet m) :
    (p.bind f).quiet m := by
  induction p with
  | ret a => exact hf
  | read c k ih => exact ih _ h hf
  | write c g p ih => exact h.elim

theorem quiet_map {p : Prog C V α} {f : α → β} {m : Mem C V} (h : p.quiet m) : (p.map f).quiet m :=
  quiet_bind h trivial

theorem solo_quiet {p : Prog C V α} {m : Mem C V} (h : p.quiet m) : (p.solo m).1 = m := by
  induction p with
  | ret a => rfl
  | read c k ih => exact ih _ h
  | write c g p ih => exact h.elim

theorem quiet_seq {ps : List (Prog C V α)} {m : Mem C V} (h : ∀ p ∈ ps, p.quiet m) : (seq ps).quiet m := by
  induction ps with
  | nil => trivial
  | cons p ps ih =>
    exact quiet_bind (h p List.mem_cons_self) (quiet_map (ih fun q hq => h q (List.mem_cons_of_mem _ hq)))

theorem mustWrite_bind_left {p : Prog C V α} {f : α → Prog C V β} {c : C} {v : V c} (h : p.mustWrite c v) :
    (p.bind f).mustWrite c v := by
  induction p with
  | ret a => exact h.elim
  | read c' k ih => exact fun m hm => ih _ (h m hm)
  | write c' g p ih => exact h.imp id ih

theorem mustWrite_bind_right {p : Prog C V α} {f : α → Prog C V β} {c : C} {v : V c} (h : ∀ a, (f a).mustWrite c v) :
    (p.bind f).mustWrite c v := by
  induction p with
  | ret a => exact h a
  | read c' k ih => exact fun m _ => ih _
  | write c' g p ih => exact Or.inr ih

theorem mustWrite_seq {ps : List (Prog C V α)} {p : Prog C V α} {c : C} {v : V c} (hp : p ∈ ps) (h : p.mustWrite c v) :
    (seq ps).mustWrite c v := by
  induction ps with
  | nil => cases hp
  | cons q ps ih =>
    rcases List.mem_cons.1 hp with rfl | hp
    · exact mustWrite_bind_left h
    · exact mustWrite_bind_right fun a => mustWrite_bind_left (ih hp)

theorem mustTouch_bind_left {p : Prog C V α} {f : α → Prog C V β} {c : C} (h : p.mustTouch c) :
    (p.bind f).mustTouch c := by
  induction p with
  | ret a => exact h.elim
  | read c' k ih => exact h.imp id fun h x => ih x (h x)
  | write c' g p ih => exact h.imp id ih

theorem mustTouch_bind_right {p : Prog C V α} {f : α → Prog C V β} {c : C} (h : ∀ a, (f a).mustTouch c) :
    (p.bind f).mustTouch c := by
  induction p with
  | ret a => exact h a
  | read c' k ih => exact Or.inr fun x => ih x
  | write c' g p ih => exact Or.inr ih

theorem mustTouch_seq {ps : List (Prog C V α)} {p : Prog C V α} {c : C} (hp : p ∈ ps) (h : p.mustTouch c) :
    (seq ps).mustTouch c := by
  induction ps with
  | nil => cases hp
  | cons q ps ih =>
    rcases List.mem_cons.1 hp with rfl | hp
    · exact mustTouch_bind_left h
    · exact mustTouch_bind_right fun a => mustTouch_bind_left (ih hp)

/-- calls without accesses -/
theorem seq_ret {ps : List (Prog C V α)} (h : ∀ p ∈ ps, ∃ a, p = .ret a) : ∃ l, seq ps = .ret l := by
  induction ps with
  | nil => exact ⟨_, rfl⟩
  | cons p ps ih =>
    obtain ⟨a, rfl⟩ := h _ List.mem_cons_self
    obtain ⟨l, hl⟩ := ih fun q hq => h q (List.mem_cons_of_mem _ hq)
    exact ⟨a :: l, by rw [seq, hl]; rfl⟩

end Prog

/-- if all threads only read, in the memory at hand -/
theorem run_quiet (m : Mem C V) (r : ι → α) (ts : List ι) (s : Config C V α ι) (hm : s.mem = m)
    (hq : ∀ t, (s.threads t).quiet m) (hr : ∀ t, ((s.threads t).solo m).2 = r t) :
    (run ts s).1.mem = m ∧ (∀ e ∈ (run ts s).2, e.isWrite = false) ∧
    ∀ t, ((run ts s).1.threads t).quiet m ∧ (((run ts s).1.threads t).solo m).2 = r t := by
  induction ts generalizing s with
  | nil => exact ⟨hm, by simp [run], fun t => ⟨hq t, hr t⟩⟩
  | cons t ts ih =>
    have key : (step t s).1.mem = m ∧ (∀ e ∈ (step t s).2, e.isWrite = false) ∧
        ∀ t', ((step t s).1.threads t').quiet m ∧ (((step t s).1.threads t').solo m).2 = r t' := by
      have hqt := hq t
      have hrt := hr t
      rcases hp : s.threads t with a | ⟨c, k⟩ | ⟨c, f, p⟩
      · rw [step, hp]; exact ⟨hm, by simp, fun t' => ⟨hq t', hr t'⟩⟩
      · rw [hp] at hqt hrt
        rw [step, hp]
        refine ⟨hm, by simp, fun t' => ?_⟩
        by_cases h : t' = t
        · subst h
          simp only [Function.update_self, hm]
          exact ⟨hqt, hrt⟩
        · simp only [Function.update_of_ne h]
          exact ⟨hq t', hr t'⟩
      · rw [hp] at hqt; exact hqt.elim
    obtain ⟨h1, h2, h3⟩ := ih _ key.1 (fun t' => (key.2.2 t').1) (fun t' => (key.2.2 t').2)
    refine ⟨h1, fun e he => ?_, h3⟩
    rcases List.mem_append.1 he with he | he
    · exact key.2.1 e he
    · exact h2 e he

/-- if all threads but one have finished -/
theorem run_single (a : ι) (r : Mem C V × α) (l : ι → α) (ts : List ι) (s : Config C V α ι)
    (ha : (s.threads a).solo s.mem = r) (ho : ∀ t, t ≠ a → s.threads t = .ret (l t)) :
    (∀ e ∈ (run ts s).2, e.thread = a) ∧ ((run ts s).1.threads a).solo (run ts s).1.mem = r ∧
    ∀ t, t ≠ a → (run ts s).1.threads t = .ret (l t) := by
  induction ts generalizing s with
  | nil => exact ⟨by simp [run], ha, ho⟩
  | cons t ts ih =>
    have key : (∀ e ∈ (step t s).2, e.thread = a) ∧ ((step t s).1.threads a).solo (step t s).1.mem = r ∧
        ∀ t', t' ≠ a → (step t s).1.threads t' = .ret (l t') := by
      by_cases h : t = a
      · subst h
        rcases hp : s.threads t with x | ⟨c, k⟩ | ⟨c, f, p⟩ <;> rw [hp] at ha <;> rw [step, hp]
        · exact ⟨by simp, by rw [hp]; exact ha, ho⟩
        · refine ⟨by simp, ?_, fun t' ht' => ?_⟩
          · simp only [Function.update_self]; exact ha
          · simp only [Function.update_of_ne ht']; exact ho t' ht'
        · refine ⟨by simp, ?_, fun t' ht' => ?_⟩
          · simp only [Function.update_self]; exact ha
          · simp only [Function.update_of_ne ht']; exact ho t' ht'
      · rw [step, ho t h]
        exact ⟨by simp, ha, ho⟩
    obtain ⟨h1, h2, h3⟩ := ih _ key.2.1 key.2.2
    refine ⟨fun e he => ?_, h2, h3⟩
    rcases List.mem_append.1 he with he | he
    · exact key.1 e he
    · exact h1 e he

/-- a write that must come comes -/
theorem run_mustWrite (a : ι) (c : C) (v : V c) (ts : List ι) (s : Config C V α ι) (hm : s.mem c = v)
    (h : (s.threads a).mustWrite c v) :
    (∃ e ∈ (run ts s).2, e.cell = c ∧ e.isWrite = true) ∨ ((run ts s).1.threads a).mustWrite c v := by
  induction ts generalizing s with
  | nil => exact Or.inr h
  | cons t ts ih =>
    have key : (∃ e ∈ (step t s).2, e.cell = c ∧ e.isWrite = true) ∨
        ((step t s).1.mem c = v ∧ ((step t s).1.threads a).mustWrite c v) := by
      rcases hp : s.threads t with x | ⟨c', k⟩ | ⟨c', f, p⟩ <;> rw [step, hp]
      · exact Or.inr ⟨hm, h⟩
      · refine Or.inr ⟨hm, ?_⟩
        by_cases hta : a = t
        · subst hta
          simp only [Function.update_self]
          rw [hp] at h
          exact h _ hm
        · simp only [Function.update_of_ne hta]; exact h
      · by_cases hc : c' = c
        · exact Or.inl ⟨_, List.mem_singleton_self _, hc, rfl⟩
        · refine Or.inr ⟨?_, ?_⟩
          · simp only [Function.update_of_ne (Ne.symm hc)]; exact hm
          · by_cases hta : a = t
            · subst hta
              simp only [Function.update_self]
              rw [hp] at h
              exact h.resolve_left hc
            · simp only [Function.update_of_ne hta]; exact h
    rcases key with ⟨e, he, h'⟩ | ⟨h1, h2⟩
    · exact Or.inl ⟨e, List.mem_append_left _ he, h'⟩
    · rcases ih _ h1 h2 with ⟨e, he, h'⟩ | h'
      · exact Or.inl ⟨e, List.mem_append_right _ he, h'⟩
      · exact Or.inr h'

/-- an access that must come comes -/
theorem run_mustTouch (a : ι) (c : C) (ts : List ι) (s : Config C V α ι) (h : (s.threads a).mustTouch c) :
    (∃ e ∈ (run ts s).2, e.cell = c ∧ e.thread = a) ∨ ((run ts s).1.threads a).mustTouch c := by
  induction ts generalizing s with
  | nil => exact Or.inr h
  | cons t ts ih =>
    have key : (∃ e ∈ (step t s).2, e.cell = c ∧ e.thread = a) ∨ ((step t s).1.threads a).mustTouch c := by
      by_cases hta : a = t
      · subst hta
        rcases hp : s.threads a with x | ⟨c', k⟩ | ⟨c', f, p⟩ <;> rw [step, hp] <;> rw [hp] at h
        · exact h.elim
        · rcases h with h | h
          · exact Or.inl ⟨_, List.mem_singleton_self _, h, rfl⟩
          · exact Or.inr (by simp only [Function.update_self]; exact h _)
        · rcases h with h | h
          · exact Or.inl ⟨_, List.mem_singleton_self _, h, rfl⟩
          · exact Or.inr (by simp only [Function.update_self]; exact h)
      · refine Or.inr ?_
        rcases hp : s.threads t with x | ⟨c', k⟩ | ⟨c', f, p⟩ <;> rw [step, hp]
        · exact h
        · simp only [Function.update_of_ne hta]; exact h
        · simp only [Function.update_of_ne hta]; exact h
    rcases key with ⟨e, he, h'⟩ | h'
    · exact Or.inl ⟨e, List.mem_append_left _ he, h'⟩
    · rcases ih _ h' with ⟨e, he, h'⟩ | h'
      · exact Or.inl ⟨e, List.mem_append_right _ he, h'⟩
      · exact Or.inr h'

omit [DecidableEq ι] in
/-- a race needs two threads and a write -/
theorem not_race_of_reads {tr : List (Event C ι)} (h : ∀ e ∈ tr, e.isWrite = false) : ¬ Race tr := by
  rintro ⟨e, he, e', he', -, -, hw | hw⟩
  · rw [h e he] at hw; cases hw
  · rw [h e' he'] at hw; cases hw

omit [DecidableEq ι] in
theorem not_race_of_single {tr : List (Event C ι)} (a : ι) (h : ∀ e ∈ tr, e.thread = a) : ¬ Race tr := by
  rintro ⟨e, he, e', he', hne, -⟩
  exact hne ((h e he).trans (h e' he').symm)

theorem run_append (ts us : List ι) (s : Config C V α ι) :
    run (ts ++ us) s = ((run us (run ts s).1).1, (run ts s).2 ++ (run us (run ts s).1).2) := by
  induction ts generalizing s with
  | nil => rfl
  | cons t ts ih => simp only [List.cons_append, run, ih, List.append_assoc]

/-- a finished thread stays as it is -/
theorem run_ret (a : ι) (x : α) (ts : List ι) (s : Config C V α ι) (h : s.threads a = .ret x) :
    (run ts s).1.threads a = .ret x := by
  induction ts generalizing s with
  | nil => exact h
  | cons t ts ih =>
    refine ih _ ?_
    by_cases hta : a = t
    · subst hta; rw [step, h]; exact h
    · rcases hp : s.threads t with y | ⟨c', k⟩ | ⟨c', f, p⟩ <;> rw [step, hp]
      · exact h
      · simp only [Function.update_of_ne hta]; exact h
      · simp only [Function.update_of_ne hta]; exact h

/-- a thread that gets enough steps finishes -/
theorem exists_finish (a : ι) (s : Config C V α ι) : ∃ ts x, (run ts s).1.threads a = .ret x := by
  suffices H : ∀ p : Prog C V α, ∀ s : Config C V α ι, s.threads a = p → ∃ ts x, (run ts s).1.threads a = .ret x from
    H _ s rfl
  intro p
  induction p with
  | ret x => exact fun s h => ⟨[], x, h⟩
  | read c k ih =>
    intro s h
    obtain ⟨ts, x, hx⟩ := ih (s.mem c) (step a s).1 (by rw [step, h]; simp)
    exact ⟨a :: ts, x, hx⟩
  | write c f p ih =>
    intro s h
    obtain ⟨ts, x, hx⟩ := ih (step a s).1 (by rw [step, h]; simp)
    exact ⟨a :: ts, x, hx⟩

/-- two threads, one of which writes a location the other accesses: a race in every execution that finishes them -/
theorem race_of_must (a b : ι) (hab : a ≠ b) (c : C) (s : Config C V α ι) (hw : (s.threads a).mustWrite c (s.mem c))
    (ha : (s.threads a).mustTouch c) (hb : (s.threads b).mustTouch c) (ts : List ι) (x y : α)
    (hx : (run ts s).1.threads a = .ret x) (hy : (run ts s).1.threads b = .ret y) : Race (run ts s).2 := by
  have h1 := (run_mustWrite a c _ ts s rfl hw).resolve_right (by rw [hx]; exact id)
  have h2 := (run_mustTouch a c ts s ha).resolve_right (by rw [hx]; exact id)
  have h3 := (run_mustTouch b c ts s hb).resolve_right (by rw [hy]; exact id)
  obtain ⟨e, he, hc, hwr⟩ := h1
  obtain ⟨ea, hea, hca, hta⟩ := h2
  obtain ⟨eb, heb, hcb, htb⟩ := h3
  by_cases h : e.thread = a
  · exact ⟨e, he, eb, heb, by rw [h, htb]; exact hab, hc.trans hcb.symm, Or.inl hwr⟩
  · exact ⟨e, he, ea, hea, by rw [hta]; exact h, hc.trans hca.symm, Or.inl hwr⟩

/-- and such executions exist -/
theorem exists_race (a b : ι) (hab : a ≠ b) (c : C) (s : Config C V α ι) (hw : (s.threads a).mustWrite c (s.mem c))
    (ha : (s.threads a).mustTouch c) (hb : (s.threads b).mustTouch c) : ∃ ts, Race (run ts s).2 := by
  obtain ⟨ts, x, hx⟩ := exists_finish a s
  obtain ⟨us, y, hy⟩ := exists_finish b (run ts s).1
  refine ⟨ts ++ us, race_of_must a b hab c s hw ha hb _ x y ?_ ?_⟩
  · rw [run_append]; exact run_ret a x us _ hx
  · rw [run_append]; exact hy

end Verif.Thread
