import Verif.Thread.Cached
import Verif.Thread.Lemmas
import Verif.Compare.Lemmas

/-! Property C102: const functions of a caching geometry called from several threads. -/

namespace Verif.Thread.Cached

open Verif.MultiLinear Verif.MatHelp Verif.RefGeom Verif.RefTopo Verif.Typ

noncomputable section

variable {ι : Type} [DecidableEq ι]

/-- what the property demands: const functions of a newly constructed object may be called from several threads -/
def C102_full : Prop := ∀ (ι : Type) (_ : DecidableEq ι) (g : MultiLinearGeometry) (jit : Mat ℝ) (d : ℝ)
  (calls : ι → List Query) (order : List ι), Legal g → ¬ Race (run order (start (.mk' g jit d) calls)).2

/-- the call, made alone, modifies the object -/
def Changes (c : CachedMultiLinearGeometry) (q : Query) : Prop :=
  (cached (m := c.base.mydim) (n := c.base.cdim) c q).1 ≠ c

/-- one thread makes a call that modifies the object, another thread makes a call other than `corner` -/
def Conflict (c : CachedMultiLinearGeometry) (calls : ι → List Query) : Prop :=
  ∃ a b, a ≠ b ∧ (∃ q ∈ calls a, Changes c q) ∧ ∃ q ∈ calls b, ∀ i, q ≠ .corner i

omit [DecidableEq ι] in
theorem memory_inj {c c' : CachedMultiLinearGeometry} (hb : c'.base = c.base) (hj : c'.jt = c.jt)
    (h : memory c' = memory c) : c' = c := by
  obtain ⟨g, jt, jit, det, af, jc, ic⟩ := c
  obtain ⟨g', jt', jit', det', af', jc', ic'⟩ := c'
  have h1 : (⟨af', jc', ic'⟩ : Flags) = ⟨af, jc, ic⟩ := congrFun h .flags
  have h2 : det' = det := congrFun h .det
  have h3 : jit' = jit := congrFun h .jit
  simp only [Flags.mk.injEq] at h1
  simp only at hb hj
  simp [hb, hj, h1, h2, h3]

theorem solo_integrationElement (g : MultiLinearGeometry) (jt jit : Mat ℝ) (det : ℝ) (af jc ic : Bool) (x : Vec ℝ) :
    let c : CachedMultiLinearGeometry := ⟨g, jt, jit, det, af, jc, ic⟩
    (integrationElement g jt x).solo (memory c) =
      (memory (((c.integrationElement x).map (·.1)).getD c), (c.integrationElement x).map (·.2)) ∧
    (((c.integrationElement x).map (·.1)).getD c).base = g ∧ (((c.integrationElement x).map (·.1)).getD c).jt = jt := by
  intro c
  cases af
  · have h : c.integrationElement x = (g.integrationElement x).map fun v => (c, v) := rfl
    have h' : (integrationElement g jt x).solo (memory c) = (memory c, g.integrationElement x) := rfl
    rw [h, h']
    rcases g.integrationElement x with _ | v <;> exact ⟨rfl, rfl, rfl⟩
  · cases ic
    · rcases hs : sqrtDetAAT g.mydim g.cdim jt with _ | d
      · have h : c.integrationElement x = none := by
          simp [c, CachedMultiLinearGeometry.integrationElement, CachedMultiLinearGeometry.affine, hs]
        have h' : (integrationElement g jt x).solo (memory c) = (memory c, none) := by
          simp [c, integrationElement, affine, Prog.bind, Prog.solo, memory, hs]
        rw [h, h']; exact ⟨rfl, rfl, rfl⟩
      · have h : c.integrationElement x = some (⟨g, jt, jit, d, true, jc, true⟩, d) := by
          simp [c, CachedMultiLinearGeometry.integrationElement, CachedMultiLinearGeometry.affine, hs]
        have h' : (integrationElement g jt x).solo (memory c) =
            (memory ⟨g, jt, jit, d, true, jc, true⟩, some d) := by
          simp only [c, integrationElement, affine, Prog.bind, Prog.solo, memory, hs, if_true, Bool.not_false]
          refine Prod.ext ?_ rfl
          funext k; cases k <;> rfl
        rw [h, h']; exact ⟨rfl, rfl, rfl⟩
    · exact ⟨rfl, rfl, rfl⟩

theorem solo_volume (g : MultiLinearGeometry) (jt jit : Mat ℝ) (det : ℝ) (af jc ic : Bool) :
    let c : CachedMultiLinearGeometry := ⟨g, jt, jit, det, af, jc, ic⟩
    (volume g jt).solo (memory c) = (memory (((c.volume).map (·.1)).getD c), c.volume.map (·.2)) ∧
    ((c.volume.map (·.1)).getD c).base = g ∧ ((c.volume.map (·.1)).getD c).jt = jt := by
  intro c
  cases af
  · have h : c.volume = g.volume.map fun v => (c, v) := rfl
    have h' : (volume g jt).solo (memory c) = (memory c, g.volume) := rfl
    rw [h, h']
    rcases g.volume with _ | v <;> exact ⟨rfl, rfl, rfl⟩
  · rcases hp : position (K := ℝ) g.mydim g.id 0 0 with _ | p
    · have h : c.volume = none := by
        simp [c, CachedMultiLinearGeometry.volume, CachedMultiLinearGeometry.affine, hp]
      have h' : (volume g jt).solo (memory c) = (memory c, none) := by
        simp [c, volume, affine, Prog.bind, Prog.solo, memory, hp]
      rw [h, h']; exact ⟨rfl, rfl, rfl⟩
    · obtain ⟨h1, h2, h3⟩ := solo_integrationElement g jt jit det true jc ic p
      have h : c.volume = (c.integrationElement p).map fun r => (r.1, r.2 * referenceVolume g.mydim g.id) := by
        simp only [c, CachedMultiLinearGeometry.volume, CachedMultiLinearGeometry.affine, hp, if_true,
          Option.bind_eq_bind, Option.bind_some]
        rcases hr : CachedMultiLinearGeometry.integrationElement ⟨g, jt, jit, det, true, jc, ic⟩ p with _ | r
        · rfl
        · rw [hr] at h2
          have h2' : r.1.base = g := h2
          simp only [Option.bind_some, Option.map_some, h2', Option.pure_def]
      have h' : (volume g jt).solo (memory c) = ((integrationElement g jt p).map fun ie =>
          ie.map (· * referenceVolume g.mydim g.id)).solo (memory c) := by
        simp [c, volume, affine, Prog.bind, Prog.solo, memory, hp]
      rw [h, h', Prog.solo_map, h1]
      change _ ∧ _ ∧ _ at *
      rcases hr : CachedMultiLinearGeometry.integrationElement ⟨g, jt, jit, det, true, jc, ic⟩ p with _ | r
      · simp only [c, hr]; exact ⟨rfl, rfl, rfl⟩
      · rw [hr] at h2 h3
        simp only [c, hr]; exact ⟨rfl, h2, h3⟩

theorem solo_jacobianInverseTransposed (g : MultiLinearGeometry) (jt jit : Mat ℝ) (det : ℝ) (af jc ic : Bool) (x : Vec ℝ) :
    let c : CachedMultiLinearGeometry := ⟨g, jt, jit, det, af, jc, ic⟩
    (jacobianInverseTransposed g jt x).solo (memory c) =
      (memory (((c.jacobianInverseTransposed x).map (·.1)).getD c), (c.jacobianInverseTransposed x).map (·.2)) ∧
    (((c.jacobianInverseTransposed x).map (·.1)).getD c).base = g ∧
    (((c.jacobianInverseTransposed x).map (·.1)).getD c).jt = jt := by
  intro c
  cases af
  · have h : c.jacobianInverseTransposed x = (g.jacobianInverseTransposed x).map fun v => (c, v) := rfl
    have h' : (jacobianInverseTransposed g jt x).solo (memory c) = (memory c, g.jacobianInverseTransposed x) := rfl
    rw [h, h']
    rcases g.jacobianInverseTransposed x with _ | v <;> exact ⟨rfl, rfl, rfl⟩
  · cases jc
    · rcases hs : rightInvA g.mydim g.cdim jt with _ | ⟨d, R⟩
      · have h : c.jacobianInverseTransposed x = none := by
          simp [c, CachedMultiLinearGeometry.jacobianInverseTransposed, CachedMultiLinearGeometry.affine, hs]
        have h' : (jacobianInverseTransposed g jt x).solo (memory c) = (memory c, none) := by
          simp [c, jacobianInverseTransposed, affine, Prog.bind, Prog.solo, memory, hs]
        rw [h, h']; exact ⟨rfl, rfl, rfl⟩
      · have h : c.jacobianInverseTransposed x = some (⟨g, jt, R, d, true, true, true⟩, d, R) := by
          simp [c, CachedMultiLinearGeometry.jacobianInverseTransposed, CachedMultiLinearGeometry.affine, hs]
        have h' : (jacobianInverseTransposed g jt x).solo (memory c) =
            (memory ⟨g, jt, R, d, true, true, true⟩, some (d, R)) := by
          simp only [c, jacobianInverseTransposed, affine, Prog.bind, Prog.solo, memory, hs, if_true, Bool.not_false]
          refine Prod.ext ?_ rfl
          funext k; cases k <;> rfl
        rw [h, h']; exact ⟨rfl, rfl, rfl⟩
    · exact ⟨rfl, rfl, rfl⟩

/-- the programs, run alone, do what the sequential model does -/
theorem solo_call (c : CachedMultiLinearGeometry) (q : Query) :
    (call c.base c.jt q).solo (memory c) = (memory (cached (m := c.base.mydim) (n := c.base.cdim) c q).1, (cached c q).2) ∧
    (cached (m := c.base.mydim) (n := c.base.cdim) c q).1.base = c.base ∧
    (cached (m := c.base.mydim) (n := c.base.cdim) c q).1.jt = c.jt := by
  obtain ⟨g, jt, jit, det, af, jc, ic⟩ := c
  cases q with
  | affine => exact ⟨rfl, rfl, rfl⟩
  | corner i => exact ⟨rfl, rfl, rfl⟩
  | global x => refine ⟨?_, rfl, rfl⟩; cases af <;> rfl
  | center =>
    refine ⟨?_, rfl, rfl⟩
    simp only [call, cached, center, CachedMultiLinearGeometry.center]
    rcases position (K := ℝ) g.mydim g.id 0 0 with _ | p
    · rfl
    · cases af <;> rfl
  | local_ fuel y => refine ⟨?_, rfl, rfl⟩; cases af <;> cases jc <;> rfl
  | integrationElement x => 
    obtain ⟨h1, h2, h3⟩ := solo_integrationElement g jt jit det af jc ic x
    refine ⟨?_, h2, h3⟩
    simp only [call]
    rw [Prog.solo_map, h1]; rfl
  | volume =>
    obtain ⟨h1, h2, h3⟩ := solo_volume g jt jit det af jc ic
    refine ⟨?_, h2, h3⟩
    simp only [call]
    rw [Prog.solo_map, h1]; rfl
  | jacobianTransposed x => refine ⟨?_, rfl, rfl⟩; cases af <;> rfl
  | jacobian x => refine ⟨?_, rfl, rfl⟩; cases af <;> rfl
  | jacobianInverseTransposed x =>
    obtain ⟨h1, h2, h3⟩ := solo_jacobianInverseTransposed g jt jit det af jc ic x
    refine ⟨?_, h2, h3⟩
    simp only [call]
    rw [Prog.solo_map, h1]
    simp only [cached, Option.map_map]; rfl
  | jacobianInverse x =>
    obtain ⟨h1, h2, h3⟩ := solo_jacobianInverseTransposed g jt jit det af jc ic x
    simp only [call, cached, CachedMultiLinearGeometry.jacobianInverse, Option.map_map]
    refine ⟨?_, h2, h3⟩
    rw [Prog.solo_map, h1]
    simp only [Option.map_map]; rfl

/-- a sequence of calls, run alone -/
theorem solo_calls (c : CachedMultiLinearGeometry) (qs : List Query) :
    ((Prog.seq (qs.map (call c.base c.jt))).solo (memory c)).2 = answers c qs := by
  suffices H : ∀ (g : MultiLinearGeometry) (jt : Mat ℝ) (c : CachedMultiLinearGeometry), c.base = g → c.jt = jt →
      ((Prog.seq (qs.map (call g jt))).solo (memory c)).2 = answers c qs from H _ _ c rfl rfl
  intro g jt
  induction qs with
  | nil => intro c _ _; rfl
  | cons q qs ih =>
    rintro c rfl rfl
    obtain ⟨h1, h2, h3⟩ := solo_call c q
    rw [List.map_cons, Prog.seq, Prog.solo_bind, Prog.solo_map, h1, ih _ h2 h3]; rfl

/-- reads only, or writes the flags -/
def Alt (m : Mem Cell Val) {β : Type} (p : P β) : Prop :=
  p.quiet m ∨ (p.mustWrite .flags (m .flags) ∧ (p.solo m).1 .flags ≠ m .flags)

theorem alt_map {m : Mem Cell Val} {β γ : Type} {p : P β} (f : β → γ) (h : Alt m p) : Alt m (p.map f) := by
  rcases h with h | ⟨h1, h2⟩
  · exact Or.inl (Prog.quiet_map h)
  · exact Or.inr ⟨Prog.mustWrite_bind_left h1, by rw [Prog.solo_map]; exact h2⟩

theorem alt_affine {m : Mem Cell Val} {β : Type} {f : Bool → P β} (h : Alt m (f (m .flags).affine_)) :
    Alt m (affine.bind f) := by
  rcases h with h | ⟨h1, h2⟩
  · exact Or.inl h
  · exact Or.inr ⟨fun m' hm' => by rw [hm']; exact h1, h2⟩

theorem alt_flags {m : Mem Cell Val} {β : Type} {f : Flags → P β} (h : Alt m (f (m .flags))) :
    Alt m (.read .flags f) := by
  rcases h with h | ⟨h1, h2⟩
  · exact Or.inl h
  · exact Or.inr ⟨fun m' hm' => by rw [hm']; exact h1, h2⟩

theorem alt_integrationElement (m : Mem Cell Val) (g : MultiLinearGeometry) (jt : Mat ℝ) (x : Vec ℝ) :
    Alt m (integrationElement g jt x) := by
  refine alt_affine ?_
  split
  · refine alt_flags ?_
    split
    · rename_i hf
      rcases sqrtDetAAT g.mydim g.cdim jt with _ | d
      · exact Or.inl trivial
      · refine Or.inr ⟨Or.inr (Or.inl rfl), fun he => ?_⟩
        have : true = (m .flags).ieComputed := congrArg Flags.ieComputed he
        rw [← this] at hf; cases hf
    · exact Or.inl trivial
  · exact Or.inl trivial

theorem alt_jacobianInverseTransposed (m : Mem Cell Val) (g : MultiLinearGeometry) (jt : Mat ℝ) (x : Vec ℝ) :
    Alt m (jacobianInverseTransposed g jt x) := by
  refine alt_affine ?_
  split
  · refine alt_flags ?_
    split
    · rename_i hf
      rcases rightInvA g.mydim g.cdim jt with _ | ⟨d, R⟩
      · exact Or.inl trivial
      · refine Or.inr ⟨Or.inr (Or.inr (Or.inl rfl)), fun he => ?_⟩
        have : true = (m .flags).jitComputed := congrArg Flags.jitComputed he
        rw [← this] at hf; cases hf
    · exact Or.inl trivial
  · exact Or.inl trivial

theorem alt_call (m : Mem Cell Val) (g : MultiLinearGeometry) (jt : Mat ℝ) (q : Query) : Alt m (call g jt q) := by
  have hglobal : ∀ x, Alt m (global g jt x) := fun x => alt_affine (by split <;> exact Or.inl trivial)
  cases q with
  | affine => exact Or.inl trivial
  | corner i => exact Or.inl trivial
  | global x => exact alt_map _ (hglobal x)
  | center =>
    refine alt_map _ ?_
    rw [center]
    split
    · exact Or.inl trivial
    · exact hglobal _
  | local_ fuel y =>
    refine alt_map _ (alt_affine ?_)
    split
    · refine alt_flags ?_
      split <;> exact Or.inl trivial
    · exact Or.inl trivial
  | integrationElement x => exact alt_map _ (alt_integrationElement m g jt x)
  | volume =>
    refine alt_map _ (alt_affine ?_)
    split
    · split
      · exact Or.inl trivial
      · exact alt_map _ (alt_integrationElement m g jt _)
    · exact Or.inl trivial
  | jacobianTransposed x => exact alt_map _ (alt_affine (by split <;> exact Or.inl trivial))
  | jacobian x => exact alt_map _ (alt_affine (by split <;> exact Or.inl trivial))
  | jacobianInverseTransposed x => exact alt_map _ (alt_jacobianInverseTransposed m g jt x)
  | jacobianInverse x => exact alt_map _ (alt_jacobianInverseTransposed m g jt x)

/-- calls that do not modify the object only read -/
theorem quiet_call (c : CachedMultiLinearGeometry) (q : Query) (h : ¬ Changes c q) :
    (call c.base c.jt q).quiet (memory c) := by
  rcases alt_call (memory c) c.base c.jt q with h1 | ⟨_, h1⟩
  · exact h1
  · rw [(solo_call c q).1, not_not.1 h] at h1
    exact absurd rfl h1

/-- calls that modify the object write the flags -/
theorem mustWrite_call (c : CachedMultiLinearGeometry) (q : Query) (h : Changes c q) :
    (call c.base c.jt q).mustWrite .flags (memory c .flags) := by
  rcases alt_call (memory c) c.base c.jt q with h1 | ⟨h1, _⟩
  · obtain ⟨h2, h3, h4⟩ := solo_call c q
    have := Prog.solo_quiet h1
    rw [h2] at this
    exact absurd (memory_inj h3 h4 this) h
  · exact h1

/-- all calls but `corner` look at the flags -/
theorem mustTouch_call (g : MultiLinearGeometry) (hg : Legal g) (jt : Mat ℝ) (q : Query) (h : ∀ i, q ≠ .corner i) :
    (call g jt q).mustTouch .flags := by
  obtain ⟨p, hp, _⟩ := Compare.center_inner g.mydim g.id hg.id_lt
  cases q with
  | corner i => exact absurd rfl (h i)
  | center =>
    simp only [call, center, hp]
    exact Or.inl rfl
  | _ => exact Or.inl rfl

omit [DecidableEq ι] in
theorem noConflict {c : CachedMultiLinearGeometry} {calls : ι → List Query} (h : ¬ Conflict c calls) :
    (∀ t, ∀ q ∈ calls t, ¬ Changes c q) ∨ ∃ a, ∀ t, t ≠ a → ∀ q ∈ calls t, ∃ i, q = .corner i := by
  by_cases h1 : ∀ t, ∀ q ∈ calls t, ¬ Changes c q
  · exact Or.inl h1
  · push Not at h1
    obtain ⟨a, q, hq, hc⟩ := h1
    refine Or.inr ⟨a, fun t ht q' hq' => ?_⟩
    by_contra hn
    push Not at hn
    exact h ⟨a, t, ht.symm, ⟨q, hq, hc⟩, ⟨q', hq', hn⟩⟩

omit [DecidableEq ι] in
theorem others (c : CachedMultiLinearGeometry) (calls : ι → List Query) (a : ι)
    (h : ∀ t, t ≠ a → ∀ q ∈ calls t, ∃ i, q = .corner i) (t : ι) (ht : t ≠ a) :
    ∃ l, (start c calls).threads t = .ret l := by
  refine Prog.seq_ret fun p hp => ?_
  obtain ⟨q, hq, rfl⟩ := List.mem_map.1 hp
  obtain ⟨i, rfl⟩ := h t ht q hq
  exact ⟨_, rfl⟩

/-- C102: exactly when do concurrent calls race?  If and only if one thread makes a call that modifies the object while
another one calls anything but `corner`; for every number of threads, all lists of calls, all states of the object. -/
theorem C102_iff (c : CachedMultiLinearGeometry) (hg : Legal c.base) (calls : ι → List Query) :
    (∀ order, ¬ Race (run order (start c calls)).2) ↔ ¬ Conflict c calls := by
  constructor
  · rintro h ⟨a, b, hab, ⟨q, hq, hc⟩, ⟨q', hq', ht⟩⟩
    have hqt : ∀ i, q ≠ .corner i := by
      rintro i rfl; exact hc rfl
    obtain ⟨ts, hts⟩ := exists_race a b hab Cell.flags (start c calls)
      (Prog.mustWrite_seq (List.mem_map_of_mem hq) (mustWrite_call c q hc))
      (Prog.mustTouch_seq (List.mem_map_of_mem hq) (mustTouch_call c.base hg c.jt q hqt))
      (Prog.mustTouch_seq (List.mem_map_of_mem hq') (mustTouch_call c.base hg c.jt q' ht))
    exact h ts hts
  · intro h order
    rcases noConflict h with h | ⟨a, h⟩
    · exact not_race_of_reads (run_quiet (memory c) _ order (start c calls) rfl
        (fun t => Prog.quiet_seq (by simpa using fun q hq => quiet_call c q (h t q hq))) fun _ => rfl).2.1
    · choose l hl using others c calls a h
      exact not_race_of_single a (run_single a _ (fun t => if ht : t ≠ a then l t ht else []) order (start c calls) rfl
        fun t ht => by rw [dif_pos ht]; exact hl t ht).1

/-- C102: without such a conflict every call gets the answer of a sequential execution of its thread -/
theorem C102_answers (c : CachedMultiLinearGeometry) (calls : ι → List Query) (h : ¬ Conflict c calls) (order : List ι)
    (t : ι) (l : List (Answer c.base.mydim c.base.cdim))
    (ht : (run order (start c calls)).1.threads t = .ret l) : l = answers c (calls t) := by
  rw [← solo_calls]
  rcases noConflict h with h | ⟨a, h⟩
  · have := ((run_quiet (memory c) _ order (start c calls) rfl
      (fun t => Prog.quiet_seq (by simpa using fun q hq => quiet_call c q (h t q hq))) fun _ => rfl).2.2 t).2
    rw [ht] at this
    exact this
  · choose l' hl using others c calls a h
    have := run_single a _ (fun t => if ht : t ≠ a then l' t ht else []) order (start c calls) rfl
        fun t ht => by rw [dif_pos ht]; exact hl t ht
    by_cases hta : t = a
    · subst hta
      have h2 := this.2.1
      rw [ht] at h2
      exact congrArg Prod.snd h2
    · have h3 := this.2.2 t hta
      rw [ht, dif_pos hta] at h3
      have h4 : Prog.seq ((calls t).map (call c.base c.jt)) = .ret (l' t hta) := hl t hta
      rw [h4]
      exact Prog.ret.inj h3

omit [DecidableEq ι] in
theorem settled {c : CachedMultiLinearGeometry} (hs : c.affine_ = true → c.jitComputed = true ∧ c.ieComputed = true)
    (q : Query) : ¬ Changes c q := by
  intro h
  suffices hq : (call c.base c.jt q).quiet (memory c) by
    have h1 := Prog.solo_quiet hq
    obtain ⟨h2, h3, h4⟩ := solo_call c q
    rw [h2] at h1
    exact h (memory_inj h3 h4 h1)
  obtain ⟨g, jt, jit, det, af, jc, ic⟩ := c
  cases af
  · cases q with
    | center =>
      refine Prog.quiet_map ?_
      rw [center]
      split <;> exact trivial
    | _ => exact trivial
  · obtain ⟨h1, h2⟩ := hs rfl
    simp only at h1 h2
    subst h1 h2
    cases q with
    | center =>
      refine Prog.quiet_map ?_
      rw [center]
      split <;> exact trivial
    | volume =>
      refine Prog.quiet_map ?_
      change Prog.quiet _ (match position (K := ℝ) g.mydim g.id 0 0 with
        | none => .ret none
        | some p => (integrationElement g jt p).map fun ie => ie.map (· * referenceVolume g.mydim g.id))
      split <;> exact trivial
    | _ => exact trivial

/-- C102: an object on which `jacobianInverseTransposed` or `jacobianInverse` has been called once, and a geometry that is not
affine, may be shared by any number of threads without a data race: no call modifies the object any more.  Missing for the full
claim: affine objects before that call; they do race, see `C102_race`. -/
theorem C102_partial (c : CachedMultiLinearGeometry) (hg : Legal c.base)
    (hs : c.affine_ = true → c.jitComputed = true ∧ c.ieComputed = true)
    (calls : ι → List Query) (order : List ι) : ¬ Race (run order (start c calls)).2 ∧
    ∀ t l, (run order (start c calls)).1.threads t = .ret l → l = answers c (calls t) := by
  have h : ¬ Conflict c calls := by
    rintro ⟨a, b, _, ⟨q, _, hq⟩, _⟩
    exact settled hs q hq
  exact ⟨(C102_iff c hg calls).2 h order, fun t l hl => C102_answers c calls h order t l hl⟩

/-- C102: geometries that are not affine, newly constructed: no race, and all answers are those of MultiLinearGeometry -/
theorem C102_nonaffine (g : MultiLinearGeometry) (hg : Legal g) (ha : g.affine = false) (jit : Mat ℝ) (d : ℝ)
    (calls : ι → List Query) (order : List ι) : ¬ Race (run order (start (.mk' g jit d) calls)).2 ∧
    ∀ t l, (run order (start (.mk' g jit d) calls)).1.threads t = .ret l → l = (calls t).map (plain g) := by
  have h := C102_partial (.mk' g jit d) hg (fun h => by
    have : g.affine = true := h
    rw [ha] at this; cases this) calls order
  refine ⟨h.1, fun t l hl => ?_⟩
  rw [h.2 t l hl]
  exact C34_nonaffine_partial g jit d (calls t) ha

/-- C102: affine geometries after one call of `jacobianInverseTransposed`: no race, and all answers are those of
MultiLinearGeometry -/
theorem C102_warm (g : MultiLinearGeometry) (hg : Legal g) (a : Vec ℝ) (M : Mat ℝ) (h : ImageOf g a M)
    (hr : FullRank g M) (p : Vec ℝ) (hp : position g.mydim g.id 0 0 = some p) (hin : Inner g p)
    (jit : Mat ℝ) (d : ℝ) (x : Vec ℝ) (hx : Inner g x) :
    ∃ (D : ℝ) (R : Mat ℝ), let c : CachedMultiLinearGeometry := ⟨g, (g.affineJ garbage).2, R, D, true, true, true⟩
    (CachedMultiLinearGeometry.mk' g jit d).jacobianInverseTransposed x = some (c, D, R) ∧
    ∀ (calls : ι → List Query) (order : List ι), ¬ Race (run order (start c calls)).2 ∧
    ((∀ t, ∀ q ∈ calls t, q.Ok g) →
      ∀ t l, (run order (start c calls)).1.threads t = .ret l → l = (calls t).map (plain g)) := by
  have hmn := fullRank_le hr
  have haff := (C33_complete g hg a M h).1
  have hjt : mat g.mydim g.cdim (g.affineJ garbage).2 = (mat g.cdim g.mydim M).transpose := jt_aff_exact hg h garbage
  have hli : LinearIndependent ℝ (mat g.mydim g.cdim (g.affineJ garbage).2).row := by rw [hjt]; exact hr
  obtain ⟨R, hR, _⟩ := rightInvA_pinv hmn hli
  generalize Real.sqrt _ = D at hR
  have hc : (CachedMultiLinearGeometry.mk' g jit d).jacobianInverseTransposed x =
      some (⟨g, (g.affineJ garbage).2, R, D, true, true, true⟩, D, R) := by
    have e : CachedMultiLinearGeometry.mk' g jit d = ⟨g, (g.affineJ garbage).2, jit, d, true, false, false⟩ := by
      rw [CachedMultiLinearGeometry.mk', show g.affineJ garbage = (true, (g.affineJ garbage).2) from Prod.ext haff rfl]
    rw [e]
    simp [CachedMultiLinearGeometry.jacobianInverseTransposed, CachedMultiLinearGeometry.affine, hR]
  refine ⟨D, R, hc, fun calls order => ?_⟩
  have H := C102_partial ⟨g, (g.affineJ garbage).2, R, D, true, true, true⟩ hg (fun _ => ⟨rfl, rfl⟩) calls order
  refine ⟨H.1, fun hok t l hl => (H.2 t l hl).trans ?_⟩
  have h34 := C34_affine_partial g hg a M h hr p hp hin jit d (.jacobianInverseTransposed x :: calls t) (by
    intro q hq
    rcases List.mem_cons.1 hq with rfl | hq
    · exact hx
    · exact hok t q hq)
  have h34' := (List.cons.inj h34).2
  simp only [cached, hc] at h34'
  exact h34'

/-- C102: affine geometries, newly constructed: if one thread asks for the integration element, the volume or the inverse of the
Jacobian and another one calls anything but `corner`, `global` and `affine` included, then every execution that finishes the two
threads has a data race -/
theorem C102_race (g : MultiLinearGeometry) (hg : Legal g) (a : Vec ℝ) (M : Mat ℝ) (h : ImageOf g a M)
    (hr : FullRank g M) (jit : Mat ℝ) (d : ℝ) (calls : ι → List Query) (s t : ι) (hst : s ≠ t) (q q' : Query)
    (hq : q ∈ calls s) (hq' : q' ∈ calls t)
    (hk : (∃ x, q = .integrationElement x) ∨ q = .volume ∨ (∃ x, q = .jacobianInverseTransposed x) ∨ ∃ x, q = .jacobianInverse x)
    (hk' : ∀ i, q' ≠ .corner i) (order : List ι) (l l' : List (Answer g.mydim g.cdim))
    (hl : (run order (start (.mk' g jit d) calls)).1.threads s = .ret l)
    (hl' : (run order (start (.mk' g jit d) calls)).1.threads t = .ret l') :
    Race (run order (start (.mk' g jit d) calls)).2 := by
  have hmn := fullRank_le hr
  have haff := (C33_complete g hg a M h).1
  have hjt : mat g.mydim g.cdim (g.affineJ garbage).2 = (mat g.cdim g.mydim M).transpose := jt_aff_exact hg h garbage
  have hli : LinearIndependent ℝ (mat g.mydim g.cdim (g.affineJ garbage).2).row := by rw [hjt]; exact hr
  obtain ⟨R, hR, _⟩ := rightInvA_pinv hmn hli
  have hD := C27_sqrtDetAAT_partial g.mydim g.cdim (g.affineJ garbage).2 (Or.inl hli)
  obtain ⟨p, hp, _⟩ := Compare.center_inner g.mydim g.id hg.id_lt
  have e : CachedMultiLinearGeometry.mk' g jit d = ⟨g, (g.affineJ garbage).2, jit, d, true, false, false⟩ := by
    rw [CachedMultiLinearGeometry.mk', show g.affineJ garbage = (true, (g.affineJ garbage).2) from Prod.ext haff rfl]
  have hch : Changes (.mk' g jit d) q := by
    rw [e, Changes]
    intro he
    have he' := congrArg CachedMultiLinearGeometry.ieComputed he
    rcases hk with ⟨x, rfl⟩ | rfl | ⟨x, rfl⟩ | ⟨x, rfl⟩ <;>
    simp [cached, CachedMultiLinearGeometry.integrationElement, CachedMultiLinearGeometry.volume,
      CachedMultiLinearGeometry.jacobianInverseTransposed, CachedMultiLinearGeometry.jacobianInverse,
      CachedMultiLinearGeometry.affine, hD, hR, hp] at he'
  have hqt : ∀ i, q ≠ .corner i := by
    rintro i rfl; exact hch rfl
  exact race_of_must s t hst Cell.flags (start (.mk' g jit d) calls)
      (Prog.mustWrite_seq (List.mem_map_of_mem hq) (mustWrite_call _ q hch))
      (Prog.mustTouch_seq (List.mem_map_of_mem hq) (mustTouch_call g hg _ q hqt))
      (Prog.mustTouch_seq (List.mem_map_of_mem hq') (mustTouch_call g hg _ q' hk')) order l l' hl hl'

/-- C102: two threads share a segment; one asks for the integration element, the other one maps a point -/
theorem C102_counterexample : ¬ C102_full := by
  intro h
  obtain ⟨hg, hi, hr, -⟩ := sampleSegment_good
  let calls : Bool → List Query := fun b => if b then [.integrationElement fun _ => 0] else [.global fun _ => 0]
  let s := start (.mk' sampleSegment garbage 0) calls
  obtain ⟨ts, x, hx⟩ := exists_finish true s
  obtain ⟨us, y, hy⟩ := exists_finish false (run ts s).1
  refine h Bool inferInstance sampleSegment garbage 0 calls (ts ++ us) hg
    (C102_race sampleSegment hg _ _ hi hr garbage 0 calls true false (by decide) (.integrationElement fun _ => 0)
      (.global fun _ => 0) (by simp [calls]) (by simp [calls]) (Or.inl ⟨_, rfl⟩) (fun i => Query.noConfusion) (ts ++ us) x y ?_ ?_)
  · rw [run_append]; exact run_ret true x us _ hx
  · rw [run_append]; exact hy

/-- C102: after `integrationElement` alone the object is not settled: `jacobianInverseTransposed` modifies it again, and
overwrites the integration element while other threads may read it -/
theorem C102_half_warm (g : MultiLinearGeometry) (jt jit : Mat ℝ) (D D' : ℝ) (R : Mat ℝ) (x : Vec ℝ)
    (hR : rightInvA g.mydim g.cdim jt = some (D', R)) :
    Changes ⟨g, jt, jit, D, true, false, true⟩ (.jacobianInverseTransposed x) ∧
    ¬ Changes ⟨g, jt, jit, D, true, false, true⟩ (.integrationElement x) ∧
    ∀ fuel y, ¬ Changes ⟨g, jt, jit, D, true, false, true⟩ (.local_ fuel y) := by
  refine ⟨fun he => ?_, fun he => he rfl, fun _ _ he => he rfl⟩
  have he' := congrArg CachedMultiLinearGeometry.jitComputed he
  simp [cached, CachedMultiLinearGeometry.jacobianInverseTransposed, CachedMultiLinearGeometry.affine, hR] at he'

/-- the hypotheses of `C102_warm` and `C102_race` can be met, with threads that conflict -/
example : ∃ (g : MultiLinearGeometry) (a : Vec ℝ) (M : Mat ℝ) (p : Vec ℝ), Legal g ∧ ImageOf g a M ∧ FullRank g M ∧
    position g.mydim g.id 0 0 = some p ∧ MultiLinear.Inner g p := by
  obtain ⟨h1, h2, h3, p, h4, h5⟩ := sampleSegment_good
  exact ⟨_, _, _, p, h1, h2, h3, h4, h5⟩

/-- two readers of a settled object, one of them a finished thread: `C102_partial` speaks about something -/
example : ∃ order l, (run order (start ⟨sampleSegment, garbage, garbage, 5, true, true, true⟩
    (fun t : Nat => if t < 2 then [.integrationElement fun _ => 0] else []))).1.threads 1 = .ret l ∧
    l = [.number (some 5)] := by
  refine ⟨[1, 0, 0, 1, 1], _, ?_, rfl⟩
  rfl

end

end Verif.Thread.Cached
