import Verif.Thread.Lemmas
import Verif.Lfe.Props

/-! Property C102 for LocalFiniteElementGeometry, localfiniteelementgeometry.hh: the only member that const functions write is
`affine_` (hh:432), in `affine()`, which `volume(opts)` calls. -/

namespace Verif.Thread.Lfe

open Verif.Lfe Verif.RefGeom Verif.Mapped

noncomputable section

variable {m n : Nat} {ι : Type} [DecidableEq ι]

/-- the location: `std::optional<bool>`, of which flag and value are accessed together -/
abbrev P (α : Type) := Prog Unit (fun _ => Option Bool) α

/-- hh:159-164.  `none`: `affineImpl` fails an assertion. -/
def affine (g : LFEGeometry m n) : P (Option Bool) :=
  .read () fun o =>
    match o with
    | some _ => .read () fun o => .ret o
    | none =>
      match g.affineImpl with
      | none => .ret none
      | some b => .write () (fun _ => some b) (.read () fun o => .ret o)

/-- the calls: `affine()`, `volume(opts)`, all other const functions -/
inductive Call (m : Nat) where
  | affine
  | volume (rules : Nat → Option (Rule m)) (opts : ConvergenceOptions)
  | other

/-- results of the calls; those of `other` do not depend on `affine_` -/
inductive Result where
  | flag (b : Option Bool)
  | volume (v : Option VolumeRun)
  | other

/-- hh:276-291 for `volume`; if the first rule throws `affine()` is not called, that case is left out -/
def call (g : LFEGeometry m n) : Call m → P Result
  | .affine => (affine g).map .flag
  | .volume rules opts => (affine g).map fun a => .volume (a.map fun a => adaptiveVolume (fun p => (rules p).bind g.volumeOf) a opts)
  | .other => .ret .other

/-- threads that share a geometry -/
def start (g : LFEGeometry m n) (calls : ι → List (Call m)) : Config Unit (fun _ => Option Bool) (List Result) ι :=
  ⟨fun _ => g.affine_, fun t => Prog.seq ((calls t).map (call g))⟩

/-- the answer of the sequential model -/
def answer (g : LFEGeometry m n) : Call m → Result
  | .affine => .flag (g.affine.map Prod.fst)
  | .volume rules opts => .volume (g.volume rules opts)
  | .other => .other

/-- two threads call `affine()` or `volume(opts)` -/
def Shared (calls : ι → List (Call m)) : Prop :=
  ∃ a b, a ≠ b ∧ (∃ q ∈ calls a, q ≠ .other) ∧ ∃ q ∈ calls b, q ≠ .other

theorem quiet_call (g : LFEGeometry m n) (b : Bool) (h : g.affine_ = some b) (q : Call m) :
    (call g q).quiet (fun _ => g.affine_) ∧ ((call g q).solo fun _ => g.affine_).2 = answer g q := by
  have ha : g.affine = some (b, g) := by rw [LFEGeometry.affine, h]
  have h1 : (affine g).quiet (fun _ => g.affine_) := by rw [affine, h]; exact trivial
  have h2 : ((affine g).solo fun _ => g.affine_).2 = some b := by rw [affine, h]; rfl
  cases q with
  | affine => exact ⟨Prog.quiet_map h1, by rw [call, Prog.solo_map, h2, answer, ha]; rfl⟩
  | volume rules opts =>
    refine ⟨Prog.quiet_map h1, ?_⟩
    rw [call, Prog.solo_map, h2, answer, LFEGeometry.volume, ha]; rfl
  | other => exact ⟨trivial, rfl⟩

theorem mustTouch_call (g : LFEGeometry m n) (q : Call m) (h : q ≠ .other) : (call g q).mustTouch () := by
  cases q with
  | other => exact absurd rfl h
  | affine => exact Or.inl rfl
  | volume rules opts => exact Or.inl rfl

theorem mustWrite_call (g : LFEGeometry m n) (b : Bool) (hi : g.affineImpl = some b) (q : Call m) (h : q ≠ .other) :
    (call g q).mustWrite () none := by
  have h1 : (affine g).mustWrite () none := by
    intro m' hm'
    rw [hm', hi]
    exact Or.inl rfl
  cases q with
  | other => exact absurd rfl h
  | affine => exact Prog.mustWrite_bind_left h1
  | volume rules opts => exact Prog.mustWrite_bind_left h1

/-- C102, LocalFiniteElementGeometry: after one call of `affine()` no data race, and the answers are those of a sequential
program -/
theorem C102_lfe_warm (g : LFEGeometry m n) (b : Bool) (h : g.affine_ = some b) (calls : ι → List (Call m)) (order : List ι) :
    ¬ Race (run order (start g calls)).2 ∧
    ∀ t l, (run order (start g calls)).1.threads t = .ret l → l = (calls t).map (answer g) := by
  have hseq : ∀ qs : List (Call m), (Prog.seq (qs.map (call g))).quiet (fun _ => g.affine_) ∧
      ((Prog.seq (qs.map (call g))).solo fun _ => g.affine_).2 = qs.map (answer g) := by
    intro qs
    induction qs with
    | nil => exact ⟨trivial, rfl⟩
    | cons q qs ih =>
      obtain ⟨h1, h2⟩ := quiet_call g b h q
      refine ⟨Prog.quiet_bind h1 (Prog.quiet_map ih.1), ?_⟩
      rw [List.map_cons, Prog.seq, Prog.solo_bind, Prog.solo_map, Prog.solo_quiet h1, ih.2, h2, List.map_cons]
  have H := run_quiet (fun _ => g.affine_) (fun t => (calls t).map (answer g)) order (start g calls) rfl
    (fun t => (hseq (calls t)).1) (fun t => (hseq (calls t)).2)
  refine ⟨not_race_of_reads H.2.1, fun t l hl => ?_⟩
  have := (H.2.2 t).2
  rw [hl] at this
  exact this

/-- C102, LocalFiniteElementGeometry before the first call of `affine()`: every execution that finishes two threads which call
`affine()` or `volume(opts)` has a data race -/
theorem C102_lfe_race (g : LFEGeometry m n) (b : Bool) (h : g.affine_ = none) (hi : g.affineImpl = some b)
    (calls : ι → List (Call m)) (s t : ι) (hst : s ≠ t) (q q' : Call m) (hq : q ∈ calls s) (hq' : q' ∈ calls t)
    (hn : q ≠ .other) (hn' : q' ≠ .other) (order : List ι) (l l' : List Result)
    (hl : (run order (start g calls)).1.threads s = .ret l) (hl' : (run order (start g calls)).1.threads t = .ret l') :
    Race (run order (start g calls)).2 :=
  race_of_must s t hst () (start g calls)
    (Prog.mustWrite_seq (List.mem_map_of_mem hq) (by rw [show (start g calls).mem () = none from h]; exact mustWrite_call g b hi q hn))
    (Prog.mustTouch_seq (List.mem_map_of_mem hq) (mustTouch_call g q hn))
    (Prog.mustTouch_seq (List.mem_map_of_mem hq') (mustTouch_call g q' hn')) order l l' hl hl'

/-- C102, LocalFiniteElementGeometry: exactly when is there no data race -/
theorem C102_lfe_iff (g : LFEGeometry m n) (b : Bool) (hi : g.affineImpl = some b) (calls : ι → List (Call m)) :
    (∀ order, ¬ Race (run order (start g calls)).2) ↔ (g.affine_ = none → ¬ Shared calls) := by
  constructor
  · rintro h hn ⟨s, t, hst, ⟨q, hq, hk⟩, ⟨q', hq', hk'⟩⟩
    obtain ⟨ts, hts⟩ := exists_race s t hst () (start g calls)
      (Prog.mustWrite_seq (List.mem_map_of_mem hq)
        (by rw [show (start g calls).mem () = none from hn]; exact mustWrite_call g b hi q hk))
      (Prog.mustTouch_seq (List.mem_map_of_mem hq) (mustTouch_call g q hk))
      (Prog.mustTouch_seq (List.mem_map_of_mem hq') (mustTouch_call g q' hk'))
    exact h ts hts
  · intro h order
    rcases ha : g.affine_ with _ | b'
    · have h' := h ha
      by_cases hall : ∀ t, ∀ q ∈ calls t, q = .other
      · refine not_race_of_reads (run_quiet _ _ order (start g calls) rfl (fun t => Prog.quiet_seq ?_) fun _ => rfl).2.1
        intro p hp
        obtain ⟨q, hq, rfl⟩ := List.mem_map.1 hp
        rw [hall t q hq]; exact trivial
      · push Not at hall
        obtain ⟨a, q, hq, hk⟩ := hall
        have ho : ∀ t, t ≠ a → ∃ l, (start g calls).threads t = .ret l := by
          intro t ht
          refine Prog.seq_ret fun p hp => ?_
          obtain ⟨q', hq', rfl⟩ := List.mem_map.1 hp
          have : q' = .other := by
            by_contra hk'
            exact h' ⟨a, t, ht.symm, ⟨q, hq, hk⟩, ⟨q', hq', hk'⟩⟩
          rw [this]; exact ⟨_, rfl⟩
        choose l hl using ho
        exact not_race_of_single a (run_single a _ (fun t => if ht : t ≠ a then l t ht else []) order (start g calls) rfl
          fun t ht => by rw [dif_pos ht]; exact hl t ht).1
    · exact (C102_lfe_warm g b' ha calls order).1

/-- a point geometry, newly constructed: the hypotheses can be met and two threads race -/
example : ∃ (g : LFEGeometry 0 1) (b : Bool), g.affine_ = none ∧ g.affineImpl = some b ∧
    Shared (fun _ : Nat => [(Call.affine : Call 0)]) :=
  ⟨⟨0, ⟨0, 0, fun _ => [], fun _ => [], fun _ => []⟩, [], none, 0⟩, true, rfl, rfl, 0, 1, by decide, ⟨_, List.mem_singleton_self _, by simp⟩,
    ⟨_, List.mem_singleton_self _, by simp⟩⟩

end

end Verif.Thread.Lfe
