import Verif.MultiLinear.StorageModel

/-! Property C84: where the corners are stored. -/

namespace Verif.MultiLinear.Storage

open Verif.RefGeom Verif.MatHelp Verif.RefTopo Verif.Typ Finset
open MultiLinearGeometry
open Matrix hiding vec

noncomputable section

/-! ## Specification

Value semantics: a geometry is its type and its corners, a variable holds a geometry; constructing takes the corners
the array has at that moment, assignment copies, a call answers for the geometry the variable holds. -/

/-- the value a variable has: topology id and corners -/
abbrev Value := Nat × (Nat → Vec ℝ)

/-- the geometry -/
def Value.geometry (cfg : Config) (x : Value) : MultiLinearGeometry := ⟨cfg.mydim, cfg.cdim, x.1, x.2, cfg.tol⟩

/-- the answers demanded by value semantics; `none`: an array or a variable is used that was not created -/
def expected (cfg : Config) : (arrays : Nat → Option (Nat → Vec ℝ)) → (vars : Nat → Option Value) → List Op →
    Option (List (Answer cfg.mydim cfg.cdim))
  | _, _, [] => some []
  | A, V, .write a c :: ps => expected cfg (set A a (some c)) V ps
  | A, V, .free a :: ps => expected cfg (set A a none) V ps
  | A, V, .make v t a _ _ :: ps => (A a).bind fun c => expected cfg A (set V v (some (t, c))) ps
  | A, V, .assign v w :: ps => (V w).bind fun x => expected cfg A (set V v (some x)) ps
  | A, V, .call v q :: ps => (V v).bind fun x => (expected cfg A V ps).map (plain (x.geometry cfg) q :: ·)

/-- the same where a variable names an array and a call answers for the present content of the array -/
def following (cfg : Config) : (arrays : Nat → Option (Nat → Vec ℝ)) → (vars : Nat → Option (Nat × Nat)) → List Op →
    Option (List (Answer cfg.mydim cfg.cdim))
  | _, _, [] => some []
  | A, V, .write a c :: ps => following cfg (set A a (some c)) V ps
  | A, V, .free a :: ps => following cfg (set A a none) V ps
  | A, V, .make v t a _ _ :: ps => (A a).bind fun _ => following cfg A (set V v (some (t, a))) ps
  | A, V, .assign v w :: ps => (V w).bind fun x => following cfg A (set V v (some x)) ps
  | A, V, .call v q :: ps => (V v).bind fun x => (A x.2).bind fun c =>
      (following cfg A V ps).map (plain (Value.geometry cfg (x.1, c)) q :: ·)

/-- the rule of multilineargeometry.hh:105-116: a geometry is invalid as soon as its array is modified or freed; an invalid
one is only assigned to.  `live`: the arrays that exist; `src v`: the array of a valid variable -/
def Contract : (live : Nat → Bool) → (src : Nat → Option Nat) → List Op → Prop
  | _, _, [] => True
  | L, S, .write a _ :: ps => Contract (set L a true) (fun v => if S v = some a then none else S v) ps
  | L, S, .free a :: ps => Contract (set L a false) (fun v => if S v = some a then none else S v) ps
  | L, S, .make v _ a _ _ :: ps => L a = true ∧ Contract L (set S v (some a)) ps
  | L, S, .assign v w :: ps => (S w).isSome ∧ Contract L (set S v (S w)) ps
  | L, S, .call v _ :: ps => (S v).isSome ∧ Contract L S ps

/-- the contract for a whole program -/
def Obeys (ps : List Op) : Prop := Contract (fun _ => false) (fun _ => none) ps

/-- the answers of a program, class and storage given -/
def runWith (m n : Nat) (tol : ℝ) (caching byRef : Bool) (ps : List Op) : Option (List (Answer m n)) :=
  run ⟨m, n, tol, caching, byRef⟩ start ps

/-! ## Copies -/

theorem set_map {α β : Type} (f : α → β) (g : Nat → α) (i : Nat) (x : α) :
    (fun j => f (set g i x j)) = set (fun j => f (g j)) i (f x) := by
  funext j; unfold set; split <;> rfl

/-- the value of an object that holds a copy -/
def valueOf (o : Object) : Option Value :=
  match o.corners_ with
  | .copy c => some (o.id, c)
  | .wrapper _ => none

theorem run_copy_plain (m n : Nat) (tol : ℝ) : ∀ (ps : List Op) (s : State) (V : Nat → Option Value),
    (∀ v, (s.vars v).isNone ∧ (V v).isNone ∨ ∃ o x, s.vars v = some o ∧ V v = some x ∧ valueOf o = some x) →
    run ⟨m, n, tol, false, false⟩ s ps = expected ⟨m, n, tol, false, false⟩ s.arrays V ps
  | [], _, _, _ => rfl
  | .write a c :: ps, s, V, h => by
    have := run_copy_plain m n tol ps { s with arrays := set s.arrays a (some c) } V h
    rw [run, expected, ← this]
    simp only [step, Option.bind_eq_bind, Option.bind_some, List.nil_append]
    cases run _ _ ps <;> rfl
  | .free a :: ps, s, V, h => by
    have := run_copy_plain m n tol ps { s with arrays := set s.arrays a none } V h
    rw [run, expected, ← this]
    simp only [step, Option.bind_eq_bind, Option.bind_some, List.nil_append]
    cases run _ _ ps <;> rfl
  | .make v t a jit d :: ps, s, V, h => by
    rw [run, expected]
    cases ha : s.arrays a with
    | none => simp [step, construct, ha]
    | some c =>
      have := run_copy_plain m n tol ps { s with vars := set s.vars v (some ⟨t, .copy c, garbage, jit, d, false, false, false⟩) }
        (set V v (some (t, c))) (by
          intro v'
          simp only [set]
          split
          · exact Or.inr ⟨_, _, rfl, rfl, rfl⟩
          · exact h v')
      simp only at this
      rw [Option.bind_some, ← this]
      simp only [step, construct, ha, Option.bind_eq_bind, Option.bind_some, List.nil_append, Bool.false_eq_true, if_false,
        Option.pure_def]
      cases run _ _ ps <;> rfl
  | .assign v w :: ps, s, V, h => by
    rw [run, expected]
    rcases h w with ⟨h1, h2⟩ | ⟨o, x, h1, h2, h3⟩
    · rw [Option.isNone_iff_eq_none] at h1 h2
      simp [step, h1, h2]
    · have := run_copy_plain m n tol ps { s with vars := set s.vars v (some o) } (set V v (some x)) (by
          intro v'
          simp only [set]
          split
          · exact Or.inr ⟨_, _, rfl, rfl, h3⟩
          · exact h v')
      simp only at this
      rw [h2, Option.bind_some, ← this]
      simp only [step, h1, Option.bind_eq_bind, Option.bind_some, List.nil_append, Option.pure_def]
      cases run _ _ ps <;> rfl
  | .call v q :: ps, s, V, h => by
    rw [run, expected]
    rcases h v with ⟨h1, h2⟩ | ⟨o, x, h1, h2, h3⟩
    · rw [Option.isNone_iff_eq_none] at h1 h2
      simp [step, h1, h2]
    · rw [h2, Option.bind_some, ← run_copy_plain m n tol ps s V h]
      unfold valueOf at h3
      cases hc : o.corners_ with
      | wrapper a => rw [hc] at h3; cases h3
      | copy c =>
        rw [hc] at h3
        obtain rfl := Option.some.inj h3
        simp only [step, h1, hc, deref, Option.bind_eq_bind, Option.bind_some, Bool.false_eq_true, if_false,
          Option.pure_def, Value.geometry, base]
        cases run _ _ ps <;> rfl

/-- C84, default storage, MultiLinearGeometry: every program behaves as under value semantics.  Arrays may be changed or freed,
geometries copied, nothing of this shows in the answers for a geometry that exists. -/
theorem C84_copy (m n : Nat) (tol : ℝ) (ps : List Op) :
    runWith m n tol false false ps = expected ⟨m, n, tol, false, false⟩ (fun _ => none) (fun _ => none) ps :=
  run_copy_plain m n tol ps start (fun _ => none) fun _ => Or.inl ⟨rfl, rfl⟩

/-- geometries for which C34 holds: not affine, or exactly affine of full rank -/
def Good (g : MultiLinearGeometry) : Prop :=
  g.affine = false ∨ Legal g ∧ ∃ a M p, ImageOf g a M ∧ FullRank g M ∧ position g.mydim g.id 0 0 = some p ∧ Inner g p

/-- all geometries constructed are of that kind; points of calls keep the margin of C34 -/
def Tame (cfg : Config) : (arrays : Nat → Option (Nat → Vec ℝ)) → (vars : Nat → Option Value) → List Op → Prop
  | _, _, [] => True
  | A, V, .write a c :: ps => Tame cfg (set A a (some c)) V ps
  | A, V, .free a :: ps => Tame cfg (set A a none) V ps
  | A, V, .make v t a _ _ :: ps => ∀ c, A a = some c →
      Good (Value.geometry cfg (t, c)) ∧ Tame cfg A (set V v (some (t, c))) ps
  | A, V, .assign v w :: ps => ∀ x, V w = some x → Tame cfg A (set V v (some x)) ps
  | A, V, .call v q :: ps => ∀ x, V v = some x → q.Ok (x.geometry cfg) ∧ Tame cfg A V ps

/-- what the members of the caching class satisfy -/
def MInv (g : MultiLinearGeometry) (c : CachedMultiLinearGeometry) : Prop :=
  (g.affine = false ∧ c.base = g ∧ c.affine_ = false) ∨
  (Legal g ∧ (∃ a M p, ImageOf g a M ∧ FullRank g M ∧ position g.mydim g.id 0 0 = some p ∧ Inner g p) ∧ Inv g c)

theorem minv_mk {g : MultiLinearGeometry} (h : Good g) (jit : Mat ℝ) (d : ℝ) : MInv g (.mk' g jit d) := by
  rcases h with h | ⟨hg, h⟩
  · exact Or.inl ⟨h, rfl, h⟩
  · exact Or.inr ⟨hg, h, inv_mk g jit d⟩

theorem minv_step {g : MultiLinearGeometry} {c : CachedMultiLinearGeometry} (h : MInv g c) (q : Query) (hq : q.Ok g) :
    MInv g (cached (m := g.mydim) (n := g.cdim) c q).1 ∧ (cached (m := g.mydim) (n := g.cdim) c q).1.base = g ∧
    (cached c q).2 = plain g q := by
  rcases h with ⟨h1, h2⟩ | ⟨hg, h, hi⟩
  · obtain ⟨h3, h4⟩ := nonaffine_step g h1 c h2 q
    exact ⟨Or.inl ⟨h1, h3⟩, h3.1, h4⟩
  · obtain ⟨a, M, p, e1, e2, e3, e4⟩ := h
    obtain ⟨h3, h4⟩ := affine_step g hg a M e1 e2 p e3 e4 c hi q hq
    exact ⟨Or.inr ⟨hg, ⟨a, M, p, e1, e2, e3, e4⟩, h3⟩, h3.base, h4⟩

theorem view_setMembers (cfg : Config) (o : Object) (c : Nat → Vec ℝ) (r : CachedMultiLinearGeometry)
    (h : r.base = base cfg o.id c) : view cfg (setMembers o r) c = r := by
  obtain ⟨b, _, _, _, _, _, _⟩ := r
  simp only at h
  subst h
  rfl

theorem run_copy_caching (m n : Nat) (tol : ℝ) : ∀ (ps : List Op) (s : State) (V : Nat → Option Value),
    (∀ v, (s.vars v).isNone ∧ (V v).isNone ∨ ∃ o x, s.vars v = some o ∧ V v = some x ∧ o.corners_ = .copy x.2 ∧ o.id = x.1 ∧
      MInv (x.geometry ⟨m, n, tol, true, false⟩) (view ⟨m, n, tol, true, false⟩ o x.2)) →
    Tame ⟨m, n, tol, true, false⟩ s.arrays V ps →
    run ⟨m, n, tol, true, false⟩ s ps = expected ⟨m, n, tol, true, false⟩ s.arrays V ps
  | [], _, _, _, _ => rfl
  | .write a c :: ps, s, V, h, ht => by
    have := run_copy_caching m n tol ps { s with arrays := set s.arrays a (some c) } V h ht
    rw [run, expected, ← this]
    simp only [step, Option.bind_eq_bind, Option.bind_some, List.nil_append]
    cases run _ _ ps <;> rfl
  | .free a :: ps, s, V, h, ht => by
    have := run_copy_caching m n tol ps { s with arrays := set s.arrays a none } V h ht
    rw [run, expected, ← this]
    simp only [step, Option.bind_eq_bind, Option.bind_some, List.nil_append]
    cases run _ _ ps <;> rfl
  | .make v t a jit d :: ps, s, V, h, ht => by
    rw [run, expected]
    cases ha : s.arrays a with
    | none => simp [step, construct, ha]
    | some c =>
      obtain ⟨h1, h2⟩ := ht c ha
      have := run_copy_caching m n tol ps { s with vars := set s.vars v (some (setMembers
          ⟨t, .copy c, garbage, jit, d, false, false, false⟩ (.mk' (base ⟨m, n, tol, true, false⟩ t c) jit d))) }
        (set V v (some (t, c))) (by
          intro v'
          simp only [set]
          split
          · exact Or.inr ⟨_, _, rfl, rfl, rfl, rfl, minv_mk h1 jit d⟩
          · exact h v') h2
      simp only at this
      rw [Option.bind_some, ← this]
      simp only [step, construct, ha, Option.bind_eq_bind, Option.bind_some, List.nil_append, Bool.false_eq_true, if_false,
        if_true, Option.pure_def]
      cases run _ _ ps <;> rfl
  | .assign v w :: ps, s, V, h, ht => by
    rw [run, expected]
    rcases h w with ⟨h1, h2⟩ | ⟨o, x, h1, h2, h3⟩
    · rw [Option.isNone_iff_eq_none] at h1 h2
      simp [step, h1, h2]
    · have := run_copy_caching m n tol ps { s with vars := set s.vars v (some o) } (set V v (some x)) (by
          intro v'
          simp only [set]
          split
          · exact Or.inr ⟨_, _, rfl, rfl, h3⟩
          · exact h v') (ht x h2)
      simp only at this
      rw [h2, Option.bind_some, ← this]
      simp only [step, h1, Option.bind_eq_bind, Option.bind_some, List.nil_append, Option.pure_def]
      cases run _ _ ps <;> rfl
  | .call v q :: ps, s, V, h, ht => by
    rw [run, expected]
    rcases h v with ⟨h1, h2⟩ | ⟨o, x, h1, h2, h3, h4, h5⟩
    · rw [Option.isNone_iff_eq_none] at h1 h2
      simp [step, h1, h2]
    · obtain ⟨hq, ht⟩ := ht x h2
      obtain ⟨e1, e2, e3⟩ := minv_step h5 q hq
      have e2' : view _ (setMembers o (cached (m := m) (n := n) (view ⟨m, n, tol, true, false⟩ o x.2) q).1) x.2 =
        (cached (m := m) (n := n) (view ⟨m, n, tol, true, false⟩ o x.2) q).1 :=
        view_setMembers ⟨m, n, tol, true, false⟩ o x.2 _ (e2.trans (by rw [base, h4]; rfl))
      have := run_copy_caching m n tol ps { s with vars := set s.vars v (some (setMembers o
          (cached (m := m) (n := n) (view ⟨m, n, tol, true, false⟩ o x.2) q).1)) } V (by
          intro v'
          simp only [set]
          split
          · next hv =>
            subst hv
            refine Or.inr ⟨_, x, rfl, h2, h3, h4, ?_⟩
            rw [e2']
            exact e1
          · exact h v') ht
      simp only at this
      rw [h2, Option.bind_some, ← this]
      have e3' : (cached (m := m) (n := n) (view ⟨m, n, tol, true, false⟩ o x.2) q).2 =
        plain (x.geometry ⟨m, n, tol, true, false⟩) q := e3
      simp only [step, h1, h3, deref, Option.bind_eq_bind, Option.bind_some, if_true, Option.pure_def, e3']
      cases run _ _ ps <;> rfl

/-- C84, default storage, CachedMultiLinearGeometry: the same for programs whose geometries are of the kind of C34; the members
filled lazily travel with copies of the object -/
theorem C84_copy_caching_partial (m n : Nat) (tol : ℝ) (ps : List Op)
    (h : Tame ⟨m, n, tol, true, false⟩ (fun _ => none) (fun _ => none) ps) :
    runWith m n tol true false ps = expected ⟨m, n, tol, true, false⟩ (fun _ => none) (fun _ => none) ps :=
  run_copy_caching m n tol ps start (fun _ => none) (fun _ => Or.inl ⟨rfl, rfl⟩) h

/-! ## References -/

/-- a valid variable holds the same as with the default storage, except that the corners are in the array -/
def Same (s t : State) (S : Nat → Option Nat) : Prop :=
  ∀ v a, S v = some a → ∃ (o : Object) (c : Nat → Vec ℝ), s.vars v = some { o with corners_ := .wrapper a } ∧
    t.vars v = some { o with corners_ := .copy c } ∧ s.arrays a = some c

theorem run_contract (m n : Nat) (tol : ℝ) (ch : Bool) : ∀ (ps : List Op) (s t : State) (L : Nat → Bool) (S : Nat → Option Nat),
    s.arrays = t.arrays → (∀ a, L a = true → (s.arrays a).isSome) → Same s t S → Contract L S ps →
    ∃ r, run ⟨m, n, tol, ch, true⟩ s ps = some r ∧ run ⟨m, n, tol, ch, false⟩ t ps = some r
  | [], _, _, _, _, _, _, _, _ => ⟨[], rfl, rfl⟩
  | .write a c :: ps, s, t, L, S, ha, hL, hS, hc => by
    obtain ⟨r, h1, h2⟩ := run_contract m n tol ch ps { s with arrays := set s.arrays a (some c) }
      { t with arrays := set t.arrays a (some c) } _ _ (by simp only [ha])
      (by intro a'; simp only [set]; split
          · simp
          · exact hL a')
      (by intro v a' hv
          by_cases hva : S v = some a
          · simp [hva] at hv
          · beta_reduce at hv
            rw [if_neg hva] at hv
            obtain ⟨o, c', e1, e2, e3⟩ := hS v a' hv
            have hne : a' ≠ a := by rintro rfl; exact hva hv
            exact ⟨o, c', e1, e2, by simp only [set, if_neg hne, e3]⟩) hc
    exact ⟨r, by simp [run, step, h1], by simp [run, step, h2]⟩
  | .free a :: ps, s, t, L, S, ha, hL, hS, hc => by
    obtain ⟨r, h1, h2⟩ := run_contract m n tol ch ps { s with arrays := set s.arrays a none }
      { t with arrays := set t.arrays a none } _ _ (by simp only [ha])
      (by intro a'; simp only [set]; split
          · simp
          · exact hL a')
      (by intro v a' hv
          by_cases hva : S v = some a
          · simp [hva] at hv
          · beta_reduce at hv
            rw [if_neg hva] at hv
            obtain ⟨o, c', e1, e2, e3⟩ := hS v a' hv
            have hne : a' ≠ a := by rintro rfl; exact hva hv
            exact ⟨o, c', e1, e2, by simp only [set, if_neg hne, e3]⟩) hc
    exact ⟨r, by simp [run, step, h1], by simp [run, step, h2]⟩
  | .make v k a jit d :: ps, s, t, L, S, ha, hL, hS, hc => by
    obtain ⟨hl, hc⟩ := hc
    obtain ⟨c, hc0⟩ := Option.isSome_iff_exists.1 (hL a hl)
    have hct : t.arrays a = some c := by rw [← ha, hc0]
    obtain ⟨o, eo1, eo2⟩ : ∃ o : Object, construct ⟨m, n, tol, ch, true⟩ s.arrays k a jit d =
        some { o with corners_ := .wrapper a } ∧ construct ⟨m, n, tol, ch, false⟩ t.arrays k a jit d =
        some { o with corners_ := .copy c } := by
      cases ch with
      | false => exact ⟨⟨k, .wrapper a, garbage, jit, d, false, false, false⟩, by simp [construct, hc0], by simp [construct, hct]⟩
      | true =>
        exact ⟨setMembers ⟨k, .wrapper a, garbage, jit, d, false, false, false⟩ (.mk' ⟨m, n, k, c, tol⟩ jit d),
          by simp [construct, hc0, base, setMembers], by simp [construct, hct, base, setMembers]⟩
    obtain ⟨r, h1, h2⟩ := run_contract m n tol ch ps { s with vars := set s.vars v (some { o with corners_ := .wrapper a }) }
      { t with vars := set t.vars v (some { o with corners_ := .copy c }) } _ _ ha hL
      (by intro v' a' hv
          simp only [set] at hv ⊢
          split at hv
          · next e =>
            obtain rfl := Option.some.inj hv
            exact ⟨o, c, by rw [if_pos e], by rw [if_pos e], hc0⟩
          · next e =>
            obtain ⟨o', c', e1, e2, e3⟩ := hS v' a' hv
            exact ⟨o', c', by rw [if_neg e, e1], by rw [if_neg e, e2], e3⟩) hc
    exact ⟨r, by simp [run, step, eo1, h1], by simp [run, step, eo2, h2]⟩
  | .assign v w :: ps, s, t, L, S, ha, hL, hS, hc => by
    obtain ⟨hl, hc⟩ := hc
    obtain ⟨a, hw⟩ := Option.isSome_iff_exists.1 hl
    obtain ⟨o, c, e1, e2, e3⟩ := hS w a hw
    obtain ⟨r, h1, h2⟩ := run_contract m n tol ch ps { s with vars := set s.vars v (some { o with corners_ := .wrapper a }) }
      { t with vars := set t.vars v (some { o with corners_ := .copy c }) } _ _ ha hL
      (by intro v' a' hv
          simp only [set] at hv ⊢
          split at hv
          · next e =>
            obtain rfl := Option.some.inj (hw.symm.trans hv)
            exact ⟨o, c, by rw [if_pos e], by rw [if_pos e], e3⟩
          · next e =>
            obtain ⟨o', c', e1, e2, e3⟩ := hS v' a' hv
            exact ⟨o', c', by rw [if_neg e, e1], by rw [if_neg e, e2], e3⟩) hc
    exact ⟨r, by simp [run, step, e1, h1], by simp [run, step, e2, h2]⟩
  | .call v q :: ps, s, t, L, S, ha, hL, hS, hc => by
    obtain ⟨hl, hc⟩ := hc
    obtain ⟨a, hw⟩ := Option.isSome_iff_exists.1 hl
    obtain ⟨o, c, e1, e2, e3⟩ := hS v a hw
    cases ch with
    | false =>
      obtain ⟨r, h1, h2⟩ := run_contract m n tol false ps s t L S ha hL hS hc
      refine ⟨plain ⟨m, n, o.id, c, tol⟩ q :: r, ?_, ?_⟩
      · simp [run, step, e1, deref, e3, h1, base]
      · simp [run, step, e2, deref, h2, base]
    | true =>
      obtain ⟨r, h1, h2⟩ := run_contract m n tol true ps
        { s with vars := set s.vars v (some { setMembers o (cached (m := m) (n := n) (view ⟨m, n, tol, true, true⟩ o c) q).1
                              with corners_ := .wrapper a }) }
        { t with vars := set t.vars v (some { setMembers o (cached (m := m) (n := n) (view ⟨m, n, tol, true, true⟩ o c) q).1
                              with corners_ := .copy c }) } L S ha hL
        (by intro v' a' hv
            simp only [set]
            by_cases e : v' = v
            · subst e
              obtain rfl := Option.some.inj (hw.symm.trans hv)
              exact ⟨_, c, by rw [if_pos rfl], by rw [if_pos rfl], e3⟩
            · obtain ⟨o', c', e1, e2, e3⟩ := hS v' a' hv
              exact ⟨o', c', by rw [if_neg e, e1], by rw [if_neg e, e2], e3⟩) hc
      refine ⟨(cached (m := m) (n := n) (view ⟨m, n, tol, true, true⟩ o c) q).2 :: r, ?_, ?_⟩
      · simp only [run, step, e1, deref, e3, Option.bind_eq_bind, Option.bind_some, if_true, Option.pure_def]
        have := h1
        simp only [setMembers] at this ⊢
        rw [show view ⟨m, n, tol, true, true⟩ { o with corners_ := .wrapper a } c = view ⟨m, n, tol, true, true⟩ o c from rfl, this]
        rfl
      · simp only [run, step, e2, deref, Option.bind_eq_bind, Option.bind_some, if_true, Option.pure_def]
        have := h2
        simp only [setMembers] at this ⊢
        rw [show view ⟨m, n, tol, true, false⟩ { o with corners_ := .copy c } c = view ⟨m, n, tol, true, true⟩ o c from rfl, this]
        rfl

/-- C84, the documented contract: a program that never uses a geometry whose array was modified or freed since cannot tell a
`std::reference_wrapper` from a copy, for both classes; nothing undefined happens -/
theorem C84_contract (m n : Nat) (tol : ℝ) (caching : Bool) (ps : List Op) (h : Obeys ps) :
    runWith m n tol caching true ps = runWith m n tol caching false ps ∧ (runWith m n tol caching true ps).isSome := by
  obtain ⟨r, h1, h2⟩ := run_contract m n tol caching ps start start (fun _ => false) (fun _ => none) rfl
    (by intro a ha; cases ha) (by intro v a hv; cases hv) h
  rw [runWith, runWith, h1, h2]
  exact ⟨rfl, rfl⟩

theorem run_following (m n : Nat) (tol : ℝ) : ∀ (ps : List Op) (s : State) (V : Nat → Option (Nat × Nat)),
    (∀ v, (s.vars v).isNone ∧ (V v).isNone ∨ ∃ o x, s.vars v = some o ∧ V v = some x ∧ o.id = x.1 ∧ o.corners_ = .wrapper x.2) →
    run ⟨m, n, tol, false, true⟩ s ps = following ⟨m, n, tol, false, true⟩ s.arrays V ps
  | [], _, _, _ => rfl
  | .write a c :: ps, s, V, h => by
    have := run_following m n tol ps { s with arrays := set s.arrays a (some c) } V h
    rw [run, following, ← this]
    simp only [step, Option.bind_eq_bind, Option.bind_some, List.nil_append]
    cases run _ _ ps <;> rfl
  | .free a :: ps, s, V, h => by
    have := run_following m n tol ps { s with arrays := set s.arrays a none } V h
    rw [run, following, ← this]
    simp only [step, Option.bind_eq_bind, Option.bind_some, List.nil_append]
    cases run _ _ ps <;> rfl
  | .make v t a jit d :: ps, s, V, h => by
    rw [run, following]
    cases ha : s.arrays a with
    | none => simp [step, construct, ha]
    | some c =>
      have := run_following m n tol ps { s with vars := set s.vars v (some ⟨t, .wrapper a, garbage, jit, d, false, false, false⟩) }
        (set V v (some (t, a))) (by
          intro v'
          simp only [set]
          split
          · exact Or.inr ⟨_, _, rfl, rfl, rfl, rfl⟩
          · exact h v')
      simp only at this
      rw [Option.bind_some, ← this]
      simp only [step, construct, ha, Option.bind_eq_bind, Option.bind_some, List.nil_append, Bool.false_eq_true, if_false,
        Option.pure_def, if_true]
      cases run _ _ ps <;> rfl
  | .assign v w :: ps, s, V, h => by
    rw [run, following]
    rcases h w with ⟨h1, h2⟩ | ⟨o, x, h1, h2, h3⟩
    · rw [Option.isNone_iff_eq_none] at h1 h2
      simp [step, h1, h2]
    · have := run_following m n tol ps { s with vars := set s.vars v (some o) } (set V v (some x)) (by
          intro v'
          simp only [set]
          split
          · exact Or.inr ⟨_, _, rfl, rfl, h3⟩
          · exact h v')
      simp only at this
      rw [h2, Option.bind_some, ← this]
      simp only [step, h1, Option.bind_eq_bind, Option.bind_some, List.nil_append, Option.pure_def]
      cases run _ _ ps <;> rfl
  | .call v q :: ps, s, V, h => by
    rw [run, following]
    rcases h v with ⟨h1, h2⟩ | ⟨o, x, h1, h2, h3, h4⟩
    · rw [Option.isNone_iff_eq_none] at h1 h2
      simp [step, h1, h2]
    · obtain ⟨k, cs, jt, jit, d, f1, f2, f3⟩ := o
      obtain ⟨i, a⟩ := x
      simp only at h3 h4
      subst h3 h4
      rw [h2, Option.bind_some, ← run_following m n tol ps s V h]
      cases hc : s.arrays a with
      | none => simp [step, h1, deref, hc]
      | some c =>
        simp only [step, h1, deref, hc, Option.bind_eq_bind, Option.bind_some, Bool.false_eq_true, if_false,
          Option.pure_def, Value.geometry, base]
        cases run _ _ ps <;> rfl

/-- C84, `std::reference_wrapper`, MultiLinearGeometry, without the contract: every call answers for the corners the array has
now, as test-cornerstoragerefwrap.cc expects; after the array is freed the behaviour is undefined -/
theorem C84_following (m n : Nat) (tol : ℝ) (ps : List Op) :
    runWith m n tol false true ps = following ⟨m, n, tol, false, true⟩ (fun _ => none) (fun _ => none) ps :=
  run_following m n tol ps start (fun _ => none) fun _ => Or.inl ⟨rfl, rfl⟩

/-- what a user of the caching class might hope for: as `C84_following` -/
def C84_following_full : Prop := ∀ (m n : Nat) (tol : ℝ) (caching : Bool) (ps : List Op),
  Tame ⟨m, n, tol, caching, true⟩ (fun _ => none) (fun _ => none) ps →
  runWith m n tol caching true ps = following ⟨m, n, tol, caching, true⟩ (fun _ => none) (fun _ => none) ps

/-- corners of the interval from `u` to `w` -/
def ends (u w : ℝ) : Nat → Vec ℝ := fun k _ => if k = 0 then u else w

/-- the interval as a geometry -/
def interval (u w : ℝ) : MultiLinearGeometry := ⟨1, 1, 0, ends u w, 1 / 1000⟩

theorem interval_legal (u w : ℝ) : Legal (interval u w) := by constructor <;> norm_num [interval]

theorem interval_imageOf (u w : ℝ) : ImageOf (interval u w) (fun _ => u) (fun _ _ => w - u) := by
  have hs : IsSimplexId (interval u w).mydim (interval u w).id := by
    intro k h1 h2
    have : (interval u w).mydim = 1 := rfl
    omega
  intro k p hp j hj
  have := imageOf_simplex (interval u w) hs k p hp j hj
  rw [this]
  have hm : (interval u w).mydim = 1 := rfl
  rw [hm, sum_range_one, sum_range_one]
  simp [interval, ends]

theorem interval_fullRank {u w : ℝ} (h : u ≠ w) : FullRank (interval u w) (fun _ _ => w - u) := by
  change LinearIndependent ℝ (fun _ : Fin 1 => (fun _ : Fin 1 => w - u))
  rw [linearIndependent_unique_iff]
  intro h'
  have := congrFun h' 0
  exact h (sub_eq_zero.1 this).symm

theorem interval_inner (u w x : ℝ) (h1 : 1 / 1000 < x) (h2 : x < 999 / 1000) : Inner (interval u w) (fun _ => x) := by
  rw [Inner, checkInside_iff (rep_topoOf _ _)]
  have ht : topoOf (interval u w).mydim (interval u w).id = .prism .pt := by change topoOf 1 0 = _; decide
  rw [ht]
  refine ⟨?_, ?_, trivial⟩ <;> simp only [interval] <;> linarith

theorem interval_position (u w : ℝ) : ∃ p, position (interval u w).mydim (interval u w).id 0 0 = some p ∧
    Inner (interval u w) p := by
  obtain ⟨p, hp, hm⟩ := C21_mean (K := ℝ) 1 0 0 0 (by norm_num) (by norm_num) (by decide)
  refine ⟨p, hp, ?_⟩
  have := hm 0
  have h3 : refSize3 1 0 0 0 1 = 2 := by decide
  have h4 : subEntities 1 0 0 0 1 = [0, 1] := by decide
  have hc := C17_simplex (K := ℝ) 1 0 (by intro k h1 h2; omega)
  rw [h3, h4] at this
  simp [RefGeom.corner, hc] at this
  rw [Inner, checkInside_iff (rep_topoOf _ _)]
  have ht : topoOf (interval u w).mydim (interval u w).id = .prism .pt := by change topoOf 1 0 = _; decide
  rw [ht]
  refine ⟨?_, ?_, trivial⟩ <;> simp only [interval, Topo.dim] <;> linarith

theorem interval_good {u w : ℝ} (h : u ≠ w) : Good (interval u w) := by
  obtain ⟨p, hp, hin⟩ := interval_position u w
  exact Or.inr ⟨interval_legal u w, _, _, p, interval_imageOf u w, interval_fullRank h, hp, hin⟩

/-- construct from the interval from 0 to 1, move the interval, evaluate `global` -/
def moving (x : ℝ) : List Op :=
  [.write 0 (ends 0 1), .make 0 0 0 (fun _ _ => 0) 0, .write 0 (ends 2 5), .call 0 (.global fun _ => x)]

theorem moving_caching (x : ℝ) : runWith 1 1 (1 / 1000) true true (moving x) = some [.globalVec (some fun _ => 2 + x)] := by
  obtain ⟨h1, h2⟩ := C33_complete _ (interval_legal 0 1) _ _ (interval_imageOf 0 1)
  have h3 := h2 garbage 0 0 (by change 0 < 1; norm_num) (by change 0 < 1; norm_num)
  have ha : ((interval 0 1).affineJ garbage).1 = true := h1
  have hc : refSize 1 0 1 = 2 := by decide
  simp only [runWith, moving, run, step, start, construct, base, set, setMembers, CachedMultiLinearGeometry.mk', deref, view,
    cached, CachedMultiLinearGeometry.global, CachedMultiLinearGeometry.affine, Option.bind_eq_bind, Option.bind_some, if_true,
    Option.pure_def, MultiLinearGeometry.corner, MultiLinearGeometry.corners, hc]
  change some ([Answer.globalVec (Option.map (vec 1) (if ((interval 0 1).affineJ garbage).1 = true then
    (if 0 < 2 then some (ends 2 5 0) else none).bind fun o =>
      some fun j => addLoop (o j) 0 1 fun i => ((interval 0 1).affineJ garbage).2 i j * x
    else some ((interval 2 5).global fun _ => x)))] ++ []) = _
  rw [if_pos ha, if_pos (by norm_num)]
  simp only [List.append_nil, Option.bind_some, Option.map_some]
  congr 4
  funext j
  have hj : j = 0 := Subsingleton.elim _ _
  subst hj
  rw [vec, addLoop_eq, ← range_eq_Ico, sum_range_one]
  simp only [Fin.val_zero]
  rw [h3]
  norm_num [ends]

theorem moving_following (x : ℝ) : following ⟨1, 1, 1 / 1000, true, true⟩ (fun _ => none) (fun _ => none) (moving x) =
    some [.globalVec (some fun _ => 2 + 3 * x)] := by
  have hid : (interval 2 5).id < 2 ^ (interval 2 5).mydim := by change 0 < 2 ^ 1; norm_num
  have hg : (interval 2 5).global (fun _ => x) 0 = 2 + 3 * x := by
    rw [global_eq _ hid]
    have ht : topoOf (interval 2 5).mydim (interval 2 5).id = .prism .pt := by change topoOf 1 0 = _; decide
    have h2 : nv .pt = 1 := rfl
    rw [ht]
    simp only [ML, h2, interval, ends]
    norm_num
    ring
  simp only [following, moving, set, if_true, Option.bind_some, plain, Option.map_some]
  change some [Answer.globalVec (some (vec 1 ((interval 2 5).global fun _ => x)))] = _
  congr 4
  funext j
  have hj : j = 0 := Subsingleton.elim _ _
  subst hj
  exact hg

/-- C84: the caching class does not cope with moved corners.  It keeps the Jacobian and takes the first corner from the array:
after the interval from 0 to 1 is moved to the interval from 2 to 5, `global` maps `x` to `2 + x`, which is neither the map of
the old interval nor that of the new one (`2 + 3 x`). -/
theorem C84_following_counterexample : ¬ C84_following_full ∧
    ∀ x : ℝ, 0 < x → ∃ old new now : ℝ, old = x ∧ new = 2 + 3 * x ∧ now ≠ old ∧ now ≠ new ∧
      runWith 1 1 (1 / 1000) true true (moving x) = some [.globalVec (some fun _ => now)] ∧
      runWith 1 1 (1 / 1000) false true (moving x) = some [.globalVec (some fun _ => new)] := by
  have key : ∀ x : ℝ, 0 < x → ∃ old new now : ℝ, old = x ∧ new = 2 + 3 * x ∧ now ≠ old ∧ now ≠ new ∧
      runWith 1 1 (1 / 1000) true true (moving x) = some [.globalVec (some fun _ => now)] ∧
      runWith 1 1 (1 / 1000) false true (moving x) = some [.globalVec (some fun _ => new)] := by
    intro x hx
    refine ⟨x, 2 + 3 * x, 2 + x, rfl, rfl, by linarith, by intro h; linarith, moving_caching x, ?_⟩
    rw [C84_following]
    exact moving_following x
  refine ⟨fun h => ?_, key⟩
  have := h 1 1 (1 / 1000) true (moving (1 / 2)) ?_
  · rw [moving_caching, moving_following] at this
    simp only [Option.some.injEq, List.cons.injEq, Answer.globalVec.injEq, and_true] at this
    have := congrFun this 0
    norm_num at this
  · simp only [moving, Tame]
    intro c hc
    simp only [set, if_true, Option.some.injEq] at hc
    subst hc
    refine ⟨interval_good (by norm_num), ?_⟩
    intro y hy
    simp only [set, if_true, Option.some.injEq] at hy
    subst hy
    exact ⟨interval_inner 0 1 (1 / 2) (by norm_num) (by norm_num), trivial⟩

/-- C84: after the array is freed every call through a reference is undefined; with the default storage it is not -/
theorem C84_freed (x : ℝ) (caching : Bool) :
    runWith 1 1 (1 / 1000) caching true
      [.write 0 (ends 0 1), .make 0 0 0 (fun _ _ => 0) 0, .free 0, .call 0 (.global fun _ => x)] = none ∧
    (runWith 1 1 (1 / 1000) caching false
      [.write 0 (ends 0 1), .make 0 0 0 (fun _ _ => 0) 0, .free 0, .call 0 (.global fun _ => x)]).isSome := by
  cases caching <;> simp [runWith, run, step, start, construct, set, deref, setMembers]

/-- a program under the contract: two arrays, a copied geometry, an array modified, the geometry constructed again, then freed -/
def contractProgram : List Op :=
  [.write 0 (ends 0 1), .write 1 (ends 4 2), .make 0 0 0 (fun _ _ => 0) 0, .make 1 0 1 (fun _ _ => 0) 0,
   .call 0 .volume, .assign 2 0, .call 2 (.global fun _ => 1 / 3), .write 0 (ends 2 5), .assign 0 1, .call 0 .affine,
   .make 2 0 0 (fun _ _ => 0) 0, .call 2 .volume, .free 0, .call 1 (.jacobianInverse fun _ => 1 / 2)]

example : Obeys contractProgram := by
  simp [Obeys, contractProgram, Contract, set]

example : Tame ⟨1, 1, 1 / 1000, true, false⟩ (fun _ => none) (fun _ => none) contractProgram := by
  have h1 : Good (Value.geometry ⟨1, 1, 1 / 1000, true, false⟩ (0, ends 0 1)) := interval_good (u := 0) (w := 1) (by norm_num)
  have h2 : Good (Value.geometry ⟨1, 1, 1 / 1000, true, false⟩ (0, ends 4 2)) := interval_good (u := 4) (w := 2) (by norm_num)
  have h3 : Good (Value.geometry ⟨1, 1, 1 / 1000, true, false⟩ (0, ends 2 5)) := interval_good (u := 2) (w := 5) (by norm_num)
  have h4 : Inner (Value.geometry ⟨1, 1, 1 / 1000, true, false⟩ (0, ends 0 1)) (fun _ => 1 / 3) :=
    interval_inner 0 1 (1 / 3) (by norm_num) (by norm_num)
  have h5 : Inner (Value.geometry ⟨1, 1, 1 / 1000, true, false⟩ (0, ends 4 2)) (fun _ => 1 / 2) :=
    interval_inner 4 2 (1 / 2) (by norm_num) (by norm_num)
  simp only [contractProgram, Tame, set, Query.Ok, if_true, Option.some.injEq, forall_eq', one_ne_zero, if_false,
    OfNat.ofNat_ne_zero, OfNat.ofNat_ne_one, zero_ne_one, h1, h2, h3, h4, h5, and_true, true_and, OfNat.zero_ne_ofNat,
    OfNat.one_ne_ofNat]

end

end Verif.MultiLinear.Storage
