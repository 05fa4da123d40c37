import Verif.RefTopo.Counts

/-! The faces of a topology, with the empty face, form a lattice; sums over intervals of faces. -/

namespace Verif.RefTopo

namespace Face

variable {t : Topo}

/-- the greatest common face, if there is one -/
def meet : {t : Topo} → Face t → Face t → Option (Face t)
  | _, pt, pt => some pt
  | _, edge f, edge g => (meet f g).map edge
  | _, edge f, bot g => (meet f g).map bot
  | _, edge f, top g => (meet f g).map top
  | _, bot f, edge g => (meet f g).map bot
  | _, bot f, bot g => (meet f g).map bot
  | _, bot _, top _ => none
  | _, top f, edge g => (meet f g).map top
  | _, top _, bot _ => none
  | _, top f, top g => (meet f g).map top
  | _, base f, base g => (meet f g).map base
  | _, base f, cone g => (meet f g).map base
  | _, base _, apex => none
  | _, cone f, base g => (meet f g).map base
  | _, cone f, cone g => match meet f g with
    | some h => some (cone h)
    | none => some apex
  | _, cone _, apex => some apex
  | _, apex, base _ => none
  | _, apex, cone _ => some apex
  | _, apex, apex => some apex

/-- the common faces are the faces of the meet -/
theorem le_meet (f g h : Face t) : (le h f = true ∧ le h g = true) ↔ ∃ m, meet f g = some m ∧ le h m = true := by
  induction f with
  | pt => cases g; cases h; simp [meet, le]
  | edge f ih =>
    cases g <;> cases h <;> simp [meet, le] <;> exact ih _ _
  | bot f ih =>
    cases g <;> cases h <;> simp [meet, le] <;> exact ih _ _
  | top f ih =>
    cases g <;> cases h <;> simp [meet, le] <;> exact ih _ _
  | base f ih =>
    cases g <;> cases h <;> simp [meet, le] <;> exact ih _ _
  | cone f ih =>
    cases g with
    | base g => cases h <;> simp [meet, le] <;> exact ih _ _
    | cone g =>
      cases h with
      | base h =>
        refine (ih g h).trans ?_
        simp only [meet]
        cases meet f g <;> simp [le]
      | cone h =>
        refine (ih g h).trans ?_
        simp only [meet]
        cases meet f g <;> simp [le]
      | apex =>
        simp only [meet]
        cases meet f g <;> simp [le]
    | apex => cases h <;> simp [meet, le]
  | apex => cases g <;> cases h <;> simp [meet, le]

/-- outside dimension zero no face lies in all facets -/
theorem exists_facet_not_ge : ∀ {t : Topo} (h : Face t), 1 ≤ t.dim → ∃ g : Face t, g.codim = 1 ∧ le h g = false
  | _, edge h, _ => ⟨bot (whole _), by simp [codim, codim_whole], rfl⟩
  | _, bot h, _ => ⟨top (whole _), by simp [codim, codim_whole], rfl⟩
  | _, top h, _ => ⟨bot (whole _), by simp [codim, codim_whole], rfl⟩
  | .pyr t, base h, _ => by
    by_cases ht : 1 ≤ t.dim
    · obtain ⟨g, h1, h2⟩ := exists_facet_not_ge h ht
      exact ⟨cone g, h1, h2⟩
    · exact ⟨apex, by simp only [codim]; omega, rfl⟩
  | _, cone h, _ => ⟨base (whole _), by simp [codim, codim_whole], rfl⟩
  | _, apex, _ => ⟨base (whole _), by simp [codim, codim_whole], rfl⟩

/-- a face is the intersection of the facets that contain it -/
theorem le_of_facets (f h : Face t) (H : ∀ g : Face t, g.codim = 1 → le f g = true → le h g = true) : le h f = true := by
  induction f with
  | pt => cases h; rfl
  | edge f ih =>
    cases h with
    | edge h => exact ih h fun g h1 h2 => H (edge g) h1 h2
    | bot h => exact ih h fun g h1 h2 => H (edge g) h1 h2
    | top h => exact ih h fun g h1 h2 => H (edge g) h1 h2
  | bot f ih =>
    have h0 := H (bot (whole _)) (by simp [codim, codim_whole]) (le_whole f)
    cases h with
    | edge h => simp [le] at h0
    | bot h => exact ih h fun g h1 h2 => H (edge g) h1 h2
    | top h => simp [le] at h0
  | top f ih =>
    have h0 := H (top (whole _)) (by simp [codim, codim_whole]) (le_whole f)
    cases h with
    | edge h => simp [le] at h0
    | bot h => simp [le] at h0
    | top h => exact ih h fun g h1 h2 => H (edge g) h1 h2
  | base f ih =>
    have h0 := H (base (whole _)) (by simp [codim, codim_whole]) (le_whole f)
    cases h with
    | base h => exact ih h fun g h1 h2 => H (cone g) h1 h2
    | cone h => simp [le] at h0
    | apex => simp [le] at h0
  | cone f ih =>
    cases h with
    | base h => exact ih h fun g h1 h2 => H (cone g) h1 h2
    | cone h => exact ih h fun g h1 h2 => H (cone g) h1 h2
    | apex => rfl
  | @apex t =>
    by_cases ht : 1 ≤ t.dim
    · cases h with
      | base h =>
        obtain ⟨g, h1, h2⟩ := exists_facet_not_ge h ht
        have := H (cone g) h1 rfl
        rw [show le (base h) (cone g) = le h g from rfl, h2] at this
        cases this
      | cone h =>
        obtain ⟨g, h1, h2⟩ := exists_facet_not_ge h ht
        have := H (cone g) h1 rfl
        rw [show le (cone h) (cone g) = le h g from rfl, h2] at this
        cases this
      | apex => rfl
    · exact H apex (by simp only [codim]; omega) rfl

/-! ### Sums over all faces -/

/-- all faces -/
def all : (t : Topo) → List (Face t)
  | .pt => [pt]
  | .prism t => (all t).map edge ++ (all t).map bot ++ (all t).map top
  | .pyr t => (all t).map base ++ (all t).map cone ++ [apex]

theorem mem_all (f : Face t) : f ∈ all t := by
  induction f <;> simp_all [all]

theorem nodup_all : ∀ t : Topo, (all t).Nodup
  | .pt => by simp [all]
  | .prism t => by
    have h := nodup_all t
    simp only [all, List.nodup_append, List.mem_append, List.mem_map]
    refine ⟨⟨h.map fun a b e => by injection e, h.map fun a b e => by injection e, ?_⟩, h.map fun a b e => by injection e, ?_⟩
    · rintro _ ⟨a, -, rfl⟩ _ ⟨b, -, rfl⟩ e; cases e
    · rintro _ (⟨a, -, rfl⟩ | ⟨a, -, rfl⟩) _ ⟨b, -, rfl⟩ e <;> cases e
  | .pyr t => by
    have h := nodup_all t
    simp only [all, List.nodup_append, List.mem_append, List.mem_map, List.mem_singleton]
    refine ⟨⟨h.map fun a b e => by injection e, h.map fun a b e => by injection e, ?_⟩, List.nodup_singleton _, ?_⟩
    · rintro _ ⟨a, -, rfl⟩ _ ⟨b, -, rfl⟩ e; cases e
    · rintro _ (⟨a, -, rfl⟩ | ⟨a, -, rfl⟩) _ rfl e <;> cases e

/-- the sum over all faces -/
def total {t : Topo} (φ : Face t → ℤ) : ℤ := ((all t).map φ).sum

theorem total_prism (φ : Face (.prism t) → ℤ) :
    total φ = total (fun f => φ (edge f)) + total (fun f => φ (bot f)) + total (fun f => φ (top f)) := by
  simp [total, all, Function.comp_def, _root_.add_assoc]

theorem total_pyr (φ : Face (.pyr t) → ℤ) :
    total φ = total (fun f => φ (base f)) + total (fun f => φ (cone f)) + φ apex := by
  simp [total, all, Function.comp_def, _root_.add_assoc]

theorem total_zero : total (fun _ : Face t => 0) = 0 := by simp [total]

theorem total_neg (φ : Face t → ℤ) : total (fun f => - φ f) = - total φ := by
  unfold total
  induction all t with
  | nil => rfl
  | cons a l ih => simp only [List.map_cons, List.sum_cons, ih]; ring

/-- the sign of a face -/
def sign (f : Face t) : ℤ := (-1) ^ f.codim

/-- the alternating number of faces of a face -/
theorem total_lower (g : Face t) : total (fun h => if le h g then sign h else 0) = (-1) ^ t.dim := by
  induction g with
  | pt => rfl
  | edge g ih =>
    rw [total_prism]
    have e : ∀ h, (if le h g then -sign h else 0) = -(if le h g then sign h else 0) := fun h => by split <;> simp
    simp only [le, sign, codim, pow_succ, mul_neg, mul_one, Topo.dim] at *
    simp only [← sign.eq_1] at *
    simp only [e, total_neg, ih]
    ring
  | bot g ih =>
    rw [total_prism]
    have e : ∀ h, (if le h g then -sign h else 0) = -(if le h g then sign h else 0) := fun h => by split <;> simp
    simp only [le, sign, codim, pow_succ, mul_neg, mul_one, Topo.dim] at *
    simp only [← sign.eq_1] at *
    simp [e, total_neg, ih, total_zero]
  | top g ih =>
    rw [total_prism]
    have e : ∀ h, (if le h g then -sign h else 0) = -(if le h g then sign h else 0) := fun h => by split <;> simp
    simp only [le, sign, codim, pow_succ, mul_neg, mul_one, Topo.dim] at *
    simp only [← sign.eq_1] at *
    simp [e, total_neg, ih, total_zero]
  | base g ih =>
    rw [total_pyr]
    have e : ∀ h, (if le h g then -sign h else 0) = -(if le h g then sign h else 0) := fun h => by split <;> simp
    simp only [le, sign, codim, pow_succ, mul_neg, mul_one, Topo.dim] at *
    simp only [← sign.eq_1] at *
    simp [e, total_neg, ih, total_zero]
  | cone g ih =>
    rw [total_pyr]
    have e : ∀ h, (if le h g then -sign h else 0) = -(if le h g then sign h else 0) := fun h => by split <;> simp
    simp only [le, sign, codim, pow_succ, mul_neg, mul_one, Topo.dim] at *
    simp only [← sign.eq_1] at *
    simp [e, total_neg, ih]
  | apex =>
    rw [total_pyr]
    simp [le, total_zero, sign, codim, Topo.dim]

/-- the alternating number of faces between two faces -/
theorem total_interval (f g : Face t) :
    total (fun h => if le f h && le h g then sign h else 0) = if f = g then sign f else 0 := by
  have e : ∀ {t : Topo} (f g h : Face t), (if le f h && le h g then -sign h else 0) = -(if le f h && le h g then sign h else 0) :=
    fun f g h => by split <;> simp
  induction f with
  | pt => cases g; rfl
  | edge f ih =>
    rw [total_prism]
    cases g with
    | edge g =>
      have := ih g
      simp only [le, sign, codim, Bool.false_and, Bool.false_eq_true, if_false, total_zero, edge.injEq] at *
      simpa using this
    | bot g => simp [le, total_zero]
    | top g => simp [le, total_zero]
  | bot f ih =>
    rw [total_prism]
    cases g with
    | edge g =>
      simp only [le, sign, codim, pow_succ, mul_neg, mul_one, Bool.false_and, Bool.false_eq_true, if_false, total_zero]
      simp only [← sign.eq_1, e, total_neg]
      simp
    | bot g =>
      have := ih g
      simp only [le, sign, codim, pow_succ, mul_neg, mul_one, Bool.false_and, Bool.and_false, Bool.false_eq_true, if_false, total_zero, bot.injEq]
      simp only [← sign.eq_1, e, total_neg, this]
      split <;> simp
    | top g => simp [le, total_zero]
  | top f ih =>
    rw [total_prism]
    cases g with
    | edge g =>
      simp only [le, sign, codim, pow_succ, mul_neg, mul_one, Bool.false_and, Bool.false_eq_true, if_false, total_zero]
      simp only [← sign.eq_1, e, total_neg]
      simp
    | bot g => simp [le, total_zero]
    | top g =>
      have := ih g
      simp only [le, sign, codim, pow_succ, mul_neg, mul_one, Bool.false_and, Bool.and_false, Bool.false_eq_true, if_false, total_zero, top.injEq]
      simp only [← sign.eq_1, e, total_neg, this]
      split <;> simp
  | base f ih =>
    rw [total_pyr]
    cases g with
    | base g =>
      have := ih g
      simp only [le, sign, codim, pow_succ, mul_neg, mul_one, Bool.false_and, Bool.and_false, Bool.false_eq_true, if_false, total_zero, base.injEq]
      simp only [← sign.eq_1, e, total_neg, this]
      split <;> simp
    | cone g =>
      simp only [le, sign, codim, pow_succ, mul_neg, mul_one, Bool.false_and, Bool.false_eq_true, if_false]
      simp only [← sign.eq_1, e, total_neg]
      simp
    | apex => simp [le, total_zero]
  | cone f ih =>
    rw [total_pyr]
    cases g with
    | base g => simp [le, total_zero]
    | cone g =>
      have := ih g
      simp only [le, sign, codim, Bool.false_and, Bool.false_eq_true, if_false, total_zero, cone.injEq] at *
      simpa using this
    | apex => simp [le, total_zero]
  | @apex t =>
    rw [total_pyr]
    cases g with
    | base g => simp [le, total_zero]
    | cone g =>
      have := total_lower g
      simp only [le, sign, codim, Bool.true_and, Bool.false_and, Bool.false_eq_true, if_false, total_zero] at *
      rw [this]
      simp [pow_succ]
    | apex => simp [le, total_zero]

/-! ### The number of facets above a face -/

/-- the number of facets that contain a face -/
def above (f : Face t) : ℤ := total fun g => if g.codim = 1 ∧ le f g = true then 1 else 0

theorem total_codim (t : Topo) (c : Nat) : total (fun g : Face t => if g.codim = c then (1 : ℤ) else 0) = t.sz c := by
  induction t generalizing c with
  | pt => cases c <;> simp [total, all, codim, Topo.sz]
  | prism t ih =>
    rw [total_prism]
    have e1 : total (fun f : Face t => if (edge f).codim = c then (1 : ℤ) else 0) = t.sz c := ih c
    rw [e1]
    cases c with
    | zero => simp [codim, total_zero]
    | succ c => simp only [codim, Nat.add_right_cancel_iff, ih, Topo.sz]; push_cast; ring
  | pyr t ih =>
    rw [total_pyr]
    have e1 : total (fun f : Face t => if (cone f).codim = c then (1 : ℤ) else 0) = t.sz c := ih c
    rw [e1]
    cases c with
    | zero => simp [codim, total_zero]
    | succ c =>
      simp only [codim, Nat.add_right_cancel_iff, ih, Topo.sz]
      push_cast
      simp only [eq_comm (a := c)]
      ring

theorem total_codim_zero (f : Face t) : total (fun g => if g.codim = 0 ∧ le f g = true then 1 else 0) = 1 := by
  induction f with
  | pt => rfl
  | edge f ih => rw [total_prism]; simp only [le, codim] at *; simp [ih, total_zero]
  | bot f ih => rw [total_prism]; simp only [le, codim] at *; simp [ih, total_zero]
  | top f ih => rw [total_prism]; simp only [le, codim] at *; simp [ih, total_zero]
  | base f ih => rw [total_pyr]; simp only [le, codim] at *; simp [ih, total_zero]
  | cone f ih => rw [total_pyr]; simp only [le, codim] at *; simp [ih, total_zero]
  | @apex t =>
    rw [total_pyr]
    have := total_codim t 0
    have e : total (fun g : Face t => if (cone g).codim = 0 ∧ le apex (cone g) = true then (1 : ℤ) else 0) = 1 := by
      simp only [le, and_true]
      exact this.trans (by simp)
    rw [e]
    simp [le, codim, total_zero]

theorem above_bot (f : Face t) : above (bot f) = above f + 1 := by
  have := total_codim_zero f
  simp only [above] at *
  rw [total_prism]
  simp only [le, codim] at *
  simp [this, total_zero]

theorem above_top (f : Face t) : above (top f) = above f + 1 := by
  have := total_codim_zero f
  simp only [above] at *
  rw [total_prism]
  simp only [le, codim] at *
  simp [this, total_zero]

theorem above_edge (f : Face t) : above (edge f) = above f := by
  simp only [above]
  rw [total_prism]
  simp [le, codim, total_zero]

theorem above_base (f : Face t) : above (base f) = above f + 1 := by
  have := total_codim_zero f
  simp only [above] at *
  rw [total_pyr]
  simp only [le, codim] at *
  simp [this, total_zero, _root_.add_comm]

theorem above_cone (f : Face t) : above (cone f) = above f := by
  simp only [above]
  rw [total_pyr]
  simp [le, codim, total_zero]

theorem above_apex : above (apex : Face (.pyr t)) = t.sz 1 + if t.dim = 0 then 1 else 0 := by
  simp only [above]
  rw [total_pyr]
  simp [le, codim, total_zero, total_codim]

theorem dim_lt_sz : ∀ t : Topo, 1 ≤ t.dim → t.dim + 1 ≤ t.sz 1
  | .prism t, _ => by
    simp only [Topo.dim, Topo.sz, Topo.sz_zero, _root_.zero_add]
    by_cases h : 1 ≤ t.dim
    · have := dim_lt_sz t h; omega
    · omega
  | .pyr t, _ => by
    simp only [Topo.dim, Topo.sz, Topo.sz_zero, _root_.zero_add]
    by_cases h : 1 ≤ t.dim
    · have := dim_lt_sz t h; omega
    · split <;> omega

theorem codim_le_above (f : Face t) : (f.codim : ℤ) ≤ above f := by
  induction f with
  | pt => rw [codim]; decide
  | edge f ih => rw [above_edge]; exact ih
  | bot f ih => rw [above_bot]; simp only [codim]; push_cast; omega
  | top f ih => rw [above_top]; simp only [codim]; push_cast; omega
  | base f ih => rw [above_base]; simp only [codim]; push_cast; omega
  | cone f ih => rw [above_cone]; exact ih
  | @apex t =>
    rw [above_apex]
    simp only [codim]
    by_cases h : 1 ≤ t.dim
    · have := dim_lt_sz t h
      rw [if_neg (by omega)]
      push_cast
      omega
    · rw [if_pos (by omega)]
      push_cast
      omega

/-- prisms over simplices and cones that are simplices: every face lies in as many facets as its codimension says -/
inductive Simple : Topo → Prop where
  | simplex (d : Nat) : Simple (Topo.simplex d)
  | prism {t : Topo} : Simple t → Simple (.prism t)

theorem above_simplex (f : Face t) (d : Nat) (h : t = Topo.simplex d) : above f = f.codim := by
  induction f generalizing d with
  | pt => rw [codim]; decide
  | edge f ih => cases d <;> cases h
  | bot f ih => cases d <;> cases h
  | top f ih => cases d <;> cases h
  | base f ih =>
    cases d with
    | zero => cases h
    | succ d => rw [above_base, ih d (by injection h)]; simp [codim]
  | cone f ih =>
    cases d with
    | zero => cases h
    | succ d => rw [above_cone, ih d (by injection h)]; simp [codim]
  | apex =>
    cases d with
    | zero => cases h
    | succ d =>
      injection h with h
      subst h
      rw [above_apex]
      simp only [codim, Topo.dim_simplex]
      cases d with
      | zero => simp [Topo.simplex, Topo.sz]
      | succ d => rw [Topo.sz_simplex _ _ (by omega)]; simp

theorem above_simple (h : Simple t) (f : Face t) : above f = f.codim := by
  induction h with
  | simplex d => exact above_simplex f d rfl
  | prism _ ih =>
    cases f with
    | edge f => rw [above_edge, ih]; rfl
    | bot f => rw [above_bot, ih]; simp [codim]
    | top f => rw [above_top, ih]; simp [codim]

end Face

end Verif.RefTopo
