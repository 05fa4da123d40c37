import Verif.RefTopo.Face

/-! The face order and its description by vertices. -/

namespace Verif.RefTopo

namespace Face

variable {t : Topo}

/-- a face is a vertex if it has full codimension -/
def IsVertex (v : Face t) : Prop := v.codim = t.dim

theorem exists_vertex_le (f : Face t) : ∃ v : Face t, v.IsVertex ∧ le v f = true := by
  induction f with
  | pt => exact ⟨pt, rfl, rfl⟩
  | edge f ih =>
    obtain ⟨v, h1, h2⟩ := ih
    exact ⟨bot v, by simp only [IsVertex, codim, Topo.dim] at *; omega, h2⟩
  | bot f ih =>
    obtain ⟨v, h1, h2⟩ := ih
    exact ⟨bot v, by simp only [IsVertex, codim, Topo.dim] at *; omega, h2⟩
  | top f ih =>
    obtain ⟨v, h1, h2⟩ := ih
    exact ⟨top v, by simp only [IsVertex, codim, Topo.dim] at *; omega, h2⟩
  | base f ih =>
    obtain ⟨v, h1, h2⟩ := ih
    exact ⟨base v, by simp only [IsVertex, codim, Topo.dim] at *; omega, h2⟩
  | cone f ih =>
    obtain ⟨v, h1, h2⟩ := ih
    exact ⟨base v, by simp only [IsVertex, codim, Topo.dim] at *; omega, h2⟩
  | apex => exact ⟨apex, rfl, rfl⟩

theorem isVertex_bot {f : Face t} : (bot f).IsVertex ↔ f.IsVertex := by
  simp [IsVertex, codim, Topo.dim]
theorem isVertex_top {f : Face t} : (top f).IsVertex ↔ f.IsVertex := by
  simp [IsVertex, codim, Topo.dim]
theorem isVertex_base {f : Face t} : (base f).IsVertex ↔ f.IsVertex := by
  simp [IsVertex, codim, Topo.dim]
theorem isVertex_apex : (apex : Face (.pyr t)).IsVertex := rfl
theorem not_isVertex_edge {f : Face t} : ¬ (edge f).IsVertex := by
  have := codim_le f
  simp only [IsVertex, codim, Topo.dim]; omega
theorem not_isVertex_cone {f : Face t} : ¬ (cone f).IsVertex := by
  have := codim_le f
  simp only [IsVertex, codim, Topo.dim]; omega

theorem le_refl' (f : Face t) : le f f = true := by
  induction f with
  | pt => rfl
  | edge f ih => exact ih
  | bot f ih => exact ih
  | top f ih => exact ih
  | base f ih => exact ih
  | cone f ih => exact ih
  | apex => rfl

theorem le_trans' {f g h : Face t} (h1 : le f g = true) (h2 : le g h = true) : le f h = true := by
  induction f with
  | pt => cases g; exact h2
  | edge f ih =>
    cases g <;> cases h <;> simp_all [le] <;> exact ih h1 h2
  | bot f ih => cases g <;> cases h <;> simp_all [le] <;> exact ih h1 h2
  | top f ih => cases g <;> cases h <;> simp_all [le] <;> exact ih h1 h2
  | base f ih => cases g <;> cases h <;> simp_all [le] <;> exact ih h1 h2
  | cone f ih => cases g <;> cases h <;> simp_all [le] <;> exact ih h1 h2
  | apex => cases g <;> cases h <;> simp_all [le]

/-- A face is contained in another one iff all its vertices are. -/
theorem le_iff_vertices (f g : Face t) :
    le f g = true ↔ ∀ v : Face t, v.IsVertex → le v f = true → le v g = true := by
  constructor
  · intro h v _ hv; exact le_trans' hv h
  · induction f with
    | pt => intro _; cases g; rfl
    | edge f ih =>
      intro H
      obtain ⟨v, hv, hvf⟩ := exists_vertex_le f
      cases g with
      | edge g => exact ih g fun v hv hvf => H (bot v) (isVertex_bot.2 hv) hvf
      | bot g => exact absurd (H (top v) (isVertex_top.2 hv) hvf) (by simp [le])
      | top g => exact absurd (H (bot v) (isVertex_bot.2 hv) hvf) (by simp [le])
    | bot f ih =>
      intro H
      obtain ⟨v, hv, hvf⟩ := exists_vertex_le f
      cases g with
      | edge g => exact ih g fun v hv hvf => H (bot v) (isVertex_bot.2 hv) hvf
      | bot g => exact ih g fun v hv hvf => H (bot v) (isVertex_bot.2 hv) hvf
      | top g => exact absurd (H (bot v) (isVertex_bot.2 hv) hvf) (by simp [le])
    | top f ih =>
      intro H
      obtain ⟨v, hv, hvf⟩ := exists_vertex_le f
      cases g with
      | edge g => exact ih g fun v hv hvf => H (top v) (isVertex_top.2 hv) hvf
      | bot g => exact absurd (H (top v) (isVertex_top.2 hv) hvf) (by simp [le])
      | top g => exact ih g fun v hv hvf => H (top v) (isVertex_top.2 hv) hvf
    | base f ih =>
      intro H
      obtain ⟨v, hv, hvf⟩ := exists_vertex_le f
      cases g with
      | base g => exact ih g fun v hv hvf => H (base v) (isVertex_base.2 hv) hvf
      | cone g => exact ih g fun v hv hvf => H (base v) (isVertex_base.2 hv) hvf
      | apex => exact absurd (H (base v) (isVertex_base.2 hv) hvf) (by simp [le])
    | cone f ih =>
      intro H
      obtain ⟨v, hv, hvf⟩ := exists_vertex_le f
      cases g with
      | base g => exact absurd (H apex isVertex_apex rfl) (by simp [le])
      | cone g => exact ih g fun v hv hvf => H (base v) (isVertex_base.2 hv) hvf
      | apex => exact absurd (H (base v) (isVertex_base.2 hv) hvf) (by simp [le])
    | apex =>
      intro H; exact H apex isVertex_apex rfl

theorem le_antisymm' {f g : Face t} (h1 : le f g = true) (h2 : le g f = true) : f = g := by
  induction f with
  | pt => cases g; rfl
  | edge f ih => cases g <;> simp_all [le] <;> exact ih h1 h2
  | bot f ih => cases g <;> simp_all [le] <;> exact ih h1 h2
  | top f ih => cases g <;> simp_all [le] <;> exact ih h1 h2
  | base f ih => cases g <;> simp_all [le] <;> exact ih h1 h2
  | cone f ih => cases g <;> simp_all [le] <;> exact ih h1 h2
  | apex => cases g <;> simp_all [le]

/-- A face of a face is contained in the face … -/
theorem comp_le (f : Face t) (g : Face f.shape) : le (comp f g) f = true := by
  refine comp_induction (P := fun f g => le (comp f g) f = true) rfl
    ?_ ?_ ?_ ?_ ?_ ?_ ?_ ?_ ?_ rfl f g
  · intro t f g ih; exact ih
  · intro t f g ih; exact ih
  · intro t f g ih; exact ih
  · intro t f g ih; exact ih
  · intro t f g ih; exact ih
  · intro t f g ih; exact ih
  · intro t f g ih; exact ih
  · intro t f g ih; exact ih
  · intro t f; rfl

/-- … and every contained face arises this way. -/
theorem exists_comp_of_le {f h : Face t} (hle : le h f = true) : ∃ g : Face f.shape, comp f g = h := by
  induction f with
  | pt => cases h; exact ⟨pt, rfl⟩
  | edge f ih =>
    cases h with
    | edge h => obtain ⟨g, hg⟩ := ih hle; exact ⟨(edge g : Face (.prism f.shape)), by rw [comp_edge_edge, hg]⟩
    | bot h => obtain ⟨g, hg⟩ := ih hle; exact ⟨(bot g : Face (.prism f.shape)), by rw [comp_edge_bot, hg]⟩
    | top h => obtain ⟨g, hg⟩ := ih hle; exact ⟨(top g : Face (.prism f.shape)), by rw [comp_edge_top, hg]⟩
  | bot f ih =>
    cases h with
    | edge h => simp [le] at hle
    | bot h => obtain ⟨g, hg⟩ := ih hle; exact ⟨g, congrArg bot hg⟩
    | top h => simp [le] at hle
  | top f ih =>
    cases h with
    | edge h => simp [le] at hle
    | bot h => simp [le] at hle
    | top h => obtain ⟨g, hg⟩ := ih hle; exact ⟨g, congrArg top hg⟩
  | base f ih =>
    cases h with
    | base h => obtain ⟨g, hg⟩ := ih hle; exact ⟨g, congrArg base hg⟩
    | cone h => simp [le] at hle
    | apex => simp [le] at hle
  | cone f ih =>
    cases h with
    | base h => obtain ⟨g, hg⟩ := ih hle; exact ⟨(base g : Face (.pyr f.shape)), by rw [comp_cone_base, hg]⟩
    | cone h => obtain ⟨g, hg⟩ := ih hle; exact ⟨(cone g : Face (.pyr f.shape)), by rw [comp_cone_cone, hg]⟩
    | apex => exact ⟨(apex : Face (.pyr f.shape)), rfl⟩
  | apex =>
    cases h with
    | base h => simp [le] at hle
    | cone h => simp [le] at hle
    | apex => exact ⟨pt, rfl⟩

end Face

end Verif.RefTopo
