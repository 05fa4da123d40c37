import Mathlib.Data.List.Basic
import Mathlib.Data.Nat.Choose.Sum
import Mathlib.Tactic.Ring
import Mathlib.Tactic.Linarith

/-!
Independent specification of the combinatorics of reference elements: a topology is a point, the
prism `T × [0,1]` over a topology or the pyramid (cone) over a topology.  Its faces are given by the
usual description of the faces of products and cones.
-/

namespace Verif.RefTopo

/-- A topology, built from a point by prism and pyramid constructions. -/
inductive Topo where
  | pt
  | prism (t : Topo)
  | pyr (t : Topo)
  deriving DecidableEq, Repr

namespace Topo
/-- dimension = number of constructions -/
def dim : Topo → Nat
  | pt => 0
  | prism t => t.dim + 1
  | pyr t => t.dim + 1

/-- the simplex of dimension `n` -/
def simplex : Nat → Topo
  | 0 => pt
  | n + 1 => pyr (simplex n)

/-- the cube of dimension `n` -/
def cube : Nat → Topo
  | 0 => pt
  | n + 1 => prism (cube n)
end Topo

/-- The non-empty faces of a topology.  For the prism: `f × [0,1]`, `f × {0}`, `f × {1}`;
for the pyramid: a face of the base, the cone over a face of the base, or the apex. -/
inductive Face : Topo → Type where
  | pt : Face .pt
  | edge {t} (f : Face t) : Face (.prism t)
  | bot {t} (f : Face t) : Face (.prism t)
  | top {t} (f : Face t) : Face (.prism t)
  | base {t} (f : Face t) : Face (.pyr t)
  | cone {t} (f : Face t) : Face (.pyr t)
  | apex {t} : Face (.pyr t)
  deriving DecidableEq

namespace Face

/-- the topology of a face -/
def shape : {t : Topo} → Face t → Topo
  | _, pt => .pt
  | _, edge f => .prism f.shape
  | _, bot f => f.shape
  | _, top f => f.shape
  | _, base f => f.shape
  | _, cone f => .pyr f.shape
  | _, apex => .pt

/-- codimension of a face -/
def codim : {t : Topo} → Face t → Nat
  | _, pt => 0
  | _, edge f => f.codim
  | _, bot f => f.codim + 1
  | _, top f => f.codim + 1
  | _, base f => f.codim + 1
  | _, cone f => f.codim
  | .pyr t, apex => t.dim + 1

/-- A face of a face, as a face of the whole. -/
def comp : {t : Topo} → (f : Face t) → Face f.shape → Face t
  | _, pt, _ => pt
  | _, edge f, g => match (g : Face (.prism f.shape)) with
    | edge g => edge (comp f g)
    | bot g => bot (comp f g)
    | top g => top (comp f g)
  | _, bot f, g => bot (comp f g)
  | _, top f, g => top (comp f g)
  | _, base f, g => base (comp f g)
  | _, cone f, g => match (g : Face (.pyr f.shape)) with
    | base g => base (comp f g)
    | cone g => cone (comp f g)
    | apex => apex
  | _, apex, _ => apex

/-- `f ≤ f'`: the face `f` is contained in the closed face `f'`. -/
def le : {t : Topo} → Face t → Face t → Bool
  | _, pt, pt => true
  | _, edge f, edge f' => le f f'
  | _, bot f, edge f' => le f f'
  | _, top f, edge f' => le f f'
  | _, bot f, bot f' => le f f'
  | _, top f, top f' => le f f'
  | _, base f, base f' => le f f'
  | _, base f, cone f' => le f f'
  | _, cone f, cone f' => le f f'
  | _, apex, cone _ => true
  | _, apex, apex => true
  | _, _, _ => false

end Face

/-- number of faces of codimension `c` -/
def Topo.sz : Topo → Nat → Nat
  | _, 0 => 1
  | .pt, _ + 1 => 0
  | .prism t, c + 1 => t.sz (c + 1) + 2 * t.sz c
  | .pyr t, c + 1 => t.sz c + (t.sz (c + 1) + if c = t.dim then 1 else 0)

/-- The number of a face within its codimension: on a prism first the `f × [0,1]`, then the
`f × {0}`, then the `f × {1}`; on a pyramid first the faces of the base, then the cones, the apex
last.  (This is the documented DUNE numbering.) -/
def Face.idx : {t : Topo} → Face t → Nat
  | _, pt => 0
  | _, edge f => f.idx
  | .prism t, bot f => t.sz (f.codim + 1) + f.idx
  | .prism t, top f => t.sz (f.codim + 1) + t.sz f.codim + f.idx
  | _, base f => f.idx
  | .pyr t, cone f => (match f.codim with | 0 => 0 | c + 1 => t.sz c) + f.idx
  | .pyr t, apex => t.sz t.dim

namespace Topo

@[simp] theorem sz_zero (t : Topo) : t.sz 0 = 1 := by cases t <;> rfl

theorem sz_eq_zero : ∀ (t : Topo) (c : Nat), t.dim < c → t.sz c = 0
  | _, 0, h => absurd h (Nat.not_lt_zero _)
  | .pt, _ + 1, _ => rfl
  | .prism t, c + 1, h => by
    simp only [dim] at h
    simp only [sz]
    rw [sz_eq_zero t (c + 1) (by omega), sz_eq_zero t c (by omega)]
  | .pyr t, c + 1, h => by
    simp only [dim] at h
    simp only [sz]
    rw [sz_eq_zero t (c + 1) (by omega), sz_eq_zero t c (by omega), if_neg (by omega)]

theorem sz_pos : ∀ (t : Topo) (c : Nat), c ≤ t.dim → 0 < t.sz c
  | t, 0, _ => by simp
  | .pt, c + 1, h => by simp [dim] at h
  | .prism t, c + 1, h => by
    simp only [dim] at h
    simp only [sz]
    have := sz_pos t c (by omega)
    omega
  | .pyr t, c + 1, h => by
    simp only [dim] at h
    simp only [sz]
    have := sz_pos t c (by omega)
    omega

end Topo

namespace Face

variable {t : Topo}

theorem codim_add_dim : ∀ {t : Topo} (f : Face t), f.codim + f.shape.dim = t.dim
  | _, pt => rfl
  | _, edge f => by have := codim_add_dim f; simp only [codim, shape, Topo.dim]; omega
  | _, bot f => by have := codim_add_dim f; simp only [codim, shape, Topo.dim]; omega
  | _, top f => by have := codim_add_dim f; simp only [codim, shape, Topo.dim]; omega
  | _, base f => by have := codim_add_dim f; simp only [codim, shape, Topo.dim]; omega
  | _, cone f => by have := codim_add_dim f; simp only [codim, shape, Topo.dim]; omega
  | _, apex => by simp only [codim, shape, Topo.dim]

theorem codim_le (f : Face t) : f.codim ≤ t.dim := by
  have := codim_add_dim f; omega

theorem comp_edge_edge (f : Face t) (g : Face f.shape) :
    comp (edge f) (edge g : Face (.prism f.shape)) = edge (comp f g) := rfl
theorem comp_edge_bot (f : Face t) (g : Face f.shape) :
    comp (edge f) (bot g : Face (.prism f.shape)) = bot (comp f g) := rfl
theorem comp_edge_top (f : Face t) (g : Face f.shape) :
    comp (edge f) (top g : Face (.prism f.shape)) = top (comp f g) := rfl
theorem comp_bot (f : Face t) (g : Face f.shape) : comp (bot f) g = bot (comp f g) := rfl
theorem comp_top (f : Face t) (g : Face f.shape) : comp (top f) g = top (comp f g) := rfl
theorem comp_base (f : Face t) (g : Face f.shape) : comp (base f) g = base (comp f g) := rfl
theorem comp_cone_base (f : Face t) (g : Face f.shape) :
    comp (cone f) (base g : Face (.pyr f.shape)) = base (comp f g) := rfl
theorem comp_cone_cone (f : Face t) (g : Face f.shape) :
    comp (cone f) (cone g : Face (.pyr f.shape)) = cone (comp f g) := rfl
theorem comp_cone_apex (f : Face t) :
    comp (cone f) (apex : Face (.pyr f.shape)) = apex := rfl

/-- Case analysis for a face of a face. -/
theorem comp_induction {P : ∀ {t : Topo} (f : Face t), Face f.shape → Prop}
    (hpt : P pt (pt : Face .pt))
    (hee : ∀ {t} (f : Face t) (g : Face f.shape), P f g → P (edge f) (edge g : Face (.prism f.shape)))
    (heb : ∀ {t} (f : Face t) (g : Face f.shape), P f g → P (edge f) (bot g : Face (.prism f.shape)))
    (het : ∀ {t} (f : Face t) (g : Face f.shape), P f g → P (edge f) (top g : Face (.prism f.shape)))
    (hb : ∀ {t} (f : Face t) (g : Face f.shape), P f g → P (bot f) g)
    (ht : ∀ {t} (f : Face t) (g : Face f.shape), P f g → P (top f) g)
    (hba : ∀ {t} (f : Face t) (g : Face f.shape), P f g → P (base f) g)
    (hcb : ∀ {t} (f : Face t) (g : Face f.shape), P f g → P (cone f) (base g : Face (.pyr f.shape)))
    (hcc : ∀ {t} (f : Face t) (g : Face f.shape), P f g → P (cone f) (cone g : Face (.pyr f.shape)))
    (hca : ∀ {t} (f : Face t), P (cone f) (apex : Face (.pyr f.shape)))
    (ha : ∀ {t}, P (apex : Face (.pyr t)) (pt : Face .pt))
    {t : Topo} (f : Face t) (g : Face f.shape) : P f g := by
  induction f with
  | pt => change Face .pt at g; cases g; exact hpt
  | @edge t f ih =>
    change Face (.prism f.shape) at g
    cases g with
    | edge g => exact hee f g (ih g)
    | bot g => exact heb f g (ih g)
    | top g => exact het f g (ih g)
  | bot f ih => exact hb f g (ih g)
  | top f ih => exact ht f g (ih g)
  | base f ih => exact hba f g (ih g)
  | @cone t f ih =>
    change Face (.pyr f.shape) at g
    cases g with
    | base g => exact hcb f g (ih g)
    | cone g => exact hcc f g (ih g)
    | apex => exact hca f
  | apex => change Face .pt at g; cases g; exact ha

theorem codim_comp (f : Face t) (g : Face f.shape) : (comp f g).codim = f.codim + g.codim := by
  refine comp_induction (P := fun f g => (comp f g).codim = f.codim + g.codim) rfl
    ?_ ?_ ?_ ?_ ?_ ?_ ?_ ?_ ?_ rfl f g
  · intro t f g ih; rw [comp_edge_edge]; simp only [codim]; omega
  · intro t f g ih; rw [comp_edge_bot]; simp only [codim]; omega
  · intro t f g ih; rw [comp_edge_top]; simp only [codim]; omega
  · intro t f g ih; change (comp f g).codim + 1 = f.codim + 1 + g.codim; omega
  · intro t f g ih; change (comp f g).codim + 1 = f.codim + 1 + g.codim; omega
  · intro t f g ih; change (comp f g).codim + 1 = f.codim + 1 + g.codim; omega
  · intro t f g ih; rw [comp_cone_base]; simp only [codim]; omega
  · intro t f g ih; rw [comp_cone_cone]; simp only [codim]; omega
  · intro t f; rw [comp_cone_apex]; have := codim_add_dim f; simp only [codim]; omega

theorem shape_comp (f : Face t) (g : Face f.shape) : (comp f g).shape = g.shape := by
  refine comp_induction (P := fun f g => (comp f g).shape = g.shape) rfl
    ?_ ?_ ?_ ?_ ?_ ?_ ?_ ?_ ?_ rfl f g
  · intro t f g ih; rw [comp_edge_edge]; simp only [shape, ih]
  · intro t f g ih; rw [comp_edge_bot]; simp only [shape, ih]
  · intro t f g ih; rw [comp_edge_top]; simp only [shape, ih]
  · intro t f g ih; exact ih
  · intro t f g ih; exact ih
  · intro t f g ih; exact ih
  · intro t f g ih; rw [comp_cone_base]; simp only [shape, ih]
  · intro t f g ih; rw [comp_cone_cone]; simp only [shape, ih]
  · intro t f; rfl

/-- A face of codimension 0 has the shape of the whole. -/
theorem shape_of_codim_zero : ∀ {t : Topo} (f : Face t), f.codim = 0 → f.shape = t
  | _, pt, _ => rfl
  | _, edge f, h => by rw [shape, shape_of_codim_zero f h]
  | _, bot f, h => by simp [codim] at h
  | _, top f, h => by simp [codim] at h
  | _, base f, h => by simp [codim] at h
  | _, cone f, h => by rw [shape, shape_of_codim_zero f h]
  | _, apex, h => by simp [codim] at h

theorem idx_of_codim_zero : ∀ {t : Topo} (f : Face t), f.codim = 0 → f.idx = 0
  | _, pt, _ => rfl
  | _, edge f, h => by rw [idx, idx_of_codim_zero f h]
  | _, bot f, h => by simp [codim] at h
  | _, top f, h => by simp [codim] at h
  | _, base f, h => by simp [codim] at h
  | _, cone f, h => by
    simp only [codim] at h
    simp only [idx, h, idx_of_codim_zero f h]
  | _, apex, h => by simp [codim] at h

theorem idx_lt : ∀ {t : Topo} (f : Face t), f.idx < t.sz f.codim
  | _, pt => by simp [idx, codim]
  | .prism t, edge f => by
    have := idx_lt f
    simp only [idx, codim]
    cases h : f.codim with
    | zero => rw [idx_of_codim_zero f h]; simp
    | succ c => rw [h] at this; simp only [Topo.sz]; omega
  | .prism t, bot f => by
    have := idx_lt f; simp only [idx, codim, Topo.sz]; omega
  | .prism t, top f => by
    have := idx_lt f; simp only [idx, codim, Topo.sz]; omega
  | .pyr t, base f => by
    have := idx_lt f; simp only [idx, codim, Topo.sz]; omega
  | .pyr t, cone f => by
    have := idx_lt f
    simp only [idx, codim]
    cases h : f.codim with
    | zero => rw [idx_of_codim_zero f h]; simp
    | succ c => rw [h] at this; simp only [Topo.sz]; omega
  | .pyr t, apex => by
    simp only [idx, codim, Topo.sz, if_true]; omega

/-- The number determines the face within its codimension. -/
theorem idx_inj : ∀ {t : Topo} (f g : Face t), f.codim = g.codim → f.idx = g.idx → f = g
  | _, pt, pt, _, _ => rfl
  | .prism t, edge f, edge g, h1, h2 => by rw [idx_inj f g h1 h2]
  | .prism t, edge f, bot g, h1, h2 => by
    have a := idx_lt f
    simp only [codim, idx] at h1 h2; rw [h1] at a; omega
  | .prism t, edge f, top g, h1, h2 => by
    have a := idx_lt f
    simp only [codim, idx] at h1 h2; rw [h1] at a; omega
  | .prism t, bot f, edge g, h1, h2 => by
    have a := idx_lt g
    simp only [codim, idx] at h1 h2; rw [← h1] at a; omega
  | .prism t, top f, edge g, h1, h2 => by
    have a := idx_lt g
    simp only [codim, idx] at h1 h2; rw [← h1] at a; omega
  | .prism t, bot f, bot g, h1, h2 => by
    simp only [codim, idx] at h1 h2
    have h3 : f.codim = g.codim := by omega
    rw [h3] at h2
    rw [idx_inj f g h3 (by omega)]
  | .prism t, top f, top g, h1, h2 => by
    simp only [codim, idx] at h1 h2
    have h3 : f.codim = g.codim := by omega
    rw [h3] at h2
    rw [idx_inj f g h3 (by omega)]
  | .prism t, bot f, top g, h1, h2 => by
    have a := idx_lt f
    simp only [codim, idx] at h1 h2
    have h3 : f.codim = g.codim := by omega
    rw [h3] at h2 a; omega
  | .prism t, top f, bot g, h1, h2 => by
    have a := idx_lt g
    simp only [codim, idx] at h1 h2
    have h3 : f.codim = g.codim := by omega
    rw [h3] at h2; omega
  | .pyr t, base f, base g, h1, h2 => by
    simp only [codim, idx] at h1 h2
    rw [idx_inj f g (by omega) h2]
  | .pyr t, cone f, cone g, h1, h2 => by
    simp only [codim, idx] at h1 h2
    rw [h1] at h2
    rw [idx_inj f g (by omega) (by omega)]
  | .pyr t, base f, cone g, h1, h2 => by
    have a := idx_lt f
    simp only [codim, idx] at h1 h2
    rw [← h1] at h2; simp only at h2; omega
  | .pyr t, cone f, base g, h1, h2 => by
    have a := idx_lt g
    simp only [codim, idx] at h1 h2
    rw [h1] at h2; simp only at h2; omega
  | .pyr t, base f, apex, h1, h2 => by
    have a := idx_lt f
    simp only [codim, idx] at h1 h2
    have : f.codim = t.dim := by omega
    rw [this] at a; omega
  | .pyr t, apex, base f, h1, h2 => by
    have a := idx_lt f
    simp only [codim, idx] at h1 h2
    have : f.codim = t.dim := by omega
    rw [this] at a; omega
  | .pyr t, cone f, apex, h1, h2 => by
    have a := codim_le f
    simp only [codim] at h1; omega
  | .pyr t, apex, cone f, h1, h2 => by
    have a := codim_le f
    simp only [codim] at h1; omega
  | .pyr t, apex, apex, _, _ => rfl

/-- Every number below the count is the number of a face. -/
theorem idx_surj : ∀ (t : Topo) (c i : Nat), i < t.sz c → ∃ f : Face t, f.codim = c ∧ f.idx = i
  | .pt, 0, i, h => ⟨pt, rfl, by simp at h; simp [idx, h]⟩
  | .pt, c + 1, i, h => by simp [Topo.sz] at h
  | .prism t, 0, i, h => by
    obtain ⟨f, h1, h2⟩ := idx_surj t 0 i (by simpa using h)
    exact ⟨edge f, h1, h2⟩
  | .prism t, c + 1, i, h => by
    simp only [Topo.sz] at h
    by_cases hi : i < t.sz (c + 1)
    · obtain ⟨f, h1, h2⟩ := idx_surj t (c + 1) i hi
      exact ⟨edge f, h1, h2⟩
    · by_cases hi2 : i < t.sz (c + 1) + t.sz c
      · obtain ⟨f, h1, h2⟩ := idx_surj t c (i - t.sz (c + 1)) (by omega)
        exact ⟨bot f, by rw [codim, h1], by rw [idx, h1, h2]; omega⟩
      · obtain ⟨f, h1, h2⟩ := idx_surj t c (i - t.sz (c + 1) - t.sz c) (by omega)
        exact ⟨top f, by rw [codim, h1], by rw [idx, h1, h2]; omega⟩
  | .pyr t, 0, i, h => by
    obtain ⟨f, h1, h2⟩ := idx_surj t 0 i (by simpa using h)
    exact ⟨cone f, h1, by simp [idx, h1, h2]⟩
  | .pyr t, c + 1, i, h => by
    simp only [Topo.sz] at h
    by_cases hi : i < t.sz c
    · obtain ⟨f, h1, h2⟩ := idx_surj t c i hi
      exact ⟨base f, by rw [codim, h1], h2⟩
    · by_cases hi2 : i < t.sz c + t.sz (c + 1)
      · obtain ⟨f, h1, h2⟩ := idx_surj t (c + 1) (i - t.sz c) (by omega)
        exact ⟨cone f, h1, by simp only [idx, h1, h2]; omega⟩
      · have hc : c = t.dim := by by_contra hc; rw [if_neg hc] at h; omega
        rw [if_pos hc] at h
        have hz := t.sz_eq_zero (c + 1) (by omega)
        exact ⟨apex, by rw [codim, hc], by rw [idx, ← hc]; omega⟩

/-- Taking faces of the whole changes nothing. -/
theorem idx_comp_of_codim_zero (f : Face t) (g : Face f.shape) (h : f.codim = 0) :
    (comp f g).idx = g.idx := by
  revert h
  refine comp_induction (P := fun f g => f.codim = 0 → (comp f g).idx = g.idx) ?_
    ?_ ?_ ?_ ?_ ?_ ?_ ?_ ?_ ?_ ?_ f g
  · intro _; rfl
  · intro t f g ih h; rw [comp_edge_edge]; simp only [idx, ih h]
  · intro t f g ih h; have h' : f.codim = 0 := h
    rw [comp_edge_bot]
    simp only [idx, ih h', codim_comp, h', shape_of_codim_zero f h', zero_add]
  · intro t f g ih h; have h' : f.codim = 0 := h
    rw [comp_edge_top]
    simp only [idx, ih h', codim_comp, h', shape_of_codim_zero f h', zero_add]
  · intro t f g ih h; simp [codim] at h
  · intro t f g ih h; simp [codim] at h
  · intro t f g ih h; simp [codim] at h
  · intro t f g ih h; rw [comp_cone_base]; simp only [idx, ih h]
  · intro t f g ih h; have h' : f.codim = 0 := h
    rw [comp_cone_cone]
    simp only [idx, ih h', codim_comp, h', shape_of_codim_zero f h', zero_add]
  · intro t f h; have h' : f.codim = 0 := h
    rw [comp_cone_apex]
    simp only [idx, shape_of_codim_zero f h']
  · intro t h; simp [codim] at h

/-- The face of codimension 0 of a face is the face itself. -/
theorem comp_of_codim_zero (f : Face t) (g : Face f.shape) (h : g.codim = 0) : comp f g = f := by
  revert h
  refine comp_induction (P := fun f g => g.codim = 0 → comp f g = f) ?_
    ?_ ?_ ?_ ?_ ?_ ?_ ?_ ?_ ?_ ?_ f g
  · intro _; rfl
  · intro t f g ih h; rw [comp_edge_edge, ih h]
  · intro t f g ih h; simp [codim] at h
  · intro t f g ih h; simp [codim] at h
  · intro t f g ih h; rw [comp_bot, ih h]
  · intro t f g ih h; rw [comp_top, ih h]
  · intro t f g ih h; rw [comp_base, ih h]
  · intro t f g ih h; simp [codim] at h
  · intro t f g ih h; rw [comp_cone_cone, ih h]
  · intro t f h; simp [codim] at h
  · intro t h; rfl

theorem comp_inj (f : Face t) (g h : Face f.shape) (e : comp f g = comp f h) : g = h := by
  revert e h
  refine comp_induction (P := fun f g => ∀ h, comp f g = comp f h → g = h) ?_
    ?_ ?_ ?_ ?_ ?_ ?_ ?_ ?_ ?_ ?_ f g
  · intro h _; change Face .pt at h; cases h; rfl
  · intro t f g ih h e
    change Face (.prism f.shape) at h
    cases h with
    | edge h => rw [comp_edge_edge, comp_edge_edge] at e; rw [ih h (by injection e)]
    | bot h => rw [comp_edge_edge, comp_edge_bot] at e; cases e
    | top h => rw [comp_edge_edge, comp_edge_top] at e; cases e
  · intro t f g ih h e
    change Face (.prism f.shape) at h
    cases h with
    | edge h => rw [comp_edge_edge, comp_edge_bot] at e; cases e
    | bot h => rw [comp_edge_bot, comp_edge_bot] at e; rw [ih h (by injection e)]
    | top h => rw [comp_edge_top, comp_edge_bot] at e; cases e
  · intro t f g ih h e
    change Face (.prism f.shape) at h
    cases h with
    | edge h => rw [comp_edge_edge, comp_edge_top] at e; cases e
    | bot h => rw [comp_edge_top, comp_edge_bot] at e; cases e
    | top h => rw [comp_edge_top, comp_edge_top] at e; rw [ih h (by injection e)]
  · intro t f g ih h e; exact ih h (by have e' : bot (comp f g) = bot (comp f h) := e; injection e')
  · intro t f g ih h e; exact ih h (by have e' : top (comp f g) = top (comp f h) := e; injection e')
  · intro t f g ih h e; exact ih h (by have e' : base (comp f g) = base (comp f h) := e; injection e')
  · intro t f g ih h e
    change Face (.pyr f.shape) at h
    cases h with
    | base h => rw [comp_cone_base, comp_cone_base] at e; rw [ih h (by injection e)]
    | cone h => rw [comp_cone_base, comp_cone_cone] at e; cases e
    | apex => rw [comp_cone_base, comp_cone_apex] at e; cases e
  · intro t f g ih h e
    change Face (.pyr f.shape) at h
    cases h with
    | base h => rw [comp_cone_base, comp_cone_cone] at e; cases e
    | cone h => rw [comp_cone_cone, comp_cone_cone] at e; rw [ih h (by injection e)]
    | apex => rw [comp_cone_cone, comp_cone_apex] at e; cases e
  · intro t f h e
    change Face (.pyr f.shape) at h
    cases h with
    | base h => rw [comp_cone_base, comp_cone_apex] at e; cases e
    | cone h => rw [comp_cone_cone, comp_cone_apex] at e; cases e
    | apex => rfl
  · intro t h _; change Face .pt at h; cases h; rfl

end Face

end Verif.RefTopo
