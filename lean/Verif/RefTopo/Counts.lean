import Verif.RefTopo.Info
import Mathlib.Data.Nat.Choose.Sum
import Mathlib.Algebra.BigOperators.Intervals
import Mathlib.Tactic.Ring
import Mathlib.Tactic.Linarith

/-! Face counts of simplices and cubes, Euler's relation, and the diamond property. -/

namespace Verif.RefTopo

open Verif.Typ Finset

theorem Topo.dim_simplex : ∀ d, (Topo.simplex d).dim = d
  | 0 => rfl
  | d + 1 => by simp [Topo.simplex, Topo.dim, Topo.dim_simplex d]

theorem Topo.dim_cube : ∀ d, (Topo.cube d).dim = d
  | 0 => rfl
  | d + 1 => by simp [Topo.cube, Topo.dim, Topo.dim_cube d]

theorem Topo.sz_simplex : ∀ d c, c ≤ d → (Topo.simplex d).sz c = (d + 1).choose c
  | d, 0, _ => by simp
  | 0, c + 1, h => by omega
  | d + 1, c + 1, h => by
    rw [Topo.simplex, Topo.sz, Topo.dim_simplex, Topo.sz_simplex d c (by omega), Nat.choose_succ_succ (d + 1) c]
    congr 1
    by_cases hc : c = d
    · subst hc
      rw [if_pos rfl, Topo.sz_eq_zero _ _ (by rw [Topo.dim_simplex]; omega), Nat.choose_self]
    · rw [if_neg hc, Topo.sz_simplex d (c + 1) (by omega), Nat.add_zero]

theorem Topo.sz_cube : ∀ d c, (Topo.cube d).sz c = d.choose c * 2 ^ c
  | d, 0 => by simp
  | 0, c + 1 => by simp [Topo.cube, Topo.sz]
  | d + 1, c + 1 => by
    rw [Topo.cube, Topo.sz, Topo.sz_cube d c, Topo.sz_cube d (c + 1), Nat.choose_succ_succ]
    ring

theorem Topo.sz_le_cube : ∀ (t : Topo) (c : Nat), t.sz c ≤ (Topo.cube t.dim).sz c
  | t, 0 => by simp
  | .pt, c + 1 => by simp [Topo.sz]
  | .prism t, c + 1 => by
    have h1 := Topo.sz_le_cube t c
    have h2 := Topo.sz_le_cube t (c + 1)
    simp only [Topo.dim, Topo.cube, Topo.sz]; omega
  | .pyr t, c + 1 => by
    have h1 := Topo.sz_le_cube t c
    have h2 := Topo.sz_le_cube t (c + 1)
    simp only [Topo.dim, Topo.cube, Topo.sz]
    split
    · have := Topo.sz_pos (Topo.cube t.dim) c (by rw [Topo.dim_cube]; omega)
      omega
    · omega

theorem Topo.euler : ∀ t : Topo, ∑ c ∈ range (t.dim + 1), (-1 : ℤ) ^ (t.dim - c) * (t.sz c : ℤ) = 1
  | .pt => by simp [Topo.dim]
  | .prism t => by
    have ih := Topo.euler t
    rw [Topo.dim, sum_range_succ']
    have e : ∀ c ∈ range (t.dim + 1), (-1 : ℤ) ^ (t.dim + 1 - (c + 1)) * ((Topo.prism t).sz (c + 1) : ℤ) =
        (-1 : ℤ) ^ (t.dim - c) * (t.sz (c + 1) : ℤ) + 2 * ((-1 : ℤ) ^ (t.dim - c) * (t.sz c : ℤ)) := by
      intro c _
      rw [Nat.add_sub_add_right, Topo.sz]; push_cast; ring
    rw [sum_congr rfl e, sum_add_distrib, ← mul_sum, ih]
    have e2 : ∑ c ∈ range (t.dim + 1), (-1 : ℤ) ^ (t.dim - c) * (t.sz (c + 1) : ℤ) = -1 + (-1) ^ t.dim := by
      rw [sum_range_succ, Topo.sz_eq_zero t (t.dim + 1) (by omega)]
      rw [sum_range_succ'] at ih
      have e3 : ∀ c ∈ range t.dim, (-1 : ℤ) ^ (t.dim - c) * (t.sz (c + 1) : ℤ) =
          -((-1 : ℤ) ^ (t.dim - (c + 1)) * (t.sz (c + 1) : ℤ)) := by
        intro c hc
        rw [mem_range] at hc
        rw [show t.dim - c = t.dim - (c + 1) + 1 by omega, pow_succ]; ring
      rw [sum_congr rfl e3, sum_neg_distrib]
      simp only [Topo.sz_zero, Nat.sub_zero, Nat.cast_one, mul_one] at ih
      simp only [Nat.cast_zero, mul_zero, add_zero]; linarith
    rw [e2]; simp [pow_succ]; ring
  | .pyr t => by
    have ih := Topo.euler t
    rw [Topo.dim, sum_range_succ']
    have e : ∀ c ∈ range (t.dim + 1), (-1 : ℤ) ^ (t.dim + 1 - (c + 1)) * ((Topo.pyr t).sz (c + 1) : ℤ) =
        (-1 : ℤ) ^ (t.dim - c) * (t.sz (c + 1) : ℤ) + (-1 : ℤ) ^ (t.dim - c) * (t.sz c : ℤ) +
          if c = t.dim then 1 else 0 := by
      intro c _
      rw [Nat.add_sub_add_right, Topo.sz]
      split
      · subst c; simp; ring
      · push_cast; ring
    rw [sum_congr rfl e, sum_add_distrib, sum_add_distrib, ih, sum_ite_eq' (range (t.dim + 1)) t.dim (fun _ => (1 : ℤ)),
      if_pos (by simp)]
    have e2 : ∑ c ∈ range (t.dim + 1), (-1 : ℤ) ^ (t.dim - c) * (t.sz (c + 1) : ℤ) = -1 + (-1) ^ t.dim := by
      rw [sum_range_succ, Topo.sz_eq_zero t (t.dim + 1) (by omega)]
      rw [sum_range_succ'] at ih
      have e3 : ∀ c ∈ range t.dim, (-1 : ℤ) ^ (t.dim - c) * (t.sz (c + 1) : ℤ) =
          -((-1 : ℤ) ^ (t.dim - (c + 1)) * (t.sz (c + 1) : ℤ)) := by
        intro c hc
        rw [mem_range] at hc
        rw [show t.dim - c = t.dim - (c + 1) + 1 by omega, pow_succ]; ring
      rw [sum_congr rfl e3, sum_neg_distrib]
      simp only [Topo.sz_zero, Nat.sub_zero, Nat.cast_one, mul_one] at ih
      simp only [Nat.cast_zero, mul_zero, add_zero]; linarith
    rw [e2]; simp [pow_succ]

theorem Face.shape_simplex : ∀ {d : Nat} (f : Face (Topo.simplex d)), f.shape = Topo.simplex (d - f.codim)
  | 0, f => by cases (f : Face .pt); rfl
  | d + 1, f => by
    change Face (.pyr (Topo.simplex d)) at f
    cases f with
    | base f => simp only [Face.shape, Face.codim, Nat.add_sub_add_right]; exact Face.shape_simplex f
    | cone f =>
      have := Face.codim_le f
      rw [Topo.dim_simplex] at this
      simp only [Face.shape, Face.codim, Face.shape_simplex f]
      rw [show d + 1 - f.codim = d - f.codim + 1 by omega]; rfl
    | apex => simp only [Face.shape, Face.codim, Topo.dim_simplex, Nat.sub_self]; rfl

theorem Face.shape_cube : ∀ {d : Nat} (f : Face (Topo.cube d)), f.shape = Topo.cube (d - f.codim)
  | 0, f => by cases (f : Face .pt); rfl
  | d + 1, f => by
    change Face (.prism (Topo.cube d)) at f
    cases f with
    | edge f =>
      have := Face.codim_le f
      rw [Topo.dim_cube] at this
      simp only [Face.shape, Face.codim, Face.shape_cube f]
      rw [show d + 1 - f.codim = d - f.codim + 1 by omega]; rfl
    | bot f => simp only [Face.shape, Face.codim, Nat.add_sub_add_right]; exact Face.shape_cube f
    | top f => simp only [Face.shape, Face.codim, Nat.add_sub_add_right]; exact Face.shape_cube f

theorem rep_simplex : ∀ d, Rep d 0 (Topo.simplex d)
  | 0 => .pt 0
  | d + 1 => .pyr (Or.inr (by simp)) (by simpa using rep_simplex d)

theorem rep_cube : ∀ d, Rep d (2 ^ d - 1) (Topo.cube d)
  | 0 => .pt _
  | d + 1 => by
    refine .prism (Or.inr ?_) ?_
    · rw [Nat.testBit_two_pow_sub_one]; simp
    · have : (2 ^ (d + 1) - 1) % 2 ^ d = 2 ^ d - 1 := by
        apply Nat.eq_of_testBit_eq
        intro i
        rw [Nat.testBit_mod_two_pow, Nat.testBit_two_pow_sub_one, Nat.testBit_two_pow_sub_one]
        by_cases h : i < d
        · simp [h, show i < d + 1 by omega]
        · simp [h]
      rw [this]; exact rep_cube d

/-! ### every face of codimension 2 lies in exactly two facets -/

namespace Face

variable {t : Topo}

/-- the facet of codimension 0 -/
def whole : (t : Topo) → Face t
  | .pt => pt
  | .prism t => edge (whole t)
  | .pyr t => cone (whole t)

theorem codim_whole : ∀ t : Topo, (whole t).codim = 0
  | .pt => rfl
  | .prism t => codim_whole t
  | .pyr t => codim_whole t

theorem eq_whole : ∀ {t : Topo} (f : Face t), f.codim = 0 → f = whole t
  | _, pt, _ => rfl
  | _, edge f, h => congrArg edge (eq_whole f h)
  | _, bot f, h => by simp [codim] at h
  | _, top f, h => by simp [codim] at h
  | _, base f, h => by simp [codim] at h
  | _, cone f, h => congrArg cone (eq_whole f h)
  | _, apex, h => by simp [codim] at h

theorem le_whole : ∀ {t : Topo} (f : Face t), le f (whole t) = true
  | _, pt => rfl
  | _, edge f => le_whole f
  | _, bot f => le_whole f
  | _, top f => le_whole f
  | _, base f => le_whole f
  | _, cone f => le_whole f
  | _, apex => rfl

theorem le_codim {f g : Face t} (h : le f g = true) : g.codim ≤ f.codim := by
  obtain ⟨x, rfl⟩ := exists_comp_of_le h
  rw [codim_comp]; omega

theorem eq_of_le_codim {f g : Face t} (h : le f g = true) (hc : f.codim = g.codim) : f = g := by
  obtain ⟨x, rfl⟩ := exists_comp_of_le h
  rw [codim_comp] at hc
  exact comp_of_codim_zero g x (by omega)

/-- the diamond property -/
theorem diamond : ∀ {t : Topo} (f : Face t), f.codim = 2 →
    ∃ g1 g2 : Face t, g1 ≠ g2 ∧ g1.codim = 1 ∧ g2.codim = 1 ∧ le f g1 = true ∧ le f g2 = true ∧
      ∀ g : Face t, g.codim = 1 → le f g = true → g = g1 ∨ g = g2
  | _, pt, h => by simp [codim] at h
  | .prism t, edge f, h => by
    obtain ⟨g1, g2, hne, h1, h2, l1, l2, hall⟩ := diamond f h
    refine ⟨edge g1, edge g2, by simpa using hne, h1, h2, l1, l2, ?_⟩
    intro g hg hl
    cases g with
    | edge g => rcases hall g hg hl with h | h <;> simp [h]
    | bot g => simp [le] at hl
    | top g => simp [le] at hl
  | .prism t, bot f, h => by
    have hf : f.codim = 1 := by simpa [codim] using h
    refine ⟨edge f, bot (whole t), by simp, hf, by simp [codim, codim_whole], le_refl' f, le_whole f, ?_⟩
    intro g hg hl
    cases g with
    | edge g =>
      have : le f g = true := hl
      left; rw [eq_of_le_codim this (by rw [hf]; exact hg.symm)]
    | bot g => right; rw [eq_whole g (by simpa [codim] using hg)]
    | top g => simp [le] at hl
  | .prism t, top f, h => by
    have hf : f.codim = 1 := by simpa [codim] using h
    refine ⟨edge f, top (whole t), by simp, hf, by simp [codim, codim_whole], le_refl' f, le_whole f, ?_⟩
    intro g hg hl
    cases g with
    | edge g =>
      have : le f g = true := hl
      left; rw [eq_of_le_codim this (by rw [hf]; exact hg.symm)]
    | top g => right; rw [eq_whole g (by simpa [codim] using hg)]
    | bot g => simp [le] at hl
  | .pyr t, base f, h => by
    have hf : f.codim = 1 := by simpa [codim] using h
    refine ⟨cone f, base (whole t), by simp, hf, by simp [codim, codim_whole], le_refl' f, le_whole f, ?_⟩
    intro g hg hl
    cases g with
    | cone g =>
      have : le f g = true := hl
      left; rw [eq_of_le_codim this (by rw [hf]; exact hg.symm)]
    | base g => right; rw [eq_whole g (by simpa [codim] using hg)]
    | apex => simp [le] at hl
  | .pyr t, cone f, h => by
    obtain ⟨g1, g2, hne, h1, h2, l1, l2, hall⟩ := diamond f h
    refine ⟨cone g1, cone g2, by simpa using hne, h1, h2, l1, l2, ?_⟩
    intro g hg hl
    cases g with
    | cone g => rcases hall g hg hl with h | h <;> simp [h]
    | base g => simp [le] at hl
    | apex => simp [le] at hl
  | .pyr t, apex, h => by
    have ht : t.dim = 1 := by simpa [codim] using h
    -- the base is a line, its two vertices give the two facets through the apex
    have hz : t.sz 1 = 2 := by
      cases t with
      | pt => simp [Topo.dim] at ht
      | prism t =>
        have : t.dim = 0 := by simpa [Topo.dim] using ht
        simp [Topo.sz, Topo.sz_eq_zero t 1 (by omega)]
      | pyr t =>
        have : t.dim = 0 := by simpa [Topo.dim] using ht
        simp [Topo.sz, Topo.sz_eq_zero t 1 (by omega), this]
    obtain ⟨v0, c0, i0⟩ := idx_surj t 1 0 (by omega)
    obtain ⟨v1, c1, i1⟩ := idx_surj t 1 1 (by omega)
    refine ⟨cone v0, cone v1, ?_, c0, c1, rfl, rfl, ?_⟩
    · intro e
      have : v0 = v1 := by injection e
      rw [this] at i0; omega
    · intro g hg hl
      cases g with
      | cone g =>
        have hg' : g.codim = 1 := hg
        have := idx_lt g
        rw [hg', hz] at this
        rcases (by omega : g.idx = 0 ∨ g.idx = 1) with e | e
        · left; rw [idx_inj g v0 (by omega) (by omega)]
        · right; rw [idx_inj g v1 (by omega) (by omega)]
      | base g => simp [le] at hl
      | apex => simp [codim, ht] at hg

end Face

end Verif.RefTopo
