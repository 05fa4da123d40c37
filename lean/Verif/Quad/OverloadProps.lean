import Verif.Quad.Props

/-! C50: the overload for basic types. -/

namespace Verif.Quad

open Verif.Typ

/-- C50: `rule( GeometryType::simplex, p, qt )` is a rule for the simplex of the dimension of the rules, of the requested order. -/
theorem C50_simplex (env : Env ℝ) (d : Nat) (p : Int) (qt : QType) (m : Nat) (hd : d ≤ 30) (hq : IsPlain qt)
    (hm : maxOrder d ⟨d, false, 0⟩ qt = .ok m) (h0 : 0 ≤ p) (hp : p ≤ m) :
    ∃ r, ruleSimplex env d p qt = .ok r ∧ p ≤ r.order ∧ r.type.isNone = false ∧ r.type.dim = d ∧ r.type.id / 2 = 0 := by
  obtain ⟨r, h1, h2, h3⟩ := C50_partial env ⟨d, false, 0⟩ p qt m ⟨rfl, by simp⟩ hd hq hm h0 hp
  have e : simplex d = ⟨d, false, 0⟩ := by
    rw [simplex, mk3, Nat.mod_eq_of_lt (by omega)]
  refine ⟨r, by rw [ruleSimplex, e]; exact h1, h2, ?_⟩
  rw [eq_iff] at h3
  simp only [Nat.shiftRight_succ] at h3
  obtain ⟨hn, h | h⟩ := h3
  · exact absurd (h.symm.trans hn) (by simp)
  · exact ⟨hn, by simpa using h⟩

example : maxOrder 3 ⟨3, false, 0⟩ .GaussLobatto = .ok 29 := by decide +kernel

end Verif.Quad
