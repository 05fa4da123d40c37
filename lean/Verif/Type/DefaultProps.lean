import Verif.Type.Props

/-! C02, C03: the geometry type without arguments. -/

namespace Verif.Typ

/-- C02: a geometry type constructed without arguments is a none type of dimension 0; it equals the none types and nothing else. -/
theorem C02_default : default.isNone = true ∧ default.dim = 0 ∧ ∀ g, eq default g = true ↔ g.isNone = true := by
  refine ⟨rfl, rfl, fun g => ?_⟩
  obtain ⟨d, n, i⟩ := g
  cases n <;> simp [eq, default]

example : eq default (noneType 3) = true ∧ eq default vertex = false := by decide

end Verif.Typ
