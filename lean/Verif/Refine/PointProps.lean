import Verif.Refine.HCubeProps

/-! C43: the refinement of the point. -/

namespace Verif.Refine.HCube

/-- C43: in dimension 0 the coordinates of a number are defined for every width, also for width 0, because nothing is divided; in
other dimensions width 0 is a division by zero. -/
theorem C43_point (d idx w : Nat) : (∃ c, idx2coord d idx w = some c) ↔ d = 0 ∨ 0 < w := by
  rw [idx2coord]
  split_ifs with h
  · simp; omega
  · simp; omega

example : (∃ c, idx2coord 0 0 0 = some c) ∧ ¬ ∃ c, idx2coord 2 0 0 = some c := by
  rw [C43_point, C43_point]; decide

end Verif.Refine.HCube
