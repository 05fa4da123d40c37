import Verif.Python.WrapperProps

/-! C66: codimensions below the one of the sub-entity. -/

namespace Verif.Py

open Verif.RefTopo

/-- C66: for a codimension `cc` below the one of the sub-entity the C++ method `size( i, c, cc )` is defined and returns zero, while the
Python method raises an exception. -/
theorem C66_below (d id : Nat) (i c cc : Int) (hc : 0 ≤ c ∧ c ≤ d) (hi : 0 ≤ i ∧ i < refSize d id c.toNat) (hcc : 0 ≤ cc ∧ cc < c) :
    cSize3 d id i c cc = some 0 ∧ size3 d id i c cc = .error := by
  constructor
  · simp only [cSize3, cValid_eq d id i c hc hi, Option.bind_eq_bind, Option.bind_some]
    rw [if_pos (by omega), refSize3, SubEntityInfo.size, SubEntityInfo.initialize]
    simp only
    rw [offsets_le _ _ _ _ (by omega), offsets_le _ _ _ _ (by omega)]
  · rw [size3, size1, if_neg (by omega), cSize, if_pos hc]
    simp only [Res.ofOption, Res.bind]
    rw [if_neg (by omega), if_pos (by omega)]

/-- the edges of the square have no sub-entity of codimension 0 -/
example : cSize3 2 3 1 1 0 = some 0 ∧ size3 2 3 1 1 0 = .error := C66_below 2 3 1 1 0 (by decide) (by decide) (by decide)

end Verif.Py
