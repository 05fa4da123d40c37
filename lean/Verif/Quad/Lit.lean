/-
The decimal numbers of the quadrature tables.

`DUNE_NUMBER_FROM_STRING(ct, 0.21...)` (numberfromstring.hh:13-27) converts a decimal literal to the
number type.  Here a literal is kept as the exact rational number it denotes; the rounding of the
conversion to `double` is not modelled.
-/

namespace Verif.Quad

/-- the exact value `num / den` of a literal or of a constant expression of literals -/
structure Lit where
  num : Int
  den : Nat
  deriving DecidableEq

/-- one tabulated quadrature point: position and weight -/
structure Node where
  x : List Lit
  w : Lit
  deriving DecidableEq

/-- one branch of the `switch(p)` of an `...InitHelper<ct>::init` function, or one block of a
`...QuadraturePoints<dim>::init` function: its `case` labels (or the array index `m`), the value
assigned to the order, and the points. -/
structure Row where
  cases : List Nat
  order : Nat
  pts : List Node
  deriving DecidableEq

/-- a one dimensional point with a decimal position `a / 10^m` and weight `b / 10^n` -/
def node1 (a m b n : Nat) : Node := ⟨[⟨a, 10 ^ m⟩], ⟨b, 10 ^ n⟩⟩

end Verif.Quad
