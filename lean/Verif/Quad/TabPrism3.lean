import Verif.Quad.Lit

/-! The table of `PrismQuadraturePoints<3>`, prismquadrature.hh:67-143. -/

namespace Verif.Quad.Prism3

/-- prismquadrature.hh:74-105 -/
def block0 : Row := ⟨[6], 0, [
  ⟨[⟨0, 1⟩, ⟨0, 1⟩, ⟨0, 1⟩], ⟨8333333333333333, 100000000000000000⟩⟩,
  ⟨[⟨1, 1⟩, ⟨0, 1⟩, ⟨0, 1⟩], ⟨8333333333333333, 100000000000000000⟩⟩,
  ⟨[⟨0, 1⟩, ⟨1, 1⟩, ⟨0, 1⟩], ⟨8333333333333333, 100000000000000000⟩⟩,
  ⟨[⟨0, 1⟩, ⟨0, 1⟩, ⟨1, 1⟩], ⟨8333333333333333, 100000000000000000⟩⟩,
  ⟨[⟨1, 1⟩, ⟨0, 1⟩, ⟨1, 1⟩], ⟨8333333333333333, 100000000000000000⟩⟩,
  ⟨[⟨0, 1⟩, ⟨1, 10⟩, ⟨1, 1⟩], ⟨8333333333333333, 100000000000000000⟩⟩]⟩

/-- prismquadrature.hh:110-141 -/
def block1 : Row := ⟨[6], 2, [
  ⟨[⟨33333333333333333, 50000000000000000⟩, ⟨8333333333333333, 50000000000000000⟩, ⟨211324865405187, 1000000000000000⟩], ⟨8333333333333333, 100000000000000000⟩⟩,
  ⟨[⟨8333333333333333, 50000000000000000⟩, ⟨33333333333333333, 50000000000000000⟩, ⟨211324865405187, 1000000000000000⟩], ⟨8333333333333333, 100000000000000000⟩⟩,
  ⟨[⟨8333333333333333, 50000000000000000⟩, ⟨8333333333333333, 50000000000000000⟩, ⟨211324865405187, 1000000000000000⟩], ⟨8333333333333333, 100000000000000000⟩⟩,
  ⟨[⟨33333333333333333, 50000000000000000⟩, ⟨8333333333333333, 50000000000000000⟩, ⟨788675134594813, 1000000000000000⟩], ⟨8333333333333333, 100000000000000000⟩⟩,
  ⟨[⟨8333333333333333, 50000000000000000⟩, ⟨33333333333333333, 50000000000000000⟩, ⟨788675134594813, 1000000000000000⟩], ⟨8333333333333333, 100000000000000000⟩⟩,
  ⟨[⟨8333333333333333, 50000000000000000⟩, ⟨8333333333333333, 50000000000000000⟩, ⟨788675134594813, 1000000000000000⟩], ⟨8333333333333333, 100000000000000000⟩⟩]⟩

/-- the blocks in program order; both write `m = 6`, so the second one overwrites the first -/
def blocks : List Row := [block0, block1]

end Verif.Quad.Prism3
