import Verif.Quad.Lit

/-! The table of `SimplexQuadraturePoints<3>::init`, simplexquadrature.hh:849-1021 (generated from the source file).
Constant expressions such as `0.5 * 0.1099`, `4.0/6.0` stand for their exact value, written as a reduced
fraction. -/

namespace Verif.Quad.Simplex3

/-- simplexquadrature.hh:861-866 -/
def block0 : Row := ⟨[1], 1, [
  ⟨[⟨1, 4⟩, ⟨1, 4⟩, ⟨1, 4⟩], ⟨1, 6⟩⟩]⟩

/-- simplexquadrature.hh:884-892 -/
def block1 : Row := ⟨[4], 2, [
  ⟨[⟨1170820393249937, 2000000000000000⟩, ⟨276393202250021, 2000000000000000⟩, ⟨276393202250021, 2000000000000000⟩], ⟨1, 24⟩⟩,
  ⟨[⟨276393202250021, 2000000000000000⟩, ⟨1170820393249937, 2000000000000000⟩, ⟨276393202250021, 2000000000000000⟩], ⟨1, 24⟩⟩,
  ⟨[⟨276393202250021, 2000000000000000⟩, ⟨276393202250021, 2000000000000000⟩, ⟨1170820393249937, 2000000000000000⟩], ⟨1, 24⟩⟩,
  ⟨[⟨276393202250021, 2000000000000000⟩, ⟨276393202250021, 2000000000000000⟩, ⟨276393202250021, 2000000000000000⟩], ⟨1, 24⟩⟩]⟩

/-- simplexquadrature.hh:904-936 -/
def block2 : Row := ⟨[8], 3, [
  ⟨[⟨0, 1⟩, ⟨0, 1⟩, ⟨0, 1⟩], ⟨1, 240⟩⟩,
  ⟨[⟨1, 1⟩, ⟨0, 1⟩, ⟨0, 1⟩], ⟨1, 240⟩⟩,
  ⟨[⟨0, 1⟩, ⟨1, 1⟩, ⟨0, 1⟩], ⟨1, 240⟩⟩,
  ⟨[⟨0, 1⟩, ⟨0, 1⟩, ⟨1, 1⟩], ⟨1, 240⟩⟩,
  ⟨[⟨1, 3⟩, ⟨1, 3⟩, ⟨0, 1⟩], ⟨3, 80⟩⟩,
  ⟨[⟨1, 3⟩, ⟨0, 1⟩, ⟨1, 3⟩], ⟨3, 80⟩⟩,
  ⟨[⟨0, 1⟩, ⟨1, 3⟩, ⟨1, 3⟩], ⟨3, 80⟩⟩,
  ⟨[⟨1, 3⟩, ⟨1, 3⟩, ⟨1, 3⟩], ⟨3, 80⟩⟩]⟩

/-- simplexquadrature.hh:960-1021 -/
def block3 : Row := ⟨[15], 5, [
  ⟨[⟨1, 4⟩, ⟨1, 4⟩, ⟨1, 4⟩], ⟨987654320987654321, 50000000000000000000⟩⟩,
  ⟨[⟨9197107805272303279, 100000000000000000000⟩, ⟨9197107805272303279, 100000000000000000000⟩, ⟨9197107805272303279, 100000000000000000000⟩], ⟨11989513963169770001, 1000000000000000000000⟩⟩,
  ⟨[⟨18102169146045772541, 25000000000000000000⟩, ⟨9197107805272303279, 100000000000000000000⟩, ⟨9197107805272303279, 100000000000000000000⟩], ⟨11989513963169770001, 1000000000000000000000⟩⟩,
  ⟨[⟨9197107805272303279, 100000000000000000000⟩, ⟨18102169146045772541, 25000000000000000000⟩, ⟨9197107805272303279, 100000000000000000000⟩], ⟨11989513963169770001, 1000000000000000000000⟩⟩,
  ⟨[⟨9197107805272303279, 100000000000000000000⟩, ⟨9197107805272303279, 100000000000000000000⟩, ⟨18102169146045772541, 25000000000000000000⟩], ⟨11989513963169770001, 1000000000000000000000⟩⟩,
  ⟨[⟨31979362782962990839, 100000000000000000000⟩, ⟨31979362782962990839, 100000000000000000000⟩, ⟨31979362782962990839, 100000000000000000000⟩], ⟨11511367871045397547, 1000000000000000000000⟩⟩,
  ⟨[⟨1015477912777756871, 25000000000000000000⟩, ⟨31979362782962990839, 100000000000000000000⟩, ⟨31979362782962990839, 100000000000000000000⟩], ⟨11511367871045397547, 1000000000000000000000⟩⟩,
  ⟨[⟨31979362782962990839, 100000000000000000000⟩, ⟨1015477912777756871, 25000000000000000000⟩, ⟨31979362782962990839, 100000000000000000000⟩], ⟨11511367871045397547, 1000000000000000000000⟩⟩,
  ⟨[⟨31979362782962990839, 100000000000000000000⟩, ⟨31979362782962990839, 100000000000000000000⟩, ⟨1015477912777756871, 25000000000000000000⟩], ⟨11511367871045397547, 1000000000000000000000⟩⟩,
  ⟨[⟨22182458365518542213, 50000000000000000000⟩, ⟨2817541634481457787, 50000000000000000000⟩, ⟨2817541634481457787, 50000000000000000000⟩], ⟨11022927689594356261, 1250000000000000000000⟩⟩,
  ⟨[⟨2817541634481457787, 50000000000000000000⟩, ⟨22182458365518542213, 50000000000000000000⟩, ⟨2817541634481457787, 50000000000000000000⟩], ⟨11022927689594356261, 1250000000000000000000⟩⟩,
  ⟨[⟨2817541634481457787, 50000000000000000000⟩, ⟨2817541634481457787, 50000000000000000000⟩, ⟨22182458365518542213, 50000000000000000000⟩], ⟨11022927689594356261, 1250000000000000000000⟩⟩,
  ⟨[⟨22182458365518542213, 50000000000000000000⟩, ⟨22182458365518542213, 50000000000000000000⟩, ⟨2817541634481457787, 50000000000000000000⟩], ⟨11022927689594356261, 1250000000000000000000⟩⟩,
  ⟨[⟨22182458365518542213, 50000000000000000000⟩, ⟨2817541634481457787, 50000000000000000000⟩, ⟨22182458365518542213, 50000000000000000000⟩], ⟨11022927689594356261, 1250000000000000000000⟩⟩,
  ⟨[⟨2817541634481457787, 50000000000000000000⟩, ⟨22182458365518542213, 50000000000000000000⟩, ⟨22182458365518542213, 50000000000000000000⟩], ⟨11022927689594356261, 1250000000000000000000⟩⟩]⟩

/-- the blocks in program order; a later block with the same `m` overwrites an earlier one -/
def blocks : List Row := [block0, block1, block2, block3]

end Verif.Quad.Simplex3
