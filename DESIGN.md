# Design of the verification of dune-geometry

The subject is the C++ code in `/repo` (read as text, never built).  The model is in
`lean/Verif/**`, one folder per part of the library.  Each folder has up to three files:

* `Model.lean`  – the code, function by function.  Every definition cites file and lines and
  states its simplifications.
* `Lemmas*.lean` – helper lemmas about the model.
* `Props.lean`  – the property theorems (`C01_…`), the small independent specifications they
  refer to, and an `example` beside each theorem that shows that its hypotheses can be met.

Where the code contradicts a property, the negation is proved with a concrete witness
(`…_counterexample` / `…_fails`), and the part that does hold is kept as `…_partial`.

## Modelling conventions

* **Integers.** `int`, `unsigned`, `size_t` values are `ℕ`/`ℤ` unless the property is about the
  bit width (C01: 64-bit ids; C05, C06: shifts of `int`; C19: 32-bit truncation; C98: refinements), where the width is modelled explicitly.
* **Topology ids** are natural numbers and manipulated with the same bit operations as in the
  code (`&&&`, `|||`, `<<<`, `>>>`).
* **Floating point** is replaced by exact arithmetic: a linearly ordered field `K` where no square
  root is needed, otherwise `ℝ`.  Tolerances such as `64*epsilon` stay parameters.  Rounding errors
  are modelled in `Verif/Float` only (C77 and later): the same functions over the numbers of an IEEE format.
* **FieldVector<ct,cdim>** is `ℕ → K` (entries past `cdim` never read) in the recursive
  reference-element code and `Fin n → K` where matrices are inverted.
* **Output buffers** written through pointers become returned `List`s (or functions).
* **Loops** become structural recursion, folds, or recursion with fuel.
* **assert / undefined behaviour** is a distinct outcome (`none`/error constructor) in those models
  where a caller can reach it; otherwise the precondition is an explicit hypothesis.
* **Templates** over dimension become functions of the dimension; user-supplied callbacks become
  function parameters.

## Trusted base

* The Lean 4 kernel, and the axioms `propext`, `Classical.choice`, `Quot.sound` (checked with
  `#print axioms`; no other axiom is used by any theorem).  Mathlib is used as library only.
* The reading of the C++ text into the model; no tool ties the two together.
* Standard library facts used implicitly (std::map, std::vector, std::count_if, std::call_once, …)
  and dune-common (`binomial`, `factorial`, `FieldVector`, `FieldMatrix`, `switchCases`).

* The definition of a data race in the C++ standard, and that adjacent bit-fields are one memory location (C102).
* The contract of std::call_once and of function-local statics (C69): one thread executes the
  function, others that come to the flag wait; after an exception the flag is as before; what the
  function wrote is visible to everyone who has passed the flag.

Not modelled: floating point rounding outside `Verif/Float` (there: no overflow, NaN, infinities, contraction or extended precision), memory allocation failure, weak memory, I/O (operator<<),
`test/`, the deprecated headers, `insertClass` of dune-common (the flag is true for a new class), Python's dictionaries, the LAPACK eigenvalue solver (an environment parameter in `Verif/Quad/Model.lean`, with the contract `SolverOK` in C61).

## Plan per property

| id | model | proof |
|----|-------|-------|
| C01 | `GeometryType` record; conversion to/from a 64-bit number by the same masks/shifts | bit lemma: round trip for all values below the widths |
| C02 | the three operators | case analysis; for none types of different dimension `==` and `<` disagree (documented promise broken): counterexample + `_partial` for the rest |
| C03 | all predicates and factories | bit arithmetic for every dim; isVertex/isLine ignore the none flag (counterexample, `_partial`) |
| C04 | extensions, getBase, isPrism/isPyramid/baseTopologyId | bit arithmetic |
| C05, C06 | LocalGeometryTypeIndex, GlobalGeometryTypeIndex | arithmetic, bijection as two-sided inverse modulo `==` |
| C07 | IfGeometryType::apply as recursion, toGeometryTypeIdConstant as switch with fallback | induction on dim; none type falls to index 0 (counterexample) |
| C08 | `Verif/Factory`: storage, heap and call log as a state machine; the user's factory is a program that may issue nested requests, fail or throw | invariant by induction over the depth of nesting, the program and the history |
| C09 | geometryTypeFromVertexCount with exceptions as outcomes | case analysis against size |
| C10, C11 | size recursion | induction on dim against binomials |
| C55, C56 | as C12–C16 | ids equal up to bit 0 describe the same topology; diamond property by induction on the topology |
| C12–C16 | subTopologyId, subTopologyNumbering (list valued), SubEntityInfo | induction on dim; vertex-set description |
| C17–C22 | referenceCorners, checkInside, referenceVolumeInverse, referenceOrigins, referenceEmbeddings, outer normals | induction on dim over an ordered field; volume against Lebesgue measure |
| C23 | reduceOrder, GeneralVertexOrder | counting lemmas |
| C24–C27 | matrix helper loops over ℝ | loop invariants against Mathlib matrices |
| C28–C30 | AffineGeometry, AxisAlignedCubeGeometry over ℝ | linear algebra |
| C31–C35 | static recursive `global`, `jacobianTransposed`, `affine`; cached state; Newton loop with fuel | induction on dim; derivative via Mathlib; history invariant |
| C57 | embedding from C20 and `global` | induction on the face relation; `C57_restriction_cube` (`Verif/Flux/CubeProps.lean`): cubes, all points |
| C36 | gaussNewton over arbitrary f, with all return codes | induction over fuel; exact start value gives STAGNATION (counterexample), maxIt ≤ 0 gives OK (counterexample) |
| C37, C38 | composition, linear combination | Mathlib derivative |
| C39–C42 | getPermutation, pointIndex, vertex and element iterators as state machines | mixed radix, combinatorial number system, counting bijection |
| C43 | idx2coord/coord2idx, vertexIndices | mixed radix |
| C44, C58, C60 | one model of the three triangulations (number of Kuhn simplices, permutation numbers, transformation are parameters) over the simplex refinement | induction; sorting gives the Kuhn simplex of a point |
| C59 | referenceToKuhn, kuhnToReference | closed forms as partial sums and differences |
| C45 | dispatch of buildRefinement; iterator wrapper | case analysis; self-assignment hazard |
| C46 | RefinementIntervals | arithmetic |
| C47, C48 | tensorProduct/conicalProduct on lists of weighted points | moments of monomials by recursion over the topology, tied to the Lebesgue integral over the reference element (`Verif/Quad/Integral.lean`, `Poly.lean`), lifted to all polynomials by linearity |
| C49 | the tables as exact decimals | whole finite table by kernel computation, lifted by linearity |
| C50 | rule factory | case analysis; missing bounds check = undefined behaviour outcome |
| C51 | `Verif/Quad/Cache`: the three nested once-flag vectors as a store, all recursive requests go through it | refinement: the cached program returns what the plain one returns, for every reachable store |
| C61 | `Verif/Quad/Lapack`: assembly of the tridiagonal matrix and read-out of nodes and weights, over the reals; the solver is a parameter with a contract (`SolverOK`: characteristic polynomial, unit eigenvectors) that is shown satisfiable | explicit monic orthogonal polynomials for (1-x)^alpha and their three term recurrence; eigenvectors are their values; simple spectrum; orthonormality of the columns gives exactness below 2n |
| C62 | `Verif/MatHelp`: the loops of the product helpers over functions `ℕ → ℕ → K` with sizes | each loop equals a sum; entries outside the written range are unchanged |
| C63 | `Verif/Python/Model`: printing with decimal numbers, parsing with the string searches, `stoul` and the map of constructors | characterisation of the argument loop (sound and complete), decimal numbers read back |
| C64 | same | every accepted string is decomposed; large dimensions are undefined or wrap to a byte (counterexample); proved for small dimensions |
| C65 | `Verif/Python/Wrappers`: hash, dictionaries with hash-and-equality lookup, the two caching functions; the combination of hashes in tuples is a parameter that is injective in the first component | C06 for the hash, invariant over the history |
| C66 | `Verif/Python/Wrappers`: the checks, over the C++ methods with their assertions as `none` | case distinction; that the C++ methods answer in range comes from C13, C15, C21, C22 |
| C67 | `Verif/Python/Wrappers`: memory of a rule as a list of numbers, strided access; integration point by point | induction over the rule |
| C68 | `Verif/Python/Wrappers`: registry counting definitions; `insertClass` of dune-common returns whether the class is new | induction over the registrations |
| C69 | `Verif/Quad/Threads`: `rule` as a program whose only shared accesses are its call_once calls; any number of threads with call lists; small steps in every interleaving | simulation of each thread against the plain factory; flags ranked by (dimension, kind), threads wait only for lower ranks than they hold, hence no deadlock; a step count |
| C70 | no new model: `subEntity`, `position`, embeddings and `checkInside` of C11-C18 put together; relative interior = image of the strictly interior points under the embedding | induction over the topology: existence and uniqueness of the stratum of a point; order of faces = inclusion of point sets |
| C71 | no new model: `integrationOuterNormals`, embeddings and types of facets (C20, C22) with Lebesgue integrals over the convex hull of the corners | `Verif/Quad/Iterated`: integrals as iterated integrals; `Verif/Quad/Divergence`: induction over prism and cone steps, the cone step by the divergence theorem on the base for the radial field; then for ContDiff functions |
| C72 | no new model: the geometries of C28, C32, C37, C38 with `facetIntegral`, `normal` of C71 | `Verif/Quad/Piola`: derivative of determinants, Piola's identity (columns of the adjugate of a Jacobian are divergence free), so the divergence theorem pulls back; `Verif/Quad/Image`: orientation is constant on the convex element, change of variables; `ImageProps` instantiates. MultiLinearGeometry only on cubes: elsewhere `global` has a jump at the tolerance around the apex, so the formulas hold up to that tolerance only (not treated) |
| C73 | no new model: the refinement models of C40-C44; `Conforming` (ConformPiece) is the specification | `ConformLemmas`: in the Kuhn triangulation of the lattice the carrier of a point and its weights depend on the point alone (levels of the coordinates); `ConformMacro`: in dimension at most three the weight of a corner is a bound on the differences of barycentric coordinates, which does not depend on the order of the Kuhn simplex; `ConformProps`: simplex in all dimensions, triangulations up to dimension three and within one Kuhn simplex; counterexample in dimension four; boxes by hat functions |
| C74 | no new model: the rules of C49 and the geometries of C28, C31, C38 | `CubeRule`: on cubes the recursion of C49 with the exponents bounded one by one; `MapPoly`: degrees of compositions and of the Jacobian determinant (polynomials with `pderiv`), sign of the determinant constant, the transformed integrand is a polynomial `Q` that the rule integrates; `MappedRuleProps`: the theorems, the error is `tabTol` times the coefficients of `Q` |
| C75 | no new model: `volume` of C28 and C31 | `VolumeProps`: transformation formula of C72 with the constant function; for quadrilaterals the determinant is an affine polynomial, so that the value at the centre is its mean; counterexample: the frustum (x(1+z), y(1+z), z), volume() = 9/4, measure 7/3 |
| C76 | no new model: the loop of `MultiLinearGeometry::local` of C35 | `InverseProps`: for quadrilaterals the error of a step has a closed form that leads to the scalar recursion s ↦ s²/(1+2s), which converges from every start; for cubes of any dimension the mean value inequality gives contraction by the variation of the Jacobian; counterexample: a hexahedron with positive determinant, one-to-one, where local(corner(7)) = (3/2, 1/2, 1/2) |
| C77 | `Verif/Float`: `Format` (what is used of rounding), `binary p emin` (IEEE with gradual underflow, ties to even), `Fl φ` its numbers with rounded operations; the functions once more over any arithmetic (`Float/Model.lean`), equal to the earlier models for exact numbers (`…_eq`) | forward error analysis by induction on the topology: the factor carries an error e ↦ (1+u)(1+e+δ)-1; conversely the accepted points satisfy the exact test with a tolerance larger by 2du, and clamping the coordinates gives a point of the element; for `position` the sums are exact and two roundings remain |
| C78 | `Verif/Float/Model.lean`: `globalS`, `affineCorner`, `cubeGlobal`, `cubeCorner` over `Fl φ` | induction on the dimension: at a corner all weights are 0 or 1, the factor stays 1, and adding zero or multiplying by zero or one is exact; counterexamples with the interval from -1 to 2^-60 in `double` |
| C79 | the same functions | a calculus of forward errors (`Near k s a b m`: k roundings, magnitude m, underflow s) with rules for sum, difference, product and quotient, applied along the code; induction over the recursion of `globalS` for cubes of any dimension; triangles, tetrahedra, pyramids and prisms (`Verif/Float/{Triangle,Tetrahedron,Pyramid,Prism}Props.lean`) compared with their shape functions: one divisor `1 - x` is accurate relatively; on tetrahedra the computed second divisor is treated as exact, as it cancels in the weights, and only its absolute error enters; `Verif/Float/BoxProps.lean`: the bounding box, as the shape functions are convex weights |
| C80 | `Verif/Check/Model.lean`: `toFieldMatrix`, `isIdentity`, `checkGeometry` over a record of methods, `ofAffine`; `Verif/Check/CubeModel.lean`: `ofCube` | each check is shown equivalent to its mathematical statement (`Verif/Check/Spec.lean`), the outcome (true / exception) is characterised by an equivalence; affine geometries by C28, C29; axis-aligned cubes by C30 (`Verif/Check/CubeProps.lean`); `C80_cube_volume`, `C80_affine_volume`: a wrong volume is noticed; counterexamples: the segment of length tol/2, the identity of the unit interval with Jacobian 2 |
| C81 | models of C41, C42, C44; containment of element images (`Contained` in `Verif/Refine/NestProps.lean`) | the composition of two Kuhn elements (permutation of the coarse one applied to the fine one) is a Kuhn element of the fine refinement (`NestLemmas.lean`); the map (coarse, relative) -> fine element is a bijection by counting; uniqueness by disjoint interiors (C60); counterexample: refining the element (1,0,2) of the tetrahedron twice |
| C82 | models of C25, C30, C31, C35, C38, C39 and `Verif/Compare/Model.lean` (the P1/Q1 elements, `LocalFiniteElementFunction`, `ReferenceElementGeometry`, `compareGeometries` of the tests); agreement of all methods is `Same` in `Verif/Compare/Spec.lean` | `C82_compare`/`C82_passes`/`C82_complete`: what the comparison accepts; the agreement theorems go through the characterisation of each class (C25, C30, C31, C35, C38, C39); the centre of every reference element is strictly inside (`center_inner`) so that the pyramid's Jacobian is regular there; counterexamples for the volume of a frustum and the affine flag of a slightly bent square; `LocalDerivative.lean`: `LocalDerivativeGeometry`, `C82_local_derivative` |
| C83 | model of the quadrature rules (C47–C50) with all tables | `rule_induct` (`Verif/Quad/Nodes.lean`): a property of the tabulated rules that passes to tensor and conical products holds for every delivered rule; used for corners (`C83_lobatto_partial`, `C83_radauLeft_partial`, `C83_radauRight_partial`, exact for small orders), interior (`C83_interior_partial`) and different points; the tables are checked completely in the kernel (`Verif/Quad/NodesTab.lean`); optimality (`Verif/Quad/Optimal.lean`): the square of the nodal polynomial, times `x`, `1-x` or `x(1-x)`, is positive but integrated to zero; `C83_right_double` with the rounding of C79 |
| C84 | `Verif/MultiLinear/StorageModel.lean`: memory with arrays of corners and variables holding geometries (copy or `std::reference_wrapper`), the operations write, free, construct, assign, call; a missing array is undefined behaviour | specification by value semantics (`expected`), by reference semantics (`following`) and by the rule of the class documentation (`Obeys`); simulations over all programs: `C84_copy`, `C84_copy_caching_partial` (geometries of the kind of C34), `C84_contract` (both classes), `C84_following`; `C84_following_counterexample`, `C84_freed` |
| C85 | rules of C48/C49, composite rules of C52, affine geometries of C28; integrals of Mathlib | `Verif/Quad/ErrorLemmas.lean`: best approximation, Taylor polynomials in several variables as `MvPolynomial`; `C85_best`, `C85_rule`, `C85_smooth`, `C85_element`, `C85_composite`, `C85_composite_exact`; example: the composite midpoint rule and the exponential function |
| C86 | `Verif/Python/QuadpyModel.lean`: `rule`, `rules`, the class `QPQuadPyQuadrature` with serial numbers, `_cache`; the package is a parameter | invariant of the cache over all histories: `C86_transparent`, `C86_same_object`, `C86_different_objects`, `C86_failure`; `C86_supported_partial`, `C86_vertices`, `C86_order_partial`, `C86_result_partial`, `C86_rules_partial`; counterexamples `C86_supported_counterexample` (none type of dimension one), `C86_order_counterexample`, `C86_result_counterexample`, `C86_rules_counterexample` |
| C87 | `Verif/Float/QuadModel.lean`: the functions of `Quad/Model.lean` with nothing but `0, 1, -, *` of the number type and a conversion of the tables; `rule_exact`: for exact numbers it is `Quad.rule`; `quadLoop`, `weightLoop` | relational induction over the dimension (`rule_rel`): `C87_outcome`, `C87_weights`, `C87_integral` (with C85), `C87_inside` (formats up to 56 bits), `C87_tables` (conversion by string or `double`); `C87_volume_partial` (sum of weights up to rounding and the accuracy of the tables); `C87_volume_counterexample`: with `long double` the weights of the triangle rule of order two add up to 1/2 - 2^-55, the library's own `checkWeights` would fail. The family `GaussJacobi_n_0` (eigenvalue solver) and the weights of the two Jacobi families are not covered |
| C88 | `Verif/Float/RefineModel.lean`: the iterators of `Verif/Refine` with coordinate type `Fl φ`; `geometry()` with positions in floating point; `hcube.cc` with its quotient in `double` | all sums in `geometry()` are exact in Kuhn coordinates (`geometry_lattice`): `C88_vertex`, `C88_neighbours` (simplices: the same numbers in all neighbours, any format), `C88_copies` (cube, prism, pyramid), `C88_cube`, `C88_cube_value`, `C88_inside_simplex`, `_cube`, `_triang_cube`, `_prism`, `_pyramid`; `C88_corner_partial` (corners within three epsilon of `coords()`) with `C88_corner_counterexample`; `C88_triang_neighbours_partial` (equal within a Kuhn simplex and in dimensions one and two, else within `3 d (d+1)` epsilon) with `C88_triang_neighbours_counterexample`; `C88_cube_value_counterexample` |
| C89 | `Verif/Float/VolumeModel.lean`: `DefaultMatrixHelper` (`sqrtDetAAT`, `rightInvA`, the Cholesky path) and the volumes, for any coordinate type; for `ℝ` the definitions equal those of `Verif/MatHelp` (`sqrtDetAAT_eq`, `rightInvA_eq`, `ofJacobian_eq`) | `C89_cube`, `C89_cube_inverse`, `C89_det2`, `C89_det3`, `C89_det23` (running error analysis), `C89_affine_partial`, `C89_det`, `C89_volume`: the factorisation succeeds and is backward stable if the smallest singular value squared exceeds `50 m n u` times the squared edge length (`cholesky_ok`: induction over the columns, the quadratic form of the residual stays positive; `factor_det`: determinants of nearby matrices by their eigenvalues), `C89_plane_partial`; `C89_affine_counterexample` (triangle in space, assertion fails), `C89_plane_counterexample` (triangle of the plane, division by zero) |
| C90 | `Verif/Float/NewtonModel.lean`: `local`, `jacobianTransposed`, `affine` of `MultiLinearGeometry` and the solver `xTRightInvA`, for any coordinate type, with the content of uninitialised variables as a parameter; for `ℝ` the definitions equal those of `Verif/MultiLinear` and `Verif/MatHelp` (`local_eq`); `Verif/Float/Compute.lean`: binary formats with rational numbers, rounding and square root by integer arithmetic, and the proof that they are the formats of `Verif/Float/Format.lean` (`Bin.hom`), so that runs can be evaluated by the kernel | `C90_double_counterexample`, `C90_single_counterexample`: a run that alternates between two points for ever (four passes evaluated, then induction over the fuel); `C90_local_partial`, `C90_affine_partial`: for quadrilaterals in `n ≤ 29` dimensions with a moderate twist and rounding errors below the tolerance the loop ends and the result is accurate (`pass_err`: one pass, from the errors of map, Jacobian and solver; `newton_ends`: contraction until the floor of rounding errors is reached); `C90_solver`: error of the computed least squares solution, all sizes |
| C91 | the models of C10–C22; `Verif/RefTopo/Lattice.lean`: meet of two faces, sums over all faces | induction over the topology: `C91_meet`, `C91_facets`, `C91_interval` (Euler relation of all intervals), `C91_many`, `C91_simple`; with the stratification of C70 `C91_intersection`, `C91_disjoint` for the point sets |
| C92 | `Verif/Float/GaussModel.lean`: the loops of `gaussNewton` and `local`, `global` and the Jacobian of `LocalFiniteElementGeometry` for any coordinate type (over ℝ equal to the models of C36 and C41, `gaussNewton_eq`, `lfe_global_eq`), linear shape functions | `C92_ok` (any map); `C92_exact_start`, `C92_center_throws`: the image of the computed centre makes `local` throw for every map, hence `C92_local_counterexample`; `C92_converges`: contraction of the residual by 4/5 per pass for maps close to a linear one, accuracy of the result; `C92_simplex_partial`, `C92_roundtrip_partial`: linear simplices, points away from the barycentre; unit triangle in `double` with the default options as an example |
| C93 | `Verif/Float/EmbedModel.lean`: `referenceOrigins`, `referenceEmbeddings`, the normals, `geometry<codim>(i)`, `global`, `local`, `corner` of `AffineGeometry` for any coordinate type (over ℝ equal to the models of C20, C22 and C25, `origins_eq`, `embeddings_eq`, `normals_eq`, `ofJacobian_eq`) | `C93_embeddings`, `C93_normals` (values exact), `C93_corner` (bit for bit), `C93_global`, `C93_inside`, `C93_geometry` (the rows of each embedding have singular values at least 1, so the Cholesky decomposition never fails), `C93_straight`, `C93_center`, `C93_volume`; `C93_local_value`: `local` returns `1 - 2^-52` for the end of the slanted edge of the triangle, hence `C93_local_counterexample`; `C93_local_partial` (in `Verif/Float/InverseProps.lean`): the error of `local` after `global` is bounded by a multiple of the roundoff |
| C94 | the models of C89 and C93 (`rightInvA`, `Geometry.ofCorners`, `global`, `local_`); specification: the exact edges `edge c` of the corners, `RowsWithin`, `IndependentBy` | `Verif/Float/Inverse*.lean`: residual of the computed inverse of the triangular factor (`invL_residual`), the backward error of the Cholesky decomposition of C89 carried through `invL`, `LTL`, `ATBT` (`Fac.inverts`) and the closed formula for 2x2 (`plane_inverts`), hence `rightInv_inverts`; `C94_local`, `C94_inverse`, `C94_roundtrip`, `C94_global_local`, and `C94_double` for the limits of `double` |
| C95 | the models of C41-C44; specification: squared edge lengths `len2`, `Similar`, corners of `geometry()` (`ElementCorners`) | `Verif/Refine/ShapeLemmas.lean`, `ShapeProps.lean`: an edge is the image of a segment of a Kuhn path, a 0/1-vector; taking differences of neighbouring entries leaves -1, 0, 1, partial sums of these count runs (`card_apart`); `C95_simplex_edges`, `C95_simplex_length`, `C95_simplex_shapes`, `C95_triangle`, `C95_tetrahedron_counterexample` (similarity fails in dimension three), `C95_cube`, `C95_prism`, `C95_pyramid`, `C95_cube_wide`, `C95_cubes` |
| C96 | the models of C28-C37; specification: `Similarity` (s, Q, b with QᵀQ = 1), `moved` (same topology and tolerance, moved corners), `movedMap` (mapping followed by the motion), `Clear` (where constants are reproduced), `SameResult` (used components of the result of `local`) | `Verif/Motion/Lemmas.lean`: multilinear map and Jacobian are linear in the corners (`ML_sum`, `MLd_sum`) and reproduce constants away from tips; Gram matrix is multiplied by s² (`aat_moved`), pseudo-inverse by Q/s (`pinv_moved`). `Props.lean`: `C96_global`, `C96_jacobian`, `C96_integrationElement`, `C96_jacobianInverseTransposed`, `C96_volume`, `C96_affine_isometry`, `C96_affine_smaller`, `C96_affine_exact`, `C96_local_partial` (induction on the passes), `C96_affineGeometry`, `C96_gaussNewton` (through the paths of C36), `C96_mapped_partial`; false in general: `C96_local_small`, `C96_local_counterexample`, `C96_mapped_small`, `C96_mapped_counterexample` |
| C97 | the models of C17-C21 and C31-C34; specification (`Verif/Neighbour/Spec.lean`): `affMap`, `Symmetry` (affine map, permutes the corners), `renumbered` (same geometry, corners in another order) | `Verif/Neighbour/Lemmas.lean`: functions affine in each coordinate are determined by the corners of the cube (`multiAff_eq`, induction on the dimension), symmetries of cubes have one entry per row and column (`cube_row`, `cube_column`), simplices through exactness for affine values, prism and pyramid by the complete table of their 12 and 8 symmetries (`prism_table`, `pyr_table`, kernel decision over all numberings), symmetries have finite order so the determinant is ±1 (`symmetry_det`), the points away from the tips are open (`away_eventually`). `Props.lean`: `C97_global`, `C97_corner`, `C97_domain`, `C97_det`, `C97_jacobian` (chain rule and uniqueness of derivatives), `C97_integrationElement`, `C97_jacobianInverseTransposed`, `C97_center`, `C97_volume`, `C97_simplex_any`, `C97_quadrilateral`, `C97_neighbours` (with C57), `C97_twist_counterexample`, `C97_affine_counterexample` |
| C98 | `Verif/Refine/IntModel.lean`: the integer functions of simplex.cc, the triangulations and hcube.cc once more, with checked `int` (overflow: `none`) and wrapping `unsigned`; `power`, `factorial`, `binomial` of dune-common as loops | `IntLemmas.lean`: every intermediate result is bounded by `(n+1)…(n+d)` (`Fits`), loop by loop refinement of the natural number model (`pointIndex_eq'`, `incLoop_eq`, `search_eq'`, `pathLoop_eq`, …). `IntProps.lean`: `C98_simplex_vertices`, `C98_simplex_elements_partial`, `C98_triangulation_vertices`, `C98_triangulation_elements`, `C98_cube_loops_partial`, `C98_cube_indices`, `C98_cube_negative`, `C98_levels_counterexample` (all levels `l` and dimensions `d` with `l d ≥ 32` resp. `31`, refutes `C98_full`) |
| C99 | `Verif/Hull/Props.lean`: `cornerSet`, `TipsClear` (more than the tolerance away from every tip), on the model of C31 | `Lemmas.lean`: `shape`, non-negative weights by induction over the topology. `C99_shape_functions`, `C99_hull_partial`, `C99_hull_cube`, `C99_hull_closed` (distance at most `tol · C`), `C99_box`, `C99_diameter`, `C99_affine`; `C99_quadrilateral` (`CornerProps.lean`; intermediate value theorem along horizontal lines); `C99_tip`, `C99_hull_counterexample` (triangle away from the origin, for every tolerance) |
| C100 | `Verif/Hull/CornerProps.lean`: `jacDet`, `edgeDet`, `EdgeChoice`, on the model of C32 | `CornerLemmas.lean`: determinants of pyramids (bilinear in the scaled coordinates), of prisms (affine in the triangle, quadratic in the height). `CubeLemmas.lean`: rows of the Jacobian are averages of edges, `det_average` (multilinearity), path one coordinate after the other. `C100_regular`, `C100_quadrilateral(_bounds/_injective)`, `C100_pyramid(_bounds/_injective)`, `C100_prism` (equivalence), `C100_cube(_bounds/_injective)` (every dimension), `C100_affine`, `C100_corners_partial`; `C100_hexahedron_counterexample`, `C100_prism_counterexample`, `C100_corners_counterexample` (refutes `C100_corners_full`) |
| C101 | `Verif/Mapped/CopyModel.lean`: objects with addresses, `dMapping_` an own copy or a reference to the `mapping_` of an object; memberwise copy and assignment; undefined behaviour is `none` | Refinement of a value semantics (`specRun`) for all programs: `C101_global`, `C101_value` (derivatives that own their data), `C101_partial` (references, no object destroyed or assigned to while a copy lives); `C101_dangling`, `C101_stale` (any state), `C101_returned`, `C101_vector` (any length), `C101_counterexample` (mapping of test-mappedgeometry.cc, refutes `C101_full`) |
| C102 | `Verif/Thread/Model.lean`: programs of reads and writes of memory locations, small steps of any number of threads in any order, data race = two accesses of different threads to one location, one a write (no synchronisation, so nothing is ordered); `Verif/Thread/Cached.lean`, `Verif/Thread/Lfe.lean`: the const functions of both classes as such programs, shown to agree with the sequential models when run alone | `C102_iff`, `C102_lfe_iff` (exact characterisation of freedom from races), `C102_answers`, `C102_partial`, `C102_nonaffine`, `C102_warm`, `C102_lfe_warm` (right answers), `C102_race`, `C102_lfe_race` (every finishing execution races), `C102_half_warm`, `C102_counterexample` (refutes `C102_full`) |
| C103 | composition of the models of `local` (AffineGeometry, AxisAlignedCubeGeometry, MultiLinearGeometry) and `checkInside`; `Verif/Locate/` | `C103_tolerance` (what 64 epsilon mean, all types), `C103_affine_found`, `C103_affine_closest`, `C103_affine_iff`, `C103_affine_sound`, `C103_axis_aligned` (exact bounds), `C103_multilinear_affine`, `C103_quadrilateral_partial` (the error of the last Newton step is a multiple of the square of the correction, bounded towards the outside by convexity), `C103_quadrilateral_sound`, `C103_quadrilateral_sound_affine`, `C103_surface_counterexample`, `C103_counterexample` (refutes `C103_full`) |
| C104 | composition of the models of the reference normals and embeddings (`RefGeom`), `rightInvA` (`MatHelp`), AffineGeometry and MultiLinearGeometry; specification `mappedNormal`, `IsFacet`, `tangents`; `Verif/Normal/` | `C104_direction` (for whatever Jacobian the class passes to `rightInvA`, also MappedGeometry), `C104_affine`, `C104_affine_length`, `C104_affine_closed`, `C104_facet_jacobian` (chain rule for facets, any dimension of the world), `C104_multilinear`, `C104_neighbours`, `C104_neighbours_cube` (all points); the lengths by block determinants (`facet_gram`), the facet Jacobian by uniqueness of derivatives along lines (`MLd_facet`) |
| C105 | the models of `size`, `subTopologyId`, `subTopologyNumbering`, SubEntityInfo (`RefTopo`) and of the normals (`RefGeom`); the specification is the recursion of the documentation, `docSize`, `docS`, `docK` (counted from 0; the page writes `T` for the base `t` on some right hand sides and confuses `s_(c-1)` with `s_(c+1)` in the ranges of `i`, read here as in its section on subtopologies), and the closed forms in the statements; `Verif/Numbering/` | `C105_documented`, `C105_ascending`, `C105_simplex`, `C105_simplex_inverse`, `C105_simplex_facet`, `C105_cube`, `C105_cube_facet`, `C105_vertices_not_unique`; by induction over faces (`comp_lt`, `vlist_…`), simplices by the combinatorial number system, cubes by the digits of a face |
| C106 | the same functions once more, at the level of memory cells and of `unsigned int` (`Verif/Buffer/Model.lean`): an array is an allocation of `cap` cells, a pointer the number of a cell, access outside or reading an unwritten cell is `none`, arithmetic is modulo 2^32; `std::bitset::operator[]` beyond the number of bits and conversions to `int` beyond its range are `none` too.  Specification: `Filled` (the cells from `p` on contain the list, all others are unchanged); `Verif/Buffer/` | `C106_numbering`, `C106_size`, `C106_subTopologyId`, `C106_corners`, `C106_origins`, `C106_embeddings`, `C106_normals` (dimension up to 21), `C106_partial` (sub-entity information, dimension up to 20): refinement of the list models by loop invariants over the written prefix, bounds from C10.  Full statement `C106_full` (all dimensions up to 31) refuted by `C106_offsets_counterexample` (dimension 21: `offset_` wraps), `C106_size_counterexample` (dimension 22: `size` wraps) |
| C107 | composition of the rules (`Quad.Model`), the sub-entity types, embeddings and normals (`RefGeom`) and `AffineGeometry`; specification: `Rules` (what `rule` delivers for the element and each facet), `facetQuad`, `partialDeriv`; `Verif/Quad/DiscreteDivergence*.lean` | `C107_available` (`maxOrder` is the table's order minus the dimension of the base of the last cone, which does not grow on sub-entities), `C107_divergence` (C49/C50 for element and facets, C71 between them; explicit bound `tabTol * (p + 2 d d^p) * coeffSum`, from entries 0, 1, -1 of embeddings and normals and submultiplicativity of the coefficient sum), `C107_parts`, `C107_closed`, `C107_affine` (chain rule) |
| C108 | composition of the rules with the symmetries of C97; specification: `Invariant` (a pairing, as `Multiset.Rel`), `Symmetry`, `affMap`; `Verif/Quad/{Symmetric,CubeSymmetric,SimplexSymmetric,SymmetricProps,PrismSymmetric,PrismSymmetricProps,PyramidSymmetricProps}.lean` | `C108_cube_partial` (GaussLegendre and GaussLobatto, all dimensions up to 30, all orders: the 1d tables are symmetric up to 10^-81, checked over the whole tables in the kernel; the rule on a cube is the product over all multi-indices; every symmetry of a cube is a signed permutation), `C108_triangle_partial` (orders ≤ 12 except 6, 7), `C108_triangle_rotation_partial` (orders 6, 7, rotations), `C108_tetrahedron_partial` (orders ≤ 5); `C108_swap_counterexample` (orders 6, 7 on the triangle: exchanging two corners moves a point more than 1/100 away from all points), `C108_counterexample`. `C108_prism_partial` (orders ≤ 12 except 6, 7; a symmetry of the prism is one of the triangle and possibly a reflection), `C108_pyramid_partial` (GaussLegendre and GaussLobatto, all orders; a symmetry of the pyramid is one of the square); `C108_lobatto_counterexample` (`ConicalSymmetricProps.lean`: no Gauss-Lobatto rule on the triangle, of any order, is invariant under exchanging corners 0 and 2), `C108_gauss_counterexample` (the same for every Gauss-Legendre rule of order 13 to 60: a point near corner 1 is mapped nearer to the base than any point of the rule, checked over the whole table). Together the orders with a symmetric rule on the triangle are those up to 12 without 6 and 7. `C108_radau_counterexample` (`RadauSymmetricProps.lean`: no Gauss-Radau rule on the line is symmetric, by construction of these families). Not covered: conical product rules on tetrahedra, prisms of order above 12 |
| C109 | composition of `VertexOrder.Model` with the sub-entity numbering, embeddings and `MultiLinearGeometry`; specification: `VertexIds`, `Elem.Valid`, `Symmetry`, `affMap`; `Verif/VertexOrder/{Chart,NeighbourProps}.lean` | `C109_reduced`, `C109_canonical` (count of smaller ids depends on the set only), `C109_chart` (a symmetry permutes barycentric coordinates, so the two renumberings factor through the gluing map of C97), `C109_edge`. `C109_quadrilateral_counterexample` shows why the last clause is for simplices: the reduced order of a quadrilateral need not be a symmetry |
| C110 | composition of the five refinement models, the run-time selection table (C45), reference embeddings and `MultiLinearGeometry.global`; specification: `LatticePoint`, `Part` (convex hull of the corners of the sub-entity), `IsVertex`; `Verif/Refine/{GlueLemmas,GlueFace,GlueProps}.lean` | `C110_vertices` (vertex iterators against the lattice), `C110_trace` (embeddings of faces preserve and reflect multiples of 1/n, induction on faces), `C110_restriction`, `C110_symmetric` (symmetries have integer coefficients), `C110_neighbours` (restriction of the map to the face at lattice points, including the tips of pyramids where `global` has a separate branch), `C110_simplex_face`. `C110_elements_counterexample`: the elements of triangulated hexahedra need not match, the diagonal of a common quadrilateral depends on the numbering |
| C111 | the two loops as a program on the heap model of the virtual iterators (C45) with each of the five implementations behind it, including the copy of the index vector; specification: `Valid` (indices, lattice points, corners, covering by convex hulls of the listed corners, disjoint interiors, nothing leaked); `Verif/Refine/{MeshModel,MeshLemmas,MeshProps}.lean` | `C111_mesh` (loop invariant over the iterator sequence; for simplices and triangulations the barycentric weights permuted by the map from `vertexIndices` to corners, for cubes products of one-dimensional weights), `C111_unsupported`, `C111_distinct_partial`; `C111_distinct_counterexample`: triangulations number the vertices of every Kuhn simplex separately |
| C112 | two loops over quadrature points (`Verif/Flux/Model.lean`: `surfaceDensity`, `fluxDensity`, `quadrature`), composed of the rules, `MultiLinearGeometry`, embeddings and normals; specification: `Common`, `Opposite`, `Smooth`, `Invariant`, `absWeights`; `Verif/Flux/Props.lean` | `C112_surface` (C97 and the pairing of C108, bound `N ε B + W ω`), `C112_flux` (with C104 for the normals), `C112_cube` (all orders), `C112_flux_cube` (`CubeProps.lean`: fluxes between cubes, both rule types, all orders, points on the facet boundary allowed), `C112_triangle_partial` (orders up to 12 except 6, 7, 11); `C112_counterexample`: the triangle with order 7, a continuous function for which one numbering gives 0 and the other more than 1/100 |
| C113 | loop of a caller (`Verif/Image/Model.lean`: `part`, `mapped`), composed of `writeMesh` (C111) and `MultiLinearGeometry`; specification: `Restriction`, `TipsClear`; `Verif/Image/Props.lean` | `C113_cube`, `C113_cube_integrationElement`, `C113_image_cube` (cubes into cubes: every multilinear map restricted to a box is multilinear, induction over the dimension), `C113_simplex` (all corner positions; lattice points are hit exactly although `global` has a tolerance), `C113_affine_partial` (all implementations, affine corners), `C113_integrationElement`; `C113_counterexample`: a square with corner values of `x y`, split into triangles |
| C114 | loop of a caller (`Verif/Image/Model.lean`: `subVolume`) over the mapped sub-elements of C113; specification: Lebesgue integrals over `refSet`, `volume()` of the whole element | `Verif/Image/Integral.lean` (the elements of the mesh overlap in null sets, so integrals split; change of variables per element), `Verif/Image/VolumeProps.lean`: `C114_integral` (all implementations, all integrable functions), `C114_affine` (all implementations, affine corners), `C114_quadrilateral` (planar quadrilaterals into quadrilaterals, not affine), `C114_cube_converges`, `C114_cube_measure` (cubes of any dimension: the sum converges to the integral of the integration element and to the measure of the image); `C114_counterexample`: a hexahedron (the frustum of C75) |
| C115 | loops of a caller over a rule (`Verif/Quad/MassModel.lean`: `massMatrix`, `stiffnessMatrix`); specification: `Matrix.PosDef`, `Matrix.PosSemidef` and linear independence of Mathlib, Lebesgue integrals | `Verif/Quad/MassLemmas.lean` (tensor and conical products of definite rules with enough points; slices of polynomials), `MassTab.lean` and `MassRules.lean` (the tabulated rules of triangles, tetrahedra and prisms may have negative weights: integer inverses of the Gram matrices, checked by the kernel, bound the coefficients by the integral of the square, which exceeds the error of the tables), `MassForms.lean`, `MassProps.lean`: `C115_determined`, `C115_mass`, `C115_entries`, `C115_stiffness` (all rules, affine geometries), `C115_cube` (degree k in every variable on cubes, any positive integration element), `C115_partial` (arbitrary functions and integration elements, all rules but Gauss-Legendre of order 3); `C115_counterexample`: order 3 on the triangle |
| C116 | `rule` on cubes and the loop `massMatrix`; specification: the Lagrange polynomials are characterised by values and degrees, `pointsPerLine` (usual numbers of points of the one-dimensional rules) | `Verif/Quad/Nodal.lean`: the points form a grid `S^d`, each point once (induction over the tensor product, distinctness of the tabulated points, number of points of each row); Lagrange polynomials of a grid. `Verif/Quad/NodalProps.lean`: `C116_unisolvent`, `C116_diagonal`, `C116_lumped` |
| C117 | `rule` on cubes and on the types of their sub-entities, `referenceEmbeddings`; specification `SameNodes` compares positions | `Verif/Quad/FacetNodes.lean`: embeddings of sub-entities of cubes fix some coordinates to 0 or 1 and copy the others (induction over faces); end points of the table and the gap to the other nodes checked by the kernel. `Verif/Quad/FacetNodesProps.lean`: `C117_near_partial` (all orders, up to 1e-99), `C117_partial` (exactly, orders 0-9, 14, 15, 18, 19, 30, 31); `C117_counterexample`: order 10 |
| C118 | `MultiLinearGeometry::global`, `rule`, `referenceEmbeddings`, `subEntity`; specification: `Share` (corners of the common sub-entity agree up to a symmetry), `On`, `SamePositions` | `Verif/Flux/NodesLemmas.lean`: Lipschitz bound of multilinear maps on the unit cube, restriction to sub-entities of cubes without distance from tips. `Verif/Flux/NodesProps.lean`: `C118_nodes` chains C117 (points on the sub-entity), C108 (rule of the sub-entity is symmetric) and C97 (both geometries agree on it); `C118_exact` |
| C119 | `MultiLinearGeometry::global`, `jacobian`, `integrationElement` (model of C31, C32); specification: `TipsOk` (at every nested cone farther than the tolerance from the tip, or at the tip), `C119_closed_full` | `Verif/Tip/Lemmas.lean`: induction over the construction of the type; the not-far branch evaluates the base at the origin. `Verif/Tip/Props.lean`: `C119_closed_partial` (all `TipsOk` points), `C119_corners` (all corners), `C119_cone` (cones over cubes: every point), `C119_error` (closed element: at most `errC dim · tol · C`), `C119_closed_counterexample`. Missing: points closer than the tolerance to an inner tip, where the code disagrees |
| C120 | `Verif/Patch/Model.lean`: the assembly loop of a caller (`interpolant`, `gradient`, `stiffness`) over the models of `global`, `jacobianTransposed`, `jacobianInverseTransposed`, `integrationElement`; specification: `Affine`, `Regular`, `TipsOk` of C119 | `Verif/Patch/Props.lean`: linearity of the map in the corners (C96), constants by C119, pseudo-inverse by C26; `C120_linear`, `C120_value`, `C120_gradient`, `C120_partition`, `C120_stiffness`. Within the tolerance of a tip constants are not reproduced, see C99 and C119 |
| C121 | composition of the models of `rightInvA`, `jacobianTransposed`, `jacobianInverseTransposed`, normals and embeddings; specification: `contravariant`, `covariant`, `Near`, and `Common`, `Opposite` of C112 | `Verif/Piola/Props.lean`: `C121_product`, `C121_circulation`, `C121_flux` (pseudo-inverse of C26, any class), `C121_facet_flux` (with C104), `C121_normal_continuous` (with C104 for neighbours), `C121_tangential_continuous` (tangents of the facet seen from both sides, C97); `Verif/Piola/DivergenceProps.lean`: `C121_gradient` (chain rule), `C121_divergence` (Piola identity for the adjugate, sign of the determinant locally constant) |
| C122 | `MultiLinearGeometry::jacobianTransposed`, `integrationElement`, `jacobianInverseTransposed`, embeddings and numbering of the reference elements (models of C20, C13, C32); specification: `IsPart`, `worldTangents`, `Shared`, `C122_closed_full` | `Verif/Trace/Lemmas.lean`: `MLd_face`, induction over the face (no derivative is taken, so sub-entities made of tips are included). `Verif/Trace/Props.lean`: `C122_jacobian_partial`, `C122_measure`, `C122_circulation`, `C122_shared` (with C97), `C122_tangential_continuous`, `C122_closed_counterexample`. Missing: points within the tolerance of the boundary of the sub-entity (no restriction for cubes), where the code disagrees at tips |
| C123 | composition of the models of `QuadratureRules::rule` (C49), `MultiLinearGeometry` (C31, C32) and the reference elements (C20, C22); specification: `Regular`, `mapped`, `outflow`, and `Rules`, `facetQuad` of C107 | `Verif/Balance/Lemmas.lean`: degrees of the cofactors and of restrictions to facets in each variable. `Verif/Balance/Props.lean`: `C123_divergence` (Piola identity, C71 on the reference element, exactness of tensor rules in each variable C74), `C123_free_stream`, `C123_volume`; `Verif/Balance/AffineProps.lean`: `C123_affine` (affine elements of every shape: constant Jacobian at the points of the rules by C119, then C107), `C123_triangle` (the points of the triangle and line tables keep away from the tip, checked over the whole tables); `Verif/Balance/TetrahedronProps.lean`: `C123_tetrahedron` (the points keep away from the edge between the last two corners or are these corners, as for order 3) |
| C124 | `Verif/Balance/Model.lean`: loop over facets and elements (`facetFlux`, `meshFlux`) on the models of `QuadratureRules::rule`, `MultiLinearGeometry` and the reference elements; specification: `facets`, `Cubes`, `Glued`, `Conforming` | `Verif/Balance/MeshProps.lean`: `C124_conservation` (facet by facet from the two-sided result on cubes, then induction over the loops and a pairing argument over the inner facets); example: two squares in uniform flow; `Verif/Balance/SimplexMeshProps.lean`: `C124_simplices` (meshes of triangles and quadrilaterals in the plane, and of tetrahedra for the orders whose triangle rule is symmetric and has inner points: the points keep away from the boundary, checked over the whole tables, so that the renumbered points still pass the inside test) |
| C125 | loops over the elements (`elementIntegral`, `meshIntegral`) and over the facets (`facetFlux`) in `Verif/Balance/Model.lean`; specification: `polyField`, `polyDiv`, `Solid`, `Conforming`, `Transformed` (the values whose coefficients bound the error of the tables) | `Verif/Balance/GlobalProps.lean`: `C125_mesh` (C123 for each element, connected to the executable loops, then C124 for the inner facets), `C125_solenoidal`, `C125_volume`; example: two squares and the field `(c, y)`; `Verif/Balance/SimplexBalanceProps.lean`: `C125_simplices` (meshes of triangles and of tetrahedra with the rules given by tables: C123 for each element, C124 for the inner facets), `C125_simplices_solenoidal`, `C125_simplices_volume`; example: a square cut into two triangles whose diagonal is numbered in opposite directions |
| C52 | `Verif/Quad/Composite`: constructor loop over the simplex refinement's iterators with the cached multilinear geometry of each sub-element | closed form of the points; tiling of the simplex (C60) and change of variables for Lebesgue integrals give exactness, error bounds and convergence |
| C53 | `Verif/RefElem`: constructor loop, lookup, accessors, handle comparison | array indexed by raw id; equal types with different raw id give different objects (counterexample) that answer all queries alike |
| C54 | volume loops with all options | order range analysis |

Status and exact theorem names per property: `MANIFEST.json`.

## Where code and property disagree

Each entry names the theorem that proves the disagreement in the model.

* C02, C03, C05–C07 (`none` type): `==` ignores the dimension, `isVertex`/`isLine` ignore the none flag, dispatch
  runs the simplex of the dimension.
* C19 `C19_counterexample`: the reference volume is wrong from dimension 14 on (32-bit product).
* C15: assigning a `SubEntityInfo` to itself reads freed memory.
* C25 `C25_spdDetA_counterexample`, `C25_detATA_counterexample`: documented as det(A), det(AᵀA); the square root is
  returned.  `leftInvA`/`rightInvA` return the square root too.
* C27 `C27_sqrtDetAAT_counterexample`: outside the hand-unrolled sizes a matrix without full row rank trips the
  assertion of `cholesky_L`.
* C29 `C29_corners_counterexample`: the corner constructor of AffineGeometry takes the Jacobian rows from corners
  1..dim, which is not affine data for the 3d cube and pyramid (corner 3 is (1,1,0)).
* C30 `C30_reversed_counterexample`: reversed bounds give a negative volume and integration element.
* C33 `C33_affine_counterexample`: `affine()` compares squared differences with a tolerance, so a quadrilateral that is
  not a parallelogram reports affine (for every tolerance below 1/4).  `C33_affine_partial` bounds the error.
* C34 `C34_counterexample`: on such a quadrilateral the cached class answers `global` with another point; on a
  degenerate segment `local` of the cached class returns an ordinary point where the base class reports failure.
* C35 `C35_terminates_counterexample`: the Newton loop of `local` has no iteration limit; for a convex kite and the
  target (0,-3) it runs forever.
* C36, `gaussNewton` (utility/gaussnewton.hh): an exact start value is reported as STAGNATION, since the line search only
  accepts strictly smaller residuals; `maxIt <= 0` or `maxInnerIt <= 0` return OK without any check; a least-squares
  minimiser with residual above the tolerance is reported as STAGNATION.  `C36_counterexample`, `C36_no_pass`,
  `C36_no_line_search`, `C36_exact_start`.
* C37, `MappedGeometry::local`: for the image of the reference centre (the start value) it always throws.
  `C37_local_center`, `C37_local_center_counterexample`.
* C54, `volume()`: the loop runs up to order `maxIt - 1 = 99` by default, beyond the highest available quadrature order.
  `C54_beyond`, `C54_counterexample`.
* C42 `C42_order_counterexample`: `vertexIndices()` of a simplex sub-element lists the corners along the Kuhn path (reversed
  for odd Kuhn index), `geometry()` lists them in the order of the reference simplex; the orders differ for the triangle with
  two intervals, element 2.  The sets agree (`C42_set_partial`).
* C43, C58 `C43_vertex_geometry_counterexample`: `geometry()` of a hypercube refinement vertex converts the index with base
  `nIntervals` instead of `nIntervals + 1`; for one interval all vertices sit at the origin.
* C44 `C44_element_end_counterexample`: with zero intervals a triangulation has no elements, but `eBegin() != eEnd()` and the
  increment trips the backend's assertion.
* C45 `C45_none_counterexample`: `buildRefinement` ignores the none flag and refines a none type as a simplex.
* C45 `C45_wrapper_counterexample`: `it = it` on a VirtualRefinement iterator deletes the backend and then clones it.
* C58 `C58_simplex_counterexample`, `C58_pyramid_counterexample`: `geometry()` of a simplex refinement vertex sits at the integer
  Kuhn lattice point, that of a pyramid vertex lacks the final coordinate transformation.
* C48 `C48_positive_counterexample`: the tabulated triangle rule of order 3 has a negative weight.  Cones over Gauss-Lobatto and
  Gauss-Radau-right rules have points of weight zero at the apex.
* C50 `C50_counterexample`, `C50_out_of_range`: `QuadratureRules::rule` indexes a vector of size `maxOrder + 1` with the requested
  order, so negative orders and orders above `maxOrder` are undefined behaviour; the documented exception is thrown only by the
  one dimensional factory, behind that access.  Without LAPACK `GaussJacobi_n_0` throws for orders above 60 although
  `maxOrder` is 127.
* C50 `C50_none_counterexample`: a request for a none type is answered with a rule of simplex type.
* C51 `C51_malformed_none_counterexample`: a none type with a nonzero topology id (which the constructors do not exclude) has
  the same cache slot as the plain none type although the two requests alone give different rules.
* C08 `C08_object_counterexample`: the storage of `TopologySingletonFactory` is indexed by the topology id, so the none type and
  the simplex share an entry.  `C08_reentrant_counterexample`: a factory that requests the object it is creating makes it twice
  and leaves a dangling pointer.
* C53 `C53_equal_counterexample`: `ReferenceElements::general` is indexed by the topology id, so that equal types may get
  reference elements that compare different.  `C53_none_counterexample`: for a none type it returns the simplex.
* C63 `C63_names_counterexample`: from dimension four on, some shapes have two topology ids that are printed as different
  `general(..)` names although the types are equal.
* C64 `C64_reads_counterexample`: `cube(40)` and `general(0, 40)` shift beyond the width of the integer, `simplex(300)` gives
  dimension 44 and `none(-1)` dimension 255.
* C65 `C65_hash_counterexample`: none types of different dimension compare equal but have different hashes.
* C67 `C67_arrays_counterexample`: `quadratureToNumpy` takes the address of the first coordinate of the first point, which does
  not exist for vertices or empty rules.  `C67_integrate_counterexample`: `_duneIntegrate` uses the unbound name `geometry`
  when its argument has no attribute `geometry`.
* C68 `C68_geometry_counterexample`: `registerMultiLinearGeometryType` defines the methods `if (!entry.second)`, where
  `registerQuadratureRule` tests `cls.second`: the first registration of a class leaves it without methods.
* C73 `C73_cube_counterexample`: in dimension four the triangulation of the cube (generic code in hcubetriangulation.cc) refines
  the tetrahedron shared by two Kuhn simplices in two different ways: with two intervals the elements do not meet in common
  faces.  `C73_index_split`: triangulations number the vertices for each Kuhn simplex on its own, so that vertices on common
  faces have several indices (in all dimensions).
* C75 `C75_multilinear_counterexample`: `MultiLinearGeometry::volume()` of a hexahedron that is not a parallelepiped is in general
  not the measure of its image (9/4 instead of 7/3 for a frustum).  The comment on `volume()` says so.
* C76 `C76_inverse_counterexample`: the hexahedron (u + vw, v - uw, w - (u + w)v/2) on [-1,1]³ has positive Jacobian determinant and is
  one-to-one, yet `local(corner(7))` returns (3/2, 1/2, 1/2), a pre-image outside the element, instead of (1, 1, 1).
* C78: in floating-point arithmetic `AffineGeometry` built from corners and `AxisAlignedCubeGeometry::global` do not reproduce
  the corners (the interval from -1 to 2^-60 ends in 0); `MultiLinearGeometry` does.
* C80: `checkGeometry` rejects regular geometries smaller than sqrt(eps) (absolute tolerance), and accepts a geometry whose
  Jacobian, integration element and volume are all wrong by the same factor (the Jacobian is never compared with `global`).
* C81: refining the elements of a refinement of the tetrahedron again does not give the finer refinement (the Kuhn subdivision of an element uses the element's own vertex order); `C81_twice_counterexample`.
* C82 `C82_volume_counterexample`: `volume()` of a frustum is 9/4 as `MultiLinearGeometry` (one evaluation of the integration
  element) and 7/3 as `LocalFiniteElementGeometry` with the same map.  `C82_flag_counterexample`: for every eps < 1/64 there is a
  square bent by 2 sqrt(eps) that is affine for `MultiLinearGeometry` (squared distance, tolerance 16 eps) but not for
  `LocalFiniteElementGeometry` (tolerance sqrt(eps)); `compareGeometries` fails on this pair although the maps are equal.
* C83: the end points of the Gauss-Lobatto and Gauss-Radau tables are not exact: e.g. gausslobattoquadrature.hh:147 (order 10) has `2.9e-121`
  instead of 0, others have `1 - 1e-100` instead of 1 (the latter is 1 in `double`, the former is not 0). `C83_ends_counterexample`,
  `C83_ends_double_counterexample`.
* C83: the Gauss-Legendre tables for simplices contain boundary points (tetrahedron order 3, triangle order 11), although the documentation of
  the type says that end points are not included (it says so for dimension one only). `C83_interior_counterexample`.
* C83: Gauss-Lobatto and right Gauss-Radau rules on simplices and pyramids contain the apex several times (with weight zero).
  `C83_different_counterexample`.
* C84 `C84_following_counterexample`: a `CachedMultiLinearGeometry` that refers to its corners keeps the Jacobian when
  the corners are moved but takes the first corner from the array, so `global` belongs to neither element.  The class
  documentation forbids this use; `MultiLinearGeometry` copes with it (`C84_following`).
* C86 `C86_order_counterexample`: `quadpy.rule(type, (order, method))` ignores the order; the rule has the degree of the
  scheme named by the method. `C86_result_counterexample`: without method and with order 0 or None it returns a module of
  the package instead of a rule. `C86_supported_counterexample`: the none type of dimension one is treated as a line.
  `C86_rules_counterexample`: `rules(methods)` catches the `AttributeError` for a misspelt method and reports a
  `KeyError`. (The message for pyramids says "prism".)
* C87: the arrays of the triangle, tetrahedron and prism rules (simplexquadrature.hh:763-765, 1041-1042, prismquadrature.hh) are arrays of `double` for every number type. With `long double` or `Float128` these rules have the accuracy of `double`: the weights of the triangle rule of order two add up to 1/2 - 2^-55 (`C87_volume_counterexample`), more than `size * epsilon` away from the volume. For number types that cannot be built from a string (`long double`) the same holds for the one dimensional tables (numberfromstring.hh:18-25).
* C88: `geometry()` of an element of a refined simplex and `coords()` of the vertices it lists differ in the last bit (triangle, three
  intervals, `double`: 1 - 2/3 and 1/3).  The elements of the triangulated 3D cube that belong to different Kuhn simplices
  give different numbers for a common corner.  `hcube.cc` divides in `double` whatever the coordinate type is, so `long double`
  vertices have the accuracy of `double`.
* C89: an `AffineGeometry` cannot be constructed for the triangle (0,0,0), (1,0,0), (1,2^-27,0) in `double`: `rightInvA` forms the
  Gram matrix of the edges, which is singular after rounding, and an assertion of the Cholesky factorisation fails (with
  NDEBUG the inverse is infinite).  `sqrtDetAAT` has a formula of its own for this case and computes the integration element
  accurately.  In the plane the determinant of a thin triangle can vanish after rounding and is divided by.
* C90: `MultiLinearGeometry::local` does not end for nicely shaped elements far away from the origin: the loop
  (multilineargeometry.hh:318-332) has no limit of passes, and the tolerance `16 * epsilon` for the square of the correction is absolute,
  while the rounding errors of `global( x ) - globalCoord` grow with the distance from the origin.  Unit-size quadrilaterals at
  `2^28` (`double`) and `2^12` (`float`).  `C90_double_counterexample`, `C90_single_counterexample`.
* C92: the same as C36 in floating-point arithmetic: for every map, the image of the computed centre of the reference element makes
  `MappedGeometry::local` and `LocalFiniteElementGeometry::local` throw, although the centre is the exact answer.
  `C92_center_throws`, `C92_local_counterexample`.
* C93: `geometry<1>(2).local(geometry<1>(2).corner(1))` of the triangle is `1 - 2^-52` (`1 - 2^-24` in `float`) instead of 1: the
  inverse of the squared length 2 is computed as the square of the rounded `1/sqrt(2)` (`C93_local_counterexample`).  Corners
  themselves are exact.
* C96: `MultiLinearGeometry::affine()` compares a squared length with an absolute tolerance (multilineargeometry.hh:926), so curved
  elements of size `s`, `2 s² < 16 epsilon` (4e-8 for `double`, 40 nm in metres), count as affine and `local` makes a single step:
  `(9/8, 9/8)` for a corner of the quadrilateral `s (0,0), s (1,0), s (0,1), s (2,2)` (`C96_local_small`).  In the same way the
  absolute tolerance of `gaussNewton` accepts wrong points of small mapped elements (`C96_mapped_small`).
* `affine()` of `MultiLinearGeometry` (multilineargeometry.hh:905-932) depends on the numbering of the corners: for a unit cube with one corner moved by δ, δ² < tolerance ≤ 2δ², the answer is true if the moved corner has the number 7 and false if it has the number 4 (`C97_affine_counterexample`). With CachedMultiLinearGeometry the same hexahedron is then evaluated by two different formulas.
* C98: `refinementLevels(l)` accepts every `l < 31`, but `nElements` of refined cubes is computed modulo `2^32` (hcube.cc:130-139): for `l d ≥ 32`, e.g. 11 levels of a
  hexahedron or 16 of a square, it is 0 and the loop over the elements does nothing; for simplices (simplex.cc:415-421) the count overflows `int`.  Nothing is reported.
* C99: within the tolerance of the tip of a simplex or pyramid `global` drops the weight of the base (multilineargeometry.hh:768-772),
  so the image of a point of the reference element lies outside the convex hull of the corners, by up to tolerance times the largest
  coordinate (`C99_tip`, `C99_hull_closed`).
* C100: hexahedra and prisms whose Jacobian determinant is one at all corners can be degenerate inside: for the unit cube with the top
  turned by 180 degrees `volume()` is 0 and `jacobianInverseTransposed` fails half way up (`C100_hexahedron_counterexample`). Nothing in
  the code is wrong here, it shows that a check of the corners is not enough.
* C101: the constructor of `MappedGeometry` stores `derivative(*mapping_)` (mappedgeometry.hh:127). If that function object refers to the
  mapping, as for both mappings in the tests (test-mappedgeometry.cc:40, localfiniteelements.hh:241), a copy of the geometry refers to the
  original: after the original is gone `jacobian()` of the copy is undefined behaviour (`C101_returned`, `C101_vector`).
* C102: `CachedMultiLinearGeometry::integrationElement`, `volume`, `jacobianInverseTransposed`, `jacobianInverse` and
  `LocalFiniteElementGeometry::affine`, `volume` are const but write `mutable` members without synchronisation. Two threads that
  share a geometry have a data race in every execution, even if the second one only calls `global()`: `affine_` is a bit-field
  next to the flags that are written (`C102_race`, `C102_lfe_race`).
* C103: a quadrilateral whose corners deviate from a parallelogram by between 272 epsilon and the square root of 16 epsilon
  (absolute) reports affine, so `local` takes a single step; `checkInside(local(corner(3)))` is then false
  (`C103_counterexample`).  On surfaces `checkInside(local(y))` is true for points at any distance
  (`C103_surface_counterexample`).
* C106: `SubEntityInfo::offset_` is `unsigned int`; the cube of dimension 21 has 3^21 > 2^32 sub-entities, so the
  offsets wrap and the array is too short; in dimension 22 the count of sub-entities of one codimension wraps.
  Without practical importance, but nothing in the code checks it.
* C108: the rule delivered on the triangle for orders 6 and 7 (`simplexquadrature.hh`, 12 points, order 7) is invariant under rotations only. Two tetrahedra which number the corners of their common triangle in opposite orientation evaluate at different points; all other tabulated rules on triangles and tetrahedra are invariant under all symmetries.
* C110: `hcubetriangulation.cc` splits every quadrilateral of a hexahedron by the diagonal from its smallest to its largest corner.
  Two hexahedra that number a common quadrilateral differently (quarter turn) are refined into tetrahedra that do not match there,
  although their vertices do (`C110_elements_counterexample`).
* C111: the triangulations of cubes, prisms and pyramids number the vertices of every Kuhn simplex separately
  (hcubetriangulation.cc:107, 231), so common vertices are written once for every simplex, with different indices: the square split
  into two triangles has six vertices (`C111_distinct_counterexample`). A function written with these vertices is not continuous
  by construction.
* C108: the Gauss-Lobatto rules on the triangle are conical products for every order. Corner 0 carries a weight of at least 1/90000 and the points collapsed to corner 2 carry none, so exchanging these corners changes the rule (`C108_lobatto_counterexample`). The Gauss-Legendre rules of order above 12 on the triangle are conical products too and not symmetric (`C108_gauss_counterexample`).
* C112: consequence of C108. With quadrature of order 6 or 7 two tetrahedra, prisms or pyramids that number a common triangle in
  opposite orientation compute different fluxes through it, so a scheme that computes fluxes element by element is not conservative
  (`C112_counterexample`). With orders 5 and 8 it is.
* C113: splitting a cube, prism or pyramid into simplices and mapping only the vertices changes the geometry unless the element is
  affine: the triangles of a square with bilinear geometry do not lie on its surface (`C113_counterexample`). Subdividing into cubes
  keeps the geometry exactly (`C113_cube`).
* C114: `volume()` of a `MultiLinearGeometry` is a midpoint rule (C75). For a hexahedron that is not affine the volumes of the
  sub-elements of a refinement do not add up to `volume()` of the element; they converge to the true volume instead
  (`C114_counterexample`, `C114_cube_measure`). The comment in the source says that `volume()` is wrong for nonlinear maps.
* C115: the Gauss-Legendre rule of order 3 of the triangle has a negative weight at the centre, so the mass matrix of
  the function `(5x-1)(5y-1)` computed with it is negative (`C115_counterexample`). For polynomials of at most half the order
  it is nevertheless positive definite on affine geometries (`C115_mass`).
* C117: the Gauss-Lobatto rule of order 10 of the interval has no point at the vertex 0, since the table contains 2.9e-121
  (`C117_counterexample`); likewise orders 11-13, 16, 17 and 20-29 miss an end point, by less than 1e-99 (`C117_near_partial`).
* C119: within the tolerance of an edge between the last two corners the last row of the Jacobian of a tetrahedron is computed with a
  value of `global` that lacks the weight of the base (multilineargeometry.hh:863 calls :766-771).  The unit tetrahedron moved by
  `1 / tol` gets integration element 2 instead of 1 there (`C119_closed_counterexample`); the comment in hh:853-854 holds for the
  outermost tip only.
* C122: at the tip of a pyramid whose base is not a parallelogram the Jacobian is that of one corner of the base
  (multilineargeometry.hh:845-870).  The derivative along the edge from corner 3 to the tip, taken in the element, is `(-1,-1,1)`
  for the pyramid `kite`; the geometry of the edge gives `(-2,-2,1)` (`C122_closed_counterexample`).  The comment in the code (hh:830-856)
  knows that the Jacobian has no limit there.
* Not a property: the message of the exception for a wrong sub-entity index in `referenceElementSubEntity` prints `i` for `ii`.
