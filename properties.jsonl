{"id": "C01", "title": "GeometryType <-> Id round trip", "statement": "Converting any GeometryType to its integral Id and back yields a type with the same dim(), id() and isNone(); distinct triples have distinct Ids; and every Id produced this way fits 64 bits with the documented layout.", "quantifier": "all dimensions 0..255, all 32-bit topology ids, both values of the none flag", "why_tests_cant": "2^41 triples; tests instantiate a handful of named types", "anchors": ["dune/geometry/type.hh: GeometryType::operator Id, GeometryType(Id), toId"]}
{"id": "C02", "title": "GeometryType equality and ordering agree", "statement": "operator== is an equivalence, operator< is a strict weak order, and two types are equivalent under operator< exactly when they compare ==, so that std::map and comparison code never disagree; for the none type the documentation promises equality iff the dimensions coincide.", "quantifier": "all pairs/triples of GeometryType values", "why_tests_cant": "transitivity and agreement quantify over triples of 2^41 values; a disagreement for one combination of flag and dimension escapes sampling", "anchors": ["dune/geometry/type.hh: operator==, operator!=, operator<, BasicType::none documentation"]}
{"id": "C03", "title": "Type predicates recognise exactly the named shapes", "statement": "isSimplex/isCube/isTriangle/.../isHexahedron return true exactly on the types comparing equal to the corresponding GeometryTypes:: constant of that dimension; the named shapes of one dimension are mutually exclusive (simplex and cube coincide only in dimension 0 and 1).", "quantifier": "all types with valid topology id in every dimension", "why_tests_cant": "the number of ids grows as 2^dim", "anchors": ["dune/geometry/type.hh: isVertex..isCube, GeometryTypes::simplex, cube, none, vertex, line, triangle, quadrilateral, tetrahedron, pyramid, prism, hexahedron"]}
{"id": "C04", "title": "Conical and prismatic extension are inverted by taking the base", "statement": "For every regular type, the base of its conical (prismatic) extension is the type itself, the extension has dimension one higher, and reports isConical()/isPrismatic() accordingly; every valid type of positive dimension is one of the two extensions of its base.", "quantifier": "all regular types of every dimension", "why_tests_cant": "unbounded family of types", "anchors": ["dune/geometry/type.hh: conicalExtension, prismaticExtension, isConical, isPrismatic, Impl::getBase, Impl::isPrism, Impl::isPyramid, Impl::baseTopologyId"]}
{"id": "C05", "title": "Per-dimension type index is a bijection", "statement": "LocalGeometryTypeIndex::index maps the types of one dimension (up to ==, including none) bijectively onto 0..size(dim)-1 and LocalGeometryTypeIndex::type is its inverse.", "quantifier": "all dimensions, all types", "why_tests_cant": "the bijection must hold for 2^(dim-1)+1 types in every dimension", "anchors": ["dune/geometry/typeindex.hh: LocalGeometryTypeIndex::size, index, type"]}
{"id": "C06", "title": "Global type index is a bijection ordered by dimension", "statement": "GlobalGeometryTypeIndex::index maps all types of dimension <= maxdim (up to ==) bijectively onto 0..size(maxdim)-1, and types of lower dimension always get smaller indices.", "quantifier": "all maximal dimensions, all types", "why_tests_cant": "unbounded dimension; tests check a few dimensions", "anchors": ["dune/geometry/typeindex.hh: GlobalGeometryTypeIndex::offset, size, index"]}
{"id": "C07", "title": "Run-time to compile-time dispatch selects the right type", "statement": "Dispatching a run-time GeometryType of dimension dim to a compile-time id (IfGeometryType::apply, toGeometryTypeIdConstant, TopologyFactory::create) invokes the operation with a static type that compares equal to the run-time type.", "quantifier": "all dimensions and all run-time types of that dimension", "why_tests_cant": "2^dim template instantiations per dimension; tests cover dim<=3", "anchors": ["dune/geometry/type.hh: Impl::IfGeometryType::apply", "dune/geometry/typeindex.hh: Impl::toGeometryTypeIdConstant", "dune/geometry/topologyfactory.hh: TopologyFactory::create"]}
{"id": "C08", "title": "Singleton factory is a stable lazy map", "statement": "For every sequence of create() calls, calls with the same key and type id return the identical object, calls with different key or id return different objects, and the object returned is the one the underlying factory makes for that (type, key); the underlying factory is called at most once per (key, id).", "quantifier": "all call histories, all keys, all valid topology ids", "why_tests_cant": "quantifies over unbounded call histories", "anchors": ["dune/geometry/topologyfactory.hh: TopologySingletonFactory::create, getObject, find"]}
{"id": "C09", "title": "geometryTypeFromVertexCount inverts the corner count", "statement": "For every regular type of dimension <= 3 (2 and 3 being the interesting ones), geometryTypeFromVertexCount(dim, number of corners of its reference element) returns that type; any type it returns in dimension 2 and 3 has the requested number of corners, and unsupported counts and dimensions are reported by exception.", "quantifier": "all (dim, vertex count) pairs", "why_tests_cant": "unbounded inputs; correctness also for unsupported counts", "anchors": ["dune/geometry/utility/typefromvertexcount.hh: geometryTypeFromVertexCount", "dune/geometry/referenceelementimplementation.cc: size"]}
{"id": "C10", "title": "Sub-entity counts of simplices and cubes", "statement": "size(c) of the dim-simplex reference element is binomial(dim+1, c) for c<dim (dim+1 vertices at c=dim), of the dim-cube binomial(dim,c)*2^c; for every type size(c) is positive and bounded by the cube's count, so the fixed-capacity containment bitset is always large enough.", "quantifier": "all dimensions, codimensions and topology ids", "why_tests_cant": "reference elements are instantiated only for dim<=3 or 4 in tests", "anchors": ["dune/geometry/referenceelementimplementation.cc: size", "dune/geometry/referenceelementimplementation.hh: ReferenceElementImplementation::size, SubEntityInfo::maxSubEntityCount"]}
{"id": "C11", "title": "Euler-Poincare relation", "statement": "For every reference element the alternating sum over c of (-1)^(dim-c) size(c) equals 1 (boundary complex of a convex polytope plus its interior), i.e. the sub-entity counts are combinatorially consistent.", "quantifier": "all dimensions and all topology ids", "why_tests_cant": "infinite family", "anchors": ["dune/geometry/referenceelementimplementation.cc: size"]}
{"id": "C12", "title": "Sub-entity types are valid and consistent", "statement": "type(i,c) of every reference element is a regular type of dimension dim-c with valid topology id; type(0,0) is the element's own type; all sub-entities of a simplex are simplices and of a cube are cubes; the number of sub-sub-entities size(i,c,cc) equals size(cc-c) of the reference element of type(i,c), and is 0 for cc<c.", "quantifier": "all reference elements, all sub-entities", "why_tests_cant": "infinite family of reference elements", "anchors": ["dune/geometry/referenceelementimplementation.cc: subTopologyId, size", "dune/geometry/referenceelementimplementation.hh: type, size(int,int,int), SubEntityInfo::initialize"]}
{"id": "C13", "title": "Sub-entity numbering is a valid injective numbering", "statement": "For every sub-entity (i,c) and cc>=c, subEntity(i,c,ii,cc) for ii<size(i,c,cc) are pairwise different valid indices <size(cc); subEntity(i,c,0,c)=i; subEntity(0,0,ii,cc)=ii.", "quantifier": "all reference elements, all i,c,ii,cc", "why_tests_cant": "infinite family", "anchors": ["dune/geometry/referenceelementimplementation.cc: subTopologyNumbering", "dune/geometry/referenceelementimplementation.hh: subEntity, SubEntityInfo::number"]}
{"id": "C14", "title": "Sub-entity numbering is transitive", "statement": "Numbering the sub-entities of a sub-entity is consistent with numbering them in the element: for c<=cc<=ccc, subEntity(subEntity(i,c,ii,cc),cc,j,ccc) = subEntity(i,c, s, ccc) where s is the number of j inside the ii-th sub-entity in the reference element of type(i,c), and type(subEntity(i,c,ii,cc),cc) equals the type computed within type(i,c).", "quantifier": "all reference elements, all chains of sub-entities", "why_tests_cant": "infinite family; cubic number of index combinations", "anchors": ["dune/geometry/referenceelementimplementation.cc: subTopologyNumbering, subTopologyId", "dune/geometry/referenceelementimplementation.hh: subEntity"]}
{"id": "C15", "title": "Sub-entity ranges and containment lookup agree", "statement": "subEntities(i,c,cc) enumerates exactly subEntity(i,c,0..size(i,c,cc)-1,cc), its size() is size(i,c,cc), contains(k) is true iff k is enumerated, and copies of the stored topological information answer all queries identically.", "quantifier": "all reference elements, all i,c,cc,k", "why_tests_cant": "the lookup table is an independent data structure; agreement for all sub-entities", "anchors": ["dune/geometry/referenceelementimplementation.hh: subEntities, SubEntityInfo::numbers, SubEntityRange::contains, SubEntityInfo copy constructor and assignment"]}
{"id": "C16", "title": "Sub-entities are determined by their vertices", "statement": "Two sub-entities of the same codimension with the same vertex sets are the same, and (ii,cc) is a sub-entity of (i,c) iff its vertices are contained in those of (i,c).", "quantifier": "all reference elements, all pairs of sub-entities", "why_tests_cant": "infinite family", "anchors": ["dune/geometry/referenceelementimplementation.cc: subTopologyNumbering", "dune/geometry/referenceelementimplementation.hh: subEntity"]}
{"id": "C17", "title": "Reference corners", "statement": "The reference element has exactly size(dim) corners, pairwise distinct, all with coordinates 0 or 1 and all inside the element; simplex corners are the origin and the unit vectors, corner i of the cube has coordinate k equal to bit k of i.", "quantifier": "all dimensions and topology ids", "why_tests_cant": "infinite family", "anchors": ["dune/geometry/referenceelementimplementation.hh: Impl::referenceCorners, position"]}
{"id": "C18", "title": "checkInside decides membership in the convex hull of the corners", "statement": "With zero tolerance a point passes the inside check strictly/with closure exactly when it is a convex combination of the reference corners; points passing a smaller tolerance pass a larger one; every point of the closed element passes for every positive tolerance.", "quantifier": "all points, all dimensions, all topology ids, all tolerances", "why_tests_cant": "uncountably many points", "anchors": ["dune/geometry/referenceelementimplementation.hh: Impl::checkInside, ReferenceElementImplementation::checkInside"]}
{"id": "C19", "title": "Reference volume is the volume of the reference domain", "statement": "volume() equals the Lebesgue measure of the reference domain: 1 for cubes, 1/dim! for simplices, base volume (prism) resp. base volume/dim (pyramid) in general.", "quantifier": "all dimensions and topology ids", "why_tests_cant": "integer arithmetic may overflow for high dimensions; infinite family", "anchors": ["dune/geometry/referenceelementimplementation.cc: referenceVolumeInverse", "dune/geometry/referenceelementimplementation.hh: referenceVolume, volume"]}
{"id": "C20", "title": "Embeddings map reference sub-elements onto sub-entities", "statement": "geometry<c>(i) maps corner k of the reference element of type(i,c) to corner subEntity(i,c,k,dim) of the element; it is injective; the origin of each embedding equals corner 0 of the sub-entity; the geometry of codimension 0 is the identity.", "quantifier": "all reference elements, all sub-entities", "why_tests_cant": "infinite family", "anchors": ["dune/geometry/referenceelementimplementation.hh: Impl::referenceEmbeddings, Impl::referenceOrigins, CreateGeometries, geometry"]}
{"id": "C21", "title": "Barycenters", "statement": "position(i,c) is the arithmetic mean of the corners of sub-entity (i,c), lies inside the reference element, and for c=dim equals the corner itself.", "quantifier": "all reference elements, all sub-entities", "why_tests_cant": "infinite family", "anchors": ["dune/geometry/referenceelementimplementation.hh: initialize, position"]}
{"id": "C22", "title": "Integration outer normals", "statement": "integrationOuterNormal(f) is orthogonal to the face f, points out of the element, has length equal to the ratio of volumes of the face and of its reference element, and the normals weighted with reference face volumes sum to zero (closed surface).", "quantifier": "all reference elements, all faces", "why_tests_cant": "infinite family", "anchors": ["dune/geometry/referenceelementimplementation.hh: referenceIntegrationOuterNormals, integrationOuterNormal"]}
{"id": "C23", "title": "Vertex order reduction", "statement": "reduceOrder yields for every input sequence an output with the same relative order (equal iff equal, less iff less) and values in 0..n-1; it is a permutation of 0..n-1 when the ids are distinct; reducing twice is the same as reducing once; the vertex order reported for a sub-entity equals the reduction of the original ids of the vertices of that sub-entity.", "quantifier": "all id sequences, all element types, all sub-entities", "why_tests_cant": "unbounded sequences", "anchors": ["dune/geometry/generalvertexorder.hh: reduceOrder, GeneralVertexOrder, getReduced, iterator"]}
{"id": "C24", "title": "Cholesky factorisation", "statement": "cholesky_L succeeds on every symmetric positive definite matrix and then delivers a lower triangular L with positive diagonal and L L^T = A; whenever it reports success the factorisation identity holds.", "quantifier": "all dimensions, all symmetric matrices", "why_tests_cant": "continuum of matrices of unbounded size", "anchors": ["dune/geometry/utility/defaultmatrixhelper.hh: cholesky_L"]}
{"id": "C25", "title": "Triangular inverse and determinants", "statement": "invL inverts the lower triangular factor in place and returns its determinant; spdDetA/spdInvA/detATA return what their documentation/name promises for symmetric positive definite input.", "quantifier": "all dimensions, all invertible lower triangular / spd matrices", "why_tests_cant": "continuum of matrices", "anchors": ["dune/geometry/utility/defaultmatrixhelper.hh: invL, detL, invLx, spdDetA, spdInvA, detATA"]}
{"id": "C26", "title": "Pseudo inverses are one-sided inverses and give least-squares / minimum norm solutions", "statement": "rightInvA computes R with A R = I for every full row rank A (leftInvA: L A = I for full column rank), the solvers xTRightInvA and leftInvAx agree with multiplication by the corresponding inverse, and the result is the least-squares respectively minimum-norm solution.", "quantifier": "all sizes, all full rank matrices", "why_tests_cant": "continuum of matrices", "anchors": ["dune/geometry/utility/defaultmatrixhelper.hh: rightInvA, leftInvA, xTRightInvA, leftInvAx"]}
{"id": "C27", "title": "sqrtDetAAT special cases agree with the general formula", "statement": "sqrtDetAAT(A) equals sqrt(det(A A^T)) for every matrix, in each of the hand-unrolled 2x2, 3x3, 1x2, 2x3 and square cases as in the generic case.", "quantifier": "all matrices of the special sizes", "why_tests_cant": "continuum of matrices", "anchors": ["dune/geometry/utility/defaultmatrixhelper.hh: sqrtDetAAT"]}
{"id": "C28", "title": "AffineGeometry: local inverts global", "statement": "For a non-degenerate affine geometry local(global(x)) = x for every x, global(local(y)) is the orthogonal projection of y onto the image (hence = y for y in the image), center is the image of the reference barycentre, corners are the images of the reference corners.", "quantifier": "all affine maps with full rank, all points", "why_tests_cant": "continuum", "anchors": ["dune/geometry/affinegeometry.hh: AffineGeometry::global, local, corner, center"]}
{"id": "C29", "title": "AffineGeometry: jacobians, integration element and volume are consistent", "statement": "jacobian, jacobianTransposed and both inverses are transposes/one-sided inverses of each other, the integration element is sqrt(det(J^T J)) and volume = integration element * reference volume; constructing from corners and from a Jacobian describe the same map.", "quantifier": "all full rank affine maps", "why_tests_cant": "continuum", "anchors": ["dune/geometry/affinegeometry.hh: AffineGeometry constructors, integrationElement, volume, jacobian*, jacobianInverse*"]}
{"id": "C30", "title": "AxisAlignedCubeGeometry is the affine cube map", "statement": "global/local are inverse to each other on the cube, corner(i) = global(reference corner i), center = global of barycentre, and volume/jacobians agree with the affine map, for all lower/upper corners and all subsets of aligned axes.", "quantifier": "all boxes, all axis bitsets, all coordinates", "why_tests_cant": "continuum, and 2^coorddim axis sets", "anchors": ["dune/geometry/axisalignedcubegeometry.hh: AxisAlignedCubeGeometry"]}
{"id": "C31", "title": "MultiLinearGeometry interpolates its corners and reproduces affine maps", "statement": "global(reference corner i) = corner(i) for every topology; if the corners are the images of the reference corners under an affine map then global is that map everywhere (in particular constants are reproduced).", "quantifier": "all topologies of every dimension, all corners, all local points (pyramid apex excluded as limit)", "why_tests_cant": "continuum; infinite family of topologies", "anchors": ["dune/geometry/multilineargeometry.hh: MultiLinearGeometry::global"]}
{"id": "C32", "title": "MultiLinearGeometry jacobian is the derivative of global", "statement": "jacobianTransposed(x) is the (Frechet) derivative of global at x wherever the mapping is differentiable.", "quantifier": "all topologies, all corners, all interior local points", "why_tests_cant": "continuum", "anchors": ["dune/geometry/multilineargeometry.hh: MultiLinearGeometry::jacobianTransposed"]}
{"id": "C33", "title": "affine() is reported only for affine mappings", "statement": "If a MultiLinearGeometry reports affine() (in exact arithmetic) then its map is affine and the Jacobian it reports is the constant Jacobian of the map everywhere; simplices are always affine.", "quantifier": "all topologies, all corner sets", "why_tests_cant": "continuum", "anchors": ["dune/geometry/multilineargeometry.hh: MultiLinearGeometry::affine"]}
{"id": "C34", "title": "Cached multi-linear geometry answers like the uncached one", "statement": "For every sequence of queries, CachedMultiLinearGeometry returns the same results as MultiLinearGeometry on the same corners: caching never returns stale or differing values.", "quantifier": "all query histories, all corners", "why_tests_cant": "unbounded histories interact with lazily filled fields", "anchors": ["dune/geometry/multilineargeometry.hh: CachedMultiLinearGeometry"]}
{"id": "C35", "title": "Newton inversion in MultiLinearGeometry::local", "statement": "If local(y) returns x without throwing then x is an (approximate) fixed point: the last Newton correction has squared norm below the tolerance; for affine mappings of full rank one step reaches the exact pre-image.", "quantifier": "all corners, all points y", "why_tests_cant": "iteration count unbounded; continuum", "anchors": ["dune/geometry/multilineargeometry.hh: MultiLinearGeometry::local"]}
{"id": "C36", "title": "gaussNewton postcondition and monotonicity", "statement": "If gaussNewton reports OK then the returned point has residual below absTol; the residual never increases from its start value at any accepted iterate; every other outcome is reported with the documented error code; in particular a start value that already solves the equation is accepted.", "quantifier": "all functions f, derivatives, start values and options", "why_tests_cant": "arbitrary user supplied functions", "anchors": ["dune/geometry/utility/algorithms.hh: Impl::gaussNewton, GaussNewtonErrorCode", "dune/geometry/localfiniteelementgeometry.hh: local", "dune/geometry/mappedgeometry.hh: local"]}
{"id": "C37", "title": "MappedGeometry obeys the chain rule", "statement": "global of a MappedGeometry is mapping(geometry.global(x)), and its jacobian is the derivative of that composition; corners and center are images under the mapping.", "quantifier": "all differentiable mappings and local geometries", "why_tests_cant": "arbitrary user supplied functions", "anchors": ["dune/geometry/mappedgeometry.hh: global, corner, center, jacobian, jacobianTransposed"]}
{"id": "C38", "title": "LocalFiniteElementGeometry evaluates its finite element function", "statement": "global(x) is the linear combination of the coefficients with the shape functions, jacobian(x) is its derivative, and it reproduces affine maps for interpolation-exact bases; corners are the global images of the reference corners.", "quantifier": "all local bases, coefficient vectors and points", "why_tests_cant": "arbitrary user supplied basis", "anchors": ["dune/geometry/localfiniteelementgeometry.hh: global, jacobian, corner"]}
{"id": "C39", "title": "Kuhn permutations enumerate the symmetric group", "statement": "The sub-simplices of the Kuhn triangulation of the cube are numbered 0..dim!-1 without repetition or omission: the index-to-permutation map is a bijection onto all permutations and index 0 is the identity.", "quantifier": "all dimensions", "why_tests_cant": "dim! grows without bound", "anchors": ["dune/geometry/refinement/simplex.cc: getPermutation", "dune/geometry/refinement/hcubetriangulation.cc"]}
{"id": "C40", "title": "Simplex refinement: vertex enumeration", "statement": "Iterating from vBegin to vEnd visits every lattice point of the refined simplex exactly once, the number visited is nVertices(), and index() counts 0,1,2,... in iteration order.", "quantifier": "all dimensions and all numbers of intervals", "why_tests_cant": "unbounded dimension and refinement", "anchors": ["dune/geometry/refinement/simplex.cc: nVertices, vBegin, vEnd, pointIndex, RefinementIteratorSpecial<.,dimension>"]}
{"id": "C41", "title": "Simplex refinement: element enumeration", "statement": "Iterating from eBegin to eEnd visits every Kuhn sub-simplex inside the refined reference simplex exactly once and their number is nElements() = n^dim, with index() counting 0,1,2,...", "quantifier": "all dimensions and all numbers of intervals", "why_tests_cant": "unbounded dimension and refinement", "anchors": ["dune/geometry/refinement/simplex.cc: nElements, eBegin, eEnd, RefinementIteratorSpecial<.,0>::increment"]}
{"id": "C42", "title": "Simplex refinement: elements and their vertices are consistent", "statement": "The coordinates of the vertices listed by vertexIndices() of an element are the corners of geometry() of that element, in order; each sub-element has volume 1/(dim! n^dim) so that the sub-elements tile the reference simplex by volume.", "quantifier": "all dimensions, refinements and elements", "why_tests_cant": "unbounded dimension and refinement", "anchors": ["dune/geometry/refinement/simplex.cc: vertexIndices, coords, geometry, global, referenceToKuhn, kuhnToReference"]}
{"id": "C43", "title": "Cube refinement is a consistent tensor grid", "statement": "Vertices and elements are enumerated once each in index order with counts (n+1)^dim and n^dim; vertexIndices lists the 2^dim vertices whose coordinates are the corners of geometry(); coords of an element is the centre of its geometry; geometry() of a vertex is located at its coords().", "quantifier": "all dimensions and interval counts", "why_tests_cant": "unbounded dimension and refinement", "anchors": ["dune/geometry/refinement/hcube.cc"]}
{"id": "C44", "title": "Triangulating refinements enumerate consistently", "statement": "For cubes, prisms and pyramids refined into simplices, iteration visits nElements()/nVertices() entities with consecutive indices, vertexIndices refer to vertices with the coordinates of the element's corners, and all vertices lie in the reference element.", "quantifier": "all dimensions and interval counts", "why_tests_cant": "unbounded refinement", "anchors": ["dune/geometry/refinement/hcubetriangulation.cc", "dune/geometry/refinement/prismtriangulation.cc", "dune/geometry/refinement/pyramidtriangulation.cc"]}
{"id": "C45", "title": "VirtualRefinement is a faithful wrapper", "statement": "buildRefinement(geometryType, coerceTo) returns the refinement for exactly the (type, coerceTo) pairs that are supported and throws otherwise; iterators obtained through the virtual interface behave as the static ones (copying is independent, equality is that of the positions, begin+count steps = end).", "quantifier": "all pairs of types, all iterator operation histories", "why_tests_cant": "2^dim types per dimension; histories of copy/assign/increment", "anchors": ["dune/geometry/virtualrefinement.cc: buildRefinement, RefinementBuilder, VirtualRefinement iterators"]}
{"id": "C46", "title": "Refinement interval bookkeeping", "statement": "refinementLevels(l) and refinementIntervals(2^l) describe the same refinement, and all counts depend only on the number of intervals; nElements and nVertices are monotone in the number of intervals.", "quantifier": "all levels", "why_tests_cant": "unbounded", "anchors": ["dune/geometry/refinement/base.cc: RefinementIntervals, refinementIntervals, refinementLevels"]}
{"id": "C47", "title": "Tensor product quadrature inherits exactness", "statement": "If the base rule is exact for polynomials of degree <= p on the base domain and the 1D rule is exact for degree <= p, then the tensor product rule is exact for degree <= p on the prism; the conical product with a 1D rule of order p+dim-1 is exact for degree <= p on the pyramid.", "quantifier": "all orders, dimensions, base rules and polynomials", "why_tests_cant": "infinitely many polynomials, orders and dimensions", "anchors": ["dune/geometry/quadraturerules/tensorproductquadrature.hh: tensorProduct, conicalProduct"]}
{"id": "C48", "title": "Quadrature weights sum to the reference volume and points lie inside", "statement": "For every rule constructed by tensor/conical product from positive 1D rules on [0,1], all points lie in the reference element, weights are positive, the number of points is the product of the 1D counts and weights sum to the volume of the reference element.", "quantifier": "all topologies of every dimension, all orders", "why_tests_cant": "infinite family", "anchors": ["dune/geometry/quadraturerules/tensorproductquadrature.hh: tensorProduct, conicalProduct", "dune/geometry/quadraturerules/pointquadrature.hh"]}
{"id": "C49", "title": "Tabulated rules are exact to their order", "statement": "Each hard-coded simplex/prism table integrates every polynomial up to its advertised order over the reference element up to the precision of the stored decimals, and the order table maps each requested order to a rule of at least that order.", "quantifier": "all polynomials of degree <= order, all tables", "why_tests_cant": "linear functionals on an infinite set; tests check monomials numerically with a loose tolerance", "anchors": ["dune/geometry/quadraturerules/simplexquadrature.hh", "dune/geometry/quadraturerules/prismquadrature.hh", "dune/geometry/quadraturerules/gauss_imp.hh"]}
{"id": "C50", "title": "Requested quadrature order is delivered", "statement": "QuadratureRules::rule(type, p) returns a rule whose order() is at least p and whose type is the requested type for every supported p, and reports orders above maxOrder by throwing QuadratureOrderOutOfRange.", "quantifier": "all types, orders and quadrature families", "why_tests_cant": "unbounded orders including out-of-range values", "anchors": ["dune/geometry/quadraturerules.hh: QuadratureRules::rule, maxOrder, QuadratureRuleFactory", "dune/geometry/quadraturerules/tensorproductquadrature.hh: maxOrder"]}
{"id": "C51", "title": "Quadrature rule cache is transparent", "statement": "For every sequence of rule() requests each request is answered with the rule that the factory creates for its own (type, order, family) and repeated requests return the same object.", "quantifier": "all request histories", "why_tests_cant": "unbounded histories of lazily initialised nested caches", "anchors": ["dune/geometry/quadraturerules.hh: QuadratureRules::_rule"]}
{"id": "C52", "title": "Composite quadrature rule inherits exactness on each sub-element", "statement": "A CompositeQuadratureRule has size = nElements * base size, its weights sum to the reference volume if the base weights do, all points lie in the reference element and constants/affine functions are integrated exactly if the base rule does so.", "quantifier": "all base rules, all refinements", "why_tests_cant": "unbounded refinement", "anchors": ["dune/geometry/quadraturerules/compositequadraturerule.hh"]}
{"id": "C53", "title": "Reference element container lookup", "statement": "ReferenceElements::general(type) returns an element whose type() equals the requested type, the named accessors simplex/cube/pyramid/prism return the element of that type, and two requests for types comparing equal return the same reference element (ReferenceElement == compares true).", "quantifier": "all dimensions and types", "why_tests_cant": "2^dim entries per dimension", "anchors": ["dune/geometry/referenceelements.hh: ReferenceElementContainer, ReferenceElements", "dune/geometry/referenceelement.hh: operator=="]}
{"id": "C54", "title": "Adaptive volume computation terminates with in-range quadrature orders", "statement": "volume() of mapped and local-finite-element geometries requests only quadrature orders that are available and returns either the value of the last rule evaluated or stops when two successive values agree to tolerance.", "quantifier": "all geometries and convergence options", "why_tests_cant": "depends on arbitrary user functions and options", "anchors": ["dune/geometry/mappedgeometry.hh: volume", "dune/geometry/localfiniteelementgeometry.hh: volume", "dune/geometry/utility/convergence.hh"]}
{"id": "C55", "title": "Equal types have the same reference topology", "statement": "If two regular GeometryTypes compare equal (operator==), i.e. their topology ids differ at most in the lowest bit, then the reference elements built from the two ids have the same sub-entity counts, the same sub-entity numbering in every codimension and equal (==) sub-entity types.", "quantifier": "all pairs of equal regular types, all sub-entities", "why_tests_cant": "Tests only build reference elements from canonical ids; users obtain ids from arbitrary arithmetic (getBase, GeometryType(id, dim)), so the statement ranges over all ids of all dimensions.", "anchors": ["dune/geometry/type.hh", "dune/geometry/referenceelementimplementation.cc"]}
{"id": "C56", "title": "Every codimension-2 sub-entity lies in exactly two facets", "statement": "For every reference element of dimension at least 2 and every sub-entity of codimension 2, exactly two of the facets i satisfy subEntities(i,1,2).contains(k) (diamond property of a polytope boundary, used by intersection iterators and hanging-node code).", "quantifier": "all dimensions >= 2, all topology ids, all codimension-2 sub-entities", "why_tests_cant": "Tests look at the few elements of dimension <= 3; the numbering recursion must satisfy this for all ids of all dimensions.", "anchors": ["dune/geometry/referenceelementimplementation.cc", "dune/geometry/referenceelementimplementation.hh"]}
{"id": "C57", "title": "Restricting a multi-linear geometry to a sub-entity", "statement": "For every sub-entity (i,c) of the reference element, global composed with the reference embedding geometry<c>(i) is global of the MultiLinearGeometry built on the corners of that sub-entity (in the numbering of subEntity): neighbouring elements sharing a face's corners agree on the whole face.", "quantifier": "all topologies of dimension <= 31, all sub-entities, all corner positions, all local points of the sub-entity with the tolerance margin", "why_tests_cant": "continuum of points and corners; all sub-entities of an infinite family of topologies", "anchors": ["dune/geometry/multilineargeometry.hh: MultiLinearGeometry::global", "dune/geometry/referenceelementimplementation.hh: referenceEmbeddings"]}
{"id": "C58", "title": "Refinement vertices: geometry() sits at coords()", "statement": "For every vertex visited by a refinement vertex iterator, the single corner of geometry() is the point returned by coords(); in particular it lies in the reference element, for every refinement (simplex, hypercube, triangulated hypercube, prism, pyramid) and every number of intervals.", "quantifier": "all refinements, all dimensions, all numbers of intervals, all vertices", "why_tests_cant": "The refinement tests iterate over elements' and vertices' coords for one or two levels; geometry() of the codim-dim iterator is not compared with coords() and a fixed level cannot cover all interval numbers.", "anchors": ["dune/geometry/refinement/simplex.cc", "dune/geometry/refinement/hcube.cc", "dune/geometry/refinement/hcubetriangulation.cc", "dune/geometry/refinement/prismtriangulation.cc", "dune/geometry/refinement/pyramidtriangulation.cc"]}
{"id": "C59", "title": "referenceToKuhn and kuhnToReference", "statement": "For every permutation number m < n! the maps referenceToKuhn and kuhnToReference (same permutation) are inverse to each other, and referenceToKuhn maps the reference simplex onto the Kuhn simplex 1 >= y_p(0) >= ... >= y_p(n-1) >= 0 of that permutation.", "quantifier": "all dimensions, all permutations, all points", "why_tests_cant": "continuum of points, factorially many permutations", "anchors": ["dune/geometry/refinement/simplex.cc: referenceToKuhn, kuhnToReference"]}
{"id": "C60", "title": "Sub-elements tile the reference element", "statement": "For every refinement the maps of the visited elements send the reference simplex (cube) into the reference element, every point of the reference element lies in at least one visited element, and a point in the interior of one visited element lies in no other.", "quantifier": "all refinements, dimensions, numbers of intervals, all points of the reference element", "why_tests_cant": "continuum of points; tests only add up volumes for a few levels, which overlaps and gaps can cancel", "anchors": ["dune/geometry/refinement/simplex.cc", "dune/geometry/refinement/hcube.cc", "dune/geometry/refinement/hcubetriangulation.cc", "dune/geometry/refinement/prismtriangulation.cc", "dune/geometry/refinement/pyramidtriangulation.cc"]}
{"id": "C61", "title": "Rules computed by the eigenvalue solver are Gauss-Jacobi rules", "statement": "With LAPACK, for every degree and every exponent alpha the nodes and weights GaussJacobi_n_0 computes from the eigenvalue problem form the Gauss rule for the weight (1-x)^alpha on [0,1]: degree/2+1 distinct nodes strictly inside, positive weights, exact for every polynomial of degree up to 2(degree/2)+1 and for no higher degree, and the same rule whichever correct eigenvalue solver is used.", "quantifier": "all degrees, all exponents, all polynomials, all solvers that return the eigenvalues and unit eigenvectors of a symmetric matrix", "why_tests_cant": "the recurrence coefficients must be right for all i and alpha at once; tests integrate a few monomials on a few orders and LAPACK is usually absent in test builds", "anchors": ["dune/geometry/quadraturerules/jacobiNquadrature.hh"]}
{"id": "C62", "title": "Matrix helpers compute the products and triangles they name", "statement": "Ax, ATx, ATBT, AAT, ATA_L and AAT_L write exactly the mathematical product into the result for every size and content of the matrices; the _L variants write the lower triangle only and leave the entries above the diagonal as they were.", "quantifier": "all matrix sizes, all entries, all prior contents of the result", "why_tests_cant": "tests run a few fixed sizes; the loop bounds and index orders must be right for all m and n, and untouched entries are not observed", "anchors": ["dune/geometry/utility/defaultmatrixhelper.hh"]}
{"id": "C63", "title": "Printed names of geometry types are read back as the same type", "statement": "In Python, str(t) of a geometry type is accepted by the constructor from a string and gives a type equal to t of the same dimension, so different types never print alike; equal types of the same dimension print alike.", "quantifier": "all geometry types of all dimensions up to 31, all topology ids including both representatives of a shape", "why_tests_cant": "tests try the handful of named types of dimension up to three; the two-representation cases need dimension four and ids beyond the named ones", "anchors": ["dune/python/geometry/type.hh"]}
{"id": "C64", "title": "Constructing a geometry type from a string never gives a wrong type", "statement": "geometryTypeFromString returns for every string either the type that the text denotes (a constructor name with the right number of decimal arguments) or an exception; arguments out of range are rejected.", "quantifier": "all strings over all characters", "why_tests_cant": "infinitely many strings; malformed ones (unbalanced parentheses, missing commas, large numbers) are rarely tried", "anchors": ["dune/python/geometry/type.hh"]}
{"id": "C65", "title": "Geometry types are sound dictionary keys and the Python caches are transparent", "statement": "Equal geometry types have equal hashes; referenceElement and quadratureRule, which cache by geometry type, return after any history of calls what a fresh call would return, and a repeated call returns the same object.", "quantifier": "all pairs of types, all histories of calls and requests", "why_tests_cant": "tests start from a fresh interpreter and ask in one order; the contract concerns all pairs and orders", "anchors": ["dune/python/geometry/type.hh", "python/dune/geometry/__init__.py", "python/dune/geometry/_referenceelements.py"]}
{"id": "C66", "title": "Python access to reference elements is checked", "statement": "For arbitrary integer arguments size, subEntity, type, position, integrationOuterNormal and the tuples types, subEntities, positions, corners, integrationOuterNormals return the answer of the C++ method when the arguments are in range and raise ValueError otherwise; no assertion and no out-of-bounds access is ever reached.", "quantifier": "all reference elements of all dimensions, all integers including negative ones", "why_tests_cant": "the range of each argument depends on the others and on the element; tests try few invalid values", "anchors": ["dune/python/geometry/referenceelements.hh"]}
{"id": "C67", "title": "Quadrature rules as arrays and integration in Python", "statement": "rule.get() returns arrays of shape (dim, n) and (n,) that hold the positions and weights of the rule in order, and integrate(rules, e, f) is the sum of f times integration element times weight, for an entity or a geometry e.", "quantifier": "all rules, dimensions, functions and entities", "why_tests_cant": "the strides reinterpret the memory of the rule; a layout mistake shows only for particular dimensions, and tests integrate over entities only", "anchors": ["dune/python/geometry/quadraturerules.hh", "python/dune/geometry/__init__.py"]}
{"id": "C68", "title": "Registered Python classes have their methods exactly once", "statement": "After any sequence of module imports, each class that has been registered (multilinear geometries, quadrature rules and points) has its constructor and methods defined, and defined once.", "quantifier": "all sequences of registrations", "why_tests_cant": "depends on the import order of generated modules in one interpreter, which unit tests do not vary", "anchors": ["dune/python/geometry/multilineargeometry.hh", "dune/python/geometry/quadraturerules.hh"]}
{"id": "C69", "title": "Quadrature rules may be requested from any number of threads", "statement": "However many threads call QuadratureRules::rule at the same time, with whatever lists of requests and however their execution is interleaved, every call returns the rule (or throws the exception) that it returns in a sequential program, equal requests in different threads get a reference to the same object, an object is initialised by at most one thread at a time and never written again, no deadlock occurs although initialisations request further rules, and all calls return.", "quantifier": "all numbers of threads, all lists of allowed requests, all interleavings", "why_tests_cant": "the interleavings of several threads inside nested call_once initialisations cannot be enumerated or forced by a test", "anchors": ["dune/geometry/quadraturerules.hh:262-345"]}
{"id": "C70", "title": "Sub-entities stratify the reference element", "statement": "Every point of a reference element (corners and boundary included) lies in the relative interior of exactly one sub-entity. A point in the relative interior of sub-entity (k,cc) lies in the closed sub-entity (i,c) exactly if k is listed in subEntities(i,c,cc); so two sub-entities meet exactly in the sub-entities that both list, and the boundary, i.e. the points of the element at which the strict inside test fails, is the union of the facets. position(i,c) lies in the relative interior of its sub-entity.", "quantifier": "all topologies up to dimension 31, all sub-entities, all points over any ordered field", "why_tests_cant": "a statement about all points of all elements; tests check sample points and listed numberings, not that the numbering agrees with the point sets", "anchors": ["dune/geometry/referenceelementimplementation.hh", "dune/geometry/referenceelement.hh"]}
{"id": "C71", "title": "Divergence theorem for the integration outer normals", "statement": "For every continuously differentiable vector field, the integral of its divergence over a reference element equals the sum over the facets of the integrals, in local coordinates of the facet (geometry<1>(i), type(i,1)), of the field times integrationOuterNormal(i); hence integration by parts holds facet by facet.", "quantifier": "all topologies of dimension 1 to 31, all continuously differentiable functions and fields", "why_tests_cant": "a statement about all functions on all elements: it ties together the normals, their lengths and signs, the facet embeddings, the facet types and their numbering", "anchors": ["dune/geometry/referenceelementimplementation.hh", "dune/geometry/referenceelement.hh"]}
{"id": "C72", "title": "Integrals and the divergence theorem on mapped elements", "statement": "For a geometry of full dimension that is injective on the reference element with regular Jacobian: the integral of f over the mapped element is the integral of f(global(x)) * integrationElement(x) over the reference element, and the divergence theorem holds on the mapped element when the outer normal of facet i is computed as jacobianInverseTransposed(x) * integrationOuterNormal(i) * integrationElement(x) and facets are integrated in their reference coordinates.", "quantifier": "all affine geometries over all topologies of dimension up to 31; all multilinear geometries on cubes; all mapped and local finite element geometries with twice continuously differentiable maps; all integrands", "why_tests_cant": "ranges over all geometries and all functions; relates four methods of the geometry with the normals and facet embeddings of the reference element", "anchors": ["dune/geometry/affinegeometry.hh", "dune/geometry/multilineargeometry.hh", "dune/geometry/mappedgeometry.hh", "dune/geometry/localfiniteelementgeometry.hh", "dune/geometry/referenceelementimplementation.hh"]}
{"id": "C73", "title": "Refinements are conforming", "statement": "Two elements of a refinement that have a point in common meet in a common face: every corner with positive weight in the (affine or multilinear) representation of the point is a corner of both elements and has the same weight in both, so that piecewise (multi)linear interpolation of nodal values, as done by subsampling output writers, is continuous. In the refinements of simplices and of cubes into cubes the common corners are exactly the common vertex indices.", "quantifier": "all dimensions, all numbers of intervals, all pairs of elements, all points; refinements of simplices, cubes, and triangulations of cubes, prisms and pyramids", "why_tests_cant": "ranges over all pairs of elements of all refinements and all their common points; the failure of the triangulated cube starts in dimension four, where no test iterates", "anchors": ["dune/geometry/refinement/simplex.cc", "dune/geometry/refinement/hcube.cc", "dune/geometry/refinement/hcubetriangulation.cc", "dune/geometry/refinement/prismtriangulation.cc", "dune/geometry/refinement/pyramidtriangulation.cc"]}
{"id": "C74", "title": "Quadrature on mapped elements", "statement": "Summing weight * f(global(position)) * integrationElement(position) over the rule of order p integrates polynomials f over the image of the element: of degree p for affine geometries over every reference element, of degree p-(d-1) for multilinear geometries of d-dimensional cubes, and of degree q with k*q+d*(k-1) <= p for geometries parametrised by polynomial finite elements of degree k.  On cubes the rule of order p integrates polynomials of degree p in each variable.", "quantifier": "all dimensions up to 30, all geometry types, all tabulated quadrature families, all orders up to maxOrder, all regular geometries, all polynomials", "why_tests_cant": "the tests integrate a few monomials over single reference elements and do not combine rules with geometries; the claim ranges over all maps, all polynomials and all orders", "anchors": ["dune/geometry/quadraturerules.hh", "dune/geometry/quadraturerules/tensorproductquadrature.hh", "dune/geometry/affinegeometry.hh", "dune/geometry/multilineargeometry.hh", "dune/geometry/localfiniteelementgeometry.hh"]}
{"id": "C75", "title": "volume() is the measure of the image", "statement": "volume() of an affine geometry of full dimension is the Lebesgue measure of the image of the reference element; the same for multilinear geometries: those with affinely placed corners, and quadrilaterals in the plane. For general multilinear geometries of three-dimensional cubes it is not (the code documents this as a known defect).", "quantifier": "all reference elements up to dimension 13, all regular affine maps; all regular injective planar quadrilaterals", "why_tests_cant": "the tests compare volume() with known volumes of a few elements; the claim is about the measure of the image for every geometry", "anchors": ["dune/geometry/affinegeometry.hh", "dune/geometry/multilineargeometry.hh", "dune/geometry/referenceelementimplementation.hh"]}
{"id": "C76", "title": "local() inverts global() on elements that are not affine", "statement": "For a multilinear geometry with invertible Jacobian that is one-to-one on the element, local(global(x)) is x up to the tolerance for every point x of the element. True for quadrilaterals in the plane (without any further condition; the loop always ends) and for cubes of any dimension whose Jacobian varies little; false for hexahedra in general, where Newton's method started at the centre may converge to a pre-image outside the element.", "quantifier": "all regular planar quadrilaterals and all points of them; all cubes of any dimension with small variation of the Jacobian, also embedded in a larger space", "why_tests_cant": "the tests try the corners and quadrature points of a few mildly distorted elements; convergence of Newton's method is a statement about every element and every point", "anchors": ["dune/geometry/multilineargeometry.hh"]}
{"id": "C77", "title": "checkInside is robust against rounding", "statement": "In IEEE floating-point arithmetic (float, double or wider) checkInside of the reference element accepts every computed point whose coordinates differ from a point of the element by at most epsilon, in particular the rounded coordinates of every point of the element and every position(i,c) as computed; every point it accepts is within d*(64+d)*epsilon of the element in each coordinate.", "quantifier": "all reference elements up to dimension 31, all points, all roundings, all IEEE formats at least as precise as float", "why_tests_cant": "tests check a handful of points in double; whether the tolerance of 64 epsilon covers the accumulated rounding errors of the nested subtractions is a statement about all points and all roundings", "anchors": ["dune/geometry/referenceelementimplementation.hh"]}
{"id": "C78", "title": "Corners are reproduced exactly in floating-point arithmetic", "statement": "In floating-point arithmetic global() of the i-th corner of the reference element is corner(i), without rounding error, and a geometry built from corners has exactly these corners. True for MultiLinearGeometry over every topology (also where it divides, and whatever the result's memory contained); false for AffineGeometry built from corners (the corners are recomputed as origin plus difference) and for AxisAlignedCubeGeometry (global of the upper corner is lower + (upper - lower)); true for their first corner.", "quantifier": "all topologies, all corners, all floating-point coordinates, all formats", "why_tests_cant": "tests compare with a tolerance on a few elements; whether neighbouring elements agree bit by bit at a common vertex is a statement about all coordinates", "anchors": ["dune/geometry/multilineargeometry.hh", "dune/geometry/affinegeometry.hh", "dune/geometry/axisalignedcubegeometry.hh"]}
{"id": "C79", "title": "Rounding errors of global() and local() are bounded", "statement": "In floating-point arithmetic without overflow the result of global() differs from the exact image of the computed data by a bounded number of rounding errors: d+1 roundings relative to |origin|+sum|jt||x| for AffineGeometry; three for AxisAlignedCubeGeometry::global, four (relative to the result) for its local, seven for local(global(x)) relative to |x|+2|lower|/(upper-lower); 2d+1+2^d relative to the largest coordinate C of the corners for MultiLinearGeometry on cubes; although the code divides by distances to the apex, ten relative to 3C on triangles, fifteen relative to 3C on prisms, eighteen relative to 9C on pyramids, fifteen relative to 4C plus 16uC on tetrahedra, up to the vicinity of the apex (twice the tolerance), where leaving out corners adds at most 2 tol C; so the computed image of a point of these elements lies in the bounding box of the corners up to this error; underflow adds a multiple of the smallest positive number.", "quantifier": "all formats, all dimensions, all coordinates, all points (for multilinear geometries: of the element)", "why_tests_cant": "the tests use fixed tolerances and single elements; error bounds are statements about all data", "anchors": ["dune/geometry/affinegeometry.hh", "dune/geometry/axisalignedcubegeometry.hh", "dune/geometry/multilineargeometry.hh"]}
{"id": "C80", "title": "checkGeometry accepts exactly the consistent, non-degenerate geometries", "statement": "checkGeometry(g) returns true if and only if, up to the tolerance sqrt(eps): g has corners, center and volume that do not degenerate, the right number of corners with corner(i) = global(position(i)), center = global(barycenter), and at every test point local inverts global, the four Jacobians are inverses and exact transposes of each other, the integration element is nonnegative and equals sqrt(det(J^T J)), and (if affine) volume = reference volume times integration element; it throws exactly if there is no corner or the center is inconsistent. A regular AffineGeometry is accepted if and only if its corners are farther from the center than the tolerance and its volume is not below it; an AxisAlignedCubeGeometry with ordered bounds if and only if half its diagonal and its volume are; one with negative volume (exchanged bounds) never. Not what a user may expect: regular geometries smaller than the tolerance are rejected (the tolerance is absolute), and the Jacobian is never compared with global, so a geometry with wrong Jacobian, integration element and volume is accepted.", "quantifier": "all geometries (arbitrary methods), all tolerances, all test points; all regular affine geometries; all axis-aligned cubes", "why_tests_cant": "checkGeometry is itself the test grid implementations rely on; which errors it can and cannot find is a statement about all geometries", "anchors": ["dune/geometry/test/checkgeometry.hh", "dune/geometry/affinegeometry.hh", "dune/geometry/axisalignedcubegeometry.hh"]}
{"id": "C81", "title": "Refinements are nested", "statement": "The refinement with n*m intervals is a refinement of the one with n intervals: every element (simplices: StaticRefinement/VirtualRefinement; cubes; triangulated cubes, prisms and pyramids) lies in exactly one element of the coarser refinement, and every coarse simplex contains exactly m^d fine ones. Not what a user may expect: refining the elements again (with the same class) gives the finer refinement only in dimensions 1 and 2; in 3d some elements of the second refinement are not contained in any element of the refinement with n*m intervals.", "quantifier": "all dimensions, all n and m, all elements", "why_tests_cant": "nestedness relates all pairs of refinement levels in all dimensions; tests look at a single level", "anchors": ["dune/geometry/refinement/simplex.cc", "dune/geometry/refinement/hcube.cc", "dune/geometry/refinement/hcubetriangulation.cc", "dune/geometry/refinement/prismtriangulation.cc", "dune/geometry/refinement/pyramidtriangulation.cc", "dune/geometry/virtualrefinement.hh"]}
{"id": "C82", "title": "The geometry classes are interchangeable", "statement": "Two geometries of different classes that describe the same map agree in every method: AffineGeometry and MultiLinearGeometry on affine images of any reference element, AxisAlignedCubeGeometry and AffineGeometry, LocalFiniteElementGeometry with P1 on simplices / Q1 on cubes and AffineGeometry / MultiLinearGeometry, MappedGeometry of a finite element function and LocalFiniteElementGeometry. compareGeometries (test/comparegeometries.hh) accepts a pair for every tolerance exactly if they agree in the points given. Not what a user may expect: for maps that are not affine volume() differs between MultiLinearGeometry and LocalFiniteElementGeometry (frustum: 9/4, 7/3), and so may affine() close to the tolerance.", "quantifier": "all dimensions, all corners, all points, all tolerances", "why_tests_cant": "the tests compare the classes for one or two geometries per dimension, in the points of one quadrature rule and up to a tolerance", "anchors": ["dune/geometry/affinegeometry.hh", "dune/geometry/axisalignedcubegeometry.hh", "dune/geometry/multilineargeometry.hh", "dune/geometry/localfiniteelementgeometry.hh", "dune/geometry/mappedgeometry.hh", "dune/geometry/test/comparegeometries.hh", "dune/geometry/test/localfiniteelements.hh", "dune/geometry/test/referenceelementgeometry.hh"]}
{"id": "C83", "title": "The quadrature types keep their documented constraints and are optimal", "statement": "Gauss-Lobatto rules contain both end points of the interval, left (right) Gauss-Radau rules the left (right) one, Gauss-Legendre rules no boundary point; in higher dimension Gauss-Lobatto rules contain all corners of the reference element, left (right) Gauss-Radau rules the first (last) corner. The right Gauss-Radau rule is the mirrored left one. No rule with the same constraint and fewer points integrates all polynomials of the requested degree. Points are pairwise different. Not so: the tables contain the end points only up to 1e-99 (order 10 of Gauss-Lobatto has a point 2.9e-121, which is not zero in double either), Gauss-Legendre rules of order 3 on tetrahedra and of order 11 on triangles have boundary points, Gauss-Lobatto and right Gauss-Radau rules on simplices repeat the apex.", "quantifier": "all orders, all reference elements up to dimension 30, all competing rules", "why_tests_cant": "the tests check weights sums and integrals of monomials; they never look at the position of a point, and optimality quantifies over all rules", "anchors": ["dune/geometry/quadraturerules.hh", "dune/geometry/quadraturerules/gausslobattoquadrature.hh", "dune/geometry/quadraturerules/gaussradauleftquadrature.hh", "dune/geometry/quadraturerules/gaussradaurightquadrature.hh", "dune/geometry/quadraturerules/simplexquadrature.hh", "dune/geometry/quadraturerules/tensorproductquadrature.hh"]}
{"id": "C84", "title": "Where the corners are stored does not show while the documented contract is kept", "statement": "With the default corner storage a geometry is a value: changing or freeing the array it was built from, copying it and assigning to copies never changes its answers. With std::reference_wrapper as storage a program that never uses a geometry whose array was modified or freed since its construction gets the same answers, for MultiLinearGeometry and for CachedMultiLinearGeometry. Without that rule MultiLinearGeometry answers for the present content of the array, as test-cornerstoragerefwrap.cc expects; CachedMultiLinearGeometry mixes the stored Jacobian with the new first corner and describes neither the old nor the new element.", "quantifier": "all programs of writes, frees, constructions, copies and calls in any order, all arrays, all geometry types and dimensions", "why_tests_cant": "the test moves one corner of one triangle and looks at the centre; aliasing errors depend on the order of writes, copies and calls", "anchors": ["dune/geometry/multilineargeometry.hh", "dune/geometry/test/test-cornerstoragerefwrap.cc"]}
{"id": "C85", "title": "How accurate a rule is for functions that are not polynomials", "statement": "A rule whose points lie in the reference element integrates a continuous function with an error of at most its distance from any polynomial of the rule's order, times the volume plus the sum of the absolute values of the weights, plus the error of the tables times the size of the coefficients. For the delivered rules with weights of one sign that is twice the volume times the distance. For a smooth function the error on an element of size h, the image of the reference element under an affine geometry, is of order h^(p+1) relative to its volume. The composite rule with n intervals converges with order p+1.", "quantifier": "all reference elements of dimension up to 30, all orders up to maxOrder, all continuous or smooth functions, all affine geometries, all numbers of intervals", "why_tests_cant": "tests integrate a few polynomials; users integrate other functions and rely on the order of convergence", "anchors": ["dune/geometry/quadraturerules.hh", "dune/geometry/quadraturerules/compositequadraturerule.hh"]}
{"id": "C86", "title": "The adapter to quadpy gives the requested rule", "statement": "dune.geometry.quadpy.rule(type, (order, method)) supports lines, triangles, quadrilaterals, tetrahedra and hexahedra with the vertices of the Dune reference element and raises ValueError for all other types. The cache is invisible: earlier requests never change an answer, asking again (also with an entity, or with an equal type) gives the same object, different requests different objects, failures leave no trace. The result is a rule of at least the requested order, and rules(methods) answers for an entity as rule does for its type.", "quantifier": "all histories of requests, all types, orders and methods, all versions of the package", "why_tests_cant": "there is no test of this module; the package is often not installed, and the cache only matters over a sequence of calls", "anchors": ["python/dune/geometry/quadpy.py"]}
{"id": "C87", "title": "Quadrature rules survive floating-point arithmetic", "statement": "For a number type with rounding, QuadratureRules<ct,dim>::rule gives for every request the same outcome, type, order and number of points as in exact numbers; the coordinates differ by a few roundings; every point passes ReferenceElement::checkInside; the errors of all weights together stay below a bound that does not depend on the number of points (up to underflow); the loop of weight * f(position) approximates the integral of f; the weights add up to the volume with the accuracy of the number type.", "quantifier": "all element types up to dimension 30, all orders and families with tabulated nodes, all IEEE formats from float upwards, all integrands", "why_tests_cant": "tests run double for some orders and dimensions up to 4, Float128 for cubes only; the bounds concern every rounding of every product", "anchors": ["dune/geometry/quadraturerules.hh", "dune/geometry/quadraturerules/tensorproductquadrature.hh", "dune/geometry/quadraturerules/numberfromstring.hh", "dune/geometry/quadraturerules/simplexquadrature.hh", "dune/geometry/test/test-quadrature.cc:100-178"]}
{"id": "C88", "title": "Refinements survive floating-point arithmetic", "statement": "With a floating-point coordinate type, coords() of a vertex of the refined simplex is the exact point rounded once; a corner shared by two elements gets the same numbers in both elements (the refinement is watertight), and these are the numbers that coords() of the vertex listed by vertexIndices() returns; the copies of a vertex in several Kuhn simplices agree; every vertex passes checkInside of the reference element; the refined cube has vertices with the accuracy of the coordinate type.", "quantifier": "all dimensions, all numbers of intervals that the format represents, all elements and vertices, all floating-point formats (inside and error bounds: IEEE formats from float upwards)", "why_tests_cant": "test-refinement sums volumes and vertex counts with a tolerance for a few levels; it never compares the numbers of neighbouring elements", "anchors": ["dune/geometry/refinement/simplex.cc:508-519", "dune/geometry/refinement/simplex.cc:673-705", "dune/geometry/refinement/hcubetriangulation.cc:330-352", "dune/geometry/refinement/prismtriangulation.cc:325-347", "dune/geometry/refinement/pyramidtriangulation.cc:327-350", "dune/geometry/refinement/hcube.cc:199-211", "dune/geometry/refinement/hcube.cc:389-416"]}
{"id": "C89", "title": "Volumes and integration elements survive floating-point arithmetic", "statement": "With a floating-point coordinate type, volume() of an AxisAlignedCubeGeometry and integrationElement() of affine and multilinear geometries are those of the exact element up to rounding errors relative to the lengths of its edges (not to its distance from the origin); an AffineGeometry can be constructed from the corners of every element that is not degenerate, and its integration element and volume have a relative error proportional to the condition of its Gram matrix.", "quantifier": "all corners, all dimensions up to 29, all floating-point formats (affine geometries: formats from float upwards, no overflow or underflow)", "why_tests_cant": "tests use a few well-shaped elements near the origin and compare with a tolerance; they cannot find out for which elements the Cholesky factorisation fails or how large the error can be", "anchors": ["dune/geometry/utility/defaultmatrixhelper.hh:88-101", "dune/geometry/utility/defaultmatrixhelper.hh:191-225", "dune/geometry/utility/defaultmatrixhelper.hh:286-306", "dune/geometry/utility/defaultmatrixhelper.hh:340-377", "dune/geometry/utility/defaultmatrixhelper.hh:417-440", "dune/geometry/affinegeometry.hh:115-122", "dune/geometry/affinegeometry.hh:197-200", "dune/geometry/axisalignedcubegeometry.hh:295-309"]}
{"id": "C90", "title": "local() of multilinear geometries returns in floating-point arithmetic", "statement": "With a floating-point coordinate type, MultiLinearGeometry::local( global( x ) ) of a well-shaped quadrilateral returns, for every x of the reference element, after finitely many Newton steps, and the result differs from x by rounding errors only (amplified by the condition of the Jacobian and the distance of the element from the origin).", "quantifier": "all corners, all points of the reference element, all contents of uninitialised variables, all floating-point formats from float upwards", "why_tests_cant": "a run that does not end is not a result a test can compare; whether Newton's iteration reaches an absolute tolerance depends on the rounding errors of the particular element and point", "anchors": ["dune/geometry/multilineargeometry.hh:61", "dune/geometry/multilineargeometry.hh:312-334", "dune/geometry/multilineargeometry.hh:377-385", "dune/geometry/multilineargeometry.hh:791-902", "dune/geometry/multilineargeometry.hh:905-941", "dune/geometry/utility/defaultmatrixhelper.hh:262-284", "dune/geometry/utility/defaultmatrixhelper.hh:308-318", "dune/geometry/utility/defaultmatrixhelper.hh:442-452"]}
{"id": "C91", "title": "The sub-entities of a reference element are the faces of a polytope", "statement": "The incidence structure that subEntities() describes is that of the faces of a convex polytope: two sub-entities with a common vertex meet in exactly one sub-entity, whose vertices are the common vertices, and two without a common vertex are disjoint; a sub-entity is the intersection of the facets containing it; a sub-entity of codimension c lies in at least c facets, and in exactly c for simplices, cubes and products of both; between a sub-entity and one containing it there are as many sub-entities of even as of odd codimension.", "quantifier": "all dimensions, all topology ids, all pairs of sub-entities of any codimension", "why_tests_cant": "relations between all pairs of sub-entities in all dimensions; tests enumerate single reference elements", "anchors": ["dune/geometry/referenceelementimplementation.cc:51-168", "dune/geometry/referenceelementimplementation.hh:426-504", "dune/geometry/referenceelementimplementation.hh:743-767"]}
{"id": "C92", "title": "Gauss-Newton inversion in floating-point arithmetic", "statement": "MappedGeometry::local and LocalFiniteElementGeometry::local, executed in double or float: a point returned without an exception is mapped to within absTol of the given point (up to the rounding errors of the norm) and is strictly better than the start point; for linear simplices whose condition is within the precision, local() returns a point for the image of every point of the reference element, after a number of passes logarithmic in the size of the element over the tolerance, and its error is bounded by the tolerance over the smallest singular value.", "quantifier": "all maps and derivatives, all options with at least one pass, all floating-point formats with enough precision; all simplices of dimension at most 14 with bounded condition; all points", "why_tests_cant": "rounding errors of all inputs; tests compare single points with a tolerance, and the centre of the reference element, where the method fails, is tried by no test or only by chance", "anchors": ["dune/geometry/utility/algorithms.hh:23-113", "dune/geometry/mappedgeometry.hh:197-213", "dune/geometry/localfiniteelementgeometry.hh:202-248"]}
{"id": "C93", "title": "Reference elements in floating-point arithmetic", "statement": "With coordinates of type double or float, the origins, embeddings and integration outer normals stored in a reference element have the exact values; geometry<codim>(i) is constructed for every sub-entity, its corners are bit for bit the corners of the element with the numbers subEntity(i,codim,j,dim), and global() of a point of the sub-entity's reference element is wrong by at most one unit roundoff per coordinate and accepted by checkInside of the element. For sub-entities of cubes, for the element itself and for vertices the integration element is exactly 1 and local() inverts global() without any error; for slanted sub-entities the corners of the sub-entity come back from local() exactly.", "quantifier": "all floating-point formats with enough precision, all dimensions (up to 29 for the construction, up to 10 for checkInside), all topologies, codimensions, sub-entities and points", "why_tests_cant": "infinitely many points, and equality of results with rounding for all topologies and dimensions; tests use tolerances", "anchors": ["dune/geometry/referenceelementimplementation.hh:164-348", "dune/geometry/referenceelementimplementation.hh:543-548", "dune/geometry/affinegeometry.hh:101-200", "dune/geometry/utility/defaultmatrixhelper.hh:88-306"]}
{"id": "C94", "title": "AffineGeometry::local inverts global in floating-point arithmetic", "statement": "An AffineGeometry constructed in double or float from corners whose edges are independent within the precision (condition R/r of the edge matrix below about 10^7 in double): the construction succeeds; jacobianInverseTransposed times the exact Jacobian is the identity up to an error of order u (R/r)^3; local(global(x)) is x, and global(local(y)) is y for points y of the image, up to errors of the same order; local() of any other point is the coordinate vector of its orthogonal projection, and errors of the point are amplified by at most 3 dim R/r^2.", "quantifier": "all floating-point formats with enough precision, all dimensions 1 <= mydim <= coorddim <= 29, all corners with bounded condition, all points", "why_tests_cant": "rounding errors of all inputs; tests compare a few points of a few geometries with a tolerance of 1e-8 or so", "anchors": ["dune/geometry/affinegeometry.hh:101-122", "dune/geometry/affinegeometry.hh:154-179", "dune/geometry/affinegeometry.hh:226-240", "dune/geometry/utility/defaultmatrixhelper.hh:88-306"]}
{"id": "C95", "title": "Refinement does not degenerate", "statement": "For every number n of intervals the elements of a refinement are, up to translation and the factor 1/n, among finitely many simplices that do not depend on n (at most d! for the simplex, 18 for the prism, 12 for the pyramid, d!^2 for the triangulated cube; cubes of edge 1/n for the cube). The edges of a refined simplex have coordinates -1/n, 0, 1/n only, hence lengths between 1/n and sqrt(d)/n; those of the triangulations are multiples of 1/n up to floor((d+1)/2)/n, and this is attained: with two intervals an element of the triangulated 3-cube reaches from one side to the other. Elements of a refined triangle are similar to the reference triangle; in dimension three this is false.", "quantifier": "all dimensions, all n, all elements, all refinements", "why_tests_cant": "n and the dimension are unbounded; the tests compare the sum of volumes for a few n", "anchors": ["dune/geometry/refinement/simplex.cc:541-694", "dune/geometry/refinement/hcubetriangulation.cc:255-349", "dune/geometry/refinement/prismtriangulation.cc:255-345", "dune/geometry/refinement/pyramidtriangulation.cc:257-349", "dune/geometry/refinement/hcube.cc:170-240"]}
{"id": "C96", "title": "Moving and scaling the world", "statement": "Building a geometry from moved corners (any rotation, reflection, shift and scaling by s > 0 of the world, in any dimension of the world) gives the moved element: global commutes with the motion, Jacobians are multiplied by its linear part, integration elements and volumes by s^mydim, inverse Jacobians by the rotation and 1/s, and quantities are unavailable in the same cases. local of the moved point gives the same local coordinates, and affine() the same answer. For AffineGeometry without exception; for MultiLinearGeometry away from pyramid tips and as long as affine() keeps its answer (always without scaling); for gaussNewton (MappedGeometry, LocalFiniteElementGeometry) if absTol is scaled along. The absolute tolerances make small elements differ: a curved quadrilateral of size s with 2 s^2 < tolerance is reported as affine and local of a corner is (9/8,9/8) instead of (1,1); a mapped interval of size s, 25 s < 64 absTol, gives 9/8 instead of 1.", "quantifier": "all similarities of the world, all dimensions, all corner coordinates, all points, all iteration counts", "why_tests_cant": "the motions form a continuum, and the tests use elements of size one at the origin", "anchors": ["dune/geometry/multilineargeometry.hh:262-266", "dune/geometry/multilineargeometry.hh:290-410", "dune/geometry/multilineargeometry.hh:905-932", "dune/geometry/affinegeometry.hh:101-244", "dune/geometry/utility/algorithms.hh:60-112", "dune/geometry/mappedgeometry.hh:190-215"]}
{"id": "C97", "title": "Numbering of corners and neighbouring elements", "statement": "If the corners of a MultiLinearGeometry are passed in another order, by a symmetry of the reference element (an affine map that permutes its corners), the geometry is the same element in other local coordinates: global, Jacobians, integration elements, inverse Jacobians follow the symmetry, center and volume do not change. The symmetry maps the reference element to itself, preserves volumes and fixes the centre. For simplices every order is allowed, for quadrilaterals exactly those in which opposite corners stay opposite; exchanging two neighbouring corners of a square gives another set of points. Hence two elements of any type that share a face describe the same points of the face whatever their local numbering, as long as the two numberings of the face differ by a symmetry. affine() is not covered: a nearly affine hexahedron can be affine with one numbering and not affine with another.", "quantifier": "simplices and cubes of all dimensions and all topologies up to dimension 3, all symmetries, all corner coordinates and world dimensions, all points away from the tips of pyramids (all points for cubes)", "why_tests_cant": "tests use one numbering per element; coordinates and points form a continuum and the number of symmetries grows like 2^d d!", "anchors": ["dune/geometry/multilineargeometry.hh:290-410", "dune/geometry/multilineargeometry.hh:746-788", "dune/geometry/multilineargeometry.hh:905-932", "dune/geometry/referenceelementimplementation.hh:230-330"]}
{"id": "C98", "title": "Machine integers in refinements", "statement": "With 32 bit int and unsigned, the refinements count, number and enumerate as with unbounded integers as long as the numbers fit: nVertices, nElements, the loops from begin to end, index, vertexIndices and the integer part of coords are right, and no intermediate result overflows, for simplices and triangulations if (n+1)...(n+d) (and the number of elements) is an int, for cubes if (n+1)^d is an unsigned (an int for indices). Beyond that the promise breaks: refinementLevels(l) is accepted for all l < 31, but if l d >= 32 the loop over the elements of a refined cube is empty (eBegin == eEnd), and if l d >= 31 nElements of a refined simplex is signed overflow; between 2^31 and 2^32 elements the indices of a refined cube are negative.", "quantifier": "all dimensions, all numbers of intervals, all vertices and elements", "why_tests_cant": "the smallest failing refinements have billions of elements; that no intermediate int overflows is a statement about all dimensions and interval counts", "anchors": ["dune/geometry/refinement/simplex.cc:279-310", "dune/geometry/refinement/simplex.cc:391-437", "dune/geometry/refinement/simplex.cc:474-663", "dune/geometry/refinement/hcube.cc:105-155", "dune/geometry/refinement/hcube.cc:234-256", "dune/geometry/refinement/hcube.cc:320-387", "dune/geometry/refinement/hcubetriangulation.cc:102-148", "dune/geometry/refinement/base.cc:106-118"]}
{"id": "C99", "title": "An element lies in the convex hull of its corners", "statement": "For every MultiLinearGeometry the images of points of the closed reference element lie in the convex hull of the corners: they are averages of the corners, with weights (the values of the shape functions) that depend on the type and the point only. So bounding boxes and diameters of elements can be computed from the corners. The closest points to the tips of simplices and pyramids are an exception: the code drops the weight of the base within the tolerance, and the image leaves the hull, by at most tolerance times the largest coordinate. Affine geometries, and planar quadrilaterals whose Jacobian determinant is positive at the corners, fill the convex hull of their corners exactly.", "quantifier": "all dimensions, types, corners, tolerances and points", "why_tests_cant": "containment is a statement about all points of all elements; the points near a tip that violate it have relative distance 16 epsilon", "anchors": ["dune/geometry/multilineargeometry.hh:290-298", "dune/geometry/multilineargeometry.hh:746-789", "dune/geometry/affinegeometry.hh:154-159"]}
{"id": "C100", "title": "Regularity can be judged at the corners", "statement": "If the determinant of the Jacobian of an element of full dimension is positive at its corners, the element is regular: the determinant is positive everywhere, so the integration element is the determinant, the inverse of the Jacobian exists, and no two points coincide. This is so for planar quadrilaterals and pyramids (all values lie between those at the corners) and simplices. It is not so for prisms and hexahedra: with the top turned by 180 degrees the determinant is one at all corners, but zero half way up; the whole section is mapped to one point, volume() returns zero and jacobianInverseTransposed fails. A prism is regular exactly if on each vertical edge the values q0, q1 at the ends are positive and (sqrt(q0)-sqrt(q1))^2 < 4 q(1/2). A cube of any dimension is regular and injective if all determinants of one edge in each direction are positive.", "quantifier": "all corners, tolerances and points; cubes of all dimensions", "why_tests_cant": "tests look at the corners and quadrature points; positivity in between is a statement about all points", "anchors": ["dune/geometry/multilineargeometry.hh:350-353", "dune/geometry/multilineargeometry.hh:363-366", "dune/geometry/multilineargeometry.hh:791-901"]}
{"id": "C101", "title": "Copies of mapped geometries", "statement": "Objects of MappedGeometry behave as values: after any sequence of constructions, copies, assignments and destructions, every living object answers with its own mapping and the derivative of its own mapping. This holds if the function object returned by derivative() owns its data. The constructor calls derivative for its own member, so if that function object refers to the mapping (as both mappings in the tests of the module do) the Jacobian of a copy reads the mapping inside the original: if the original is destroyed (function returning a copy, std::vector that grows) jacobian() is undefined behaviour, if it is assigned to jacobian() silently is the derivative of another mapping, while global() stays right.", "quantifier": "all sequences of operations, all mappings, wrapped geometries and points", "why_tests_cant": "quantifies over all histories of objects; the tests construct an object and use it in place", "anchors": ["dune/geometry/mappedgeometry.hh:122-130", "dune/geometry/mappedgeometry.hh:272-277", "dune/geometry/mappedgeometry.hh:341-353", "dune/geometry/test/test-mappedgeometry.cc:38-41", "dune/geometry/test/localfiniteelements.hh:239-252"]}
{"id": "C102", "title": "Const functions of a shared geometry called from several threads", "statement": "Const functions of a geometry may be called from several threads without synchronisation, and every call returns what it returns in a sequential program. CachedMultiLinearGeometry and LocalFiniteElementGeometry write mutable members in const functions, so this fails: concurrent calls on one CachedMultiLinearGeometry are free of data races exactly if no thread makes a call that modifies the object while another thread calls anything but corner() (the bit-field affine_ shares its memory location with the flags that are written, so even global() and affine() conflict with a first integrationElement()); on one LocalFiniteElementGeometry exactly if affine_ is set or at most one thread calls affine() or volume(). After one call of jacobianInverseTransposed (affine() respectively), and for CachedMultiLinearGeometry that is not affine, any number of threads may share the object, and all answers are right.", "quantifier": "all numbers of threads, all lists of calls per thread, all interleavings, all states of the object, all geometries", "why_tests_cant": "quantifies over all interleavings of all programs; a data race need not show in a run", "anchors": ["dune/geometry/multilineargeometry.hh:604-694", "dune/geometry/multilineargeometry.hh:722-728", "dune/geometry/localfiniteelementgeometry.hh:159-164", "dune/geometry/localfiniteelementgeometry.hh:276-291", "dune/geometry/localfiniteelementgeometry.hh:432"]}
{"id": "C103", "title": "Location of points", "statement": "referenceElement(geometry).checkInside(geometry.local(y)) decides whether the point y of the space lies in the element. Points of the element are found: for all affine geometries, for axis-aligned cubes, for elements whose corners are affine images of the reference corners, and for all regular planar quadrilaterals that do not report affine (local leaves the square by at most 32 epsilon there, checkInside allows for 64). Points that are found belong to the element: for affine geometries of full dimension up to 64(d+2) epsilon times the size of the element, for quadrilaterals up to 64 epsilon times the size. Exceptions: on surfaces and curves points at any distance are found (local projects); a convex quadrilateral whose second difference is between 272 epsilon and the square root of 16 epsilon reports affine and does not find its own corner 3; the twisted hexahedron does not find its corner 7.", "quantifier": "all geometries, dimensions, types, points and tolerances", "why_tests_cant": "the answer depends on the interplay of two tolerances and the stopping rule of an iteration, for all elements and all points on the boundary", "anchors": ["dune/geometry/multilineargeometry.hh:300-334", "dune/geometry/affinegeometry.hh:162-179", "dune/geometry/axisalignedcubegeometry.hh:189-202", "dune/geometry/referenceelementimplementation.hh:89-106", "dune/geometry/referenceelementimplementation.hh:522-527"]}
{"id": "C104", "title": "Normals of mapped elements", "statement": "N = integrationElement(x) * jacobianInverseTransposed(x) * referenceElement.integrationOuterNormal(i), the formula callers use for the outer normal of facet i of an element of full dimension, is orthogonal to the image of the facet, points out of the element (the whole element lies behind the facet for affine geometries; directions into a multilinear element have a negative product with N), and its length is the integration element of the facet's own geometry, so that the normal divided by its length times that integration element gives N again. The normals of an affine element, weighted with the volumes of the reference facets, cancel, and their products with points of the facets add up to d times the volume. Two multilinear elements that share a facet, with corners in different order, have at every common point normals that are equal up to the sign, and opposite if the elements lie on different sides.", "quantifier": "all dimensions, topologies, facets, regular affine and multilinear geometries, points of the facet (away from the tips of its pyramids by the tolerance of the class), pairs of neighbours", "why_tests_cant": "relates determinants of Jacobians of all elements with those of all their facets; tests compare single elements", "anchors": ["dune/geometry/referenceelementimplementation.hh:277-350", "dune/geometry/referenceelementimplementation.hh:564-568", "dune/geometry/affinegeometry.hh:101-128", "dune/geometry/affinegeometry.hh:182-222", "dune/geometry/multilineargeometry.hh:340-353", "dune/geometry/multilineargeometry.hh:736-743"]}
{"id": "C105", "title": "Documented numbering of sub-entities", "statement": "Counts, types and corner numbers of all sub-entities follow the recursion documented on the page about reference elements: for a prism first the sub-entities parallel to the new axis, then those of the bottom, then those of the top; for a pyramid first those of the base, then the cones, the tip last. subEntities(i,c,cc) lists numbers in ascending order. In closed form: the sub-entity of a simplex with vertices v0<v1<... has the number sum binomial(v_j,j+1), and every set of vertices is the vertex set of the sub-entity with that number; facet i of the simplex is opposite to vertex d-i and has the normal -e_(d-1-i), respectively (1,...,1) for i=d; the sub-entity of a cube on which some coordinates are fixed to 0 or 1 has the number sum over fixed k of binomial(k,c_k+1)2^(c_k+1) + b_k binomial(k,c_k)2^(c_k) with c_k the number of fixed coordinates below k, its vertices are those with these bits; facet i of the cube is the one with coordinate i/2 equal to i%2, with normal +-e_(i/2).", "quantifier": "all dimensions, topologies, sub-entities, codimensions, vertex sets", "why_tests_cant": "infinitely many dimensions; tests look at no dimension above 3 or 4 and do not compare with the documented numbers", "anchors": ["doc/appl/refelements/referenceelementspage.txt:41-65", "doc/appl/refelements/referenceelementspage.txt:138-197", "doc/appl/refelements/referenceelementspage.txt:252-305", "dune/geometry/referenceelementimplementation.cc: size, subTopologyId, subTopologyNumbering", "dune/geometry/referenceelementimplementation.hh:690-780"]}
{"id": "C106", "title": "Building a reference element stays within its buffers and within 32 bits", "statement": "The functions that fill arrays through raw pointers while a reference element is built (numbers of sub-entities, corners, origins, embeddings, normals, the sub-entity information with its offsets and its bitset) write only inside the arrays that are allocated for them, read only cells that have been written before, leave the cells around unchanged, and none of their unsigned int computations wraps.", "quantifier": "all geometry types, codimensions, sub-entities, buffer positions, previous contents", "why_tests_cant": "infinitely many types and buffer positions; an out of bounds write usually goes unnoticed, and the first wrap happens in a dimension where the arrays have billions of entries", "anchors": ["dune/geometry/referenceelementimplementation.cc:20-168", "dune/geometry/referenceelementimplementation.hh:113-348", "dune/geometry/referenceelementimplementation.hh:638-781"]}
{"id": "C107", "title": "The divergence theorem holds for the quadrature rules", "statement": "Take the rule of order p for an element and the rules of order p of the same family for the types of its facets, their points moved to the element by geometry<1>(i). For every polynomial u of degree at most p the rule applied to a partial derivative of u equals the sum over the facets of the facet rules applied to u times integrationOuterNormal(i), up to the accuracy of the tables. Rules of order p exist for all sub-entities if there is one for the element. The same holds for integration by parts, for constants (the weighted normals sum to zero) and on images under AffineGeometry with the transformed normals.", "quantifier": "all geometry types up to dimension 30, all families given by tables, all orders up to maxOrder, all polynomials, all components, all affine geometries", "why_tests_cant": "infinitely many polynomials and geometries; combines the rules of several types, the numbering, the embeddings and the normals of all facets", "anchors": ["dune/geometry/quadraturerules.hh:228-330", "dune/geometry/referenceelementimplementation.hh:300-348", "dune/geometry/referenceelementimplementation.hh:560-636", "dune/geometry/affinegeometry.hh:540-640"]}
{"id": "C108", "title": "Quadrature rules are mapped to themselves by the symmetries of the reference element", "statement": "Two elements sharing a facet may number its corners differently; their facet coordinates then differ by a symmetry of the facet's reference element. The points of the rule delivered by QuadratureRules for a type can be paired such that the image of each point under the symmetry is its partner, with the same weight, up to rounding of the tables: both elements evaluate at the same points.", "quantifier": "all geometry types, orders and families, all symmetries of the reference element", "why_tests_cant": "all symmetries of all types (2^d d! for cubes), all orders; the repository has no test of symmetry and one of the tabulated rules is not symmetric", "anchors": ["dune/geometry/quadraturerules.hh:228-330", "dune/geometry/quadraturerules/simplexquadrature.hh:214-310", "dune/geometry/quadraturerules/simplexquadrature.hh:769-831", "dune/geometry/quadraturerules/tensorproductquadrature.hh:55-200"]}
{"id": "C109", "title": "Vertex ids orient shared sub-entities in the same way from every element", "statement": "Two elements of a mesh, each with distinct global ids at its corners, share a sub-entity (the same set of ids at its vertices), possibly at different places in the elements and with its vertices in different order. GeneralVertexOrder::getReduced then gives each common vertex the same number in both elements, and compares two vertices as their ids compare. A common edge is directed from the smaller to the larger id in both. On a common simplex, renumbering the corners by the reduced order is a symmetry of the reference simplex, and points with equal renumbered coordinates are mapped by the global() of both elements to the same point.", "quantifier": "all pairs of element types up to dimension 31, all sub-entities, all ids of any ordered type, all multilinear geometries with common corners, all points inside the sub-entity", "why_tests_cant": "all pairs of elements, all placements and permutations of the ids; the repository has no test of the class", "anchors": ["dune/geometry/generalvertexorder.hh:39-48", "dune/geometry/generalvertexorder.hh:96-134", "dune/geometry/generalvertexorder.hh:160-181", "dune/geometry/multilineargeometry.hh: global", "dune/geometry/referenceelementimplementation.hh: SubEntityInfo, geometry"]}
{"id": "C110", "title": "Refinements of neighbouring elements have the same vertices on a common face", "statement": "A visualisation or a subsampling writer refines every element by itself (buildRefinement / StaticRefinement with the same refinementIntervals) and maps the vertices by the geometry of the element. The vertices of a refinement are exactly the points of the reference element whose coordinates are multiples of 1/n, for each of the five implementations; those that lie on a sub-entity are the embedded vertices of the refinement of the sub-entity's own type. If two elements share a face that is a simplex or a cube, whatever its position in both and with its corners in any order compatible with its type, the vertices of both refinements on that face are the same points of space: there are no hanging nodes and no gaps between the refined elements.", "quantifier": "all geometry types with a refinement in every dimension, all numbers of intervals n > 0 with n*tolerance < 1, all pairs of element types, all sub-entities that are simplices or cubes, all corner positions in space, all renumberings by a symmetry of the face", "why_tests_cant": "test-refinement.cc checks single refinements of single reference elements for small n; the agreement between two differently numbered elements of different type, for all n, is not tested anywhere", "anchors": ["dune/geometry/virtualrefinement.cc:502-662", "dune/geometry/refinement/simplex.cc: VertexIterator coords", "dune/geometry/refinement/hcube.cc: vertex coords", "dune/geometry/refinement/hcubetriangulation.cc:209-215", "dune/geometry/refinement/prismtriangulation.cc:209-217", "dune/geometry/refinement/pyramidtriangulation.cc:213-220", "dune/geometry/multilineargeometry.hh: global", "dune/geometry/referenceelementimplementation.hh: referenceEmbeddings"]}
{"id": "C111", "title": "Looping over a virtual refinement writes a mesh of the reference element", "statement": "A writer calls buildRefinement for the type of an element and the type of elements it wants, loops from vBegin to vEnd storing index() and coords(), then from eBegin to eEnd storing index() and vertexIndices(). For every supported pair of types and every number of intervals n > 0 both loops end, after nVertices() and nElements() passes, nothing stays allocated, index() counts in the order of the loop, the stored vertices are the points of the reference element whose coordinates are multiples of 1/n, every stored element has as many corners as the requested type and refers to stored vertices only, the convex hulls of the listed corners cover the reference element, and a point inside one of them is in no other. No point is stored twice. For unsupported pairs nothing is written.", "quantifier": "all pairs of regular geometry types of equal dimension 1..30, all five implementations, all n > 0", "why_tests_cant": "test-refinement.cc checks sums of volumes and index ranges for a few n; that the listed corners tile the element, for every dimension and every n, through the type-erased iterators, is not tested", "anchors": ["dune/geometry/virtualrefinement.cc:35-65", "dune/geometry/virtualrefinement.cc:294-390", "dune/geometry/virtualrefinement.cc:502-662", "dune/geometry/refinement.hh:131-160", "dune/geometry/refinement/simplex.cc", "dune/geometry/refinement/hcube.cc", "dune/geometry/refinement/hcubetriangulation.cc", "dune/geometry/refinement/prismtriangulation.cc", "dune/geometry/refinement/pyramidtriangulation.cc"]}
{"id": "C112", "title": "Integrals and fluxes over a common face are the same from both elements", "statement": "A finite volume or discontinuous Galerkin code visits a face once from each element, loops over the points of QuadratureRules for the type of the face and adds f(global(x)) * integrationElement(x) * weight with the geometry of the face, or the value of a field times the normal integrationElement * jacobianInverseTransposed * integrationOuterNormal with the geometry of the element. The corners of the face may be numbered differently on both sides. Both elements compute the same integral, and opposite fluxes if they lie on different sides, up to the accuracy with which the rule is symmetric: what leaves one element enters the other.", "quantifier": "all pairs of elements of equal dimension up to 31 with a common facet that is a simplex, a cube or at most three-dimensional, all corner positions, all renumberings of the face by a symmetry, all rules with the symmetry (all orders of GaussLegendre and GaussLobatto on cubes; tabulated triangle rules), all integrands with bound B and modulus of continuity omega", "why_tests_cant": "no test compares two elements; conservation is a statement about all pairs of numberings, rules and integrands", "anchors": ["dune/geometry/quadraturerules.hh: QuadratureRules::rule", "dune/geometry/quadraturerules/simplexquadrature.hh:769-831", "dune/geometry/multilineargeometry.hh:289-298", "dune/geometry/multilineargeometry.hh:350-353", "dune/geometry/multilineargeometry.hh:736-743", "dune/geometry/referenceelementimplementation.hh: integrationOuterNormal"]}
{"id": "C113", "title": "Mapped sub-elements of a refinement are the pieces of the element", "statement": "A caller that subdivides an element for output, for cut cells or for quadrature on sub-elements loops over a virtual refinement, maps its vertices with global() of the element's geometry and builds a MultiLinearGeometry from the mapped vertices of every sub-element. The geometry of a sub-element is the restriction of the geometry of the element: global of the sub-element equals global of the element after the position of the sub-element in the reference element, the Jacobians obey the chain rule, integration elements multiply, and the mapped sub-elements together cover the image of the element, no more and no less.", "quantifier": "all element types of dimension 1 to 30, all types of sub-elements with an implementation, all numbers of intervals with tolerance * n < 1, all corner positions, all local coordinates away from the tips of pyramids and simplices by the tolerance", "why_tests_cant": "the refinement tests stay in the reference element and the geometry tests never build a geometry from the vertices of a refinement; the property is about all corner positions and all points of all sub-elements", "anchors": ["dune/geometry/virtualrefinement.cc:190-193", "dune/geometry/virtualrefinement.cc:479-482", "dune/geometry/multilineargeometry.hh:255-259", "dune/geometry/multilineargeometry.hh:289-298", "dune/geometry/multilineargeometry.hh:350-353", "dune/geometry/refinement/hcube.cc", "dune/geometry/refinement/hcubetriangulation.cc"]}
{"id": "C114", "title": "Volumes and integrals over the sub-elements of a refinement add up", "statement": "A caller that sums over the sub-elements of a virtual refinement (composite quadrature, cut cells, mass of subdivided output) maps the vertices, builds a MultiLinearGeometry for every sub-element and adds contributions. Integrals split exactly: the integral over the reference element is the sum, over the sub-elements, of the integrals over their reference element weighted by the integration element of their position. The volumes reported by volume() of the sub-elements add up to volume() of the element.", "quantifier": "all element types of dimension 1 to 13 (1 to 30 for integrals), all types of sub-elements with an implementation, all numbers of intervals, all regular corner positions, all integrable functions", "why_tests_cant": "the refinement tests count sub-elements or compare their sums of reference volumes for a few levels; additivity for all corner positions, all levels and all functions is a statement about measures, and the error of volume() on non-affine elements is of the size of ordinary test tolerances", "anchors": ["dune/geometry/multilineargeometry.hh:363-366", "dune/geometry/virtualrefinement.cc:190-193", "dune/geometry/virtualrefinement.cc:479-482", "dune/geometry/refinement/hcube.cc", "dune/geometry/refinement/simplex.cc"]}
{"id": "C115", "title": "Element matrices computed with a quadrature rule are definite", "statement": "A finite element code loops over a quadrature rule and adds phi_i phi_j weight integrationElement (mass matrix) or the products of the gradients mapped by jacobianInverseTransposed (stiffness matrix). With a rule of order at least 2k the mass matrix of linearly independent polynomials of degree k is symmetric, positive definite and thus invertible, and its entries are the L2 products; the stiffness matrix is positive semidefinite and its kernel consists exactly of the constants; the values at the points determine a polynomial of degree k. The mass matrix of arbitrary functions is positive semidefinite on every geometry with positive integration element.", "quantifier": "all reference elements of dimension up to 30, all orders up to the maximum, the families GaussLegendre, GaussLobatto, GaussRadauLeft and GaussRadauRight, all linearly independent polynomials, all affine geometries (all positive integration elements for the last part)", "why_tests_cant": "the tests of quadrature rules integrate single monomials with a tolerance; definiteness quantifies over all bases of the polynomial space, and a rule with too few points or a negative weight integrates the test functions correctly and still makes element matrices singular or indefinite", "anchors": ["dune/geometry/quadraturerules.hh:66-125", "dune/geometry/quadraturerules/tensorproductquadrature.hh:61-155", "dune/geometry/quadraturerules/simplexquadrature.hh", "dune/geometry/affinegeometry.hh:191-222"]}
{"id": "C116", "title": "Points of the rules of cubes are nodes of Lagrange bases", "statement": "A spectral element code uses the points of a quadrature rule of a cube as interpolation nodes. A rule whose one-dimensional factor has k+1 points (k = order/2 for Gauss-Legendre, order/2+1 for Gauss-Lobatto, (order+1)/2 for Gauss-Radau) has exactly (k+1)^d points, in the cube and with positive weights; every choice of values at the points is attained by exactly one polynomial of degree at most k in every variable. The mass matrix of the Lagrange polynomials, computed with the rule itself, is diagonal with entries weight times integrationElement; for orders of at least k it has the row sums of the exact mass matrix up to the accuracy of the tables.", "quantifier": "all cubes of dimension up to 30, all orders up to the maximum, the families GaussLegendre, GaussLobatto, GaussRadauLeft and GaussRadauRight, all values at the points, all integration elements", "why_tests_cant": "the tests of quadrature rules integrate monomials with a tolerance and never look at the number or the distinctness of the points; a rule with a repeated or an additional point passes them, but the interpolation problem becomes singular or overdetermined, and unisolvence quantifies over all values and polynomials", "anchors": ["dune/geometry/quadraturerules.hh:66-125", "dune/geometry/quadraturerules/tensorproductquadrature.hh:61-155", "dune/geometry/quadraturerules/gausslobattoquadrature.hh", "dune/geometry/quadraturerules/gaussquadrature.hh"]}
{"id": "C117", "title": "Lobatto points on a sub-entity are the points of its own rule", "statement": "Continuous spectral elements identify nodes on faces, edges and vertices: the points of the Gauss-Lobatto rule of a cube that lie on sub-entity (i,c) are exactly the points of the Gauss-Lobatto rule of the same order for the type of the sub-entity, mapped by geometry<c>(i). This holds for every codimension.", "quantifier": "all cubes of dimension 1 to 30, all sub-entities of all codimensions, all orders up to 31", "why_tests_cant": "tests of quadrature rules look at integrals of monomials, which do not notice an end point tabulated as 2.9e-121 instead of 0; comparing the points on sub-entities needs all dimensions, codimensions and orders, since any row of the table may be wrong", "anchors": ["dune/geometry/quadraturerules/gausslobattoquadrature.hh", "dune/geometry/quadraturerules/tensorproductquadrature.hh:61-155", "dune/geometry/referenceelementimplementation.hh"]}
{"id": "C118", "title": "Neighbouring cubes share the Lobatto nodes of their common sub-entities", "statement": "Two multilinear cubes (of equal or different dimension) share a face, edge or vertex, whose corners they may number differently, by a symmetry of the sub-entity. Each element maps the points of its Gauss-Lobatto rule with global(). Every point of one element on the common sub-entity coincides with a point of the other element on it, up to 1e-78 times the extent of the elements; a code may therefore identify degrees of freedom by position. With the same numbering on both sides, and orders whose tables contain 0 and 1, the points are equal.", "quantifier": "all pairs of MultiLinearGeometry of cubes of dimension 1 to 30 in any world dimension, all corner positions, all shared sub-entities of all codimensions, all symmetries, all orders up to 31", "why_tests_cant": "there is one such statement for every pair of elements, every pair of local numberings of the common sub-entity and every order; a wrong entry in one row of the table, in the embedding of one face or in the numbering of its corners shows in few of them, and the geometry tests never compare two elements", "anchors": ["dune/geometry/multilineargeometry.hh:289-298", "dune/geometry/quadraturerules/gausslobattoquadrature.hh", "dune/geometry/quadraturerules/tensorproductquadrature.hh:61-155", "dune/geometry/referenceelementimplementation.hh"]}
{"id": "C119", "title": "The Jacobian of an affine element is constant on the closed element, tips included", "statement": "If the corners of a MultiLinearGeometry are an affine image of the reference corners (always so for simplices), then jacobian() and integrationElement() return the matrix of that affine map and its volume factor at every point of the closed reference element, including the tips, where the code switches to a special case (a comment in the code claims the result is right there).", "quantifier": "all MultiLinearGeometry objects of any reference element type and dimension with affine corners, all world dimensions and tolerances, all points of the closed reference element", "why_tests_cant": "the special case is entered only at points within a few rounding errors of a tip, once per nested cone; tests with fixed quadrature points reach none or one of these branches, and elements near the origin hide a dropped base term", "anchors": ["dune/geometry/multilineargeometry.hh:776-890", "dune/geometry/multilineargeometry.hh:740-775", "dune/geometry/multilineargeometry.hh:350-353"]}
{"id": "C120", "title": "Affine functions pass the patch test on multilinear elements", "statement": "The multilinear shape functions of an element add up to one. If the nodal values are those of an affine function of the world coordinates, the interpolant equals the function at global(x), and the gradient obtained by applying jacobianInverseTransposed(x) to the local gradient is the gradient of the function (for surfaces and curves: its tangential part), whatever the shape of the element. The stiffness matrix assembled from such gradients is symmetric, its rows add up to zero, and the energy of an affine function is the square of its gradient times the quadrature volume.", "quantifier": "all reference element types and dimensions, all corner positions with a Jacobian of full rank, all affine functions, all points that are not within the tolerance of a tip (tips included), all sets of quadrature points and weights", "why_tests_cant": "the statement couples three functions (global, jacobianTransposed, jacobianInverseTransposed) for a continuum of element shapes and points; a transposed entry or a mixed-up corner is invisible on the symmetric elements of the tests", "anchors": ["dune/geometry/multilineargeometry.hh:289-298", "dune/geometry/multilineargeometry.hh:350-384", "dune/geometry/multilineargeometry.hh:486-510", "dune/geometry/multilineargeometry.hh:738-890", "dune/geometry/affinegeometry.hh"]}
{"id": "C121", "title": "Transformed vector fields keep fluxes, circulations and products, and match across facets", "statement": "A caller transforms vector fields of the reference element with the contravariant map (jacobian * v / integrationElement) or the covariant map (jacobianInverseTransposed * v), as for Raviart-Thomas and Nedelec elements. The flux through a facet, computed with the mapped outer normal or with the unit normal and the integration element of the facet's own geometry, is the flux on the reference facet; the circulation along a tangent and the product of a contravariant with a covariant field are those of the reference element. Across a common facet the normal (tangential) component is continuous exactly if the reference fluxes are opposite (the reference tangential components agree under the renumbering). On cubes the covariant map takes the reference gradient of u(global(x)) to the gradient of u, and the reference divergence of a field is the divergence of its contravariant image times the integration element, also on elements that are not affine and on mirrored ones.", "quantifier": "all geometry classes (whatever Jacobian they pass to the matrix helper) for products and circulations; all MultiLinearGeometry elements with regular Jacobian up to dimension 31, all facets, all pairs of neighbours and renumberings, all fields, all points of the facet away from tips (for cubes: all points)", "why_tests_cant": "the relations couple the normals, embeddings and numbering tables of the reference elements with three functions of the geometry at a continuum of points and shapes; the tests check none of them", "anchors": ["dune/geometry/multilineargeometry.hh:350-384", "dune/geometry/multilineargeometry.hh:486-510", "dune/geometry/affinegeometry.hh:101-140", "dune/geometry/referenceelementimplementation.hh", "dune/geometry/utility/defaultmatrixhelper.hh"]}
{"id": "C122", "title": "Derivatives along sub-entities of every codimension agree with the sub-entity's own geometry and between all elements that share it", "statement": "For every sub-entity (edge, face, ...) of a MultiLinearGeometry the product of the embedding's Jacobian with jacobianTransposed() of the element is jacobianTransposed() of the geometry spanned by the sub-entity's corners. Hence the integration element of an edge or face can be computed from any element that contains it, circulations of covariant fields along edges are those of the reference element, and elements of possibly different dimension and type that share a sub-entity of any codimension agree on its tangents up to the renumbering, and on the tangential component of covariant fields exactly if the reference components agree.", "quantifier": "all MultiLinearGeometry elements of dimension up to 31 in any world dimension, all sub-entities of all codimensions, all points of the closed sub-entity, all pairs of elements that share a sub-entity", "why_tests_cant": "the relation couples the numbering and embedding tables with the recursion over nested cones; on edges that consist of tips (last vertical edge of a prism) the code takes the special branch at every point, which tests with inner quadrature points never enter", "anchors": ["dune/geometry/multilineargeometry.hh:776-890", "dune/geometry/multilineargeometry.hh:350-384", "dune/geometry/referenceelementimplementation.hh"]}
{"id": "C123", "title": "Quadrature fluxes through the facets of a distorted cube balance with the quadrature of the divergence; uniform flow is preserved", "statement": "Take the rule of order p for a quadrilateral, hexahedron or higher cube and the rules of order p for its facets, and a MultiLinearGeometry that need not be affine. For every polynomial u of degree at most p-(d-2) in world coordinates the rule of the element applied to integrationElement times a partial derivative of u equals the sum over the facets of the facet rules applied to u times integrationElement * jacobianInverseTransposed * integrationOuterNormal, up to the accuracy of the tables. In particular a uniform flow has no net flux through the facets (quadrilaterals: every rule; hexahedra: from the midpoint rule on), and the volume computed from the element is that computed from the facets. On affine images of reference elements of every shape (in particular on every triangle and tetrahedron that is not degenerate) the same holds for vector fields of degree at most p, for the loops over the rules with jacobianInverseTransposed and integrationElement, provided no point of the rules lies closer than the tolerance to a tip of the element without being the tip.", "quantifier": "all MultiLinearGeometry elements on cubes of dimension 1 to 30 with invertible Jacobian (either orientation), all families given by tables, all orders up to maxOrder, all polynomials, all components; all affine images of reference elements of dimension 1 to 30 for all fields of degree at most the order; all triangles, GaussLegendre orders up to 12; all tetrahedra, orders up to 5", "why_tests_cant": "the identity couples the rules of two dimensions, embeddings, normals and the cofactors of a non-constant Jacobian; the tests check geometries and rules separately and only at sample shapes", "anchors": ["dune/geometry/multilineargeometry.hh:289-384", "dune/geometry/referenceelementimplementation.hh", "dune/geometry/quadraturerules.hh", "dune/geometry/quadraturerules/tensorproductquadrature.hh"]}
{"id": "C124", "title": "Finite volume loop over a mesh is conservative: fluxes through inner facets cancel, whatever the corner numberings", "statement": "Loop over all elements of a conforming mesh of MultiLinearGeometry elements (cubes, or any elements in the plane, or tetrahedra) and over all facets of each, adding the quadrature of F . (integrationElement * jacobianInverseTransposed * integrationOuterNormal) over the facet. The result is the sum of the fluxes through the boundary facets alone; each inner facet, which is computed twice with different embeddings, normals and corner numberings, contributes at most the accuracy of the quadrature table times the size of the flux.", "quantifier": "all finite meshes of cubes of dimension 2 to 30, all pairings of inner facets with any symmetry of the facet as renumbering, all vector fields, all orders up to maxOrder of GaussLegendre and GaussLobatto; all finite meshes of triangles and quadrilaterals in the plane, all orders up to maxOrder of GaussLegendre; all finite meshes of tetrahedra, GaussLegendre orders up to 12 except 6, 7 and 11 (whose triangle rules are not symmetric or touch the edges)", "why_tests_cant": "the statement is about every mesh and every relative orientation of neighbours; the library has no mesh in its tests, and a loss of conservation shows only in long computations", "anchors": ["dune/geometry/multilineargeometry.hh:289-384", "dune/geometry/referenceelementimplementation.hh:540-600", "dune/geometry/quadraturerules.hh:274-329"]}
{"id": "C125", "title": "On a conforming mesh of distorted cubes the quadrature of the divergence equals the quadrature of the boundary flux", "statement": "Take a conforming mesh of MultiLinearGeometry cubes that need not be affine and a vector field F whose components are polynomials of degree at most p-(d-2) in world coordinates. Sum the rule of order p applied to div F times integrationElement over all elements; sum the facet rules of order p applied to F . (integrationElement * jacobianInverseTransposed * integrationOuterNormal) over the boundary facets only. Both sums agree up to the accuracy of the quadrature tables, whatever the corner numberings of the elements. In particular a field without divergence has no net flux through the boundary of the mesh, and the volume of the mesh can be computed from its boundary.", "quantifier": "all finite conforming meshes of cubes of dimension 2 to 30 with invertible Jacobians (either orientation), all relative numberings of neighbours, all polynomial fields, all orders up to maxOrder of GaussLegendre and GaussLobatto; all finite meshes of triangles (GaussLegendre orders up to 12) and of tetrahedra (orders up to 5) that are not degenerate, all polynomial fields of degree at most the order", "why_tests_cant": "couples two rules, geometries, embeddings and normals over every mesh; the library has no mesh in its tests, and a small systematic imbalance is not visible at single elements", "anchors": ["dune/geometry/multilineargeometry.hh:289-384", "dune/geometry/referenceelementimplementation.hh:540-600", "dune/geometry/quadraturerules.hh:274-329", "dune/geometry/quadraturerules/tensorproductquadrature.hh"]}
