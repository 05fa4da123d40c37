{
 "claims": [
  {
   "property": "C01",
   "status": "proved",
   "theorems": [
    "Verif.Typ.C01_roundtrip",
    "Verif.Typ.C01_layout",
    "Verif.Typ.C01_injective"
   ],
   "note": "for all in-range field values"
  },
  {
   "property": "C02",
   "status": "partial",
   "theorems": [
    "Verif.Typ.C02_default",
    "Verif.Typ.C02_eq_spec",
    "Verif.Typ.C02_eq_equivalence",
    "Verif.Typ.C02_lt_strict_weak",
    "Verif.Typ.C02_counterexample",
    "Verif.Typ.C02_agreement_partial"
   ],
   "note": "== is equality of shapes and an equivalence, < a strict weak order; but the two disagree on none types of different dimension (C02_counterexample); agreement proved for regular types and for types of one dimension"
  },
  {
   "property": "C03",
   "status": "partial",
   "theorems": [
    "Verif.Typ.C03_named",
    "Verif.Typ.C03_isSimplex",
    "Verif.Typ.C03_isSimplex_spec",
    "Verif.Typ.C03_isCube_spec",
    "Verif.Typ.C03_isCube",
    "Verif.Typ.C03_simplex_cube_exclusive",
    "Verif.Typ.C03_dim3_exhaustive",
    "Verif.Typ.C03_vertex_line_counterexample",
    "Verif.Typ.C03_vertex_line_partial"
   ],
   "note": "holds for all regular types; isVertex/isLine are also true of none types of dim 0/1 (C03_vertex_line_counterexample)"
  },
  {
   "property": "C04",
   "status": "proved",
   "theorems": [
    "Verif.Typ.C04_conical",
    "Verif.Typ.C04_prismatic",
    "Verif.Typ.C04_decompose",
    "Verif.Typ.C04_steps",
    "Verif.Typ.C04_steps_all",
    "Verif.Typ.C04_vertex_undefined"
   ],
   "note": "for dim <= 30 (shift width of int), undefined behaviour of isConical()/isPrismatic() in dim 0 recorded in C04_vertex_undefined"
  },
  {
   "property": "C05",
   "status": "proved",
   "theorems": [
    "Verif.Typ.C05_bijection",
    "Verif.Typ.C05_dim31"
   ],
   "note": "for dim <= 30; C05_dim31 shows the value at dim 31 where int arithmetic overflows"
  },
  {
   "property": "C06",
   "status": "proved",
   "theorems": [
    "Verif.Typ.C06_ordered",
    "Verif.Typ.C06_bijection"
   ],
   "note": "for maxdim <= 29"
  },
  {
   "property": "C07",
   "status": "partial",
   "theorems": [
    "Verif.Typ.C07_IfGeometryType",
    "Verif.Typ.C07_toGeometryTypeIdConstant",
    "Verif.Typ.C07_none_counterexample"
   ],
   "note": "holds for regular types; none types are dispatched to the simplex (C07_none_counterexample)"
  },
  {
   "property": "C08",
   "status": "proved",
   "theorems": [
    "Verif.Factory.C08_defined",
    "Verif.Factory.C08_same",
    "Verif.Factory.C08_different",
    "Verif.Factory.C08_object",
    "Verif.Factory.C08_once",
    "Verif.Factory.C08_release",
    "Verif.Factory.C08_object_counterexample",
    "Verif.Factory.C08_reentrant_counterexample"
   ],
   "note": "All histories, mixing the three create methods, nested requests by the user's factory, failures and exceptions; regular types up to dimension 30; the factory must not request the object it is creating. The none type shares the simplex entry (counterexample)."
  },
  {
   "property": "C09",
   "status": "proved",
   "theorems": [
    "Verif.RefTopo.C09_inverts",
    "Verif.RefTopo.C09_sound",
    "Verif.RefTopo.C09_unsupported"
   ],
   "note": ""
  },
  {
   "property": "C10",
   "status": "proved",
   "theorems": [
    "Verif.RefTopo.C10_simplex",
    "Verif.RefTopo.C10_cube",
    "Verif.RefTopo.C10_bounds",
    "Verif.RefTopo.C10_capacity"
   ],
   "note": "all dimensions and ids"
  },
  {
   "property": "C11",
   "status": "proved",
   "theorems": [
    "Verif.RefTopo.C11_euler"
   ],
   "note": "all dimensions and ids"
  },
  {
   "property": "C12",
   "status": "proved",
   "theorems": [
    "Verif.RefTopo.C12_regular",
    "Verif.RefTopo.C12_whole",
    "Verif.RefTopo.C12_simplex_cube",
    "Verif.RefTopo.C12_sizes"
   ],
   "note": "dim <= 31 where the type must fit its 32-bit id (cube predicate: dim <= 30)"
  },
  {
   "property": "C13",
   "status": "proved",
   "theorems": [
    "Verif.RefTopo.C13_valid",
    "Verif.RefTopo.C13_injective",
    "Verif.RefTopo.C13_self",
    "Verif.RefTopo.C13_whole"
   ],
   "note": "all dimensions and ids"
  },
  {
   "property": "C14",
   "status": "proved",
   "theorems": [
    "Verif.RefTopo.C14_transitive"
   ],
   "note": "all chains, dim <= 31"
  },
  {
   "property": "C15",
   "status": "proved",
   "theorems": [
    "Verif.RefTopo.C15_range",
    "Verif.RefTopo.C15_contains",
    "Verif.RefTopo.C15_copy",
    "Verif.RefTopo.C15_selfAssign_counterexample"
   ],
   "note": "ranges, containment, copy construction and assignment between different objects; C15_selfAssign_counterexample records that self-assignment loses the data"
  },
  {
   "property": "C16",
   "status": "proved",
   "theorems": [
    "Verif.RefTopo.C16_vertices_determine",
    "Verif.RefTopo.C16_subset"
   ],
   "note": "all dimensions and ids"
  },
  {
   "property": "C17",
   "status": "proved",
   "theorems": [
    "Verif.RefGeom.C17_count",
    "Verif.RefGeom.C17_distinct",
    "Verif.RefGeom.C17_coordinates",
    "Verif.RefGeom.C17_inside",
    "Verif.RefGeom.C17_simplex",
    "Verif.RefGeom.C17_cube"
   ],
   "note": "all dimensions and ids, exact arithmetic"
  },
  {
   "property": "C18",
   "status": "proved",
   "theorems": [
    "Verif.RefGeom.C18_hull",
    "Verif.RefGeom.C18_public",
    "Verif.RefGeom.C18_mono",
    "Verif.RefGeom.C18_interior",
    "Verif.RefGeom.C18_box"
   ],
   "note": "all dimensions and ids; closed hull = accepted for every positive tolerance, zero tolerance = interior"
  },
  {
   "property": "C19",
   "status": "partial",
   "theorems": [
    "Verif.RefGeom.C19_exact",
    "Verif.RefGeom.C19_volume_partial",
    "Verif.RefGeom.C19_lebesgue_partial",
    "Verif.RefGeom.C19_simplex_cube",
    "Verif.RefGeom.C19_counterexample"
   ],
   "note": "the measure of the reference domain is proved for every dimension; volume() equals it up to dimension 13; from dimension 14 the 32-bit baseValue truncates (C19_counterexample)"
  },
  {
   "property": "C20",
   "status": "proved",
   "theorems": [
    "Verif.RefGeom.C20_corners",
    "Verif.RefGeom.C20_basic",
    "Verif.RefGeom.C20_injective",
    "Verif.RefGeom.C20_chain",
    "Verif.RefGeom.C20_onto"
   ],
   "note": "corner correspondence, onto, injective, chain law"
  },
  {
   "property": "C21",
   "status": "proved",
   "theorems": [
    "Verif.RefGeom.C21_mean",
    "Verif.RefGeom.C21_inside",
    "Verif.RefGeom.C21_vertex",
    "Verif.RefGeom.C21_embedding"
   ],
   "note": ""
  },
  {
   "property": "C22",
   "status": "proved",
   "theorems": [
    "Verif.RefGeom.C22_count",
    "Verif.RefGeom.C22_orthogonal",
    "Verif.RefGeom.C22_outward",
    "Verif.RefGeom.C22_length",
    "Verif.RefGeom.C22_closed"
   ],
   "note": "length as square against the Gram determinant of the facet embedding"
  },
  {
   "property": "C23",
   "status": "proved",
   "theorems": [
    "Verif.VertexOrder.C23_range",
    "Verif.VertexOrder.C23_relative_order",
    "Verif.VertexOrder.C23_permutation",
    "Verif.VertexOrder.C23_idempotent",
    "Verif.VertexOrder.C23_invariant",
    "Verif.VertexOrder.C23_subentity",
    "Verif.VertexOrder.C23_equals",
    "Verif.VertexOrder.C23_iterator"
   ],
   "note": ""
  },
  {
   "property": "C24",
   "status": "proved",
   "theorems": [
    "Verif.MatHelp.C24_cholesky_succeeds",
    "Verif.MatHelp.C24_cholesky_lower_triangle",
    "Verif.MatHelp.C24_cholesky_sound",
    "Verif.MatHelp.C24_cholesky_rejects"
   ],
   "note": "success exactly on positive definite input, identity, positive diagonal"
  },
  {
   "property": "C25",
   "status": "partial",
   "theorems": [
    "Verif.MatHelp.C25_invL",
    "Verif.MatHelp.C25_detL",
    "Verif.MatHelp.C25_triangular_solve",
    "Verif.MatHelp.C25_triangular_mul",
    "Verif.MatHelp.C25_solve_mul",
    "Verif.MatHelp.C25_spdDetA_partial",
    "Verif.MatHelp.C25_spdInvA_partial",
    "Verif.MatHelp.C25_spdInvAx",
    "Verif.MatHelp.C25_spdInvAx_singular",
    "Verif.MatHelp.C25_detATA_partial",
    "Verif.MatHelp.C25_spdDetA_counterexample",
    "Verif.MatHelp.C25_detATA_counterexample"
   ],
   "note": "inverse and triangular solves proved; documented return value refuted: spdDetA/spdInvA/detATA return sqrt(det)"
  },
  {
   "property": "C26",
   "status": "proved",
   "theorems": [
    "Verif.MatHelp.C26_rightInvA",
    "Verif.MatHelp.C26_rightInvA_singular",
    "Verif.MatHelp.C26_leftInvA",
    "Verif.MatHelp.C26_xTRightInvA",
    "Verif.MatHelp.C26_xTRightInvA_singular",
    "Verif.MatHelp.C26_leftInvAx",
    "Verif.MatHelp.C26_leftInvAx_singular"
   ],
   "note": ""
  },
  {
   "property": "C27",
   "status": "partial",
   "theorems": [
    "Verif.MatHelp.C27_special_cases",
    "Verif.MatHelp.C27_sqrtDetAAT_partial",
    "Verif.MatHelp.C27_sqrtDetAAT_singular",
    "Verif.MatHelp.C27_sqrtDetAAT_counterexample"
   ],
   "note": "proved for special sizes, full row rank and n<m; rank-deficient input in the generic case trips the assertion (counterexample)"
  },
  {
   "property": "C28",
   "status": "proved",
   "theorems": [
    "Verif.Affine.C28_constructible",
    "Verif.Affine.C28_global",
    "Verif.Affine.C28_local_global",
    "Verif.Affine.C28_projection",
    "Verif.Affine.C28_global_local",
    "Verif.Affine.C28_corner_center"
   ],
   "note": ""
  },
  {
   "property": "C29",
   "status": "partial",
   "theorems": [
    "Verif.Affine.C29_jacobians",
    "Verif.Affine.C29_derivative",
    "Verif.Affine.C29_integrationElement",
    "Verif.Affine.C29_volume_lebesgue",
    "Verif.Affine.C29_corners_partial",
    "Verif.Affine.C29_corners_simplex",
    "Verif.Affine.C29_corners_low",
    "Verif.Affine.C29_corners_counterexample"
   ],
   "note": "The corner constructor reads its rows from corners 1..dim, so it reproduces all corners for simplices and in dimension up to 2, but not for the 3d cube and pyramid (counterexample). The volume is the Lebesgue measure up to dimension 13."
  },
  {
   "property": "C30",
   "status": "proved",
   "theorems": [
    "Verif.Cube.C30_box",
    "Verif.Cube.C30_inverse",
    "Verif.Cube.C30_volume",
    "Verif.Cube.C30_lebesgue",
    "Verif.Cube.C30_affine",
    "Verif.Cube.C30_derivative",
    "Verif.Cube.C30_construct",
    "Verif.Cube.C30_point",
    "Verif.Cube.C30_reversed_counterexample"
   ],
   "note": "Bounds in order (documented precondition); reversed bounds give a negative volume (counterexample)."
  },
  {
   "property": "C31",
   "status": "proved",
   "theorems": [
    "Verif.MultiLinear.C31_interpolation",
    "Verif.MultiLinear.C31_affine",
    "Verif.MultiLinear.C31_affine_closed",
    "Verif.MultiLinear.C31_affine_cube",
    "Verif.MultiLinear.C31_cube_formula",
    "Verif.MultiLinear.C31_simplex_formula"
   ],
   "note": "Exact for every point that passes the inside test with the class tolerance as margin (on cubes: all points); C31_affine_closed bounds the error by tolerance times the largest coordinate on the remaining strip at the pyramid apex, where the code switches formula."
  },
  {
   "property": "C32",
   "status": "proved",
   "theorems": [
    "Verif.MultiLinear.C32_derivative",
    "Verif.MultiLinear.C32_derivative_cube",
    "Verif.MultiLinear.C32_affine"
   ],
   "note": "At every point with the tolerance margin, on cubes everywhere."
  },
  {
   "property": "C33",
   "status": "partial",
   "theorems": [
    "Verif.MultiLinear.C33_complete",
    "Verif.MultiLinear.C33_simplex",
    "Verif.MultiLinear.C33_affine_partial",
    "Verif.MultiLinear.C33_affine_exact",
    "Verif.MultiLinear.C33_affine_counterexample"
   ],
   "note": "The property fails (C33_affine_counterexample): the comparison is with a tolerance. Proved: error bounds, exactness if affine for all smaller tolerances, completeness, simplices."
  },
  {
   "property": "C34",
   "status": "partial",
   "theorems": [
    "Verif.MultiLinear.C34_nonaffine_partial",
    "Verif.MultiLinear.C34_affine_partial",
    "Verif.MultiLinear.C34_counterexample"
   ],
   "note": "The property fails (C34_counterexample). Proved: all histories for non-affine geometries and for exactly affine geometries of full rank."
  },
  {
   "property": "C35",
   "status": "proved",
   "theorems": [
    "Verif.MultiLinear.C35_last_correction",
    "Verif.MultiLinear.C35_correction_meaning",
    "Verif.MultiLinear.C35_fuel",
    "Verif.MultiLinear.C35_affine",
    "Verif.MultiLinear.C35_center",
    "Verif.MultiLinear.C35_terminates_counterexample"
   ],
   "note": "Last correction, its least-squares meaning, exactness for affine maps of full rank. C35_terminates_counterexample: the loop need not terminate."
  },
  {
   "property": "C36",
   "status": "partial",
   "theorems": [
    "Verif.GaussNewton.C36_outcome_partial",
    "Verif.GaussNewton.C36_ok",
    "Verif.GaussNewton.C36_monotone",
    "Verif.GaussNewton.C36_no_pass",
    "Verif.GaussNewton.C36_no_line_search",
    "Verif.GaussNewton.C36_exact_start",
    "Verif.GaussNewton.C36_counterexample",
    "Verif.GaussNewton.C36_affine",
    "Verif.GaussNewton.C36_descent"
   ],
   "note": "Complete characterisation of the outcome (C36_outcome_partial) for at least one allowed outer and inner iteration. C36_full, which also asks for OK on an exact start value and for checked results with no iterations, is refuted by C36_counterexample."
  },
  {
   "property": "C37",
   "status": "proved",
   "theorems": [
    "Verif.Mapped.C37_chain_rule",
    "Verif.Mapped.C37_corners",
    "Verif.Mapped.C37_center",
    "Verif.Mapped.C37_inverse",
    "Verif.Mapped.C37_integrationElement",
    "Verif.Mapped.C37_local",
    "Verif.Mapped.C37_local_center",
    "Verif.Mapped.C37_local_center_counterexample",
    "Verif.Mapped.C37_volume_constant",
    "Verif.Mapped.C37_multilinear"
   ],
   "note": "Also records that local(global(center)) always throws (C37_local_center, C37_local_center_counterexample)."
  },
  {
   "property": "C38",
   "status": "proved",
   "theorems": [
    "Verif.Lfe.C38_global",
    "Verif.Lfe.C38_construct",
    "Verif.Lfe.C38_derivative",
    "Verif.Lfe.C38_inverse",
    "Verif.Lfe.C38_affine",
    "Verif.Lfe.C38_affine_function",
    "Verif.Lfe.C38_corner",
    "Verif.Lfe.C38_center",
    "Verif.Lfe.C38_corner_lagrange",
    "Verif.Lfe.C38_q1",
    "Verif.Lfe.C38_p1",
    "Verif.Lfe.C38_affineImpl",
    "Verif.Lfe.C38_affine_cached",
    "Verif.Lfe.C38_affine_fresh",
    "Verif.Lfe.C38_affine_complete",
    "Verif.Lfe.C38_affine_q1",
    "Verif.Lfe.C38_local"
   ],
   "note": "For arbitrary local bases given as functions; also the affine() flag and the first order Lagrange elements."
  },
  {
   "property": "C39",
   "status": "proved",
   "theorems": [
    "Verif.Refine.C39_permutation",
    "Verif.Refine.C39_bijective",
    "Verif.Refine.C39_injective",
    "Verif.Refine.C39_identity",
    "Verif.Refine.C39_range"
   ],
   "note": "all dimensions"
  },
  {
   "property": "C40",
   "status": "proved",
   "theorems": [
    "Verif.Refine.C40_index",
    "Verif.Refine.C40_end",
    "Verif.Refine.C40_inside",
    "Verif.Refine.C40_lattice"
   ],
   "note": "all dimensions at least 1, all interval counts at least 1"
  },
  {
   "property": "C41",
   "status": "proved",
   "theorems": [
    "Verif.Refine.C41_index",
    "Verif.Refine.C41_end",
    "Verif.Refine.C41_end_state",
    "Verif.Refine.C41_inside",
    "Verif.Refine.C41_once",
    "Verif.Refine.C41_increment"
   ],
   "note": "all dimensions at least 1; the search loop of increment is shown to need at most dim! passes"
  },
  {
   "property": "C42",
   "status": "partial",
   "theorems": [
    "Verif.Refine.C42_order_partial",
    "Verif.Refine.C42_set_partial",
    "Verif.Refine.C42_order_counterexample",
    "Verif.Refine.C42_determinant"
   ],
   "note": "Simplex refinement: indices in range, vertexIndices lists exactly the corners of geometry() (as a set, and in path order), corner determinant 1/n^d. The order differs from geometry(): counterexample."
  },
  {
   "property": "C43",
   "status": "partial",
   "theorems": [
    "Verif.Refine.HCube.C43_index",
    "Verif.Refine.HCube.C43_equals",
    "Verif.Refine.HCube.C43_coord_index",
    "Verif.Refine.HCube.C43_vertices",
    "Verif.Refine.HCube.C43_elements",
    "Verif.Refine.HCube.C43_cell",
    "Verif.Refine.HCube.C43_vertexIndices",
    "Verif.Refine.HCube.C43_center",
    "Verif.Refine.HCube.C43_volume",
    "Verif.Refine.HCube.C43_vertex_geometry_partial",
    "Verif.Refine.HCube.C43_vertex_geometry_counterexample",
    "Verif.Refine.HCube.C43_point"
   ],
   "note": "Hypercube refinement: numbering, vertices, cells, corner order, centre, volume proved. Vertex geometry() is wrong: counterexample and partial theorem."
  },
  {
   "property": "C44",
   "status": "partial",
   "theorems": [
    "Verif.Refine.Triang.C44_vertex_index",
    "Verif.Refine.Triang.C44_vertex_end",
    "Verif.Refine.Triang.C44_element_index",
    "Verif.Refine.Triang.C44_element_end_partial",
    "Verif.Refine.Triang.C44_element_end_counterexample",
    "Verif.Refine.Triang.C44_cube_scheme",
    "Verif.Refine.Triang.C44_prism_scheme",
    "Verif.Refine.Triang.C44_pyramid_scheme",
    "Verif.Refine.Triang.C44_inside",
    "Verif.Refine.Triang.C44_vertexIndices"
   ],
   "note": "Cube, prism and pyramid triangulations: counts, numbering, loop ends, vertexIndices vs geometry() corners, vertices in the reference element, all proved. Zero intervals: eBegin != eEnd, counterexample."
  },
  {
   "property": "C45",
   "status": "partial",
   "theorems": [
    "Verif.Refine.Virtual.C45_dispatch",
    "Verif.Refine.Virtual.C45_line",
    "Verif.Refine.Virtual.C45_none_counterexample",
    "Verif.Refine.Virtual.C45_wrapper_partial",
    "Verif.Refine.Virtual.C45_equality",
    "Verif.Refine.Virtual.C45_wrapper_counterexample"
   ],
   "note": "buildRefinement returns the right implementation for every pair of regular types; iterator wrapper refines value semantics for all histories without self-assignment (use after free, counterexample); none types are refined as simplices (counterexample)."
  },
  {
   "property": "C46",
   "status": "proved",
   "theorems": [
    "Verif.Refine.C46_levels",
    "Verif.Refine.C46_levels_range",
    "Verif.Refine.C46_monotone",
    "Verif.Refine.C46_strict",
    "Verif.Refine.C46_count"
   ],
   "note": "Levels, monotone and strictly monotone counts for all refinements, range of int."
  },
  {
   "property": "C47",
   "status": "proved",
   "theorems": [
    "Verif.Quad.C47_tensor",
    "Verif.Quad.C47_conical",
    "Verif.Quad.C47_jacobi",
    "Verif.Quad.C47_conical_order_needed"
   ],
   "note": "products of arbitrary exact rules on every topology, all polynomials, Lebesgue integral over the reference element"
  },
  {
   "property": "C48",
   "status": "partial",
   "theorems": [
    "Verif.Quad.C48_inside",
    "Verif.Quad.C48_positive",
    "Verif.Quad.C48_size",
    "Verif.Quad.C48_volume",
    "Verif.Quad.C48_positive_counterexample",
    "Verif.Quad.C48_rule_partial",
    "Verif.Quad.C48_cube_size"
   ],
   "note": "products: inside, positive, size, volume for all positive rules proved; delivered rules up to dimension 30; the tabulated triangle rule of order 3 has a negative weight and cones over Lobatto/Radau-right rules have zero weights at the apex (counterexample)"
  },
  {
   "property": "C49",
   "status": "proved",
   "theorems": [
    "Verif.Quad.C49_interval",
    "Verif.Quad.C49_interval_points",
    "Verif.Quad.C49_triangle",
    "Verif.Quad.C49_tetrahedron",
    "Verif.Quad.C49_prism",
    "Verif.Quad.C49_rule",
    "Verif.Quad.C49_rule_jacobi",
    "Verif.Quad.C49_rule_lapack"
   ],
   "note": "all six 1D tables, all triangle/tetrahedron blocks and the effective prism block, and the delivered rules up to dimension 30; exactness up to the decimals of the tables stated as an explicit error bound"
  },
  {
   "property": "C50",
   "status": "partial",
   "theorems": [
    "Verif.Quad.C50_simplex",
    "Verif.Quad.C50_maxOrder",
    "Verif.Quad.C50_maxOrder_n",
    "Verif.Quad.C50_counterexample",
    "Verif.Quad.C50_partial",
    "Verif.Quad.C50_jacobi_partial",
    "Verif.Quad.C50_out_of_range",
    "Verif.Quad.C50_table",
    "Verif.Quad.C50_none_counterexample"
   ],
   "note": "order and type delivered for all types up to dimension 30 and all orders up to maxOrder; out of range orders are undefined behaviour instead of an exception (counterexample), Gauss-Jacobi orders above 60 need LAPACK"
  },
  {
   "property": "C51",
   "status": "proved",
   "theorems": [
    "Verif.Quad.C51_transparent",
    "Verif.Quad.C51_stable",
    "Verif.Quad.C51_same_object",
    "Verif.Quad.C51_malformed_none_counterexample"
   ],
   "note": "Any history of requests for valid regular types and the none type up to dimension 30, one thread, all quadrature families. A none type with a nonzero topology id shares a slot with the plain one (C51_malformed_none_counterexample)."
  },
  {
   "property": "C52",
   "status": "proved",
   "theorems": [
    "Verif.Quad.C52_size",
    "Verif.Quad.C52_points",
    "Verif.Quad.C52_all",
    "Verif.Quad.C52_inside",
    "Verif.Quad.C52_weights",
    "Verif.Quad.C52_sign",
    "Verif.Quad.C52_error",
    "Verif.Quad.C52_exact",
    "Verif.Quad.C52_oscillation",
    "Verif.Quad.C52_convergence",
    "Verif.Quad.C52_rate",
    "Verif.Quad.C52_zero",
    "Verif.Quad.C52_assert"
   ],
   "note": "Every base rule on a simplex, all dimensions up to 31, every n > 0 (n = 0 gives an empty rule, C52_zero). Polynomial exactness of any degree, error transfer, convergence and rate besides the stated claims."
  },
  {
   "property": "C53",
   "status": "partial",
   "theorems": [
    "Verif.RefElem.C53_general",
    "Verif.RefElem.C53_named",
    "Verif.RefElem.C53_iterate",
    "Verif.RefElem.C53_equal_counterexample",
    "Verif.RefElem.C53_equal_partial",
    "Verif.RefElem.C53_default",
    "Verif.RefElem.C53_equivalence",
    "Verif.RefElem.C53_undefined",
    "Verif.RefElem.C53_none_counterexample",
    "Verif.RefElem.C53_same_answers"
   ],
   "note": "Lookup, named accessors and iteration are proved. Equality of the reference elements of equal types fails if the topology ids differ (counterexample); such elements answer all queries alike (C53_same_answers)."
  },
  {
   "property": "C54",
   "status": "partial",
   "theorems": [
    "Verif.Mapped.C54_run_partial",
    "Verif.Mapped.C54_unique",
    "Verif.Mapped.C54_beyond",
    "Verif.Mapped.C54_counterexample",
    "Verif.Mapped.C54_classes"
   ],
   "note": "The run is fixed by C54_run_partial when all orders up to the iteration bound exist; C54_full is refuted by C54_counterexample: rules end at order 61 while the loop runs up to order 99."
  },
  {
   "property": "C55",
   "status": "proved",
   "theorems": [
    "Verif.RefTopo.C55_equal_types"
   ],
   "note": ""
  },
  {
   "property": "C56",
   "status": "proved",
   "theorems": [
    "Verif.RefTopo.C56_diamond"
   ],
   "note": ""
  },
  {
   "property": "C57",
   "status": "proved",
   "theorems": [
    "Verif.Flux.C57_restriction_cube",
    "Verif.MultiLinear.C57_restriction"
   ],
   "note": ""
  },
  {
   "property": "C58",
   "status": "partial",
   "theorems": [
    "Verif.Refine.Triang.C58_cube_prism",
    "Verif.Refine.Triang.C58_pyramid_partial",
    "Verif.Refine.Triang.C58_pyramid_counterexample",
    "Verif.Refine.Triang.C58_simplex_partial",
    "Verif.Refine.Triang.C58_simplex_counterexample"
   ],
   "note": "True for triangulated cubes and prisms; counterexamples for simplex, pyramid (and cube, see C43_vertex_geometry); partial theorems say where geometry() sits instead."
  },
  {
   "property": "C59",
   "status": "proved",
   "theorems": [
    "Verif.Refine.C59_inverse",
    "Verif.Refine.C59_image"
   ],
   "note": "Inverse maps and image of the reference simplex for every permutation and dimension."
  },
  {
   "property": "C60",
   "status": "proved",
   "theorems": [
    "Verif.Refine.HCube.C60_cube_cover",
    "Verif.Refine.HCube.C60_cube_disjoint",
    "Verif.Refine.C60_inside",
    "Verif.Refine.C60_diameter",
    "Verif.Refine.C60_cover",
    "Verif.Refine.C60_disjoint",
    "Verif.Refine.Triang.C60_triang_inside",
    "Verif.Refine.Triang.C60_triang_cover",
    "Verif.Refine.Triang.C60_triang_disjoint",
    "Verif.Refine.Triang.C60_triang_contained"
   ],
   "note": "Simplex, cube, and triangulated cube, prism, pyramid: inside, cover, interiors disjoint."
  },
  {
   "property": "C61",
   "status": "proved",
   "theorems": [
    "Verif.Quad.C61_gauss",
    "Verif.Quad.C61_sharp",
    "Verif.Quad.C61_unique",
    "Verif.Quad.C61_solver",
    "Verif.Quad.C61_rule",
    "Verif.Quad.C61_order"
   ],
   "note": "for every solver that meets the contract; exact real arithmetic"
  },
  {
   "property": "C62",
   "status": "proved",
   "theorems": [
    "Verif.MatHelp.C62_vector",
    "Verif.MatHelp.C62_ATBT",
    "Verif.MatHelp.C62_AAT",
    "Verif.MatHelp.C62_triangles"
   ],
   "note": "all sizes; AAT_L for n > 0 (it reads the first column)"
  },
  {
   "property": "C63",
   "status": "partial",
   "theorems": [
    "Verif.Py.C63_roundtrip",
    "Verif.Py.C63_injective",
    "Verif.Py.C63_names_counterexample",
    "Verif.Py.C63_names_partial"
   ],
   "note": "round trip and injectivity proved; equal types of dimension four and more may print differently (counterexample)"
  },
  {
   "property": "C64",
   "status": "partial",
   "theorems": [
    "Verif.Py.C64_arguments",
    "Verif.Py.C64_reads_counterexample",
    "Verif.Py.C64_strLt",
    "Verif.Py.C64_lowerBound",
    "Verif.Py.C64_reads_partial",
    "Verif.Py.C64_numbers",
    "Verif.Py.C64_wraps"
   ],
   "note": "proved for dimensions in range; counterexamples for large dimensions; argument parsing proved for all strings"
  },
  {
   "property": "C65",
   "status": "partial",
   "theorems": [
    "Verif.Py.C65_hash_counterexample",
    "Verif.Py.C65_hash_partial",
    "Verif.Py.C65_cache",
    "Verif.Py.C65_assign",
    "Verif.Py.C65_same_object",
    "Verif.Py.C65_referenceElement",
    "Verif.Py.C65_quadratureRule"
   ],
   "note": "caches proved; hash contract fails for none types of different dimension (counterexample), proved otherwise"
  },
  {
   "property": "C66",
   "status": "proved",
   "theorems": [
    "Verif.Py.C66_below",
    "Verif.Py.C66_checked",
    "Verif.Py.C66_subEntity",
    "Verif.Py.C66_tuples"
   ],
   "note": ""
  },
  {
   "property": "C67",
   "status": "partial",
   "theorems": [
    "Verif.Py.C67_arrays_counterexample",
    "Verif.Py.C67_arrays_partial",
    "Verif.Py.C67_integrate_counterexample",
    "Verif.Py.C67_integrate_partial"
   ],
   "note": "counterexamples: vertex or empty rules, geometries; proved otherwise"
  },
  {
   "property": "C68",
   "status": "partial",
   "theorems": [
    "Verif.Py.C68_quadratureRule",
    "Verif.Py.C68_geometry_counterexample",
    "Verif.Py.C68_geometry_partial"
   ],
   "note": "quadrature rules proved; multilinear geometries: counterexample and exact count"
  },
  {
   "property": "C69",
   "status": "proved",
   "theorems": [
    "Verif.Quad.C69_answers",
    "Verif.Quad.C69_same_object",
    "Verif.Quad.C69_stable",
    "Verif.Quad.C69_exclusive",
    "Verif.Quad.C69_progress",
    "Verif.Quad.C69_terminates",
    "Verif.Quad.C69_complete",
    "Verif.Quad.C69_sequential"
   ],
   "note": "any number of threads and interleavings; call_once and static initialisation by contract"
  },
  {
   "property": "C70",
   "status": "proved",
   "theorems": [
    "Verif.RefGeom.C70_partition",
    "Verif.RefGeom.C70_subset",
    "Verif.RefGeom.C70_incidence",
    "Verif.RefGeom.C70_intersection",
    "Verif.RefGeom.C70_boundary",
    "Verif.RefGeom.C70_position"
   ],
   "note": "stratification by relative interiors, incidence = subEntities, intersections, boundary, positions"
  },
  {
   "property": "C71",
   "status": "proved",
   "theorems": [
    "Verif.Quad.C71_divergence",
    "Verif.Quad.C71_field",
    "Verif.Quad.C71_parts"
   ],
   "note": "divergence theorem for C1 functions and fields, integration by parts"
  },
  {
   "property": "C72",
   "status": "proved",
   "theorems": [
    "Verif.Quad.C72_affine_integral",
    "Verif.Quad.C72_affine_divergence",
    "Verif.Quad.C72_multilinear_integral",
    "Verif.Quad.C72_multilinear_divergence",
    "Verif.Quad.C72_mapped",
    "Verif.Quad.C72_localFE"
   ],
   "note": "transformation formula and divergence theorem for AffineGeometry (all topologies), MultiLinearGeometry (cubes), MappedGeometry, LocalFiniteElementGeometry"
  },
  {
   "property": "C73",
   "status": "partial",
   "theorems": [
    "Verif.Refine.C73_simplex",
    "Verif.Refine.C73_simplex_index",
    "Verif.Refine.Triang.C73_cube_partial",
    "Verif.Refine.Triang.C73_prism",
    "Verif.Refine.Triang.C73_pyramid",
    "Verif.Refine.Triang.C73_same_kuhn",
    "Verif.Refine.Triang.C73_index_split",
    "Verif.Refine.Triang.C73_cube_counterexample",
    "Verif.Refine.C73_simplex_continuous",
    "Verif.Refine.Triang.C73_triang_continuous",
    "Verif.Refine.HCube.C73_cubes"
   ],
   "note": "simplices and cubes into cubes in all dimensions, prisms, pyramids; triangulated cubes up to dimension three (false in dimension four)"
  },
  {
   "property": "C74",
   "status": "proved",
   "theorems": [
    "Verif.Quad.C74_cube",
    "Verif.Quad.C74_cube_jacobi",
    "Verif.Quad.C74_affine",
    "Verif.Quad.C74_multilinear",
    "Verif.Quad.C74_localFE"
   ],
   "note": "affine over all reference elements, multilinear cubes, polynomial finite elements; full-dimensional geometries; up to the decimals of the tables"
  },
  {
   "property": "C75",
   "status": "partial",
   "theorems": [
    "Verif.Quad.C75_affine",
    "Verif.Quad.C75_multilinear_affine",
    "Verif.Quad.C75_quadrilateral_partial",
    "Verif.Quad.C75_multilinear_counterexample"
   ],
   "note": "affine geometries and affinely placed corners over all reference elements; quadrilaterals; false for three-dimensional cubes (C75_multilinear_counterexample, documented in the code)"
  },
  {
   "property": "C76",
   "status": "partial",
   "theorems": [
    "Verif.Quad.C76_quadrilateral_partial",
    "Verif.Quad.C76_quadrilateral_affine",
    "Verif.Quad.C76_contraction",
    "Verif.Quad.C76_inverse_counterexample"
   ],
   "note": "planar quadrilaterals without further condition, cubes of any dimension with small variation of the Jacobian; false for hexahedra (C76_inverse_counterexample)"
  },
  {
   "property": "C77",
   "status": "proved",
   "theorems": [
    "Verif.Float.C77_accept",
    "Verif.Float.C77_accepted",
    "Verif.Float.C77_public",
    "Verif.Float.C77_rounded",
    "Verif.Float.C77_position",
    "Verif.Float.C77_distance"
   ],
   "note": "no overflow, no contraction of multiply-add, no extended precision"
  },
  {
   "property": "C78",
   "status": "partial",
   "theorems": [
    "Verif.Float.C78_multilinear",
    "Verif.Float.C78_origin_partial",
    "Verif.Float.C78_affine_counterexample",
    "Verif.Float.C78_cube_counterexample"
   ],
   "note": "proved for MultiLinearGeometry; false for AffineGeometry from corners and AxisAlignedCubeGeometry (counterexamples), true there for the first corner"
  },
  {
   "property": "C79",
   "status": "proved",
   "theorems": [
    "Verif.Float.C79_triangle_box",
    "Verif.Float.C79_tetrahedron_box",
    "Verif.Float.C79_prism_box",
    "Verif.Float.C79_pyramid_box",
    "Verif.Float.C79_affine",
    "Verif.Float.C79_cube_global",
    "Verif.Float.C79_cube_local",
    "Verif.Float.C79_cube_roundtrip",
    "Verif.Float.C79_multilinear_cube",
    "Verif.Float.C79_prism",
    "Verif.Float.C79_pyramid",
    "Verif.Float.C79_tetrahedron",
    "Verif.Float.C79_triangle"
   ],
   "note": "no overflow; multilinear geometries with pyramids are not covered by the error bound"
  },
  {
   "property": "C80",
   "status": "partial",
   "theorems": [
    "Verif.Check.C80_affine_iff",
    "Verif.Check.C80_cube",
    "Verif.Check.C80_cube_reversed",
    "Verif.Check.C80_cube_volume",
    "Verif.Check.C80_affine_volume",
    "Verif.Check.C80_checkGeometry",
    "Verif.Check.C80_none",
    "Verif.Check.C80_affine",
    "Verif.Check.C80_small_counterexample",
    "Verif.Check.C80_jacobian_counterexample"
   ],
   "note": "equivalence proved, acceptance of affine geometries and axis-aligned cubes characterised exactly; small regular geometries are rejected and wrong Jacobians accepted (counterexamples)"
  },
  {
   "property": "C81",
   "status": "partial",
   "theorems": [
    "Verif.Refine.C81_nested",
    "Verif.Refine.C81_count",
    "Verif.Refine.C81_twice_counterexample",
    "Verif.Refine.Triang.C81_triang",
    "Verif.Refine.HCube.C81_cubes"
   ],
   "note": "nestedness proved for simplices, triangulations and cubes; refining twice differs in 3d (counterexample)"
  },
  {
   "property": "C82",
   "status": "partial",
   "theorems": [
    "Verif.Compare.C82_flag_counterexample",
    "Verif.Compare.C82_interchangeable_counterexample",
    "Verif.Compare.C82_volume_counterexample",
    "Verif.Compare.C82_local_derivative",
    "Verif.Compare.C82_compare",
    "Verif.Compare.C82_passes",
    "Verif.Compare.C82_complete",
    "Verif.Compare.C82_multilinear",
    "Verif.Compare.C82_simplex",
    "Verif.Compare.C82_cube",
    "Verif.Compare.C82_lfe_affine",
    "Verif.Compare.C82_p1",
    "Verif.Compare.C82_q1",
    "Verif.Compare.C82_q1_affine",
    "Verif.Compare.C82_mapped"
   ],
   "note": "agreement proved for all maps that are affine and, except for volume() and affine(), for multi-linear ones; volume and flag differ otherwise (counterexamples)"
  },
  {
   "property": "C83",
   "status": "partial",
   "theorems": [
    "Verif.Quad.C83_lobatto_partial",
    "Verif.Quad.C83_lobatto_exact",
    "Verif.Quad.C83_radauLeft_partial",
    "Verif.Quad.C83_radauLeft_exact",
    "Verif.Quad.C83_radauRight_partial",
    "Verif.Quad.C83_radauRight_exact",
    "Verif.Quad.C83_ends_counterexample",
    "Verif.Quad.C83_ends_double_counterexample",
    "Verif.Quad.C83_right_double",
    "Verif.Quad.C83_interior_partial",
    "Verif.Quad.C83_interior_counterexample",
    "Verif.Quad.C83_different_partial",
    "Verif.Quad.C83_different_cube",
    "Verif.Quad.C83_different_counterexample",
    "Verif.Quad.C83_radau_mirrored",
    "Verif.Quad.C83_symmetric",
    "Verif.Quad.C83_optimal_legendre",
    "Verif.Quad.C83_optimal_jacobi",
    "Verif.Quad.C83_optimal_lobatto",
    "Verif.Quad.C83_optimal_radau"
   ],
   "note": "constraints up to 1e-99 (exact for small orders), optimality and mirror image proved for all orders; counterexamples: end points of Gauss-Lobatto order 10, boundary points of Gauss-Legendre order 3 on tetrahedra, repeated apex of Gauss-Lobatto on triangles"
  },
  {
   "property": "C84",
   "status": "partial",
   "theorems": [
    "Verif.MultiLinear.Storage.C84_copy",
    "Verif.MultiLinear.Storage.C84_copy_caching_partial",
    "Verif.MultiLinear.Storage.C84_contract",
    "Verif.MultiLinear.Storage.C84_following",
    "Verif.MultiLinear.Storage.C84_following_counterexample",
    "Verif.MultiLinear.Storage.C84_freed"
   ],
   "note": "value semantics, the contract and the following of moved corners proved for all programs; for the caching class value semantics only for the geometries of C34; counterexample: moved corners and the caching class"
  },
  {
   "property": "C85",
   "status": "proved",
   "theorems": [
    "Verif.Quad.C85_best",
    "Verif.Quad.C85_rule",
    "Verif.Quad.C85_smooth",
    "Verif.Quad.C85_element",
    "Verif.Quad.C85_composite",
    "Verif.Quad.C85_composite_exact"
   ],
   "note": "best approximation for all rules; the explicit constant for all delivered rules except the order 3 request of GaussLegendre with its negative weights (see C48); orders of convergence on affine elements and for composite rules"
  },
  {
   "property": "C86",
   "status": "partial",
   "theorems": [
    "Verif.Py.Quadpy.C86_supported_counterexample",
    "Verif.Py.Quadpy.C86_supported_partial",
    "Verif.Py.Quadpy.C86_vertices",
    "Verif.Py.Quadpy.C86_transparent",
    "Verif.Py.Quadpy.C86_same_object",
    "Verif.Py.Quadpy.C86_different_objects",
    "Verif.Py.Quadpy.C86_failure",
    "Verif.Py.Quadpy.C86_order_counterexample",
    "Verif.Py.Quadpy.C86_order_partial",
    "Verif.Py.Quadpy.C86_result_counterexample",
    "Verif.Py.Quadpy.C86_result_partial",
    "Verif.Py.Quadpy.C86_rules_counterexample",
    "Verif.Py.Quadpy.C86_rules_partial"
   ],
   "note": "cache, vertices and regular types proved; counterexamples: the requested order is ignored, a module is returned without order and method, none types of dimension one are lines, AttributeError is reported as KeyError"
  },
  {
   "property": "C87",
   "status": "partial",
   "theorems": [
    "Verif.FloatQuad.C87_outcome",
    "Verif.FloatQuad.C87_weights",
    "Verif.FloatQuad.C87_integral",
    "Verif.FloatQuad.C87_volume_partial",
    "Verif.FloatQuad.C87_tables",
    "Verif.FloatQuad.C87_inside",
    "Verif.FloatQuad.C87_volume_counterexample"
   ],
   "note": "outcome, points, weights, integrals proved for float and double; counterexample: with long double the simplex tables have the accuracy of double only"
  },
  {
   "property": "C88",
   "status": "partial",
   "theorems": [
    "Verif.FloatRefine.C88_cube",
    "Verif.FloatRefine.C88_cube_value",
    "Verif.FloatRefine.C88_cube_value_counterexample",
    "Verif.FloatRefine.C88_inside_simplex",
    "Verif.FloatRefine.C88_inside_cube",
    "Verif.FloatRefine.C88_inside_triang_cube",
    "Verif.FloatRefine.C88_inside_prism",
    "Verif.FloatRefine.C88_inside_pyramid",
    "Verif.FloatRefine.C88_vertex",
    "Verif.FloatRefine.C88_neighbours",
    "Verif.FloatRefine.C88_corner_partial",
    "Verif.FloatRefine.C88_corner_counterexample",
    "Verif.FloatRefine.C88_copies",
    "Verif.FloatRefine.C88_triang_neighbours_counterexample",
    "Verif.FloatRefine.C88_triang_neighbours_partial"
   ],
   "note": "watertight refinement of simplices, cubes and the triangulated square, vertices inside; counterexamples: geometry() and coords() differ in the last bit, the triangulated 3D cube is not watertight, refined cubes have the accuracy of double for long double"
  },
  {
   "property": "C89",
   "status": "partial",
   "theorems": [
    "Verif.FloatVol.C89_cube",
    "Verif.FloatVol.C89_cube_inverse",
    "Verif.FloatVol.C89_det2",
    "Verif.FloatVol.C89_det3",
    "Verif.FloatVol.C89_det23",
    "Verif.FloatVol.C89_affine_partial",
    "Verif.FloatVol.C89_det",
    "Verif.FloatVol.C89_volume",
    "Verif.FloatVol.C89_plane_partial",
    "Verif.FloatVol.C89_affine_counterexample",
    "Verif.FloatVol.C89_plane_counterexample"
   ],
   "note": "errors of volumes and integration elements; AffineGeometry is constructed for elements of bounded condition; counterexamples: thin triangles in double for which the constructor fails"
  },
  {
   "property": "C90",
   "status": "partial",
   "theorems": [
    "Verif.FloatNewton.C90_double_counterexample",
    "Verif.FloatNewton.C90_single_counterexample",
    "Verif.FloatNewton.C90_local_partial",
    "Verif.FloatNewton.C90_affine_partial",
    "Verif.FloatNewton.C90_solver"
   ],
   "note": "counterexamples: local() does not end for unit-size quadrilaterals at a distance of 2^28 (double), 2^12 (float) from the origin; termination and accuracy proved for quadrilaterals with moderate twist whose rounding errors are below the tolerance"
  },
  {
   "property": "C91",
   "status": "proved",
   "theorems": [
    "Verif.RefGeom.C91_meet",
    "Verif.RefGeom.C91_intersection",
    "Verif.RefGeom.C91_disjoint",
    "Verif.RefGeom.C91_facets",
    "Verif.RefGeom.C91_interval",
    "Verif.RefGeom.C91_many",
    "Verif.RefGeom.C91_simple"
   ],
   "note": "meets, facets, intervals and facet counts for all dimensions and topologies"
  },
  {
   "property": "C92",
   "status": "partial",
   "theorems": [
    "Verif.FloatGauss.C92_exact_start",
    "Verif.FloatGauss.C92_center_throws",
    "Verif.FloatGauss.C92_local_counterexample",
    "Verif.FloatGauss.C92_ok",
    "Verif.FloatGauss.C92_converges",
    "Verif.FloatGauss.C92_simplex_partial",
    "Verif.FloatGauss.C92_roundtrip_partial",
    "Verif.FloatGauss.C92_unit_corner"
   ],
   "note": "wrong for the centre of the reference element (exception, for every map); proved for maps close to linear ones and points away from the centre, result within the tolerance proved for all maps"
  },
  {
   "property": "C93",
   "status": "partial",
   "theorems": [
    "Verif.FloatEmbed.C93_embeddings",
    "Verif.FloatEmbed.C93_normals",
    "Verif.FloatEmbed.C93_corner",
    "Verif.FloatEmbed.C93_global",
    "Verif.FloatEmbed.C93_inside",
    "Verif.FloatEmbed.C93_straight",
    "Verif.FloatEmbed.C93_center",
    "Verif.FloatEmbed.C93_volume",
    "Verif.FloatEmbed.C93_geometry",
    "Verif.FloatEmbed.C93_local_value",
    "Verif.FloatEmbed.C93_local_value_single",
    "Verif.FloatEmbed.C93_local_counterexample",
    "Verif.FloatInv.C93_local_partial"
   ],
   "note": "the last clause is wrong: local() of the end of the slanted edge of a triangle is 1-2^-52 in double; C93_local_partial bounds the error; everything else proved"
  },
  {
   "property": "C94",
   "status": "proved",
   "theorems": [
    "Verif.FloatInv.C94_local",
    "Verif.FloatInv.C94_inverse",
    "Verif.FloatInv.C94_roundtrip",
    "Verif.FloatInv.C94_global_local",
    "Verif.FloatInv.C94_double"
   ],
   "note": "the constants are crude (90 n^4); overflow is excluded by the upper limit on R"
  },
  {
   "property": "C95",
   "status": "proved",
   "theorems": [
    "Verif.Refine.C95_simplex_edges",
    "Verif.Refine.C95_simplex_length",
    "Verif.Refine.C95_simplex_shapes",
    "Verif.Refine.C95_triangle",
    "Verif.Refine.C95_tetrahedron_counterexample",
    "Verif.Refine.Triang.C95_cube",
    "Verif.Refine.Triang.C95_prism",
    "Verif.Refine.Triang.C95_pyramid",
    "Verif.Refine.Triang.C95_cube_wide",
    "Verif.Refine.HCube.C95_cubes"
   ],
   "note": "similarity to the reference element is true for triangles only; the constants for prism and pyramid are not claimed to be sharp"
  },
  {
   "property": "C96",
   "status": "partial",
   "theorems": [
    "Verif.Motion.C96_global",
    "Verif.Motion.C96_jacobian",
    "Verif.Motion.C96_integrationElement",
    "Verif.Motion.C96_jacobianInverseTransposed",
    "Verif.Motion.C96_volume",
    "Verif.Motion.C96_affine_isometry",
    "Verif.Motion.C96_affine_smaller",
    "Verif.Motion.C96_affine_exact",
    "Verif.Motion.C96_local_partial",
    "Verif.Motion.C96_local_small",
    "Verif.Motion.C96_local_counterexample",
    "Verif.Motion.C96_affineGeometry",
    "Verif.Motion.C96_gaussNewton",
    "Verif.Motion.C96_mapped_partial",
    "Verif.Motion.C96_mapped_small",
    "Verif.Motion.C96_mapped_counterexample"
   ],
   "note": "scaling with the tolerances left alone changes affine() and local() of small elements (counterexamples); everything else proved"
  },
  {
   "property": "C97",
   "status": "proved",
   "theorems": [
    "Verif.Neighbour.C97_global",
    "Verif.Neighbour.C97_corner",
    "Verif.Neighbour.C97_domain",
    "Verif.Neighbour.C97_det",
    "Verif.Neighbour.C97_jacobian",
    "Verif.Neighbour.C97_integrationElement",
    "Verif.Neighbour.C97_jacobianInverseTransposed",
    "Verif.Neighbour.C97_center",
    "Verif.Neighbour.C97_volume",
    "Verif.Neighbour.C97_simplex_any",
    "Verif.Neighbour.C97_quadrilateral",
    "Verif.Neighbour.C97_neighbours",
    "Verif.Neighbour.C97_twist_counterexample",
    "Verif.Neighbour.C97_affine_counterexample"
   ],
   "note": "affine() depends on the numbering for nearly affine hexahedra (C97_affine_counterexample); topologies of dimension above 3 other than simplices and cubes not covered"
  },
  {
   "property": "C98",
   "status": "partial",
   "theorems": [
    "Verif.Refine.Machine.C98_simplex_vertices",
    "Verif.Refine.Machine.C98_simplex_elements_partial",
    "Verif.Refine.Machine.Triang.C98_triangulation_vertices",
    "Verif.Refine.Machine.Triang.C98_triangulation_elements",
    "Verif.Refine.Machine.HCube.C98_cube_loops_partial",
    "Verif.Refine.Machine.HCube.C98_cube_indices",
    "Verif.Refine.Machine.C98_levels_counterexample",
    "Verif.Refine.Machine.C98_cube_negative"
   ],
   "note": "exact within the range of the types; outside refined cubes have empty element loops and simplices overflow (C98_levels_counterexample)"
  },
  {
   "property": "C99",
   "status": "partial",
   "theorems": [
    "Verif.Hull.C99_quadrilateral",
    "Verif.Hull.C99_shape_functions",
    "Verif.Hull.C99_hull_partial",
    "Verif.Hull.C99_hull_cube",
    "Verif.Hull.C99_hull_closed",
    "Verif.Hull.C99_box",
    "Verif.Hull.C99_diameter",
    "Verif.Hull.C99_tip",
    "Verif.Hull.C99_hull_counterexample",
    "Verif.Hull.C99_affine"
   ],
   "note": "points within the tolerance of a tip are mapped out of the hull (C99_hull_counterexample); elsewhere proved, near tips with the sharp bound tol*C"
  },
  {
   "property": "C100",
   "status": "partial",
   "theorems": [
    "Verif.Hull.C100_regular",
    "Verif.Hull.C100_quadrilateral_bounds",
    "Verif.Hull.C100_quadrilateral",
    "Verif.Hull.C100_quadrilateral_injective",
    "Verif.Hull.C100_pyramid_bounds",
    "Verif.Hull.C100_pyramid",
    "Verif.Hull.C100_pyramid_injective",
    "Verif.Hull.C100_prism",
    "Verif.Hull.C100_cube_bounds",
    "Verif.Hull.C100_cube",
    "Verif.Hull.C100_cube_injective",
    "Verif.Hull.C100_affine",
    "Verif.Hull.C100_corners_partial",
    "Verif.Hull.C100_hexahedron_counterexample",
    "Verif.Hull.C100_corners_counterexample",
    "Verif.Hull.C100_prism_counterexample"
   ],
   "note": "true for simplices, quadrilaterals and pyramids; false for prisms and hexahedra (counterexamples), for which sharp resp. sufficient criteria are proved"
  },
  {
   "property": "C101",
   "status": "partial",
   "theorems": [
    "Verif.Mapped.Copy.C101_global",
    "Verif.Mapped.Copy.C101_partial",
    "Verif.Mapped.Copy.C101_value",
    "Verif.Mapped.Copy.C101_dangling",
    "Verif.Mapped.Copy.C101_stale",
    "Verif.Mapped.Copy.C101_returned",
    "Verif.Mapped.Copy.C101_vector",
    "Verif.Mapped.Copy.C101_counterexample"
   ],
   "note": "proved for derivatives that own their data; wrong for derivatives that hold references, as in the module's own tests (C101_counterexample)"
  },
  {
   "property": "C102",
   "status": "partial",
   "theorems": [
    "Verif.Thread.Cached.C102_iff",
    "Verif.Thread.Cached.C102_answers",
    "Verif.Thread.Cached.C102_partial",
    "Verif.Thread.Cached.C102_nonaffine",
    "Verif.Thread.Cached.C102_warm",
    "Verif.Thread.Cached.C102_race",
    "Verif.Thread.Cached.C102_counterexample",
    "Verif.Thread.Cached.C102_half_warm",
    "Verif.Thread.Lfe.C102_lfe_warm",
    "Verif.Thread.Lfe.C102_lfe_race",
    "Verif.Thread.Lfe.C102_lfe_iff"
   ],
   "note": "exact characterisation proved; the unrestricted claim is wrong (C102_counterexample): first calls write mutable members"
  },
  {
   "property": "C103",
   "status": "partial",
   "theorems": [
    "Verif.Locate.C103_tolerance",
    "Verif.Locate.C103_affine_found",
    "Verif.Locate.C103_affine_closest",
    "Verif.Locate.C103_affine_iff",
    "Verif.Locate.C103_affine_sound",
    "Verif.Locate.C103_surface_counterexample",
    "Verif.Locate.C103_axis_aligned",
    "Verif.Locate.C103_multilinear_affine",
    "Verif.Locate.C103_quadrilateral_partial",
    "Verif.Locate.C103_quadrilateral_sound",
    "Verif.Locate.C103_quadrilateral_sound_affine",
    "Verif.Locate.C103_counterexample"
   ],
   "note": "proved for affine geometries, cubes and quadrilaterals that do not report affine; wrong for nearly affine quadrilaterals, hexahedra and surfaces (C103_counterexample, C103_surface_counterexample)"
  },
  {
   "property": "C104",
   "status": "proved",
   "theorems": [
    "Verif.Flux.C104_neighbours_cube",
    "Verif.Normal.C104_direction",
    "Verif.Normal.C104_affine",
    "Verif.Normal.C104_affine_length",
    "Verif.Normal.C104_affine_closed",
    "Verif.Normal.C104_facet_jacobian",
    "Verif.Normal.C104_multilinear",
    "Verif.Normal.C104_neighbours"
   ],
   "note": ""
  },
  {
   "property": "C105",
   "status": "proved",
   "theorems": [
    "Verif.Numbering.C105_documented",
    "Verif.Numbering.C105_ascending",
    "Verif.Numbering.C105_simplex",
    "Verif.Numbering.C105_simplex_inverse",
    "Verif.Numbering.C105_simplex_facet",
    "Verif.Numbering.C105_cube",
    "Verif.Numbering.C105_cube_facet",
    "Verif.Numbering.C105_vertices_not_unique"
   ],
   "note": ""
  },
  {
   "property": "C106",
   "status": "partial",
   "theorems": [
    "Verif.Buffer.C106_partial",
    "Verif.Buffer.C106_size",
    "Verif.Buffer.C106_subTopologyId",
    "Verif.Buffer.C106_numbering",
    "Verif.Buffer.C106_corners",
    "Verif.Buffer.C106_origins",
    "Verif.Buffer.C106_embeddings",
    "Verif.Buffer.C106_normals",
    "Verif.Buffer.C106_offsets_counterexample",
    "Verif.Buffer.C106_size_counterexample"
   ],
   "note": "code disagrees in dimension 21 and above: offset_ and size wrap at 2^32; proved for all dimensions below"
  },
  {
   "property": "C107",
   "status": "proved",
   "theorems": [
    "Verif.Quad.C107_available",
    "Verif.Quad.C107_divergence",
    "Verif.Quad.C107_parts",
    "Verif.Quad.C107_closed",
    "Verif.Quad.C107_affine"
   ],
   "note": "rules in exact arithmetic with the literals of the tables; error bounded by the accuracy of the tables"
  },
  {
   "property": "C108",
   "status": "partial",
   "theorems": [
    "Verif.Quad.C108_lobatto_counterexample",
    "Verif.Quad.C108_gauss_counterexample",
    "Verif.Quad.C108_prism_partial",
    "Verif.Quad.C108_pyramid_partial",
    "Verif.Quad.C108_radau_counterexample",
    "Verif.Quad.C108_cube_partial",
    "Verif.Quad.C108_triangle_partial",
    "Verif.Quad.C108_triangle_rotation_partial",
    "Verif.Quad.C108_tetrahedron_partial",
    "Verif.Quad.C108_swap_counterexample",
    "Verif.Quad.C108_counterexample"
   ],
   "note": "the code disagrees on the triangle for orders 6, 7 (C108_counterexample) and above 12 (C108_gauss_counterexample) and for every Gauss-Lobatto rule (C108_lobatto_counterexample); proved for cubes and pyramids with the symmetric families, for the other tabulated simplex rules and for prisms over them"
  },
  {
   "property": "C109",
   "status": "proved",
   "theorems": [
    "Verif.VertexOrder.C109_reduced",
    "Verif.VertexOrder.C109_canonical",
    "Verif.VertexOrder.C109_chart",
    "Verif.VertexOrder.C109_edge",
    "Verif.VertexOrder.C109_quadrilateral_counterexample"
   ],
   "note": "points of the sub-entity away from its boundary by the tolerance, as in C57/C97; the coordinates clause is for simplices (C109_quadrilateral_counterexample)"
  },
  {
   "property": "C110",
   "status": "proved",
   "theorems": [
    "Verif.Refine.Glue.C110_vertices",
    "Verif.Refine.Glue.C110_trace",
    "Verif.Refine.Glue.C110_restriction",
    "Verif.Refine.Glue.C110_symmetric",
    "Verif.Refine.Glue.C110_neighbours",
    "Verif.Refine.Glue.C110_simplex_face",
    "Verif.Refine.Glue.C110_elements_counterexample"
   ],
   "note": "about the vertices; the claim for elements fails on quadrilaterals (C110_elements_counterexample)"
  },
  {
   "property": "C111",
   "status": "partial",
   "theorems": [
    "Verif.Refine.Mesh.C111_mesh",
    "Verif.Refine.Mesh.C111_unsupported",
    "Verif.Refine.Mesh.C111_distinct_partial",
    "Verif.Refine.Mesh.C111_distinct_counterexample"
   ],
   "note": "the mesh is proved for all five implementations; that no point is written twice holds for simplex->simplex and cube->cube only, the triangulated square with n = 1 is the counterexample"
  },
  {
   "property": "C112",
   "status": "partial",
   "theorems": [
    "Verif.Flux.C112_flux_cube",
    "Verif.Flux.C112_surface",
    "Verif.Flux.C112_flux",
    "Verif.Flux.C112_cube",
    "Verif.Flux.C112_triangle_partial",
    "Verif.Flux.C112_counterexample"
   ],
   "note": "C112_surface and C112_flux hold for every rule that is invariant under the renumbering; the delivered triangle rules of orders 6 and 7 are not (C112_counterexample). C112_triangle_partial leaves out order 11, whose rule has points on the edges, where the tolerance around tips in C97 is not excluded"
  },
  {
   "property": "C113",
   "status": "partial",
   "theorems": [
    "Verif.Image.C113_cube",
    "Verif.Image.C113_simplex",
    "Verif.Image.C113_affine_partial",
    "Verif.Image.C113_integrationElement",
    "Verif.Image.C113_cube_integrationElement",
    "Verif.Image.C113_image_cube",
    "Verif.Image.C113_counterexample"
   ],
   "note": "C113_cube and C113_simplex hold for all corner positions when sub-elements have the shape of the element; C113_affine_partial for all implementations when the corners are affine images; for cubes that are not affine and are split into triangles it is wrong (C113_counterexample)"
  },
  {
   "property": "C114",
   "status": "partial",
   "theorems": [
    "Verif.Image.C114_integral",
    "Verif.Image.C114_affine",
    "Verif.Image.C114_cube_converges",
    "Verif.Image.C114_cube_measure",
    "Verif.Image.C114_quadrilateral",
    "Verif.Image.C114_counterexample"
   ],
   "note": "integrals add up for all implementations and all integrable functions (C114_integral); volumes add up for affine corners (C114_affine) and planar quadrilaterals (C114_quadrilateral), and converge to the true volume for cubes (C114_cube_converges, C114_cube_measure); for hexahedra that are not affine volume() is a midpoint rule and the sum differs (C114_counterexample)"
  },
  {
   "property": "C115",
   "status": "partial",
   "theorems": [
    "Verif.Quad.C115_determined",
    "Verif.Quad.C115_mass",
    "Verif.Quad.C115_entries",
    "Verif.Quad.C115_stiffness",
    "Verif.Quad.C115_cube",
    "Verif.Quad.C115_partial",
    "Verif.Quad.C115_counterexample"
   ],
   "note": "definiteness for polynomials on affine geometries and on cubes is proved for all rules (C115_mass, C115_stiffness, C115_cube); for arbitrary functions or integration elements all rules but the Gauss-Legendre rules of order 3 (C115_partial), whose negative weight makes mass matrices indefinite (C115_counterexample)"
  },
  {
   "property": "C116",
   "status": "proved",
   "theorems": [
    "Verif.Quad.C116_unisolvent",
    "Verif.Quad.C116_diagonal",
    "Verif.Quad.C116_lumped"
   ],
   "note": "all four families, all cubes of dimension up to 30, all orders; real numbers, tables as rationals"
  },
  {
   "property": "C117",
   "status": "partial",
   "theorems": [
    "Verif.Quad.C117_near_partial",
    "Verif.Quad.C117_partial",
    "Verif.Quad.C117_counterexample"
   ],
   "note": "exact for the orders whose tables contain 0 and 1 (C117_partial), for all orders up to 1e-99 (C117_near_partial); fails exactly for order 10, where the table has 2.9e-121 instead of 0 (C117_counterexample)"
  },
  {
   "property": "C118",
   "status": "proved",
   "theorems": [
    "Verif.Flux.C118_nodes",
    "Verif.Flux.C118_exact"
   ],
   "note": "all cubes of dimension up to 30, all codimensions, all symmetries, all orders; real numbers, tables as rationals"
  },
  {
   "property": "C119",
   "status": "partial",
   "theorems": [
    "Verif.Tip.C119_closed_partial",
    "Verif.Tip.C119_corners",
    "Verif.Tip.C119_cone",
    "Verif.Tip.C119_error",
    "Verif.Tip.C119_closed_counterexample"
   ],
   "note": "code disagrees within the tolerance of inner tips (counterexample proved: integration element 2 instead of 1); exact at tips and corners, on cones over cubes, and elsewhere up to errC(dim)*tol*largest coordinate"
  },
  {
   "property": "C120",
   "status": "proved",
   "theorems": [
    "Verif.Patch.C120_linear",
    "Verif.Patch.C120_value",
    "Verif.Patch.C120_gradient",
    "Verif.Patch.C120_partition",
    "Verif.Patch.C120_stiffness"
   ],
   "note": "all types, shapes and points outside the tolerance of a tip or at the tip; real numbers"
  },
  {
   "property": "C121",
   "status": "proved",
   "theorems": [
    "Verif.Piola.C121_gradient",
    "Verif.Piola.C121_divergence",
    "Verif.Piola.C121_product",
    "Verif.Piola.C121_circulation",
    "Verif.Piola.C121_flux",
    "Verif.Piola.C121_facet_flux",
    "Verif.Piola.C121_normal_continuous",
    "Verif.Piola.C121_tangential_continuous"
   ],
   "note": "pointwise statements over the reals; facets of elements of dimension up to 31"
  },
  {
   "property": "C122",
   "status": "partial",
   "theorems": [
    "Verif.Trace.C122_jacobian_partial",
    "Verif.Trace.C122_measure",
    "Verif.Trace.C122_circulation",
    "Verif.Trace.C122_shared",
    "Verif.Trace.C122_tangential_continuous",
    "Verif.Trace.C122_closed_counterexample"
   ],
   "note": "code disagrees at the ends of edges that meet a tip (pyramid over a kite: derivative along the edge -1 instead of -2, counterexample proved); exact on the inner part of every sub-entity, edges of tips included, and everywhere on cubes"
  },
  {
   "property": "C123",
   "status": "proved",
   "theorems": [
    "Verif.Balance.C123_affine",
    "Verif.Balance.C123_triangle",
    "Verif.Balance.C123_divergence",
    "Verif.Balance.C123_free_stream",
    "Verif.Balance.C123_volume",
    "Verif.Balance.C123_tetrahedron"
   ],
   "note": "exact up to the accuracy of the tables; error stated with the coefficients of the values times cofactors"
  },
  {
   "property": "C124",
   "status": "proved",
   "theorems": [
    "Verif.Balance.C124_conservation",
    "Verif.Balance.C124_simplices"
   ],
   "note": "deviation bounded by half the number of inner facet sides times the accuracy of the table"
  },
  {
   "property": "C125",
   "status": "proved",
   "theorems": [
    "Verif.Balance.C125_mesh",
    "Verif.Balance.C125_solenoidal",
    "Verif.Balance.C125_volume",
    "Verif.Balance.C125_simplices",
    "Verif.Balance.C125_simplices_solenoidal",
    "Verif.Balance.C125_simplices_volume"
   ],
   "note": "deviation bounded by the accuracy of the tables times the coefficients of the transformed field, plus the bound of C124"
  }
 ]
}