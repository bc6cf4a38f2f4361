{
 "claims": [
  {
   "property": "C01",
   "status": "proved",
   "theorems": [
    "Verif.Base64.decode_toBase64",
    "Verif.Base64.toBase64_injective",
    "Verif.Base64.toBase64_length",
    "Verif.Base64.toBase64_shape"
   ],
   "note": "Round trip against an RFC 4648 decoder, for every byte list."
  },
  {
   "property": "C02",
   "status": "proved",
   "theorems": [
    "Verif.Lattice.vtkTriangle_complete"
   ],
   "note": "For every order n >= 1 (order 0 divides by zero). Includes the order of the corners, edges and the recursion for the interior."
  },
  {
   "property": "C03",
   "status": "proved",
   "theorems": [
    "Verif.Lattice.vtkTetrahedron_complete"
   ],
   "note": "For every order n >= 1. Includes the order of corners, edges and faces and the recursion for the interior."
  },
  {
   "property": "C04",
   "status": "proved",
   "theorems": [
    "Verif.Lattice.vtkCurve_complete",
    "Verif.Lattice.vtkQuadrilateral_complete",
    "Verif.Lattice.vtkHexahedron_complete"
   ],
   "note": "For every order n >= 1, with the position of every point."
  },
  {
   "property": "C05",
   "status": "partial",
   "theorems": [
    "Verif.RungeKutta.registry_wellFormed",
    "Verif.RungeKutta.registry_autonomousOrder",
    "Verif.RungeKutta.registry_order_sharp",
    "Verif.RungeKutta.registry_linearOrder",
    "Verif.RungeKutta.registry_errorEstimate",
    "Verif.RungeKutta.rowSum_partial",
    "Verif.RungeKutta.rowSum_fails",
    "Verif.RungeKutta.quadratureOrder_partial",
    "Verif.RungeKutta.quadratureOrder_fails"
   ],
   "note": "Autonomous order conditions hold for every registered rule; the stage times of RK2TVD, RK3TVD and Bogacki-Shampine are wrong for time dependent problems (proved)."
  },
  {
   "property": "C06",
   "status": "proved",
   "theorems": [
    "Verif.RungeKutta.getRule_some",
    "Verif.RungeKutta.getRule_none_iff",
    "Verif.RungeKutta.getRule_first",
    "Verif.RungeKutta.getRule_registry"
   ],
   "note": ""
  },
  {
   "property": "C07",
   "status": "proved",
   "theorems": [
    "Verif.RungeKutta.rollback_restores",
    "Verif.RungeKutta.adaptiveStep_eq_single"
   ],
   "note": ""
  },
  {
   "property": "C08",
   "status": "proved",
   "theorems": [
    "Verif.RungeKutta.computeOneTimeStep_isRKStep",
    "Verif.RungeKutta.isRKStep_unique"
   ],
   "note": ""
  },
  {
   "property": "C09",
   "status": "partial",
   "theorems": [
    "Verif.RefGeometry.line_codim0",
    "Verif.RefGeometry.triangle_codim0",
    "Verif.RefGeometry.square_codim0_inverse",
    "Verif.RefGeometry.square_codim0_partial",
    "Verif.RefGeometry.square_codim0_fails",
    "Verif.RefGeometry.cube_codim0_partial",
    "Verif.RefGeometry.cube_codim0_fails"
   ],
   "note": "Line and triangle in full; the square is wrong for the two rotations by 90 degrees and the cube for every recognised symmetry but the identity (both proved)."
  },
  {
   "property": "C10",
   "status": "proved",
   "theorems": [
    "Verif.RefGeometry.face_nodes",
    "Verif.RefGeometry.body_eq_convexHull",
    "Verif.RefGeometry.face_image",
    "Verif.RefGeometry.frontier_eq_faces",
    "Verif.RefGeometry.tetrahedron_edge"
   ],
   "note": "All shapes of dimension 1 to 4."
  },
  {
   "property": "C11",
   "status": "proved",
   "theorems": [
    "Verif.RefGeometry.face_jacobian",
    "Verif.RefGeometry.codim0_jacobian",
    "Verif.RefGeometry.tetrahedron_edge_jacobian",
    "Verif.RefGeometry.concatenate_jacobian"
   ],
   "note": "Frechet derivative over the reals."
  },
  {
   "property": "C12",
   "status": "proved",
   "theorems": [
    "Verif.RefGeometry.normals_outward",
    "Verif.RefGeometry.normals_outward_line"
   ],
   "note": "All shapes and faces, every invertible element Jacobian of either orientation."
  },
  {
   "property": "C13",
   "status": "proved",
   "theorems": [
    "Verif.RefGeometry.determinant_correct",
    "Verif.RefGeometry.wedge_dot",
    "Verif.RefGeometry.wedge_orthogonal",
    "Verif.RefGeometry.wedge_gram"
   ],
   "note": "All sizes the code supports (0 to 4)."
  },
  {
   "property": "C14",
   "status": "proved",
   "theorems": [
    "Verif.DenseMatrix.face_zero",
    "Verif.DenseMatrix.face_side_get",
    "Verif.DenseMatrix.face_put",
    "Verif.DenseMatrix.face_putSide",
    "Verif.DenseMatrix.face_setBlock",
    "Verif.DenseMatrix.face_getEntire",
    "Verif.DenseMatrix.face_setEntire",
    "Verif.DenseMatrix.face_roundtrip",
    "Verif.DenseMatrix.face_roundtrip'",
    "Verif.DenseMatrix.face_linear"
   ],
   "note": "All block sizes; the blocks are flat column-major vectors as in the code."
  },
  {
   "property": "C15",
   "status": "proved",
   "theorems": [
    "Verif.LocalIndexing.element_bijection",
    "Verif.LocalIndexing.element_values",
    "Verif.LocalIndexing.element_valid",
    "Verif.LocalIndexing.createFullIndexing_included"
   ],
   "note": "After every history of reinit calls."
  },
  {
   "property": "C16",
   "status": "partial",
   "theorems": [
    "Verif.LocalIndexing.face_bijection",
    "Verif.LocalIndexing.face_left_first",
    "Verif.LocalIndexing.face_mapping",
    "Verif.LocalIndexing.face_notIncluded_partial",
    "Verif.LocalIndexing.face_notIncluded_fails",
    "Verif.LocalIndexing.face_null_fails"
   ],
   "note": "The numbering itself is proved in full. Two documented corner cases are false: the offset of a non-included unknown on the right side, and reinit with a null face (both proved)."
  },
  {
   "property": "C17",
   "status": "proved",
   "theorems": [
    "Verif.GlobalIndexing.global_indices_fill",
    "Verif.GlobalIndexing.local_indices_fill",
    "Verif.GlobalIndexing.ranks_contiguous",
    "Verif.GlobalIndexing.unknowns_blocked",
    "Verif.GlobalIndexing.unknowns_blocked_on_rank",
    "Verif.GlobalIndexing.objects_consecutive",
    "Verif.GlobalIndexing.local_order",
    "Verif.GlobalIndexing.conversion",
    "Verif.GlobalIndexing.reset_rejects",
    "Verif.GlobalIndexing.reset_null",
    "Verif.GlobalIndexing.repeated_unknown_leaves_holes",
    "Verif.GlobalIndexing.repeated_face_leaves_holes"
   ],
   "note": "For all meshes in which every element has one owner and no element lists a face, edge or node twice, all distributions over ranks, all numbers of basis functions, all selections of distinct unknowns and all three layouts. Without these two conditions the indices have holes (witness theorems)."
  },
  {
   "property": "C18",
   "status": "proved",
   "theorems": [
    "Verif.GlobalIndexing.exchange_never_fails",
    "Verif.GlobalIndexing.exchange_sound",
    "Verif.GlobalIndexing.exchange_keeps",
    "Verif.GlobalIndexing.exchange_complete",
    "Verif.GlobalIndexing.element_indices",
    "Verif.GlobalIndexing.exchange_progress",
    "Verif.GlobalIndexing.exchange_terminates"
   ],
   "note": "Transition system over all interleavings of sends, receives from any source and barriers, for any number of ranks. The hypotheses on the ghost layer (Mesh.Ghosts) are the ones the code relies on; that mesh readers establish them is not proved here."
  },
  {
   "property": "C19",
   "status": "proved",
   "theorems": [
    "Verif.UnionFind.findSet_eq_iff_linked",
    "Verif.UnionFind.inSameSet_iff_linked",
    "Verif.UnionFind.iteration_visits_nontrivial",
    "Verif.UnionFind.findSet_keeps_items"
   ],
   "note": "For every sequence of unionSets/findSet calls on the model of the path-compressing forest; termination included (recursion depth at most one per operation)."
  },
  {
   "property": "C20",
   "status": "proved",
   "theorems": [
    "Verif.UnionFind.groupMerges_correct"
   ],
   "note": "For every list of pairs, with self merges, repetitions and cycles."
  },
  {
   "property": "C21",
   "status": "partial",
   "theorems": [
    "Verif.ElementReorder.reorder_roundtrip_partial",
    "Verif.ElementReorder.reorderTo_defined",
    "Verif.ElementReorder.reorder_roundtrip_fails",
    "Verif.ElementReorder.gmsh_registers",
    "Verif.ElementReorder.gmsh_roundtrip"
   ],
   "note": "Proved for every accepted order without repeated indices, in particular every type of the gmsh reader. Fails for orders like {0,0,2}, which checkOrder accepts (negation proved)."
  },
  {
   "property": "C22",
   "status": "proved",
   "theorems": [
    "Verif.LazyCached.read_eq_recompute",
    "Verif.LazyCached.second_read_cached",
    "Verif.LazyCached.resize_length"
   ],
   "note": "For every history; LazyCached is the case of one cell."
  },
  {
   "property": "C23",
   "status": "proved",
   "theorems": [
    "Verif.Legendre.legendre_is_legendre",
    "Verif.Legendre.legendreDeriv_is_derivative",
    "Verif.Legendre.legendre_one_and_parity",
    "Verif.Legendre.legendre_orthogonal"
   ],
   "note": "Against Rodrigues' formula, all degrees and real arguments; also orthogonality and norms."
  },
  {
   "property": "C24",
   "status": "partial",
   "theorems": [
    "Verif.Legendre.lobatto_is_scaled_derivative_partial",
    "Verif.Legendre.lobatto_shape_derivative_partial",
    "Verif.Legendre.lobatto_shapes_orthonormal",
    "Verif.Legendre.lobatto_five_wrong",
    "Verif.Legendre.lobatto_high_wrong",
    "Verif.Legendre.lobattoDeriv_is_derivative"
   ],
   "note": "Holds for degrees 0-4 and 6-9. The code violates it at degree 5 (only right at -1, 0, 1) and for every degree >= 10; both are proved."
  },
  {
   "property": "C25",
   "status": "proved",
   "theorems": [
    "Verif.LevelTree.plain_levels_consistent",
    "Verif.LevelTree.levels_consistent",
    "Verif.LevelTree.valid_calls_succeed",
    "Verif.LevelTree.calls_effect",
    "Verif.LevelTree.fillToLevel_stretches",
    "Verif.LevelTree.level_selectable",
    "Verif.LevelTree.addChildAt_breaks_levels",
    "Verif.LevelTree.addChildAt_keeps_maxLevel",
    "Verif.LevelTree.addChildren_nil_undefined"
   ],
   "note": "For all histories of calls. addChild(ren) with an explicit start level on entries with children, or below the end of a stretched leaf, breaks the levels (findings)."
  },
  {
   "property": "C26",
   "status": "partial",
   "theorems": [
    "Verif.LevelTree.singleLevel_visits",
    "Verif.LevelTree.history_singleLevel",
    "Verif.LevelTree.postOrder_visits",
    "Verif.LevelTree.postOrder_reverse_partial",
    "Verif.LevelTree.preOrder_visits_partial",
    "Verif.LevelTree.preOrder_reverse_partial",
    "Verif.LevelTree.allLevel_visits_partial",
    "Verif.LevelTree.allLevel_complete_partial",
    "Verif.LevelTree.allLevel_misses",
    "Verif.LevelTree.preOrder_misses",
    "Verif.LevelTree.allLevel_wrong_level",
    "Verif.LevelTree.postOrder_back_skips",
    "Verif.LevelTree.allLevel_back_aborts"
   ],
   "note": "Single level both ways and post-order forward hold for every forest. The other traversals are wrong for stretched entries or a shallow last leaf; proved where they hold, with counterexamples where they do not."
  },
  {
   "property": "C27",
   "status": "proved",
   "theorems": [
    "Verif.CommandLine.accepted_iff",
    "Verif.CommandLine.unknown_rejected",
    "Verif.CommandLine.order_independent",
    "Verif.CommandLine.int_value",
    "Verif.CommandLine.int_accepted_iff",
    "Verif.CommandLine.int_empty_accepted",
    "Verif.CommandLine.int_overflow_accepted",
    "Verif.CommandLine.unsigned_negative_accepted",
    "Verif.CommandLine.shadowed_required_unusable"
   ],
   "note": "For all registries and argument vectors. Integer arguments: the stream's error flag is not read, so empty, overflowing and negative unsigned texts are accepted (findings). Conversion of floating point texts is an arbitrary function."
  },
  {
   "property": "C28",
   "status": "proved",
   "theorems": [
    "Verif.PreMesh.run_consistent",
    "Verif.PreMesh.step_consistent",
    "Verif.PreMesh.addElement_consistent",
    "Verif.PreMesh.addElement_spec",
    "Verif.PreMesh.merge_consistent",
    "Verif.PreMesh.squeezed_consistent",
    "Verif.PreMesh.fixConnectivity_id"
   ],
   "note": "Invariant over every history of calls that return, for every list of element shapes and dimension."
  },
  {
   "property": "C29",
   "status": "partial",
   "theorems": [
    "Verif.PreMesh.merge_spec",
    "Verif.PreMesh.merge_lists",
    "Verif.PreMesh.merge_rejects",
    "Verif.PreMesh.mergeLoop_self",
    "Verif.PreMesh.removeUnused_spec_partial",
    "Verif.PreMesh.removeUnused_all_used",
    "Verif.PreMesh.removeUnused_order",
    "Verif.PreMesh.removeUnused_undefined",
    "Verif.PreMesh.removeUnused_twice_undefined",
    "Verif.PreMesh.removeUnused_addElement_undefined"
   ],
   "note": "merge in full. removeUnusedEntities does what it should when every coordinate has a node; otherwise it is undefined (proved), which a second call after removing a node with a coordinate reaches."
  },
  {
   "property": "C30",
   "status": "proved",
   "theorems": [
    "Verif.Submesh.run_answered",
    "Verif.Submesh.request_granted",
    "Verif.Submesh.read_answered",
    "Verif.Submesh.request_again"
   ],
   "note": "All processes take part in processPullRequests; unrefined elements. request_again is a finding: repeated requests are communicated repeatedly."
  },
  {
   "property": "C31",
   "status": "proved",
   "theorems": [
    "Verif.ElementData.single_bijOn",
    "Verif.ElementData.single_isSome",
    "Verif.ElementData.run_agree",
    "Verif.ElementData.vectors_are_flat",
    "Verif.ElementData.elem_consistent",
    "Verif.ElementData.setNumber_keeps_partial",
    "Verif.ElementData.setNumber_shifts",
    "Verif.ElementData.setNumber_keeps_level_partial"
   ],
   "note": "Histories may change the number of basis functions only while all coefficients are unused or zero. setNumber_shifts is a finding: changing the number for one unknown misaddresses the coefficients of later unknowns."
  },
  {
   "property": "C32",
   "status": "proved",
   "theorems": [
    "Verif.ElementData.lookup_iff",
    "Verif.ElementData.place_unique",
    "Verif.ElementData.lookup_isSome",
    "Verif.ElementData.number_eq",
    "Verif.ElementData.offset_eq_before",
    "Verif.ElementData.lookup_offset",
    "Verif.ElementData.runBasis_isSome",
    "Verif.ElementData.maxOrder_spec",
    "Verif.ElementData.lookupLegacy_eq",
    "Verif.ElementData.offset_behind",
    "Verif.ElementData.elem_consistent"
   ],
   "note": ""
  },
  {
   "property": "C33",
   "status": "partial",
   "theorems": [
    "Verif.ElementData.single_left",
    "Verif.ElementData.single_right_partial",
    "Verif.ElementData.single_right_wrong",
    "Verif.ElementData.single_boundary",
    "Verif.ElementData.single_bijective_partial",
    "Verif.ElementData.totalLocal_spec",
    "Verif.ElementData.face_vector",
    "Verif.ElementData.boundary_vector"
   ],
   "note": "False for the right element when the left element has functions on faces, edges or nodes: single_right_wrong."
  },
  {
   "property": "C34",
   "status": "partial",
   "theorems": [
    "Verif.Assembly.estimate_none_iff",
    "Verif.Assembly.estimate_exact",
    "Verif.Assembly.coupled_iff",
    "Verif.Assembly.estimate_bound_partial",
    "Verif.Assembly.nonzero_coupled",
    "Verif.Assembly.estimate_suffices_partial",
    "Verif.Assembly.estimate_too_small"
   ],
   "note": "False for selections of unknowns whose positions are not their numbers (estimate_too_small). estimate_exact says for all selections what is counted."
  },
  {
   "property": "C35",
   "status": "partial",
   "theorems": [
    "Verif.PhysMap.createMappings_iff",
    "Verif.PhysMap.nodes_map_partial",
    "Verif.PhysMap.hypercube_nodes_iff",
    "Verif.PhysMap.hypercube_nodes_fail",
    "Verif.PhysMap.affine_map",
    "Verif.PhysMap.jacobian_correct",
    "Verif.PhysMap.jacobian_tip",
    "Verif.PhysMap.pyramid_excluded",
    "Verif.PhysMap.inverse_affine",
    "Verif.PhysMap.simplex_inverse",
    "Verif.PhysMap.inverse_limited_partial",
    "Verif.PhysMap.inverse_nan_iff",
    "Verif.PhysMap.inverse_unreachable",
    "Verif.PhysMap.inverse_wrong",
    "Verif.PhysMap.triangle2_inverse",
    "Verif.PhysMap.tetrahedron2_inverse"
   ],
   "note": "All shapes, linear and quadratic, and their inverse maps. Partial because the four-dimensional map does not interpolate the nodes of a general element (hypercube_nodes_iff says of which it does) and because the inverse maps return points that are not mapped to the given point when the iteration reaches its limit (inverse_nan_iff, inverse_unreachable, inverse_wrong)."
  },
  {
   "property": "C36",
   "status": "partial",
   "theorems": [
    "Verif.Basis.evalDeriv_is_partial_derivative",
    "Verif.Basis.evalDeriv_defined_partial",
    "Verif.Basis.evalDeriv_aborts",
    "Verif.Basis.pyramid_regularisation"
   ],
   "note": "Every value returned is the partial derivative. The code aborts for every set of order 6 or more, which is proved too. Curl-conforming functions not covered here."
  },
  {
   "property": "C37",
   "status": "partial",
   "theorems": [
    "Verif.Quadrature.point_rules",
    "Verif.Quadrature.line_rules",
    "Verif.Quadrature.square_rules",
    "Verif.Quadrature.cube_rules",
    "Verif.Quadrature.hypercube_rules",
    "Verif.Quadrature.triangle_rules",
    "Verif.Quadrature.prism_rules",
    "Verif.Quadrature.pyramid_rules",
    "Verif.Quadrature.tetrahedron_rules_partial",
    "Verif.Quadrature.tetrahedron_order_7",
    "Verif.Quadrature.tetrahedron_order_9",
    "Verif.Quadrature.weights_volume",
    "Verif.Quadrature.volumes"
   ],
   "note": "All 41 rules. Partial because the tetrahedron rules of order 7 and 9 do not have the order they state (tetrahedron_order_7, tetrahedron_order_9). Tolerance relative to the sum of the absolute values of the coefficients: 1e-13, for prisms 1e-9, for pyramids 1e-10."
  },
  {
   "property": "C38",
   "status": "partial",
   "theorems": [
    "Verif.PreMesh.copy_loses_zones",
    "Verif.PreMesh.zoneName_some",
    "Verif.PreMesh.copy_keeps_partial"
   ],
   "note": "Negation proved: a copied or moved mesh has no zone names. Everything else is kept."
  },
  {
   "property": "C39",
   "status": "proved",
   "theorems": [
    "Verif.Assembly.assemble_sum",
    "Verif.Assembly.assemble_vector_sum"
   ],
   "note": "PETSc by its documentation. Covers symmetric and separate numberings of rows and columns, element and face matrices, any order of the additions of all ranks."
  },
  {
   "property": "C40",
   "status": "proved",
   "theorems": [
    "Verif.MeshFile.lines_partitions",
    "Verif.MeshFile.counts_le",
    "Verif.MeshFile.Counts.counts_fit",
    "Verif.MeshFile.read_write",
    "Verif.MeshFile.push_pull"
   ],
   "note": "Token-level file; elements meet themselves in no node. The counts fit in the reserved space (character level)."
  },
  {
   "property": "C41",
   "status": "proved",
   "theorems": [
    "Verif.RungeKutta.tvd_stronglyStable"
   ],
   "note": "Every convex functional, every vector space, for the rules flagged as TVD."
  },
  {
   "property": "C42",
   "status": "partial",
   "theorems": [
    "Verif.RungeKutta.numberOfTimeSteps_spec",
    "Verif.RungeKutta.solve_frames",
    "Verif.RungeKutta.effectiveDt_le",
    "Verif.RungeKutta.solve_noFrames_overshoots"
   ],
   "note": "Proved when at least one output frame is requested; with zero frames the loop can pass the final time (proved with a witness)."
  },
  {
   "property": "C43",
   "status": "partial",
   "theorems": [
    "Verif.DenseMatrix.mat_ext",
    "Verif.DenseMatrix.mat_set",
    "Verif.DenseMatrix.mat_linear",
    "Verif.DenseMatrix.mat_transpose",
    "Verif.DenseMatrix.mat_transpose_transpose",
    "Verif.DenseMatrix.mat_mul",
    "Verif.DenseMatrix.mat_column_row",
    "Verif.DenseMatrix.mat_concatenate",
    "Verif.DenseMatrix.mat_glue",
    "Verif.DenseMatrix.mat_glue_cons",
    "Verif.DenseMatrix.mat_assignScalar",
    "Verif.DenseMatrix.mat_resize_partial",
    "Verif.DenseMatrix.resize_scrambles"
   ],
   "note": "Everything but resize with a changed number of rows, which moves entries (proved)."
  },
  {
   "property": "C44",
   "status": "partial",
   "theorems": [
    "Verif.ElementReorder.gmsh_read_correctly_partial",
    "Verif.ElementReorder.gmsh_tetrahedron_rejected",
    "Verif.ElementReorder.gmsh_tetrahedron_not_read"
   ],
   "note": "All registered types; linear tetrahedra are not registered and every file with one is rejected (negation proved)."
  },
  {
   "property": "C45",
   "status": "proved",
   "theorems": [
    "Verif.Lattice.curved_nodes_complete",
    "Verif.Lattice.triangleOrderFromPoints_correct",
    "Verif.Lattice.tetrahedronOrderFromPoints_correct"
   ],
   "note": "Real arithmetic: the square root is exact. int overflow for huge orders not modelled."
  },
  {
   "property": "C46",
   "status": "proved",
   "theorems": [
    "Verif.Lattice.curvedTriangle_finds_nodes",
    "Verif.Lattice.curvedTetrahedron_finds_nodes"
   ],
   "note": "Real arithmetic; orders up to 10^8, beyond which the tolerance 1e-8 exceeds the lattice spacing."
  },
  {
   "property": "C47",
   "status": "partial",
   "theorems": [
    "Verif.Basis.dg_sets_partial",
    "Verif.Basis.dg_sets_nodup",
    "Verif.Basis.dg_sets_length_partial",
    "Verif.Basis.prism_dg_length",
    "Verif.Basis.monomials_complete"
   ],
   "note": "All shapes but the prism, whose set has (o-1)(o-2)/2 functions too many for every order >= 3 (proved)."
  },
  {
   "property": "C48",
   "status": "partial",
   "theorems": [
    "Verif.Basis.vertex_functions_nodal",
    "Verif.Basis.vertex_functions_unity",
    "Verif.Basis.functions_vanish_elsewhere_partial",
    "Verif.Basis.prism_square_faces_leak"
   ],
   "note": "Everything but the square faces of the prism, where the code violates the property (proved)."
  },
  {
   "property": "C49",
   "status": "partial",
   "theorems": [
    "Verif.Basis.vertex_traces",
    "Verif.Basis.line_faces_conform",
    "Verif.Basis.triangular_faces_conform",
    "Verif.Basis.cube_faces_conform_partial",
    "Verif.Basis.cube_faces_conform_low_order_partial",
    "Verif.Basis.cube_faces_do_not_conform",
    "Verif.Basis.edges_conform_partial",
    "Verif.Basis.mixed_edges_do_not_conform"
   ],
   "note": "Violated by the code for cube faces with exchanged axes and for edges shared by a cube and another shape, at every order >= 3 (both proved); the rest holds."
  },
  {
   "property": "C50",
   "status": "partial",
   "theorems": [
    "Verif.Basis.dg_sets_dependent",
    "Verif.Basis.dg_sets_independent_partial"
   ],
   "note": "Violated by the code at every order >= 7 (proved for all shapes); for each shape the set is independent exactly when the order is at most 6."
  },
  {
   "property": "C51",
   "status": "proved",
   "theorems": [
    "Verif.KPath.parsePoint_roundtrip",
    "Verif.KPath.parsePath_roundtrip",
    "Verif.KPath.parseTranslations_roundtrip",
    "Verif.KPath.parsePoint_short_rejected",
    "Verif.KPath.parsePath_steps",
    "Verif.KPath.empty_path_wraps"
   ],
   "note": "std::stod is an arbitrary function that reads back printed numbers followed by a separator."
  },
  {
   "property": "C52",
   "status": "proved",
   "theorems": [
    "Verif.KPath.totalNumberOfSteps_eq",
    "Verif.KPath.k_corner",
    "Verif.KPath.k_line",
    "Verif.KPath.dk_step",
    "Verif.KPath.k_sum",
    "Verif.KPath.dkDidChange_sound",
    "Verif.KPath.cubePath_corners",
    "Verif.KPath.k_total_undefined",
    "Verif.KPath.singleStepPath_one_point",
    "Verif.KPath.zero_steps_undefined"
   ],
   "note": "Exact arithmetic. Findings: the bound of the assertions in k is one too large, singleStepPath has one point only, 0 steps and no points are accepted."
  },
  {
   "property": "C53",
   "status": "partial",
   "theorems": [
    "Verif.ElementShape.adjacent_iff_nodes",
    "Verif.ElementShape.adjacent_nodes",
    "Verif.ElementShape.adjacent_symm",
    "Verif.ElementShape.hpgemShapes_ok",
    "Verif.ElementShape.adjacent_self"
   ],
   "note": "Holds for parts of different dimensions; asked for its own dimension a part answers with the wrong index (proved)."
  },
  {
   "property": "C54",
   "status": "proved",
   "theorems": [
    "Verif.PreMesh.reader_shared",
    "Verif.PreMesh.shared_elements",
    "Verif.PreMesh.addElement_share",
    "Verif.PreMesh.conforming_of_size",
    "Verif.PreMesh.hpgemShapes_shapesOk"
   ],
   "note": "For every conforming list of elements; an example shows what happens to others."
  },
  {
   "property": "C55",
   "status": "proved",
   "theorems": [
    "Verif.MergePlan.connect_spec",
    "Verif.MergePlan.connect_all",
    "Verif.MergePlan.shared_coordShared",
    "Verif.MergePlan.reader_connect",
    "Verif.MergePlan.translationConnect_spec",
    "Verif.MergePlan.near_unique",
    "Verif.MergePlan.computeMergePlan_forgets",
    "Verif.MergePlan.computeMergePlan_aborts"
   ],
   "note": "Positions are abstract in translationConnect_spec; near_unique gives its conditions when boundary points are at least 2e-8 apart, in exact arithmetic. For pairings that are not one-to-one computeMergePlan_forgets shows a lost merge."
  },
  {
   "property": "C56",
   "status": "proved",
   "theorems": [
    "Verif.MeshFile.read_write",
    "Verif.MeshFile.own_unique",
    "Verif.MeshFile.push_pull",
    "Verif.MeshFile.own_faces_complete",
    "Verif.MeshFile.shared_facesTouch",
    "Verif.MeshFile.points_of_others_are_walls",
    "Verif.MeshFile.faces_of_others_are_periodic",
    "Verif.MeshFile.repeated_node_loses_coordinate",
    "Verif.MeshFile.three_elements_at_face"
   ],
   "note": "Writer and reader composed; the last four theorems are findings outside the hypotheses or beyond the claim."
  },
  {
   "property": "C57",
   "status": "proved",
   "theorems": [
    "Verif.Submesh.synchronize_correct",
    "Verif.Submesh.synchronize_progress",
    "Verif.Submesh.synchronize_terminates",
    "Verif.Submesh.read_answered"
   ],
   "note": "Non-blocking messages matched by process and element id; delivery in any order."
  },
  {
   "property": "C58",
   "status": "partial",
   "theorems": [
    "Verif.PhysMap.face_map",
    "Verif.PhysMap.face_map_all",
    "Verif.PhysMap.glue_line",
    "Verif.PhysMap.glue_triangle",
    "Verif.PhysMap.glue_square_partial",
    "Verif.PhysMap.glue_square_fails",
    "Verif.PhysMap.triangle2_side",
    "Verif.PhysMap.tetrahedron2_side",
    "Verif.PhysMap.glue_parabola",
    "Verif.PhysMap.glue_triangle2"
   ],
   "note": "Partial because the claim fails for squares whose nodes are listed in orders that differ by a rotation by 90 degrees (glue_square_fails). Faces of four-dimensional elements and end points of lines are not covered."
  },
  {
   "property": "C59",
   "status": "partial",
   "theorems": [
    "Verif.Quadrature.getRule_lowest",
    "Verif.Quadrature.getRule_none_iff",
    "Verif.Quadrature.requested_order",
    "Verif.Quadrature.requested_tetrahedron_partial"
   ],
   "note": "Partial only because of the two tetrahedron rules of C37."
  },
  {
   "property": "C60",
   "status": "proved",
   "theorems": [
    "Verif.Quadrature.integrateElement_eq",
    "Verif.Quadrature.element_integral",
    "Verif.Quadrature.affine_element",
    "Verif.Quadrature.triangle_element"
   ],
   "note": "element_integral for any injective differentiable map, affine_element with the maps of C35, triangle_element for every triangle."
  },
  {
   "property": "C61",
   "status": "partial",
   "theorems": [
    "Verif.Assembly.construct_vector",
    "Verif.Assembly.write_back_restores",
    "Verif.Assembly.write_back_needs_all"
   ],
   "note": "Writing back fails if an unknown is not included (write_back_needs_all)."
  },
  {
   "property": "C62",
   "status": "proved",
   "theorems": [
    "Verif.Transform.h1_gradient",
    "Verif.Transform.hdiv_divergence",
    "Verif.Transform.hcurl_curl",
    "Verif.Transform.hcurl_curl2",
    "Verif.Transform.hcurl_tangential",
    "Verif.Transform.hdiv_normal",
    "Verif.Transform.element_map",
    "Verif.Transform.physGradient_eq",
    "Verif.Transform.hcurl_kernel"
   ],
   "note": "Arithmetic over the reals. Elements of every shape are covered where their Jacobian is nonsingular (element_map)."
  },
  {
   "property": "C63",
   "status": "proved",
   "theorems": [
    "Verif.EvalCache.answers_eq",
    "Verif.EvalCache.key_order"
   ],
   "note": "Quadrature rules live as long as the program (singletons). References returned by evalGrad are copied at once."
  },
  {
   "property": "C64",
   "status": "proved",
   "theorems": [
    "Verif.PhysElem.answers_eq"
   ],
   "note": "Coefficients, functions and maps are parameters. Requests for the solution are C65. Values are not IEEE numbers."
  },
  {
   "property": "C65",
   "status": "partial",
   "theorems": [
    "Verif.PhysElem.solution_partial",
    "Verif.PhysElem.expansion_true",
    "Verif.PhysElem.solution_wrong",
    "Verif.PhysElem.solution_stale"
   ],
   "note": "Holds if unknowns share functions and transformations and something is set after each change of coefficients. The code violates the full property: solution_wrong, solution_stale."
  },
  {
   "property": "C66",
   "status": "proved",
   "theorems": [
    "Verif.FaceRotation.finds_rotation",
    "Verif.FaceRotation.fromRight_turns",
    "Verif.FaceRotation.fromRight_curl2",
    "Verif.FaceRotation.tangential_same",
    "Verif.FaceRotation.normals_turned",
    "Verif.FaceRotation.quarter_turn",
    "Verif.FaceRotation.shear_wrong"
   ],
   "note": "Real arithmetic; dgesv is exact. Faces that are not congruent are outside the claim (shear_wrong shows what happens)."
  },
  {
   "property": "C67",
   "status": "partial",
   "theorems": [
    "Verif.Shallow.consistent1",
    "Verif.Shallow.consistent2",
    "Verif.Shallow.laxFriedrichs_consistent1",
    "Verif.Shallow.laxFriedrichs_consistent2",
    "Verif.Shallow.opposite1",
    "Verif.Shallow.opposite2",
    "Verif.Shallow.upwind1",
    "Verif.Shallow.upwind2",
    "Verif.Shallow.conserved1",
    "Verif.Shallow.conserved2",
    "Verif.Shallow.contribution2",
    "Verif.Shallow.contribution1_partial",
    "Verif.Shallow.contribution1_wrong",
    "Verif.Shallow.wall_closed",
    "Verif.Shallow.height_stays",
    "Verif.Shallow.alpha2_too_small"
   ],
   "note": "In one dimension the contribution has the right sign only for the normal +1 (contribution1_partial); contribution1_wrong proves that it is wrong for −1. Source terms and friction are not modelled."
  },
  {
   "property": "C68",
   "status": "proved",
   "theorems": [
    "Verif.Euler.jacobian_is_derivative",
    "Verif.Euler.consistent",
    "Verif.Euler.opposite",
    "Verif.Euler.waves",
    "Verif.Euler.mean_state",
    "Verif.Euler.damping",
    "Verif.Euler.supersonic",
    "Verif.Euler.face_conserved",
    "Verif.Euler.element_flux"
   ],
   "note": "Real arithmetic. The reconstruction of the states from coefficients is the sum of C65."
  },
  {
   "property": "C69",
   "status": "partial",
   "theorems": [
    "Verif.Euler.wall_closed_partial",
    "Verif.Euler.wall_force",
    "Verif.Euler.wall_wrong",
    "Verif.Euler.wall_slide"
   ],
   "note": "The code violates the two claims about forces: wall_wrong and wall_slide prove it. Mass and energy are proved."
  },
  {
   "property": "C70",
   "status": "proved",
   "theorems": [
    "Verif.Euler.source_exact",
    "Verif.Euler.source_depends",
    "Verif.Euler.intended_physical"
   ],
   "note": "source_depends records that the energy source uses the pressure of the computed state."
  },
  {
   "property": "C71",
   "status": "partial",
   "theorems": [
    "Verif.Bloch.bloch_history_partial",
    "Verif.Bloch.unmarked_rejected",
    "Verif.Bloch.misfit_rejected",
    "Verif.Bloch.rows_owned",
    "Verif.Bloch.thin_wrong",
    "Verif.Bloch.bloch_hermitian"
   ],
   "note": "False for cells in which two elements are neighbours in two ways: thin_wrong proves it; bloch_history_partial excludes that. PETSc is a function of two positions with INSERT semantics."
  },
  {
   "property": "C72",
   "status": "partial",
   "theorems": [
    "Verif.Bloch.shifted_history_partial"
   ],
   "note": "As C71; the test for an unchanged step is assumed not to meet steps that are close to each other but different."
  },
  {
   "property": "C73",
   "status": "partial",
   "theorems": [
    "Verif.Bloch.projector_history_partial"
   ],
   "note": "As C72; excludes elements that see an entity at two places. The search for entities on the boundary is not modelled."
  },
  {
   "property": "C74",
   "status": "proved",
   "theorems": [
    "Verif.Bloch.project_constraint",
    "Verif.Bloch.project_fixes",
    "Verif.Bloch.project_idempotent",
    "Verif.Bloch.project_orthogonal"
   ],
   "note": "The direct solver is taken to be exact."
  },
  {
   "property": "C75",
   "status": "partial",
   "theorems": [
    "Verif.Bloch.compareEigen_spec",
    "Verif.Bloch.compareEigen_negative",
    "Verif.Bloch.eigenBefore_order"
   ],
   "note": "Negative eigenvalues are not sorted last: compareEigen_negative proves it."
  },
  {
   "property": "C76",
   "status": "partial",
   "theorems": [
    "Verif.PhysFace.answers_partial",
    "Verif.PhysFace.mixed_wrong",
    "Verif.PhysFace.rule_stale",
    "Verif.PhysFace.unknown_wrong",
    "Verif.PhysFace.solution_wrong",
    "Verif.PhysFace.beyond_wrong"
   ],
   "note": "False in five cases, each with a proof; answers_partial excludes them. getSolutionNormal and getSolutionCurl are not modelled."
  },
  {
   "property": "C77",
   "status": "partial",
   "theorems": [
    "Verif.FaceInt.integrals_partial",
    "Verif.FaceInt.mixed_wrong"
   ],
   "note": "False for faces with different numbers of functions: mixed_wrong proves it; provisos of C76."
  },
  {
   "property": "C78",
   "status": "proved",
   "theorems": [
    "Verif.Refine.refinement_matrices",
    "Verif.Refine.tables_fit"
   ],
   "note": "All 36 classes."
  },
  {
   "property": "C79",
   "status": "partial",
   "theorems": [
    "Verif.Refine.children_tile_partial",
    "Verif.Refine.children_follow_partial",
    "Verif.Refine.transform_places_children_partial"
   ],
   "note": "False for some classes; the theorems say for which it holds and for which not (except children_follow_partial, which excludes the four that do not tile)."
  },
  {
   "property": "C80",
   "status": "partial",
   "theorems": [
    "Verif.Refine.face_parts_partial",
    "Verif.Refine.face_nodes_partial"
   ],
   "note": "False for some faces; the theorems say exactly for which."
  },
  {
   "property": "C81",
   "status": "partial",
   "theorems": [
    "Verif.Refine.refine_element_partial",
    "Verif.Refine.refine_reversed_face"
   ],
   "note": "False if a neighbour sees the face in another order (refine_reversed_face). Edges, faces and the tree of the new elements are not modelled."
  },
  {
   "property": "C82",
   "status": "partial",
   "theorems": [
    "Verif.Assign.conforming_assigns",
    "Verif.Assign.conforming_defined",
    "Verif.Assign.conforming_numbers",
    "Verif.Assign.conforming_continuous_2d",
    "Verif.Assign.conforming_continuous_triangles",
    "Verif.Assign.conforming_continuous_cubes_partial",
    "Verif.Assign.conforming_for_unknown",
    "Verif.Assign.discontinuous_assigns",
    "Verif.Assign.discontinuous_for_unknown",
    "Verif.Assign.discontinuous_for_unknown_keeps_numbers"
   ],
   "note": "The numbers are wrong after the discontinuous overload for one unknown (discontinuous_for_unknown_keeps_numbers). Functions on square faces agree only for the orientations of C49; square faces of prisms are not covered here."
  },
  {
   "property": "C83",
   "status": "partial",
   "theorems": [
    "Verif.Assign.edge_functions_agree",
    "Verif.Assign.edge_functions_disagree"
   ],
   "note": "Holds if the coordinates of the two nodes are numbered in the same order in all elements; fails otherwise from order three on."
  },
  {
   "property": "C84",
   "status": "proved",
   "theorems": [
    "Verif.Parallel.after_coherent",
    "Verif.Parallel.run_coherent",
    "Verif.Parallel.run_exists",
    "Verif.Parallel.runs_agree",
    "Verif.Parallel.timeStep_coherent",
    "Verif.Parallel.linear_timeStep_coherent",
    "Verif.Parallel.solve_coherent",
    "Verif.Parallel.read_complete",
    "Verif.Parallel.solve_from_file",
    "Verif.Parallel.in_place_differs"
   ],
   "note": "Results must differ from inputs. The hypotheses are proved from the mesh file for dimensions above one. All vectors of coefficients are in one real vector space; time steps have a given size."
  },
  {
   "property": "C85",
   "status": "proved",
   "theorems": [
    "Verif.Projection.massMatrix_entry",
    "Verif.Projection.massMatrix_symmetric",
    "Verif.Projection.massMatrix_inner",
    "Verif.Projection.massMatrix_definite",
    "Verif.Projection.initial_iff_orthogonal",
    "Verif.Projection.initial_best",
    "Verif.Projection.initial_reproduces",
    "Verif.Projection.initial_unique"
   ],
   "note": "All unknowns have the same basis functions, as the code requires. The linear solver is any that solves the system."
  },
  {
   "property": "C86",
   "status": "partial",
   "theorems": [
    "Verif.Projection.totalError_eq",
    "Verif.Projection.totalError_eq_zero",
    "Verif.Projection.maxError_isMax",
    "Verif.Projection.updateError_eq",
    "Verif.Projection.updateNorm_eq",
    "Verif.Projection.updateNorm_overestimates"
   ],
   "note": "The norm that the estimate is compared to is not that of the solution over all elements but the sum of the norms of the elements (updateNorm_overestimates)."
  },
  {
   "property": "C87",
   "status": "proved",
   "theorems": [
    "Verif.MaxTime.co2_leapFrog",
    "Verif.MaxTime.step_time",
    "Verif.MaxTime.co2_reversible",
    "Verif.MaxTime.co2_balance",
    "Verif.MaxTime.co2_energy",
    "Verif.MaxTime.co2_energy_le",
    "Verif.MaxTime.co2_stable",
    "Verif.MaxTime.solve_snapshots",
    "Verif.MaxTime.configure_reaches"
   ],
   "note": "The linear solves with the mass matrix are exact."
  },
  {
   "property": "C88",
   "status": "partial",
   "theorems": [
    "Verif.MaxTime.co4_reversible",
    "Verif.MaxTime.co4_order",
    "Verif.MaxTime.co4_symplectic",
    "Verif.MaxTime.co4_ignores_sources",
    "Verif.MaxTime.co4_not_pushed"
   ],
   "note": "The order, reversibility and symplectic form are proved without source and conductivity. With them the claim is false: CO4 ignores the source, the boundary values and the conductivity (co4_ignores_sources, co4_not_pushed)."
  },
  {
   "property": "C89",
   "status": "proved",
   "theorems": [
    "Verif.Harmonic.solve_fresh",
    "Verif.Harmonic.source_driver_fresh",
    "Verif.Harmonic.solve_without_matrix",
    "Verif.Harmonic.pass_wave"
   ],
   "note": "Dispersive materials must be registered with the solver, as the application does; faces only refer to elements of the mesh. Local integrals are arbitrary functions of the data they read."
  },
  {
   "property": "C90",
   "status": "proved",
   "theorems": [
    "Verif.MaxLocal.matrices_symmetric",
    "Verif.MaxLocal.matrices_hermitian",
    "Verif.MaxLocal.mass_positive",
    "Verif.MaxLocal.internal_lower"
   ],
   "note": "Quadrature points, weights and values of basis functions are arbitrary. The sign of the face terms is bounded below by the averages; coercivity with an inverse inequality is not part of the claim."
  },
  {
   "property": "C91",
   "status": "proved",
   "theorems": [
    "Verif.MaxLocal.internal_form",
    "Verif.MaxLocal.boundary_form",
    "Verif.MaxLocal.element_form",
    "Verif.MaxLocal.internal_residual",
    "Verif.MaxLocal.boundary_residual",
    "Verif.MaxLocal.element_residual",
    "Verif.MaxLocal.consistent",
    "Verif.MaxLocal.exact_solves",
    "Verif.MaxLocal.square_green",
    "Verif.MaxLocal.square_solved"
   ],
   "note": "That integration by parts holds for the rules of quadrature is a hypothesis (Green); square_green meets it."
  },
  {
   "property": "C92",
   "status": "partial",
   "theorems": [
    "Verif.MaxLocal.rescale_forms",
    "Verif.MaxLocal.restore_rescaled",
    "Verif.MaxLocal.eigen_equivalent",
    "Verif.MaxLocal.restoreInternal_fails"
   ],
   "note": "Proved except for the energy fluxes of a rescaled solution, for which the claim is false: the program stops (restoreInternal_fails)."
  },
  {
   "property": "C93",
   "status": "partial",
   "theorems": [
    "Verif.MaxLocal.flux_total",
    "Verif.MaxLocal.flux_sides",
    "Verif.MaxLocal.flux_cancels",
    "Verif.MaxLocal.flux_does_not_cancel",
    "Verif.MaxLocal.outgoing_flux",
    "Verif.MaxLocal.outgoing_silverMuller"
   ],
   "note": "The sum is proved. The sides cancel exactly for equal permeabilities (otherwise false: flux_does_not_cancel). The sign is the opposite of the documented one (outgoing_flux)."
  },
  {
   "property": "C94",
   "status": "partial",
   "theorems": [
    "Verif.MaxLocal.initial_scaled",
    "Verif.MaxLocal.initial_exact"
   ],
   "note": "Holds for permittivity one; for a constant permittivity the field is divided by it (initial_scaled), which contradicts the claim."
  },
  {
   "property": "C95",
   "status": "proved",
   "theorems": [
    "Verif.Pml.layer_maxwell",
    "Verif.Pml.layer_solution",
    "Verif.Pml.layer_maxwell_plane",
    "Verif.Pml.layer_rescaling",
    "Verif.Pml.layer_outside"
   ],
   "note": "Derivatives are partial derivatives in the strong form of the equation. The rescalings are proved in three dimensions."
  },
  {
   "property": "C96",
   "status": "proved",
   "theorems": [
    "Verif.Pml.stretched_deriv",
    "Verif.Pml.wave_deriv",
    "Verif.Pml.wave_solution",
    "Verif.Pml.create_attenuates",
    "Verif.Pml.create_absorbs"
   ],
   "note": "The wave is shown to be a solution in three dimensions. The attenuation must be positive, as the parser of the program demands."
  },
  {
   "property": "C97",
   "status": "proved",
   "theorems": [
    "Verif.Facets.fluxes_eq",
    "Verif.Facets.names_eq",
    "Verif.Facets.fluxes_division",
    "Verif.Facets.flux_reverse"
   ],
   "note": "The flux of a face is a parameter; what it is for DG-Max is C93."
  },
  {
   "property": "C98",
   "status": "partial",
   "theorems": [
    "Verif.Facets.transmission_one_partial",
    "Verif.Facets.transmission_shares",
    "Verif.Facets.transmission_low"
   ],
   "note": "True for one process. For more the code does not sum the integrals; the squares of the values of all processes add up to the square of the right one, so that each value is too small."
  },
  {
   "property": "C99",
   "status": "partial",
   "theorems": [
    "Verif.Facets.bounds_eq",
    "Verif.Facets.description_iff",
    "Verif.Facets.description_names",
    "Verif.Facets.description_unknown",
    "Verif.Facets.layers_own_partial",
    "Verif.Facets.layers_first",
    "Verif.Facets.layers_shadow",
    "Verif.Facets.layers_disagree"
   ],
   "note": "True for the elements a process owns where zones have one material. False for elements of other processes, whose material is used in face integrals."
  },
  {
   "property": "C100",
   "status": "proved",
   "theorems": [
    "Verif.Fields.wave_faithful",
    "Verif.Fields.onDispersion_solves"
   ],
   "note": "Exact arithmetic."
  },
  {
   "property": "C101",
   "status": "partial",
   "theorems": [
    "Verif.Fields.localFlux_partial",
    "Verif.Fields.localFlux_backwards"
   ],
   "note": "The value is twice the mean for e^{iωt} and minus twice the mean for e^{-iωt}, the time dependence of the rest of the program; for a plane wave it points backwards."
  },
  {
   "property": "C102",
   "status": "partial",
   "theorems": [
    "Verif.Fields.interface_faithful",
    "Verif.Fields.interface_solves_partial",
    "Verif.Fields.legacy_solves",
    "Verif.Fields.interface_unchecked"
   ],
   "note": "True for a unit normal parallel to the wave vector. The assertion of the constructor lets others pass, and then the field is not continuous."
  },
  {
   "property": "C103",
   "status": "proved",
   "theorems": [
    "Verif.Fields.scattering_total",
    "Verif.Fields.scattering_layer",
    "Verif.Fields.scattering_free",
    "Verif.Fields.exact_source"
   ],
   "note": "In a region with one material."
  },
  {
   "property": "C104",
   "status": "proved",
   "theorems": [
    "Verif.Fields.sample_curl",
    "Verif.Fields.sample_solves",
    "Verif.Fields.sample_boundary",
    "Verif.Fields.harmonic_sample"
   ],
   "note": "DummyTestProblem lacks a function and cannot be used; it is not modelled."
  },
  {
   "property": "C105",
   "status": "proved",
   "theorems": [
    "Verif.Fields.make_isSome",
    "Verif.Fields.trench_solves"
   ],
   "note": "Two dimensions; in three the field is the same in every plane."
  },
  {
   "property": "C106",
   "status": "partial",
   "theorems": [
    "Verif.DivLocal.element_form",
    "Verif.DivLocal.internal_form_partial",
    "Verif.DivLocal.boundary_form",
    "Verif.DivLocal.internal_residual_partial",
    "Verif.DivLocal.boundary_residual_partial",
    "Verif.DivLocal.element_residual",
    "Verif.DivLocal.consistent_partial",
    "Verif.DivLocal.exact_solves_partial",
    "Verif.DivLocal.mixed_flux_load",
    "Verif.DivLocal.mixed_flux_example"
   ],
   "note": "Missing: fluxes of mixed kind with Dirichlet conditions and penalties of normal jumps, for which the code violates the property (negations proved)."
  },
  {
   "property": "C107",
   "status": "proved",
   "theorems": [
    "Verif.DivLocal.element_hermitian",
    "Verif.DivLocal.face_hermitian"
   ],
   "note": "Also with the wrong penalty of normal jumps."
  },
  {
   "property": "C108",
   "status": "partial",
   "theorems": [
    "Verif.DivLocal.normal_penalty",
    "Verif.DivLocal.normal_penalty_partial"
   ],
   "note": "The code violates the property; proved for pairs of functions with the same normal part."
  },
  {
   "property": "C109",
   "status": "partial",
   "theorems": [
    "Verif.DivLocal.liftForm_eq",
    "Verif.DivLocal.tangential_lift",
    "Verif.DivLocal.tangential_lift_boundary",
    "Verif.DivLocal.scalar_lift",
    "Verif.DivLocal.normal_lift_partial",
    "Verif.DivLocal.normal_lift_material",
    "Verif.DivLocal.right_faces_ignored",
    "Verif.DivLocal.distribute_layout",
    "Verif.DivLocal.distribute_injective"
   ],
   "note": "The material of the right side for normal jumps and the number of faces of the right element are wrong in the code (negations proved)."
  },
  {
   "property": "C110",
   "status": "partial",
   "theorems": [
    "Verif.DivLocal.energyFluxes_boundary_partial",
    "Verif.DivLocal.energyFluxes_internal",
    "Verif.DivLocal.fluxCoefficient_shift",
    "Verif.DivLocal.fieldL2_left_partial",
    "Verif.DivLocal.fieldL2_right"
   ],
   "note": "Boundary faces and the left side; the code violates the property otherwise (negations proved)."
  },
  {
   "property": "C111",
   "status": "proved",
   "theorems": [
    "Verif.VtkFile.grid_cells",
    "Verif.VtkFile.grid_refused"
   ],
   "note": "Elements, reference points and maps are arbitrary."
  },
  {
   "property": "C112",
   "status": "partial",
   "theorems": [
    "Verif.VtkFile.data_values_partial",
    "Verif.VtkFile.tensor_components"
   ],
   "note": "Scalars and vectors; for tensors the code violates the property (negation proved, and what is in the file)."
  },
  {
   "property": "C113",
   "status": "partial",
   "theorems": [
    "Verif.VtkFile.array_roundtrip_partial",
    "Verif.VtkFile.array_truncated"
   ],
   "note": "Less than 2^32 bytes; beyond that the code violates the property (negation proved)."
  },
  {
   "property": "C114",
   "status": "proved",
   "theorems": [
    "Verif.VtkFile.series_faithful",
    "Verif.VtkFile.series_refused",
    "Verif.VtkFile.strip_directory",
    "Verif.VtkFile.series_clash"
   ],
   "note": "Times are compared for equality; not-a-number is excluded. For one writer; two writers may share file names (series_clash)."
  },
  {
   "property": "C115",
   "status": "partial",
   "theorems": [
    "Verif.VtkFile.linear_cells",
    "Verif.VtkFile.cells_at_order"
   ],
   "note": "Prisms and pyramids above order one have no cell. The points of cells of higher order are those of C02 to C04."
  },
  {
   "property": "C116",
   "status": "partial",
   "theorems": [
    "Verif.Tecplot.zone_faithful_partial",
    "Verif.Tecplot.slice_nodes",
    "Verif.Tecplot.zone_refused"
   ],
   "note": "All coordinates written; with fewer the code violates the property (negation proved)."
  },
  {
   "property": "C117",
   "status": "proved",
   "theorems": [
    "Verif.Tecplot.corners_fit"
   ],
   "note": ""
  },
  {
   "property": "C118",
   "status": "partial",
   "theorems": [
    "Verif.Tecplot.same_geometry_partial",
    "Verif.Tecplot.same_first",
    "Verif.Tecplot.header_counts",
    "Verif.Tecplot.variables_quoted"
   ],
   "note": "After a zone with coordinates and as many elements; otherwise the code violates the property (negation proved)."
  },
  {
   "property": "C119",
   "status": "partial",
   "theorems": [
    "Verif.Bands.spectrum_bands_partial",
    "Verif.Bands.spectrum_sound",
    "Verif.Bands.spectrum_misses",
    "Verif.Bands.spectrum_degeneracy_partial"
   ],
   "note": "Bases near orthogonal, as those of rectangular and triangular lattices; for skewed bases the code violates the property (negation proved). Frequencies are exact real numbers."
  },
  {
   "property": "C120",
   "status": "proved",
   "theorems": [
    "Verif.Bands.group_counts",
    "Verif.Bands.group_overwrites"
   ],
   "note": "For sorted lists, as both callers pass; other lists lose entries (group_overwrites)."
  },
  {
   "property": "C121",
   "status": "partial",
   "theorems": [
    "Verif.Bands.lines_sound",
    "Verif.Bands.lines_complete_partial",
    "Verif.Bands.lines_same",
    "Verif.Bands.lines_missed"
   ],
   "note": "Completeness for orthogonal bases and segments within the cell; for longer segments the code violates the property (negation proved). Equal ends give no number (lines_same)."
  },
  {
   "property": "C122",
   "status": "proved",
   "theorems": [
    "Verif.Bands.Bragg.te_bloch",
    "Verif.Bands.Bragg.tm_bloch",
    "Verif.Bands.Bragg.same_material",
    "Verif.Bands.Bragg.normal_incidence",
    "Verif.Bands.Bragg.layers_swap",
    "Verif.Bands.Bragg.grazing_nan"
   ],
   "note": "The functions have no value where the wave grazes a layer (grazing_nan); near zero frequency and transverse wave vector the code puts in a limit, covered by same_material, normal_incidence and layers_swap only."
  },
  {
   "property": "C123",
   "status": "partial",
   "theorems": [
    "Verif.Bands.Bragg.bisect_root",
    "Verif.Bands.Bragg.roots_partial",
    "Verif.Bands.Bragg.false_root"
   ],
   "note": "Correct if each interval has a root at its left end, different signs at its ends or one sign throughout; otherwise the code violates the property (negation proved). Not-a-number values are excluded."
  },
  {
   "property": "C124",
   "status": "proved",
   "theorems": [
    "Verif.Bands.Bragg.lines_enumerate",
    "Verif.Bands.Bragg.line_wave"
   ],
   "note": "The loop over reciprocal vectors in computeLines is not modelled. Transverse parts of the ends are equal or at least 1e-10 apart."
  },
  {
   "property": "C125",
   "status": "partial",
   "theorems": [
    "Verif.CurlBasis.nedelec_curl_correct",
    "Verif.CurlBasis.ainsworth_curl_correct",
    "Verif.CurlBasis.nedelec2_curl_correct",
    "Verif.CurlBasis.nedelec2_curl_defined_partial",
    "Verif.CurlBasis.nedelec2_curl_aborts"
   ],
   "note": "In three dimensions complete. In two dimensions the curl is available for order at most 6; for higher orders the code violates the property (negation proved)."
  },
  {
   "property": "C126",
   "status": "proved",
   "theorems": [
    "Verif.CurlBasis.nedelec_basis"
   ],
   "note": "The two-dimensional set is not covered."
  },
  {
   "property": "C127",
   "status": "partial",
   "theorems": [
    "Verif.CurlBasis.nedelec_traces",
    "Verif.CurlBasis.ainsworth_traces",
    "Verif.CurlBasis.nedelec2_traces",
    "Verif.CurlBasis.face_parallel_partial",
    "Verif.CurlBasis.face_zero_not_parallel"
   ],
   "note": "Traces are complete. Face functions of Ainsworth-Coyle are parallel to their face except on the face opposite of node 0 (negation proved)."
  },
  {
   "property": "C128",
   "status": "partial",
   "theorems": [
    "Verif.CurlBasis.ainsworth_basis",
    "Verif.CurlBasis.ainsworth_order_zero"
   ],
   "note": "All orders above zero; for order zero the code gives six linear functions (negation proved)."
  },
  {
   "property": "C129",
   "status": "partial",
   "theorems": [
    "Verif.Limiters.positiveLayer_conserves",
    "Verif.Limiters.positiveLayer_keeps",
    "Verif.Limiters.positiveLayer_fails",
    "Verif.Limiters.positiveLayer_dries",
    "Verif.Limiters.positiveLayer_restores_partial",
    "Verif.Limiters.positiveLayer_restores_linear",
    "Verif.Limiters.positiveLayer_discharge",
    "Verif.Limiters.positiveLayer_below"
   ],
   "note": "Partial because the code violates the claim: for degree two or more the height can remain below the layer thickness (positiveLayer_below). Proved for linear heights without proviso."
  },
  {
   "property": "C130",
   "status": "partial",
   "theorems": [
    "Verif.Limiters.squeezeLimiter_correct",
    "Verif.Limiters.squeezeLimiter_not_finite",
    "Verif.Limiters.minimumPoint_wrong",
    "Verif.Limiters.averageLimiter_correct"
   ],
   "note": "Partial because the code violates the claim: infinities for constant negative discharge (squeezeLimiter_not_finite). Whenever the result is finite the claim is proved."
  },
  {
   "property": "C131",
   "status": "partial",
   "theorems": [
    "Verif.Limiters.bidispersed_fits_partial",
    "Verif.Limiters.bidispersed_outside"
   ],
   "note": "Partial because the code violates the claim when it falls back to the average (bidispersed_outside)."
  },
  {
   "property": "C132",
   "status": "partial",
   "theorems": [
    "Verif.Limiters.minmod_correct",
    "Verif.Limiters.tvbLimiter_correct",
    "Verif.Limiters.tvbLimiter_stops",
    "Verif.Limiters.detectorMinmod_flattens"
   ],
   "note": "Proved for TvbLimiter1D. Partial because the limiter with detector always makes variables constant (detectorMinmod_flattens) and periodic meshes end the program (tvbLimiter_stops)."
  },
  {
   "property": "C133",
   "status": "partial",
   "theorems": [
    "Verif.Limiters.limitLoop_conserves",
    "Verif.Limiters.limitLoop_order_partial",
    "Verif.Limiters.limitLoop_order_matters"
   ],
   "note": "Conservation without proviso. Independence of the order is partial because it is false if an element becomes dry (limitLoop_order_matters). Exchange with other processes is not modelled."
  },
  {
   "property": "C134",
   "status": "partial",
   "theorems": [
    "Verif.NavierStokes.viscous_flux",
    "Verif.NavierStokes.dissipation",
    "Verif.NavierStokes.rigid_no_flux",
    "Verif.NavierStokes.prandtl_wrong"
   ],
   "note": "Form of the flux proved for all fields. Partial because the parameters of the program violate the last clause (prandtl_wrong)."
  },
  {
   "property": "C135",
   "status": "proved",
   "theorems": [
    "Verif.NavierStokes.contraction_fast",
    "Verif.NavierStokes.contraction_fast_needs_zeros"
   ],
   "note": "For the tensor of Air; for other tensors it is false (contraction_fast_needs_zeros)."
  },
  {
   "property": "C136",
   "status": "proved",
   "theorems": [
    "Verif.NavierStokes.air_accepts",
    "Verif.NavierStokes.llf_consistent",
    "Verif.NavierStokes.llf_opposite",
    "Verif.NavierStokes.llf_damping",
    "Verif.NavierStokes.llf_smears"
   ],
   "note": "The first overload is not instantiated by the code and not modelled."
  },
  {
   "property": "C137",
   "status": "proved",
   "theorems": [
    "Verif.NavierStokes.hllc_waves",
    "Verif.NavierStokes.hllc_opposite",
    "Verif.NavierStokes.hllc_contact",
    "Verif.NavierStokes.hllc_consistent"
   ],
   "note": ""
  },
  {
   "property": "C138",
   "status": "partial",
   "theorems": [
    "Verif.NavierStokes.element_terms",
    "Verif.NavierStokes.face_conserves",
    "Verif.NavierStokes.face_defined",
    "Verif.NavierStokes.face_consistent",
    "Verif.NavierStokes.stability_zero",
    "Verif.NavierStokes.stability_scaled",
    "Verif.NavierStokes.inviscid_exchange",
    "Verif.NavierStokes.auxilliary_exchange",
    "Verif.NavierStokes.viscous_not_exchanged",
    "Verif.NavierStokes.viscous_boundary_zero",
    "Verif.NavierStokes.viscous_inner_not_zero",
    "Verif.NavierStokes.boundary_consistent",
    "Verif.NavierStokes.wall_keeps"
   ],
   "note": "Partial because the code violates clauses: viscous_not_exchanged, viscous_boundary_zero, stability_scaled. Assembly of points into vectors is not modelled here."
  },
  {
   "property": "C139",
   "status": "proved",
   "theorems": [
    "Verif.NavierStokes.source_formula",
    "Verif.NavierStokes.manufactured",
    "Verif.NavierStokes.manufactured_no_friction",
    "Verif.NavierStokes.manufactured_physical",
    "Verif.NavierStokes.manufactured_vacuum"
   ],
   "note": "For the equations without friction; the viscous flux of this solution is zero."
  },
  {
   "property": "C140",
   "status": "proved",
   "theorems": [
    "Verif.Acoustic.rhs_skew",
    "Verif.Acoustic.energy_conserved",
    "Verif.Acoustic.total_conserved",
    "Verif.Acoustic.vector_rate",
    "Verif.Acoustic.rhs_consistent"
   ],
   "note": "Exactness of integration by parts is a hypothesis (ByParts), shown for a mesh of two elements. In exact arithmetic and time."
  },
  {
   "property": "C141",
   "status": "proved",
   "theorems": [
    "Verif.Acoustic.linear_same"
   ],
   "note": ""
  },
  {
   "property": "C142",
   "status": "proved",
   "theorems": [
    "Verif.Acoustic.exact_solves",
    "Verif.Acoustic.exact_walls"
   ],
   "note": ""
  },
  {
   "property": "C143",
   "status": "partial",
   "theorems": [
    "Verif.Acoustic.error_density_iff",
    "Verif.Acoustic.error_density_exchanged",
    "Verif.Acoustic.error_zero_iff",
    "Verif.Acoustic.speed"
   ],
   "note": "Partial because the code violates the claim: weights exchanged (error_density_iff), speed is the square root of the parameter (speed)."
  },
  {
   "property": "C144",
   "status": "partial",
   "theorems": [
    "Verif.Advection.energy_rate",
    "Verif.Advection.energy_antitone",
    "Verif.Advection.total_rate",
    "Verif.Advection.rhs_consistent",
    "Verif.Advection.threshold_gap"
   ],
   "note": "Proved for winds that are not exactly 1e-12 through a face; for those the code violates it (threshold_gap). Exactness of integration by parts is a hypothesis (ByParts), shown for a mesh of two elements."
  },
  {
   "property": "C145",
   "status": "partial",
   "theorems": [
    "Verif.Advection.exact_solves",
    "Verif.Advection.exact_periodic",
    "Verif.Advection.test_undefined",
    "Verif.Advection.exact_refuses",
    "Verif.Advection.direction_values"
   ],
   "note": "Partial because AdvectionTest violates the last clause (test_undefined)."
  },
  {
   "property": "C146",
   "status": "proved",
   "theorems": [
    "Verif.Poisson.symmetric",
    "Verif.Poisson.consistent",
    "Verif.Poisson.parabola_solves"
   ],
   "note": "Green's identity (exact quadrature) is a hypothesis of consistent, met in parabola_solves."
  },
  {
   "property": "C147",
   "status": "partial",
   "theorems": [
    "Verif.Poisson.coercive",
    "Verif.Poisson.solvable",
    "Verif.Poisson.line_solvable",
    "Verif.Poisson.penalty_not_from_mesh"
   ],
   "note": "Proved for penalties above the trace constant, with a line of any number of elements as case where the program's penalty is; the last clause is violated on other meshes (penalty_not_from_mesh)."
  },
  {
   "property": "C148",
   "status": "proved",
   "theorems": [
    "Verif.Poisson.exact2_solves",
    "Verif.Poisson.exact3_solves",
    "Verif.Poisson.faceSource_zero"
   ],
   "note": ""
  },
  {
   "property": "C149",
   "status": "partial",
   "theorems": [
    "Verif.WaterWave.step_verlet",
    "Verif.WaterWave.run_energy",
    "Verif.WaterWave.verlet_reversible",
    "Verif.WaterWave.interior_lags",
    "Verif.WaterWave.elevation_frozen",
    "Verif.WaterWave.step_exists",
    "Verif.WaterWave.small_moves"
   ],
   "note": "Proved for interleaved unknowns; with the layout the program uses it fails (elevation_frozen). Solvers are relations; symmetry of the matrices is a hypothesis."
  },
  {
   "property": "C150",
   "status": "proved",
   "theorems": [
    "Verif.WaterWave.exact_solves"
   ],
   "note": ""
  },
  {
   "property": "C151",
   "status": "partial",
   "theorems": [
    "Verif.Logging.message_plain",
    "Verif.Logging.message_escaped",
    "Verif.Logging.message_surplus",
    "Verif.Logging.message_escape_left",
    "Verif.Logging.message_not_rendered"
   ],
   "note": "Escapes behind the last placeholder are not undone (message_not_rendered)."
  },
  {
   "property": "C152",
   "status": "partial",
   "theorems": [
    "Verif.Logging.shown_iff",
    "Verif.Logging.severe_ends",
    "Verif.Logging.shown_text",
    "Verif.Logging.assert_guards",
    "Verif.Logging.fail_ends",
    "Verif.Logging.assert_needs_handler",
    "Verif.Logging.suppress_restores",
    "Verif.Logging.suppress_throws"
   ],
   "note": "Suppression does not end if the body throws (suppress_throws). The stack trace is not modelled."
  },
  {
   "property": "C153",
   "status": "proved",
   "theorems": [
    "Verif.Structure.pore_iff",
    "Verif.Structure.woodpile_iff",
    "Verif.Structure.woodpile_symmetric"
   ],
   "note": ""
  },
  {
   "property": "C154",
   "status": "partial",
   "theorems": [
    "Verif.Structure.structure_number",
    "Verif.Structure.value_positive",
    "Verif.Structure.regions",
    "Verif.Structure.default_vacuum",
    "Verif.Structure.default_contrast",
    "Verif.Structure.old_periodic",
    "Verif.Structure.planar",
    "Verif.Structure.element_value"
   ],
   "note": "Bragg stack and old woodpile have no contrast by default (default_vacuum); woodpiles have no value in the plane (planar)."
  },
  {
   "property": "C155",
   "status": "proved",
   "theorems": [
    "Verif.Structure.filter_keeps",
    "Verif.Structure.filter_twice",
    "Verif.Structure.factor_rate",
    "Verif.Structure.factor_missing"
   ],
   "note": ""
  },
  {
   "property": "C156",
   "status": "partial",
   "theorems": [
    "Verif.MeshMove.move_reinit",
    "Verif.MeshMove.reinit_fresh",
    "Verif.MeshMove.move_live",
    "Verif.MeshMove.move_stale",
    "Verif.MeshMove.move_alone",
    "Verif.MeshMove.move_twice",
    "Verif.MeshMove.demo_unmoved"
   ],
   "note": "Without re-initialisation hypercubes keep their old maps (move_alone, demo_unmoved). The reference nodes of the hypercube are left out of move_reinit as in C05."
  },
  {
   "property": "C157",
   "status": "proved",
   "theorems": [
    "Verif.MeshMove.contraction_scales",
    "Verif.MeshMove.contraction_channel",
    "Verif.MeshMove.contraction_positive"
   ],
   "note": ""
  },
  {
   "property": "C158",
   "status": "partial",
   "theorems": [
    "Verif.Granular.friction2_bounds",
    "Verif.Granular.friction2_monotone",
    "Verif.Granular.friction1_partial",
    "Verif.Granular.friction1_wrong",
    "Verif.Granular.exponential_bounds",
    "Verif.Granular.bidispersed_bounds_partial",
    "Verif.Granular.bidispersed_wrong"
   ],
   "note": "False uphill in one dimension (friction1_wrong, bidispersed_wrong)."
  },
  {
   "property": "C159",
   "status": "partial",
   "theorems": [
    "Verif.Granular.friction_opposes",
    "Verif.Granular.downhill_braked",
    "Verif.Granular.uphill_wrong",
    "Verif.Granular.rest_moves"
   ],
   "note": "False uphill in one dimension (uphill_wrong) and at rest (rest_moves)."
  },
  {
   "property": "C160",
   "status": "partial",
   "theorems": [
    "Verif.Granular.outflow_supercritical",
    "Verif.Granular.outflow_subcritical",
    "Verif.Granular.outflow_bidispersed_wrong",
    "Verif.Granular.outflow_enters"
   ],
   "note": "Three variables fail (outflow_bidispersed_wrong); material enters (outflow_enters)."
  },
  {
   "property": "C161",
   "status": "proved",
   "theorems": [
    "Verif.Granular.bidispersed_flux",
    "Verif.Granular.width_balance",
    "Verif.Granular.test_exact"
   ],
   "note": ""
  },
  {
   "property": "C162",
   "status": "partial",
   "theorems": [
    "Verif.EVCompare.accept_iff",
    "Verif.EVCompare.leading_ignored",
    "Verif.EVCompare.unexpected_accepted",
    "Verif.EVCompare.nan_accepted"
   ],
   "note": "accept_iff is for numbers that are not negative; NaNs are accepted (nan_accepted)."
  },
  {
   "property": "C163",
   "status": "partial",
   "theorems": [
    "Verif.EVCompare.run_all",
    "Verif.EVCompare.run_switch",
    "Verif.EVCompare.run_lenient"
   ],
   "note": "With the standard error handler the switch has no effect (run_switch); run_lenient is for a handler that returns."
  },
  {
   "property": "C164",
   "status": "proved",
   "theorems": [
    "Verif.StructMesh.lattice_once",
    "Verif.StructMesh.corner_position",
    "Verif.StructMesh.ids_consecutive"
   ],
   "note": ""
  },
  {
   "property": "C165",
   "status": "proved",
   "theorems": [
    "Verif.StructMesh.same_node_iff"
   ],
   "note": ""
  },
  {
   "property": "C166",
   "status": "proved",
   "theorems": [
    "Verif.StructMesh.rectangular",
    "Verif.StructMesh.triangular",
    "Verif.StructMesh.triangular_other"
   ],
   "note": ""
  },
  {
   "property": "C167",
   "status": "proved",
   "theorems": [
    "Verif.StructMesh.triangles_fill",
    "Verif.StructMesh.tetrahedra_fill"
   ],
   "note": "That the pieces do not overlap follows from covering and total size; this step is not formalised."
  },
  {
   "property": "C168",
   "status": "partial",
   "theorems": [
    "Verif.StructMesh.conform_iff",
    "Verif.StructMesh.neighbours_conform_partial",
    "Verif.StructMesh.periodic_conform_iff",
    "Verif.StructMesh.triangles_conform"
   ],
   "note": "False across periodic boundaries with an odd number of elements in three dimensions (periodic_conform_iff)."
  },
  {
   "property": "C169",
   "status": "partial",
   "theorems": [
    "Verif.MeshFile.reread_fails"
   ],
   "note": "False: negation proved."
  },
  {
   "property": "C170",
   "status": "proved",
   "theorems": [
    "Verif.FortranFile.read_record",
    "Verif.FortranFile.peek_record",
    "Verif.FortranFile.skip_record",
    "Verif.FortranFile.read_all"
   ],
   "note": ""
  },
  {
   "property": "C171",
   "status": "partial",
   "theorems": [
    "Verif.FortranFile.debug_sound",
    "Verif.FortranFile.debug_wrong_size",
    "Verif.FortranFile.release_overflow",
    "Verif.FortranFile.release_short"
   ],
   "note": "Only with active assertions (release_overflow, release_short)."
  },
  {
   "property": "C172",
   "status": "partial",
   "theorems": [
    "Verif.Centaur.groups_read_back",
    "Verif.Centaur.extra_node_groups_read_back",
    "Verif.Centaur.groups_skipped",
    "Verif.Centaur.large_groups_lost"
   ],
   "note": "Below 2^32 values; beyond 2^33 values are lost (large_groups_lost)."
  },
  {
   "property": "C173",
   "status": "proved",
   "theorems": [
    "Verif.Centaur.elements_read_in_order",
    "Verif.Centaur.second_order_tetrahedra"
   ],
   "note": ""
  },
  {
   "property": "C174",
   "status": "partial",
   "theorems": [
    "Verif.Centaur.zones_of_first_type_partial",
    "Verif.Centaur.zones_of_later_types_wrong",
    "Verif.Centaur.no_zones"
   ],
   "note": "True for the first element type of a mesh; false for all later ones (zones_of_later_types_wrong)."
  },
  {
   "property": "C175",
   "status": "proved",
   "theorems": [
    "Verif.Centaur.periodic_pairs",
    "Verif.Centaur.zone_name_round_trip",
    "Verif.Centaur.accepted_file_types"
   ],
   "note": ""
  },
  {
   "property": "C176",
   "status": "partial",
   "theorems": [
    "Verif.Gmsh.lines_found",
    "Verif.Gmsh.sections_partial",
    "Verif.Gmsh.section_end_prefix_ignored"
   ],
   "note": "A missing end marker is accepted, and its first four characters are ignored."
  },
  {
   "property": "C177",
   "status": "partial",
   "theorems": [
    "Verif.Gmsh.dimension_is_largest",
    "Verif.Gmsh.nodes_found_iff_consecutive"
   ],
   "note": "Elements find their nodes exactly for consecutive node tags."
  },
  {
   "property": "C178",
   "status": "partial",
   "theorems": [
    "Verif.Gmsh.elements_read",
    "Verif.Gmsh.element_without_tags",
    "Verif.Gmsh.element_numbers_checked",
    "Verif.Gmsh.zones_named",
    "Verif.Gmsh.unnamed_tag_rejected"
   ],
   "note": "Elements need at least one tag."
  },
  {
   "property": "C179",
   "status": "proved",
   "theorems": [
    "Verif.HEuler.numbering_injective",
    "Verif.HEuler.operators_adjoint",
    "Verif.HEuler.compressible_energy",
    "Verif.HEuler.compressible_mass",
    "Verif.HEuler.compressible_step_unique",
    "Verif.HEuler.compressible_run",
    "Verif.HEuler.box_ok"
   ],
   "note": "Exact arithmetic and exact linear solver; mass needs constants among the functions."
  },
  {
   "property": "C180",
   "status": "proved",
   "theorems": [
    "Verif.HEuler.incompressible_step",
    "Verif.HEuler.incompressible_run",
    "Verif.HEuler.shear_turns"
   ],
   "note": "Exact arithmetic and exact linear solver; solvability of the pressure equation is not claimed."
  },
  {
   "property": "C181",
   "status": "partial",
   "theorems": [
    "Verif.HEuler.correction_partial",
    "Verif.HEuler.exact_solver_exists"
   ],
   "note": "Only divergences with a negative entry are corrected; counterexample proved."
  },
  {
   "property": "C182",
   "status": "partial",
   "theorems": [
    "Verif.HEuler.one_step_too_many"
   ],
   "note": "The run takes one step more; proved exactly."
  },
  {
   "property": "C183",
   "status": "partial",
   "theorems": [
    "Verif.HEulerExact.periodic_solves",
    "Verif.HEulerExact.walls_solves",
    "Verif.HEulerExact.far_wall_leaks",
    "Verif.HEulerExact.wave_solves",
    "Verif.HEulerExact.third_partial",
    "Verif.HEulerExact.third_no_divergence",
    "Verif.HEulerExact.third_unit_height"
   ],
   "note": "The series solution is not modelled; the far wall and other heights violate the claim (negations proved)."
  },
  {
   "property": "C184",
   "status": "proved",
   "theorems": [
    "Verif.ExtractSurface.parse_iff",
    "Verif.ExtractSurface.extract_isSome",
    "Verif.ExtractSurface.coordinates_exact",
    "Verif.ExtractSurface.strip_side"
   ],
   "note": "std::stod is a parameter."
  },
  {
   "property": "C185",
   "status": "partial",
   "theorems": [
    "Verif.ExtractSurface.elements_partial",
    "Verif.ExtractSurface.elements_any",
    "Verif.ExtractSurface.periodic_collapses",
    "Verif.ExtractSurface.strip_side"
   ],
   "note": "Periodic meshes violate the claim (negation proved)."
  },
  {
   "property": "C186",
   "status": "proved",
   "theorems": [
    "Verif.EigenProgram.penalties_iff",
    "Verif.EigenProgram.penalty_iff",
    "Verif.EigenProgram.penalty_defaults",
    "Verif.EigenProgram.garbage_ignored",
    "Verif.EigenProgram.selectMethod_spec"
   ],
   "note": "std::stod is a parameter; a number is a text of digits, dot, minus and e from which stod reads a value."
  },
  {
   "property": "C187",
   "status": "partial",
   "theorems": [
    "Verif.EigenProgram.row_points",
    "Verif.EigenProgram.solver_points",
    "Verif.EigenProgram.table_exact",
    "Verif.EigenProgram.vacuum_row",
    "Verif.EigenProgram.default_path_unscaled"
   ],
   "note": "The default path is not scaled (negation proved)."
  },
  {
   "property": "C188",
   "status": "proved",
   "theorems": [
    "Verif.OldNavierStokes.fluxFunction_physical",
    "Verif.OldNavierStokes.elementTerm_physical",
    "Verif.OldNavierStokes.faceTerm_tested",
    "Verif.OldNavierStokes.boundaryTerm_tested",
    "Verif.OldNavierStokes.roe_opposite"
   ],
   "note": ""
  },
  {
   "property": "C189",
   "status": "partial",
   "theorems": [
    "Verif.OldNavierStokes.faceTerms_partial",
    "Verif.OldNavierStokes.faceTerms_mixed",
    "Verif.OldNavierStokes.faceTerms_fewer"
   ],
   "note": "Elements with different numbers of basis functions violate the claim (negations proved)."
  },
  {
   "property": "C190",
   "status": "proved",
   "theorems": [
    "Verif.OldViscous.tensor_isSome",
    "Verif.OldViscous.fast_eq_naive",
    "Verif.OldViscous.mass_zero",
    "Verif.OldViscous.momentum_stress",
    "Verif.OldViscous.momentum_symmetric"
   ],
   "note": ""
  },
  {
   "property": "C191",
   "status": "partial",
   "theorems": [
    "Verif.OldViscous.energy_exact",
    "Verif.OldViscous.energy_partial",
    "Verif.OldViscous.energy_spurious"
   ],
   "note": "The code adds a term when the scaled viscosity is not one and the density changes along the flow (negation proved)."
  },
  {
   "property": "C192",
   "status": "proved",
   "theorems": [
    "Verif.CouettePlate.velocity_start",
    "Verif.CouettePlate.velocity_limit",
    "Verif.CouettePlate.velocity_between",
    "Verif.CouettePlate.plate_closed"
   ],
   "note": ""
  },
  {
   "property": "C193",
   "status": "partial",
   "theorems": [
    "Verif.CouettePlate.pressure_iff",
    "Verif.CouettePlate.temperature_partial",
    "Verif.CouettePlate.temperature_free",
    "Verif.CouettePlate.fast_plate_stops",
    "Verif.CouettePlate.rest_accepts"
   ],
   "note": "The code does not impose the temperature and stops for fast plates (negations proved)."
  },
  {
   "property": "C194",
   "status": "partial",
   "theorems": [
    "Verif.OldViscous.faces_isSome",
    "Verif.OldViscous.inner_jump",
    "Verif.OldViscous.inner_partial",
    "Verif.OldViscous.boundary_vanishes",
    "Verif.OldViscous.boundary_energy"
   ],
   "note": "At the boundary the term is zero for every pair of states (negation proved)."
  },
  {
   "property": "C195",
   "status": "proved",
   "theorems": [
    "Verif.NSSource.state_derivatives",
    "Verif.NSSource.part_derivatives"
   ],
   "note": ""
  },
  {
   "property": "C196",
   "status": "partial",
   "theorems": [
    "Verif.NSSource.state_mixed_partial",
    "Verif.NSSource.state_mixed_sign",
    "Verif.NSSource.state_mixed_wrong",
    "Verif.NSSource.forms_right",
    "Verif.NSSource.form_mixed",
    "Verif.NSSource.tables_partial",
    "Verif.NSSource.tables_wrong",
    "Verif.NSSource.tables_missing"
   ],
   "note": "The code overwrites tables and has wrong signs (negations proved)."
  },
  {
   "property": "C197",
   "status": "partial",
   "theorems": [
    "Verif.OldViscous.viscosity_exact",
    "Verif.OldViscous.viscosity_partial",
    "Verif.OldViscous.viscosity_unscaled",
    "Verif.OldViscous.viscosity_increasing"
   ],
   "note": "Only for the reference temperature one; others violate the claim (negation proved)."
  }
 ]
}