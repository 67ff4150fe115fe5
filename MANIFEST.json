{
 "claims": [
  {
   "property": "C01",
   "status": "proved",
   "theorems": [
    "Verif.Scalars.C01_split",
    "Verif.Scalars.C01_derivative",
    "Verif.Scalars.C01_python_agrees"
   ],
   "note": ""
  },
  {
   "property": "C02",
   "status": "proved",
   "theorems": [
    "Verif.Scalars.C02_in_ball",
    "Verif.Scalars.C02_nearest",
    "Verif.Scalars.C02_nonexpansive",
    "Verif.Scalars.C02_python_agrees"
   ],
   "note": ""
  },
  {
   "property": "C03",
   "status": "partial",
   "theorems": [
    "Verif.Scalars.C03_derivative_partial",
    "Verif.Scalars.C03_derivative_2d_partial",
    "Verif.Scalars.C03_small_radius_violated"
   ],
   "note": "Derivative proved for radius 0 or >= 1e-14, block sizes 2 and 3; for radii strictly between 0 and the hard coded 1e-14 the code returns 0 (negation proved)."
  },
  {
   "property": "C04",
   "status": "proved",
   "theorems": [
    "Verif.Scalars.C04_lame"
   ],
   "note": ""
  },
  {
   "property": "C05",
   "status": "proved",
   "theorems": [
    "Verif.Scalars.C05_tangential"
   ],
   "note": ""
  },
  {
   "property": "C06",
   "status": "proved",
   "theorems": [
    "Verif.Entities.C06_sorted",
    "Verif.Entities.C06_special"
   ],
   "note": ""
  },
  {
   "property": "C07",
   "status": "proved",
   "theorems": [
    "Verif.Entities.C07_facets",
    "Verif.Entities.C07_cells_and_errors"
   ],
   "note": ""
  },
  {
   "property": "C08",
   "status": "partial",
   "theorems": [
    "Verif.Entities.C08_num_local_facets",
    "Verif.Entities.C08_num_local_cells_partial",
    "Verif.Entities.C08_num_local_cells_violated"
   ],
   "note": "Facets: full. Cells: wrapper uses upper_bound(size_local), counting ghost cell size_local as local (negation proved); partial theorem when that cell is absent."
  },
  {
   "property": "C09",
   "status": "partial",
   "theorems": [
    "Verif.Search.C09_exact_partial",
    "Verif.Search.C09_sound",
    "Verif.Search.C09_symmetric_partial",
    "Verif.Search.C09_leftmost_missing",
    "Verif.Search.C09_complete_violated"
   ],
   "note": "Backward scan stops at idx > 0, so the leftmost point is never found backwards (negation proved on a concrete cloud and for every cloud); exact content, soundness and symmetry otherwise."
  },
  {
   "property": "C10",
   "status": "proved",
   "theorems": [
    "Verif.Search.C10_candidate_facets",
    "Verif.Search.C10_surface_segment"
   ],
   "note": ""
  },
  {
   "property": "C11",
   "status": "proved",
   "theorems": [
    "Verif.Entities.C11_round_trip",
    "Verif.Geometry.C11_geometry_dofs"
   ],
   "note": ""
  },
  {
   "property": "C12",
   "status": "proved",
   "theorems": [
    "Verif.Entities.C12_linked_cells",
    "Verif.Entities.C12_order_independent"
   ],
   "note": ""
  },
  {
   "property": "C13",
   "status": "proved",
   "theorems": [
    "Verif.Ghosting.C13_lex_match"
   ],
   "note": ""
  },
  {
   "property": "C14",
   "status": "proved",
   "theorems": [
    "Verif.Ghosting.C14_destinations"
   ],
   "note": ""
  },
  {
   "property": "C15",
   "status": "partial",
   "theorems": [
    "Verif.Ghosting.C15_partition_partial",
    "Verif.Ghosting.C15_two_facets_violated"
   ],
   "note": "cell_to_dests[c]= overwrites: a cell with two marked facets only keeps the destinations of the last one (negation proved for every such marker set); full statement proved when no cell has two marked facets."
  },
  {
   "property": "C16",
   "status": "proved",
   "theorems": [
    "Verif.Ghosting.C16_copy_to_all"
   ],
   "note": ""
  },
  {
   "property": "C17",
   "status": "proved",
   "theorems": [
    "Verif.Entities.C17_surfaces",
    "Verif.Entities.C17_size_check"
   ],
   "note": ""
  },
  {
   "property": "C18",
   "status": "proved",
   "theorems": [
    "Verif.Entities.C18_local_facets"
   ],
   "note": ""
  },
  {
   "property": "C19",
   "status": "proved",
   "theorems": [
    "Verif.Ghosting.C19_link_bound",
    "Verif.Ghosting.C19_max_links"
   ],
   "note": ""
  },
  {
   "property": "C20",
   "status": "partial",
   "theorems": [
    "Verif.Ray.C20_status",
    "Verif.Ray.C20_hit_partial",
    "Verif.Ray.C20_surface_violated"
   ],
   "note": "Status codes and the hit property proved for triangles in the plane and solids in space. For surfaces in space (tdim 2, gdim 3) the least squares step can stop off the ray: status 1 although the ray misses the facet (negation proved)."
  },
  {
   "property": "C21",
   "status": "proved",
   "theorems": [
    "Verif.Ray.C21_first",
    "Verif.Ray.C21_empty",
    "Verif.Ray.C21_total"
   ],
   "note": ""
  },
  {
   "property": "C22",
   "status": "proved",
   "theorems": [
    "Verif.Ray.C22_tangents"
   ],
   "note": ""
  },
  {
   "property": "C23",
   "status": "partial",
   "theorems": [
    "Verif.Ray.C23_exact",
    "Verif.Ray.C23_filter_partial",
    "Verif.Ray.C23_complete",
    "Verif.Ray.C23_radius_violated",
    "Verif.Ray.C23_fallback_violated"
   ],
   "note": "Exact acceptance test proved; it compares the squared distance with the unsquared radius, so the radius is respected for radii >= 1 (or unlimited) and violated for every radius in (0,1) (negation proved); points linked by the closest point fallback skip both tests (negation proved)."
  },
  {
   "property": "C24",
   "status": "proved",
   "theorems": [
    "Verif.Ray.C24_all_or_none",
    "Verif.Ray.C24_no_candidates",
    "Verif.Ray.C24_radius_zero"
   ],
   "note": ""
  },
  {
   "property": "C25",
   "status": "proved",
   "theorems": [
    "Verif.Ray.C25_storage",
    "Verif.Ray.C25_pull_back",
    "Verif.Ray.C25_normal"
   ],
   "note": ""
  },
  {
   "property": "C26",
   "status": "proved",
   "theorems": [
    "Verif.SubMesh.C26_parent_cells"
   ],
   "note": ""
  },
  {
   "property": "C27",
   "status": "proved",
   "theorems": [
    "Verif.SubMesh.C27_tuples"
   ],
   "note": ""
  },
  {
   "property": "C28",
   "status": "proved",
   "theorems": [
    "Verif.SubMesh.C28_copy_function",
    "Verif.SubMesh.C28_shared_dofs"
   ],
   "note": ""
  },
  {
   "property": "C29",
   "status": "proved",
   "theorems": [
    "Verif.SubMesh.C29_last_update"
   ],
   "note": ""
  },
  {
   "property": "C30",
   "status": "proved",
   "theorems": [
    "Verif.Packing.C30_quadrature_points",
    "Verif.Packing.C30_gap",
    "Verif.Packing.C30_gap_plane"
   ],
   "note": ""
  },
  {
   "property": "C31",
   "status": "partial",
   "theorems": [
    "Verif.Packing.C31_test_functions_partial",
    "Verif.Packing.C31_unlinked_violated"
   ],
   "note": "Proved for facets whose linked points come first (all fully linked or fully unlinked facets). On every facet with an unlinked point before a linked one the code reads the basis row of the filtered index: negation proved for all such contact maps."
  },
  {
   "property": "C32",
   "status": "partial",
   "theorems": [
    "Verif.Packing.C32_grad_test_functions_partial",
    "Verif.Packing.C32_unlinked_violated"
   ],
   "note": "As C31: the code writes to the filtered index; negation proved for all contact maps with an unlinked point before a linked one."
  },
  {
   "property": "C33",
   "status": "proved",
   "theorems": [
    "Verif.Packing.C33_link_numbering",
    "Verif.Packing.C33_link_list_exists"
   ],
   "note": ""
  },
  {
   "property": "C34",
   "status": "proved",
   "theorems": [
    "Verif.Packing.C34_crop",
    "Verif.Packing.C34_idempotent",
    "Verif.Packing.C34_monotone"
   ],
   "note": ""
  },
  {
   "property": "C35",
   "status": "proved",
   "theorems": [
    "Verif.Coefficients.C35_values",
    "Verif.Coefficients.C35_unsupported"
   ],
   "note": ""
  },
  {
   "property": "C36",
   "status": "proved",
   "theorems": [
    "Verif.Coefficients.C36_gradients",
    "Verif.Coefficients.C36_chain_rule",
    "Verif.Coefficients.C36_unsupported"
   ],
   "note": ""
  },
  {
   "property": "C37",
   "status": "proved",
   "theorems": [
    "Verif.Packing.C37_opposite_displacement"
   ],
   "note": ""
  },
  {
   "property": "C38",
   "status": "proved",
   "theorems": [
    "Verif.ContactProblem.C38_layout",
    "Verif.ContactProblem.C38_size",
    "Verif.ContactProblem.C38_kernel_offsets",
    "Verif.ContactProblem.C38_extent"
   ],
   "note": ""
  },
  {
   "property": "C39",
   "status": "proved",
   "theorems": [
    "Verif.TieData.C39_layout",
    "Verif.TieData.C39_kernel_strides",
    "Verif.TieData.C39_extent",
    "Verif.TieData.C39_matrix_only"
   ],
   "note": ""
  },
  {
   "property": "C40",
   "status": "proved",
   "theorems": [
    "Verif.ContactProblem.C40_update",
    "Verif.ContactProblem.C40_generate"
   ],
   "note": ""
  },
  {
   "property": "C41",
   "status": "proved",
   "theorems": [
    "Verif.ContactProblem.C41_contact",
    "Verif.TieData.C41_meshtie",
    "Verif.TieData.C41_meshtie_update"
   ],
   "note": ""
  },
  {
   "property": "C42",
   "status": "proved",
   "theorems": [
    "Verif.Coefficients.C42_entity_slices",
    "Verif.Coefficients.C42_entity_cover",
    "Verif.Coefficients.C42_cell"
   ],
   "note": ""
  },
  {
   "property": "C43",
   "status": "proved",
   "theorems": [
    "Verif.Assembly.C43_vector",
    "Verif.Assembly.C43_raises",
    "Verif.Assembly.C43_untouched",
    "Verif.Assembly.C43_order",
    "Verif.Assembly.C43_problem"
   ],
   "note": ""
  },
  {
   "property": "C44",
   "status": "proved",
   "theorems": [
    "Verif.Assembly.C44_pattern"
   ],
   "note": ""
  },
  {
   "property": "C45",
   "status": "proved",
   "theorems": [
    "Verif.Assembly.C45_matrix",
    "Verif.Assembly.C45_raises",
    "Verif.Assembly.C45_problem"
   ],
   "note": ""
  },
  {
   "property": "C46",
   "status": "proved",
   "theorems": [
    "Verif.Kernels.C46_jacobian"
   ],
   "note": ""
  },
  {
   "property": "C47",
   "status": "partial",
   "theorems": [
    "Verif.Kernels.C47_jacobian_partial",
    "Verif.Kernels.C47_violated"
   ],
   "note": "Does not hold for friction bounds between 0 and 1e-14 (C47_violated; the projection treats them as 0, C03). Proved for bounds 0 or at least 1e-14, unit contact normals, dimensions 2 and 3, one active link per point, away from the stick/slip switch."
  },
  {
   "property": "C48",
   "status": "partial",
   "theorems": [
    "Verif.Kernels.C48_jacobian_partial",
    "Verif.Kernels.C48_violated"
   ],
   "note": "Does not hold for friction bounds between 0 and 1e-14 (C48_violated). Proved as C47, away from the contact and the stick/slip switch."
  },
  {
   "property": "C49",
   "status": "partial",
   "theorems": [
    "Verif.Kernels.C49_jacobian_partial",
    "Verif.Kernels.C49_uninitialised_violated"
   ],
   "note": "Proved except for a constant surface normal on a non-affine cell, where n_phys is read uninitialised (negation proved)."
  },
  {
   "property": "C50",
   "status": "proved",
   "theorems": [
    "Verif.Kernels.C50_matrix",
    "Verif.Kernels.C50_symmetric"
   ],
   "note": ""
  },
  {
   "property": "C51",
   "status": "proved",
   "theorems": [
    "Verif.Kernels.C51_block_size",
    "Verif.Kernels.C51_matrix",
    "Verif.Kernels.C51_symmetric"
   ],
   "note": ""
  },
  {
   "property": "C52",
   "status": "proved",
   "theorems": [
    "Verif.Kernels.C52_translation",
    "Verif.Kernels.C52_translation_tie",
    "Verif.Kernels.C52_translation_heat"
   ],
   "note": ""
  },
  {
   "property": "C53",
   "status": "proved",
   "theorems": [
    "Verif.Assembly.C53_unlinked",
    "Verif.Assembly.C53_unlinked_facet",
    "Verif.Kernels.C53_open",
    "Verif.Kernels.C53_separated"
   ],
   "note": ""
  },
  {
   "property": "C54",
   "status": "proved",
   "theorems": [
    "Verif.Kernels.C54_points",
    "Verif.Kernels.C54_points_tie"
   ],
   "note": ""
  },
  {
   "property": "C55",
   "status": "proved",
   "theorems": [
    "Verif.Kernels.C55_contact",
    "Verif.Kernels.C55_meshtie",
    "Verif.Kernels.C55_poisson",
    "Verif.Kernels.C55_rigid",
    "Verif.Kernels.C55_cells"
   ],
   "note": ""
  },
  {
   "property": "C56",
   "status": "proved",
   "theorems": [
    "Verif.Elasticity.C56_traction",
    "Verif.Elasticity.C56_basis",
    "Verif.Elasticity.C56_normal",
    "Verif.Elasticity.C56_opposite"
   ],
   "note": ""
  },
  {
   "property": "C57",
   "status": "proved",
   "theorems": [
    "Verif.Elasticity.C57_slices"
   ],
   "note": ""
  },
  {
   "property": "C58",
   "status": "proved",
   "theorems": [
    "Verif.Nullspace.C58_rigid_motions",
    "Verif.Nullspace.C58_no_stress"
   ],
   "note": ""
  },
  {
   "property": "C59",
   "status": "proved",
   "theorems": [
    "Verif.Newton.C59_budget"
   ],
   "note": ""
  },
  {
   "property": "C60",
   "status": "partial",
   "theorems": [
    "Verif.Newton.C60_aux",
    "Verif.Newton.C60_converged_partial",
    "Verif.Newton.C60_history_violated"
   ],
   "note": "Proved except for convergence reported at iteration 0, where initial_residual is left over from an earlier solve (negation: same problem, options and guess, different verdict)."
  },
  {
   "property": "C61",
   "status": "proved",
   "theorems": [
    "Verif.Newton.C61_newton_line"
   ],
   "note": ""
  },
  {
   "property": "C62",
   "status": "partial",
   "theorems": [
    "Verif.Newton.C62_fresh_violated",
    "Verif.Newton.C62_used_partial"
   ],
   "note": "Fresh solver at an exact root always runs max_it iterations and reports non-convergence (proved for all problems); holds with the residual criterion once an earlier solve set initial_residual."
  },
  {
   "property": "C63",
   "status": "partial",
   "theorems": [
    "Verif.Newton.C63_once_partial",
    "Verif.Newton.C63_vec_violated"
   ],
   "note": "Function arguments: once. PETSc.Vec arguments: the AttributeError handler runs the whole solve again (proved)."
  },
  {
   "property": "C64",
   "status": "partial",
   "theorems": [
    "Verif.Newton.C64_options_partial",
    "Verif.Newton.C64_relaxation_violated"
   ],
   "note": "Options are stored; the user's relaxation parameter never influences a solve (proved for all problems)."
  },
  {
   "property": "C65",
   "status": "proved",
   "theorems": [
    "Verif.Newton.C65_reporting"
   ],
   "note": ""
  },
  {
   "property": "C66",
   "status": "proved",
   "theorems": [
    "Verif.Geometry.C66_normal",
    "Verif.Geometry.C66_push_forward"
   ],
   "note": ""
  },
  {
   "property": "C67",
   "status": "proved",
   "theorems": [
    "Verif.Geometry.C67_circumradius",
    "Verif.Geometry.C67_unique",
    "Verif.Geometry.C67_raises"
   ],
   "note": ""
  },
  {
   "property": "C68",
   "status": "proved",
   "theorems": [
    "Verif.Geometry.C68_affine",
    "Verif.Geometry.C68_nonaffine_jacobians",
    "Verif.Geometry.C68_newton",
    "Verif.Geometry.C68_newton_affine"
   ],
   "note": ""
  },
  {
   "property": "C69",
   "status": "partial",
   "theorems": [
    "Verif.Meshing.C69_forward",
    "Verif.Meshing.C69_backward",
    "Verif.Meshing.C69_missing_corner_raises",
    "Verif.Meshing.C69_not_adjacent_raises_partial",
    "Verif.Meshing.C69_not_adjacent_violated"
   ],
   "note": "Replacement of the edge proved for every domain with adjacent corners (both orientations, every rotation). Raising is proved for domains not listed from corner 5; for those listed from corner 5 the property is violated (split_box.py:81 tests num_pts - 1 instead of i0 == num_pts - 1), C69_not_adjacent_violated."
  },
  {
   "property": "C70",
   "status": "partial",
   "theorems": [
    "Verif.Meshing.C70_surface_partition",
    "Verif.Meshing.C70_surface_interface",
    "Verif.Meshing.C70_tet_partition",
    "Verif.Meshing.C70_tet_interface",
    "Verif.Meshing.C70_hex_partition_partial",
    "Verif.Meshing.C70_hex_violated",
    "Verif.Meshing.C70_unsplit_2d",
    "Verif.Meshing.C70_unsplit_3d_violated",
    "Verif.Meshing.C70_unsplit_3d_partial"
   ],
   "note": "2D and tetrahedra proved. create_hex_mesh with one segment (the default) tags surface 1 twice (C70_hex_violated); create_unsplit_box_3d leaves one outer surface untagged (C70_unsplit_3d_violated). Gmsh numbering itself is not modelled; C70_tet_interface shows the interface tags are right iff the domain has two corners besides 4 and 5."
  },
  {
   "property": "C71",
   "status": "proved",
   "theorems": [
    "Verif.Meshing.C71_cells",
    "Verif.Meshing.C71_facets",
    "Verif.Meshing.C71_values",
    "Verif.Meshing.C71_separate"
   ],
   "note": ""
  },
  {
   "property": "C72",
   "status": "partial",
   "theorems": [
    "Verif.Meshing.C72_bounds",
    "Verif.Meshing.C72_location_violated"
   ],
   "note": "Bounds are equivalent to the deformed node lying on or above -plane_loc. The documentation calls plane_loc the location of the plane; with that reading the property fails for every nonzero value, C72_location_violated."
  },
  {
   "property": "C73",
   "status": "partial",
   "theorems": [
    "Verif.Newton.C73_default_options_violated",
    "Verif.Newton.C73_after_options_partial"
   ],
   "note": "AttributeError on rank 0 and on no other rank when set_newton_options was never called (proved for all problems)."
  },
  {
   "property": "C74",
   "status": "partial",
   "theorems": [
    "Verif.Ghosting.C74_max_links_ghost_violated",
    "Verif.Ghosting.C74_no_ghosts_partial"
   ],
   "note": "Reads past the contact map whenever the surface has a ghost facet (C74_max_links_ghost_violated); without ghost facets it returns the largest number of distinct linked cells (C74_no_ghosts_partial)."
  },
  {
   "property": "C75",
   "status": "proved",
   "theorems": [
    "Verif.SubMesh.C75_facet_map"
   ],
   "note": ""
  },
  {
   "property": "C76",
   "status": "proved",
   "theorems": [
    "Verif.Coefficients.C76_raises",
    "Verif.Coefficients.C76_basis"
   ],
   "note": ""
  },
  {
   "property": "C77",
   "status": "proved",
   "theorems": [
    "Verif.Packing.C77_opposite_gradient"
   ],
   "note": ""
  },
  {
   "property": "C78",
   "status": "partial",
   "theorems": [
    "Verif.Kernels.C78_frictionless",
    "Verif.Kernels.C78_tresca",
    "Verif.Kernels.C78_coulomb",
    "Verif.Kernels.C78_rigid_partial"
   ],
   "note": "Deformable contact: full. Rigid surface: except a constant surface normal on a non-affine cell (C49_uninitialised_violated)."
  },
  {
   "property": "C79",
   "status": "proved",
   "theorems": [
    "Verif.Kernels.C79_elasticity",
    "Verif.Kernels.C79_thermal",
    "Verif.Kernels.C79_heat"
   ],
   "note": ""
  },
  {
   "property": "C80",
   "status": "proved",
   "theorems": [
    "Verif.Ray.C80_exact"
   ],
   "note": "tdim 2/gdim 2 and tdim 3/gdim 3; for tdim 2/gdim 3 see C20_surface_violated. Parallel rays: determinant below the tolerance gives -2, see C20_status."
  },
  {
   "property": "C81",
   "status": "partial",
   "theorems": [
    "Verif.ContactProblem.C81_default_partial",
    "Verif.ContactProblem.C81_violated"
   ],
   "note": "Zero on the first generation only; after a generation with a friction coefficient the old one is kept (negation proved)."
  },
  {
   "property": "C82",
   "status": "partial",
   "theorems": [
    "Verif.ContactProblem.C82_violated"
   ],
   "note": "Raises on every object whose data were generated: the binding takes one-dimensional arrays (negation proved for every history)."
  },
  {
   "property": "C83",
   "status": "partial",
   "theorems": [
    "Verif.ContactProblem.C83_violated",
    "Verif.ContactProblem.C83_rows_partial"
   ],
   "note": "The rows keep their content (partial theorem), but kernels and friction law are already replaced when the error is raised (negation proved)."
  },
  {
   "property": "C84",
   "status": "proved",
   "theorems": [
    "Verif.ContactProblem.C84_kernels"
   ],
   "note": ""
  },
  {
   "property": "C85",
   "status": "proved",
   "theorems": [
    "Verif.ContactProblem.C85_h_surfaces"
   ],
   "note": ""
  },
  {
   "property": "C86",
   "status": "partial",
   "theorems": [
    "Verif.TieData.C86_matrix_data_violated",
    "Verif.TieData.C86_partial",
    "Verif.TieData.C86_violated",
    "Verif.TieData.C86_other_problem_violated"
   ],
   "note": "Proved when updates are for the problem data were last generated for (C86_partial, C39_layout). Updating before generating writes outside the vectors for every pair with a facet; a thermo-elastic update of elastic data writes outside; an elastic update of thermo-elastic data overwrites test function gradients (all proved)."
  },
  {
   "property": "C87",
   "status": "partial",
   "theorems": [
    "Verif.TieData.C87_partial",
    "Verif.TieData.C87_violated"
   ],
   "note": "Proved when the solution is among the arguments. Without it the rows keep old content at the place of the solution (negation proved)."
  },
  {
   "property": "C88",
   "status": "partial",
   "theorems": [
    "Verif.TieData.C88_partial",
    "Verif.TieData.C88_violated"
   ],
   "note": "Proved for missing material coefficients and for updates; a thermo-elastic generation with u but without T raises after replacing the data (negation proved)."
  },
  {
   "property": "C89",
   "status": "partial",
   "theorems": [
    "Verif.Nullspace.C89_scalar_partial",
    "Verif.Nullspace.C89_vector_space_violated"
   ],
   "note": "Scalar spaces proved; violated for every block size >= 2 (block indices are used as flat indices)."
  },
  {
   "property": "C90",
   "status": "partial",
   "theorems": [
    "Verif.Nullspace.C90_python_cpp_partial",
    "Verif.Nullspace.C90_absent_body_violated"
   ],
   "note": "Equal whenever every tag has a cell on the process; otherwise the Python function raises (numpy.hstack of an empty list)."
  },
  {
   "property": "C91",
   "status": "proved",
   "theorems": [
    "Verif.Normals.C91_pack_nx",
    "Verif.Normals.C91_unsupported"
   ],
   "note": ""
  },
  {
   "property": "C92",
   "status": "proved",
   "theorems": [
    "Verif.Normals.C92_pack_ny",
    "Verif.Normals.C92_raises"
   ],
   "note": ""
  },
  {
   "property": "C93",
   "status": "proved",
   "theorems": [
    "Verif.Projection.C93_closest",
    "Verif.Projection.C93_gap",
    "Verif.Projection.C93_no_candidates"
   ],
   "note": "Affine cells; compute_closest_entity and compute_distance_gjk by their contracts (nearest facet of the list, shortest vector to the hull); libraries meeting the contracts are proved to exist for every mesh. Nonaffine cells go through the library pull-back and are not covered."
  },
  {
   "property": "C94",
   "status": "proved",
   "theorems": [
    "Verif.ContactMesh.C94_markers"
   ],
   "note": "create_mesh by its contract: input_global_indices gives the original vertex of every node of the new mesh."
  },
  {
   "property": "C95",
   "status": "partial",
   "theorems": [
    "Verif.ContactMesh.C95_coordinates_partial",
    "Verif.ContactMesh.C95_coordinates_violated",
    "Verif.ContactMesh.C95_cells"
   ],
   "note": "Violated if geometry nodes and vertices are numbered differently on a process: coordinates of node i are used for vertex i. Proved for equal numberings; the cells passed on are proved in general."
  },
  {
   "property": "C96",
   "status": "partial",
   "theorems": [
    "Verif.ContactMesh.C96_sound",
    "Verif.ContactMesh.C96_complete_partial",
    "Verif.ContactMesh.C96_complete_violated"
   ],
   "note": "Nothing superfluous is sent (proved). Completeness is violated for the leftmost facet and, by C15, for cells with two tagged facets; proved for the other ones."
  },
  {
   "property": "C97",
   "status": "proved",
   "theorems": [
    "Verif.Kernels.C97_signorini",
    "Verif.Kernels.C97_signorini_minus",
    "Verif.Kernels.C97_consistent",
    "Verif.Kernels.C97_rigid"
   ],
   "note": "Pointwise equivalence and consistency of the residual kernels, on top of C78. Rigid kernels: packed normals, or constant normal on affine cells."
  },
  {
   "property": "C98",
   "status": "proved",
   "theorems": [
    "Verif.Kernels.C98_friction_law",
    "Verif.Kernels.C98_tresca",
    "Verif.Kernels.C98_coulomb",
    "Verif.Kernels.C98_coulomb_total",
    "Verif.Kernels.C98_tresca_total"
   ],
   "note": "Slip for Coulomb as the kernels measure it: tangential jump corrected by the remaining gap along the previous normal."
  },
  {
   "property": "C99",
   "status": "proved",
   "theorems": [
    "Verif.Kernels.C99_frictionless",
    "Verif.Kernels.C99_tresca",
    "Verif.Kernels.C99_rigid"
   ],
   "note": "Tresca for unit contact normals (the matrix kernel lacks a weight factor that only matters otherwise)."
  },
  {
   "property": "C100",
   "status": "proved",
   "theorems": [
    "Verif.Kernels.C100_frictionless",
    "Verif.Kernels.C100_tresca",
    "Verif.Kernels.C100_rigid",
    "Verif.Kernels.C100_tie",
    "Verif.Kernels.C100_heat"
   ],
   "note": "Matrices as assembled: blocks between two different linked cells are not stored, so one linked cell per point is needed."
  },
  {
   "property": "C101",
   "status": "proved",
   "theorems": [
    "Verif.OneSided.C101_ufl",
    "Verif.OneSided.C101_rigid_surface",
    "Verif.OneSided.C101_custom"
   ],
   "note": "Forms as quadrature sums; UFL operators by their definition."
  },
  {
   "property": "C102",
   "status": "proved",
   "theorems": [
    "Verif.OneSided.C102_ufl",
    "Verif.OneSided.C102_rigid_surface",
    "Verif.OneSided.C102_weak_dirichlet"
   ],
   "note": "Forms as quadrature sums."
  },
  {
   "property": "C103",
   "status": "proved",
   "theorems": [
    "Verif.OneSided.C103_symmetric",
    "Verif.OneSided.C103_stable_ufl",
    "Verif.OneSided.C103_stable_rigid_surface",
    "Verif.OneSided.C103_energy"
   ],
   "note": ""
  },
  {
   "property": "C104",
   "status": "partial",
   "theorems": [
    "Verif.OneSided.C104_contact_partial",
    "Verif.OneSided.C104_dirichlet_violated"
   ],
   "note": "The contact kernel equals the contact form for equal cell size (affine cells). The Dirichlet penalty is gamma E / h^2 in nitsche_ufl and gamma E / h in nitsche_custom (C104_dirichlet_violated), and nitsche_ufl takes the cell diameter for h where nitsche_custom takes the circumradius."
  },
  {
   "property": "C105",
   "status": "partial",
   "theorems": [
    "Verif.Distributed.C105_nitsche_custom",
    "Verif.Distributed.C105_rigid_surface_custom_violated",
    "Verif.Distributed.C105_rigid_surface_custom_partial"
   ],
   "note": "Holds for nitsche_custom. nitsche_rigid_surface_custom packs before the ghost update, so ghosts carry the previous iterate (violated); partial: dofs owned by the process."
  },
  {
   "property": "C106",
   "status": "partial",
   "theorems": [
    "Verif.Distributed.C106_nitsche_custom_partial",
    "Verif.Distributed.C106_violated"
   ],
   "note": "Neither custom driver adds ghost contributions to the owner (no reverse ghost update); exact for dofs touched by cells of the owner only."
  },
  {
   "property": "C107",
   "status": "proved",
   "theorems": [
    "Verif.Distributed.C107_residual",
    "Verif.Distributed.C107_newton_step"
   ],
   "note": "apply_lifting, set_bc and assemble_matrix by contract."
  },
  {
   "property": "C108",
   "status": "partial",
   "theorems": [
    "Verif.Output.C108_violated",
    "Verif.Output.C108_values_partial",
    "Verif.Output.C108_split",
    "Verif.Output.C108_facets"
   ],
   "note": "Violated: write passes two-dimensional arrays where the binding of compute_contact_forces takes one-dimensional ones, so every call raises (C108_violated; numpy arrays do not convert between ranks). Partial: with flat arrays the stored values are right for pairs with facets on the process and no ghost facets; C108_split and C108_facets are about the split and the facets of the pairs. The projection to the facet space and the file format are not modelled."
  },
  {
   "property": "C109",
   "status": "partial",
   "theorems": [
    "Verif.Output.C109_detection_partial",
    "Verif.Output.C109_violated"
   ],
   "note": "write resets the geometry of the contact submesh to the reference configuration and leaves it so: contact data generated next has the gap of undeformed bodies unless the geometry is updated first (C109_violated). Partial: a call that updates the geometry first (update_contact_detection) is not affected."
  },
  {
   "property": "C110",
   "status": "partial",
   "theorems": [
    "Verif.Output.C110_surface_partial",
    "Verif.Output.C110_violated"
   ],
   "note": "The first argument indexes surfaces, not pairs, although wrappers and plot_gap say pairs (C110_violated). Partial: with the surface index the points are right."
  },
  {
   "property": "C111",
   "status": "proved",
   "theorems": [
    "Verif.Output.C111_geometry"
   ],
   "note": "Geometry array by node and component."
  },
  {
   "property": "C112",
   "status": "proved",
   "theorems": [
    "Verif.ContactProblem.C112_update"
   ],
   "note": "For contact maps as create_distance_map finds them: all points of a facet linked, or none (C24). The one call that could produce others, crop_invalid_points, raises (C82)."
  },
  {
   "property": "C113",
   "status": "partial",
   "theorems": [
    "Verif.ContactProblem.C113_jacobian_partial",
    "Verif.ContactProblem.C113_displacement_partial"
   ],
   "note": "Partial: the friction bound is zero or at least 1e-14 (C47, C48); between them the claim is false (C131_violated). C113_displacement_partial states the conditions on the displacement with the specification of the form; C113_jacobian_partial states them on the packed coefficients. Packing, kernels and assembly are put together in Model/System.lean."
  },
  {
   "property": "C114",
   "status": "proved",
   "theorems": [
    "Verif.ContactProblem.C114_form"
   ],
   "note": "Contact maps as in C112."
  },
  {
   "property": "C115",
   "status": "proved",
   "theorems": [
    "Verif.ContactProblem.C115_balance"
   ],
   "note": "Contact maps as in C112; the basis functions sum to one."
  },
  {
   "property": "C116",
   "status": "proved",
   "theorems": [
    "Verif.ContactProblem.C116_symmetric",
    "Verif.ContactProblem.C116_positive"
   ],
   "note": ""
  },
  {
   "property": "C117",
   "status": "partial",
   "theorems": [
    "Verif.TieData.C117_violated",
    "Verif.TieData.C117_elasticity_partial",
    "Verif.TieData.C117_heat_partial",
    "Verif.TieData.C117_thermo_partial"
   ],
   "note": "Does not hold if a point that is not tied comes before one that is (C117_violated): the test functions of the linked cell are taken at wrong points (C31, C32). Proved when on every facet the tied points come first."
  },
  {
   "property": "C118",
   "status": "partial",
   "theorems": [
    "Verif.TieData.C118_elasticity_partial",
    "Verif.TieData.C118_heat_partial",
    "Verif.TieData.C118_violated"
   ],
   "note": "Does not hold if a point that is not tied comes before one that is (C118_violated); proved when the tied points come first."
  },
  {
   "property": "C119",
   "status": "proved",
   "theorems": [
    "Verif.TieData.C119_symmetric",
    "Verif.TieData.C119_positive"
   ],
   "note": "Facet weights and, for heat conduction, the conductivity are not negative (positive semidefinite part only)."
  },
  {
   "property": "C120",
   "status": "proved",
   "theorems": [
    "Verif.TieData.C120_balance"
   ],
   "note": "The basis functions sum to one."
  },
  {
   "property": "C121",
   "status": "partial",
   "theorems": [
    "Verif.TieData.C121_violated",
    "Verif.TieData.C121_constants_partial"
   ],
   "note": "Does not hold if a point that is not tied comes before one that is and the facet is tied to more than one cell (C121_violated). Proved when the tied points come first."
  },
  {
   "property": "C122",
   "status": "proved",
   "theorems": [
    "Verif.ContactProblem.C122_monotone"
   ],
   "note": "Mesh sizes positive, quadrature weights and friction bound not negative."
  },
  {
   "property": "C123",
   "status": "proved",
   "theorems": [
    "Verif.Krylov.C123_options"
   ],
   "note": "PETSc by contract (Model/Krylov.lean); options other than matptap_via, pc_mg_levels, pc_mg_cycles."
  },
  {
   "property": "C124",
   "status": "partial",
   "theorems": [
    "Verif.Krylov.C124_violated",
    "Verif.Krylov.C124_partial"
   ],
   "note": "Every option of an earlier call that is not given again is kept (C124_violated, for all dictionaries). Partial: all options ever given are given again."
  },
  {
   "property": "C125",
   "status": "partial",
   "theorems": [
    "Verif.Krylov.C125_violated",
    "Verif.Krylov.C125_partial"
   ],
   "note": "All solvers share one prefix, so options given to one take effect in another at its next call (C125_violated, for all dictionaries). Partial: options named in the last call on the solver."
  },
  {
   "property": "C126",
   "status": "partial",
   "theorems": [
    "Verif.Krylov.C126_violated",
    "Verif.Krylov.C126_partial"
   ],
   "note": "pc_mg_cycles without pc_mg_levels is ignored (C126_violated). Partial: both given; levels except for gamg."
  },
  {
   "property": "C127",
   "status": "proved",
   "theorems": [
    "Verif.Helpers.C127_derivative"
   ],
   "note": "All dimensions and radii."
  },
  {
   "property": "C128",
   "status": "partial",
   "theorems": [
    "Verif.Helpers.C128_partial",
    "Verif.Helpers.C128_violated"
   ],
   "note": "Differ for radii below 1e-14 (C128_violated: identity against zero). Partial: radius at least 1e-14, vector not on the sphere."
  },
  {
   "property": "C129",
   "status": "partial",
   "theorems": [
    "Verif.Helpers.C129_partial",
    "Verif.Helpers.C129_violated"
   ],
   "note": "Raises ValueError on every process that does not own all rows (C129_violated: global shape with local row pointers). Partial: one process."
  },
  {
   "property": "C130",
   "status": "proved",
   "theorems": [
    "Verif.ContactProblem.C130_vector"
   ],
   "note": "What the processes know about their facets (ghosted contact cells, gaps, normals) is a hypothesis (PartOf); C27-C30 and C53 are about establishing it."
  },
  {
   "property": "C131",
   "status": "partial",
   "theorems": [
    "Verif.ContactProblem.C131_matrix",
    "Verif.ContactProblem.C131_linearisation",
    "Verif.ContactProblem.C131_derivative_partial",
    "Verif.ContactProblem.C131_violated"
   ],
   "note": "C131_matrix gives the bilinear form of the matrix in all cases, also at the switches. Violated for friction bounds in (0, 1e-14) (C131_violated: a sticking point gets no friction stiffness). Partial: bound zero or at least 1e-14."
  },
  {
   "property": "C132",
   "status": "proved",
   "theorems": [
    "Verif.ContactProblem.C132_matrix"
   ],
   "note": "As C130. With friction, unit contact normals. Also at the contact and stick/slip switches."
  },
  {
   "property": "C133",
   "status": "proved",
   "theorems": [
    "Verif.ContactProblem.C133_vector",
    "Verif.ContactProblem.C133_matrix"
   ],
   "note": "That the search finds the same points in the rotated mesh is assumed: its results are rotated. What is used of the library: the (pseudo-)inverse of a Jacobian that has a left inverse, the surface factor depends on J\u1d40J only, derivatives of the coordinate basis sum to zero. Matrix: with friction, unit contact normals."
  },
  {
   "property": "C134",
   "status": "proved",
   "theorems": [
    "Verif.ContactProblem.C134_affine",
    "Verif.ContactProblem.C134_newton_step"
   ],
   "note": "Sliding points are excluded: there the projection onto the friction ball is not affine. A point whose friction bound vanishes at both displacements is allowed."
  },
  {
   "property": "C135",
   "status": "proved",
   "theorems": [
    "Verif.ContactProblem.C135_energy",
    "Verif.ContactProblem.C135_minimiser"
   ],
   "note": "The energy is spelled out in Spec/ContactEnergy.lean. Coulomb friction has no energy and is excluded."
  },
  {
   "property": "C136",
   "status": "proved",
   "theorems": [
    "Verif.ContactProblem.C136_continuous"
   ],
   "note": "The contact points are those of the last detection: a new detection may jump."
  },
  {
   "property": "C137",
   "status": "proved",
   "theorems": [
    "Verif.ContactProblem.C137_vector",
    "Verif.ContactProblem.C137_frictionless",
    "Verif.ContactProblem.C137_matrix"
   ],
   "note": ""
  },
  {
   "property": "C138",
   "status": "proved",
   "theorems": [
    "Verif.ContactProblem.C138_step"
   ],
   "note": "That the gap of a material contact point changes by the relative displacement is a hypothesis (SameContact); it holds if the geometry and the displacement have the same degree. With friction the slip is measured from the last detection, so sliding in the step is excluded; with Coulomb friction the normals of the previous detection must be the current ones."
  },
  {
   "property": "C139",
   "status": "proved",
   "theorems": [
    "Verif.ContactProblem.C139_converged"
   ],
   "note": "Bulk forms, their assembly, and the Krylov solver are parameters; apply_lifting and set_bc are modelled by their contract in dolfinx. One process. With the incremental criterion convergence says nothing about the residual (C60)."
  },
  {
   "property": "C140",
   "status": "proved",
   "theorems": [
    "Verif.ContactProblem.C140_load_steps"
   ],
   "note": "The loads of a step are data of the step. That update_submesh_geometry places the mesh at the given displacement, whatever it was before, is C29."
  },
  {
   "property": "C141",
   "status": "proved",
   "theorems": [
    "Verif.ContactProblem.C141_settled",
    "Verif.ContactProblem.C141_one_step"
   ],
   "note": "For a prescribed dof at the contact surface the Jacobian of the demos is wrong (assemble_matrix(a_mat, J, bcs) inserts one on the diagonal but leaves the contact entries in the row), so these are excluded. With friction: unit normals, sticking points or zero bound (SameStatus), because the law is nonlinear for sliding points."
  },
  {
   "property": "C142",
   "status": "proved",
   "theorems": [
    "Verif.ContactProblem.C142_contact",
    "Verif.ContactProblem.C142_stale",
    "Verif.TieData.C142_tie"
   ],
   "note": "PETSc is modelled by its contract: adding a block outside the pattern of a preallocated matrix is an error. All demos that detect contact again create a new matrix. One process (rows of ghost dofs are exchanged by SparsityPattern.finalize, a library function)."
  },
  {
   "property": "C143",
   "status": "proved",
   "theorems": [
    "Verif.ContactProblem.C143_skew",
    "Verif.ContactProblem.C143_wellposed",
    "Verif.ContactProblem.C143_stable"
   ],
   "note": "Existence by the contraction principle (the residual is strongly monotone and Lipschitz continuous). For Coulomb friction see C204. The bodies are linearly elastic: their stiffness matrix is a parameter."
  },
  {
   "property": "C144",
   "status": "proved",
   "theorems": [
    "Verif.ContactProblem.C144_solvable"
   ],
   "note": "Unit normals are assumed for Tresca friction, as in C131. For Coulomb friction see C204_solvable."
  },
  {
   "property": "C145",
   "status": "proved",
   "theorems": [
    "Verif.ContactProblem.C145_one_step"
   ],
   "note": "The residual is piecewise affine without friction; with friction it is not (slip), so the statement is restricted to no friction."
  },
  {
   "property": "C146",
   "status": "partial",
   "theorems": [
    "Verif.TieData.C146_elasticity_partial",
    "Verif.TieData.C146_heat_partial"
   ],
   "note": "For meshes on which the tied points come first on every facet; otherwise the matrix is wrong (C118_violated)."
  },
  {
   "property": "C147",
   "status": "partial",
   "theorems": [
    "Verif.ContactProblem.C147_contact",
    "Verif.ContactProblem.C147_exact",
    "Verif.TieData.C147_elasticity_partial",
    "Verif.TieData.C147_heat_partial"
   ],
   "note": "Contact part without restriction; for ties the tied points come first on every facet (otherwise C118_violated)."
  },
  {
   "property": "C148",
   "status": "partial",
   "theorems": [
    "Verif.TieData.C148_tied",
    "Verif.TieData.C148_elasticity_partial",
    "Verif.TieData.C148_heat_partial",
    "Verif.TieData.C148_thermo_partial",
    "Verif.TieData.C148_violated"
   ],
   "note": "Fails in general: the constructor crops with the largest cell size among the facets of the same process, so fewer points can be tied on more processes (C148_violated). Holds when every process ties the points of its facets a single process ties, e.g. when no gap is longer than the largest cell at the facets of the process (C148_tied); and for meshes on which tied points come first on every facet (C118_violated)."
  },
  {
   "property": "C149",
   "status": "proved",
   "theorems": [
    "Verif.RigidGap.C149_facet_map"
   ],
   "note": ""
  },
  {
   "property": "C150",
   "status": "partial",
   "theorems": [
    "Verif.RigidGap.C150_gap_partial",
    "Verif.RigidGap.C150_swapped",
    "Verif.RigidGap.C150_violated"
   ],
   "note": "Fails in general: the position of the facet among the tagged facets is used as row of the contact map, whose rows are sorted by cells (C150_violated, C150_swapped). Holds when the cells of the tagged facets are in ascending order."
  },
  {
   "property": "C151",
   "status": "partial",
   "theorems": [
    "Verif.TieData.C151_elasticity_partial",
    "Verif.TieData.C151_heat_partial",
    "Verif.TieData.C151_thermo_partial"
   ],
   "note": "Closest points are assumed to be the same in both coordinate systems. Proved when on every facet the untied points come last, because of C117_violated."
  },
  {
   "property": "C152",
   "status": "proved",
   "theorems": [
    "Verif.Projection.C152_nearest"
   ],
   "note": "That the near candidate facets are on the process is a hypothesis: C96 says when create_contact_mesh provides them (and C96_complete_violated when it does not)."
  },
  {
   "property": "C153",
   "status": "partial",
   "theorems": [
    "Verif.ContactProblem.C153_vector",
    "Verif.ContactProblem.C153_matrix_partial",
    "Verif.ContactProblem.C153_matrix_violated"
   ],
   "note": "The vector is unit independent for all laws. The matrix is proved for friction bounds that are zero or at least 1e-14 in both systems of units: d_ball_projection compares the bound, a length, with the fixed number 1e-14 (C153_matrix_violated)."
  },
  {
   "property": "C154",
   "status": "partial",
   "theorems": [
    "Verif.TieData.C154_elasticity_partial",
    "Verif.TieData.C154_heat_partial",
    "Verif.TieData.C154_thermo_partial",
    "Verif.TieData.C154_violated"
   ],
   "note": "Proved when the same gaps are at most 1e-7 in both units and, as in C117, the points of a facet that are not tied come last. Contact::crop_invalid_points compares the gap with the absolute number 1e-7: a closest point at a small distance along the surface is tied in one unit and dropped in another (C154_violated)."
  },
  {
   "property": "C155",
   "status": "proved",
   "theorems": [
    "Verif.Tree.C155_jagged_curve",
    "Verif.Tree.C155_invalid"
   ],
   "note": "Termination is proved from uniform continuity of the curve; the loops are modelled as relations, so the theorem states that a result exists, is the only one and is a fine sample."
  },
  {
   "property": "C156",
   "status": "partial",
   "theorems": [
    "Verif.Tree.C156_inner",
    "Verif.Tree.C156_outer_2D",
    "Verif.Tree.C156_outer_3D_violated"
   ],
   "note": "Proved for the inner body and, in two dimensions, for the surrounding body. In three dimensions two lateral surfaces of the surrounding body get no tag: the slices of box leave out positions len(xh) and len(xh) + 2 len(x) (C156_outer_3D_violated, which also shows that all others get exactly one)."
  },
  {
   "property": "C157",
   "status": "proved",
   "theorems": [
    "Verif.ContactMeshes.C157_gap",
    "Verif.ContactMeshes.C157_fixed",
    "Verif.ContactMeshes.C157_closed"
   ],
   "note": "Surfaces are the convex hulls of their boundary curves, arcs run the short way (Gmsh by contract). The two cylinders of create_cylinder_cylinder_mesh, which are rotated by Gmsh, are left out."
  },
  {
   "property": "C158",
   "status": "partial",
   "theorems": [
    "Verif.ContactMeshes.C158_partial",
    "Verif.ContactMeshes.C158_violated"
   ],
   "note": "create_circle_circle_mesh compares the rank with zero and ignores its argument (C158_violated); the other generators are as claimed (C158_partial)."
  },
  {
   "property": "C159",
   "status": "proved",
   "theorems": [
    "Verif.ContactProblem.C159_vector",
    "Verif.ContactProblem.C159_matrix"
   ],
   "note": "For friction the matrix theorem assumes unit contact normals, as C131 does."
  },
  {
   "property": "C160",
   "status": "proved",
   "theorems": [
    "Verif.ContactProblem.C160_vector",
    "Verif.ContactProblem.C160_matrix"
   ],
   "note": "For friction the matrix theorem assumes unit contact normals, as C131 does."
  },
  {
   "property": "C161",
   "status": "proved",
   "theorems": [
    "Verif.Tree.C161_outer",
    "Verif.Tree.C161_inner"
   ],
   "note": "Points of the sides by the contract of np.linspace."
  },
  {
   "property": "C162",
   "status": "partial",
   "theorems": [
    "Verif.ContactMesh.C162_facets_partial",
    "Verif.ContactMesh.C162_cells_partial",
    "Verif.ContactMesh.C162_violated",
    "Verif.ContactMesh.C162_input"
   ],
   "note": "The input of create_mesh is the same (C162_input). The markers are the same if some process has a marked facet, every process has a marked cell and gets cells and facets of the new mesh, and vertex numbers are below 2^31; otherwise the earlier version raises or loses markers (C162_violated)."
  },
  {
   "property": "C163",
   "status": "partial",
   "theorems": [
    "Verif.SplitBox.C163_ends",
    "Verif.SplitBox.C163_vertical_partial",
    "Verif.SplitBox.C163_vertical_violated",
    "Verif.SplitBox.C163_split_vertical",
    "Verif.SplitBox.C163_split_horizontal",
    "Verif.SplitBox.C163_unsplit"
   ],
   "note": "vertical_line ignores the abscissa of x1, so that its interface ends at x1 only if x0 and x1 have the same abscissa (C163_vertical_violated, C163_vertical_partial). Areas are signed areas by the shoelace formula."
  },
  {
   "property": "C164",
   "status": "proved",
   "theorems": [
    "Verif.SplitBox.C164_tet",
    "Verif.SplitBox.C164_unsplit"
   ],
   "note": "The hexahedral bodies are extruded by Gmsh and have no loops of their own."
  },
  {
   "property": "C165",
   "status": "proved",
   "theorems": [
    "Verif.TieData.C165_local"
   ],
   "note": ""
  },
  {
   "property": "C166",
   "status": "partial",
   "theorems": [
    "Verif.TieData.C166_source",
    "Verif.TieData.C166_source_thermo",
    "Verif.TieData.C166_euler_partial",
    "Verif.TieData.C166_euler_thermo_partial",
    "Verif.TieData.C166_uncoupled",
    "Verif.TieData.C166_start_violated",
    "Verif.TieData.C166_prescribed_violated"
   ],
   "note": "C166_source says what is computed. It is implicit Euler if the tied points come first on every facet (C117), no temperature is prescribed at a cell with a tied point, and the initial temperature is zero or is not given to generate_kernel_data or the vector is not added (as in the three demos). Otherwise prescribed values are not attained (C166_prescribed_violated: rows of the tie are kept in rows of prescribed dofs) or the bodies keep their temperatures (C166_start_violated: the vector belongs to the initial temperature for ever). The system is solved exactly if it is solvable."
  },
  {
   "property": "C167",
   "status": "partial",
   "theorems": [
    "Verif.TieData.C167_conserved_partial",
    "Verif.TieData.C167_contract_partial",
    "Verif.TieData.C167_steady_partial",
    "Verif.TieData.C167_constant_partial"
   ],
   "note": "Same hypotheses as C166; conservation and constant temperatures hold with every initial temperature."
  },
  {
   "property": "C168",
   "status": "partial",
   "theorems": [
    "Verif.TieData.C168_equilibrium_partial"
   ],
   "note": "Same hypotheses as C166, also for the dofs of the displacement; linear systems are solved exactly."
  },
  {
   "property": "C169",
   "status": "partial",
   "theorems": [
    "Verif.ContactProblem.C169_moment",
    "Verif.ContactProblem.C169_frictionless_partial",
    "Verif.ContactProblem.C169_closed_partial",
    "Verif.ContactProblem.C169_closest",
    "Verif.ContactProblem.C169_friction_violated",
    "Verif.ContactProblem.C169_normal_violated"
   ],
   "note": "C169_moment gives the moment for all laws: minus the sum of gap x force. It is zero without friction if gap vectors are along the contact normal (ray tracing; closest points inside a facet by C169_closest), and with friction if there is no gap. Otherwise it is not (C169_friction_violated, C169_normal_violated). The hypothesis on the nodes says that the gap is contact point minus quadrature point; for theta different from 0 the nodes are those of the mesh on which gradients are computed."
  },
  {
   "property": "C170",
   "status": "partial",
   "theorems": [
    "Verif.ContactProblem.C170_translation",
    "Verif.ContactProblem.C170_rigid_partial",
    "Verif.ContactProblem.C170_rotation_violated"
   ],
   "note": "Translations: full. Rotations: without gap, or without friction and with gap along the normal; violated with friction and a gap (C170_rotation_violated)."
  },
  {
   "property": "C171",
   "status": "partial",
   "theorems": [
    "Verif.TieData.C171_elasticity_partial",
    "Verif.TieData.C171_thermo_partial",
    "Verif.TieData.C171_closed_partial",
    "Verif.TieData.C171_gap_violated"
   ],
   "note": "C171_elasticity_partial and C171_thermo_partial give the moment: minus the sum of gap x force. It is zero if tied surfaces have no gap, otherwise not (C171_gap_violated; gaps up to the size of a cell are accepted). Inherits from C117 that tied points come first on every facet. Translations for all gaps: C120, C121."
  },
  {
   "property": "C172",
   "status": "proved",
   "theorems": [
    "Verif.ThermoContact.C172_temperature",
    "Verif.ThermoContact.C172_equations"
   ],
   "note": "The linear solver of the thermal problem is taken by contract (it solves invertible systems), the form of a time step is assumed positive (it is for tau, kdt >= 0 with a positive mass matrix)."
  },
  {
   "property": "C173",
   "status": "proved",
   "theorems": [
    "Verif.ThermoContact.C173_independent",
    "Verif.ThermoContact.C173_conserved"
   ],
   "note": "The demos contain no term for heat flow across contact surfaces."
  },
  {
   "property": "C174",
   "status": "partial",
   "theorems": [
    "Verif.ThermoContact.C174_free_partial",
    "Verif.ThermoContact.C174_heated_violated",
    "Verif.ThermoContact.C174_cooled_violated"
   ],
   "note": "C174_free_partial: no force where the total traction is zero if the thermal stress is zero, or for theta = 0 if it is not tensile. The contact conditions use the elastic stress of the displacement without the thermal stress: with the demos' theta = 1 heated bodies two apart get forces (C174_heated_violated), and cooled bodies get contact forces for theta = 0 too (C174_cooled_violated)."
  },
  {
   "property": "C175",
   "status": "partial",
   "theorems": [
    "Verif.ThermoContact.C175_form",
    "Verif.ThermoContact.C175_cold_partial",
    "Verif.ThermoContact.C175_violated"
   ],
   "note": "C175_form: the form is the balance minus a pressure on the held facets that is the thermal stress, because weak_dirichlet is given the elastic stress sigma_u. It is the balance where the temperature is zero on held facets (C175_cold_partial), not otherwise (C175_violated: a square held on all sides and heated)."
  },
  {
   "property": "C176",
   "status": "partial",
   "theorems": [
    "Verif.OneSidedDriver.C176_vector_partial",
    "Verif.OneSidedDriver.C176_matrix_partial",
    "Verif.OneSidedDriver.C176_derivative_partial",
    "Verif.OneSidedDriver.C176_uninitialised_violated"
   ],
   "note": "Fails on cells that are not affine: the kernel reads an uninitialised facet normal if the surface normal is constant, which is what this driver asks for, so that the residual depends on uninitialised memory (C176_uninitialised_violated). Proved for affine cells."
  },
  {
   "property": "C177",
   "status": "proved",
   "theorems": [
    "Verif.OneSidedDriver.C177_vector",
    "Verif.OneSidedDriver.C177_matrix",
    "Verif.OneSidedDriver.C177_linearisation",
    "Verif.OneSidedDriver.C177_bc"
   ],
   "note": "The cell size, gaps and normals are data of the theorem (C03, C31, C70 say how they are computed)."
  },
  {
   "property": "C178",
   "status": "partial",
   "theorems": [
    "Verif.OneSidedDriver.C178_plane_partial",
    "Verif.OneSidedDriver.C178_surface_partial",
    "Verif.OneSidedDriver.C178_asserted"
   ],
   "note": "Missing: for the plane, cells that are not affine (C176); the incremental criterion, which says nothing on the residual (C60). Concrete runs with contact for both drivers are in Props/OneSidedStep."
  },
  {
   "property": "C179",
   "status": "partial",
   "theorems": [
    "Verif.OneSidedDriver.C179_resultant",
    "Verif.OneSidedDriver.C179_plane_partial",
    "Verif.OneSidedDriver.C179_signorini",
    "Verif.OneSidedDriver.C179_consistent"
   ],
   "note": "C179_resultant, C179_signorini and C179_consistent hold for every obstacle; C179_plane_partial is about the driver and limited to affine cells (C176)."
  },
  {
   "property": "C180",
   "status": "partial",
   "theorems": [
    "Verif.OneSidedDriver.C180_plane_partial",
    "Verif.OneSidedDriver.C180_surface",
    "Verif.OneSidedDriver.C180_newton_step_partial"
   ],
   "note": "C180_surface for cells of any kind; the theorems about the plane are limited to affine cells (C176)."
  },
  {
   "property": "C181",
   "status": "partial",
   "theorems": [
    "Verif.OneSidedDriver.C181_plane_partial",
    "Verif.OneSidedDriver.C181_surface",
    "Verif.OneSidedDriver.C181_flat_partial"
   ],
   "note": "C181_surface for cells of any kind; the theorems about the plane are limited to affine cells (C176)."
  },
  {
   "property": "C182",
   "status": "partial",
   "theorems": [
    "Verif.OneSidedDriver.C182_plane_partial",
    "Verif.OneSidedDriver.C182_surface"
   ],
   "note": "C182_surface for cells of any kind; C182_plane_partial is limited to affine cells (C176)."
  },
  {
   "property": "C183",
   "status": "partial",
   "theorems": [
    "Verif.OneSidedDriver.C183_plane_partial",
    "Verif.OneSidedDriver.C183_plane_minimiser_partial",
    "Verif.OneSidedDriver.C183_plane_symmetric_partial",
    "Verif.OneSidedDriver.C183_surface",
    "Verif.OneSidedDriver.C183_surface_minimiser",
    "Verif.OneSidedDriver.C183_surface_symmetric"
   ],
   "note": "The theorems on the rigid surface are for cells of any kind; those on the plane are limited to affine cells (C176)."
  },
  {
   "property": "C184",
   "status": "proved",
   "theorems": [
    "Verif.ContactProblem.C184_least_energy",
    "Verif.ContactProblem.C184_exists"
   ],
   "note": "Converse of C135_minimiser, with prescribed values. Coulomb friction has no energy."
  },
  {
   "property": "C185",
   "status": "partial",
   "theorems": [
    "Verif.Snes.C185_no_penetration",
    "Verif.Snes.C185_prescribed_partial",
    "Verif.Snes.C185_forces_partial",
    "Verif.Snes.C185_exact_partial",
    "Verif.Snes.C185_balance",
    "Verif.Snes.C185_violated"
   ],
   "note": "Violated if the prescribed displacement pushes its nodes through the plane: the bounds win over the Dirichlet condition at its nodes, while the equations of the other nodes go on with the prescribed value, so that the returned displacement is not in equilibrium either (C185_violated). The partial theorems assume that it does not."
  },
  {
   "property": "C186",
   "status": "partial",
   "theorems": [
    "Verif.Snes.C186_least_energy_partial",
    "Verif.Snes.C186_exact_partial"
   ],
   "note": "The first theorem compares the returned displacement with the prescribed values put in; for the returned one itself the prescribed displacement must not push its nodes through the plane, see C185_violated."
  },
  {
   "property": "C187",
   "status": "proved",
   "theorems": [
    "Verif.Snes.C187_unique",
    "Verif.Snes.C187_exists"
   ],
   "note": "Existence by compactness of the box of the bounds; the solver of C187_exists is exact for all problems it reports as solved."
  },
  {
   "property": "C188",
   "status": "partial",
   "theorems": [
    "Verif.Snes.C188_violated",
    "Verif.Snes.C188_partial"
   ],
   "note": "Violated: the value is not used, all nodes are kept above the plane (C188_violated). C188_partial: it holds if only nodes of the contact surface reach the plane."
  },
  {
   "property": "C189",
   "status": "proved",
   "theorems": [
    "Verif.ContactProblem.C189_local"
   ],
   "note": "Without friction; exact linear solver for the first system; residual criterion and positive tolerances. The existence of a solution is C143."
  },
  {
   "property": "C190",
   "status": "proved",
   "theorems": [
    "Verif.UflDriver.C190_prescribed_ufl",
    "Verif.UflDriver.C190_prescribed_rigid",
    "Verif.UflDriver.C190_relaxed_never_exact",
    "Verif.UflDriver.C190_equilibrium_ufl",
    "Verif.UflDriver.C190_equilibrium_rigid"
   ],
   "note": "dolfinx NonlinearProblem and NewtonSolver are library contracts (Model/UflDriver); linear solver exact."
  },
  {
   "property": "C191",
   "status": "proved",
   "theorems": [
    "Verif.UflDriver.C191_close_ufl",
    "Verif.UflDriver.C191_close_rigid"
   ],
   "note": "Stiff is the coercivity condition of Nitsche's method; no claim that the Newton solver converges."
  },
  {
   "property": "C192",
   "status": "proved",
   "theorems": [
    "Verif.UflDriver.C192_iterations_ufl",
    "Verif.UflDriver.C192_iterations_rigid",
    "Verif.UflDriver.C192_default_rigid",
    "Verif.UflDriver.C192_default_ufl"
   ],
   "note": "Incremental criterion (the default); exact linear solver."
  },
  {
   "property": "C193",
   "status": "partial",
   "theorems": [
    "Verif.TieData.C193_static_partial",
    "Verif.TieData.C193_opposite",
    "Verif.TieData.C193_lifting_violated",
    "Verif.TieData.C193_prescribed_violated"
   ],
   "note": "Needs tied points first on every facet (C118), no prescribed dof in a cell at the tie (C193_prescribed_violated), and lifting with alpha = 1.0 or zero prescribed values: the Python demos lift with alpha = -1.0, which gives the free dofs the solution for the opposite boundary values (C193_opposite, C193_lifting_violated)."
  },
  {
   "property": "C194",
   "status": "partial",
   "theorems": [
    "Verif.TieData.C194_newton_partial",
    "Verif.TieData.C194_demo_partial",
    "Verif.TieData.C194_incremental_partial"
   ],
   "note": "Same restrictions on the tie as C193; relaxation 1 (default)."
  },
  {
   "property": "C195",
   "status": "partial",
   "theorems": [
    "Verif.TieData.C195_static_partial",
    "Verif.TieData.C195_newton_partial",
    "Verif.TieData.C195_same_partial"
   ],
   "note": "Same restrictions as C193 and C194."
  },
  {
   "property": "C196",
   "status": "proved",
   "theorems": [
    "Verif.Manufactured.C196_elastic2d",
    "Verif.Manufactured.C196_elastic3d",
    "Verif.Manufactured.C196_heat2d",
    "Verif.Manufactured.C196_heat3d",
    "Verif.Manufactured.C196_boundary"
   ],
   "note": "Partial derivatives as HasDerivAt, not totalised."
  },
  {
   "property": "C197",
   "status": "proved",
   "theorems": [
    "Verif.UflDriver.C197_equilibrium_ufl",
    "Verif.UflDriver.C197_equilibrium_rigid",
    "Verif.UflDriver.C197_least_ufl",
    "Verif.UflDriver.C197_least_rigid",
    "Verif.UflDriver.C197_exact_rigid"
   ],
   "note": "Equilibrium, Sound and Stiff as in C190-C192. C197_equilibrium_* characterises, C197_least_* bounds the distance of the result, C197_exact_rigid gives the exact result for the default options."
  },
  {
   "property": "C198",
   "status": "proved",
   "theorems": [
    "Verif.ContactProblem.C198_body",
    "Verif.ContactProblem.C198_total",
    "Verif.ContactProblem.C198_opposite"
   ],
   "note": "Residual criterion. C198_total and C198_opposite use that shape functions of cell and opposite cell sum to one (SumsToOne)."
  },
  {
   "property": "C199",
   "status": "proved",
   "theorems": [
    "Verif.ContactProblem.C199_reports"
   ],
   "note": "Every facet owned by one process, which knows the cells in contact with it (ghosts, C29 and C96); library reductions (scatter, ghostUpdate, Mat.assemble, norms) by contract; Krylov solver and DOLFINx forms are the same functions of the global data. Friction: two or three dimensions, unit normals."
  },
  {
   "property": "C200",
   "status": "partial",
   "theorems": [
    "Verif.Ghosting.C200_root_partial",
    "Verif.Ghosting.C200_offsets_violated",
    "Verif.Ghosting.C200_midpoints"
   ],
   "note": "Violated on every process but zero in every parallel run (C200_offsets_violated): line 399 reads nbr_offsets[1..size], but the array has one entry there; MPI_Scatter ignores the values read, so the result is unaffected if the read does not trap. Process zero and the unpacking: C200_root_partial. Midpoints: C200_midpoints."
  },
  {
   "property": "C201",
   "status": "proved",
   "theorems": [
    "Verif.NewtonCallbacks.C201_setters",
    "Verif.NewtonCallbacks.C201_newton",
    "Verif.NewtonCallbacks.C201_missing"
   ],
   "note": "Refinement: C201_setters and C201_newton reduce the solver object with callbacks to Model/Newton.lean, the subject of C11-C17. Missing callbacks: C201_missing."
  },
  {
   "property": "C202",
   "status": "partial",
   "theorems": [
    "Verif.NewtonCallbacks.C202_partial",
    "Verif.NewtonCallbacks.C202_function_partial",
    "Verif.NewtonCallbacks.C202_preconditioner_violated",
    "Verif.NewtonCallbacks.C202_restart_violated"
   ],
   "note": "Violated for AttributeErrors: swallowed if raised by the preconditioner callback (C202_preconditioner_violated: solve goes on with the matrix of set_preconditioner as it is), and if raised by the coefficients or the residual within an iteration of a solve for a PETSc.Vec, which starts over (C202_restart_violated). All other exceptions reach the caller unchanged (C202_partial). For a Function any exception of a callback other than an AttributeError of the preconditioner leads to an exception (C202_function_partial)."
  },
  {
   "property": "C203",
   "status": "proved",
   "theorems": [
    "Verif.NewtonCallbacks.C203_frames"
   ],
   "note": "For solves that return; the file of a solve that raises holds the states up to the exception (not stated)."
  },
  {
   "property": "C204",
   "status": "proved",
   "theorems": [
    "Verif.ContactProblem.C204_wellposed",
    "Verif.ContactProblem.C204_stable",
    "Verif.ContactProblem.C204_solvable",
    "Verif.ContactProblem.C204_small",
    "Verif.ContactProblem.C204_zero"
   ],
   "note": "Completes C143 and C144 (no friction, Tresca friction). C204_solvable: the linear system of every Newton step has exactly one solution, under the same condition and unit normals. C204_wellposed and C204_stable under the condition CoulombCoercive, C204_small derives the condition for small friction coefficients, C204_zero for none. A turned normal gives one more term in the condition, because the kernels add a multiple of the old normal to the tangential argument."
  },
  {
   "property": "C205",
   "status": "proved",
   "theorems": [
    "Verif.ContactProblem.C205_tresca",
    "Verif.ContactProblem.C205_coulomb"
   ],
   "note": "C205_tresca: no friction and Tresca friction; friction bounds are zero or at least 1e-14, the threshold below which the kernels drop the derivative (C03). C205_coulomb: bounds greater than 1e-14 at closed points. At the switch from stick to slip the kernels combine the slope of slip with a zero derivative in the radius, so the condition is needed for Coulomb friction. Generalises C145 (one step, no friction)."
  },
  {
   "property": "C206",
   "status": "proved",
   "theorems": [
    "Verif.ContactProblem.C206_tresca",
    "Verif.ContactProblem.C206_coulomb"
   ],
   "note": "C206_tresca (frictionless, Tresca) and C206_coulomb. Joins the loop of the Newton solver with the callbacks of the driver (C140, C199) and C205. The residual is bounded below and above by the error, so the residual criterion and the acceptance test of the line search are decided near the solution. Linear bulk; floating point not modelled."
  },
  {
   "property": "C207",
   "status": "partial",
   "theorems": [
    "Verif.TieData.C207_coeffs_partial",
    "Verif.TieData.C207_violated"
   ],
   "note": "C207_coeffs_partial: after data for elasticity or thermo-elasticity were generated. C207_violated: before that, and in all histories with calls for Poisson problems only, the binding divides the size of an empty vector by a stride of zero (integer division by zero, the process ends); other bindings test for a zero stride. The packed data of Poisson problems cannot be read at all."
  },
  {
   "property": "C208",
   "status": "partial",
   "theorems": [
    "Verif.Hertz.C208_forceDriven",
    "Verif.Hertz.C208_cylinders_partial",
    "Verif.Hertz.C208_cylinders_violated",
    "Verif.Hertz.C208_slip",
    "Verif.Hertz.C208_modulus"
   ],
   "note": "C208_forceDriven, C208_slip (beyond the limit of friction), C208_modulus; C208_cylinders_partial for demo_friction_cylinders.py at points that are not left of the contact zone. C208_cylinders_violated: left of the contact zone that demo writes NaN at every point, in every step, since the condition is abs(x < a) and not abs(x) < a. That the distributions solve the equations of the elastic half plane is not proved; the specification is the classical closed form."
  },
  {
   "property": "C209",
   "status": "partial",
   "theorems": [
    "Verif.Hertz.C209_twoD_partial",
    "Verif.Hertz.C209_traction_partial",
    "Verif.Hertz.C209_threeD_violated"
   ],
   "note": "C209_twoD_partial and C209_traction_partial. C209_threeD_violated: in three dimensions with a body force the mesh is half a ball and the density that of a whole ball, so half of the load is applied."
  },
  {
   "property": "C210",
   "status": "proved",
   "theorems": [
    "Verif.Beam.C210_same",
    "Verif.Beam.C210_clamped"
   ],
   "note": "C210_same for a beam with positive energy, C210_clamped: the energy is positive without free motions, for the strong condition and for theta = -1. The linear solver is exact; LinearProblem, NonlinearProblem and NewtonSolver are library code modelled by their documentation."
  },
  {
   "property": "C211",
   "status": "proved",
   "theorems": [
    "Verif.Wedges.C211_contact",
    "Verif.Wedges.C211_ratio"
   ],
   "note": "C211_contact, C211_ratio. Quadrature weights and facet normals are library data; the normal is specified through the physical groups of the mesh generator."
  },
  {
   "property": "C212",
   "status": "partial",
   "theorems": [
    "Verif.Tags.C212_disc_partial",
    "Verif.Tags.C212_halfdisc_partial",
    "Verif.Tags.C212_boxes_partial",
    "Verif.Tags.C212_wedges_partial",
    "Verif.Tags.C212_cylinders_partial",
    "Verif.Tags.C212_rigid_violated"
   ],
   "note": "C212_boxes_partial, C212_disc_partial, C212_halfdisc_partial, C212_cylinders_partial, C212_wedges_partial: the values used with each generator. C212_rigid_violated: in two dimensions new_demo_nitsche_rigid_surface_ufl.py passes values that do not belong to create_circle_plane_mesh, for every radius: no facet is driven, the contact surface is the far side of the box, and the rigid surface is on the upper half of the disc. How gmsh numbers physical groups without a tag, and the order of getBoundary, are library rules taken as given (DESIGN.md)."
  },
  {
   "property": "C213",
   "status": "partial",
   "theorems": [
    "Verif.Props.FacetMarkers.C213_find",
    "Verif.Props.FacetMarkers.C213_valid",
    "Verif.Props.FacetMarkers.C213_demos",
    "Verif.Props.FacetMarkers.C213_beam",
    "Verif.Props.FacetMarkers.C213_refine",
    "Verif.Props.FacetMarkers.C213_circles",
    "Verif.Props.FacetMarkers.C213_circles_violated",
    "Verif.Props.FacetMarkers.C213_boxes",
    "Verif.Props.FacetMarkers.C213_extended_partial",
    "Verif.Props.FacetMarkers.C213_tree_violated",
    "Verif.Props.FacetMarkers.C213_axis"
   ],
   "note": "C213_find, C213_valid, C213_demos, C213_beam, C213_refine, C213_circles, C213_boxes hold. C213_tree_violated: in the Christmas trees in space the facets located for the third component already have value 5 (christmas_tree.py:102), so they are passed twice; C213_extended_partial: the facets found for each value are right nevertheless. C213_circles_violated: a facet with the closest point of the lower disc as a vertex is on no contact surface (x[1] < 0.1 is strict, the disc reaches 0.1), in exact arithmetic. locate_entities_boundary, argsort, meshtags and find are library functions taken by their contract."
  },
  {
   "property": "C214",
   "status": "proved",
   "theorems": [
    "Verif.Props.TreePairs.C214_pairs",
    "Verif.Props.TreePairs.C214_sorted",
    "Verif.Props.TreePairs.C214_tags"
   ],
   "note": "C214_pairs, C214_sorted, C214_tags. Facets on a process are those of its marker."
  },
  {
   "property": "C215",
   "status": "proved",
   "theorems": [
    "Verif.DetectionModes.C215_agree",
    "Verif.DetectionModes.C215_nearer"
   ],
   "note": "C215_agree, C215_nearer. Cells are affine; the GJK distance and the closest entity search of DOLFINx are used by contract, as in C93."
  },
  {
   "property": "C216",
   "status": "proved",
   "theorems": [
    "Verif.Comparison.C216_norms",
    "Verif.Comparison.C216_accepts",
    "Verif.Comparison.C216_transitive"
   ],
   "note": "C216_norms, C216_accepts, C216_transitive. Timings and output between the loop and the assertions are left out; with no level at all (negative --refinements) the demo ends with IndexError."
  },
  {
   "property": "C217",
   "status": "proved",
   "theorems": [
    "Verif.ContactProblem.C217_gap"
   ],
   "note": "C217_gap."
  },
  {
   "property": "C218",
   "status": "proved",
   "theorems": [
    "Verif.Rates.C218_levels",
    "Verif.Rates.C218_none",
    "Verif.Rates.C218_order",
    "Verif.Rates.C218_rate",
    "Verif.Rates.C218_degenerate"
   ],
   "note": "C218_levels, C218_none, C218_order, C218_rate. The solution of a level is a parameter of the model; its L2 error is computed as in C216. Mesh sizes and logarithms are real numbers."
  },
  {
   "property": "C219",
   "status": "proved",
   "theorems": [
    "Verif.ContactProblem.C219_phases",
    "Verif.ContactProblem.C219_prescribed",
    "Verif.ContactProblem.C219_ended",
    "Verif.ContactProblem.C219_cylinders"
   ],
   "note": "`C219_phases` covers any sequence of calls of generate_contact_data and load steps, `C219_prescribed` the sum of prescribed increments, `C219_cylinders` the schedule of demo_friction_cylinders.py. The traction schedule of the force driven demo is contained in the forms of the load steps, which are arbitrary."
  },
  {
   "property": "C220",
   "status": "proved",
   "theorems": [
    "Verif.ContactProblem.C220_values",
    "Verif.ContactProblem.C220_strong",
    "Verif.ContactProblem.C220_weak"
   ],
   "note": "`C220_values` compares what the program sets in both modes, `C220_strong` and `C220_weak` are about whole computations. That they end without an exception is a hypothesis: Newton's method need not converge; then the program raises, since error_on_nonconvergence is set."
  },
  {
   "property": "C221",
   "status": "proved",
   "theorems": [
    "Verif.ContactProblem.C221_loads",
    "Verif.ContactProblem.C221_pressure_unused"
   ],
   "note": "`C221_loads` is about the whole program. `C221_pressure_unused` says that the traction the program still integrates in the second phase has no influence, since every dof it acts on vertically is prescribed."
  },
  {
   "property": "C222",
   "status": "proved",
   "theorems": [
    "Verif.Hertz.C222_force",
    "Verif.Hertz.C222_traction"
   ],
   "note": "`C222_force` holds for both problems and dimensions; `C222_traction` compares with the reference of C209. That the bulk of a rigidly moved body does no work and that no vertical dof of the upper body is prescribed are hypotheses (`FreeToSink`), shown for an example in which the bodies touch."
  },
  {
   "property": "C223",
   "status": "proved",
   "theorems": [
    "Verif.ContactProblem.C223_forces"
   ],
   "note": "That moving the upper cylinder strains nothing and that symmetry holds horizontal dofs only are hypotheses (`UpperBody`), shown for an example in which the bodies touch, and stick in the second phase. About the vertical force in the second phase nothing is claimed: see C221."
  },
  {
   "property": "C224",
   "status": "proved",
   "theorems": [
    "Verif.ContactProblem.C224_limit",
    "Verif.ContactProblem.C224_frictionless"
   ],
   "note": "Coulomb friction or none, gap normals perpendicular to the interface at linked points (`FlatContact`), shown for a block pressed with 3/2 and pushed with 1 at friction coefficient 1."
  },
  {
   "property": "C225",
   "status": "partial",
   "theorems": [
    "Verif.ContactProblem.C225_limit_partial",
    "Verif.ContactProblem.C225_apart_violated"
   ],
   "note": "Proved with the linked points as area (the mean of both surfaces). Violated as stated: the kernel adds the friction term at every linked point, also where the surfaces are apart. `C225_apart_violated`: a body more than 2 away from the other one is held by friction against a load of 1, and the load step is reported as converged."
  },
  {
   "property": "C226",
   "status": "proved",
   "theorems": [
    "Verif.ContactProblem.C226_sliding",
    "Verif.ContactProblem.C226_tresca"
   ],
   "note": "Sliding is what the kernel projects: slip minus scaled tangential traction exceeds the bound (`SlidesAlong`). Shown for a block pressed and pushed with 3/2 at friction coefficient 1. `C226_tresca`: Tresca friction, shown for a block pushed with 2."
  }
 ]
}
