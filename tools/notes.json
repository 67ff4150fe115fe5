{
 "C03": {
  "note": "Derivative proved for radius 0 or >= 1e-14, block sizes 2 and 3; for radii strictly between 0 and the hard coded 1e-14 the code returns 0 (negation proved)."
 },
 "C08": {
  "note": "Facets: full. Cells: wrapper uses upper_bound(size_local), counting ghost cell size_local as local (negation proved); partial theorem when that cell is absent."
 },
 "C09": {
  "note": "Backward scan stops at idx > 0, so the leftmost point is never found backwards (negation proved on a concrete cloud and for every cloud); exact content, soundness and symmetry otherwise."
 },
 "C15": {
  "note": "cell_to_dests[c]= overwrites: a cell with two marked facets only keeps the destinations of the last one (negation proved for every such marker set); full statement proved when no cell has two marked facets."
 },
 "C60": {
  "note": "Proved except for convergence reported at iteration 0, where initial_residual is left over from an earlier solve (negation: same problem, options and guess, different verdict)."
 },
 "C62": {
  "note": "Fresh solver at an exact root always runs max_it iterations and reports non-convergence (proved for all problems); holds with the residual criterion once an earlier solve set initial_residual."
 },
 "C63": {
  "note": "Function arguments: once. PETSc.Vec arguments: the AttributeError handler runs the whole solve again (proved)."
 },
 "C64": {
  "note": "Options are stored; the user's relaxation parameter never influences a solve (proved for all problems)."
 },
 "C73": {
  "note": "AttributeError on rank 0 and on no other rank when set_newton_options was never called (proved for all problems)."
 },
 "C74": {
  "note": "Reads past the contact map whenever the surface has a ghost facet (C74_max_links_ghost_violated); without ghost facets it returns the largest number of distinct linked cells (C74_no_ghosts_partial)."
 },
 "C31": {
  "note": "Proved for facets whose linked points come first (all fully linked or fully unlinked facets). On every facet with an unlinked point before a linked one the code reads the basis row of the filtered index: negation proved for all such contact maps."
 },
 "C32": {
  "note": "As C31: the code writes to the filtered index; negation proved for all contact maps with an unlinked point before a linked one."
 },
 "C20": {
  "note": "Status codes and the hit property proved for triangles in the plane and solids in space. For surfaces in space (tdim 2, gdim 3) the least squares step can stop off the ray: status 1 although the ray misses the facet (negation proved)."
 },
 "C23": {
  "note": "Exact acceptance test proved; it compares the squared distance with the unsquared radius, so the radius is respected for radii >= 1 (or unlimited) and violated for every radius in (0,1) (negation proved); points linked by the closest point fallback skip both tests (negation proved)."
 },
 "C80": {
  "note": "tdim 2/gdim 2 and tdim 3/gdim 3; for tdim 2/gdim 3 see C20_surface_violated. Parallel rays: determinant below the tolerance gives -2, see C20_status."
 },
 "C81": {
  "note": "Zero on the first generation only; after a generation with a friction coefficient the old one is kept (negation proved)."
 },
 "C82": {
  "note": "Raises on every object whose data were generated: the binding takes one-dimensional arrays (negation proved for every history)."
 },
 "C83": {
  "note": "The rows keep their content (partial theorem), but kernels and friction law are already replaced when the error is raised (negation proved)."
 },
 "C86": {
  "note": "Proved when updates are for the problem data were last generated for (C86_partial, C39_layout). Updating before generating writes outside the vectors for every pair with a facet; a thermo-elastic update of elastic data writes outside; an elastic update of thermo-elastic data overwrites test function gradients (all proved)."
 },
 "C87": {
  "note": "Proved when the solution is among the arguments. Without it the rows keep old content at the place of the solution (negation proved)."
 },
 "C88": {
  "note": "Proved for missing material coefficients and for updates; a thermo-elastic generation with u but without T raises after replacing the data (negation proved)."
 },
 "C69": {
  "note": "Replacement of the edge proved for every domain with adjacent corners (both orientations, every rotation). Raising is proved for domains not listed from corner 5; for those listed from corner 5 the property is violated (split_box.py:81 tests num_pts - 1 instead of i0 == num_pts - 1), C69_not_adjacent_violated."
 },
 "C70": {
  "note": "2D and tetrahedra proved. create_hex_mesh with one segment (the default) tags surface 1 twice (C70_hex_violated); create_unsplit_box_3d leaves one outer surface untagged (C70_unsplit_3d_violated). Gmsh numbering itself is not modelled; C70_tet_interface shows the interface tags are right iff the domain has two corners besides 4 and 5."
 },
 "C72": {
  "note": "Bounds are equivalent to the deformed node lying on or above -plane_loc. The documentation calls plane_loc the location of the plane; with that reading the property fails for every nonzero value, C72_location_violated."
 },
 "C89": {
  "note": "Scalar spaces proved; violated for every block size >= 2 (block indices are used as flat indices)."
 },
 "C90": {
  "note": "Equal whenever every tag has a cell on the process; otherwise the Python function raises (numpy.hstack of an empty list)."
 },
 "C47": {
  "note": "Does not hold for friction bounds between 0 and 1e-14 (C47_violated; the projection treats them as 0, C03). Proved for bounds 0 or at least 1e-14, unit contact normals, dimensions 2 and 3, one active link per point, away from the stick/slip switch."
 },
 "C48": {
  "note": "Does not hold for friction bounds between 0 and 1e-14 (C48_violated). Proved as C47, away from the contact and the stick/slip switch."
 },
 "C49": {
  "note": "Proved except for a constant surface normal on a non-affine cell, where n_phys is read uninitialised (negation proved)."
 },
 "C78": {
  "note": "Deformable contact: full. Rigid surface: except a constant surface normal on a non-affine cell (C49_uninitialised_violated)."
 },
 "C93": {
  "note": "Affine cells; compute_closest_entity and compute_distance_gjk by their contracts (nearest facet of the list, shortest vector to the hull); libraries meeting the contracts are proved to exist for every mesh. Nonaffine cells go through the library pull-back and are not covered.",
  "status": "proved"
 },
 "C94": {
  "note": "create_mesh by its contract: input_global_indices gives the original vertex of every node of the new mesh.",
  "status": "proved"
 },
 "C95": {
  "note": "Violated if geometry nodes and vertices are numbered differently on a process: coordinates of node i are used for vertex i. Proved for equal numberings; the cells passed on are proved in general."
 },
 "C96": {
  "note": "Nothing superfluous is sent (proved). Completeness is violated for the leftmost facet and, by C15, for cells with two tagged facets; proved for the other ones."
 },
 "C97": {
  "note": "Pointwise equivalence and consistency of the residual kernels, on top of C78. Rigid kernels: packed normals, or constant normal on affine cells.",
  "status": "proved"
 },
 "C98": {
  "note": "Slip for Coulomb as the kernels measure it: tangential jump corrected by the remaining gap along the previous normal.",
  "status": "proved"
 },
 "C99": {
  "note": "Tresca for unit contact normals (the matrix kernel lacks a weight factor that only matters otherwise).",
  "status": "proved"
 },
 "C100": {
  "note": "Matrices as assembled: blocks between two different linked cells are not stored, so one linked cell per point is needed.",
  "status": "proved"
 },
 "C101": {
  "note": "Forms as quadrature sums; UFL operators by their definition.",
  "status": "proved"
 },
 "C102": {
  "note": "Forms as quadrature sums.",
  "status": "proved"
 },
 "C103": {
  "note": "",
  "status": "proved"
 },
 "C104": {
  "note": "The contact kernel equals the contact form for equal cell size (affine cells). The Dirichlet penalty is gamma E / h^2 in nitsche_ufl and gamma E / h in nitsche_custom (C104_dirichlet_violated), and nitsche_ufl takes the cell diameter for h where nitsche_custom takes the circumradius.",
  "status": "partial"
 },
 "C105": {
  "note": "Holds for nitsche_custom. nitsche_rigid_surface_custom packs before the ghost update, so ghosts carry the previous iterate (violated); partial: dofs owned by the process.",
  "status": "partial"
 },
 "C106": {
  "note": "Neither custom driver adds ghost contributions to the owner (no reverse ghost update); exact for dofs touched by cells of the owner only.",
  "status": "partial"
 },
 "C107": {
  "note": "apply_lifting, set_bc and assemble_matrix by contract.",
  "status": "proved"
 },
 "C108": {
  "note": "Violated: write passes two-dimensional arrays where the binding of compute_contact_forces takes one-dimensional ones, so every call raises (C108_violated; numpy arrays do not convert between ranks). Partial: with flat arrays the stored values are right for pairs with facets on the process and no ghost facets; C108_split and C108_facets are about the split and the facets of the pairs. The projection to the facet space and the file format are not modelled.",
  "status": "partial"
 },
 "C109": {
  "note": "write resets the geometry of the contact submesh to the reference configuration and leaves it so: contact data generated next has the gap of undeformed bodies unless the geometry is updated first (C109_violated). Partial: a call that updates the geometry first (update_contact_detection) is not affected.",
  "status": "partial"
 },
 "C110": {
  "note": "The first argument indexes surfaces, not pairs, although wrappers and plot_gap say pairs (C110_violated). Partial: with the surface index the points are right.",
  "status": "partial"
 },
 "C111": {
  "note": "Geometry array by node and component.",
  "status": "proved"
 },
 "C112": {
  "note": "For contact maps as create_distance_map finds them: all points of a facet linked, or none (C24). The one call that could produce others, crop_invalid_points, raises (C82).",
  "status": "proved"
 },
 "C113": {
  "note": "Partial: the friction bound is zero or at least 1e-14 (C47, C48); between them the claim is false (C131_violated). C113_displacement_partial states the conditions on the displacement with the specification of the form; C113_jacobian_partial states them on the packed coefficients. Packing, kernels and assembly are put together in Model/System.lean.",
  "status": "partial"
 },
 "C114": {
  "note": "Contact maps as in C112.",
  "status": "proved"
 },
 "C115": {
  "note": "Contact maps as in C112; the basis functions sum to one.",
  "status": "proved"
 },
 "C117": {
  "note": "Does not hold if a point that is not tied comes before one that is (C117_violated): the test functions of the linked cell are taken at wrong points (C31, C32). Proved when on every facet the tied points come first.",
  "status": "partial"
 },
 "C118": {
  "note": "Does not hold if a point that is not tied comes before one that is (C118_violated); proved when the tied points come first.",
  "status": "partial"
 },
 "C119": {
  "note": "Facet weights and, for heat conduction, the conductivity are not negative (positive semidefinite part only).",
  "status": "proved"
 },
 "C120": {
  "note": "The basis functions sum to one.",
  "status": "proved"
 },
 "C121": {
  "note": "Does not hold if a point that is not tied comes before one that is and the facet is tied to more than one cell (C121_violated). Proved when the tied points come first.",
  "status": "partial"
 },
 "C122": {
  "note": "Mesh sizes positive, quadrature weights and friction bound not negative.",
  "status": "proved"
 },
 "C123": {
  "note": "PETSc by contract (Model/Krylov.lean); options other than matptap_via, pc_mg_levels, pc_mg_cycles.",
  "status": "proved"
 },
 "C124": {
  "note": "Every option of an earlier call that is not given again is kept (C124_violated, for all dictionaries). Partial: all options ever given are given again.",
  "status": "partial"
 },
 "C125": {
  "note": "All solvers share one prefix, so options given to one take effect in another at its next call (C125_violated, for all dictionaries). Partial: options named in the last call on the solver.",
  "status": "partial"
 },
 "C126": {
  "note": "pc_mg_cycles without pc_mg_levels is ignored (C126_violated). Partial: both given; levels except for gamg.",
  "status": "partial"
 },
 "C127": {
  "note": "All dimensions and radii.",
  "status": "proved"
 },
 "C128": {
  "note": "Differ for radii below 1e-14 (C128_violated: identity against zero). Partial: radius at least 1e-14, vector not on the sphere.",
  "status": "partial"
 },
 "C129": {
  "note": "Raises ValueError on every process that does not own all rows (C129_violated: global shape with local row pointers). Partial: one process.",
  "status": "partial"
 },
 "C130": {
  "note": "What the processes know about their facets (ghosted contact cells, gaps, normals) is a hypothesis (PartOf); C27-C30 and C53 are about establishing it.",
  "status": "proved"
 },
 "C131": {
  "note": "C131_matrix gives the bilinear form of the matrix in all cases, also at the switches. Violated for friction bounds in (0, 1e-14) (C131_violated: a sticking point gets no friction stiffness). Partial: bound zero or at least 1e-14.",
  "status": "partial"
 },
 "C132": {
  "note": "As C130. With friction, unit contact normals. Also at the contact and stick/slip switches.",
  "status": "proved"
 },
 "C133": {
  "note": "That the search finds the same points in the rotated mesh is assumed: its results are rotated. What is used of the library: the (pseudo-)inverse of a Jacobian that has a left inverse, the surface factor depends on JᵀJ only, derivatives of the coordinate basis sum to zero. Matrix: with friction, unit contact normals.",
  "status": "proved"
 },
 "C134": {
  "note": "Sliding points are excluded: there the projection onto the friction ball is not affine. A point whose friction bound vanishes at both displacements is allowed.",
  "status": "proved"
 },
 "C135": {
  "note": "The energy is spelled out in Spec/ContactEnergy.lean. Coulomb friction has no energy and is excluded.",
  "status": "proved"
 },
 "C136": {
  "note": "The contact points are those of the last detection: a new detection may jump.",
  "status": "proved"
 },
 "C137": {
  "note": "",
  "status": "proved"
 },
 "C138": {
  "note": "That the gap of a material contact point changes by the relative displacement is a hypothesis (SameContact); it holds if the geometry and the displacement have the same degree. With friction the slip is measured from the last detection, so sliding in the step is excluded; with Coulomb friction the normals of the previous detection must be the current ones.",
  "status": "proved"
 },
 "C139": {
  "note": "Bulk forms, their assembly, and the Krylov solver are parameters; apply_lifting and set_bc are modelled by their contract in dolfinx. One process. With the incremental criterion convergence says nothing about the residual (C60).",
  "status": "proved"
 },
 "C140": {
  "note": "The loads of a step are data of the step. That update_submesh_geometry places the mesh at the given displacement, whatever it was before, is C29.",
  "status": "proved"
 },
 "C141": {
  "note": "For a prescribed dof at the contact surface the Jacobian of the demos is wrong (assemble_matrix(a_mat, J, bcs) inserts one on the diagonal but leaves the contact entries in the row), so these are excluded. With friction: unit normals, sticking points or zero bound (SameStatus), because the law is nonlinear for sliding points.",
  "status": "proved"
 },
 "C142": {
  "note": "PETSc is modelled by its contract: adding a block outside the pattern of a preallocated matrix is an error. All demos that detect contact again create a new matrix. One process (rows of ghost dofs are exchanged by SparsityPattern.finalize, a library function).",
  "status": "proved"
 },
 "C143": {
  "note": "Existence by the contraction principle (the residual is strongly monotone and Lipschitz continuous). For Coulomb friction see C204. The bodies are linearly elastic: their stiffness matrix is a parameter.",
  "status": "proved"
 },
 "C144": {
  "note": "Unit normals are assumed for Tresca friction, as in C131. For Coulomb friction see C204_solvable.",
  "status": "proved"
 },
 "C145": {
  "note": "The residual is piecewise affine without friction; with friction it is not (slip), so the statement is restricted to no friction.",
  "status": "proved"
 },
 "C146": {
  "note": "For meshes on which the tied points come first on every facet; otherwise the matrix is wrong (C118_violated).",
  "status": "partial"
 },
 "C147": {
  "note": "Contact part without restriction; for ties the tied points come first on every facet (otherwise C118_violated).",
  "status": "partial"
 },
 "C148": {
  "note": "Fails in general: the constructor crops with the largest cell size among the facets of the same process, so fewer points can be tied on more processes (C148_violated). Holds when every process ties the points of its facets a single process ties, e.g. when no gap is longer than the largest cell at the facets of the process (C148_tied); and for meshes on which tied points come first on every facet (C118_violated).",
  "status": "partial"
 },
 "C150": {
  "note": "Fails in general: the position of the facet among the tagged facets is used as row of the contact map, whose rows are sorted by cells (C150_violated, C150_swapped). Holds when the cells of the tagged facets are in ascending order.",
  "status": "partial"
 },
 "C151": {
  "note": "Closest points are assumed to be the same in both coordinate systems. Proved when on every facet the untied points come last, because of C117_violated.",
  "status": "partial"
 },
 "C152": {
  "note": "That the near candidate facets are on the process is a hypothesis: C96 says when create_contact_mesh provides them (and C96_complete_violated when it does not).",
  "status": "proved"
 },
 "C153": {
  "note": "The vector is unit independent for all laws. The matrix is proved for friction bounds that are zero or at least 1e-14 in both systems of units: d_ball_projection compares the bound, a length, with the fixed number 1e-14 (C153_matrix_violated).",
  "status": "partial"
 },
 "C154": {
  "note": "Proved when the same gaps are at most 1e-7 in both units and, as in C117, the points of a facet that are not tied come last. Contact::crop_invalid_points compares the gap with the absolute number 1e-7: a closest point at a small distance along the surface is tied in one unit and dropped in another (C154_violated).",
  "status": "partial"
 },
 "C155": {
  "note": "Termination is proved from uniform continuity of the curve; the loops are modelled as relations, so the theorem states that a result exists, is the only one and is a fine sample.",
  "status": "proved"
 },
 "C156": {
  "note": "Proved for the inner body and, in two dimensions, for the surrounding body. In three dimensions two lateral surfaces of the surrounding body get no tag: the slices of box leave out positions len(xh) and len(xh) + 2 len(x) (C156_outer_3D_violated, which also shows that all others get exactly one).",
  "status": "partial"
 },
 "C157": {
  "note": "Surfaces are the convex hulls of their boundary curves, arcs run the short way (Gmsh by contract). The two cylinders of create_cylinder_cylinder_mesh, which are rotated by Gmsh, are left out.",
  "status": "proved"
 },
 "C158": {
  "note": "create_circle_circle_mesh compares the rank with zero and ignores its argument (C158_violated); the other generators are as claimed (C158_partial).",
  "status": "partial"
 },
 "C159": {
  "note": "For friction the matrix theorem assumes unit contact normals, as C131 does.",
  "status": "proved"
 },
 "C160": {
  "note": "For friction the matrix theorem assumes unit contact normals, as C131 does.",
  "status": "proved"
 },
 "C161": {
  "note": "Points of the sides by the contract of np.linspace.",
  "status": "proved"
 },
 "C162": {
  "note": "The input of create_mesh is the same (C162_input). The markers are the same if some process has a marked facet, every process has a marked cell and gets cells and facets of the new mesh, and vertex numbers are below 2^31; otherwise the earlier version raises or loses markers (C162_violated).",
  "status": "partial"
 },
 "C163": {
  "note": "vertical_line ignores the abscissa of x1, so that its interface ends at x1 only if x0 and x1 have the same abscissa (C163_vertical_violated, C163_vertical_partial). Areas are signed areas by the shoelace formula.",
  "status": "partial"
 },
 "C164": {
  "note": "The hexahedral bodies are extruded by Gmsh and have no loops of their own.",
  "status": "proved"
 },
 "C165": {
  "note": "",
  "status": "proved"
 },
 "C166": {
  "note": "C166_source says what is computed. It is implicit Euler if the tied points come first on every facet (C117), no temperature is prescribed at a cell with a tied point, and the initial temperature is zero or is not given to generate_kernel_data or the vector is not added (as in the three demos). Otherwise prescribed values are not attained (C166_prescribed_violated: rows of the tie are kept in rows of prescribed dofs) or the bodies keep their temperatures (C166_start_violated: the vector belongs to the initial temperature for ever). The system is solved exactly if it is solvable.",
  "status": "partial"
 },
 "C167": {
  "note": "Same hypotheses as C166; conservation and constant temperatures hold with every initial temperature.",
  "status": "partial"
 },
 "C168": {
  "note": "Same hypotheses as C166, also for the dofs of the displacement; linear systems are solved exactly.",
  "status": "partial"
 },
 "C169": {
  "note": "C169_moment gives the moment for all laws: minus the sum of gap x force. It is zero without friction if gap vectors are along the contact normal (ray tracing; closest points inside a facet by C169_closest), and with friction if there is no gap. Otherwise it is not (C169_friction_violated, C169_normal_violated). The hypothesis on the nodes says that the gap is contact point minus quadrature point; for theta different from 0 the nodes are those of the mesh on which gradients are computed.",
  "status": "partial"
 },
 "C170": {
  "note": "Translations: full. Rotations: without gap, or without friction and with gap along the normal; violated with friction and a gap (C170_rotation_violated).",
  "status": "partial"
 },
 "C171": {
  "note": "C171_elasticity_partial and C171_thermo_partial give the moment: minus the sum of gap x force. It is zero if tied surfaces have no gap, otherwise not (C171_gap_violated; gaps up to the size of a cell are accepted). Inherits from C117 that tied points come first on every facet. Translations for all gaps: C120, C121.",
  "status": "partial"
 },
 "C172": {
  "note": "The linear solver of the thermal problem is taken by contract (it solves invertible systems), the form of a time step is assumed positive (it is for tau, kdt >= 0 with a positive mass matrix).",
  "status": "proved"
 },
 "C173": {
  "note": "The demos contain no term for heat flow across contact surfaces.",
  "status": "proved"
 },
 "C174": {
  "note": "C174_free_partial: no force where the total traction is zero if the thermal stress is zero, or for theta = 0 if it is not tensile. The contact conditions use the elastic stress of the displacement without the thermal stress: with the demos' theta = 1 heated bodies two apart get forces (C174_heated_violated), and cooled bodies get contact forces for theta = 0 too (C174_cooled_violated).",
  "status": "partial"
 },
 "C175": {
  "note": "C175_form: the form is the balance minus a pressure on the held facets that is the thermal stress, because weak_dirichlet is given the elastic stress sigma_u. It is the balance where the temperature is zero on held facets (C175_cold_partial), not otherwise (C175_violated: a square held on all sides and heated).",
  "status": "partial"
 },
 "C176": {
  "note": "Fails on cells that are not affine: the kernel reads an uninitialised facet normal if the surface normal is constant, which is what this driver asks for, so that the residual depends on uninitialised memory (C176_uninitialised_violated). Proved for affine cells.",
  "status": "partial"
 },
 "C177": {
  "note": "The cell size, gaps and normals are data of the theorem (C03, C31, C70 say how they are computed).",
  "status": "proved"
 },
 "C178": {
  "note": "Missing: for the plane, cells that are not affine (C176); the incremental criterion, which says nothing on the residual (C60). Concrete runs with contact for both drivers are in Props/OneSidedStep.",
  "status": "partial"
 },
 "C179": {
  "note": "C179_resultant, C179_signorini and C179_consistent hold for every obstacle; C179_plane_partial is about the driver and limited to affine cells (C176).",
  "status": "partial"
 },
 "C180": {
  "note": "C180_surface for cells of any kind; the theorems about the plane are limited to affine cells (C176).",
  "status": "partial"
 },
 "C181": {
  "note": "C181_surface for cells of any kind; the theorems about the plane are limited to affine cells (C176).",
  "status": "partial"
 },
 "C182": {
  "note": "C182_surface for cells of any kind; C182_plane_partial is limited to affine cells (C176).",
  "status": "partial"
 },
 "C183": {
  "note": "The theorems on the rigid surface are for cells of any kind; those on the plane are limited to affine cells (C176).",
  "status": "partial"
 },
 "C184": {
  "note": "Converse of C135_minimiser, with prescribed values. Coulomb friction has no energy.",
  "status": "proved"
 },
 "C185": {
  "note": "Violated if the prescribed displacement pushes its nodes through the plane: the bounds win over the Dirichlet condition at its nodes, while the equations of the other nodes go on with the prescribed value, so that the returned displacement is not in equilibrium either (C185_violated). The partial theorems assume that it does not.",
  "status": "partial"
 },
 "C186": {
  "note": "The first theorem compares the returned displacement with the prescribed values put in; for the returned one itself the prescribed displacement must not push its nodes through the plane, see C185_violated.",
  "status": "partial"
 },
 "C187": {
  "note": "Existence by compactness of the box of the bounds; the solver of C187_exists is exact for all problems it reports as solved.",
  "status": "proved"
 },
 "C188": {
  "note": "Violated: the value is not used, all nodes are kept above the plane (C188_violated). C188_partial: it holds if only nodes of the contact surface reach the plane.",
  "status": "partial"
 },
 "C189": {
  "note": "Without friction; exact linear solver for the first system; residual criterion and positive tolerances. The existence of a solution is C143.",
  "status": "proved"
 },
 "C190": {
  "note": "dolfinx NonlinearProblem and NewtonSolver are library contracts (Model/UflDriver); linear solver exact.",
  "status": "proved"
 },
 "C191": {
  "note": "Stiff is the coercivity condition of Nitsche's method; no claim that the Newton solver converges.",
  "status": "proved"
 },
 "C192": {
  "note": "Incremental criterion (the default); exact linear solver.",
  "status": "proved"
 },
 "C193": {
  "note": "Needs tied points first on every facet (C118), no prescribed dof in a cell at the tie (C193_prescribed_violated), and lifting with alpha = 1.0 or zero prescribed values: the Python demos lift with alpha = -1.0, which gives the free dofs the solution for the opposite boundary values (C193_opposite, C193_lifting_violated).",
  "status": "partial"
 },
 "C194": {
  "note": "Same restrictions on the tie as C193; relaxation 1 (default).",
  "status": "partial"
 },
 "C195": {
  "note": "Same restrictions as C193 and C194.",
  "status": "partial"
 },
 "C196": {
  "note": "Partial derivatives as HasDerivAt, not totalised.",
  "status": "proved"
 },
 "C197": {
  "note": "Equilibrium, Sound and Stiff as in C190-C192. C197_equilibrium_* characterises, C197_least_* bounds the distance of the result, C197_exact_rigid gives the exact result for the default options.",
  "status": "proved"
 },
 "C198": {
  "note": "Residual criterion. C198_total and C198_opposite use that shape functions of cell and opposite cell sum to one (SumsToOne).",
  "status": "proved"
 },
 "C199": {
  "note": "Every facet owned by one process, which knows the cells in contact with it (ghosts, C29 and C96); library reductions (scatter, ghostUpdate, Mat.assemble, norms) by contract; Krylov solver and DOLFINx forms are the same functions of the global data. Friction: two or three dimensions, unit normals.",
  "status": "proved"
 },
 "C200": {
  "note": "Violated on every process but zero in every parallel run (C200_offsets_violated): line 399 reads nbr_offsets[1..size], but the array has one entry there; MPI_Scatter ignores the values read, so the result is unaffected if the read does not trap. Process zero and the unpacking: C200_root_partial. Midpoints: C200_midpoints.",
  "status": "partial"
 },
 "C201": {
  "note": "Refinement: C201_setters and C201_newton reduce the solver object with callbacks to Model/Newton.lean, the subject of C11-C17. Missing callbacks: C201_missing.",
  "status": "proved"
 },
 "C202": {
  "note": "Violated for AttributeErrors: swallowed if raised by the preconditioner callback (C202_preconditioner_violated: solve goes on with the matrix of set_preconditioner as it is), and if raised by the coefficients or the residual within an iteration of a solve for a PETSc.Vec, which starts over (C202_restart_violated). All other exceptions reach the caller unchanged (C202_partial). For a Function any exception of a callback other than an AttributeError of the preconditioner leads to an exception (C202_function_partial).",
  "status": "partial"
 },
 "C203": {
  "note": "For solves that return; the file of a solve that raises holds the states up to the exception (not stated).",
  "status": "proved"
 },
 "C204": {
  "note": "Completes C143 and C144 (no friction, Tresca friction). C204_solvable: the linear system of every Newton step has exactly one solution, under the same condition and unit normals. C204_wellposed and C204_stable under the condition CoulombCoercive, C204_small derives the condition for small friction coefficients, C204_zero for none. A turned normal gives one more term in the condition, because the kernels add a multiple of the old normal to the tangential argument.",
  "status": "proved"
 },
 "C205": {
  "note": "C205_tresca: no friction and Tresca friction; friction bounds are zero or at least 1e-14, the threshold below which the kernels drop the derivative (C03). C205_coulomb: bounds greater than 1e-14 at closed points. At the switch from stick to slip the kernels combine the slope of slip with a zero derivative in the radius, so the condition is needed for Coulomb friction. Generalises C145 (one step, no friction).",
  "status": "proved"
 },
 "C206": {
  "note": "C206_tresca (frictionless, Tresca) and C206_coulomb. Joins the loop of the Newton solver with the callbacks of the driver (C140, C199) and C205. The residual is bounded below and above by the error, so the residual criterion and the acceptance test of the line search are decided near the solution. Linear bulk; floating point not modelled.",
  "status": "proved"
 },
 "C207": {
  "note": "C207_coeffs_partial: after data for elasticity or thermo-elasticity were generated. C207_violated: before that, and in all histories with calls for Poisson problems only, the binding divides the size of an empty vector by a stride of zero (integer division by zero, the process ends); other bindings test for a zero stride. The packed data of Poisson problems cannot be read at all.",
  "status": "partial"
 },
 "C208": {
  "note": "C208_forceDriven, C208_slip (beyond the limit of friction), C208_modulus; C208_cylinders_partial for demo_friction_cylinders.py at points that are not left of the contact zone. C208_cylinders_violated: left of the contact zone that demo writes NaN at every point, in every step, since the condition is abs(x < a) and not abs(x) < a. That the distributions solve the equations of the elastic half plane is not proved; the specification is the classical closed form.",
  "status": "partial"
 },
 "C209": {
  "note": "C209_twoD_partial and C209_traction_partial. C209_threeD_violated: in three dimensions with a body force the mesh is half a ball and the density that of a whole ball, so half of the load is applied.",
  "status": "partial"
 },
 "C210": {
  "note": "C210_same for a beam with positive energy, C210_clamped: the energy is positive without free motions, for the strong condition and for theta = -1. The linear solver is exact; LinearProblem, NonlinearProblem and NewtonSolver are library code modelled by their documentation.",
  "status": "proved"
 },
 "C211": {
  "note": "C211_contact, C211_ratio. Quadrature weights and facet normals are library data; the normal is specified through the physical groups of the mesh generator.",
  "status": "proved"
 },
 "C212": {
  "note": "C212_boxes_partial, C212_disc_partial, C212_halfdisc_partial, C212_cylinders_partial, C212_wedges_partial: the values used with each generator. C212_rigid_violated: in two dimensions new_demo_nitsche_rigid_surface_ufl.py passes values that do not belong to create_circle_plane_mesh, for every radius: no facet is driven, the contact surface is the far side of the box, and the rigid surface is on the upper half of the disc. How gmsh numbers physical groups without a tag, and the order of getBoundary, are library rules taken as given (DESIGN.md).",
  "status": "partial"
 },
 "C213": {
  "note": "C213_find, C213_valid, C213_demos, C213_beam, C213_refine, C213_circles, C213_boxes hold. C213_tree_violated: in the Christmas trees in space the facets located for the third component already have value 5 (christmas_tree.py:102), so they are passed twice; C213_extended_partial: the facets found for each value are right nevertheless. C213_circles_violated: a facet with the closest point of the lower disc as a vertex is on no contact surface (x[1] < 0.1 is strict, the disc reaches 0.1), in exact arithmetic. locate_entities_boundary, argsort, meshtags and find are library functions taken by their contract.",
  "status": "partial"
 },
 "C214": {
  "note": "C214_pairs, C214_sorted, C214_tags. Facets on a process are those of its marker.",
  "status": "proved"
 },
 "C215": {
  "note": "C215_agree, C215_nearer. Cells are affine; the GJK distance and the closest entity search of DOLFINx are used by contract, as in C93.",
  "status": "proved"
 },
 "C216": {
  "note": "C216_norms, C216_accepts, C216_transitive. Timings and output between the loop and the assertions are left out; with no level at all (negative --refinements) the demo ends with IndexError.",
  "status": "proved"
 },
 "C217": {
  "note": "C217_gap.",
  "status": "proved"
 },
 "C218": {
  "note": "C218_levels, C218_none, C218_order, C218_rate. The solution of a level is a parameter of the model; its L2 error is computed as in C216. Mesh sizes and logarithms are real numbers.",
  "status": "proved"
 },
 "C219": {
  "note": "`C219_phases` covers any sequence of calls of generate_contact_data and load steps, `C219_prescribed` the sum of prescribed increments, `C219_cylinders` the schedule of demo_friction_cylinders.py. The traction schedule of the force driven demo is contained in the forms of the load steps, which are arbitrary.",
  "status": "proved"
 },
 "C220": {
  "note": "`C220_values` compares what the program sets in both modes, `C220_strong` and `C220_weak` are about whole computations. That they end without an exception is a hypothesis: Newton's method need not converge; then the program raises, since error_on_nonconvergence is set.",
  "status": "proved"
 },
 "C221": {
  "note": "`C221_loads` is about the whole program. `C221_pressure_unused` says that the traction the program still integrates in the second phase has no influence, since every dof it acts on vertically is prescribed.",
  "status": "proved"
 },
 "C222": {
  "note": "`C222_force` holds for both problems and dimensions; `C222_traction` compares with the reference of C209. That the bulk of a rigidly moved body does no work and that no vertical dof of the upper body is prescribed are hypotheses (`FreeToSink`), shown for an example in which the bodies touch.",
  "status": "proved"
 },
 "C223": {
  "note": "That moving the upper cylinder strains nothing and that symmetry holds horizontal dofs only are hypotheses (`UpperBody`), shown for an example in which the bodies touch, and stick in the second phase. About the vertical force in the second phase nothing is claimed: see C221.",
  "status": "proved"
 },
 "C224": {
  "note": "Coulomb friction or none, gap normals perpendicular to the interface at linked points (`FlatContact`), shown for a block pressed with 3/2 and pushed with 1 at friction coefficient 1.",
  "status": "proved"
 },
 "C225": {
  "note": "Proved with the linked points as area (the mean of both surfaces). Violated as stated: the kernel adds the friction term at every linked point, also where the surfaces are apart. `C225_apart_violated`: a body more than 2 away from the other one is held by friction against a load of 1, and the load step is reported as converged.",
  "status": "partial"
 },
 "C226": {
  "note": "Sliding is what the kernel projects: slip minus scaled tangential traction exceeds the bound (`SlidesAlong`). Shown for a block pressed and pushed with 3/2 at friction coefficient 1. `C226_tresca`: Tresca friction, shown for a block pushed with 2.",
  "status": "proved"
 }
}