# Formal model of asimov-contact: design

## Method

The C++ (`/repo/cpp`) and Python (`/repo/python`) sources are read as text and
re-written, function by function, as total Lean 4 functions.  Every definition
in `lean/Verif/Model/*.lean` cites the file and lines it models and names its
simplifications.  `lean/Verif/Spec/*.lean` holds small specifications that do not
mention the model.  `lean/Verif/Props/*.lean` holds the property theorems
(`C01_...`), each with an `example` showing that a concrete case meets the
hypotheses.  `lean/Verif/Lemmas/*.lean` holds everything else.

* Exceptions are values (`Except`/`Option`).
* `double` is modelled by the real numbers: rounding, overflow and NaN are not
  modelled.  Integers are unbounded (`Nat`/`Int`): overflow of `int32` is not modelled.
* Flat work arrays are functions `Nat -> R` or lists; loops are `foldl`/recursion
  over index lists in the order of the source.
* Library calls (dolfinx topology, basix tabulation, MPI, PETSc, gmsh) are
  parameters: connectivity as functions, basis values as functions, MPI
  collectives by their meaning on the list of all ranks' inputs.

Where the code breaks the property the user relies on, the negation is proved
with a concrete witness (theorem name `..._false`/`..._violated`) and the strongest true part is
proved under the suffix `_partial`.

## Plan per property

| id | modelled | proof |
|----|----------|-------|
| C01 | R_plus, R_minus, dR_*, Python variants, over the reals | case split at 0; HasDerivAt |
| C02 | ball_projection over three components | convex projection inequality |
| C03 | d_ball_projection, d_alpha_ball_projection | HasDerivAt of x/|x| |
| C04 | lame_parameters | field identities |
| C05 | tangential_proj | bilinear algebra |
| C06 | sort_cells | induction over the sorted permutation |
| C07 | compute_active_entities | permutation + sortedness of stable sort |
| C08 | Python wrapper num_local | counting; off-by-one negation for cells |
| C09 | point_cloud_pairs | loop invariants on the sorted order; negation for leftmost point |
| C10 | find_candidate_facets, find_candidate_surface_segment | filter/sort membership |
| C11 | facet_indices_from_pair, entities_to_geometry_dofs | list algebra |
| C12 | compute_linked_cells | sort+unique lemmas |
| C13 | lex_match | two pointer merge invariant |
| C14 | compute_ghost_cell_destinations on the list of ranks | induction over ranks |
| C15 | cell_to_dests + partitioner | last write wins: negation, partial |
| C16 | copy_to_all | concatenation |
| C17 | create_cell_facet_pairs | offsets lemma |
| C18 | Contact constructor local facet scan | backward scan on sorted list |
| C19 | max_links, link counts | counting |
| C20 | raytracing_cell with abstract arithmetic steps | invariant over the loop |
| C21 | compute_ray | induction over facets |
| C22 | compute_tangents | algebra over the reals |
| C23, C24 | compute_raytracing_map on abstract ray results | per point induction; squared norm negation |
| C25 | NewtonStorage, pull back buffers | offsets arithmetic |
| C26, C27 | SubMesh constructor, get_submesh_tuples | sort+unique, prefix sums |
| C28 | copy_function | writes to a flat array, last write agrees |
| C29 | update_geometry | state machine over histories |
| C30 | pack_gap, pack_gap_plane | flat array writes |
| C31, C32 | pack_test_functions, pack_grad_test_functions | flat array writes; negations |
| C33 | link numbering in all packers/assemblers | strict monotonicity of parent_cells |
| C34 | crop_invalid_points | pointwise |
| C35, C36 | pack_coefficient_quadrature, pack_gradient_quadrature | accumulation lemma |
| C37 | pack_u_contact | accumulation lemma |
| C38, C39 | all offset computations | polynomial identities |
| C40 | coefficient rows as a state machine | induction over histories |
| C41 | required keys | case analysis |
| C42 | QuadratureRule | offsets lemma |
| C43-C45 | assembly loops | scatter sums, induction over facets |
| C46-C49 | kernels on flat coefficient rows | HasDerivAt of the residual, equals matrix entry |
| C50, C51 | mesh tie kernels | linear identities |
| C52, C53 | kernels | partition of unity / zero cases |
| C54 | kernels | fold is a sum |
| C55 | dispatch | case analysis |
| C56, C57 | elasticity.cpp | sums |
| C58 | nullspace construction | algebra |
| C59-C65 | newton_solver.py as a state machine over abstract callbacks | invariants |
| C66-C68 | geometry | algebra, loop invariant |
| C69-C71 | split_box.py | list algebra |
| C72 | SNES bounds | algebra |
| C73 | `NewtonSolver` without options, per rank | run of the state machine, for all problems |
| C74 | `Contact::max_links` on a surface with ghost facets | read past the end of the map |
| C75 | `SubMesh` facet map | prefix sums, disjoint writes |
| C76 | `evaluate_basis_functions` | accumulation lemma |
| C77 | `pack_grad_u_contact` | accumulation lemma |
| C78, C79 | residual kernels against a weak form written from the documentation | loop nest = quadrature sum of the form |
| C80 | `raytracing_cell` on affine facets | residual is affine, one Newton step is exact |
| C81-C85 | `ContactProblem` as a state machine over calls | invariant over histories; witnesses |
| C86-C88 | `MeshTie` as a state machine over calls, flat vectors with sizes | invariant over histories; witnesses |
| C89, C90 | null spaces in Python and C++ | writes to a flat array; equality of functions |
| C91, C92 | pack_nx, pack_ny: submesh cells, Jacobian, push forward of the reference normal | loop invariant, covariant push forward lemma |
| C93 | compute_projection_map, compute_distance_map with closest entity and GJK by contract | convex hull of the facet is the image of reference points; affine pull-back inverts; existence of libraries by compactness |
| C94 | create_contact_mesh: sorted vertex rows, gathering, matching, for all processes | composition of C16 and C13; sorting rows decides equality up to order |
| C95 | input of create_mesh | positions in concatenated blocks |
| C96 | midpoints, gathering, point cloud search, root loop, cell_to_dests, partitioner | composition of C09, C14, C15 |
| C97 | R_plus, R_minus, frictionless and rigid kernels | case split for the pointwise law; C78 for the kernels |
| C98 | ball projection, Tresca and Coulomb kernels | case split on the projection; C78 for the kernels |
| C99 | Jacobian kernels | closed form of the matrix entries |
| C100 | Jacobian kernels | quadratic form as a sum over points; projection derivative between 0 and 1 (Cauchy-Schwarz) |
| C101-C103 | one-sided forms as quadrature sums of integrands | linearity, derivative of the negative part, algebra of the integrands |
| C104 | forms of both drivers, rigid kernel, pack_gap_plane | C78 and C30; the penalties differ |
| C105, C106 | callbacks of the Newton solver on distributed vectors | induction over the iterates |
| C107 | SNES callbacks on distributed vectors | unfolding of lifting, splitting of sums |
| C108, C109 | ContactWriter.write on the state of ContactProblem | induction over the pairs; states reached by histories |
| C110 | table of points by surface, create_q_phys for every pair | induction over the pairs, C30 |
| C111 | project and restore on the geometry array | induction over the pairs |
| C112, C113 | packing functions, kernels, assemblers and ContactProblem put together | invariant of ContactProblem (C38), C31, C35-C37; C43, C45, C46-C48 summed over the facets |
| C114, C115, C116 | as C112 | kernels tested with a virtual displacement, summed over the facets; C99, C100 |
| C117, C118, C121 | MeshTie with packing, kernels and assemblers put together (Model/TieSystem.lean) | rows of the coefficient vector determined by the history (C54), kernels tested with a virtual solution (C79), summed over the facets |
| C119, C120 | as C117 | C50, C51, C100 without the assumption on the order of tied points |
| C122 | as C114 | projections are firmly nonexpansive; C114, sum over points |
| C123, C124, C125, C126 | table of options, objects that read it, any number of solvers (Model/Krylov.lean) | induction over dictionaries and over the sequence of calls |
| C127, C128 | UFL expressions as functions of their values (Model/Helpers.lean) | derivative of square roots and quotients; closed forms of C03 |
| C129 | rows as getValuesCSR returns them | maximum of a list |
| C130 | whole problem and its parts as two instances of System related by PartOf/SameCall (Spec/Partition.lean) | reindexing the sum over points of C114 by the unique owner of each facet |
| C131 | linearised form of a point (Spec/SystemTangent.lean), put together as in C114 | kernel by kernel bilinear identities, then the sums of C114; chain rule for the derivative |
| C132 | as C130 | reindexing the linearised form of C131 by the unique owner of each facet |
| C133 | a system with rotated nodes, normals, gaps and rotated calls; library contract for inverse and surface factor | uniqueness of the pseudo-inverse; every term of the form is a scalar product of rotated vectors; unit vectors pulled back by the rotation |
| C134 | the assembled vector and matrix of `System` at two displacements | form of C114 and tangent of C131; max(0,s) and the ball projection are affine between points of the same status |
| C135 | energy of the linked points; assembled vector of `System` | form of C114; the squared positive part and the friction work are differentiable everywhere; derivative zero at a minimum |
| C136 | assembled vector of `System` as a function of the displacement | form of C114; projection onto a ball continuous in vector and radius |
| C137 | the same history with another law | forms of C114 and C131; the ball of radius zero |
| C138 | history of calls followed by one `update_contact_detection` | forms of C114 and C131; gap and stored gradient move with the displacement |
| C139 | callbacks of the demos as `Newton.Problem` over the model of `ContactProblem` | invariant of the solver: contact data and residual belong to the current iterate; C60 and C114 |
| C140 | loop over load steps | induction over the steps, each with a history of calls of the contact problem |
| C141 | same | C131, C134 for the rows of free dofs, zero contact rows for prescribed dofs; the line search accepts at once |
| C142 | assembly through a callback that fails outside the pattern, over the model of `ContactProblem` and of `MeshTie` | simulation of the loops with and without the check; the contact map only depends on the last detection (invariant of C38) |
| C143 | vector as a function of the displacement (C114), stiffness matrix as a parameter | pointwise lower bound by firm nonexpansiveness of the projections, Lipschitz bound, fixed point of a contraction |
| C144 | matrix as linearised form (C131) | pointwise lower bound of the linearised form; positive definite systems are solvable |
| C145 | vector and matrix | continuity of the pressures: near the solution the form is affine towards it |
| C146 | matrix as Nitsche's form (C117), matrix of the bodies as a parameter | completing the square at every tied point; a positive definite system is solvable |
| C147 | vector as Nitsche's form (C114, C117) | the projections at a displacement that meets the laws (C97, C98) are the scaled tractions; theta terms cancel |
| C148 | one TieMesh per process, each a part of the whole mesh | a process knows the functions at its facets; sums over facets split by owner; vector and matrix as Nitsche's form (C117) |
| C149 | facetMapPy on top of the submesh model | entry of the submesh facet map (C75), facets of the submesh are facets of the mesh |
| C150 | rigidGap, closest facet and distances as parameters | order of the rows of the contact map (C07); a sorted list is not permuted |
| C151 | TieSystem | geometry lemmas of C133; tied points and the forms are invariant; C117 turns forms into vectors and matrices |
| C152 | distanceMap on two meshes | C93 for both; triangle inequality shows that the facet found on the whole surface is on the process |
| C153 | System | the form of a point is homogeneous in length and stress; C114 and C131 turn forms into vectors and matrices |
| C154 | TieSystem | the form of a tied point is homogeneous in length and stress; C117 turns forms into vectors and matrices |
| C155 | Tree | inner and outer loop as inductive relations; determinism by induction, termination from uniform continuity on a compact interval |
| C156 | Tree | slices of index ranges, permutation of the full range; positions of corners give the geometric part |
| C157 | ContactMeshes | points and loops of all generators; separating lines bound the distance from below, explicit closest points from above |
| C158 | ContactMeshes | the condition of each generator |
| C159 | System with the pair index permuted (Spec/PairOrder.lean) | entries of vector and matrix by C114 and C131, then reindexing the sum over pairs |
| C160 | dofs of points in contact (Spec/PairOrder.lean) | C114 and C131 tested with unit vectors; the form of a point depends on the dofs of its two cells only |
| C161 | Tree | the polygon, closed by its last corner, is a chain of steps of the listed kinds; the pieces are joined at their common corners |
| C162 | ContactMeshOld, ContactMesh | both versions give the same rows of sorted vertices; refinement of one by the other; counterexamples for the cases with exceptions |
| C163 | SplitBox, Meshing | shoelace formula is additive; the interface has area zero with its chord, for the sine by its antisymmetry |
| C164 | SplitBox | loops index by index; count of the surfaces with each line |
| C165 | TieSystem, MeshTieData | element matrices of facets without tied point are zero; scatter |
| C166 | ThermoDemo, TieSystem, MeshTieData | C117 and C165 for all states reachable by the calls of a demo; rows and columns of prescribed dofs; induction over time steps |
| C167 | ThermoDemo | test with one, with the difference of two runs; induction over time steps |
| C168 | ThermoDemo | C117 for the updated state; one iteration solves the linear equations, further ones keep the solution |
| C169 | contactForm of the system model (C114), coordinates of the nodes as a parameter | test the form with a rotation: strain free, jump is minus rotation of the gap |
| C170 | same, contactTangent (C131) | the form depends on strain and (normal) jump only |
| C171 | forms of the tie (C117) | same |
| C172 | ThermoContact: thermal step, load case with thermal stress, loop over time steps with `loadStep` of the driver model | bc_solution for the temperature, C140 for the displacement, induction over steps |
| C173 | same | energy estimate for the difference of two runs on the body; test with the constant of the body |
| C174 | contactForm at an expansion with zero total traction | pressure is minus gap minus thermal stress; counterexample on two triangles |
| C175 | thermoF with weakDirichlet of the one-sided model | consistency of weakDirichlet (C102) with the elastic stress; square as counterexample |
| C176 | OneSidedDriver: np.hstack, packed DG-0 functions, kernel of RigidKernels, assembly over facets, callbacks of the solver | rows of the packed array carry displacement and gradient; kernel theorem C49 per facet; assembly sums over facets |
| C177 | same, with the columns overwritten in place | invariant of the array under updates, by induction over the history |
| C178 | nitscheCustom, nitscheRigidSurfaceCustom: options, Newton.solve, assertion | C60 and freshness of the residual (solve_fresh), Cauchy-Schwarz |
| C179 | obstacleForm tested with translations | shape functions sum to one; case analysis on the sign |
| C180 | planeResidual, surfaceResidual as operators | strong monotonicity and Lipschitz continuity, Zarantonello |
| C181 | Newton.solve with the problems of both drivers | the form is affine between displacements with the same contact; run of the loop |
| C182 | Newton.solve with the problems of both drivers, started anywhere | the form is affine between a displacement and a zero near it, also at the kink; injective matrix; run of the loop |
| C183 | obstacleEnergy | derivative along lines; strict growth along lines from a zero of the residual |
| C184 | contactEnergy plus energy of the body | derivative along lines (C135), monotonicity (C143), mean value theorem |
| C185 | `snesSolver` with the form of elasticity from quadrature points and basis functions; SNES as a parameter with tolerance | residual of the callback as nodal force (C107), case analysis of the residual with bounds; counterexample on a triangle |
| C186 | bodyEnergy | first order condition at a point of a box, energy is convex |
| C187 | two meshes with the same quadrature points in another order | monotonicity of the forces; minimiser in a compact box |
| C188 | mesh_data | counterexample on a triangle; C185 |
| C189 | Model/Driver, Model/Newton, System | The form is affine from a point near the solution to the solution (C145's lemma), so the difference solves the Newton system; coercivity makes it the only solution; then one body of the Newton loop. Displacements enter only through dofs of the contact surfaces. |
| C190 | Model/UflDriver, Spec/UflDriver | Residual and Jacobian of the forms are a system of piecewise linear equations (Lemmas/PiecewiseLinear); the update that met the tolerance bounds the residual through bounds of the matrices; loop invariant for prescribed dofs. |
| C191 | Model/UflDriver | Strong monotonicity of the piecewise linear system from the stiffness condition; Zarantonello for existence; distance from the residual bound. |
| C192 | Model/UflDriver | While no contact point changes its state the residual is affine between iterate and solution, so the update is the error; induction over the loop. |
| C193 | Model/TieDemos, Spec/TieDemos | Generating without a solution equals generating with zero (buffers start at zero), so the tie vector is zero; matrix is the form by C117, local by C165; systems with boundary conditions as for C166; uniqueness from positivity. |
| C194 | Model/TieDemos | Residual and matrix from C117 after update; one exact step gives balance, whose residual is zero; norm of the residual characterises near balance; unfold the loop. |
| C195 | Model/TieDemos | Tie form symmetric for theta = 1; energy difference is half the form of the difference. |
| C196 | Model/Manufactured, Spec/Manufactured | Second derivatives of products of sines; stress is linear in the gradient. |
| C197 | Spec/UflEnergy | The energy is a quadratic plus squares of negative parts along each line, its derivative is the residual form for theta = 1; equilibrium and least energy are equivalent by convexity (Stiff); combined with C191 and C192. |
| C198 | Spec/Reactions | C140_load_steps tested with the translation of the free dofs of the body; contact does no work on a translation of everything (shape functions sum to one). |
| C199 | Model/ParallelDriver, Spec/ParallelDriver | Simulation: the Newton solvers of the distributed and the serial run see equal residuals and Jacobians (C130, C132) as long as the contact problems have seen the same calls; induction over the load steps. |
| C200 | Model/GhostReads, Spec/GhostReads | The loops with checked accesses equal those of Model/Ghosting when the numbers of facets sum up to the number of search results; the offsets of a process other than zero are a counterexample. |
| C201 | Model/NewtonCallbacks, Spec/NewtonCallbacks | Lift of Model/Newton to objects with callbacks, step by step; last setter call by induction. |
| C202 | Model/NewtonCallbacks | Invariant of statements: a noted exception is the result of the statement. Counterexamples with AttributeErrors. |
| C203 | Model/NewtonCallbacks | List of displacements visited by the loop; the loop with a smaller limit stops at one of them. |
| C204 | Model/System, Spec/CoulombWellPosed | Projection depends on the radius with constant one; strong monotonicity with the coupling as perturbation; Zarantonello. Compactness of the sphere for small coefficients. |
| C205 | Model/System, Spec/Quadratic | The projection onto a ball has a quadratic remainder with the slope of the kernels, on the sphere too; sum over points; coercivity (C144, C204) bounds the error after a step. |
| C206 | Model/Newton, Model/Driver, Model/System, Spec/DriverQuadratic | A local convergence lemma for the solver loop (induction on iterations: full step accepted, error squared); its hypotheses from C205 for the block system with Dirichlet rows and lifting. |
| C207 | Model/TieArrays, Model/MeshTieData | The invariant of C39 for the elastic data; induction over Poisson calls for the violation. |
| C208 | Model/Hertz | Integral of the half ellipse from Mathlib; both branches of the functions as differences of half circles. |
| C209 | Model/Hertz | Volumes of balls from Mathlib; the half ball by reflection. |
| C210 | Model/Beam, Model/UflDriver | Both systems reduce to one positive definite system; the second update of Newton's method is zero. |
| C211 | Model/Wedges, Model/ContactMeshes | The reactions are weighted sums of tractions; both ratios follow from the sign of two linear combinations at each point. |
| C212 | Model/Tags, Model/ContactMeshes | Physical groups as an accumulating list with gmsh's automatic tags; the curves found for each value are computed, and membership, separation and height are shown from the convex hulls of the curves. |
| C213 | Model/FacetMarkers, Model/ContactMeshes | argsort as any sorting permutation; the zipped arrays are a permutation of the located pairs; conditions are convex and pairwise disjoint. |
| C214 | Model/TreePairs, Model/Entities, Model/Search | The flattened list of (marker, tag) is computed for all numbers of parts; C17 gives the surfaces, C10 the facets near a part. |
| C215 | Model/Projection, Model/RayTracing | C93 gives a nearest point, which in a plane is the foot of the perpendicular; C80 gives the result of ray tracing; points with parameters in the reference facet are convex combinations of its nodes. |
| C216 | Model/Comparison | Local sums over owned cells, allreduce, square roots, division as in NumPy, assertions on the last entries; the sum over processes is regrouped, the norm is that of a vector of scaled values. |
| C217 | Model/System, Model/ContactProblem | The residuals for the two gaps are those of the same system with another gap; the difference of the forms is at most eps times a Lipschitz function of the test function, because positive part and projection on a ball are Lipschitz; strong monotonicity (C143, C204) gives the rest. |
| C218 | Model/Rates | The loop over the runs with its halving and doubling, the lists and the two comprehensions for the rates, NumPy's logarithm and division with infinities and NaN; logarithms of powers. |
| C219 | Phases: generate again between load steps, load steps with preset boundary values and scaled initial guess; schedule of the two cylinders | invariant of C140 kept by generate; induction over the program |
| C220 | LoadSchedule: values of the constants, boundary conditions and forms in each load step | load steps as actions of C219; sums of increments |
| C221 | ForceDriven: tractions and boundary conditions of both phases | as C219; entries of prescribed dofs do not depend on the traction |
| C222 | HertzSteps: load, boundary conditions and load steps | C219 for the program, balance of forces (C198) for each load step |
| C223 | ForceDriven | C221 for the program, balance of forces (C198) for each load step |
| C224 | Phases | the friction term is a point of the Coulomb disc and the test function of a rigid movement has gradient zero, so the bound holds pointwise; summed, and balance of forces (C198) for load step i (C219) |
| C225 | Phases | as C224, with the ball of radius h/gamma times the bound; a load step in which the bodies are apart |
| C226 | Phases | outside of the Coulomb disc the projection has the length of the radius and the direction of the slip, which is along the interface in two dimensions; summed, and balance of forces as in C224 |

None of the listed properties is outside what a model can express; what the model abstracts away is
listed under "Not modelled".

## What is modelled

| model | source | functions |
|-------|--------|-----------|
| Scalars | cpp/utils.cpp, helpers.py | R_plus, R_minus, dR_plus, dR_minus, ball_projection, d_ball_projection, d_alpha_ball_projection; Python variants, lame_parameters, tangential_proj |
| Elasticity | cpp/elasticity.cpp, geometric_quantities.h | compute_normal_strain_basis, compute_sigma_n_basis, compute_sigma_n_u, compute_sigma_n_opp, compute_contact_forces, physical_facet_normal |
| Entities | cpp/utils.cpp, Contact.cpp, wrappers.cpp | sort_cells, compute_active_entities (both), facet_indices_from_pair, create_cell_facet_pairs, constructors, compute_linked_cells |
| Search | cpp/point_cloud.cpp, utils.cpp | point_cloud_pairs, find_candidate_facets, find_candidate_surface_segment |
| Ghosting | cpp/parallel_mesh_ghosting.cpp, Contact.cpp | copy_to_all, marker subset, cell_to_dests, partitioner, compute_ghost_cell_destinations, lex_match, max_links |
| SubMesh | cpp/SubMesh.cpp, utils.cpp | constructor maps, get_submesh_tuples, copy_function, update_geometry |
| Packing | cpp/Contact.cpp, utils.cpp | compute_physical_points, pack_gap, pack_gap_plane, pack_test_functions, pack_grad_test_functions, pack_u_contact, pack_grad_u_contact, crop_invalid_points |
| Coefficients | cpp/coefficients.cpp, QuadratureRule.cpp, utils.cpp | QuadratureRule, pack_coefficient_quadrature, pack_gradient_quadrature, evaluate_basis_functions |
| ContactKernels | cpp/contact_kernels.cpp, KernelData.* | all six kernels |
| RigidKernels | cpp/rigid_surface_kernels.cpp | both kernels |
| MeshTieKernels | cpp/meshtie_kernels.cpp | all five kernels |
| Dispatch | kernel generators, error_handling.cpp | checks and switches |
| RayTracing | cpp/RayTracing.h, utils.h | compute_tangents, NewtonStorage, raytracing_cell, compute_ray, compute_raytracing_map, compute_projection_map (selection) |
| Geometry | cpp/geometric_quantities.cpp, utils.cpp, coefficients.cpp | pull_back_nonaffine, push_forward_facet_normal, pull_back, compute_circumradius, pack_circumradius, entities_to_geometry_dofs |
| Assembly | cpp/Contact.cpp, contact_problem.py | assemble_vector, assemble_matrix, create_petsc_matrix (pattern), loops over pairs and kernels |
| ContactProblem | contact_problem.py, Contact.cpp | every public method that changes the object, coefficients_size, create_distance_map (effect on the state) |
| MeshTieData | cpp/MeshTie.cpp | generate_kernel_data, generate_*_matrix_only, update_kernel_data, update_function_data, update_gradient_data, assemble_* (what is launched) |
| Newton | newton_solver.py | set_newton_options, _check_convergence, _update_solution, _solve with line search, solve |
| Meshing | meshing/split_box.py, one_sided/snes_against_plane.py | get_surface_points, physical groups, merging of meshes, variable bounds |
| Nullspace | cpp/utils.cpp, helpers.py | build_nullspace_multibody, rigid_motions_nullspace, rigid_motions_nullspace_subdomains, near_nullspace_subdomains |
| Normals | cpp/Contact.cpp | pack_nx, pack_ny |
| Projection | cpp/utils.h, utils.cpp | compute_projection_map, compute_distance_map |
| ContactMesh | cpp/parallel_mesh_ghosting.cpp | create_contact_mesh, midpoints of compute_ghost_cell_destinations |
| OneSided | one_sided/nitsche_ufl.py, nitsche_rigid_surface.py, nitsche_custom.py, helpers.py | residual and Jacobian forms, weak_dirichlet, epsilon, sigma_func |
| Distributed | newton_solver.py, one_sided/*_custom.py, helpers.py | order of callbacks and ghost updates, residual callbacks, NonlinearPDE_SNESProblem |
| Output | output.py, cpp/contact_kernels.cpp (compute_contact_forces), wrappers.cpp, cpp/Contact.cpp (qp_phys) | ContactWriter: facet lists, write up to the quadrature values, project, restore; qp_phys |
| System | contact_problem.py (assemble_vector, assemble_matrix, update_contact_data) with cpp/Contact.cpp, cpp/coefficients.cpp, cpp/contact_kernels.cpp | the composition of Packing, Coefficients, ContactKernels, Assembly and ContactProblem |
| TieSystem | cpp/MeshTie.cpp with cpp/Contact.cpp, cpp/coefficients.cpp, cpp/meshtie_kernels.cpp | constructor (contact map, cropping), generate_kernel_data, update_kernel_data, assemble_vector, assemble_matrix put together |
| Krylov | newton_solver.py | __init__ (linear solver), set_krylov_options, update_krylov_solver |
| Helpers | helpers.py | d_ball_projection, d_alpha_ball_projection, compare_matrices |
| Driver | python/demos/demo_nitsche_unbiased.py:351-352, 366-390, 413-511 | compute_coefficients, compute_residual, compute_jacobian_matrix, the loop over load steps (forms, boundary values and linear solver as parameters) |
| Matrix | contact_problem.py, wrappers.cpp | create_matrix, assemble_matrix into a matrix with a fixed pattern (PETSc by contract: a block outside the pattern is an error) |
| RigidGap | wrappers.cpp, nitsche_rigid_surface.py | facet_map, the gap function (closest entity and GJK distance as parameters) |
| Tree | `meshing/christmas_tree.py` | `jagged_curve`, corners and physical groups of `create_christmas_tree_mesh`, `create_christmas_tree_mesh_3D` |
| ContactMeshes | `meshing/contact_meshes.py` | points, curve loops, boxes and spheres of all generators but `create_cylinder_cylinder_mesh`; the process that creates the model |
| ContactMeshOld | `parallel_mesh_ghosting.py` | `create_contact_mesh_old` (`create_mesh` is library code) |
| SplitBox | `meshing/split_box.py` | `vertical_line`, `horizontal_line`, `horizontal_sine`; polygons, lines, loops and surface loops of `create_split_box_2D/3D`, `create_tet_mesh`, `create_unsplit_box_2d/3d` |
| ThermoDemo | `cpp/demos/meshtieHeatEquation/main.cpp`, `cpp/demos/meshtieHeatTransfer/main.cpp`, `python/demos/meshtie_demos/thermo_mech.py` | initial calls, systems of a time step, residual and Jacobian, Newton iterations, time loops |
| ThermoContact | python/demos/demo_thermo_mech_xmas2D.py, demo_thermo_mech_boxkey3D.py | thermal problem, mechanical form with thermal stress, time loop |
| OneSidedDriver | python/dolfinx_contact/one_sided/nitsche_custom.py, nitsche_rigid_surface_custom.py | coefficients, constants, callbacks, initial guess, solve, returned values |
| SnesDriver | one_sided/snes_against_plane.py | snes_solver: form, constrained dofs, bounds, initial displacement, assertions; SNES is a parameter with a contract; options and near null space are left out |
| UflDriver | python/dolfinx_contact/one_sided/nitsche_ufl.py, nitsche_rigid_surface.py | `nitsche_ufl`, `nitsche_rigid_surface` (boundary conditions, start, options, Newton solver as library contract) |
| TieDemos | python/demos/demo_nitsche_meshties.py, meshtie_demos/demo_poisson.py, meshtie_convergence.py, poisson_convergence.py, blocks_nitsche_meshtie.py, cpp/demos/meshtie/main.cpp, meshtieNewton/main.cpp | assembly, boundary conditions and solution of the linear system; `MeshTieProblem` with the Newton solver (library contract) |
| Manufactured | python/demos/meshtie_convergence.py, meshtie_demos/poisson_convergence.py | `u_fun_2d`, `fun_2d`, `u_fun_3d`, `fun_3d` |
- `demo_hertzian_contact.py:200-302`, `365-378`, `402-421`, `487-510`: load, boundary conditions and load steps (Model/HertzSteps).
- `demo_friction_cylinders_force_driven.py:150-433`: tractions, boundary conditions and load steps (Model/ForceDriven).
- `demo_nitsche_unbiased.py:312-323, 366-380, 491-511`: options, boundary conditions and load schedule (Model/LoadSchedule). A dof in several supports takes the value of the last.
- `demo_friction_cylinders.py:247-469`, `demo_friction_cylinders_force_driven.py`: the phases, load steps and boundary conditions (Model/Phases). Overlapping boundary conditions: the later one of the list counts.
- `poisson_convergence.py`, `meshtie_convergence.py`: refinement loops, errors and rates (Model/Rates).
- `new_demo_custom_snes_one_sided.py`, `new_demo_compare_nitsche_snes.py`, `debug.py`: norms of differences and assertions (Model/Comparison).
- `new_demo_christmas_tree.py`: candidate segments, surfaces and contact pairs (Model/TreePairs).
- Facet markers built from coordinates in the demos (Model/FacetMarkers).
- `contact_meshes.py` (planar generators): physical groups, tags, and the values used by the planar demos (Model/Tags). Assumed of gmsh: a group without a tag gets the largest tag in use plus one, over all dimensions; getBoundary lists the curves of the boundary of the union of surfaces by tag.
- `demo_sliding_wedges.py`: physical groups, reactions and printed numbers (Model/Wedges); the solve is that of Model/Driver.
- `new_demo_nitsche_euler_bernoulli.py`: forms, boundary conditions, linear and Newton solve (Model/Beam); not modelled: mesh creation, output, comparison of the deflection with beam theory.
- `demo_friction_cylinders.py`, `demo_friction_cylinders_force_driven.py`, `demo_hertzian_contact.py`: the analytic reference solutions and the applied loads (Model/Hertz). `none` stands for NaN and for a division by zero.
- `newton_solver.py:126-455` with callbacks that may raise, setters, output (`Model/NewtonCallbacks.lean`).
- `parallel_mesh_ghosting.cpp:286-418` with array accesses (`Model/GhostReads.lean`).
- `demo_nitsche_unbiased.py:427-511` on several processes (`Model/ParallelDriver.lean`).

## Not modelled

* Library code: dolfinx, basix, PETSc, MPI, gmsh, numpy. Their results are parameters, or given by the
  contract named in the comment of the definition (`std::sort`, `radix_sort`, `MPI_Allgatherv`,
  `MatSetValues`, numpy slices).
* Floating point rounding, overflow, NaN; overflow of 32 bit integers. The one place where a quotient by
  zero decides control flow (Newton's relative residual) has its own value in the model.
* Timers, logging, files, PETSc itself, plotting, the demos and the tests.
* Of `one_sided/`: interpolation of the gap in `nitsche_rigid_surface.py`, Krylov options; the initial guesses of the UFL drivers.
* The closest point search itself (`compute_distance_gjk`, bounding box trees): a parameter with a contract.

## Properties the code breaks

Each of these has a theorem `..._violated` whose proof contains the inputs, and a `_partial` theorem for
what still holds.

| id | what happens |
|----|--------------|
| C03 | `d_ball_projection` returns 0 for radii between 0 and 1e-14 |
| C08 | Python `compute_active_entities` counts ghost cell number `size_local` as owned |
| C09 | `point_cloud_pairs` never finds the leftmost point when it scans backwards |
| C15 | destinations of a cell with two marked facets: the last facet overwrites the others |
| C20 | ray tracing of surfaces in space reports hits off the ray |
| C23 | squared distance compared with the unsquared search radius; fallback skips the filters |
| C31, C32 | a facet with an unlinked point before a linked one gets the basis functions of other points |
| C49 | rigid kernels with constant normal read uninitialised memory on non-affine cells |
| C60, C62 | verdict before the first iteration uses the initial residual of an earlier solve |
| C63 | `solve` with a PETSc vector runs the whole iteration twice |
| C64 | the relaxation parameter given by the user is never used |
| C69 | `get_surface_points` accepts non-adjacent corners when the list starts with corner 5 |
| C70 | hexahedra with one segment: one surface in two groups; 3D unsplit box: one surface in none |
| C72 | `plane_loc` is used with the opposite sign of its documentation |
| C73 | a solver without options raises on rank 0 only |
| C74 | `max_links` reads past the map when there are ghost facets |
| C81 | leaving out the friction coefficient keeps the one of the previous call |
| C82 | `crop_invalid_points` always raises on generated data |
| C83, C88 | a call that raises has already changed the object |
| C86, C87 | `MeshTie` updates before or across problems write outside or into matrix data; old solution data stay |
| C89 | `near_nullspace_subdomains` uses block numbers as dof numbers on vector spaces |
| C90 | Python null space raises when a process has no cell of a body, the C++ one does not |
| C95 | create_contact_mesh uses coordinates of geometry node i for vertex i |
| C96 | two processes with one facet each: only one of them sends its cell |
| C104 | `nitsche_ufl` scales the Dirichlet penalty with h twice |
| C105 | `nitsche_rigid_surface_custom` packs contact data before ghosts are updated |
| C106 | the custom one-sided drivers never add ghost contributions of the residual |
| C108 | `ContactWriter.write` passes two-dimensional arrays to a binding that takes one-dimensional ones |
| C109 | `ContactWriter.write` leaves the contact submesh in the reference configuration |
| C110 | `qp_phys(i, j)` is documented and used with the index of a pair but takes the index of a surface |
| C47, C48 | friction bound between 0 and 1e-14: the matrix kernel is not the derivative of the residual |
| C117, C118 | a point that is not tied before one that is on the same facet: matrix and vector of MeshTie disagree |
| C121 | the same on a facet tied to two cells: a constant is not in the kernel of the matrix |
| C124 | `update_krylov_solver` keeps the options of earlier calls it is not given again |
| C125 | options given to one `NewtonSolver` take effect in others |
| C126 | `pc_mg_cycles` is ignored unless `pc_mg_levels` is given |
| C128 | for radii below 1e-14 the C++ derivative of the ball projection is zero, the Python one is not |
| C129 | `compare_matrices` raises on more than one process |
| C131 | friction bounds between 0 and 1e-14: a sticking point gets no friction stiffness, the assembled matrix is not the derivative of the assembled vector |
| C148 | MeshTie.cpp:43 takes the maximum of the cell sizes on the process; which points are tied, and so the vector and matrix, depend on the number of processes |
| C150 | nitsche_rigid_surface.py:231-241 looks up the contact map with the index in the mesh tags, but its rows are sorted by cells; nodes can get the distance to a facet found for another contact facet |
| C153 | `d_ball_projection` compares the friction bound with the absolute number `1e-14`, so the matrix depends on the unit of length (`C153_matrix_violated`) |
| C154 | `crop_invalid_points` compares the gap with the absolute number `1e-7`, so whether a point is tied depends on the unit of length (`C154_violated`) |
| C156 | `create_christmas_tree_mesh_3D` leaves two lateral surfaces of the surrounding body without tag (`C156_outer_3D_violated`) |
| C158 | `create_circle_circle_mesh` ignores the argument `rank` (`C158_violated`) |
| C162 | `create_contact_mesh_old` raises without marked facets, with a process without marked cells and with a process without new cells, and converts vertex numbers to 32 bits (`C162_violated`) |
| C163 | `vertical_line` ignores the abscissa of `x1` (`C163_vertical_violated`) |
| C166 | rows of the tie stay in the rows of prescribed dofs, so that prescribed temperatures at tied cells are not attained (`C166_prescribed_violated`) |
| C166 | the vector of the tie belongs to the temperature given to `generate_kernel_data` in all time steps; tied bodies keep an initial temperature that is not zero (`C166_start_violated`) |
| C169, C170 | with friction and a gap, or without friction and a gap vector that is not along the normal, the two contact forces act on different lines |
| C171 | tied surfaces with a gap: a couple remains, rotations are not free |
| C174 | contact conditions leave out the thermal stress: freely expanding bodies that do not touch get forces |
| C175 | weak_dirichlet leaves out the thermal stress: at a temperature different from zero held facets get an additional pressure |
| C176 | residual of nitsche_custom on cells that are not affine depends on uninitialised memory |
| C185 | `snes_solver`: a prescribed displacement that pushes its nodes through the plane is neither met nor rejected, and the displacement returned is not in equilibrium |
| C188 | `snes_solver` ignores the value for the contact surface |
| C193 | `demo_nitsche_meshties.py:199` and `demo_poisson.py:246` call `apply_lifting` with `alpha=-1.0`: with prescribed values other than zero the free dofs get the solution for the opposite values (harmless today because the demos prescribe zero). A dof prescribed at a cell with a tied point does not get its value (tie rows are not cleared). |
- C225: Tresca friction acts at every quadrature point with a linked cell, whether the surfaces touch there or not
  (`contact_kernels.cpp`, Tresca kernels: the projection does not depend on the pressure). Bodies which are apart but within the
  search radius drag each other.
- C221: the second phase of the force driven demo holds the vertical dofs of the top, so its pressure is not applied as a force.
- C213: `demo_christmas_tree_3D.py:128-137`, `new_demo_christmas_tree.py:99-109`: facets of the end faces of the tree, which already have value 5, are added once more; `meshtags` asks for each facet at most once. `demo_nitsche_unbiased.py:271-272`: `x[1] < 0.1` excludes the highest point of the lower disc.
- C212: `new_demo_nitsche_rigid_surface_ufl.py` (two dimensions) uses facet values 2, 4, 9, 7, which do not match the physical groups of `create_circle_plane_mesh`: value 2 names a surface, 4 the bottom of the box, 9 and 7 arcs of the upper half of the disc.
- C208: `demo_friction_cylinders.py:231` tests `abs(x < a)`: the written reference traction is NaN at all points left of the contact zone.
- C209: `demo_hertzian_contact.py:217` uses the volume of a whole ball for a mesh of half a ball: half of the load is applied.
- C207: `MeshTie.coeffs` divides by zero if no data for elasticity or thermo-elasticity were generated (`wrappers.cpp:392-393`).
- C202: `newton_solver.py:140` and `:357-360`: `except AttributeError` also catches the exceptions of user callbacks; a failing preconditioner is ignored, a failing coefficient or residual callback makes a solve for a PETSc.Vec start over.
- C200: `parallel_mesh_ghosting.cpp:399` reads `nbr_offsets[i + 1]` on all processes; only process zero has filled the array.

## Tests against wrong programs

`tools/mutate.py` applies a list of edits to a scratch copy of the project, one at a time, replaces every
proof that fails by `sorry` until the copy builds, and reads off with `#print axioms` which property
theorems depend on a failed proof. `seeded/LOG.jsonl` has one line per edit: definition, edit, claim,
theorems that failed, theorems tightened.

## Trusted base

* Lean 4.33.0 kernel; axioms `propext`, `Classical.choice`, `Quot.sound` only
  (checked with `#print axioms` for every property theorem).
* The hand translation from C++/Python to the model.
* The modelling assumptions above (reals for doubles, library calls as parameters).
