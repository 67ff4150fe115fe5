#!/usr/bin/env python3
"""Writes ../properties.jsonl (one JSON object per property)."""
import json, pathlib
P = []
def p(id, title, statement, quantifier, why, anchors):
    P.append(dict(id=id, title=title, statement=statement, quantifier=quantifier,
                  why_tests_cant=why, anchors=anchors))

REAL = "The domain is all real arguments; a test samples finitely many points and never hits every side of the kink."
SIZE = "Must hold for every list length, order, multiplicity and value; tests fix one mesh and one process count."

# ---- A. scalar functions -------------------------------------------------
p("C01","Positive/negative part split a number exactly",
  "For every x, R_plus(x) >= 0 >= R_minus(x), R_plus(x)+R_minus(x)=x, R_plus(x)*R_minus(x)=0; away from 0 dR_plus/dR_minus are their true derivatives, dR_plus+dR_minus=1; the Python helpers return the same values as the C++ ones for every x (dR at x=0 differs: 0.5 against the one-sided C++ value).",
  "every real x", REAL,
  ["cpp/utils.cpp:R_plus,R_minus,dR_plus,dR_minus","python/dolfinx_contact/helpers.py:R_plus,R_minus,dR_plus,dR_minus"])
p("C02","Ball projection is the metric projection onto the ball",
  "For every vector x (3 components) and radius alpha >= 0, ball_projection(x, alpha) lies in the closed ball of radius alpha, equals x when |x| <= alpha, is the unique nearest point of the ball to x, is idempotent and never increases distances between two inputs.",
  "all x, y in R^3 and alpha >= 0", REAL, ["cpp/utils.cpp:ball_projection","python/dolfinx_contact/helpers.py:ball_projection"])
p("C03","Ball projection derivatives are the derivatives",
  "Whenever |x| != alpha, the matrix returned by d_ball_projection is the derivative of ball_projection in x, and for a radius that depends on a parameter, d_ball_projection*x' + d_alpha_ball_projection(x, alpha, alpha') is the derivative of the whole expression.",
  "all x, directions, radii with |x| != alpha, every block size 2 or 3", REAL,
  ["cpp/utils.cpp:d_ball_projection,d_alpha_ball_projection"])
p("C04","Lame parameter conversion is consistent",
  "For every E > 0 and admissible nu, the pair (mu, lambda) from lame_parameters(True) inverts back to (E, nu), mu > 0, and lame_parameters(False) returns the plane stress value 2*lambda*mu/(lambda+2*mu) of the plane strain pair.",
  "all E>0, -1<nu<1/2", "Rational identities over a continuum of parameters.", ["python/dolfinx_contact/helpers.py:lame_parameters"])
p("C05","Tangential projection",
  "tangential_proj(u, n) is orthogonal to n, leaves tangential vectors unchanged, is idempotent and linear, for every unit n.",
  "all u and unit n in any dimension", REAL, ["python/dolfinx_contact/helpers.py:tangential_proj"])
# ---- B. combinatorial index handling -------------------------------------
p("C06","sort_cells groups quadrature points by cell",
  "For every list of cell indices and permutation buffer, the result is the strictly increasing list of distinct cells with offsets partitioning the buffer, and the slice of the permutation belonging to a cell is exactly the list of positions where that cell occurs, in increasing order. An all -1 list is reported as one cell -1 with the whole range; a mix containing a negative value raises.",
  "every list of integers", SIZE, ["cpp/utils.cpp:sort_cells"])
p("C07","compute_active_entities returns each entity once per incidence, sorted by cell",
  "For every facet list, the result contains exactly one (cell, local index) pair per input facet, the local index points back to that facet in the cell's facet list, pairs are ordered by cell and stable; for cells the result is the sorted input; other integral types raise.",
  "every facet list and every facet/cell connectivity", SIZE, ["cpp/utils.cpp:compute_active_entities"])
p("C08","num_local splits owned from ghost entities",
  "compute_active_entities (Python) returns num_local such that exactly the first num_local entities belong to owned cells.",
  "every entity list, every number of owned cells", SIZE, ["python/dolfinx_contact/wrappers.cpp:compute_active_entities"])
p("C09","point_cloud_pairs finds exactly the neighbours within r",
  "For every point cloud and radius r, point j is listed for point i iff i != j, and their distance is below r (strictly) and their x-distance at most r; the relation is symmetric.",
  "every list of points, any order and multiplicity, every r", SIZE, ["cpp/point_cloud.cpp:point_cloud_pairs"])
p("C10","Candidate facet search is exact and ordered by distance",
  "find_candidate_facets returns exactly the candidate facets whose midpoint is closer than the radius (all when the radius is negative), ordered by distance; find_candidate_surface_segment returns exactly the candidates within the radius of at least one quadrature facet, each once.",
  "every candidate list, every radius, all midpoints", SIZE, ["cpp/utils.cpp:find_candidate_facets,find_candidate_surface_segment"])
p("C11","Facet/cell index conversions are inverse to each other",
  "facet_indices_from_pair applied to the pairs produced by compute_active_entities returns the facets they were produced from; entities_to_geometry_dofs lists, for each entity, the geometry nodes of its closure in cell-local order.",
  "every mesh connectivity and entity list", SIZE, ["cpp/utils.cpp:facet_indices_from_pair,entities_to_geometry_dofs"])
p("C12","Linked cells are the distinct cells behind the contact map",
  "For every facet, the list of linked cells is strictly increasing, contains a cell iff some quadrature point of the facet is linked to a facet of that cell, and never contains an entry for an unlinked point.",
  "every contact map, including -1 entries and repetitions", SIZE, ["cpp/Contact.cpp:compute_linked_cells"])
p("C13","lex_match transfers markers exactly",
  "If no local entity has the same vertex tuple as another, lex_match returns, strictly sorted by local index, exactly the local entities whose tuple occurs in the input, each once, with a value that the input attaches to that tuple.",
  "every pair of tuple lists, duplicates on the input side allowed", SIZE, ["cpp/parallel_mesh_ghosting.cpp:lex_match"])
p("C14","Ghost destinations are the other processes with a nearby facet",
  "For every facet on every process the computed destination list is sorted, duplicate free, excludes the own process, and contains exactly those processes that own a facet found by the point cloud search; the data sent back to each process is the data computed for it, whatever the other processes hold.",
  "every number of processes (empty ones included) and every facet distribution", "Depends on the distribution over all ranks; tests run on a few fixed ones.", ["cpp/parallel_mesh_ghosting.cpp:compute_ghost_cell_destinations"])
p("C15","Every contact cell is sent wherever one of its marked facets needs it",
  "In create_contact_mesh each owned cell is first assigned to its own process, and additionally to every process that is a ghost destination of any of its marked facets.",
  "every marker set, cells with several marked facets included", SIZE, ["cpp/parallel_mesh_ghosting.cpp:create_contact_mesh","python/dolfinx_contact/parallel_mesh_ghosting.py:partitioner"])
p("C16","copy_to_all gathers all processes' rows in order",
  "After copy_to_all every process holds the concatenation over ranks of the index rows and of the values, with row k and value k still belonging together.",
  "every number of processes and every per-process count", SIZE, ["cpp/parallel_mesh_ghosting.cpp:copy_to_all"])
p("C17","Surfaces are numbered as documented",
  "In Contact, surface number s of contact_pairs is the s-th tag of the flattened surfaces array, and its facets are exactly the active (cell, local facet) pairs of that tag.",
  "every list of markers and tag adjacency", SIZE, ["cpp/Contact.cpp:create_cell_facet_pairs"])
p("C18","local_facets counts the owned facets",
  "For every surface whose facet pairs are ordered by cell, local_facets(s) is the number of pairs with an owned cell and these pairs form a prefix.",
  "every facet list", SIZE, ["cpp/Contact.cpp:Contact::Contact","cpp/Contact.h:local_facets"])
p("C19","max_links bounds the number of linked cells",
  "After create_distance_map, for every facet the number of linked cells is at most max_links, so block 3*k+3 resp. k+1 of every linked cell k exists during assembly.",
  "every contact map with the same number of points per facet", SIZE, ["cpp/Contact.cpp:create_distance_map,max_links,assemble_matrix,assemble_vector"])
# ---- C. ray tracing ------------------------------------------------------
p("C20","Ray tracing reports success only for a hit inside the facet",
  "raytracing_cell returns a positive status only if the iterate satisfied the stopping test and the reference point lies in the reference cell up to the tolerance; an out of bounds point always yields -3; failure to converge yields -1, a singular Jacobian -2.",
  "every Newton trajectory, iteration limit and tolerance", "Newton trajectories are unbounded in number; needs all of them.", ["cpp/RayTracing.h:raytracing_cell"])
p("C21","compute_ray returns the first facet hit",
  "For every list of facets the ray search returns the index of the first facet with positive status and that facet's status and points; if none is hit it returns index -1 and the (non-positive) status of the last facet, and for an empty list status -1.",
  "every list of facets", SIZE, ["cpp/RayTracing.h:compute_ray","cpp/RayTracing.cpp:raytracing"])
p("C22","Tangents are an orthonormal complement of the normal",
  "For every non-zero normal compute_tangents returns gdim-1 unit vectors orthogonal to the normal and to each other.",
  "every normal in R^2 and R^3", REAL, ["cpp/RayTracing.h:compute_tangents,normalize"])
p("C23","Ray-traced contact points obey the search radius and normal filter",
  "A quadrature point is linked by ray tracing only to a candidate facet whose normal does not point the same way and whose distance is at most search_radius (when positive).",
  "every facet, quadrature point, candidate list and search radius", "Threshold comparisons over a continuum of distances.", ["cpp/utils.h:compute_raytracing_map","cpp/utils.cpp:compute_distance_map"])
p("C24","A facet is either fully linked or fully unlinked after ray tracing",
  "After the ray tracing map is built, each facet has a link for all its quadrature points or for none; search_radius 0 links nothing; no candidate facets links nothing.",
  "every facet and hit pattern", SIZE, ["cpp/utils.h:compute_raytracing_map","cpp/utils.h:compute_projection_map"])
p("C25","Newton workspace views never overlap",
  "The views handed out by NewtonStorage and by the pull-back/push-forward routines are in range of the allocated buffer and pairwise disjoint.",
  "every gdim, tdim and number of coordinate dofs", SIZE, ["cpp/RayTracing.h:NewtonStorage","cpp/geometric_quantities.cpp:allocate_pull_back_nonaffine,pull_back_nonaffine,push_forward_facet_normal"])
# ---- D. sub mesh and packing --------------------------------------------
p("C26","Submesh cell maps are mutually inverse",
  "parent_cells is strictly increasing, lists exactly the parent cells of the given facet pairs, and the parent-to-submesh map sends parent_cells[i] to i and every other parent cell to nothing.",
  "every facet list", SIZE, ["cpp/SubMesh.cpp:SubMesh::SubMesh"])
p("C27","Submesh facet tuples refer to the same facets",
  "get_submesh_tuples maps each (parent cell, local facet) to (submesh cell, same local facet), and mapping the submesh cell back through parent_cells returns the input.",
  "every facet list contained in the submesh", SIZE, ["cpp/SubMesh.cpp:get_submesh_tuples"])
p("C28","copy_function copies values cell by cell",
  "After copying a function to the submesh, every dof of every submesh cell equals the corresponding dof of the parent cell, for every dofmap for which such a function exists.",
  "every dofmap pair that agrees on shared dofs, every block size", SIZE, ["cpp/SubMesh.cpp:copy_function"])
p("C29","update_submesh_geometry does not accumulate",
  "After any sequence of geometry updates, the submesh coordinates are parent coordinates plus the last displacement only; the parent mesh is unchanged.",
  "every history of updates", "Quantifies over histories.", ["cpp/SubMesh.cpp:update_geometry","cpp/utils.cpp:update_geometry","cpp/Contact.cpp:update_submesh_geometry"])
p("C30","pack_gap is contact point minus quadrature point",
  "For every facet and quadrature point with a link, the packed gap is the coordinate vector of the contact point minus that of the quadrature point; it is zero for unlinked points. pack_gap_plane packs, in the last component only, the signed distance to the plane.",
  "every facet, quadrature point and coordinate", REAL, ["cpp/Contact.cpp:pack_gap,pack_gap_plane"])
p("C31","Packed test functions belong to the linked cell of each point",
  "For every facet, link k, dof i and quadrature point q, pack_test_functions holds basis function i evaluated at the contact point of q if q is linked to the k-th linked cell, and zero otherwise.",
  "every link pattern on a facet, including partially unlinked facets", "Requires all patterns of linked and unlinked points.", ["cpp/Contact.cpp:pack_test_functions"])
p("C32","Packed test gradients belong to the linked cell of each point",
  "The same as C31 for gradients: the gradient of basis function i of the k-th linked cell at the contact point of q, zero for points not linked to that cell.",
  "every link pattern on a facet, including partially unlinked facets", "Requires all patterns of linked and unlinked points.", ["cpp/Contact.cpp:pack_grad_test_functions"])
p("C33","All packers and assemblers number linked cells alike",
  "For every facet, link number k means the same parent cell in pack_test_functions, pack_grad_test_functions, assemble_matrix and assemble_vector: the k-th of the linked parent cells in increasing order.",
  "every contact map", SIZE, ["cpp/Contact.cpp:pack_test_functions,pack_grad_test_functions,compute_linked_cells,assemble_matrix,assemble_vector"])
p("C34","crop_invalid_points removes exactly the bad links",
  "After cropping, a point is linked iff it was linked before, its gap is at most the tolerance and it is either closer than 1e-7 or within the angle limit; cropping twice is the same as once and a larger tolerance never removes more.",
  "every contact map, gap, normal and tolerance", REAL, ["cpp/Contact.cpp:crop_invalid_points"])
p("C35","Packed coefficients are the function values",
  "pack_coefficient_quadrature returns at every entity, quadrature point and component the value of the finite element function, i.e. the sum over dofs of basis times dof value, and raises for unsupported integral types.",
  "every entity list, dofmap, block size, dof vector", SIZE, ["cpp/coefficients.cpp:pack_coefficient_quadrature"])
p("C36","Packed gradients are the gradient values",
  "pack_gradient_quadrature returns K^T applied to the reference gradient of the function at every entity and point.",
  "every entity list, dofmap, block size, dof vector", SIZE, ["cpp/coefficients.cpp:pack_gradient_quadrature"])
p("C37","Opposite displacement equals packed test functions times dofs",
  "pack_u_contact(u) equals, at every point of a fully linked facet, the sum over links and dofs of the packed test functions times the dofs of u in the linked cell; it is zero at unlinked points.",
  "every facet, link pattern and u", SIZE, ["cpp/Contact.cpp:pack_u_contact,pack_test_functions"])
# ---- E. layouts ----------------------------------------------------------
p("C38","Contact coefficient layout agrees between packing and kernels",
  "For vector valued spaces with block size equal to gdim, coefficients_size is exactly the extent read by the contact kernels, every slice written by ContactProblem starts and ends where the kernel reads it, and slices are disjoint.",
  "every number of quadrature points, dofs, links and gdim", "Polynomial identities in four unbounded parameters.", ["cpp/Contact.cpp:coefficients_size","cpp/contact_kernels.cpp:generate_contact_kernel","python/dolfinx_contact/general_contact/contact_problem.py"])
p("C39","Mesh tie coefficient layout agrees between packing and kernels",
  "For elasticity, Poisson and thermo-elasticity the offsets used when updating coefficients are those the kernels read, all inside the coefficient row, and updating never overwrites matrix-only data.",
  "every number of quadrature points, dofs, links and gdim", "Polynomial identities in four unbounded parameters.", ["cpp/MeshTie.cpp:generate_meshtie_data_matrix_only,update_kernel_data,generate_poisson_data_matrix_only","cpp/meshtie_kernels.cpp"])
p("C40","Previous normals survive an update of contact detection",
  "After every update_contact_detection the 'previous step' normals in the coefficients are the normals of the detection before, for every history of calls; right after the first generate_contact_data they are the current ones, and generating again, updating the displacement or the Nitsche parameters keeps them.",
  "every history of detection updates", "Quantifies over histories.", ["python/dolfinx_contact/general_contact/contact_problem.py:generate_contact_data,update_contact_detection"])
p("C41","Missing coefficients are rejected",
  "MeshTie.generate_kernel_data raises iff a required key of the problem type is missing (mu, lambda; kdt; mu, lambda, alpha and T when u is given); ContactProblem raises iff mu or lambda is missing, and the order of the packed scalars is mu, lambda, friction, h.",
  "every set of supplied keys and problem type", "All subsets of keys.", ["cpp/MeshTie.cpp:generate_kernel_data,update_kernel_data","python/dolfinx_contact/general_contact/contact_problem.py:retrieve_material_parameters"])
p("C42","Quadrature rule slices partition points and weights",
  "For every cell type and facet dimension, points(i) and weights(i) are the slices between consecutive offsets, together they cover all points once, and num_points(i) is their length.",
  "every number of entities and points per entity", SIZE, ["cpp/QuadratureRule.cpp"])
# ---- F. assembly ---------------------------------------------------------
p("C43","assemble_vector adds each element vector once to the right dofs",
  "The assembled vector is the input plus, for every owned facet, the element vector of the cell and of each linked cell scattered through the dofmap; it does not depend on the order of facets and leaves dofs of unrelated cells untouched.",
  "every facet list, dofmap, link pattern and kernel", SIZE, ["cpp/Contact.cpp:assemble_vector"])
p("C44","assemble_matrix writes only inside the created sparsity pattern",
  "Every (row, column) block written by assemble_matrix was inserted by create_petsc_matrix, or belongs to one cell and is part of the form's own pattern, for every contact map that is the same or a cropped version of the one used at creation.",
  "every contact map and dofmap", SIZE, ["cpp/Contact.cpp:create_petsc_matrix,assemble_matrix"])
p("C45","assemble_matrix adds each element matrix once",
  "The assembled matrix is the input plus, for every owned facet, the four kinds of blocks (cell,cell), (cell,link), (link,cell), (link,link) scattered through the dofmap.",
  "every facet list, dofmap, link pattern and kernel", SIZE, ["cpp/Contact.cpp:assemble_matrix"])
# ---- G. kernels ----------------------------------------------------------
p("C46","Frictionless Jacobian kernel is the derivative of the residual kernel",
  "Away from the contact/no-contact switch, the derivative of every entry of the Rhs kernel with respect to the displacement dofs of the cell and of all linked cells is the entry of the Jac kernel.",
  "every geometry, material, gamma, theta, displacement, direction, link pattern", "Finite differences at sample points cannot settle an identity over all data.", ["cpp/contact_kernels.cpp:unbiased_rhs,unbiased_jac"])
p("C47","Tresca Jacobian kernel is the derivative of the residual kernel",
  "As C46 for the Tresca friction kernels, away from the stick/slip switch.",
  "every geometry, material, friction, gamma, theta, displacement, direction", "As C46.", ["cpp/contact_kernels.cpp:tresca_rhs,tresca_jac"])
p("C48","Coulomb Jacobian kernel is the derivative of the residual kernel",
  "As C46 for the Coulomb friction kernels, away from the switches.",
  "every geometry, material, friction, gamma, theta, displacement, direction", "As C46.", ["cpp/contact_kernels.cpp:coulomb_rhs,coulomb_jac"])
p("C49","Rigid surface Jacobian kernel is the derivative of the residual kernel",
  "As C46 for the rigid surface kernels (positive gamma/h).",
  "every geometry, material, gamma>0, h>0, theta, displacement, direction", "As C46.", ["cpp/rigid_surface_kernels.cpp"])
p("C50","Mesh tie elasticity kernels are consistent",
  "The MeshTieRhs kernel is linear in the displacement and its matrix is the MeshTieJac kernel; for theta = 1 the block matrix is symmetric.",
  "every geometry, material, gamma, theta, displacement, link pattern", "As C46.", ["cpp/meshtie_kernels.cpp:generate_meshtie_kernel"])
p("C51","Mesh tie Poisson kernels are consistent",
  "The Poisson MeshTieRhs kernel is linear in the temperature and its matrix is the Poisson MeshTieJac kernel; for theta = 1 the block matrix is symmetric; a space with block size != 1 is rejected.",
  "every geometry, conductivity, gamma, theta, temperature, link pattern", "As C46.", ["cpp/meshtie_kernels.cpp:generate_poisson_kernel"])
p("C52","Contact forces are equal and opposite",
  "For every fully linked quadrature point, testing the contact and friction residuals with any rigid translation of both bodies gives zero: the force on the cell and the forces on the linked cells cancel.",
  "every state of contact, geometry and material", "Balance must hold for every configuration.", ["cpp/contact_kernels.cpp:unbiased_rhs,tresca_rhs,coulomb_rhs","cpp/meshtie_kernels.cpp:meshtie_rhs,meshtie_thermo_elastic"])
p("C53","No contact, no contact force",
  "With theta = 0 a quadrature point that is separated and unstressed contributes nothing to residual and Jacobian of the frictionless kernels; quadrature points without a link never contribute.",
  "every state", REAL, ["cpp/contact_kernels.cpp:unbiased_rhs,unbiased_jac","cpp/Contact.cpp:assemble_vector"])
p("C54","Kernel results do not depend on the order of quadrature points",
  "Each kernel's contribution is the sum of single point contributions; permuting or splitting q_indices gives the same result.",
  "every index list", SIZE, ["cpp/contact_kernels.cpp","cpp/meshtie_kernels.cpp"])
p("C55","Unknown kernels and unsupported meshes are rejected",
  "Each kernel generator returns a kernel exactly for its own kernel types and raises for all others; prism, pyramid and interval cells raise.",
  "every kernel type and cell type", "Whole enumerations, including future wiring.", ["cpp/contact_kernels.cpp","cpp/meshtie_kernels.cpp","cpp/rigid_surface_kernels.cpp","cpp/error_handling.cpp"])
# ---- H. elasticity -------------------------------------------------------
p("C56","Traction of a combination is the combination of tractions",
  "compute_sigma_n_u of a displacement gradient equals 2 mu eps n + lambda tr(eps) n, is linear, and equals the sum over dofs of compute_sigma_n_basis times dof values; the normal strain basis contracted as in the kernels equals the normal component of that basis traction.",
  "all gradients, normals, materials, dimensions", REAL, ["cpp/elasticity.cpp"])
p("C57","Contact forces are evaluated from the right slices",
  "compute_contact_forces returns at facet f and point q the traction computed from the gradient and normal stored for that facet and point.",
  "every number of facets and points", SIZE, ["cpp/elasticity.cpp:compute_contact_forces"])
p("C58","Rigid motions carry no stress",
  "Every vector of build_nullspace_multibody / rigid_motions_nullspace before orthonormalisation is a translation or an infinitesimal rotation of one body and zero on the others: its symmetric gradient vanishes.",
  "every mesh, body tagging, gdim 2 and 3", SIZE, ["cpp/utils.cpp:build_nullspace_multibody","python/dolfinx_contact/helpers.py:rigid_motions_nullspace_subdomains"])
# ---- I. Newton solver ----------------------------------------------------
p("C59","Newton solver terminates within its budget",
  "For every problem, solve performs at most max_it iterations and per iteration at most 7 additional residual evaluations; the returned iteration count is the number of linear solves.",
  "every residual, Jacobian and linear solver behaviour", "Quantifies over all callbacks.", ["python/dolfinx_contact/newton_solver.py:_solve"])
p("C60","Reported convergence means the tolerances hold",
  "If solve reports convergence, the final residual (or increment) norm is below atol and its ratio to the first increment norm of the solve is below rtol.",
  "every problem and every history of solves", "Quantifies over all callbacks and histories.", ["python/dolfinx_contact/newton_solver.py:_solve,_check_convergence"])
p("C61","Line search keeps the iterate on the Newton line",
  "Each iteration replaces x by x - lambda*dx with lambda = 2^-k, 0 <= k <= 6, and either the residual norm does not increase or lambda = 2^-6; the stored residual and coefficients are those of the final x.",
  "every residual and step", "Quantifies over all callbacks.", ["python/dolfinx_contact/newton_solver.py:_solve"])
p("C62","Solving from a solution returns at once",
  "If the initial guess already solves the problem exactly, solve reports convergence.",
  "every problem with a root, fresh or used solver", "History dependent.", ["python/dolfinx_contact/newton_solver.py:_solve,_check_convergence"])
p("C63","solve runs the Newton iteration once",
  "A call of solve performs one Newton iteration sequence and returns its iteration count, for Function and Vec arguments alike.",
  "both argument kinds, every problem", "Control flow through exception handlers.", ["python/dolfinx_contact/newton_solver.py:solve"])
p("C64","Newton options take effect",
  "set_newton_options stores every given option and leaves the others unchanged, raises for an unknown criterion; the relaxation parameter given by the user is the one used for the updates.",
  "every subset of options", "All subsets of keys and histories.", ["python/dolfinx_contact/newton_solver.py:set_newton_options,_update_solution"])
p("C65","Non-convergence is reported",
  "If the loop ends without convergence, solve raises iff error_on_nonconvergence is set and otherwise returns False.",
  "every problem", "Quantifies over all callbacks.", ["python/dolfinx_contact/newton_solver.py:_solve"])
# ---- J. geometry ---------------------------------------------------------
p("C66","Physical facet normals are unit and orthogonal to the facet",
  "For an invertible affine cell the computed normal has length one, is orthogonal to every image of a reference facet tangent and has positive product with the image of the reference outward direction.",
  "every invertible Jacobian and reference normal", REAL, ["cpp/geometric_quantities.h:physical_facet_normal"])
p("C67","Circumradius is the circumradius",
  "For every non-degenerate triangle and tetrahedron the computed value is the common distance of the vertices from the circumcentre; other cells raise.",
  "every non-degenerate triangle and tetrahedron", REAL, ["cpp/geometric_quantities.cpp:compute_circumradius","cpp/coefficients.cpp:pack_circumradius"])
p("C68","pull_back inverts push_forward on affine cells",
  "For every invertible affine map, pulling back a pushed forward point returns the reference point; the non-affine Newton pull-back either raises or returns a point whose last increment was below the tolerance.",
  "every affine map and point; every Newton trajectory", REAL, ["cpp/utils.cpp:pull_back","cpp/geometric_quantities.cpp:pull_back_nonaffine"])
# ---- K. meshing and plane constraints -----------------------------------
p("C69","Interface polyline replaces the interface edge",
  "get_surface_points returns the closed polygon of the domain in which the edge between corner 4 and corner 5 is replaced by the polyline, up to rotation and orientation, and raises if the two corners are not adjacent.",
  "every corner list and polyline", SIZE, ["python/dolfinx_contact/meshing/split_box.py:get_surface_points"])
p("C70","Boundary tags of split boxes partition the boundary",
  "In the split box generators every boundary line/surface gets exactly one of the boundary tags.",
  "every number of interface segments", SIZE, ["python/dolfinx_contact/meshing/split_box.py:create_surface_mesh,create_tet_mesh,create_hex_mesh"])
p("C71","Merging two meshes keeps them apart",
  "In create_split_box the merged cell and facet arrays refer to the same coordinates as before merging and no cell mixes nodes of both parts.",
  "every pair of meshes", SIZE, ["python/dolfinx_contact/meshing/split_box.py:create_split_box_2D,create_split_box_3D"])
p("C72","SNES bounds express non-penetration",
  "A displacement satisfies the SNES bounds in the last component iff the deformed node lies on or above the plane (and below the artificial limit).",
  "every node coordinate and plane location", REAL, ["python/dolfinx_contact/one_sided/snes_against_plane.py:snes_solver"])
# ---- L. added while modelling --------------------------------------------
p("C73","A default-configured Newton solver runs on every process",
  "solve on a newly constructed solver whose options were never set behaves the same on every rank and does not raise because of the missing options.",
  "every problem, rank and argument kind", "Quantifies over all callbacks; tests always set options first.", ["python/dolfinx_contact/newton_solver.py:__init__,_check_convergence,solve"])
p("C74","Link counts can be recomputed on every process",
  "Recomputing the maximal number of linked cells reads only existing entries of the contact map, with or without ghost facets on the surface.",
  "every surface and every split into local and ghost facets", "Needs particular parallel partitions; the out-of-range read is silent.", ["cpp/Contact.cpp:max_links,create_distance_map"])
p("C75","The submesh facet map is consistent with the cell map",
  "The facet map gives every submesh facet met by one of the input pairs exactly one entry, the submesh cell and local index of such a pair, and that cell has the facet at that local index; all other submesh facets have no entry.",
  "every facet list and cell-facet connectivity", SIZE, ["cpp/SubMesh.cpp:SubMesh::SubMesh","cpp/SubMesh.h:facet_map"])
p("C76","Basis functions and gradients evaluated at arbitrary points",
  "evaluate_basis_functions raises if points and cells differ in number or the space is mixed; for every point with a cell it returns the push-forward of the reference basis and K^T times its reference derivatives, regardless of earlier buffer content; for points with negative cell it returns zeros.",
  "every list of points and cells, including negative ones", SIZE, ["cpp/utils.cpp:evaluate_basis_functions"])
p("C77","Opposite gradients are gradients in the linked cell",
  "pack_grad_u_contact holds at every linked point, component and direction the gradient of u in the linked parent cell at the contact point, and zero at points without a link.",
  "every contact map, facet, point, component, direction and dof vector", SIZE, ["cpp/Contact.cpp:pack_grad_u_contact"])
p("C78","The residual kernels are the Nitsche forms they are documented to be",
  "Every entry of the residual produced by the frictionless, Tresca and Coulomb kernels equals the quadrature sum of weight, surface determinant and the integrand of the documented Nitsche form (positive part of the contact pressure, projection of the slip onto the friction ball, theta terms), tested with that entry's basis function.",
  "every facet, state, material, gamma, theta, link count, point list and dof", REAL, ["cpp/contact_kernels.cpp:unbiased_rhs,tresca_rhs,coulomb_rhs","cpp/rigid_surface_kernels.cpp:generate_rigid_surface_kernel"])
p("C79","The mesh tie residual kernels are the Nitsche forms they are documented to be",
  "Every entry of the residual produced by the elasticity, thermal stress and heat mesh tie kernels equals the quadrature sum of half the weight times surface determinant and the integrand of the documented Nitsche form (average traction or flux, jump, theta and penalty terms), tested with that entry's basis function on its side of the interface.",
  "every facet, state, material, gamma, theta, link count, point list and dof", REAL, ["cpp/meshtie_kernels.cpp:meshtie_rhs,meshtie_thermo_elastic,poisson_rhs"])
p("C80","Ray tracing is exact on affine facets",
  "If the facet is affine and not parallel to the ray, and the iteration limit is at least two, raytracing_cell returns status 1 when the intersection of the line with the plane of the facet lies in the facet (enlarged by the tolerance) and -3 otherwise, and the parameters found are within the tolerance of the intersection.",
  "every affine facet, ray, iteration limit and tolerance", REAL, ["cpp/RayTracing.h:raytracing_cell"])
p("C81","A friction coefficient that is not given is zero",
  "After generate_contact_data without a friction coefficient the packed friction coefficient is zero, as documented.",
  "every history of calls", "Depends on all earlier calls on the same object.", ["python/dolfinx_contact/general_contact/contact_problem.py:retrieve_material_parameters,generate_contact_data"])
p("C82","crop_invalid_points works on generated contact data",
  "On every object whose data were generated, crop_invalid_points(tol) sets the gap and normals of invalid points to zero, without raising.",
  "every history of calls", "No unit test calls it; types of the arguments of the binding have to be compared with the shapes of the arrays for every history.", ["python/dolfinx_contact/general_contact/contact_problem.py:crop_invalid_points","python/dolfinx_contact/wrappers.cpp:crop_invalid_points"])
p("C83","A generate_contact_data that raises leaves the object unchanged",
  "If generate_contact_data raises because a coefficient is missing, the object behaves as before the call.",
  "every state of the object and every set of arguments", "Every state and every failure point.", ["python/dolfinx_contact/general_contact/contact_problem.py:generate_contact_data"])
p("C84","Kernels and Nitsche parameters are those given last",
  "After every sequence of calls, some of which may have raised, the matrix kernels are those of the friction law given last, each vector kernel is the residual of the matrix kernel at the same position, and gamma and theta are those given last.",
  "every history of calls with arguments of any shape, including calls that raise", "Quantifies over histories.", ["python/dolfinx_contact/general_contact/contact_problem.py:generate_contact_data,update_nitsche_parameters"])
p("C85","h_surfaces is the mean cell diameter of every pair",
  "After every sequence of calls h_surfaces returns for every contact pair the mean, over its active facets, of the cell diameters packed last.",
  "every history of calls and every number of facets", "Quantifies over histories.", ["python/dolfinx_contact/general_contact/contact_problem.py:h_surfaces"])
p("C86","MeshTie updates write only solution data, in every order of calls",
  "For every sequence of generate_kernel_data and update_kernel_data calls, for any mix of problem types, no call writes outside the coefficient vectors, and an update changes nothing but the solution part of the rows.",
  "every sequence of calls and problem types", "Quantifies over histories; out-of-range writes are silent.", ["cpp/MeshTie.cpp:update_kernel_data,update_function_data,update_gradient_data"])
p("C87","MeshTie.generate_kernel_data does not depend on earlier calls",
  "After generate_kernel_data the data and kernels used for assembly depend on the arguments of that call only.",
  "every pair of histories before the call", "Quantifies over histories.", ["cpp/MeshTie.cpp:generate_kernel_data,generate_meshtie_data_matrix_only,generate_poisson_data_matrix_only"])
p("C88","A MeshTie call that raises leaves the object unchanged",
  "If generate_kernel_data or update_kernel_data raises because a coefficient is missing, the object is as before the call.",
  "every state of the object and every set of arguments", "Every state and every failure point.", ["cpp/MeshTie.cpp:generate_kernel_data,update_kernel_data"])
p("C89","Near null space of bodies",
  "Vector j of near_nullspace_subdomains, before orthonormalisation, is one in every component of every node of body j and zero on the other bodies.",
  "every mesh, body tagging and block size", SIZE, ["python/dolfinx_contact/helpers.py:near_nullspace_subdomains"])
p("C90","Python and C++ null spaces agree",
  "rigid_motions_nullspace_subdomains and build_nullspace_multibody compute the same vectors before orthonormalisation, on every process.",
  "every mesh, body tagging, distribution over processes, gdim 2 and 3", SIZE, ["python/dolfinx_contact/helpers.py:rigid_motions_nullspace_subdomains","cpp/utils.cpp:build_nullspace_multibody"])
p("C91","pack_nx returns the outward unit normals of the quadrature surface",
  "Entry (facet i, point q) of pack_nx is the unit normal, in the current position of the contact submesh, of the i-th local facet of the surface at its q-th quadrature point: orthogonal to the facet and pointing to the outside. Unsupported cell types raise.",
  "every mesh, surface, quadrature rule and affine or nonaffine cell geometry", REAL, ["cpp/Contact.cpp:pack_nx","cpp/geometric_quantities.cpp:push_forward_facet_normal"])
p("C92","pack_ny returns the outward unit normals at the contact points",
  "Entry (facet i, point q) of pack_ny is the outward unit normal at the contact point of the facet the quadrature point is linked to, and zero if it is not linked. It raises if a connectivity is missing or the cell type is unsupported and the process has a facet.",
  "every mesh, pair of surfaces and contact map", REAL, ["cpp/Contact.cpp:pack_ny"])
p("C93","Closest point projection finds the nearest point of the candidate surface",
  "In closest point mode every quadrature point is linked to a candidate facet, its contact point lies on that facet, no point of any candidate facet is nearer, and the packed gap is a shortest vector from the quadrature point to the candidate surface. Without candidates no point is linked.",
  "every mesh of affine cells, quadrature rule and set of exterior candidate facets", REAL, ["cpp/utils.h:compute_projection_map","cpp/utils.cpp:compute_distance_map","cpp/Contact.cpp:create_distance_map,pack_gap"])
p("C94","create_contact_mesh keeps the facet and cell markers",
  "On every process, an entity of the new mesh is marked if and only if some process of the input mesh marked an entity with the same vertices, and then with its value; indices are sorted and unique. Copies of an entity marked by several processes are allowed.",
  "every mesh, distribution over any number of processes, set of markers and vertex numbering of the new mesh", "Depends on the distribution over processes and on the renumbering of the new mesh.", ["cpp/parallel_mesh_ghosting.cpp:create_contact_mesh,copy_to_all,lex_match"])
p("C95","create_contact_mesh keeps cells and coordinates",
  "The mesh is rebuilt from exactly the owned cells of every process, with the global vertex indices of the input mesh, and every vertex keeps its coordinates.",
  "every mesh, distribution and numbering of vertices and geometry nodes", "The numbering of geometry nodes is up to the library.", ["cpp/parallel_mesh_ghosting.cpp:create_contact_mesh"])
p("C96","create_contact_mesh shares the cells that can come into contact",
  "Every owned cell stays on its process and is sent to exactly those other processes that have a facet with one of the tags whose midpoint is closer than R to the midpoint of such a facet of the cell.",
  "every mesh, distribution over any number of processes, tags and radius", "Depends on the distribution over processes and on the sorting of ties.", ["cpp/parallel_mesh_ghosting.cpp:create_contact_mesh,compute_ghost_cell_destinations","cpp/point_cloud.cpp:point_cloud_pairs"])
p("C97","The contact term vanishes to the traction work exactly at Signorini's conditions",
  "The pointwise equation the contact and rigid surface kernels enforce (R_plus or R_minus of the contact argument equals the scaled normal traction) holds if and only if there is no penetration, no adhesion and no pressure across an open gap, for every positive gamma/h. At such a displacement the kernels add just the virtual work of the normal traction, independent of gamma and theta.",
  "every gap, displacement, traction, gamma, theta, h, mesh dimension, set of linked cells and test function", REAL, ["cpp/contact_kernels.cpp:generate_contact_kernel","cpp/rigid_surface_kernels.cpp","cpp/utils.cpp:R_plus,R_minus","python/dolfinx_contact/helpers.py:R_minus"])
p("C98","The friction terms vanish to the traction work exactly at the friction law",
  "The pointwise equation the friction kernels enforce (ball projection of the friction argument equals the scaled tangential traction) holds if and only if the tangential traction is within the bound and, where there is slip, has the size of the bound and opposes the slip. At such a displacement the Tresca and Coulomb kernels add just the virtual work of the tangential traction, and together with the frictionless kernel that of the whole traction.",
  "every slip, traction, bound, gamma, theta, h, dimension two and three, set of linked cells and test function", REAL, ["cpp/contact_kernels.cpp:generate_contact_kernel","cpp/utils.cpp:ball_projection"])
p("C99","theta = 1 gives symmetric matrices",
  "With theta = 1 the element matrices of a facet (cell and linked cells) of the frictionless, Tresca and rigid surface kernels form a symmetric matrix, whatever the contact status.",
  "every mesh, contact status, gamma, h, linked cells and quadrature points", REAL, ["cpp/contact_kernels.cpp:generate_contact_kernel","cpp/rigid_surface_kernels.cpp:generate_rigid_surface_kernel"])
p("C100","theta = -1 gives positive semidefinite matrices for every gamma",
  "With theta = -1 the quadratic form of the element matrices of a facet of the frictionless, Tresca, rigid surface and mesh tie kernels is not negative for any positive gamma and h and any contact status, provided the quadrature weights are not negative and every point has one linked cell.",
  "every mesh, contact status, positive gamma and h, vector of dofs", REAL, ["cpp/contact_kernels.cpp:generate_contact_kernel","cpp/rigid_surface_kernels.cpp:generate_rigid_surface_kernel","cpp/meshtie_kernels.cpp:generate_meshtie_kernel,generate_poisson_kernel"])
p("C101","One-sided Jacobian forms are the derivatives of the residual forms",
  "The hand-written Jacobian forms of nitsche_ufl, nitsche_rigid_surface and nitsche_custom are the directional derivatives of the residual forms, with weak and strong Dirichlet conditions, at every displacement that is nowhere on the border between contact and no contact. nitsche_custom raises without nitsche_bc.",
  "every mesh, quadrature rule, material, gamma, theta, displacement, direction and test function", REAL, ["python/dolfinx_contact/one_sided/nitsche_ufl.py:nitsche_ufl","python/dolfinx_contact/one_sided/nitsche_rigid_surface.py:nitsche_rigid_surface","python/dolfinx_contact/one_sided/nitsche_custom.py:nitsche_custom"])
p("C102","One-sided forms are consistent",
  "For a displacement that meets Signorini's conditions for the plane and the Dirichlet condition, the residual forms of nitsche_ufl and nitsche_rigid_surface are the balance of virtual work, whatever gamma, theta and the cell size are; weak_dirichlet adds minus the work of the reaction.",
  "every mesh, quadrature rule, material, positive gamma, theta, displacement and test function", REAL, ["python/dolfinx_contact/one_sided/nitsche_ufl.py:nitsche_ufl","python/dolfinx_contact/one_sided/nitsche_rigid_surface.py:nitsche_rigid_surface","python/dolfinx_contact/helpers.py:weak_dirichlet,sigma_func,epsilon,R_minus"])
p("C103","One-sided Jacobian forms are symmetric for theta = 1 and stable for theta = -1",
  "With theta = 1 the Jacobian forms of nitsche_ufl and nitsche_rigid_surface are symmetric. With theta = -1 they are bounded below by the elastic energy of the direction for every positive gamma, which is not negative for E > 0 and 0 <= nu < 1/2.",
  "every mesh, material, displacement, direction and positive gamma", REAL, ["python/dolfinx_contact/one_sided/nitsche_ufl.py:nitsche_ufl","python/dolfinx_contact/one_sided/nitsche_rigid_surface.py:nitsche_rigid_surface","python/dolfinx_contact/helpers.py:lame_parameters"])
p("C104","nitsche_ufl and nitsche_custom discretise the same problem",
  "For the same arguments nitsche_ufl and nitsche_custom assemble the same residual.",
  "every mesh, material, gamma, theta, displacement and test function", REAL, ["python/dolfinx_contact/one_sided/nitsche_ufl.py:nitsche_ufl","python/dolfinx_contact/one_sided/nitsche_custom.py:nitsche_custom","cpp/rigid_surface_kernels.cpp:generate_rigid_surface_kernel"])
p("C105","Contact data of the one-sided drivers belongs to the current iterate on every process",
  "Whenever the Newton solver asks the custom one-sided drivers for a residual, every process evaluates its contact facets at the current iterate, including the values it does not own.",
  "every number of processes, distribution of cells and dofs, and sequence of iterates including line search steps", "Needs several processes and every history of iterates; on one process the difference is invisible.", ["python/dolfinx_contact/one_sided/nitsche_custom.py:assemble_residual","python/dolfinx_contact/one_sided/nitsche_rigid_surface_custom.py:pack_coefficients,compute_residual","python/dolfinx_contact/newton_solver.py:_solve"])
p("C106","The residual of the one-sided drivers is the residual of the whole problem",
  "The residual entry the Newton solver sees for a dof is the sum of the contributions of all cells and facets on all processes.",
  "every number of processes, distribution of cells and dofs, and iterate", "Needs several processes with shared dofs; on one process the difference is invisible.", ["python/dolfinx_contact/one_sided/nitsche_custom.py:assemble_residual","python/dolfinx_contact/one_sided/nitsche_rigid_surface_custom.py:compute_residual"])
p("C107","SNES problem callbacks give an exact constrained Newton step",
  "The residual of NonlinearPDE_SNESProblem is x - u_D on constrained dofs and the lifted residual of the form elsewhere, on any number of processes and whatever the ghosts of x hold; a Newton step with its Jacobian meets the boundary condition exactly and solves the linearised equations of all other dofs with the full matrix.",
  "every number of processes, distribution, set of constrained dofs, iterate and form", "Ranges over all distributions of dofs and all forms.", ["python/dolfinx_contact/helpers.py:NonlinearPDE_SNESProblem"])
p("C108","ContactWriter.write stores the contact tractions of the solution",
  "ContactWriter.write stores, at every quadrature point of every contact facet, the component of the traction of the solution along the contact direction and the size of the rest, in the dofs of that facet of the facet mesh.",
  "every number of pairs, facets, quadrature points, materials and displacements", REAL, ["python/dolfinx_contact/output.py:ContactWriter.write","python/dolfinx_contact/wrappers.cpp:compute_contact_forces","cpp/elasticity.cpp:compute_contact_forces"])
p("C109","Writing output does not change the contact problem",
  "After ContactWriter.write the contact problem behaves as before: contact data generated next is the same as without the call.",
  "every history of calls on the contact problem", "Ranges over all histories; the change shows only in calls after the output.", ["python/dolfinx_contact/output.py:ContactWriter.write","python/dolfinx_contact/general_contact/contact_problem.py:ContactProblem","cpp/Contact.cpp:update_submesh_geometry"])
p("C110","qp_phys returns the quadrature points of the facets of a contact pair",
  "After contact detection, qp_phys(i, j) returns the physical quadrature points of the j-th facet of the i-th contact pair.",
  "every list of contact pairs, mesh, facet and quadrature rule", REAL, ["cpp/Contact.cpp:qp_phys,create_q_phys,create_distance_map","python/dolfinx_contact/wrappers.cpp:qp_phys","python/dolfinx_contact/output.py:plot_gap"])
p("C111","Output projects exactly the contact facets and restores the mesh",
  "While ContactWriter writes, exactly the chosen coordinate of the nodes of the contact facets has the chosen value, that of the last pair the node belongs to; afterwards the geometry of the facet mesh is as before.",
  "every facet mesh, list of pairs and projection coordinates", SIZE, ["python/dolfinx_contact/output.py:ContactWriter.project,ContactWriter.restore"])
p("C112","update_contact_data stores the displacement the kernels see",
  "After the contact data were generated, update_contact_data(u) succeeds, changes only the coefficients, and afterwards the coefficients of every owned contact facet hold the value and total gradient of u on the facet and the value of u at the contact points of the opposite surface.",
  "every history of calls, mesh, displacement space, contact map, facet and displacement", REAL, ["python/dolfinx_contact/general_contact/contact_problem.py:ContactProblem.update_contact_data","cpp/Contact.cpp:pack_u_contact,pack_test_functions","cpp/coefficients.cpp:pack_coefficient_quadrature,pack_gradient_quadrature"])
p("C113","The assembled matrix is the derivative of the assembled vector",
  "At any time after the contact data were generated, the matrix of assemble_matrix is the derivative of the vector of assemble_vector with respect to the displacement passed to update_contact_data, wherever no point switches between contact and separation or stick and slip.",
  "every history of calls, friction law, mesh, displacement space, contact map, displacement and direction", REAL, ["python/dolfinx_contact/general_contact/contact_problem.py:ContactProblem.assemble_vector,ContactProblem.assemble_matrix,ContactProblem.update_contact_data","cpp/Contact.cpp:assemble_vector,assemble_matrix","cpp/contact_kernels.cpp:generate_contact_kernel"])
p("C114","assemble_vector is Nitsche's form of the contact problem",
  "The vector assembled after update_contact_data(u), tested with any virtual displacement v, equals the quadrature sum over the owned contact facets of Nitsche's contact and friction terms at the total displacement, with the material, friction coefficient, penalty, normals, gaps and earlier displacement given last.",
  "every history of calls, friction law, mesh, displacement space, contact map, displacement and virtual displacement", REAL, ["python/dolfinx_contact/general_contact/contact_problem.py:ContactProblem.assemble_vector,ContactProblem.update_contact_data","cpp/Contact.cpp:assemble_vector","cpp/contact_kernels.cpp:generate_contact_kernel"])
p("C115","Assembled contact forces balance",
  "The entries of the assembled contact vector that belong to one component sum to zero: the force on one surface is opposite to the force on the other.",
  "every history of calls, friction law, mesh, displacement space, contact map and displacement", REAL, ["python/dolfinx_contact/general_contact/contact_problem.py:ContactProblem.assemble_vector","cpp/Contact.cpp:assemble_vector","cpp/contact_kernels.cpp:generate_contact_kernel"])
p("C116","The assembled matrix is symmetric for theta = 1 and positive semidefinite for theta = -1",
  "Without friction and with Tresca friction, assemble_matrix builds a symmetric matrix if theta = 1, and a positive semidefinite one if theta = -1 for every positive gamma, whatever the contact status.",
  "every history of calls, mesh, displacement space, contact map and displacement", REAL, ["python/dolfinx_contact/general_contact/contact_problem.py:ContactProblem.assemble_matrix","cpp/Contact.cpp:assemble_matrix","cpp/contact_kernels.cpp:generate_contact_kernel"])
p("C117","MeshTie assembles Nitsche's form of tied bodies",
  "The matrix MeshTie.assemble_matrix builds, between a displacement (temperature) u and a virtual one v, equals the quadrature sum over the owned facets and their tied points of Nitsche's coupling terms with the material, gamma and theta given last; the vector assemble_vector builds, tested with v, equals the same form of the solution given last, for thermo-elasticity plus the thermal stress of the temperature given last.",
  "every history of generate_kernel_data and update_kernel_data calls, problem type, mesh, function space, contact map, solution and virtual solution", REAL, ["python/dolfinx_contact/wrappers.cpp:MeshTie","cpp/MeshTie.cpp:generate_kernel_data,update_kernel_data,assemble_vector,assemble_matrix","cpp/meshtie_kernels.cpp"])
p("C118","MeshTie's vector is its matrix times the solution",
  "For elasticity and heat conduction, the vector assemble_vector adds is the matrix assemble_matrix adds times the dofs of the solution given last, so that one linear solve suffices.",
  "every history of calls, mesh, function space, contact map and solution", REAL, ["cpp/MeshTie.cpp:assemble_vector,assemble_matrix","cpp/meshtie_kernels.cpp","cpp/Contact.cpp:pack_test_functions"])
p("C119","MeshTie's matrix is symmetric for theta = 1 and positive semidefinite for theta = -1",
  "With theta = 1 the matrix MeshTie.assemble_matrix builds is symmetric; with theta = -1 it is positive semidefinite for every positive gamma, for all three problem types and whichever points are tied.",
  "every history of calls, problem type, mesh, function space and contact map", REAL, ["cpp/MeshTie.cpp:assemble_matrix","cpp/meshtie_kernels.cpp"])
p("C120","MeshTie's forces and fluxes balance",
  "The entries of the vector MeshTie.assemble_vector builds that belong to one component sum to zero: force (heat flux) on one body is opposite to that on the other, whatever solution was given and whichever points are tied.",
  "every history of calls, problem type, mesh, function space, contact map and solution", REAL, ["cpp/MeshTie.cpp:assemble_vector","cpp/meshtie_kernels.cpp","cpp/Contact.cpp:pack_test_functions"])
p("C121","Moving tied bodies together costs nothing",
  "The matrix MeshTie.assemble_matrix builds maps every common translation of both bodies (every constant temperature) to zero.",
  "every history of calls, problem type, mesh, function space and contact map", REAL, ["cpp/MeshTie.cpp:assemble_matrix","cpp/meshtie_kernels.cpp","cpp/Contact.cpp:pack_test_functions"])
p("C122","With theta = -1 the contact vector is a monotone function of the displacement",
  "Without friction and with Tresca friction, if theta = -1 then for every positive gamma and any two displacements, the difference of the vectors assembled after update_contact_data tested with the difference of the displacements is not negative, whatever the contact status of either.",
  "every history of calls, mesh, displacement space, contact map and pair of displacements", REAL, ["python/dolfinx_contact/general_contact/contact_problem.py:ContactProblem.assemble_vector,ContactProblem.update_contact_data","cpp/contact_kernels.cpp:generate_contact_kernel","cpp/utils.cpp:ball_projection,R_plus"])
p("C123","Linear solver options have the value given last",
  "In a program with one NewtonSolver, after any sequence of set_krylov_options and update_krylov_solver calls every option of linear solver, matrix and vector has the value given last, and options never given are not set.",
  "every sequence of calls and dictionaries", "The options live in a table shared by the whole program; tests make one call with one dictionary.", ["python/dolfinx_contact/newton_solver.py:NewtonSolver.set_krylov_options,NewtonSolver.update_krylov_solver"])
p("C124","update_krylov_solver starts afresh",
  "After update_krylov_solver(options) the new linear solver has exactly the options given.",
  "every history of calls and dictionaries", "Depends on all options given before.", ["python/dolfinx_contact/newton_solver.py:NewtonSolver.update_krylov_solver"])
p("C125","Options of one Newton solver do not affect another",
  "The options of the linear solver of a NewtonSolver do not depend on the options given to other NewtonSolver objects.",
  "every interleaving of calls on several solvers", "Depends on the interleaving of calls.", ["python/dolfinx_contact/newton_solver.py:NewtonSolver.__init__,NewtonSolver.set_krylov_options"])
p("C126","Multigrid options take effect",
  "pc_mg_levels and pc_mg_cycles given to set_krylov_options are applied to the preconditioner.",
  "every dictionary", "Tests do not look at the preconditioner for every combination of options.", ["python/dolfinx_contact/newton_solver.py:NewtonSolver.set_krylov_options"])
p("C127","Python derivatives of the ball projection are its derivatives",
  "d_ball_projection and d_alpha_ball_projection of dolfinx_contact.helpers are the derivatives of helpers.ball_projection with respect to vector and radius wherever the vector is not on the sphere.",
  "every dimension, vector, radius and direction", REAL, ["python/dolfinx_contact/helpers.py:ball_projection,d_ball_projection,d_alpha_ball_projection"])
p("C128","Python and C++ derivatives of the ball projection agree",
  "helpers.d_ball_projection and helpers.d_alpha_ball_projection, used in UFL forms, have the values of d_ball_projection and d_alpha_ball_projection of the C++ kernels.",
  "every vector and radius, in two and three dimensions", REAL, ["python/dolfinx_contact/helpers.py:d_ball_projection,d_alpha_ball_projection","cpp/utils.cpp:d_ball_projection,d_alpha_ball_projection"])
p("C129","compare_matrices passes exactly if all entries agree",
  "compare_matrices(a, b, atol) passes if and only if no entry of the matrices differs by more than atol, on any number of processes.",
  "every pair of matrices, tolerance and distribution over processes", SIZE, ["python/dolfinx_contact/helpers.py:compare_matrices"])
p("C130","The contact vector does not depend on the number of processes",
  "If every facet of the contact surfaces is owned by exactly one process and all processes make the same calls, summing the vectors assembled by the processes over shared dofs gives the vector assembled by a single process.",
  "every contact problem, distribution over processes, numbering, law, history of calls and displacement", SIZE, ["python/dolfinx_contact/general_contact/contact_problem.py:generate_contact_data,update_contact_data","cpp/Contact.cpp:assemble_vector"])
p("C131","The assembled matrix is the linearised contact form",
  "After update_contact_data(u) the assembled matrix, applied to test and trial functions, is the derivative of Nitsche's weak form at u; away from the contact and the stick/slip switch it is the derivative of the assembled vector.",
  "every valid contact problem, law, history of calls, displacement, test and trial function", REAL, ["cpp/Contact.cpp:assemble_matrix","cpp/contact_kernels.cpp","cpp/utils.cpp:d_ball_projection,d_alpha_ball_projection"])
p("C132","The contact matrix does not depend on the number of processes",
  "If every facet of the contact surfaces is owned by exactly one process and all processes make the same calls, summing the matrices assembled by the processes over shared entries gives the matrix assembled by a single process.",
  "every contact problem, distribution over processes, numbering, law, history of calls and displacement", SIZE, ["python/dolfinx_contact/general_contact/contact_problem.py:generate_contact_data,update_contact_data","cpp/Contact.cpp:assemble_matrix"])
p("C133","The contact vector and matrix do not depend on the coordinate system",
  "If the mesh is rotated or reflected by an orthogonal matrix Q and shifted, the normals and gap vectors of the contact search and all displacements are rotated alike, and the same calls are made, then the assembled contact vector is Q times and the matrix Q A Q^T of the one in the first coordinate system.",
  "every contact problem in up to three dimensions with non-degenerate cells, orthogonal matrix, shift, law, history of calls and displacement", REAL, ["python/dolfinx_contact/general_contact/contact_problem.py:generate_contact_data,update_contact_data","cpp/Contact.cpp:assemble_vector,assemble_matrix","cpp/contact_kernels.cpp:generate_contact_kernel","cpp/KernelData.h:update_jacobian","cpp/geometric_quantities.cpp:push_forward_facet_normal"])
p("C134","A Newton step is exact while the contact status does not change",
  "If between two displacements every contact point stays open or stays closed, and with friction every point sticks at both, then the contact vector at the second displacement is the one at the first plus the contact matrix times the difference: for a linear bulk problem one Newton step with the assembled matrix then leaves a residual of zero.",
  "every contact problem with valid data, law, history of calls, pair of displacements with the same status, and linear bulk matrix and load", REAL, ["python/dolfinx_contact/general_contact/contact_problem.py:generate_contact_data,update_contact_data","cpp/Contact.cpp:assemble_vector,assemble_matrix","cpp/contact_kernels.cpp:generate_contact_kernel","python/dolfinx_contact/newton_solver.py:NewtonSolver.solve"])
p("C135","The symmetric variant of Nitsche's method minimises an energy",
  "With theta = 1 and frictionless contact or Tresca friction, the assembled contact vector is the gradient of one energy function of the displacement, at every displacement, also where contact or stick/slip status switches; a displacement that minimises bulk energy plus contact energy satisfies the assembled equations.",
  "every contact problem with valid data and nonnegative friction bound, history of calls, displacement, direction, symmetric bulk matrix and load", REAL, ["python/dolfinx_contact/general_contact/contact_problem.py:generate_contact_data,update_contact_data","cpp/Contact.cpp:assemble_vector","cpp/contact_kernels.cpp:generate_contact_kernel"])
p("C136","The contact vector is a continuous function of the displacement",
  "The contact vector computed by update_contact_data and assemble_vector changes continuously with the displacement for every friction law: no jump occurs where a point opens, closes, sticks or slips.",
  "every contact problem with valid data and nonnegative friction, law, history of calls and displacement", REAL, ["python/dolfinx_contact/general_contact/contact_problem.py:update_contact_data","cpp/Contact.cpp:assemble_vector","cpp/contact_kernels.cpp:generate_contact_kernel","cpp/utils.cpp:ball_projection,R_plus"])
p("C137","Friction with coefficient zero",
  "If the friction coefficient is zero, the same calls made with Tresca and with Coulomb friction give the same contact vector and matrix; with theta = 0 they are those of frictionless contact, otherwise the vector differs from the frictionless one by exactly the term theta h/(2 gamma) sigma_t(u).sigma_t(v).",
  "every contact problem with valid data, history of calls, Nitsche parameters and displacement", REAL, ["python/dolfinx_contact/general_contact/contact_problem.py:generate_contact_data,update_contact_data","cpp/Contact.cpp:assemble_vector,assemble_matrix","cpp/contact_kernels.cpp:generate_contact_kernel"])
p("C138","The next load step goes on where the last one ended",
  "update_contact_detection(U + w) after an increment w only changes the meaning of the displacement from increment to U to increment to U + w: for every further increment v the contact vector and matrix at v after the call are those at w + v before it, as long as the search finds the same contact points and normals and, with friction, no point slid during the step.",
  "every contact problem with valid data, law, history of calls, displacement of earlier steps, increment of the step and further increment", REAL, ["python/dolfinx_contact/general_contact/contact_problem.py:update_contact_detection,update_contact_data,generate_contact_data","cpp/Contact.cpp:assemble_vector,assemble_matrix","cpp/contact_kernels.cpp:generate_contact_kernel"])
p("C139","A converged solve satisfies the contact equations",
  "If NewtonSolver.solve, with the callbacks of the demos on a ContactProblem, returns converged by the residual criterion, the increment it leaves attains the prescribed values up to atol and balances bulk forces and Nitsche's contact form up to atol for every virtual displacement, and the contact problem holds the data of exactly that increment.",
  "every contact problem with valid data and history of calls, bulk forms, boundary conditions, linear solver (right or wrong), initial guess and options", REAL, ["python/demos/demo_nitsche_unbiased.py:compute_coefficients,compute_residual,compute_jacobian_matrix","python/dolfinx_contact/newton_solver.py:NewtonSolver.solve","python/dolfinx_contact/general_contact/contact_problem.py:update_contact_data,assemble_vector,assemble_matrix"])
p("C140","A computation in load steps adds up its increments and solves each step on the moved geometry",
  "In the loop over load steps (solve, add du to u, update_contact_detection(u), scale du, update_contact_data) the contact problem never raises, step i starts from the sum of the increments of steps before i, and if step i converged its increment satisfies the equations of that step for the contact detected on the geometry moved by that sum, with the stresses of that sum.",
  "every contact problem, number of load steps, loads and forms of each step, linear solver, outcome of each solve", REAL, ["python/demos/demo_nitsche_unbiased.py","python/dolfinx_contact/newton_solver.py:NewtonSolver.solve","python/dolfinx_contact/general_contact/contact_problem.py:update_contact_detection,update_contact_data"])
p("C141","The Newton iteration ends as soon as the contact status no longer changes",
  "With linearly elastic bulk, if the linear solver solves its system and no contact point opens, closes or starts to slide from x to x - dx, the next iterate is x - dx, its residual is exactly zero and solve returns converged; if that holds for the first step, solve needs at most one iteration.",
  "every contact problem with valid data and history, stiffness matrix, loads, boundary conditions away from the contact surface, initial guess, positive tolerances", REAL, ["python/dolfinx_contact/newton_solver.py:NewtonSolver.solve,_solve","python/demos/demo_nitsche_unbiased.py:compute_residual,compute_jacobian_matrix","cpp/contact_kernels.cpp:generate_contact_kernel"])
p("C142","The matrix of create_matrix has room for all contact terms until contact is detected again",
  "A matrix made by create_matrix holds every entry that assemble_matrix adds after any further calls except update_contact_detection, so assembly into it succeeds and gives the full contact matrix; after update_contact_detection an old matrix does not suffice: if a facet is now linked to a cell with which it had no coupling in the pattern, assembly fails. For tied surfaces every matrix made by create_matrix suffices.",
  "every contact problem with valid data, history of calls before and after creating the matrix, friction law, pattern of the bilinear form with the cells' own couplings; every tie, problem and state", SIZE, ["cpp/Contact.cpp:create_petsc_matrix,assemble_matrix","python/dolfinx_contact/general_contact/contact_problem.py:create_matrix,assemble_matrix,update_contact_detection","cpp/MeshTie.cpp:assemble_matrix"])
p("C143","The contact problem has exactly one solution",
  "Without friction and with Tresca friction, for every load and all prescribed displacements there is exactly one displacement at which stiffness matrix times displacement minus load plus the vector assemble_vector builds after update_contact_data vanishes at the free dofs, and it depends on the load continuously. For theta = -1 this holds for every positive gamma if the stiffness matrix is positive definite on the free dofs; for other theta if the elastic energy exceeds (1 + theta)^2 / (8 gamma) times the mesh-weighted square of the contact tractions (a discrete trace inequality with gamma large enough).",
  "every history of calls, mesh, theta, positive gamma, stiffness matrix, load, set of constrained dofs and their values", REAL, ["cpp/Contact.cpp:assemble_vector","cpp/contact_kernels.cpp:generate_contact_kernel","python/dolfinx_contact/general_contact/contact_problem.py:update_contact_data,assemble_vector"])
p("C144","The linear system of every Newton step has exactly one solution",
  "Under the conditions of C143, at every displacement, whatever its contact status, the system with the stiffness matrix plus the matrix assemble_matrix builds, restricted to the free dofs, has exactly one solution for every right-hand side.",
  "every history of calls, mesh, theta, positive gamma, displacement, stiffness matrix, right-hand side and set of constrained dofs", REAL, ["cpp/Contact.cpp:assemble_matrix","cpp/contact_kernels.cpp:generate_contact_kernel","python/dolfinx_contact/newton_solver.py:solve"])
p("C145","Without friction a Newton step from near the solution gives the solution",
  "Without friction there is a neighbourhood of the solution, also if it has points at the switch between open and closed, such that from every displacement in it with the prescribed values one Newton step with the assembled matrix and vector gives exactly the solution.",
  "every history of calls, mesh, theta and gamma as in C143, stiffness matrix, load, solution, displacement near it", REAL, ["cpp/Contact.cpp:assemble_vector,assemble_matrix","cpp/contact_kernels.cpp:generate_contact_kernel","python/dolfinx_contact/newton_solver.py:solve"])
p("C146","Tied problems have exactly one solution, also with floating bodies",
  "With the matrix MeshTie.assemble_matrix builds (elasticity, thermo-elasticity, heat conduction) added to the matrix of the bodies, every load and all prescribed values give exactly one solution, if gamma is positive, the energy of the bodies controls (1 + theta)^2 / (8 gamma) times the mesh-weighted square of the mean tractions with a factor less than one, and no function other than zero has zero energy and no jump at the tied points. No body needs constraints of its own: the tie fixes it.",
  "every history of calls, mesh, theta, positive gamma, matrix of the bodies, load, set of constrained dofs and their values", REAL, ["cpp/MeshTie.cpp:assemble_matrix","cpp/meshtie_kernels.cpp:generate_meshtie_kernel,generate_poisson_kernel"])
p("C147","Exact solutions are not disturbed by Nitsche's terms",
  "At a displacement that meets Signorini's conditions and the friction law (none, Tresca, Coulomb) at every linked point, the vector assemble_vector builds is minus half the virtual work of the contact tractions on the jump, whatever gamma, theta and the mesh size are. So a displacement which also balances the load is the one solution of the assembled problem (no friction, Tresca). For tied bodies the same holds of the vector, and of the matrix times the function, for functions that do not jump at the tied points.",
  "every history of calls, mesh, friction law, theta, positive gamma, displacement that meets the contact conditions, virtual displacement", REAL, ["cpp/Contact.cpp:assemble_vector","cpp/contact_kernels.cpp:generate_contact_kernel","cpp/MeshTie.cpp:assemble_vector,assemble_matrix","python/dolfinx_contact/general_contact/contact_problem.py:update_contact_data,assemble_vector"])
p("C148","Tied bodies do not depend on how the mesh is distributed",
  "The vector and the matrix MeshTie assembles for a mesh distributed over several processes (elasticity, heat conduction, thermo-elasticity), added up over the processes, are those of a single process.",
  "every mesh, distribution of its facets over any number of processes, numbering of cells and dofs on each, history of calls, material, solution and temperature", SIZE, ["cpp/MeshTie.cpp:MeshTie,assemble_vector,assemble_matrix","cpp/Contact.cpp:crop_invalid_points"])
p("C149","Contact.facet_map gives facets of the mesh",
  "The map Contact.facet_map returns has one entry per quadrature point of the contact surface: -1 for a point that is not linked, and otherwise the index, in the mesh, of the facet the point is linked to.",
  "every mesh, list of contact facets, submesh numbering and contact map", SIZE, ["python/dolfinx_contact/wrappers.cpp:facet_map","cpp/SubMesh.cpp:SubMesh"])
p("C150","The gap of nitsche_rigid_surface belongs to the facet the point lies on",
  "nitsche_rigid_surface uses at every node of the contact surface the vector to the facet of the rigid surface that was found for the contact facet the node lies on, and zero elsewhere.",
  "every mesh numbering, set of contact facets, node and result of contact detection", SIZE, ["python/dolfinx_contact/one_sided/nitsche_rigid_surface.py:gap","cpp/utils.cpp:compute_active_entities"])
p("C151","Tied bodies do not depend on the coordinate system",
  "If the mesh is rotated or reflected by Q and shifted, the matrix MeshTie.assemble_matrix builds for elasticity and thermo-elasticity becomes Q A Q^T and the vector is rotated by Q when the displacement is; for heat conduction both stay the same.",
  "every mesh, function space, material, solution, temperature, orthogonal matrix and shift, and every history of calls", REAL, ["cpp/MeshTie.cpp:assemble_matrix","cpp/MeshTie.cpp:assemble_vector","cpp/meshtie_kernels.cpp"])
p("C152","Closest points do not depend on how the mesh is distributed",
  "In closest point mode, a process which holds the candidate facets whose midpoints are at a distance below R from the midpoints of its own contact facets (what create_contact_mesh is asked for) finds contact points exactly as near as a single process with the whole candidate surface, wherever the gap is less than R minus the extents of the two facets; where the nearest point is unique it is the same point.",
  "every mesh of affine cells, candidate surface, distribution, quadrature rule and radius R", SIZE, ["cpp/utils.h:compute_projection_map","cpp/utils.cpp:compute_distance_map","cpp/parallel_mesh_ghosting.cpp:create_contact_mesh"])
p("C153","Contact results do not depend on the units",
  "If lengths (coordinates, displacements, gap, mesh size) are measured in a unit in which they are a times as large and stresses (Lame parameters, gamma, Tresca bound) in one in which they are k times as large, Contact.assemble_vector gives k a^(tdim-1) times the vector and Contact.assemble_matrix k a^(tdim-2) times the matrix.",
  "every mesh, material, friction law, displacement, pair of positive unit factors, and every history of calls", REAL, ["python/dolfinx_contact/general_contact/contact_problem.py:ContactProblem","cpp/contact_kernels.cpp","python/dolfinx_contact/helpers.py"])
p("C154","Tied bodies do not depend on the units",
  "If lengths (coordinates, displacements, gaps, cell sizes) are measured in a unit in which they are a times as large and stresses (Lame parameters, gamma; for heat conduction the conductivity) in one in which they are k times as large, MeshTie.assemble_matrix gives k a^(tdim-2) times the matrix; assemble_vector gives k a^(tdim-1) times the vector of (thermo-)elasticity and k a^(tdim-2) times that of heat conduction.",
  "every pair of tied bodies, space, material, function, problem, pair of unit factors, and every history of calls", REAL, ["cpp/MeshTie.cpp:MeshTie::assemble_matrix","cpp/MeshTie.cpp:MeshTie::assemble_vector","cpp/meshtie_kernels.cpp","cpp/Contact.cpp:Contact::crop_invalid_points"])
p("C155","The curve of the Christmas tree is sampled in finitely many steps",
  "jagged_curve(npoints, t, r0, r1, xmax) terminates for npoints > 0, and its result starts at the origin, lies on the curve, goes strictly from left to right in steps of width at most xmax/npoints and length at most 2 xmax/npoints, and ends with the first point at or beyond xmax. A number of points that is not positive raises an exception instead of looping.",
  "every number of points, xmax, 0 < |t| < 1 and all continuous functions r0 and r1", "the two nested loops shrink the step until the next point is near enough; that this happens, and that the steps do not become so small that the end is never reached, depends on the whole curve", ["python/dolfinx_contact/meshing/christmas_tree.py:jagged_curve"])
p("C156","Facet tags of the Christmas tree meshes",
  "In create_christmas_tree_mesh and create_christmas_tree_mesh_3D every edge (lateral surface) of the boundary of each body gets exactly one facet tag; the edges tagged as bottom or box lie on the bottom or the frame, those tagged as contact surfaces on the tree, whatever the number of parts into which the contact surface is split.",
  "every number of points of the curve and of the bottom, and every number of parts", SIZE, ["python/dolfinx_contact/meshing/christmas_tree.py:create_christmas_tree_mesh","python/dolfinx_contact/meshing/christmas_tree.py:create_christmas_tree_mesh_3D"])
p("C157","The gap between the generated bodies",
  "The mesh generators for two bodies place them exactly the requested gap apart: no two points of the bodies are closer, and two points have this distance. The generators without this argument keep the distance of their documentation, or let wedges touch along one whole edge without overlap. All curve loops are closed and made of curves that Gmsh accepts.",
  "every radius, height, length, width, gap, offset up to the height of the boxes, and inclination of the wedges", REAL, ["python/dolfinx_contact/meshing/contact_meshes.py:create_circle_plane_mesh","python/dolfinx_contact/meshing/contact_meshes.py:create_halfdisk_plane_mesh","python/dolfinx_contact/meshing/contact_meshes.py:create_quarter_disks_mesh","python/dolfinx_contact/meshing/contact_meshes.py:sliding_wedges","python/dolfinx_contact/meshing/contact_meshes.py:create_circle_circle_mesh","python/dolfinx_contact/meshing/contact_meshes.py:create_box_mesh_3D","python/dolfinx_contact/meshing/contact_meshes.py:create_sphere_plane_mesh","python/dolfinx_contact/meshing/contact_meshes.py:create_sphere_sphere_mesh","python/dolfinx_contact/meshing/contact_meshes.py:create_2d_rectangle_split","python/dolfinx_contact/meshing/contact_meshes.py:create_halfsphere_box_mesh"])
p("C158","The process that creates a mesh",
  "A mesh generator with an argument rank returns the Gmsh model on this process of the communicator and None on all others.",
  "every number of processes and every rank", "tests run the generators with the default rank 0 only", ["python/dolfinx_contact/meshing/contact_meshes.py:create_circle_circle_mesh","python/dolfinx_contact/meshing/contact_meshes.py:create_gmsh_box_mesh_2D"])
p("C159","The order of the contact pairs does not matter",
  "If a ContactProblem is created with its contact pairs listed in another order, and every call is the same but for this order, assemble_vector and assemble_matrix build the same vector and the same matrix.",
  "every permutation of the pairs, every sequence of calls (including calls that raise), every friction law, gamma, theta, geometry and displacement", SIZE, ["python/dolfinx_contact/general_contact/contact_problem.py:assemble_vector","python/dolfinx_contact/general_contact/contact_problem.py:assemble_matrix","cpp/Contact.cpp:assemble_vector","cpp/Contact.cpp:assemble_matrix"])
p("C160","Contact acts only at the contact zone",
  "The assembled vector is zero at every dof that is not a dof of a cell with a quadrature point in contact or of the cell this point is in contact with, and does not change if the displacement changes only at such dofs. An entry of the assembled matrix is zero unless some point in contact has both dofs.",
  "every mesh, contact map, sequence of calls, friction law, gamma, theta and displacement", SIZE, ["python/dolfinx_contact/general_contact/contact_problem.py:assemble_vector","python/dolfinx_contact/general_contact/contact_problem.py:assemble_matrix","cpp/Contact.cpp:assemble_vector","cpp/Contact.cpp:assemble_matrix"])
p("C161","The boundaries of the Christmas tree meshes run around the bodies",
  "The boundary polygon of the tree runs along the curve from each sample point to the next, down along the bottom, back along the mirrored curve and across the tip. The boundary polygon of the surrounding body runs back along the mirrored curve, across the tip, along the curve and then counterclockwise along the four sides of the frame to its start. No edge goes back, leaves its side or skips a sample point.",
  "every sampled curve that ends above the axis and right of the frame's left side, every number of points per side from two on, every height of the frame above that of the curve", SIZE, ["python/dolfinx_contact/meshing/christmas_tree.py:create_christmas_tree_mesh","python/dolfinx_contact/meshing/christmas_tree.py:create_christmas_tree_mesh_3D"])
p("C162","The earlier version of create_contact_mesh in Python",
  "create_contact_mesh and its earlier version create_contact_mesh_old pass the same cells, coordinates and destinations of cells to create_mesh and return the same facet and cell markers.",
  "every number of processes, every mesh and its distribution, markers, tags and radius", "the earlier version is not called by any test", ["python/dolfinx_contact/parallel_mesh_ghosting.py:create_contact_mesh_old","cpp/parallel_mesh_ghosting.cpp:create_contact_mesh"])
p("C163","The bodies of a split box fill the box",
  "The interface of a split or unsplit box runs from x0 to x1. The box is cut along it into two bodies whose areas are those below and above (left and right of) the chord from x0 to x1, and add up to the area of the box, even if the two bodies use different numbers of segments.",
  "every length and height, every position of the end points on the boundary, each of the curves of the module, every two numbers of segments", SIZE, ["python/dolfinx_contact/meshing/split_box.py:create_split_box_2D","python/dolfinx_contact/meshing/split_box.py:create_split_box_3D","python/dolfinx_contact/meshing/split_box.py:create_unsplit_box_2d","python/dolfinx_contact/meshing/split_box.py:vertical_line","python/dolfinx_contact/meshing/split_box.py:horizontal_line","python/dolfinx_contact/meshing/split_box.py:horizontal_sine"])
p("C164","Curve loops and volumes of the three-dimensional boxes are closed",
  "All curve loops passed to Gmsh for the tetrahedral split and unsplit boxes are closed, and each line bounds exactly two surfaces of each volume it belongs to.",
  "every number of points of the interface", SIZE, ["python/dolfinx_contact/meshing/split_box.py:create_tet_mesh","python/dolfinx_contact/meshing/split_box.py:create_unsplit_box_3d"])
p("C165","A tie acts only at the tied points",
  "An entry of the matrix assembled for tied surfaces is zero unless both dofs belong to the cell of one facet with a tied point or to the cells of the points it is tied to. An entry of the vector is zero unless its dof is such a dof.",
  "every mesh, search result, problem (elasticity, heat conduction, thermo-elasticity), sequence of calls, gamma and theta", REAL, ["cpp/MeshTie.cpp:assemble_matrix","cpp/MeshTie.cpp:assemble_vector"])
p("C166","Each time step of the thermal demos is a step of implicit Euler",
  "In the demos for tied bodies with time steps, the temperature after a step is that of implicit Euler for the heat equation in both bodies with Nitsche's method at the tied surfaces: it has the prescribed values, and change of heat plus conduction is zero for all test functions. The temperatures do not depend on the displacement.",
  "every number of time steps, mesh, search result, initial temperature, prescribed temperatures, gamma, theta and material", REAL, ["cpp/demos/meshtieHeatEquation/main.cpp:main","cpp/demos/meshtieHeatTransfer/main.cpp:main","python/demos/meshtie_demos/thermo_mech.py:assemble_mat_therm","python/demos/meshtie_demos/thermo_mech.py:assemble_vec_therm","cpp/MeshTie.cpp:generate_kernel_data"])
p("C167","Heat is conserved and differences of temperature decay in the thermal demos",
  "Without prescribed temperatures the heat in all bodies together is the same after every time step. A constant temperature stays if it equals all prescribed ones. The energy of the difference of two runs decreases in every step by a factor given by the conduction, and all runs approach the steady state.",
  "every number of time steps, mesh, search result, initial temperatures, gamma, theta and material", REAL, ["cpp/demos/meshtieHeatEquation/main.cpp:main","cpp/MeshTie.cpp:assemble_matrix","cpp/MeshTie.cpp:assemble_vector"])
p("C168","After each time step the displacement is in equilibrium with the temperature",
  "In the demos for thermo-elasticity of tied bodies, after each time step in which the Newton solver iterates at least once the displacement has the prescribed values of this step and is in equilibrium with the thermal stress of the new temperature, in both bodies and at the tied surfaces. It is the only such displacement.",
  "every number of time steps and of Newton iterations, mesh, search result, prescribed values, gamma, theta and material", REAL, ["cpp/demos/meshtieHeatTransfer/main.cpp:main","cpp/demos/meshtieHeatTransfer/main.cpp:ThermoElasticProblem","python/demos/meshtie_demos/thermo_mech.py:ThermoElasticProblem","cpp/MeshTie.cpp:update_kernel_data"])
p("C169","The moments of the contact forces balance",
  "The forces that the contact conditions add to the vector have no moment: about every point and in every plane the moments of the forces on the two bodies cancel (action and reaction act on the same line).",
  "every mesh, search result, sequence of calls, displacement, friction law, gamma and theta", REAL, ["cpp/Contact.cpp:assemble_vector","cpp/contact_kernels.h:generate_contact_kernel","python/dolfinx_contact/general_contact/contact_problem.py:ContactProblem"])
p("C170","Contact does not feel rigid motions of all bodies together",
  "Moving all bodies together by the same translation or small rotation does not change the contact contribution to the vector, and the contact contribution to the matrix maps such a motion to zero (so that rigid motions are in the near-nullspace given to the solver).",
  "every mesh, search result, sequence of calls, displacement, rigid motion, friction law, gamma and theta", REAL, ["cpp/Contact.cpp:assemble_vector","cpp/Contact.cpp:assemble_matrix","python/dolfinx_contact/helpers.py:rigid_motions_nullspace_subdomains"])
p("C171","Ties balance moments and do not feel rigid motions",
  "The forces assembled for tied bodies have no moment, and the matrix for tied bodies maps every translation and small rotation of all bodies together to zero.",
  "every mesh, search result, sequence of calls, displacement, temperature, gamma, theta and material", REAL, ["cpp/MeshTie.cpp:assemble_vector","cpp/MeshTie.cpp:assemble_matrix","cpp/meshtie_kernels.cpp:generate_meshtie_kernel"])
p("C172","Thermal expansion with contact: time steps solve the equations",
  "In the demos with thermal expansion and contact every time step computes a temperature that satisfies the heat equation in time (implicit Euler for tau = 1) from the temperature before, with the prescribed values, whatever the displacements are; the contact problem raises no exception; and if the Newton solver reports convergence by the residual criterion, the displacement increment satisfies, up to the tolerance, the equations with the thermal stress of the new temperature and with the contact detected on the geometry moved by all increments so far.",
  "every mesh, number of time steps, temperature, material, search result and Newton options", REAL, ["python/demos/demo_thermo_mech_xmas2D.py:compute_coefficients","python/demos/demo_thermo_mech_boxkey3D.py:compute_coefficients","python/dolfinx_contact/newton_solver.py:NewtonSolver.solve"])
p("C173","Bodies in contact exchange no heat",
  "In these demos the temperatures of a body depend only on the thermal data and the initial temperature of this body, not on other bodies, contact surfaces or displacements, and the heat of a body without prescribed temperatures never changes.",
  "every set of bodies, number of time steps, contact configuration and result of the Newton solver", REAL, ["python/demos/demo_thermo_mech_xmas2D.py:compute_coefficients","python/demos/demo_thermo_mech_boxkey3D.py:compute_coefficients"])
p("C174","Free thermal expansion meets no contact force",
  "Bodies that do not touch and that expand freely with temperature (no stress) get no force from the contact problem.",
  "every mesh, search result, temperature, gamma and theta", REAL, ["cpp/contact_kernels.h:generate_contact_kernel","python/demos/demo_thermo_mech_xmas2D.py:compute_residual"])
p("C175","Weakly held bodies with thermal stress are in balance",
  "The form of the demos with thermal expansion, in which the bodies are held weakly, is the balance of virtual work for every displacement that is zero on the held facets: work of the total stress minus work of the reaction, the traction of the total stress.",
  "every quadrature, mesh size, displacement, temperature and virtual displacement", REAL, ["python/demos/demo_thermo_mech_xmas2D.py:sigma","python/dolfinx_contact/helpers.py:weak_dirichlet"])
p("C176","Contact with a plane: residual and matrix of the driver",
  "On meshes of affine cells, for every displacement, the residual that nitsche_custom hands to the Newton solver is the residual of the body plus Nitsche's form of contact with the plane x_last = -plane_loc with parameter gamma * E, the matrix is its linearisation (the derivative wherever no quadrature point is about to touch or leave), and packing and assembly raise nothing.",
  "every mesh, displacement, virtual displacement, material, gamma, theta and plane", REAL, ["python/dolfinx_contact/one_sided/nitsche_custom.py:nitsche_custom","cpp/rigid_surface_kernels.cpp:generate_rigid_surface_kernel","cpp/Contact.cpp:Contact.assemble_vector"])
p("C177","Contact with a rigid surface: residual and matrix of the driver",
  "The same for nitsche_rigid_surface_custom with the gaps and normals of the rigid surface, for cells of any kind and after any number of earlier updates of the packed coefficients: no residual depends on displacements of earlier iterations. Both drivers raise when nitsche_bc is false.",
  "every mesh, history of displacements, displacement, virtual displacement, gap, normals, gamma and theta", REAL, ["python/dolfinx_contact/one_sided/nitsche_rigid_surface_custom.py:nitsche_rigid_surface_custom","cpp/rigid_surface_kernels.cpp:generate_rigid_surface_kernel"])
p("C178","Converged displacements of the one-sided drivers are in equilibrium",
  "A displacement that nitsche_custom or nitsche_rigid_surface_custom returns after converging is in equilibrium up to atol: the work of the body's forces and of the contact forces is at most atol times the length of the virtual displacement. With error_on_nonconvergence a driver that returns has converged.",
  "every linear solver, option, mesh, obstacle and number of iterations", REAL, ["python/dolfinx_contact/one_sided/nitsche_custom.py:nitsche_custom","python/dolfinx_contact/one_sided/nitsche_rigid_surface_custom.py:nitsche_rigid_surface_custom","python/dolfinx_contact/newton_solver.py:NewtonSolver.solve"])
p("C179","The force of a rigid obstacle is a pressure",
  "The resultant of the contact terms is an integral of pressures that are never negative, directed away from the obstacle (for a plane: vertically upwards), for every theta; and the contact terms agree with the conditions of Signorini: these hold at a point exactly if the contact pressure is minus the normal stress, so that a displacement that satisfies them gets from the contact terms the work of its own traction.",
  "every displacement, translation, obstacle, gamma > 0 and theta", REAL, ["python/dolfinx_contact/one_sided/nitsche_custom.py:nitsche_custom","python/dolfinx_contact/one_sided/nitsche_rigid_surface_custom.py:nitsche_rigid_surface_custom"])
p("C180","One-sided contact has exactly one solution",
  "For a linear elastic body whose stiffness dominates the contact stresses (for theta = -1: whose stiffness is positive definite) the residual of the one-sided drivers vanishes at exactly one displacement, and no linear system of the Newton solver maps a nonzero step to zero.",
  "every mesh, load, obstacle, gamma and theta with the condition on the stiffness", REAL, ["python/dolfinx_contact/one_sided/nitsche_custom.py:nitsche_custom","python/dolfinx_contact/one_sided/nitsche_rigid_surface_custom.py:nitsche_rigid_surface_custom"])
p("C181","One Newton step if no point changes contact; a flat surface is a plane",
  "If the first linear system of a one-sided driver is solved exactly and the same points are in contact before and after the step, the driver returns after one iteration, converged, with a displacement exactly in equilibrium. For a flat rigid surface the two drivers assemble the same residual and matrix.",
  "every mesh, load, obstacle, tolerance and history of updates", REAL, ["python/dolfinx_contact/one_sided/nitsche_custom.py:nitsche_custom","python/dolfinx_contact/one_sided/nitsche_rigid_surface_custom.py:nitsche_rigid_surface_custom","python/dolfinx_contact/newton_solver.py:NewtonSolver.solve"])
p("C182","One-sided drivers converge in one step from near the solution",
  "For a linear elastic body whose stiffness dominates the contact stresses there is a neighbourhood of the solution of one-sided contact from which the drivers, given any other displacement in it as initial guess and an exact linear solver, return the solution after one iteration and as converged, whatever the tolerances, also if points are just about to touch at the solution.",
  "every mesh, load, obstacle, initial guess near the solution and tolerance", REAL, ["python/dolfinx_contact/one_sided/nitsche_custom.py:nitsche_custom","python/dolfinx_contact/one_sided/nitsche_rigid_surface_custom.py:nitsche_rigid_surface_custom","python/dolfinx_contact/newton_solver.py:NewtonSolver.solve"])
p("C183","One-sided contact with theta = 1 minimises an energy",
  "With theta = 1 the contact forces that the one-sided drivers assemble are the derivative of an energy (penalised penetration minus the energy of the contact stress), their matrix is symmetric if that of the body is, and for a linear elastic body stiff enough the displacement at which the residual vanishes is the displacement of least energy: all others have more.",
  "every mesh, displacement, direction, load, obstacle and gamma", REAL, ["python/dolfinx_contact/one_sided/nitsche_custom.py:nitsche_custom","python/dolfinx_contact/one_sided/nitsche_rigid_surface_custom.py:nitsche_rigid_surface_custom","cpp/rigid_surface_kernels.cpp:generate_rigid_surface_kernel"])
p("C184","Unbiased contact with theta = 1: solutions are the displacements of least energy",
  "Without friction or with Tresca friction, theta = 1 and a symmetric stiffness matrix that dominates the contact tractions, a displacement satisfies the assembled equations at the free dofs exactly if no displacement with the same prescribed values has less energy; all others then have more, and there is exactly one such displacement.",
  "every mesh, history of calls, load, prescribed values and displacement", REAL, ["python/dolfinx_contact/general_contact/contact_problem.py:ContactProblem.assemble_vector","cpp/contact_kernels.cpp:generate_contact_kernel"])
p("C185","snes_solver: no penetration, forces of a plane without friction and adhesion",
  "If snes_solver returns, no node of the displaced body is below the plane by more than the tolerance of the solver; the displacement has the prescribed values; the nodal forces at all other nodes vanish along the plane, are not directed into it, and vanish where the node does not touch it; the forces on the support balance those of the plane.",
  "every mesh, distribution over processes, material, plane, prescribed displacement, and solver that meets its tolerance", REAL, ["python/dolfinx_contact/one_sided/snes_against_plane.py:snes_solver","python/dolfinx_contact/helpers.py:NonlinearPDE_SNESProblem"])
p("C186","snes_solver returns the displacement of least elastic energy",
  "The displacement snes_solver returns has no more elastic energy than any displacement with the prescribed values that keeps all nodes on or above the plane, up to the tolerance of the solver.",
  "every mesh, material with 0 <= nu < 1/2, plane, prescribed displacement, solver and competing displacement", REAL, ["python/dolfinx_contact/one_sided/snes_against_plane.py:snes_solver","python/dolfinx_contact/helpers.py:NonlinearPDE_SNESProblem"])
p("C187","snes_solver: the result depends neither on solver options nor on the distribution of the mesh",
  "For a body held by its support, there is exactly one displacement that exact runs of snes_solver return, whatever options the solver has been given, and however the mesh is distributed over processes.",
  "every mesh, pair of distributions of it, pair of solvers, material, plane and prescribed displacement", REAL, ["python/dolfinx_contact/one_sided/snes_against_plane.py:snes_solver","python/dolfinx_contact/helpers.py:NonlinearPDE_SNESProblem"])
p("C188","snes_solver: contact only on the facets marked for contact",
  "The plane exerts forces only at nodes of facets with the value given for the contact surface in mesh_data.",
  "every mesh, facet marker, material, plane and prescribed displacement", REAL, ["python/dolfinx_contact/one_sided/snes_against_plane.py:snes_solver","python/dolfinx_contact/helpers.py:NonlinearPDE_SNESProblem"])
p("C189","Near the solution a load step without friction needs one Newton iteration",
"Consider a load step of the unbiased contact demo without friction, with a linearly elastic bulk whose stiffness matrix dominates the contact tractions, with prescribed dofs away from the contact surface, and let `us` satisfy the equations of the load step. Then there is a distance such that from every initial guess within that distance of `us` at every dof (prescribed dofs included), the first linear system has exactly one solution, the difference between initial guess and `us`, and if the linear solver finds it, the Newton solver reports convergence after one iteration and returns exactly `us`; only a solver used before may instead accept an initial guess whose residual is below the tolerance. This holds although the residual is not differentiable, also if points are exactly at the switch between open and closed.",
"all contact problems, histories of calls, load cases, displacements before the load step, solutions, penalties, thetas, tolerances, iteration limits, and all initial guesses in a neighbourhood of the solution", REAL,
["python/dolfinx_contact/newton_solver.py:NewtonSolver.solve,_solve", "python/demos/demo_nitsche_unbiased.py:compute_residual,compute_jacobian_matrix", "cpp/contact_kernels.cpp:generate_contact_kernel"])
p("C190","nitsche_ufl and nitsche_rigid_surface: what is returned is in equilibrium",
"If nitsche_ufl or nitsche_rigid_surface returns (with error_on_nonconvergence, and with either convergence criterion), the displacement has the prescribed values at the nodes that are held, and the work of all forces (stress, contact and holding forces of Nitsche's method) on every admissible virtual displacement vanishes, both up to a constant times a number below the tolerance of the Newton solver; the constant depends on mesh and parameters only. Without nitsche_bc, the deviation from the prescribed displacement after n iterations is exactly (1-relaxation)^n times that of the start: with the default relaxation 0.8 of nitsche_ufl it is never met exactly, with relaxation 1 always.",
"every mesh, marker, material, Nitsche parameters, prescribed displacement, Newton options, exact linear solver and returned result", REAL,
["python/dolfinx_contact/one_sided/nitsche_ufl.py:nitsche_ufl", "python/dolfinx_contact/one_sided/nitsche_rigid_surface.py:nitsche_rigid_surface"])
p("C191","nitsche_ufl and nitsche_rigid_surface: the result is the one equilibrium, whatever the options",
"If the body is held and the Nitsche parameter is large enough compared with theta, there is exactly one displacement in equilibrium, and every returned displacement is within a constant times the tolerance of it, whatever convergence criterion, relaxation, tolerances, iteration limit and linear solver were used.",
"every mesh, marker, stiff and held body, Newton options, exact linear solver and returned result", REAL,
["python/dolfinx_contact/one_sided/nitsche_ufl.py:nitsche_ufl", "python/dolfinx_contact/one_sided/nitsche_rigid_surface.py:nitsche_rigid_surface"])
p("C192","nitsche_ufl and nitsche_rigid_surface: number of iterations when the contact state does not change",
"If the contact points that are pressed or free in the equilibrium are so at the start, the run needs exactly the first k >= 2 iterations for which (1-relaxation)^(k-1) is below rtol, or below atol when multiplied by the distance of the start from the equilibrium, and returns the equilibrium plus (1-relaxation)^k times the error of the start; if max_it is smaller, it raises or returns the last iterate as error_on_nonconvergence says. So with default options nitsche_rigid_surface returns the equilibrium exactly after two iterations, and nitsche_ufl needs up to 14 iterations for a problem that is linear.",
"every mesh, marker, stiff and held body, relaxation in (0,1], tolerances, iteration limits, exact linear solver and equilibrium with the contact state of the start", REAL,
["python/dolfinx_contact/one_sided/nitsche_ufl.py:nitsche_ufl", "python/dolfinx_contact/one_sided/nitsche_rigid_surface.py:nitsche_rigid_surface"])
p("C193","Static demos of tied bodies: the result is the solution of the tied problem",
"The demos that solve one linear system for tied bodies (demo_nitsche_meshties, demo_poisson, the convergence tests meshtie_convergence and poisson_convergence, and the C++ demo meshtie) return a displacement or temperature that has the prescribed values and for which bodies and tie together balance the load, for every admissible virtual displacement; it is the only one that does so. Adding the vector of the tie to the right-hand side, although no displacement was given, changes nothing.",
"every mesh, material, Nitsche parameters, load, prescribed values, volume forms for which the tied problem is positive, and exact linear solver", REAL,
["python/demos/demo_nitsche_meshties.py", "python/demos/meshtie_demos/demo_poisson.py", "python/demos/meshtie_convergence.py:test_meshtie", "python/demos/meshtie_demos/poisson_convergence.py:test_meshtie", "cpp/demos/meshtie/main.cpp:main"])
p("C194","Newton demos of tied bodies: one iteration from every start",
"With the options of the demos (convergence criterion residual), DOLFINx's Newton solver applied to MeshTieProblem (Python blocks_nitsche_meshtie and C++ meshtieNewton) converges from every initial displacement; it returns the start unchanged if and only if the start misses prescribed values and balance of forces by less than atol, and otherwise needs exactly one iteration and returns the one solution of the tied problem. With criterion incremental it needs two iterations. Whether u is given when the data are generated makes no difference.",
"every mesh, material, Nitsche parameters, prescribed values, start, tolerances and iteration limit, and exact linear solver", REAL,
["python/demos/meshtie_demos/blocks_nitsche_meshtie.py:MeshTieProblem", "cpp/demos/meshtieNewton/main.cpp:MeshTieProblem"])
p("C195","Static demos of tied bodies: least energy for theta = 1, and both drivers agree",
"With theta = 1, the result of the static demos and of the Newton demos has less energy (of the bodies and the tie, less the work of the load) than every other displacement or temperature with the prescribed values; and without load, solving one linear system and the Newton solver give the same displacement from every start that is not accepted as it is.",
"every mesh, material, gamma, load, prescribed values, start, symmetric volume form for which the tied problem is positive, and exact linear solver", REAL,
["python/demos/demo_nitsche_meshties.py", "python/demos/meshtie_demos/demo_poisson.py", "python/demos/meshtie_demos/blocks_nitsche_meshtie.py:MeshTieProblem", "cpp/demos/meshtie/main.cpp:main", "cpp/demos/meshtieNewton/main.cpp:MeshTieProblem"])
p("C196","Convergence tests: the forcing belongs to the manufactured solution",
"In 2D and 3D, for every amplitude and all Lame parameters, the forcing of the convergence test for elasticity is minus the divergence of the stress of the manufactured displacement at every point, the source of the test for heat conduction is minus the Laplacian of the manufactured temperature, and the manufactured solutions vanish on the boundary of the box where the tests prescribe zero.",
"every point, amplitude and pair of Lame parameters", REAL,
["python/demos/meshtie_convergence.py:u_fun_2d,fun_2d,u_fun_3d,fun_3d", "python/demos/meshtie_demos/poisson_convergence.py:u_fun_2d,fun_2d,u_fun_3d,fun_3d"])
p("C197","UFL drivers with theta = 1: what is returned has least energy",
"With theta = 1, a displacement is in equilibrium with the contact forces of nitsche_ufl or nitsche_rigid_surface if and only if it has less energy (elastic energy, energy of the places where the body is held weakly, contact energy) than every other displacement with the prescribed values. Such a displacement exists, and what the drivers return is within a multiple of the tolerances of it. nitsche_rigid_surface with its default options returns it exactly if no point comes into contact or leaves it between start and result.",
"every mesh, material, gamma, obstacle, boundary data for which the body is stiff enough, options, and exact linear solver", REAL,
["python/dolfinx_contact/one_sided/nitsche_ufl.py:nitsche_ufl", "python/dolfinx_contact/one_sided/nitsche_rigid_surface.py:nitsche_rigid_surface"])
p("C198","Load steps: reactions of the supports balance loads and contact forces",
"After every converged load step of the unbiased demos, for every body and every axis the forces of its supports, of contact and of its loads add up to zero, up to a multiple of the tolerance. For all bodies together the reactions balance the loads: contact adds nothing. Two bodies push each other with opposite forces at every displacement.",
"every mesh, contact law, material, parameters, load schedule, body (set of dofs that moving along the axis does not strain), and step that converged", REAL,
["python/demos/demo_nitsche_unbiased.py", "python/dolfinx_contact/general_contact/contact_problem.py:ContactProblem", "python/dolfinx_contact/newton_solver.py:NewtonSolver.solve"])
p("C199","Load steps: the number of processes does not matter",
"A computation in load steps of the unbiased demos run by several processes reports, step by step, what the same computation run by one process reports: Newton iterations, convergence, displacement, increment, and exception, if any.",
"every number of processes and distribution of the facets, mesh, contact law, material and friction parameters, load schedule, boundary conditions, linear solver, Newton options, and number of load steps", REAL,
["python/demos/demo_nitsche_unbiased.py", "python/dolfinx_contact/general_contact/contact_problem.py:ContactProblem", "python/dolfinx_contact/newton_solver.py:NewtonSolver.solve"])
p("C200","Ghosting: array accesses of the search for destinations",
"The search for the processes that need a facet's cell (compute_ghost_cell_destinations) reads and writes only entries inside its arrays, sends the mean of the nodes of each marked facet to process zero, and every process can unpack what it gets into a list of destinations per facet.",
"every mesh, number of facets per process (also none), number of processes, and result of the search for near facets", SIZE,
["cpp/parallel_mesh_ghosting.cpp:compute_ghost_cell_destinations"])
p("C201","Newton solver: setters and callbacks",
"After any sequence of set_coefficients, set_residual, set_jacobian, set_preconditioner and set_petsc_matrix calls the solver uses the callbacks and matrices given last. With callbacks that do not raise, solve is Newton's method for them: result, exception, displacement, coefficients, residual, increment and counters do not depend on how the callbacks were given or on write_solution. Without coefficients or residual callback solve raises a RuntimeError and leaves the displacement alone up to the pre-solve hook.",
"every sequence of setter calls, callbacks, options, start, argument type", REAL,
["python/dolfinx_contact/newton_solver.py:NewtonSolver.set_coefficients","python/dolfinx_contact/newton_solver.py:NewtonSolver.set_residual","python/dolfinx_contact/newton_solver.py:NewtonSolver.set_jacobian","python/dolfinx_contact/newton_solver.py:NewtonSolver.set_preconditioner","python/dolfinx_contact/newton_solver.py:NewtonSolver.set_petsc_matrix","python/dolfinx_contact/newton_solver.py:NewtonSolver.solve"])
p("C202","Newton solver: exceptions of callbacks",
"An exception raised by a callback (coefficients, residual, Jacobian, preconditioner) at any point of a solve reaches the caller of solve; the solver does not go on as if nothing had happened.",
"every callback, exception, iteration and line search step in which it is raised, argument type", REAL,
["python/dolfinx_contact/newton_solver.py:NewtonSolver.solve","python/dolfinx_contact/newton_solver.py:NewtonSolver._solve"])
p("C203","Newton solver: write_solution",
"solve(u, write_solution=True, offset_fun=v) that returns after n iterations leaves a file with n + 1 states: u on entry, and u after each iteration, which is what a solve limited to that number of iterations returns, each plus v; the last state is the result plus v. For a PETSc.Vec nothing is written.",
"every problem, start, options, offset, number of iterations", REAL,
["python/dolfinx_contact/newton_solver.py:NewtonSolver._solve"])
p("C204","Coulomb friction: exactly one solution if friction is small",
"With Coulomb friction the contact problem (stiffness matrix times displacement minus load plus the vector update_contact_data and assemble_vector build, zero at the free dofs) has exactly one solution for every load and all values of the constrained dofs, it depends on the load continuously, and the linear system of every Newton step has exactly one solution, if the energy of the bodies exceeds the coupling by friction. If the contact normals are those of the detection before and the bodies satisfy the condition of C143, there is a positive bound such that this holds for all friction coefficients between zero and the bound.",
"every history of calls with Coulomb friction, mesh, gamma, theta, stiffness matrix, load, values of constrained dofs, friction coefficients", REAL,
["cpp/contact_kernels.cpp:generate_contact_kernel","cpp/Contact.cpp:assemble_vector","python/dolfinx_contact/general_contact/contact_problem.py:ContactProblem.generate_contact_data","python/dolfinx_contact/general_contact/contact_problem.py:ContactProblem.update_contact_data"])
p("C205","Newton's method converges quadratically near a solution, also with friction",
"Newton's method for the contact problem (update_contact_data with the displacement, assemble_vector, assemble_matrix, linear solve with the stiffness matrix of the bodies added) can be carried out from every displacement, and from all displacements close to a solution the error after a step is at most a constant times the square of the error before: in every sequence of steps the number of correct digits doubles. Without friction and with Tresca friction this also holds if quadrature points of the solution are exactly at the switch between open and closed or between stick and slip. With Coulomb friction it holds if friction is small (C204) and at the solution every point is open, or closed and not at the switch between stick and slip.",
"every history of calls, friction law, mesh, gamma, theta, stiffness matrix, load, solution, starting displacement near it, sequence of steps", REAL,
["cpp/contact_kernels.cpp:generate_contact_kernel","cpp/utils.cpp:d_ball_projection","cpp/Contact.cpp:assemble_matrix","python/dolfinx_contact/general_contact/contact_problem.py:ContactProblem.assemble_matrix","python/dolfinx_contact/newton_solver.py:NewtonSolver.solve"])
p("C206","The Newton solver of the load steps converges quadratically from near the solution, also with friction",
"In the load steps of the demos (residual and Jacobian callbacks with contact assembly, bulk forms, lifting and Dirichlet rows, and the residual criterion) NewtonSolver.solve returns converged from every displacement close to a solution: with n iterations allowed and tolerances greater than Q times (1/2)^(2^n) it needs at most n iterations, makes one linear solve and one residual evaluation per iteration (no step is shortened by the line search), and the error after k iterations is at most a constant times (1/2)^(2^k). The linear solver is exact; the prescribed dofs are not at the contact surfaces, and their initial values may be wrong. Holds without friction, with Tresca friction (also if points of the solution are at a switch between open and closed or stick and slip), and with small Coulomb friction if no point is at the switch between stick and slip.",
"every history of calls, friction law, mesh, gamma, theta, stiffness matrix, load, solution, starting displacement near it, solver state and tolerances", REAL,
["python/dolfinx_contact/newton_solver.py:NewtonSolver.solve","python/demos/demo_nitsche_unbiased.py","python/dolfinx_contact/general_contact/contact_problem.py:ContactProblem.assemble_vector","python/dolfinx_contact/general_contact/contact_problem.py:ContactProblem.assemble_matrix"])
p("C207","MeshTie.coeffs returns the packed data of a pair",
"MeshTie.coeffs(pair) returns the data the kernels of the pair use as an array with one row per facet of the pair, and the rows hold what was given last to generate_kernel_data and update_kernel_data.",
"every history of calls of generate_kernel_data and update_kernel_data for all problems, some of which raise; every pair, number of facets and space", SIZE,
["cpp/MeshTie.cpp:MeshTie::coeffs","python/dolfinx_contact/wrappers.cpp"])
p("C208","The friction demos write the exact solution of Cattaneo and Mindlin",
"Beside the computed contact forces, the friction demos write an analytic solution for two equal cylinders: a pressure and a tangential traction. After every load step the pressure is that of Hertz for the pressing force, with that force as resultant, and the traction is that of Cattaneo and Mindlin: it obeys Coulomb's law with slip exactly outside the sticking zone, and its resultant is the tangential force.",
"every point of the line, radius, modulus, friction coefficient, pressing force and tangential force", REAL,
["python/demos/hertz_contact/demo_friction_cylinders.py:_tangent","python/demos/hertz_contact/demo_friction_cylinders.py:_pressure","python/demos/hertz_contact/demo_friction_cylinders_force_driven.py:_tangent"])
p("C209","The Hertz demo applies the load of its reference solution",
"After every load step of demo_hertzian_contact.py the total force applied to the upper body is the share of the load for this step, in both problems and in two and three dimensions, and the written pressure is that of Hertz for that force.",
"every radius, modulus, load, number of steps and step", REAL,
["python/demos/hertz_contact/demo_hertzian_contact.py:_pressure","python/dolfinx_contact/meshing/contact_meshes.py:create_halfsphere_box_mesh"])
p("C210","Linear solver and Newton's method agree on the clamped beam",
"solve_euler_bernoulli ends without error and writes the same displacement whether the beam is solved as a linear problem or by the Newton solver, which takes two iterations. The displacement is the only one in equilibrium with the load on the top, with the beam clamped strongly or by Nitsche's method; with the skew symmetric method every positive parameter will do.",
"every mesh, material, load and Nitsche parameter for which the clamped beam has positive energy; every exact linear solver", REAL,
["python/demos/new_demo_nitsche_euler_bernoulli.py:solve_euler_bernoulli"])
p("C211","The numbers printed by the sliding wedges are equal exactly for full slip",
"demo_sliding_wedges.py prints the ratio of horizontal to vertical reaction on both contact surfaces and (fric + tan(angle)) / (1 - fric tan(angle)). For a displacement whose tractions obey Coulomb's law, the script fails with a division by zero exactly if one of the surfaces is not pressed anywhere; otherwise the ratios are at most the third number, and equal to it exactly if the whole surface slides, the upper wedge up the slope.",
"every mesh of the wedges, every angle in the first quadrant with fric tan(angle) < 1, material, displacement obeying Coulomb's law, distribution over processes", REAL,
["python/demos/demo_sliding_wedges.py", "python/dolfinx_contact/meshing/contact_meshes.py:sliding_wedges"])
p("C212","The values in the planar demos name the parts of the boundary they are meant for",
"The facet values with which the planar demos call the solvers select, on the marker of the mesh the demo generates, parts of the boundary that make sense for a contact problem: the driven and the first contact surface belong to the upper body, the second contact surface and the clamped one to the lower body; the two contact surfaces contain points at which the distance of the bodies is attained; the driven surface reaches the highest point of the upper body and lies above its contact surface, and the clamped one reaches the lowest point of the lower body and lies below its contact surface.",
"every radius, height, length, gap, angle and resolution passed to the mesh generators; all five planar layouts", REAL,
["python/dolfinx_contact/meshing/contact_meshes.py:create_circle_plane_mesh", "python/dolfinx_contact/meshing/contact_meshes.py:create_halfdisk_plane_mesh", "python/dolfinx_contact/meshing/contact_meshes.py:create_gmsh_box_mesh_2D", "python/dolfinx_contact/meshing/contact_meshes.py:create_quarter_disks_mesh", "python/dolfinx_contact/meshing/contact_meshes.py:sliding_wedges", "python/demos/new_demo_nitsche_rigid_surface_ufl.py"])
p("C213","Facet markers made from coordinates are valid and name what they are meant to name",
"Where a demo marks facets by conditions on coordinates, the facets found for a value are exactly the boundary facets all of whose vertices meet the condition with this value, in increasing order, whatever order the sorting routine leaves equal facets in; every facet is passed to meshtags at most once; a marked facet stays marked when the mesh is refined; facets marked for a body belong to this body, and the contact surfaces contain the points where the bodies are closest. The facets fixed in the third direction for Christmas trees are all those of an end plane within 0.1 of the axis through (2, 0), and none farther than 0.15.",
"every mesh, every outcome of an unstable argsort, all demos with such markers (boxes, cylinders, discs, one body above a plane, disc above a rigid box, beam, Christmas trees in space)", REAL,
["python/demos/demo_nitsche_unbiased.py", "python/demos/new_demo_custom_snes_one_sided.py", "python/demos/new_demo_compare_nitsche_snes.py", "python/demos/new_demo_nitsche_rigid_surface_custom.py", "python/demos/new_demo_nitsche_euler_bernoulli.py", "python/demos/demo_christmas_tree_3D.py", "python/demos/new_demo_christmas_tree.py", "python/dolfinx_contact/meshing/christmas_tree.py:create_christmas_tree_mesh_3D"])
p("C214","Every part of the Christmas tree is paired with all facets of the other body near it",
"In new_demo_christmas_tree.py, for any number of parts, every part of the contact surface of the tree is the first surface of exactly one contact pair, the second surface of which consists of exactly the facets of the whole contact surface of the surrounding body that are nearer than 0.8 to a facet of the part, measured between midpoints; likewise for the parts of the surrounding body. The tags the demo counts from marker_offset are the tags of these parts in the mesh, no tag is used twice, and the facets passed to meshtags are strictly increasing.",
"every mesh and marker, every number of parts, in two and three dimensions", SIZE,
["python/demos/new_demo_christmas_tree.py", "python/dolfinx_contact/meshing/christmas_tree.py:create_christmas_tree_mesh", "python/dolfinx_contact/meshing/christmas_tree.py:create_christmas_tree_mesh_3D", "cpp/utils.cpp:find_candidate_surface_segment", "cpp/Contact.cpp:create_cell_facet_pairs"])
p("C215","Ray tracing and the search for the closest point agree on flat parallel surfaces",
"If the candidate facets lie in one plane and the line through a quadrature point along the normal of that plane meets a candidate facet, then closest point mode stores the point of intersection as contact point, and tracing a ray along the normal to that facet succeeds and returns its parameters up to the tolerance. On any surface, the contact point of closest point mode is not farther from the quadrature point than any point of a candidate facet a ray can hit, so the gap found by ray tracing is never smaller.",
"every mesh of affine cells, all facets, quadrature rules, candidate facets in a plane, normals and tolerances up to 1/4", REAL,
["cpp/utils.h:compute_distance_map", "cpp/utils.h:compute_projection_map", "cpp/utils.h:compute_raytracing_map", "cpp/RayTracing.h:raytracing_cell"])
p("C216","The comparison demos accept exactly the solutions that agree in L2 on the finest level",
"new_demo_custom_snes_one_sided.py and new_demo_compare_nitsche_snes.py end without an error if and only if, on the finest refinement level, the L2 norm of the difference of the two solutions is below 1e-4 and below a thousandth of the L2 norm of the SNES solution; otherwise they raise AssertionError, in particular when the SNES solution is zero. The norms are those of the whole mesh, for every number of processes and distribution of the cells. Two solutions accepted with the same reference differ by less than 2e-4.",
"all solutions, meshes, quadrature rules with nonnegative weights, numbers of levels and of processes", REAL,
["python/demos/new_demo_custom_snes_one_sided.py:solver", "python/demos/new_demo_compare_nitsche_snes.py", "python/demos/debug.py"])
p("C217","The solution depends on the initial gap Lipschitz continuously",
"There is a constant C such that the following holds. Take two contact problems that are equal except for the gap vectors, with normal gaps that differ by at most eps at every linked quadrature point. Their solutions for the same load and the same prescribed values differ by at most C eps in the Euclidean norm of the free dofs. This holds without friction, with Tresca friction and with Coulomb friction, whenever the problem is well posed in the sense of C143 and C204. C does not depend on the load, the prescribed values, the second gap or eps.",
"all meshes, histories of calls, gamma > 0, theta, gaps, loads and prescribed values", REAL,
["cpp/contact_kernels.cpp:generate_contact_kernel", "python/dolfinx_contact/general_contact/contact_problem.py:ContactProblem", "cpp/Contact.cpp:pack_gap"])
p("C218","The convergence studies refine uniformly and report the order of convergence",
"With --runs n (n at least 1) the studies of poisson_convergence.py (and the loops of meshtie_convergence.py) compute n levels. Each level has half the resolution and twice the numbers of interface segments of the level before, and a file name of its own. Errors and dof counts are reported level by level, with n - 1 rates. The rate of two consecutive levels with positive errors and different dof counts is the one exponent p for which the errors differ by the factor (h/h')^p, where h is the number of dofs to the power -1/tdim. It is positive exactly if the error fell. If both errors lie between c h^p and C h^p, the rate differs from p by at most log(C/c)/log(h/h'). Where there is no order, none is reported: levels with the same dof count have the rate NaN or an infinity with the sign of the change of the error, and a level without an error an infinity, or NaN if the one before had none either. With n <= 0 the studies raise UnboundLocalError.",
"all numbers of runs, errors and dof counts of the levels, in two and three dimensions", REAL,
["python/demos/meshtie_demos/poisson_convergence.py:unsplit_domain", "python/demos/meshtie_demos/poisson_convergence.py:test_meshtie", "python/demos/meshtie_convergence.py:test_meshtie"])
p("C219", "Computations in phases",
  "A program may call generate_contact_data again between load steps, with another friction law, other Nitsche parameters, materials or friction coefficient (demo_friction_cylinders.py: first without friction, then Coulomb friction). The contact problem raises no exception; every load step starts from the sum of all increments so far, also those of earlier phases; and in every load step reported as converged the increment satisfies the equations of that step up to atol with the law, parameters and material of its phase and the friction coefficient given last, for the contact detected on the geometry moved by the sum. Prescribed increments add up: after n converged steps the displacement of a prescribed dof differs from the sum of the prescribed increments by at most n times atol. With error_on_nonconvergence all reported load steps have converged, and all of them are reported if no exception ends the program. In demo_friction_cylinders.py, if the program ends without an exception, all 100 load steps were done, the top has been moved down by 0.2 and sideways by 0.3 and the bottom not at all, up to 100 atol.",
  "all meshes, pairs, sequences of phases and load steps, forms, boundary conditions, initial guesses, linear solvers, options with the residual criterion", REAL,
  ["python/demos/hertz_contact/demo_friction_cylinders.py", "python/demos/hertz_contact/demo_friction_cylinders_force_driven.py", "python/dolfinx_contact/general_contact/contact_problem.py:generate_contact_data"])
p("C220", "Load schedule of the main demo",
  "demo_nitsche_unbiased.py reaches the displacements of the supports in nload_steps steps. With --lifting it prescribes increments, otherwise totals in the weak form; both describe the same proportional loading. If the program ends without an exception, all load steps were done and converged, however many there are. With --lifting the displacement of every dof which belongs to one support only differs after i steps from i/n of the displacement asked for by at most i times 1e-7, so at the end from the full displacement by at most n times 1e-7. Without it, load step i solves, up to 1e-7, the equations in which the supports are displaced by (i+1)/n of the displacement, in the last one by all of it.",
  "all meshes, supports, displacements, numbers of load steps, friction laws, materials, linear solvers", REAL,
  ["python/demos/demo_nitsche_unbiased.py", "python/dolfinx_contact/newton_solver.py:NewtonSolver.solve"])
p("C221", "The force driven computation",
  "demo_friction_cylinders_force_driven.py presses two cylinders together by a traction on top, in 4 load steps without friction, and adds a tangential traction in 8 load steps with Coulomb friction. If the program ends without an exception, all 12 load steps were done and converged. Load step i of the first phase satisfies, up to atol, the equations with (i+1)/4 of the pressure, so that the last one carries all of it; load step i of the second phase those with (i+1)/8 of the tangential traction and the data of its phase. The bottom stays fixed up to 12 atol. In the second phase the vertical dofs of the top are held: they stay where the first phase has put them, up to 8 atol, and the pressure has no effect: the load steps compute the same for every pressure, so the normal load is whatever the held displacement gives.",
  "all meshes, materials, pressures, tangential tractions, initial guesses, linear solvers, options with the residual criterion and error_on_nonconvergence", REAL,
  ["python/demos/hertz_contact/demo_friction_cylinders_force_driven.py"])
p("C222", "Contact carries the load of the Hertz demo",
  "demo_hertzian_contact.py presses a disk, a ball or half of one on a block, by a body force or by a traction on top, in 4 load steps. If the program ends without an exception, all 4 load steps were done and converged, and after load step i contact pushes the upper body upwards with the force applied to it up to then: (i+1)/4 of the load, times the size of the meshed body (or of its top) over that of the exact one, up to a multiple of atol. For a traction in two dimensions, where straight facets mesh the top exactly, this is the force whose Hertz pressure the demo writes.",
  "all meshes, materials, radii, loads, initial guesses, linear solvers, options with the residual criterion and error_on_nonconvergence, both problems in two and three dimensions, all load steps", REAL,
  ["python/demos/hertz_contact/demo_hertzian_contact.py"])
p("C223", "Contact carries the loads of the force driven computation",
  "If demo_friction_cylinders_force_driven.py ends without an exception, contact pushes the upper cylinder upwards in load step i of the first phase with (i+1)/4 of the pressure times the length of the top, and in load step i of the second phase friction holds it back with (i+1)/8 of the tangential traction times that length, up to multiples of atol. So what contact transmits is what the demo applies, for the normal load in the first phase and for the tangential one in the second.",
  "all meshes, materials, pressures, tangential tractions, initial guesses, linear solvers, options with the residual criterion and error_on_nonconvergence, all load steps", REAL,
  ["python/demos/hertz_contact/demo_friction_cylinders_force_driven.py"])
p("C224", "Friction carries at most its coefficient times the pressing force",
  "In a load step of the two-sided solver reported as converged, a body which rests on a flat interface and is held along it by friction only cannot carry along the interface more than the friction coefficient times the load that presses it on the interface, up to multiples of atol; nor can the load pull it off the interface. So for a block pushed or pulled harder than Coulomb's law allows no load step is reported as converged, whatever the mesh, the penalty parameter, the variant of Nitsche's method or the linear solver.",
  "all meshes, bodies, materials, Nitsche parameters, friction coefficients which vary from facet to facet, displacements, linear solvers, load programs of phases and load steps, options with the residual criterion", REAL,
  ["python/demos/hertz_contact/demo_friction_cylinders.py", "python/dolfinx_contact/general_contact/contact_problem.py:ContactProblem", "cpp/contact_kernels.cpp:generate_contact_kernel"])
p("C225", "Tresca friction carries at most its bound times the area in contact",
  "In a load step of the two-sided solver reported as converged, a body which is held along a flat interface by Tresca friction only cannot carry along the interface more than the integral of Tresca's bound over the area where it touches other bodies, up to multiples of atol; where it touches nothing there is no friction.",
  "all meshes, bodies, materials, Nitsche parameters, Tresca bounds which vary from facet to facet, displacements, linear solvers, load programs of phases and load steps, options with the residual criterion", REAL,
  ["python/demos/demo_nitsche_unbiased.py", "python/dolfinx_contact/general_contact/contact_problem.py:ContactProblem", "cpp/contact_kernels.cpp:generate_contact_kernel"])
p("C226", "Friction opposes sliding with its coefficient times the pressing force",
  "In a load step of the two-sided solver (two dimensions, Coulomb friction with the same coefficient everywhere) reported as converged, in which a body slides along a flat interface at all its contact points, the load that pushes the body along the interface acts in the direction of sliding and is the friction coefficient times the load that presses it on the interface, up to multiples of atol. With C224: a sliding block carries exactly what Coulomb's law says, a sticking one not more. With Tresca friction, whose bound may vary, the load along the interface is the integral of the bound over the linked points between the body and others (see C225).",
  "all meshes, bodies, materials, Nitsche parameters, friction coefficients, displacements, linear solvers, load programs of phases and load steps, options with the residual criterion", REAL,
  ["python/demos/demo_sliding_wedges.py", "python/dolfinx_contact/general_contact/contact_problem.py:ContactProblem", "cpp/contact_kernels.cpp:generate_contact_kernel"])
out = pathlib.Path(__file__).resolve().parent.parent / "properties.jsonl"
ids=[q["id"] for q in P]; assert len(ids)==len(set(ids))
out.write_text("".join(json.dumps(q)+"\n" for q in P))
print(len(P))
