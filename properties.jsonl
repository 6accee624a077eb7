{"id": "C01", "title": "Upwind flux: consistency, antisymmetry, monotonicity", "statement": "The upwind flux of a face equals the exact advective flux w*(v.n) when both states are w; swapping the two states and reversing the normal negates it; it is nondecreasing in the left state, nonincreasing in the right state, and never lies outside the interval spanned by (v.n)*w_l and (v.n)*w_r.", "quantifier": "all left/right states, face velocities and normals", "why_tests_cant": "A test samples finitely many velocities/normals; the sign branch and its boundary (v.n = 0) must be right everywhere.", "anchors": ["manapy/fvm/pyccel_fvm.py: compute_upwind_flux"]}
{"id": "C02", "title": "Convective residual is conservative", "statement": "After the 2D/3D explicit convective scheme the sum over all cells of the residual equals minus the sum of the fluxes through halo, periodic and physical boundary faces: inner faces contribute exactly zero, for order 1 and order 2 reconstructions.", "quantifier": "all meshes (any number of cells/faces), states, gradients, limiters, velocities, orders", "why_tests_cant": "Conservation is a telescoping identity over every face of every mesh; a test only checks one mesh up to round-off.", "anchors": ["manapy/fvm/pyccel_fvm.py: explicitscheme_convective_2d", "manapy/fvm/pyccel_fvm.py: explicitscheme_convective_3d"]}
{"id": "C03", "title": "Periodic boundary faces conserve mass pairwise", "statement": "If every periodic face has a partner face whose normal is opposite, whose face velocity is equal and whose two cells are exchanged, then (order 1) the periodic faces contribute zero to the sum of the residual, so a fully periodic domain conserves the total exactly.", "quantifier": "all sets of periodic faces closed under a partner involution, all states", "why_tests_cant": "Needs a pairing argument over arbitrarily many faces.", "anchors": ["manapy/fvm/pyccel_fvm.py: explicitscheme_convective_2d", "manapy/fvm/pyccel_fvm.py: explicitscheme_convective_3d", "manapy/ddm/numba_ddm.py: update_pediodic_info_2d"]}
{"id": "C04", "title": "Diffusive residual is conservative", "statement": "After the explicit dissipative scheme the sum over cells of the dissipation equals the sum over the faces not named 0 of their diffusive flux (inner faces cancel).", "quantifier": "all meshes, face gradients, diffusion coefficients", "why_tests_cant": "Same as the convective scheme: a global identity over every mesh.", "anchors": ["manapy/fvm/pyccel_fvm.py: explicitscheme_dissipative"]}
{"id": "C05", "title": "Free-stream preservation", "statement": "On closed cells (outgoing normals of each cell add to zero), with a constant field whose ghost/halo values are that constant and whose gradient is zero and a constant velocity, the convective residual is exactly zero in every cell; hence the explicit step leaves the field unchanged.", "quantifier": "all closed meshes, constants, velocities, orders, time steps", "why_tests_cant": "Quantifies over every mesh.", "anchors": ["manapy/fvm/pyccel_fvm.py: explicitscheme_convective_2d", "manapy/fvm/pyccel_fvm.py: explicitscheme_convective_3d", "manapy/tools/pyccel_tools.py: update_new_value"]}
{"id": "C06", "title": "CFL time step bound", "statement": "The returned time step is at most 1e6 and at most cfl*volume/lambda for every cell with lambda > 0 (lambda = sum over the faces of |u.n| plus diffusive term), is positive when cfl>0, volumes>0 and lambda>0, is attained by a cell (or is 1e6), and does not depend on the numbering of the cells.", "quantifier": "all cell counts, velocities, coefficients, cell orderings", "why_tests_cant": "Minimum over an unbounded family; order independence is a statement about all permutations.", "anchors": ["manapy/tools/pyccel_tools.py: time_step"]}
{"id": "C07", "title": "Discrete maximum principle of the explicit upwind step", "statement": "With order 1, a constant velocity, closed cells and dt not larger than volume / (sum of incoming fluxes) in every cell, one explicit step produces values that lie between the minimum and the maximum of the old cell, ghost and halo values: no new extrema, positivity is kept. A time step returned by the CFL routine with cfl <= 1 satisfies this restriction.", "quantifier": "all closed meshes, all states, all velocities, all admissible time steps and any number of steps", "why_tests_cant": "Stability is a statement about every state and mesh and any number of steps.", "anchors": ["manapy/fvm/pyccel_fvm.py: explicitscheme_convective_2d", "manapy/tools/pyccel_tools.py: update_new_value", "manapy/tools/pyccel_tools.py: time_step"]}
{"id": "C08", "title": "Mass balance of the explicit update", "statement": "After the update, sum of volume*value changes by exactly dt*(sum of residual + sum of dissipation + sum of volume*source).", "quantifier": "all meshes with nonzero volumes, all states, all time steps", "why_tests_cant": "Identity over all meshes.", "anchors": ["manapy/tools/pyccel_tools.py: update_new_value"]}
{"id": "C09", "title": "Triangle area, centroid and orientation", "statement": "For every triangle the stored volume is the geometric area (nonnegative, invariant under renumbering of the nodes), the stored centre is the barycentre, and after the call the cell's nodes are the same three nodes, listed counter-clockwise (signed area = volume).", "quantifier": "all node coordinates and all cells", "why_tests_cant": "Continuous input domain.", "anchors": ["manapy/ddm/pyccel_ddm.py: Compute_2dcentervolumeOfCell"]}
{"id": "C10", "title": "Tetrahedron volume and centroid", "statement": "The stored volume is |det|/6, nonnegative, invariant under any permutation of the four nodes and under translation; the centre is the barycentre.", "quantifier": "all node coordinates, all 24 permutations", "why_tests_cant": "Continuous input domain.", "anchors": ["manapy/ddm/pyccel_ddm.py: Compute_3dcentervolumeOfCell"]}
{"id": "C11", "title": "Face normals: outward from the left cell, length = face measure, orthogonal to the face", "statement": "For every face, the stored normal is orthogonal to the face's edges, points out of the face's first cell ((centre of cell - centre of face).n <= 0) and the squared measure equals the squared length (2D) / squared triangle area (3D).", "quantifier": "all faces and coordinates, 2D and 3D", "why_tests_cant": "Continuous input domain, both orientation branches.", "anchors": ["manapy/ddm/pyccel_ddm.py: create_info_2dfaces", "manapy/ddm/pyccel_ddm.py: create_info_3dfaces"]}
{"id": "C12", "title": "Closed cells: outgoing normals sum to zero", "statement": "For every nondegenerate triangle (tetrahedron) the outgoing normals stored per cell are outward for each face and sum to the zero vector, whatever the orientation chosen for the shared face.", "quantifier": "all nondegenerate cells, all orientations of the shared face normals", "why_tests_cant": "Gauss identity for every geometry; the basis of conservation and free-stream preservation.", "anchors": ["manapy/ddm/pyccel_ddm.py: create_NormalFacesOfCell"]}
{"id": "C13", "title": "3D face node orientation agrees with the normal", "statement": "After orientation the face keeps its node set and (s2-s1)x(s3-s1).n >= 0; with the stored normal, it is a nonnegative multiple of n (equal to 2n).", "quantifier": "all faces", "why_tests_cant": "Continuous input domain.", "anchors": ["manapy/ddm/numba_ddm.py: oriente_3dfacenodeid"]}
{"id": "C14", "title": "Node-to-cell table is exact", "statement": "Row k of the node table lists exactly the cells that use node k, ascending, without repetition, padded with -1, and its last entry is their number.", "quantifier": "all meshes of simplices with distinct nodes per cell", "why_tests_cant": "All mesh topologies.", "anchors": ["manapy/ddm/numba_ddm.py: create_node_cellid"]}
{"id": "C15", "title": "Neighbour-by-node table is exact and symmetric", "statement": "Row i lists exactly the cells different from i that share at least one node with i, ascending and without repetition, padded with -1, last entry = count; the relation is symmetric.", "quantifier": "all meshes", "why_tests_cant": "All mesh topologies.", "anchors": ["manapy/ddm/numba_ddm.py: create_node_cellid"]}
{"id": "C16", "title": "Faces are unique and complete", "statement": "Each geometric face (set of dim nodes of some cell) appears exactly once in the face table and the face table contains nothing else; the j-th face of cell i has the node set of its j-th side.", "quantifier": "all meshes, 2D and 3D", "why_tests_cant": "All mesh topologies.", "anchors": ["manapy/ddm/pyccel_ddm.py: create_2dfaces", "manapy/ddm/pyccel_ddm.py: create_3dfaces", "manapy/ddm/pyccel_ddm.py: create_cell_faceid", "manapy/ddm/domain.py: Domain"]}
{"id": "C17", "title": "Cells-of-face table is exact", "statement": "For a face used by exactly two cells the table holds those two cells with the smaller first; for a face used by one cell it holds that cell and -1; a face used by no cell keeps (-1,-1).", "quantifier": "all face-to-cell incidence tables", "why_tests_cant": "All mesh topologies.", "anchors": ["manapy/ddm/pyccel_ddm.py: create_cellsOfFace"]}
{"id": "C18", "title": "Neighbour-by-face table is exact and symmetric", "statement": "Entry j of row i is the other cell of the j-th face of i, or -1 on a boundary; if k is a neighbour of i through a face then i is a neighbour of k through it.", "quantifier": "all meshes", "why_tests_cant": "All mesh topologies.", "anchors": ["manapy/ddm/numba_ddm.py: create_NeighborCellByFace"]}
{"id": "C19", "title": "Opposite nodes of a face", "statement": "For each triangle side the node of the cell that is not on the side is recorded as an opposite node of that face, nothing else is recorded, and faces with fewer than two cells are padded with -1.", "quantifier": "all meshes", "why_tests_cant": "All mesh topologies.", "anchors": ["manapy/ddm/numba_ddm.py: create_2doppNodeOfFaces"]}
{"id": "C20", "title": "Cells are partitioned", "statement": "Every cell belongs to exactly one subdomain, each subdomain list is ascending and the concatenation of the subdomain lists is a permutation of all cells.", "quantifier": "all meshes, all partition vectors, all numbers of processes", "why_tests_cant": "Any number of processes and any METIS output.", "anchors": ["manapy/ddm/numba_ddm.py: create_npart_cpart", "manapy/ddm/meshpartitioning.py: readmesh"]}
{"id": "C21", "title": "Node-to-subdomain lists are exact", "statement": "The subdomains recorded for a node are exactly METIS' node part plus the subdomains of the cells using the node, without repetition; the node list of subdomain p is exactly the set of nodes of its cells, each once.", "quantifier": "all meshes and partitions", "why_tests_cant": "Any topology/partition.", "anchors": ["manapy/ddm/numba_ddm.py: create_npart_cpart", "manapy/ddm/numba_ddm.py: unique_func", "manapy/ddm/meshpartitioning.py: readmesh"]}
{"id": "C22", "title": "Neighbouring subdomains are symmetric", "statement": "Subdomain q is listed as neighbour of p iff q != p and some node belongs to both; the relation is symmetric and irreflexive.", "quantifier": "all meshes and partitions", "why_tests_cant": "Any topology/partition; asymmetry would deadlock the MPI exchange.", "anchors": ["manapy/ddm/numba_ddm.py: create_npart_cpart", "manapy/ddm/meshpartitioning.py: readmesh"]}
{"id": "C23", "title": "Halo cells are exact", "statement": "The halo cells of subdomain p are exactly its cells having a node that belongs to more than one subdomain.", "quantifier": "all meshes and partitions", "why_tests_cant": "Any topology/partition.", "anchors": ["manapy/ddm/numba_ddm.py: create_npart_cpart", "manapy/ddm/meshpartitioning.py: readmesh"]}
{"id": "C24", "title": "Send and receive halo lists agree", "statement": "For all p, q the list of cells p sends to q is, in the same order, the list of cells q expects from p; it consists exactly of the cells of p that have a node in q.", "quantifier": "all meshes, partitions, pairs of processes", "why_tests_cant": "All pairs and all partitions.", "anchors": ["manapy/ddm/meshpartitioning.py: readmesh"]}
{"id": "C25", "title": "Mesh file round trip", "statement": "Reading the partition file written for a rank returns the same cells, nodes, labels, halo lists, neighbour list, local-to-global and node-part tables that were written, for every rank and number of processes.", "quantifier": "all meshes, ranks, sizes", "why_tests_cant": "Line-oriented format with substring markers: must hold for any contents.", "anchors": ["manapy/ddm/meshpartitioning.py: readmesh", "manapy/ddm/numba_ddm.py: read_mesh_file"]}
{"id": "C26", "title": "Halo exchange delivers the owner's value", "statement": "After update of the halo values, on every rank the k-th halo value is the value of the global cell listed k-th in the rank's external halo list, read on the rank that owns it.", "quantifier": "all partitions, all ranks, all values", "why_tests_cant": "Depends on agreement of counts, displacements and orders on all ranks.", "anchors": ["manapy/comms/communication.py: prepare_comm", "manapy/comms/communication.py: define_halosend", "manapy/comms/communication.py: all_to_all", "manapy/ast/core.py: update_halo_value", "manapy/ddm/meshpartitioning.py: readmesh"]}
{"id": "C27", "title": "Halo faces are identified exactly", "statement": "In a parallel run a one-sided local face is marked as halo face iff its global node set is a side of an external halo cell, and its halo index then designates a halo cell having that side.", "quantifier": "all local meshes and halo lists", "why_tests_cant": "All topologies and all node orders.", "anchors": ["manapy/ddm/numba_ddm.py: create_2d_halo_structure", "manapy/ddm/numba_ddm.py: create_3d_halo_structure"]}
{"id": "C28", "title": "Boundary face naming", "statement": "A one-sided face whose nodes carry equal labels gets that label; otherwise the corner rules give it label 3 (then 4, 33, 44) if one of its nodes has it and all are labelled; two-sided faces keep label 0.", "quantifier": "all label assignments", "why_tests_cant": "All label combinations; also which combinations fall through to 100.", "anchors": ["manapy/ddm/pyccel_ddm.py: create_info_2dfaces", "manapy/ddm/pyccel_ddm.py: create_info_3dfaces"]}
{"id": "C29", "title": "Every face belongs to exactly one face family", "statement": "The inner, halo, in, out, bottom, upper, (front, back), periodic face lists are pairwise disjoint and cover all faces, so that each face is visited exactly once by the schemes.", "quantifier": "all meshes and labels", "why_tests_cant": "Coverage fails only for particular label combinations; needs all of them.", "anchors": ["manapy/ddm/domain.py: Domain", "manapy/ddm/pyccel_ddm.py: create_info_2dfaces", "manapy/fvm/pyccel_fvm.py: explicitscheme_convective_2d"]}
{"id": "C30", "title": "Ghost value update implements the boundary conditions", "statement": "Updating ghosts sets, on each face of a boundary location, the cell value (Neumann), the prescribed value (Dirichlet), minus the cell value (non-slip) and leaves all other ghost entries unchanged; the update is idempotent and independent of the order of locations with disjoint faces.", "quantifier": "all variables, face sets, values", "why_tests_cant": "Must hold for any mesh and any mixture of conditions.", "anchors": ["manapy/ast/pyccel_functions.py: ghost_value_neumann", "manapy/ast/pyccel_functions.py: ghost_value_dirichlet", "manapy/ast/pyccel_functions.py: ghost_value_nonslip", "manapy/ast/core.py: Variable.update_ghost_value"]}
{"id": "C31", "title": "Boundary conditions do not depend on the order of the BC dictionary", "statement": "Two BC dictionaries with the same entries in different order give variables with the same prescribed boundary values and leave the cell values untouched.", "quantifier": "all BC dictionaries", "why_tests_cant": "Order dependence through array aliasing only shows for particular orders.", "anchors": ["manapy/ast/core.py: Variable.__init__"]}
{"id": "C32", "title": "Ghosts follow the current cell values", "statement": "After solving a linear system or building a variable by arithmetic, updating the ghosts of a Neumann boundary uses the variable's current cell values.", "quantifier": "all histories of assignments/solves and updates", "why_tests_cant": "Aliasing/rebinding bug that depends on the history and on the solver.", "anchors": ["manapy/ast/core.py: Variable.update_ghost_value", "manapy/ast/core.py: Variable.__add__", "manapy/ast/linearsystem.py: LinearSystem.solve"]}
{"id": "C33", "title": "BC validation", "statement": "Creating a variable raises ValueError exactly when a periodic location of the domain is given a non-periodic condition, a non-periodic location is given periodic, or a Dirichlet condition has no value; otherwise it succeeds (except the slip condition).", "quantifier": "all BC dictionaries and domains", "why_tests_cant": "All combinations.", "anchors": ["manapy/ast/core.py: Variable.__init__", "manapy/ast/core.py: Boundary"]}
{"id": "C34", "title": "Slip boundary conditions are refused, never silently mistreated", "statement": "Creating a variable whose BC dictionary contains a slip condition never succeeds, whatever the rest of the dictionary and the domain; on a non-periodic location alone it raises AttributeError. (Slip is listed by the code as a supported condition; it is not usable.)", "quantifier": "all domains, all BC dictionaries", "why_tests_cant": "Needs every dictionary: one accepted dictionary would give a variable whose ghosts are never filled.", "anchors": ["manapy/ast/core.py: Boundary"]}
{"id": "C35", "title": "Halo-ghost values of boundary conditions", "statement": "For every ghost cell attached to a node shared with another subdomain, the halo-ghost value equals what the owner's ghost update computes (Neumann: halo cell value; non-slip: minus the halo cell value; Dirichlet: the prescribed value).", "quantifier": "all halo nodes and boundary labels", "why_tests_cant": "Index confusion shows only when the two numberings differ.", "anchors": ["manapy/ast/pyccel_functions.py: haloghost_value_neumann", "manapy/ast/pyccel_functions.py: haloghost_value_nonslip", "manapy/ast/pyccel_functions.py: haloghost_value_dirichlet"]}
{"id": "C36", "title": "Variable arithmetic is pointwise and does not modify operands", "statement": "a+b, a-b, a*b, a/b act cell by cell, operands are unchanged, and a/b raises exactly when some denominator is zero.", "quantifier": "all variables", "why_tests_cant": "All arrays.", "anchors": ["manapy/ast/core.py: Variable.__add__"]}
{"id": "C37", "title": "Discrete L2 error norm", "statement": "The error norm is zero iff the two fields agree in every cell (positive volumes), nonnegative, and scales with the field.", "quantifier": "all fields/meshes", "why_tests_cant": "All arrays.", "anchors": ["manapy/ast/core.py: Variable.norml2"]}
{"id": "C38", "title": "Cell-to-vertex interpolation is exact on affine functions (2D)", "statement": "If the least-squares denominator and the normalisation are nonzero, interpolating from cells/ghosts/halos to a vertex reproduces every affine function, in particular constants, exactly.", "quantifier": "all node stencils and all affine functions", "why_tests_cant": "Algebraic identity over all stencils.", "anchors": ["manapy/ddm/pyccel_ddm.py: variables", "manapy/ast/pyccel_functions.py: centertovertex_2d"]}
{"id": "C39", "title": "Cell-to-vertex interpolation is exact on affine functions (3D)", "statement": "Same as the 2D statement with the 3x3 least-squares system.", "quantifier": "all node stencils and affine functions", "why_tests_cant": "Algebraic identity over all stencils.", "anchors": ["manapy/ddm/pyccel_ddm.py: variables_3d", "manapy/ast/pyccel_functions.py: centertovertex_3d"]}
{"id": "C40", "title": "Least-squares cell gradient is exact on affine functions", "statement": "With a nonzero determinant the cell gradient of samples of an affine function is its exact gradient, in 2D and (no periodic neighbours) 3D; the gradient of a constant is zero.", "quantifier": "all stencils and affine functions", "why_tests_cant": "Algebraic identity over all stencils.", "anchors": ["manapy/ast/pyccel_functions.py: cell_gradient_2d", "manapy/ast/pyccel_functions.py: cell_gradient_3d"]}
{"id": "C41", "title": "Cell gradient across periodic boundaries", "statement": "With shifted periodic neighbours an affine function (extended by the shift) has its exact gradient, in 2D and in 3D.", "quantifier": "all stencils with periodic neighbours", "why_tests_cant": "The 3D code path assigns the wrong variable; only visible with periodic neighbours.", "anchors": ["manapy/ast/pyccel_functions.py: cell_gradient_2d", "manapy/ast/pyccel_functions.py: cell_gradient_3d"]}
{"id": "C42", "title": "Diamond face gradient is exact on affine functions", "statement": "The diamond-cell face gradient of samples of an affine function at the two cells and the face vertices is its exact gradient (2D and 3D) when the diamond is nondegenerate.", "quantifier": "all faces and affine functions", "why_tests_cant": "Continuous domain.", "anchors": ["manapy/ddm/pyccel_ddm.py: face_gradient_info_2d", "manapy/ddm/numba_ddm.py: face_gradient_info_3d", "manapy/ast/pyccel_functions.py: face_gradient_2d", "manapy/ast/pyccel_functions.py: face_gradient_3d"]}
{"id": "C43", "title": "Electric field is minus the gradient of the potential", "statement": "compute_P_gradient gives, on every face, the negative of the diamond gradient of the same data, with Dirichlet values used at Dirichlet boundary nodes.", "quantifier": "all faces/data", "why_tests_cant": "Continuous domain, several face families.", "anchors": ["manapy/ast/pyccel_functions.py: compute_P_gradient_2d", "manapy/ast/pyccel_functions.py: face_gradient_2d"]}
{"id": "C44", "title": "Barth-Jespersen limiter", "statement": "The limiter lies in [0,1] and the limited reconstruction at every face centre stays within the min/max of the cell and its face neighbours up to the code's tolerance; the limiter is 1 where the gradient is zero.", "quantifier": "all cells, fields, gradients", "why_tests_cant": "Continuous domain, min over faces.", "anchors": ["manapy/ast/pyccel_functions.py: barthlimiter_2d", "manapy/ast/pyccel_functions.py: barthlimiter_3d"]}
{"id": "C45", "title": "Face-to-cell average", "statement": "The cell value computed from faces is the arithmetic mean: it lies between the min and max of its faces and preserves constants.", "quantifier": "all meshes/data", "why_tests_cant": "All arrays.", "anchors": ["manapy/ast/pyccel_functions.py: facetocell"]}
{"id": "C46", "title": "Matrix storage is sized exactly", "statement": "The number of triplets emitted by assembly never exceeds the number allocated by the sizing pass (2D and 3D), so that no write is out of bounds, and unused entries are zero.", "quantifier": "all meshes, BC assignments", "why_tests_cant": "Out-of-bounds writes only occur on meshes with particular boundary/halo combinations.", "anchors": ["manapy/ast/pyccel_functions.py: compute_2dmatrix_size", "manapy/ast/pyccel_functions.py: get_triplet_2d", "manapy/ast/pyccel_functions.py: compute_3dmatrix_size", "manapy/ast/pyccel_functions.py: get_triplet_3d"]}
{"id": "C47", "title": "Matrix rows annihilate constants away from Dirichlet boundaries", "statement": "For pure Neumann problems every row of the assembled 2D matrix sums to zero, i.e. constants are in the kernel (given that vertex weights sum to one).", "quantifier": "all meshes", "why_tests_cant": "Identity over all meshes.", "anchors": ["manapy/ast/pyccel_functions.py: get_triplet_2d"]}
{"id": "C48", "title": "Matrix and right hand side encode the diamond-scheme balance", "statement": "For every cell vector P (and boundary data) the product A*P - rhs equals cell by cell the sum over the faces of the diamond flux of the interpolated data divided by the cell volume.", "quantifier": "all meshes, BCs and vectors", "why_tests_cant": "Identity over all meshes.", "anchors": ["manapy/ast/pyccel_functions.py: get_triplet_2d", "manapy/ast/pyccel_functions.py: get_rhs_loc_2d", "manapy/ast/pyccel_functions.py: get_rhs_glob_2d"]}
{"id": "C49", "title": "Constant Dirichlet data is solved by the constant", "statement": "If all Dirichlet values equal c then the constant vector c satisfies A*c = rhs exactly.", "quantifier": "all meshes/BCs", "why_tests_cant": "Identity over all meshes.", "anchors": ["manapy/ast/pyccel_functions.py: get_triplet_2d", "manapy/ast/pyccel_functions.py: get_rhs_loc_2d"]}
{"id": "C50", "title": "Local and global right-hand sides agree", "statement": "Entry loctoglob[i] of the global right-hand side contribution of a rank equals entry i of the local right-hand side.", "quantifier": "all meshes/partitions", "why_tests_cant": "All partitions.", "anchors": ["manapy/ast/pyccel_functions.py: get_rhs_loc_2d", "manapy/ast/pyccel_functions.py: get_rhs_glob_2d", "manapy/ast/pyccel_functions.py: get_rhs_loc_3d", "manapy/ast/pyccel_functions.py: get_rhs_glob_3d"]}
{"id": "C51", "title": "Solution scatter", "statement": "After a global solve on rank 0, every rank's cell j receives the solution entry of global cell loctoglob[j].", "quantifier": "all partitions and solutions", "why_tests_cant": "All partitions.", "anchors": ["manapy/ast/pyccel_functions.py: convert_solution", "manapy/ast/linearsystem.py: LinearSystem.solve", "manapy/ddm/meshpartitioning.py: readmesh"]}
{"id": "C52", "title": "Solving twice gives the same system", "statement": "The right-hand side used by the n-th solve is the assembled boundary contribution plus the n-th supplied source: earlier solves leave no trace.", "quantifier": "all histories of solves", "why_tests_cant": "History property.", "anchors": ["manapy/ast/linearsystem.py: LinearSystem.solve"]}
{"id": "C53", "title": "Shallow-water flux is consistent", "statement": "With equal left and right states and bottom the SRNH flux equals the physical flux of the shallow-water equations times the face length; the bottom component is 0.", "quantifier": "all states with h>0 and all normals", "why_tests_cant": "Continuous domain.", "anchors": ["manapy/models/SWModel/tools.py: srnh_scheme"]}
{"id": "C54", "title": "Bottom topography never changes", "statement": "The flux and source for the bottom are zero so an SW update leaves Z unchanged, whatever the number of steps.", "quantifier": "all states, meshes, histories", "why_tests_cant": "Invariant over all executions.", "anchors": ["manapy/models/SWModel/tools.py: srnh_scheme", "manapy/models/SWModel/tools.py: update_SW", "manapy/models/SWModel/tools.py: term_source_srnh_SW"]}
{"id": "C55", "title": "Shallow-water convective residual is conservative", "statement": "The sum over cells of each component of the SW residual equals minus the flux through halo and boundary faces; water mass changes only through boundaries.", "quantifier": "all meshes and states", "why_tests_cant": "Identity over all meshes.", "anchors": ["manapy/models/SWModel/tools.py: explicitscheme_convective_SW", "manapy/models/SWModel/tools.py: update_SW"]}
{"id": "C56", "title": "Lake at rest is preserved", "statement": "With zero velocity and constant free surface h+Z (h>0) in cells and ghosts on closed cells, the convective residual and the bottom source balance exactly: at order 1 (the default) any number of steps leaves h, hu, hv, Z unchanged.", "quantifier": "all closed meshes, bottoms and time steps", "why_tests_cant": "Well-balancedness must hold for every bottom and mesh.", "anchors": ["manapy/models/SWModel/tools.py: srnh_scheme", "manapy/models/SWModel/tools.py: term_source_srnh_SW", "manapy/models/SWModel/tools.py: explicitscheme_convective_SW", "manapy/models/SWModel/tools.py: update_SW"]}
{"id": "C57", "title": "Friction is dissipative", "statement": "The friction term never increases |hu|,|hv|, keeps their direction, and leaves water at rest at rest.", "quantifier": "all states with h>0, all Manning coefficients and time steps >= 0", "why_tests_cant": "Continuous domain.", "anchors": ["manapy/models/SWModel/tools.py: term_friction_SW"]}
{"id": "C58", "title": "Coriolis force does no work", "statement": "The Coriolis term is orthogonal to the momentum and uses the Coriolis parameter supplied by the user.", "quantifier": "all states/parameters", "why_tests_cant": "Continuous domain; shown false of the code.", "anchors": ["manapy/models/SWModel/tools.py: term_coriolis_SW", "manapy/models/SWModel/core.py: ShallowWaterModel"]}
{"id": "C59", "title": "Shallow-water dissipation has the sign of diffusion", "statement": "The dissipation term enters the SW update with the same sign as in the scalar update (diffusive).", "quantifier": "all states", "why_tests_cant": "Shown false of the code.", "anchors": ["manapy/models/SWModel/tools.py: update_SW", "manapy/tools/pyccel_tools.py: update_new_value"]}
{"id": "C60", "title": "Shallow-water time step bound", "statement": "The SW time step is at most 1e6 and bounded by cfl*volume/lambda in each cell with positive depth.", "quantifier": "all meshes and states", "why_tests_cant": "Minimum over an unbounded family.", "anchors": ["manapy/models/SWModel/tools.py: time_step_SW"]}
{"id": "C61", "title": "Streamer: electron drift is antiparallel to the field and defined for all field strengths", "statement": "For each field strength exactly one mobility branch applies and the velocity is a nonpositive multiple of the electric field.", "quantifier": "all E/n", "why_tests_cant": "Piecewise definition over a continuous domain.", "anchors": ["manapy/models/StreamerModel/tools.py: compute_velocity"]}
{"id": "C62", "title": "Streamer: charge is conserved by the source and the source is nonnegative", "statement": "Electrons and ions receive the same source, so sum of volume*(ne - ni) changes only by the transport terms; ionisation source is >= 0 for ne >= 0.", "quantifier": "all states", "why_tests_cant": "All meshes/states.", "anchors": ["manapy/models/StreamerModel/tools.py: explicitscheme_source_streamer", "manapy/models/StreamerModel/tools.py: update_streamer_flux"]}
{"id": "C63", "title": "Two model instances do not interfere", "statement": "Updating the values of one model instance updates that instance's variables, whatever other instances exist.", "quantifier": "all sequences of model constructions and updates", "why_tests_cant": "History property; class-level mutable state.", "anchors": ["manapy/models/SWModel/core.py: ShallowWaterModel", "manapy/models/StreamerModel/core.py: StreamerModel"]}
{"id": "C64", "title": "Parallel output index files", "statement": "After any sequence of saves the index file for an iteration contains exactly one document.", "quantifier": "all sequences of saves", "why_tests_cant": "History property (append mode).", "anchors": ["manapy/ddm/domain.py: Domain.save_on_cell", "manapy/ddm/domain.py: Domain.save_on_node"]}
{"id": "C65", "title": "Ghost-cell exchange between subdomains", "statement": "After the ghost exchange each shared node knows exactly the ghost cells other subdomains hold at that node, and halo-ghost slots are numbered 0..size-1 without repetition.", "quantifier": "all partitions, all ranks", "why_tests_cant": "Counts, displacements and orders must agree on all ranks.", "anchors": ["manapy/comms/communication.py: update_haloghost_info_2d", "manapy/comms/communication.py: update_haloghost_info_3d"]}
{"id": "C66", "title": "Ghost centre is the mirror image of the cell centre", "statement": "For every boundary face the ghost centre is the reflection of the centre of the adjacent cell across the line (plane) of the face and K is its midpoint on the face.", "quantifier": "all boundary faces", "why_tests_cant": "Continuous domain.", "anchors": ["manapy/ddm/domain.py: Domain", "manapy/ddm/pyccel_ddm.py: compute_K"]}
{"id": "C67", "title": "Node labels at corners", "statement": "The label of a mesh node is one of the labels of the boundary elements containing it, with the priority rule of the reader; nodes on no boundary element have label 0; renaming for periodic boundaries is injective.", "quantifier": "all meshes", "why_tests_cant": "All label combinations and orders of elements.", "anchors": ["manapy/ddm/meshpartitioning.py: define_ghost_node", "manapy/ddm/meshpartitioning.py: readmesh"]}
{"id": "C68", "title": "Periodic partner cells", "statement": "In a periodic direction each periodic face's second cell is the cell behind the face at the translated position, the partner relation is symmetric, and the shift is the translation.", "quantifier": "all periodic meshes", "why_tests_cant": "All topologies; several code paths with copy-paste differences.", "anchors": ["manapy/ddm/numba_ddm.py: update_pediodic_info_2d", "manapy/ddm/numba_ddm.py: update_pediodic_info_3d"]}
{"id": "C69", "title": "Boundary data of a linear system survives the creation of other objects", "statement": "Creating another variable or another linear system on the same domain, or evaluating an expression such as a+b, does not change the Dirichlet data an existing linear system uses.", "quantifier": "all histories of variable/system creations on one domain", "why_tests_cant": "Shared mutable state; depends on the history.", "anchors": ["manapy/ast/core.py: Variable.__init__", "manapy/ast/linearsystem.py: LinearSystem.__init__", "manapy/ast/linearsystem.py: LinearSystem.compute_Sol_gradient"]}
{"id": "C70", "title": "A domain's periodic locations are recognised on every rank", "statement": "If a mesh is periodic in a direction, a BC dictionary declaring it periodic is accepted on every rank.", "quantifier": "all partitions", "why_tests_cant": "Depends on whether a subdomain owns faces of the periodic boundary.", "anchors": ["manapy/ddm/domain.py: Domain", "manapy/ast/core.py: Variable.__init__"]}
{"id": "C71", "title": "Assembling a linear system does not modify the mesh", "statement": "Assembly reads the geometry; cell centres (and all other domain arrays) are the same before and after it.", "quantifier": "all meshes (2D, 3D), boundary conditions and repeated assemblies", "why_tests_cant": "Only periodic configurations are affected; a unit test on a box would not see it.", "anchors": ["manapy/ast/pyccel_functions.py: get_triplet_2d", "manapy/ast/pyccel_functions.py: get_triplet_3d"]}
{"id": "C72", "title": "The face gradient of a constant potential is zero", "statement": "If the solution is the constant c and all Dirichlet values are c, then the computed face gradient is zero on every face.", "quantifier": "all meshes, boundary conditions and constants", "why_tests_cant": "Fails only where boundaries of different type meet.", "anchors": ["manapy/ast/pyccel_functions.py: compute_P_gradient_2d", "manapy/ast/pyccel_functions.py: compute_P_gradient_3d", "manapy/ast/linearsystem.py: LinearSystem.__init__"]}
{"id": "C73", "title": "The right-hand side given at construction is used by every solver", "statement": "LinearSystem(..., rhs=r) followed by solve() solves A x = boundary contribution + r whichever solver is selected and on any number of ranks.", "quantifier": "all solvers, ranks and right-hand sides", "why_tests_cant": "Each solver has its own code path.", "anchors": ["manapy/ast/linearsystem.py: LinearSystem.__init__", "manapy/ast/linearsystem.py: LinearSystem.solve"]}
{"id": "C74", "title": "A shallow-water face carries one flux", "statement": "Computing the SRNH flux from the other side of a face (exchanged states, opposite normal) gives exactly the opposite flux, so over all ranks the halo fluxes cancel and the total residual is minus the physical boundary fluxes.", "quantifier": "all states with positive depth, all meshes, partitions and numbers of ranks", "why_tests_cant": "Continuous states, any number of ranks; the formula of the scheme is not visibly symmetric.", "anchors": ["manapy/models/SWModel/tools.py: srnh_scheme", "manapy/models/SWModel/tools.py: explicitscheme_convective_SW"]}
{"id": "C75", "title": "The SRNH predictor upwinds along the characteristics of the shallow-water equations", "statement": "For positive depth and non-critical flow, the matrix used by the predictor multiplies each eigenvector of the Jacobian of the shallow-water flux (with bottom) by the sign of its eigenvalue.", "quantifier": "all depths, velocities, concentrations", "why_tests_cant": "Continuous domain; a wrong coefficient in one of 25 entries changes only part of the solution.", "anchors": ["manapy/models/SWModel/tools.py: srnh_scheme"]}
{"id": "C76", "title": "A shallow-water model can be built and stepped with any selection of terms", "statement": "ShallowWaterModel(terms=...) with the documented parameters of the selected terms can be built and update_solution runs.", "quantifier": "all subsets of terms and parameter dictionaries", "why_tests_cant": "All subsets and dictionaries.", "anchors": ["manapy/models/SWModel/core.py: ShallowWaterModel", "manapy/ast/core.py: Variable.__init__"]}
{"id": "C77", "title": "Building a model does not change its arguments", "statement": "The list of terms given to a model is the same list of terms after the construction, for any number of models built from it.", "quantifier": "all lists and numbers of constructions", "why_tests_cant": "Depends on the history of constructions.", "anchors": ["manapy/models/SWModel/core.py: ShallowWaterModel", "manapy/models/StreamerModel/core.py: StreamerModel"]}
{"id": "C78", "title": "Second-order reconstruction keeps a lake at rest", "statement": "The lake at rest is also preserved when the model is used at order 2.", "quantifier": "all meshes and bottoms", "why_tests_cant": "Shown false of the code: depth is reconstructed, the bottom is not.", "anchors": ["manapy/models/SWModel/tools.py: explicitscheme_convective_SW"]}
{"id": "C79", "title": "Streamer: the right-hand side of the Poisson equation is the charge of the current step", "statement": "At every step the right-hand side assembled on rank 0 holds, at the global index of each cell of each rank, 1.8096e-8 (ne - ni) of that cell at that step, whatever the previous steps and the other ranks wrote.", "quantifier": "all histories of steps, all numbers of ranks, all global numberings", "why_tests_cant": "The array is reused between steps and reduced over ranks; every history matters.", "anchors": ["manapy/models/StreamerModel/tools.py: update_rhs_glob", "manapy/models/StreamerModel/core.py: StreamerModel.solve_linearSystem"]}
{"id": "C80", "title": "Streamer: the time step respects the convection-diffusion bound of every cell", "statement": "The time step is the largest number, at most 1e6, with dt * (sum over the faces of |u.n| + De |n|^2/volume) <= cfl * volume for every cell.", "quantifier": "all meshes, fields, velocities", "why_tests_cant": "Continuous domain; fails only on cells whose averaged field vanishes exactly.", "anchors": ["manapy/models/StreamerModel/tools.py: time_step_streamer", "manapy/models/StreamerModel/tools.py: compute_velocity"]}
{"id": "C81", "title": "A slip wall mirrors the velocity", "statement": "With the boundary condition slip, the ghost value of a velocity component on a wall face (and at the halo ghosts of that wall) is the component of the cell's velocity mirrored in the wall: normal part reversed, tangential part kept.", "quantifier": "all velocities, wall directions, face lists, halo tables", "why_tests_cant": "Continuous domain; unit tests with velocity 0 or 1 cannot see a wrong factor.", "anchors": ["manapy/ast/pyccel_functions.py: ghost_value_slip", "manapy/ast/pyccel_functions.py: haloghost_value_slip"]}
{"id": "C82", "title": "The residual on several processes is the residual of the serial run", "statement": "If all ranks hold the restriction of the serial cell arrays, have exchanged their halos and use the same face velocities and boundary ghosts, then the convective residual computed by each rank in each of its cells is the residual the serial run computes in the same cell of the mesh, at order 1 and 2.", "quantifier": "all valid meshes, all partitions into any number of processes, all fields", "why_tests_cant": "All meshes, partitions and numbers of ranks; involves partitioning, renumbering, orientation of faces, halo tables.", "anchors": ["manapy/fvm/pyccel_fvm.py: explicitscheme_convective_2d", "manapy/fvm/pyccel_fvm.py: explicitscheme_convective_3d", "manapy/ddm/domain.py: Domain"]}
{"id": "C83", "title": "A transport run on several processes computes the solution of the serial run", "statement": "Starting from the same initial function, with the same velocity and boundary conditions, after any number of iterations of the explicit transport driver every rank has reached the time of the serial run and holds in each of its cells the value of the serial run.", "quantifier": "all valid meshes, partitions, numbers of processes, velocities, boundary conditions, numbers of iterations", "why_tests_cant": "All meshes, partitions and histories; a test runs one mesh on a fixed number of ranks for a few steps.", "anchors": ["manapy/models/tests/test_transport_2d_periodic.py", "manapy/models/tests/test_transport_3d_periodic.py", "manapy/tools/pyccel_tools.py: time_step", "manapy/tools/pyccel_tools.py: update_new_value"]}
{"id": "C84", "title": "A user function prescribed as boundary value is evaluated at the same point on every process", "statement": "The prescribed value stored for a ghost of another process is the value of the user's function at the centre of that ghost's boundary face, the value its owner uses.", "quantifier": "all functions, faces, normals, 2D and 3D", "why_tests_cant": "All functions; the tests use functions of x and y only.", "anchors": ["manapy/ast/core.py: Variable.__init__", "manapy/ddm/numba_ddm.py: create_2d_halo_structure", "manapy/comms/communication.py: update_haloghost_info_2d"]}
{"id": "C85", "title": "The wind stress follows the wind", "statement": "The wind stress of the shallow-water model is parallel to the wind, its modulus is 1.28e-3 (0.75 + 0.067 |W|) |W|^2, and it turns with the wind.", "quantifier": "all wind vectors", "why_tests_cant": "Continuous domain.", "anchors": ["manapy/models/SWModel/tools.py: term_wind_SW"]}
{"id": "C86", "title": "Streamer: diffusion dissipates", "statement": "The electron diffusion coefficient is nonnegative (positive where field and velocity do not vanish); with gradients consistent with the density differences and no flux through labelled faces the diffusion term does not increase the L2 norm of the electron density and keeps the number of electrons.", "quantifier": "all meshes, densities, fields and velocities", "why_tests_cant": "Continuous domain, all meshes.", "anchors": ["manapy/models/StreamerModel/tools.py: explicitscheme_dissipative_streamer"]}
{"id": "C87", "title": "update_values gives halo and boundary values of the serial run", "statement": "When all ranks hold in their cells the values of the serial run, the ghost tables can be exchanged and update_values succeeds on all ranks; then every halo slot holds the value of the cell it stands for and every boundary ghost the value of the same face in the serial run; the cell values are unchanged.", "quantifier": "all valid meshes, partitions, numbers of processes, boundary conditions, cell values", "why_tests_cant": "All meshes, partitions and numbers of ranks.", "anchors": ["manapy/ast/core.py: Variable.update_values", "manapy/comms/communication.py", "manapy/ddm/domain.py: Domain"]}
{"id": "C88", "title": "Node values on several processes are those of the serial run", "statement": "When all ranks hold in their cells the values of the serial run, interpolate_celltonode gives every node of every rank, also the nodes shared between ranks, the value the serial run computes at this node.", "quantifier": "all valid meshes, partitions, numbers of processes, boundary conditions, cell values", "why_tests_cant": "Involves the exchange of the ghosts around shared nodes; all partitions.", "anchors": ["manapy/ast/core.py: Variable.interpolate_celltonode", "manapy/ast/pyccel_functions.py: centertovertex_2d", "manapy/ast/pyccel_functions.py: centertovertex_3d", "manapy/comms/communication.py: update_haloghost_info_2d"]}
{"id": "C89", "title": "Gradients and dissipative fluxes on several processes are those of the serial run", "statement": "When all ranks hold in their cells the values of the serial run, compute_cell_gradient gives every cell the gradient and the limiter of the serial run and fills the halo arrays with those of the owners; compute_face_gradient gives every face the gradient of the serial run, and the dissipative residual of every cell is that of the serial run.", "quantifier": "all valid meshes, partitions, numbers of processes, boundary conditions, cell values, diffusion coefficients", "why_tests_cant": "All meshes, partitions and numbers of ranks.", "anchors": ["manapy/ast/core.py: Variable.compute_cell_gradient", "manapy/ast/core.py: Variable.compute_face_gradient", "manapy/ast/pyccel_functions.py: cell_gradient_2d", "manapy/ast/pyccel_functions.py: face_gradient_2d", "manapy/ast/pyccel_functions.py: barthlimiter_2d", "manapy/fvm/pyccel_fvm.py: explicitscheme_dissipative"]}
{"id": "C90", "title": "A second-order or diffusive transport run on several processes computes the solution of the serial run", "statement": "After any number of iterations of the transport driver, of any order and with or without diffusion, every rank has reached the time of the serial run and holds in its cells and at its nodes the values of the serial run.", "quantifier": "all valid meshes, partitions, numbers of processes, velocities, boundary conditions, coefficients, numbers of iterations", "why_tests_cant": "All meshes, partitions and histories.", "anchors": ["manapy/models/tests/test_transport_2d_periodic.py", "manapy/models/tests/test_transport_3d_periodic.py", "manapy/ast/core.py: Variable.compute_cell_gradient", "manapy/ast/core.py: Variable.compute_face_gradient"]}
{"id": "C91", "title": "A run on several processes keeps a constant state constant", "statement": "When the variable is the constant q everywhere, the velocity is uniform and the boundary conditions are compatible with q, every cell of every process still holds q after any number of first-order iterations.", "quantifier": "all valid triangle and tetrahedron meshes, partitions, numbers of processes, uniform velocities (changing in time), constants, numbers of iterations", "why_tests_cant": "All meshes, partitions and histories.", "anchors": ["manapy/models/tests/test_transport_2d_periodic.py", "manapy/models/tests/test_transport_3d_periodic.py", "manapy/fvm/pyccel_fvm.py: explicitscheme_convective_2d", "manapy/ddm/domain.py: Domain"]}
{"id": "C92", "title": "The mass in the domain, added up over the processes, changes only by the boundary fluxes of all processes", "statement": "From any state one first-order iteration changes the integral of the variable, added up over the processes, by minus the time step times the upwind outflow through the boundary faces of all processes; interfaces between processes neither create nor destroy mass. If no velocity crosses the boundary the integral is constant for ever, with a reconstruction of any order.", "quantifier": "all valid meshes, partitions, numbers of processes, states, velocities, boundary conditions, numbers of iterations", "why_tests_cant": "All meshes, partitions and histories.", "anchors": ["manapy/models/tests/test_transport_2d_periodic.py", "manapy/models/tests/test_transport_3d_periodic.py", "manapy/fvm/pyccel_fvm.py: explicitscheme_convective_3d", "manapy/ddm/meshpartitioning.py: readmesh", "manapy/comms/communication.py: all_to_all"]}
{"id": "C93", "title": "A first-order run on several processes creates no new extrema", "statement": "With a uniform velocity, a CFL number in (0, 2] and initial values and boundary conditions in [m, M], all cells of all processes hold values in [m, M] after any number of iterations with the time step of the driver.", "quantifier": "all valid meshes, partitions, numbers of processes, uniform velocities (changing in time), bounds, boundary conditions, numbers of iterations", "why_tests_cant": "All meshes, partitions and histories.", "anchors": ["manapy/models/tests/test_transport_2d_periodic.py", "manapy/models/tests/test_transport_3d_periodic.py", "manapy/tools/pyccel_tools.py: time_step", "manapy/fvm/pyccel_fvm.py: explicitscheme_convective_2d"]}
{"id": "C94", "title": "A second-order run on several processes keeps a constant state constant", "statement": "When the variable is the constant q everywhere, the velocity is uniform and the boundary conditions are compatible with q, every cell of every process still holds q after any number of iterations with the limited reconstruction of any order.", "quantifier": "all valid meshes, partitions, numbers of processes, uniform velocities (changing in time), constants, orders, numbers of iterations", "why_tests_cant": "All meshes, partitions and histories.", "anchors": ["manapy/models/tests/test_transport_2d_periodic.py", "manapy/models/tests/test_transport_3d_periodic.py", "manapy/ast/core.py: Variable.compute_cell_gradient", "manapy/ast/pyccel_functions.py: cell_gradient_2d"]}
{"id": "C95", "title": "The time loop of a run ends on all processes at the same iteration", "statement": "With a positive CFL number, bounded velocities and either positive diffusion or a nonzero uniform velocity, the loop while time < tfinal ends: there is an iteration after which all processes have left the loop, and every earlier iteration began before tfinal.", "quantifier": "all valid meshes, partitions, numbers of processes, bounded velocity fields (changing in time), orders, with or without diffusion", "why_tests_cant": "All meshes, partitions and unboundedly long histories.", "anchors": ["manapy/models/tests/test_transport_2d_periodic.py", "manapy/models/tests/test_transport_3d_periodic.py", "manapy/tools/pyccel_tools.py: time_step"]}
{"id": "C96", "title": "A parallel run does not depend on the order in which the processes advance", "statement": "Whatever the relative speed of the processes and however strictly the MPI collectives synchronise them, the transport run (communication set-up, exchange of ghost cells, time loop of any order, with or without diffusion) neither deadlocks nor raises, takes a bounded number of steps, and every process ends with the same values, time and iteration count.", "quantifier": "all valid meshes, partitions, numbers of processes, Setups, numbers of iterations, all interleavings of the processes and all strengths of synchronisation between 'wait for my messages' and 'wait for everybody'", "why_tests_cant": "The number of interleavings is exponential; a test sees the one the machine happens to choose.", "anchors": ["manapy/models/tests/test_transport_2d_periodic.py", "manapy/models/tests/test_transport_3d_periodic.py", "manapy/comms/communication.py: prepare_comm", "manapy/comms/communication.py: all_to_all", "manapy/comms/communication.py: update_haloghost_info_2d", "manapy/ast/core.py: Variable.update_halo_value"]}
{"id": "C97", "title": "An error on one process ends the run", "statement": "If a process raises an exception (for instance because its mesh file is damaged), the run ends on all processes.", "quantifier": "all numbers of processes, mesh files, Setups, all interleavings", "why_tests_cant": "All crash points and interleavings.", "anchors": ["manapy/ddm/numba_ddm.py: read_mesh_file", "manapy/ddm/domain.py: Domain", "manapy/comms/communication.py: prepare_comm"]}
{"id": "C98", "title": "The linear system of a parallel run is the serial one", "statement": "On every number of processes, the matrices assembled by the processes add up, entry by entry, to the matrix assembled by one process; the global right-hand sides add up to the serial one and the local ones (PETSc) are its restrictions; and solve() with the same source gives every cell of every process the value of the serial solution, whatever was solved before. The system can be built and solved with MUMPS or PETSc on any number of processes.", "quantifier": "all valid meshes, partitions, numbers of processes, boundary conditions, sources, solvers, histories of solves", "why_tests_cant": "All meshes, partitions and boundary conditions; a test compares a few.", "anchors": ["manapy/ast/linearsystem.py: LinearSystem", "manapy/ast/pyccel_functions.py: get_triplet_2d", "manapy/ast/pyccel_functions.py: get_triplet_3d", "manapy/ast/pyccel_functions.py: get_rhs_glob_2d", "manapy/ast/pyccel_functions.py: get_rhs_loc_3d"]}
{"id": "C99", "title": "The field of the linear solution in a parallel run is the serial one", "statement": "On every number of processes, compute_Sol_gradient gives every face of every process the gradient that one process computes on the same face; in particular solving the system and then computing the field gives the serial field.", "quantifier": "all valid meshes, partitions, numbers of processes, boundary conditions, sources, solvers, histories of solves", "why_tests_cant": "All meshes, partitions and boundary conditions; a test compares a few.", "anchors": ["manapy/ast/linearsystem.py: LinearSystem.compute_Sol_gradient", "manapy/ast/pyccel_functions.py: compute_P_gradient_2d", "manapy/ast/pyccel_functions.py: compute_P_gradient_3d"]}
{"id": "C100", "title": "The Domain of a mesh with periodic sides pairs the faces of facing sides", "statement": "On one process, for every valid triangular or tetrahedral mesh whose periodic sides face each other (translated faces and nodes) the Domain is built without error; every outer face of the mesh appears once with its cell, side and centre, as a wall face or a periodic face according to the labels of its corners; every periodic face has exactly one partner, the face translated by the period; partner faces have opposite normals and the outer cell of each is the cell of the other.", "quantifier": "all valid meshes (any number and position of nodes and cells), any combination of periodic directions, any labels of corners allowed by the side", "why_tests_cant": "All meshes; a test looks at a few rectangles.", "anchors": ["manapy/ddm/numba_ddm.py: update_pediodic_info_2d", "manapy/ddm/numba_ddm.py: update_pediodic_info_3d", "manapy/ddm/domain.py: Domain"]}
{"id": "C101", "title": "Nothing is lost at periodic sides", "statement": "On one process, one first-order iteration of the transport run with a periodic velocity changes the integral of the variable by minus the time step times what leaves through the walls; with all sides periodic (or walls that are not crossed) the integral is the initial one after any number of iterations.", "quantifier": "all valid meshes with periodic sides, periodic velocity fields, states, boundary conditions on the walls, numbers of iterations", "why_tests_cant": "All meshes, states and unboundedly long histories.", "anchors": ["manapy/models/tests/test_transport_2d_periodic.py", "manapy/models/tests/test_transport_3d_periodic.py", "manapy/ddm/numba_ddm.py: update_pediodic_info_2d", "manapy/tools/pyccel_tools.py: update_new_value"]}
{"id": "C102", "title": "Constants and bounds are kept on meshes with periodic sides", "statement": "On one process, a constant state stays constant during the whole transport run with a uniform velocity (any order), and with first order and 0 < cfl <= 2 all values stay between the bounds of the initial and boundary values.", "quantifier": "all valid meshes with periodic sides, uniform velocities (changing in time), boundary conditions in the bounds, numbers of iterations, orders", "why_tests_cant": "All meshes, states and unboundedly long histories.", "anchors": ["manapy/models/tests/test_transport_2d_periodic.py", "manapy/models/tests/test_transport_3d_periodic.py", "manapy/ast/pyccel_functions.py: cell_gradient_2d", "manapy/tools/pyccel_tools.py: time_step"]}
{"id": "C103", "title": "Periodic sides work on several processes", "statement": "On several processes the Domain of a mesh with periodic sides is built on every process, whichever processes hold the facing sides.", "quantifier": "all valid meshes with periodic sides, partitions, numbers of processes", "why_tests_cant": "All meshes and partitions.", "anchors": ["manapy/ddm/numba_ddm.py: update_pediodic_info_2d", "manapy/ddm/numba_ddm.py: update_pediodic_info_3d", "manapy/ddm/domain.py: Domain"]}
{"id": "C104", "title": "Insulated sides keep the integral of a diffusing variable", "statement": "With Neumann conditions on all sides, no velocity through them and a diffusion tensor that maps the boundary normals to multiples of themselves (any isotropic tensor, or any diagonal one on sides parallel to the axes), the transport run with diffusion (compute_face_gradient, explicitscheme_dissipative) keeps the integral of the variable after any number of iterations, for every order of the convective scheme, on any number of processes.", "quantifier": "all valid meshes, initial values, velocity fields, orders, numbers of iterations, partitions", "why_tests_cant": "All meshes, states and unboundedly long histories.", "anchors": ["manapy/models/tests/test_transport_2d_periodic.py", "manapy/models/tests/test_transport_3d_periodic.py", "manapy/ast/pyccel_functions.py: face_gradient_2d", "manapy/ast/pyccel_functions.py: face_gradient_3d", "manapy/ast/pyccel_functions.py: centertovertex_2d", "manapy/fvm/pyccel_fvm.py: explicitscheme_dissipative"]}
{"id": "C105", "title": "Constant states are steady states of convection and diffusion", "statement": "If the initial value is a constant, the velocity uniform in space and the boundary data compatible with the constant, the run with convection of any order and diffusion keeps the constant in every cell after any number of iterations, on any number of processes.", "quantifier": "all valid meshes whose cells are spread around every node, uniform velocities (changing in time), diffusion tensors, orders, numbers of iterations, partitions", "why_tests_cant": "All meshes and unboundedly long histories.", "anchors": ["manapy/models/tests/test_transport_2d_periodic.py", "manapy/models/tests/test_transport_3d_periodic.py", "manapy/ast/pyccel_functions.py: face_gradient_2d", "manapy/ast/pyccel_functions.py: face_gradient_3d", "manapy/ast/pyccel_functions.py: centertovertex_2d", "manapy/ast/pyccel_functions.py: centertovertex_3d", "manapy/fvm/pyccel_fvm.py: explicitscheme_dissipative"]}
{"id": "C106", "title": "The shallow-water computation does not depend on the number of processes", "statement": "The whole shallow-water run (order 1 or 2, friction, bottom source, Coriolis force, tracer with dispersion, its own time step) on any number of processes gives after every iteration the time, the time step, the cells of all five variables and the node values of h of the run on one process.", "quantifier": "all valid meshes, partitions, numbers of processes, boundary conditions, parameters, initial values, numbers of iterations", "why_tests_cant": "All partitions and unboundedly long histories; every flux, source and gradient takes part.", "anchors": ["manapy/models/SWModel/core.py: ShallowWaterModel", "manapy/models/SWModel/tools.py: explicitscheme_convective_SW", "manapy/models/SWModel/tools.py: term_source_srnh_SW", "manapy/models/SWModel/tools.py: time_step_SW", "manapy/models/tests/test_sw_2d.py", "manapy/ast/core.py: Variable"]}
{"id": "C107", "title": "A closed basin keeps its water and its tracer", "statement": "With reversed discharges and continued depth and bottom on all sides, the volume of water in the basin, added up over the processes, is the initial one after any number of iterations of the shallow-water run, and so is the amount of tracer if there is no dispersion.", "quantifier": "all valid meshes, partitions, states (also dry or negative depths), time steps, friction and Coriolis numbers, bottoms, numbers of iterations, orders", "why_tests_cant": "All states and unboundedly long histories.", "anchors": ["manapy/models/SWModel/core.py: ShallowWaterModel", "manapy/models/SWModel/tools.py: srnh_scheme", "manapy/models/SWModel/tools.py: explicitscheme_convective_SW", "manapy/models/SWModel/tools.py: update_SW", "manapy/ast/pyccel_functions.py: ghost_value_nonslip"]}
{"id": "C108", "title": "Water at rest stays at rest in whole runs", "statement": "Starting from a lake at rest over any bottom, with sides that continue depth and bottom and do not impose a flow, depth, discharges and bottom of every cell are the initial ones after any number of iterations of the shallow-water run, on any number of processes; the bottom never changes, whatever the state.", "quantifier": "all valid meshes, partitions, bottoms, levels, friction and Coriolis numbers, tracers, numbers of iterations", "why_tests_cant": "All bottoms and unboundedly long histories; flux and source must cancel exactly on every triangle.", "anchors": ["manapy/models/SWModel/core.py: ShallowWaterModel", "manapy/models/SWModel/tools.py: term_source_srnh_SW", "manapy/models/SWModel/tools.py: srnh_scheme", "manapy/models/SWModel/tools.py: term_friction_SW", "manapy/ddm/pyccel_ddm.py: create_NormalFacesOfCell"]}
{"id": "C109", "title": "The Darcy computation does not depend on the number of processes", "statement": "The Darcy run (in every iteration: solve the linear system for P, take the gradient of P on the faces as velocity, time step, convection of ne of any order, diffusion, update, node values) on any number of processes gives after every iteration the time, the cells and node values of ne, the cells of P and the face velocities of the run on one process.", "quantifier": "all valid meshes (2D and 3D), partitions, numbers of processes, boundary conditions of ne and P, diffusion coefficients, orders, initial values, numbers of iterations, deterministic direct solvers", "why_tests_cant": "All partitions and unboundedly long histories; the assembly, the gathering of the solution, the node interpolation and the convective scheme all take part.", "anchors": ["manapy/models/tests/test_darcy_2d.py", "manapy/models/tests/test_darcy_3d.py", "manapy/ast/linearsystem.py: LinearSystem", "manapy/ast/core.py: Variable", "manapy/ast/pyccel_functions.py: compute_P_gradient_2d", "manapy/ast/pyccel_functions.py: compute_P_gradient_3d"]}
{"id": "C110", "title": "The computed potential obeys Gauss's law", "statement": "After LinearSystem.solve with right-hand side r (a solver that writes its result into the variable and whose answer solves the assembled equations) and compute_Sol_gradient, the flux of the face field out of every cell is minus volume times r: with no source the velocity has no divergence. The same holds on every process of a parallel run.", "quantifier": "all valid meshes (2D and 3D), partitions, numbers of processes, Dirichlet and Neumann conditions that match at the corners, sources, cells", "why_tests_cant": "All meshes and all boundary data; the assembled matrix and the separately coded gradient of the solution must describe the same discrete fluxes.", "anchors": ["manapy/ast/linearsystem.py: LinearSystem", "manapy/ast/pyccel_functions.py: get_triplet_2d", "manapy/ast/pyccel_functions.py: get_triplet_3d", "manapy/ast/pyccel_functions.py: get_rhs_glob_2d", "manapy/ast/pyccel_functions.py: get_rhs_glob_3d", "manapy/ast/pyccel_functions.py: compute_P_gradient_2d", "manapy/ast/pyccel_functions.py: compute_P_gradient_3d"]}
{"id": "C111", "title": "A uniform concentration stays uniform in a Darcy flow", "statement": "If the concentration is q in every cell and on every Dirichlet side, it is q in every cell after any number of iterations of the Darcy run, whatever the pressure conditions, at first and second order, with and without diffusion, on any number of processes.", "quantifier": "all valid meshes (2D and 3D), partitions, pressure conditions for which the system has a solution, diffusion coefficients, orders, numbers of iterations", "why_tests_cant": "All meshes, all pressure fields and unboundedly long histories; it rests on Gauss's law for the computed velocity.", "anchors": ["manapy/models/tests/test_darcy_2d.py", "manapy/models/tests/test_darcy_3d.py", "manapy/ast/linearsystem.py: LinearSystem", "manapy/fvm/pyccel_fvm.py: explicitscheme_convective_2d", "manapy/fvm/pyccel_fvm.py: explicitscheme_convective_3d"]}
{"id": "C112", "title": "A Darcy run changes the total concentration only through the boundary", "statement": "In every iteration of the Darcy run the integral of the concentration over the domain, added up over the processes, changes by the time step times what enters through the boundary faces: the velocity of that iteration carries the value of the cell outwards and the prescribed (or continued) value inwards.", "quantifier": "all valid meshes (2D and 3D), partitions, boundary conditions of both variables, initial values, iterations, any answers of the solver", "why_tests_cant": "All meshes and unboundedly long histories.", "anchors": ["manapy/models/tests/test_darcy_2d.py", "manapy/models/tests/test_darcy_3d.py", "manapy/fvm/pyccel_fvm.py: explicitscheme_convective_2d", "manapy/fvm/pyccel_fvm.py: explicitscheme_convective_3d", "manapy/tools/pyccel_tools.py: update_new_value"]}
{"id": "C113", "title": "The streamer computation does not depend on the number of processes", "statement": "The streamer run (in every iteration: solve for the potential of the charges, field and drift velocity on the faces, time step, ionisation source, convection and diffusion of the electrons, update of electrons and ions, node values) on any number of processes gives after every iteration the time, potential, field, drift velocity, electrons, ions and node values of the run on one process.", "quantifier": "all valid meshes (2D and 3D), partitions, numbers of processes, boundary conditions of ne and P, orders, initial densities, numbers of iterations, deterministic direct solvers", "why_tests_cant": "All partitions and unboundedly long histories; assembly, reduction of the charge, gathering, interpolation and both schemes take part.", "anchors": ["manapy/models/tests/test_streamer_2d.py", "manapy/models/StreamerModel/core.py: StreamerModel", "manapy/models/StreamerModel/tools.py: update_rhs_glob", "manapy/models/StreamerModel/tools.py: compute_velocity", "manapy/models/StreamerModel/tools.py: update_streamer_flux", "manapy/ast/linearsystem.py: LinearSystem"]}
{"id": "C114", "title": "A streamer run creates no charge", "statement": "Ionisation creates electrons and ions in pairs: in every iteration the total charge (ions minus electrons, integrated over the domain and added up over the processes) changes only by the electrons which the drift carries out through the boundary; in an insulated domain the total charge is the initial one after any number of iterations.", "quantifier": "all valid meshes (2D and 3D), partitions, initial densities, conditions of the potential, any answers of the solver, numbers of iterations", "why_tests_cant": "All meshes, densities and unboundedly long histories; source, drift and diffusion must cancel exactly.", "anchors": ["manapy/models/StreamerModel/core.py: StreamerModel", "manapy/models/StreamerModel/tools.py: explicitscheme_source_streamer", "manapy/models/StreamerModel/tools.py: explicitscheme_dissipative_streamer", "manapy/models/StreamerModel/tools.py: update_streamer_flux", "manapy/models/tests/test_streamer_2d.py"]}
{"id": "C115", "title": "The field of a streamer run obeys Gauss's law", "statement": "In every iteration the flux of the electric field out of every cell is 1.8096e-8 times the charge of the cell at the start of the iteration, and its flux out of the domain is 1.8096e-8 times the total charge.", "quantifier": "all valid meshes (2D and 3D), partitions, numbers of processes, matching Dirichlet/Neumann conditions of the potential, initial densities, numbers of iterations", "why_tests_cant": "All meshes, densities and unboundedly long histories; right-hand side, matrix and field are coded separately.", "anchors": ["manapy/models/StreamerModel/core.py: StreamerModel", "manapy/models/StreamerModel/tools.py: update_rhs_glob", "manapy/models/StreamerModel/tools.py: update_rhs_loc", "manapy/models/StreamerModel/tools.py: compute_el_field", "manapy/ast/linearsystem.py: LinearSystem", "manapy/ast/pyccel_functions.py: compute_P_gradient_2d", "manapy/ast/pyccel_functions.py: compute_P_gradient_3d"]}
{"id": "C116", "title": "The choice of the solver does not change the computed field", "statement": "A Darcy run on one process computes the same pressure, velocity, concentration and times with any two of the four solvers, if they return the same solutions. As the code stands this holds when the pressure has Dirichlet conditions on all sides, or for MUMPS and PETSc whatever the conditions; with spsolve and umfpack the flux through an insulated face vanishes only where the solution has the value the pressure array had before the first solve.", "quantifier": "all valid meshes (2D and 3D), boundary conditions, initial pressures and concentrations, solvers, numbers of iterations", "why_tests_cant": "All meshes, data and unboundedly long histories; the difference is an aliasing effect that shows only with non-zero solutions on insulated sides.", "anchors": ["manapy/ast/linearsystem.py: LinearSystem.solve, compute_Sol_gradient", "manapy/ast/core.py: Variable.__init__, update_ghost_value", "manapy/models/tests/test_darcy_2d.py", "manapy/models/tests/test_darcy_3d.py"]}
{"id": "C117", "title": "The boundary locations are the sides tagged in the mesh file", "statement": "For a mesh without periodic sides whose outer faces are boundary elements tagged 1 to 4 (2D) or 1 to 6 (3D): the boundary faces of the domain are exactly the outer faces of the mesh, on every process exactly those of its cells, and the location by which the boundary conditions refer to a face ('in', 'out', 'upper', 'bottom', 'front', 'back') is the tag of its element. As the code stands this holds if opposite sides do not touch and every element tagged 3 to 6 has a node on no side of higher priority; on the unit square in two triangles the side tagged 4 is lost.", "quantifier": "all triangulations and tetrahedral meshes of the kind described (any number and order of cells, nodes and elements, any node order within a cell), all partitions and numbers of processes", "why_tests_cant": "All meshes and partitions; tags become node labels, labels become face names by priority rules, halo marks overwrite some of them.", "anchors": ["manapy/ddm/meshpartitioning.py: create_cell_nodeid, define_ghost_node, create_nodes", "manapy/ddm/pyccel_ddm.py: create_info_2dfaces, create_info_3dfaces", "manapy/ddm/domain.py: Domain.__init__"]}
{"id": "C118", "title": "A first-order streamer run does not depend on the number of processes", "statement": "StreamerModel with its default order 1 gives on several processes the electrons, ions, potential and times of the run on one process. As the code stands this is false: at order 1 the halo values of ne are not exchanged before the convection. In the first iteration time, potential and ions agree, and the electrons of a cell of one process are those of several processes plus dt/volume times what flows into the cell through the faces shared with other processes.", "quantifier": "all valid meshes (2D and 3D), partitions, numbers of processes, boundary conditions, initial densities, deterministic solvers that write into the variable", "why_tests_cant": "All meshes and partitions; the error sits only at the interfaces between processes and only where the drift points inwards.", "anchors": ["manapy/models/StreamerModel/core.py: StreamerModel.compute_convective, order", "manapy/models/StreamerModel/tools.py: update_streamer_flux", "manapy/ast/core.py: Variable.compute_cell_gradient, compute_face_gradient", "manapy/fvm/pyccel_fvm.py: explicitscheme_convective_2d", "manapy/fvm/pyccel_fvm.py: explicitscheme_convective_3d"]}
{"id": "C119", "title": "The concentration of a Darcy run stays within its bounds", "statement": "If the initial concentration and the boundary values of ne lie in [m, M], the concentration stays in [m, M]. As the code stands (order 1, no face gradients, as in test_darcy_2d.py) this holds as long as in every iteration the time step times the inflow of each cell is at most its volume; the driver's time step, computed from velocities averaged over the faces, does not ensure this, and a run with cfl = 1/2 leaves [0, 1] in its first iteration.", "quantifier": "all valid meshes (2D and 3D), partitions, numbers of processes, pressure and concentration conditions, initial data, solvable pressure systems, numbers of iterations", "why_tests_cant": "All meshes, data and unboundedly long histories; relies on the discrete velocity having no divergence, which comes from the linear system.", "anchors": ["manapy/models/tests/test_darcy_2d.py", "manapy/models/tests/test_darcy_3d.py", "manapy/tools/pyccel_tools.py: time_step, update_new_value", "manapy/ast/pyccel_functions.py: facetocell", "manapy/fvm/pyccel_fvm.py: explicitscheme_convective_2d", "manapy/fvm/pyccel_fvm.py: explicitscheme_convective_3d", "manapy/ast/linearsystem.py: LinearSystem"]}
{"id": "C120", "title": "A tracer of uniform concentration keeps it in a shallow-water run", "statement": "If at the start hc = κ h in every cell and the sides bring water of that concentration (both continue, both are reversed, or the prescribed hc is κ times the prescribed depth), then without dispersion hc = κ h in every cell after every iteration, at order 1 and 2, over any bottom, with friction and Coriolis force, as long as no iteration divides by a zero depth (positive depths on both sides of the faces, non-zero predicted depth).", "quantifier": "all valid triangulations without periodic sides, partitions, numbers of processes, concentrations, initial depths, discharges and bottoms, boundary conditions of the discharges and the bottom, numbers of iterations", "why_tests_cant": "All meshes, flows and unboundedly long histories; depth and tracer have separate fluxes, gradients, ghosts and halos.", "anchors": ["manapy/models/SWModel/core.py: ShallowWaterModel", "manapy/models/SWModel/tools.py: srnh_scheme", "manapy/models/SWModel/tools.py: explicitscheme_convective_SW", "manapy/models/SWModel/tools.py: update_SW", "manapy/models/tests/test_sw_2d.py", "manapy/ast/pyccel_functions.py: cell_gradient_2d"]}
{"id": "C121", "title": "First-order transport runs obey the superposition principle", "statement": "With the reconstruction of order 1, with or without diffusion, the run from a f1 + b f2 with the boundary values a v1 + b v2 gives in every cell and node, after every iteration, a times the values of the run from f1, v1 plus b times those of the run from f2, v2, at the same time.", "quantifier": "all valid meshes (2D and 3D; with periodic sides on one process, as the periodic drivers), partitions, numbers of processes, velocity fields, diffusion coefficients, initial and boundary data, factors a and b, numbers of iterations", "why_tests_cant": "All meshes, data and unboundedly long histories; halo exchange, ghosts, node interpolation, face gradients and fluxes must all be linear.", "anchors": ["manapy/models/tests/test_transport_2d_periodic.py", "manapy/models/tests/test_transport_3d_periodic.py", "manapy/fvm/pyccel_fvm.py: explicitscheme_convective_2d, explicitscheme_convective_3d, explicitscheme_dissipative", "manapy/ast/pyccel_functions.py: centertovertex_2d, centertovertex_3d, face_gradient_2d, face_gradient_3d, ghost_value_*, haloghost_value_*", "manapy/ast/core.py: Variable", "manapy/comms/communication.py: all_to_all"]}
{"id": "C122", "title": "Perturbations are not amplified in first-order transport runs", "statement": "Under the conditions of the maximum principle (order 1, uniform velocity, 0 < cfl <= 2, no dissipative term) two runs whose initial and boundary data differ by something in [m, M] differ in every cell after every iteration by something in [m, M]: errors do not grow, ordered data give ordered solutions.", "quantifier": "all valid meshes (2D and 3D; with periodic sides on one process, as the periodic drivers), partitions, numbers of processes, uniform velocities, pairs of initial and boundary data, bounds, numbers of iterations", "why_tests_cant": "All pairs of data and unboundedly long histories.", "anchors": ["manapy/models/tests/test_transport_2d_periodic.py", "manapy/models/tests/test_transport_3d_periodic.py", "manapy/fvm/pyccel_fvm.py: explicitscheme_convective_2d, explicitscheme_convective_3d, explicitscheme_dissipative", "manapy/ast/pyccel_functions.py: centertovertex_2d, centertovertex_3d, face_gradient_2d, face_gradient_3d, ghost_value_*, haloghost_value_*", "manapy/ast/core.py: Variable", "manapy/comms/communication.py: all_to_all"]}
{"id": "C123", "title": "Every iteration takes the largest time step that all cells of all processes allow", "statement": "In transport, Darcy and shallow-water computations every iteration advances the time, on every process, by the largest number that exceeds neither 1e6 nor cfl*volume/lambda of any cell of any process, lambda being formed with the velocity of that iteration (prescribed, pressure gradient averaged over the faces of the cell, or hu/h with the celerity sqrt(g h)). In streamer computations the same holds over the cells with a non-zero mean field; cells without one are skipped (C80).", "quantifier": "all valid meshes (2D and 3D) without periodic sides, partitions, numbers of processes, setups, solvers, states before the iteration", "why_tests_cant": "A global minimum over all cells of all processes in every state.", "anchors": ["manapy/tools/pyccel_tools.py: time_step", "manapy/models/SWModel/tools.py: time_step_SW", "manapy/models/StreamerModel/tools.py: time_step_streamer", "manapy/ast/pyccel_functions.py: facetocell", "manapy/models/tests/test_transport_2d_periodic.py", "manapy/models/tests/test_darcy_2d.py", "manapy/models/tests/test_sw_2d.py", "manapy/models/tests/test_streamer_2d.py"]}
{"id": "C124", "title": "The result does not depend on how the nodes and cells of the mesh are numbered", "statement": "Two mesh files describing the same triangulation with the nodes and the cells in different order (same corners, coordinates and labels) give the same transport run, of any order, with or without diffusion: after every iteration the same time, in every triangle (tetrahedron) the same value and at every node the same interpolated value, in exact arithmetic; so do parallel first-order runs on the two numberings with different partitions and numbers of processes, and parallel second-order and diffusive runs under the conditions of C90.", "quantifier": "all valid meshes (2D and 3D) without periodic sides, renumberings of nodes and cells, orders of the corners consistent with them, partitions, numbers of processes, setups, initial functions, numbers of iterations", "why_tests_cant": "All permutations of nodes and cells and unboundedly long histories; the numbering decides the orientation of the normals, the order of the faces, which cell is called left, and every summation order.", "anchors": ["manapy/ddm/pyccel_ddm.py: create_2dfaces, create_3dfaces, create_cell_faceid, create_cellsOfFace, create_info_2dfaces, create_info_3dfaces", "manapy/models/tests/test_transport_3d_periodic.py", "manapy/ddm/numba_ddm.py: create_node_cellid, create_NeighborCellByFace, oriente_3dfacenodeid, read_mesh_file", "manapy/ddm/meshpartitioning.py: MeshPartition", "manapy/fvm/pyccel_fvm.py: explicitscheme_convective_2d, explicitscheme_convective_3d", "manapy/tools/pyccel_tools.py: time_step, update_new_value", "manapy/models/tests/test_transport_2d_periodic.py"]}
{"id": "C125", "title": "A transport computation saves its first iteration and every tot-th one, in files that are never overwritten", "statement": "With a positive CFL number, bounded velocities and either positive diffusion or a nonzero uniform velocity, the transport driver ends and leaves the result files of the first iteration and of exactly those iterations whose number is a multiple of int(tfinal/d_t/50)+1 for the d_t of the iteration. The files are numbered 0, 1, 2, ... without gap or repetition in the order of the iterations, each holds the values after its iteration, and on several processes the index file of each number holds one document, naming the files of all processes. If the velocity does not change in time there are at most 51 files.", "quantifier": "all valid meshes (2D and 3D), partitions, numbers of processes, setups, orders, with or without diffusion, initial functions, final times", "why_tests_cant": "All final times and unboundedly long runs; the number of files and the saved iterations depend on the length of the whole history.", "anchors": ["manapy/models/tests/test_transport_2d_periodic.py", "manapy/models/tests/test_transport_3d_periodic.py", "manapy/ddm/domain.py: save_on_cell, save_on_node"]}
{"id": "C126", "title": "The values at the end of a computation are among the saved ones", "statement": "When the time loop of a driver ends, one of the result files holds the final values. (False for the transport and Darcy drivers: the loop saves only the first and every tot-th iteration, and on every valid mesh and for every steady setup there is a final time for which no file holds the final values; they are saved iff the run has one iteration or tot divides their number. True for the shallow-water and the first streamer driver, which save once more after the loop.)", "quantifier": "all drivers, final times, numbers of iterations", "why_tests_cant": "Depends on the length of the whole run.", "anchors": ["manapy/models/tests/test_transport_2d_periodic.py", "manapy/models/tests/test_transport_3d_periodic.py", "manapy/models/tests/test_sw_2d.py", "manapy/models/tests/test_streamer_2d.py", "manapy/models/tests/test_darcy_2d.py"]}
{"id": "C127", "title": "A shallow-water computation with any final time runs to its end", "statement": "Whatever the final time, the driver computes until time >= tfinal. (False: with tot = int(tfinal/dt/50), dt the first time step, the driver stops with a division by zero in its second iteration exactly when dt < tfinal < 50 dt; for every other final time every iteration is carried out. The second streamer driver stops likewise in any iteration after the first whose step exceeds tfinal/50.)", "quantifier": "all valid meshes, partitions, numbers of processes, setups, initial values with a positive first step, final times", "why_tests_cant": "All final times on all meshes.", "anchors": ["manapy/models/tests/test_sw_2d.py", "manapy/models/tests/test_streamer_2d_bis.py"]}
{"id": "C128", "title": "Linear potentials are solved exactly", "statement": "If the boundary data of a Poisson (or Darcy pressure) problem without source are those of a linear potential a + g.x (Dirichlet sides carry its values, Neumann sides are parallel to g), solve returns exactly a + g.x at every cell centre and the field computed from it is -g on every face, in 2D and 3D, on one process and on any number of processes. (False in general, e.g. on one right triangle with the potential x prescribed on its sides; true when on every Dirichlet face the potential is as large at the foot of the perpendicular from the cell centre as at the centre of the face, in particular when the Dirichlet sides are equipotentials, as in the Poisson tests, or the outer cells are symmetric over their outer face.)", "quantifier": "all valid meshes (2D and 3D) whose cells are spread around every node, linear potentials, partitions, numbers of processes, solvers", "why_tests_cant": "All meshes and partitions; the tests compare with a tolerance on a few meshes.", "anchors": ["manapy/ast/linearsystem.py: LinearSystem.assembly, solve, compute_Sol_gradient", "manapy/ast/pyccel_functions.py: get_triplet_2d, get_triplet_3d, get_rhs_loc_2d, get_rhs_glob_2d, compute_P_gradient_2d, compute_P_gradient_3d", "tests/test_poisson_2d.py", "tests/test_poisson_3d.py"]}
{"id": "C129", "title": "The result does not depend on the coordinate system and the unit of length", "statement": "If the nodes of a mesh file are written in other coordinates (another origin, turned axes, another unit of length) and the problem is the same problem in these coordinates (initial function, boundary values, velocity and diffusion expressed in them), the transport driver computes the same values in every cell at the same times, in 2D and 3D, on one process in any order with and without diffusion, on any numbers of processes in first order, and on any numbers of processes in any order with and without diffusion under the conditions of C90; the interpolated values at the nodes are the same too.", "quantifier": "all valid meshes (2D and 3D), proper motions, units of length, problems, partitions, numbers of processes, numbers of iterations", "why_tests_cant": "All rotations, shifts and units on all meshes and histories; the tests compute each problem in one coordinate system.", "anchors": ["manapy/ddm/pyccel_ddm.py: create_info_2dfaces, create_info_3dfaces, Compute_2dcentervolumeOfCell, Compute_3dcentervolumeOfCell, create_NormalFacesOfCell, face_gradient_info_2d, variables, variables_3d", "manapy/ddm/numba_ddm.py: face_gradient_info_3d, read_mesh_file", "manapy/ast/pyccel_functions.py: cell_gradient_2d, cell_gradient_3d, face_gradient_2d, face_gradient_3d, centertovertex_2d, centertovertex_3d, barthlimiter_2d, barthlimiter_3d", "manapy/fvm/pyccel_fvm.py: explicitscheme_convective_2d, explicitscheme_convective_3d, explicitscheme_dissipative", "manapy/tools/pyccel_tools.py: time_step, update_new_value", "manapy/models/tests/test_transport_2d_periodic.py", "manapy/models/tests/test_transport_3d_periodic.py"]}
{"id": "C130", "title": "The result does not depend on the unit of time", "statement": "If the same transport problem is given in another unit of time (final time multiplied by tau, velocities and diffusion coefficients divided by tau, boundary values and CFL number unchanged), the run is the same: the same values in all arrays of all processes after every iteration, the same number of iterations, the same instants in the other unit. (False in general: time_step starts from the constant 10^6, so where the CFL limits exceed it the step is 10^6 of whatever unit; true as long as the steps are below 10^6 in both units.)", "quantifier": "all meshes, partitions, numbers of processes, periodic or not, orders, with and without diffusion, units of time, problems, numbers of iterations", "why_tests_cant": "All units and all histories; the tests compute each problem in one unit.", "anchors": ["manapy/tools/pyccel_tools.py: time_step, update_new_value", "manapy/fvm/pyccel_fvm.py: explicitscheme_convective_2d, explicitscheme_convective_3d, explicitscheme_dissipative", "manapy/models/tests/test_transport_2d_periodic.py", "manapy/models/tests/test_transport_3d_periodic.py"]}
{"id": "C131", "title": "The zero of the transported quantity does not matter", "statement": "If the transported quantity is counted from another zero (initial values and prescribed boundary values raised by the same constant; Neumann or Dirichlet sides, uniform velocity, as kelvin against degrees Celsius), the run holds after any number of iterations, at the same time, the same values raised by the constant: in 2D and 3D, any order, with and without diffusion, on any number of processes. The test problems put the background at zero or at one; gradients, limiter, interpolation and fluxes use differences of values only.", "quantifier": "all valid meshes (2D and 3D; with diffusion the cells spread around every node; with periodic sides on one process), uniform velocities, initial functions, Neumann and Dirichlet data, constants, orders, partitions, numbers of processes, numbers of iterations", "why_tests_cant": "All constants and all histories; the tests compute each problem with one zero.", "anchors": ["manapy/ast/pyccel_functions.py: cell_gradient_2d, cell_gradient_3d, face_gradient_2d, face_gradient_3d, centertovertex_2d, centertovertex_3d, barthlimiter_2d, barthlimiter_3d, ghost_value_neumann, ghost_value_dirichlet", "manapy/fvm/pyccel_fvm.py: explicitscheme_convective_2d, explicitscheme_convective_3d, explicitscheme_dissipative", "manapy/ast/core.py: Variable.update_ghost_value, compute_cell_gradient, compute_face_gradient, interpolate_celltonode"]}
{"id": "C132", "title": "A periodic side behaves like the inside of the domain for gradients", "statement": "On a side the user declares periodic in x, the gradient at a face sees the neighbouring cell behind the facing side moved by exactly one period onto the face: when the variable has, at the ends of the face, in its cell and in that moved cell, the values of one affine function, the face gradient is the slope of that function, as it is on an inner face. Hypothesis on the mesh: the periodic sides are at least two faces long and the cells next to one side do not touch the cells next to the other.", "quantifier": "all valid triangular meshes periodic in x satisfying the width condition, all their in/out faces, all affine functions, values elsewhere, boundary conditions; one process", "why_tests_cant": "All meshes and data; the tests run one periodic mesh and look at the transported profile only.", "anchors": ["manapy/ddm/numba_ddm.py: update_pediodic_info_2d", "manapy/ddm/pyccel_ddm.py: face_gradient_info_2d", "manapy/ast/pyccel_functions.py: face_gradient_2d", "manapy/ddm/domain.py: Domain"]}
{"id": "C133", "title": "Facing points of a periodic domain carry the same interpolated values and gradients", "statement": "Where the two sides of a periodic direction are glued together, nothing distinguishes one copy from the other: the value interpolated at a node of the side in equals the one at the facing node of the side out; at facing faces the face gradients are equal; and the diffusive flux leaving through one face enters through the facing one, so a pair of facing faces neither creates nor loses anything. Hypotheses: away from the walls (a node or a face end that is also on a wall takes in the ghosts of its own side only), and cells touching one side do not touch cells of the other.", "quantifier": "all valid triangular meshes periodic in x satisfying the width condition, all facing nodes and faces off the walls, all cell values, boundary conditions, diffusion coefficients; one process", "why_tests_cant": "All meshes and data; the tests run one periodic mesh and compare the transported profile only.", "anchors": ["manapy/ddm/numba_ddm.py: update_pediodic_info_2d", "manapy/ddm/pyccel_ddm.py: variables, face_gradient_info_2d", "manapy/ast/pyccel_functions.py: centertovertex_2d, face_gradient_2d", "manapy/fvm/pyccel_fvm.py: explicitscheme_dissipative", "manapy/ddm/domain.py: Domain"]}
