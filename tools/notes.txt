# id|status|note
C03|proved|Holds for order 1 and order 2; the pairing hypothesis (partner face = translate by the stored shift) is what the periodic set-up must provide (see C68).
C06|proved|Cells with zero rate are excluded (the code divides by it: inf in IEEE, 0 in the model); mesure entries nonzero.
C07|proved|Pure advection (no dissipation/source), any discretely divergence-free face velocity; CFL admissibility proved for a constant velocity and cfl <= 2.
C25|proved|serial and parallel round trip, plus the local mesh is the restriction of the global one (number text <-> value is trusted)
C26|proved|end to end from the partition through the written files and the MPI exchange (collectives by specification)
C27|proved|2D and 3D marking, halo cells of a node, and the global characterisation (2D)
C28|proved|
C29|partial|false as stated: counter-examples C29_counterexample_*; exact condition C29_families_*; covering proved when boundary labels are equal or contain a deciding label
C31|partial|false as stated (C31_counterexample_error, C31_counterexample_cells); proved for dictionaries with no Dirichlet entry after a Neumann/non-slip one
C32|partial|false after solve/arithmetic (C32_after_rebinding, C32_arithmetic_ghosts_zero, C32_counterexample); proved for in-place updates
C33|partial|ok => legal and ValueError => illegal without restriction; exactness proved when no Dirichlet entry follows a Neumann one (C33_counterexample otherwise)
C34|proved|
C35|partial|Neumann and Dirichlet proved; non-slip false (C35_nonslip_reads_slot, C35_counterexample)
C41|partial|2D proved; the 3D statement is false of the code (C41_periodic_3d_counterexample: cell_gradient_3d overwrites its accumulators for periodic neighbours)
C47|partial|2D proved for meshes where halo faces carry no periodic vertex (C47_halo_periodic_counterexample shows it is false otherwise); 3D without periodic boundaries
C48|partial|2D proved, global (all ranks) form proved; 3D proved without periodic boundaries
C49|partial|2D proved under the same mesh hypotheses; 3D without periodic boundaries
C71|partial|false of the 3D code (C71_assembly_moves_centres_counterexample); proved without periodic vertices
C73|partial|false for UMFPACK (constructor rhs ignored) and for MUMPS ranks other than 0 (TypeError); proved otherwise
C69|partial|false as stated (C69_variable_resets, C69_counterexample: the data live on the domain and creating any Variable zeroes them); proved while nothing else is created
C70|partial|false (C70_counterexample: a rank without a face 11 refuses the periodic dictionary); exact condition proved
C72|partial|false at corners where a Dirichlet face has a vertex with another boundary's label (C72_counterexample); proved otherwise
C53|proved|over the reals; the eigenvalues computed through arccos are shown to be u+c, u-c, 0
C56|proved|order 1 (the default); order 2 is C78
C58|partial|false of the code (C58_coriolis_works_counterexample, C58_parameter_ignored); exact condition proved
C59|partial|false of the code (C59_dissipation_sign, C59_antidiffusive); agrees only without dissipation
C76|partial|false of the code (two counterexamples); exact condition for a step proved (C76_step_needs_all_terms), default selection proved
C77|partial|false of the code: the exact growth of the caller's list is proved (C77_terms_argument_grows)
C78|partial|false of the code: a nonzero flow of water at every inner face with a bottom jump (C78_order2_disturbs_lake)
C61|proved|also: the drift speed is not monotone in the field (C61_speed_not_monotone)
C62|proved|
C63|partial|false of the code: updating any instance updates the variables of the last instance (C63_update_hits_last_instance, C63_older_instance_ignored); proved for the last instance
C64|partial|false of the code (C64_two_documents_counterexample); exact content of the index after any history proved
C67|partial|proved for dictionary meshes; the branch for list meshes always raises UnboundLocalError
C80|partial|false of the code (C80_zero_field_counterexample); proved for the cells with a nonzero field
C65|proved|end to end from the partitioned mesh files; nodes shared by ranks only at a vertex without halo face (not named 10) take no part in the exchange
C68|partial|3D partners and node cells, x shift: proved; false of the code: shift of y partners has the wrong sign (C68_shift_y_2d_wrong), upper nodes in 2D get at most one cell (C68_upper_nodes_2d_incomplete), KeyError when the period is not a float32 number (C68_rounding_x_fails, C68_rounding_y_fails)
C81|partial|false of the code (C81_counterexample: the mirrored value is multiplied by the cell value; C81_halo_counterexample: the halo kernel writes at node numbers); exact stored value and exact condition for correctness proved; the kernels are unreachable through Variable (C34)
C82|proved|2D and 3D, every valid mesh, partition, number of processes and fields; "valid mesh" (Spec/Parallel) excludes periodic sides
C83|partial|2D and 3D, every valid mesh, partition, number of processes and iterations; order 2 and diffusion are C90; missing: periodic sides
C84|partial|3D proved; false of the 2D code (C84_counterexample: the third argument is the x component of the face normal); exact condition C84_function_2d_iff
C87|proved|2D and 3D, every valid mesh (no periodic sides), every boundary condition
C88|partial|2D and 3D, for meshes without cells touching in a node only and boundary conditions that agree at the nodes shared between subdomains (Neumann, or Dirichlet with the function of the node's label); false otherwise (C88_corner_zero_2d/3d, C88_counterexample: the halo ghost of a Dirichlet face gets 0 when the shared node is labelled with a non-Dirichlet side)
C89|partial|same hypotheses as C88; periodic sides missing
C90|partial|same hypotheses as C88; periodic sides missing
C91|proved|2D and 3D, whole pipeline from the mesh and its partition to the N-th iteration; hypotheses of the pipeline (at least two processes, valid mesh, non-periodic) as for C82
C92|proved|2D and 3D; any state, any order for the closed domain
C93|proved|2D and 3D; time step as computed by the driver; the diffusive term is not applied (as in the 3D driver), its coefficients still enter the time step
C94|partial|2D and 3D, for meshes without cells touching in a node only and boundary conditions agreeing at corners shared by processes; without the latter the halo ghosts of a Dirichlet face next to a shared corner are 0 (C88_corner_zero_2d/3d) and the gradient of the constant is not 0 there
C95|proved|2D and 3D, any order, with or without the diffusive term; the scalars are any Archimedean ordered field
C96|proved|2D and 3D; asynchronous semantics of the collectives in Model/Proc.lean, program of one process in Model/Job.lean; also C90_any_schedule_* (equal to the serial program in any order)
C97|partial|false of the code: a process that raises before a collective leaves the others waiting for ever in every interleaving (C97_unread_file_blocks); if all raise all stop
C98|partial|2D and 3D; no periodic sides, and the cells around every node must be connected through faces containing it (StarConnected); the numerical solver is a function of the matrix entries and the right-hand side
C99|partial|2D and 3D; solvers that write the solution in place (MUMPS, PETSc; spsolve and umfpack rebind var.cell, C32); no periodic sides, StarConnected, and at a boundary node shared between subdomains whose label is not Dirichlet the boundary faces must be Neumann (false otherwise: C88_corner_zero); with Dirichlet conditions on the whole boundary nothing is required at the corners
C100|proved|2D and 3D, one process; the labels of the corners must be the ones listed in cornerLabels (a 3D face of side 55/66 with a corner labelled 3 or 4 is not covered)
C101|proved|2D and 3D, first order without diffusion, one process; exact arithmetic. With diffusion (C101_mass_diffusion_2d_partial) the balance has an extra term, the gradients of the periodic faces, which is not shown to vanish
C102|partial|constants: any order in 2D, first order in 3D (cell_gradient_3d does not vanish on constants next to periodic sides, C41_periodic_3d_counterexample); bounds: 2D and 3D, first order as stated; with diffusion: 2D, constants, when the points around every node are not on a line
C103|partial|false of the code: a process that holds a periodic face and not its partner raises a KeyError (C103_missing_partner_raises, any tables, all sides, 2D and 3D; C103_split_sides_raise_2d from the mesh data; C103_torus_split_raises concrete); nothing proved for partitions that keep partners together
C104|partial|one process: all valid meshes, 2D and 3D; several processes (C104_insulated_2d/3d_partial): the cells around a node must be connected through faces, otherwise node values of different processes differ (C88); no periodic sides
C105|partial|one process: all valid meshes with cells spread around the nodes (else the interpolation weights divide by zero), 2D and 3D; several processes: cells around a node connected through faces and boundary conditions agreeing at shared corners (C88); no periodic sides
C106|partial|order 1 without dispersion: complete (C106_first_order, cells, time, time step); any order with dispersion and node values (C106_run_partial): the cells around a node must be connected through faces and the conditions of h and hc must agree at shared corners (C88); real arithmetic; no periodic sides
C107|partial|order 1: complete, one or several processes (C107_closed_basin, C107_closed_basin_serial); at order 2, the order of test_sw_2d.py, the claim is false: the depth is reconstructed on the inner side of a wall only and water crosses it (C107_order2_wall_leaks, C107_order2_counterexample)
C108|partial|order 1: complete, one or several processes; at order 2 false over a sloping bottom (C78_order2_disturbs_lake); the bottom: any order, any state
C109|partial|2D and 3D, any order, with or without diffusion; no periodic sides, StarConnected, the corner conditions of C90 for ne and of C99 for P, solvers that write in place (MUMPS, PETSc)
C110|partial|Dirichlet and Neumann conditions, every Dirichlet face has nodes with Dirichlet labels (at a corner node with a Neumann label the matrix and the field use different outside values); the solver solves the system and writes in place (MUMPS, PETSc), the system has a solution, exact arithmetic; StarConnected in parallel; no periodic sides
C111|partial|under the conditions of C110 and (with diffusion) cells spread around every node; on several processes StarConnected and the corner condition of C88 for the concentration
C112|partial|order 1, without face gradients (what test_darcy_2d.py does except for its order) or with Neumann conditions of the concentration and NormalDiffusion; any solver answers; on several processes StarConnected and the corner conditions of C109; no periodic sides
C113|partial|2D and 3D, any order, PETSc and MUMPS; cell gradients computed in every iteration (test_streamer_2d.py, or StreamerModel with order 2), StarConnected, the corner conditions of C90 for ne and of C99 for P; no periodic sides
C114|partial|electrons with Neumann conditions (the default); balance: order 1, any conditions of the potential; conservation: any order, insulated potential; any solver answers; cell gradients computed in every iteration; on several processes StarConnected and the corner condition of C99
C115|partial|in every iteration in which the system of the potential has a solution and the solver solves it and writes in place; CornersMatch as in C110; StarConnected in parallel; no periodic sides
C116|partial|2D and 3D, one process: Dirichlet pressure on all sides, or both solvers in place; spsolve = umfpack always; the claim is false for spsolve/umfpack with insulated sides (C116_insulated_leak), where the flux is characterised exactly (C116_insulated_flux_*)
C117|partial|no periodic sides; BoxSides: opposite sides apart, every element tagged 3-6 has a node on no side of higher priority (false without it: C117_lost_side); meshio is not modelled
C118|partial|the property is false as the code stands (C118_depends_on_processes); only the first iteration is characterised exactly; no periodic sides, MUMPS/PETSc, node stars connected, corner conditions
C119|partial|first order without face gradients; Dirichlet/Neumann pressure with matching corners, solvable systems, solver that writes in place; only while StepFits holds: false without it (C119_overshoot: one triangle, cfl 1/2, 9/4 after one iteration); StarConnected and corner condition in parallel; no periodic sides
C123|partial|the streamer part skips cells whose mean field vanishes, as the code does (see C80_zero_field_counterexample); transport, Darcy and shallow water are proved in full; no periodic sides
C126|partial|False of the transport and Darcy drivers (C126_last_missed_2d/3d: for every steady setup on every valid mesh there is a final time for which the final values are not saved). Proved: exactly when they are saved (C126_last_saved_iff_partial), and that the drivers with a save after the loop always save them (C126_final_save_partial).
C127|partial|False of the code: C127_shallow_partial gives the exact set of final times for which the shallow-water driver completes (not dt < tfinal < 50 dt), for a positive first step, which wet starts have (C127_wet_start); C127_streamer_aborts is the corresponding failure of the second streamer driver.
C128|partial|False in general: C128_not_general (one right triangle, potential x on all sides). Proved: the potential solves the assembled system (C128_solves_2d/3d_partial) and is returned with its field if the system is regular (C128_exact_*), under AffineData, i.e. with the condition on the foot of the perpendicular on Dirichlet faces; regularity and AffineData are proved from conditions on the mesh alone when all sides are Dirichlet, all nodes lie on the boundary and every cell has an outer face (C128_dirichlet_*). No periodic sides; 3D needs an exact square root.
C130|partial|False in general because time_step caps the step at 10^6 (C130_not_general_2d on every valid mesh, C130_cap). Proved for any tables and any number of processes when the steps stay below the cap in both units.
C131|partial|Proved in full on one process (C131_zero_serial_2d/3d) for uniform velocities and Neumann or Dirichlet sides; on any number of processes for meshes whose cells around a node are connected through faces and boundary conditions that agree at shared corners (as C90); on periodic domains, one process, first order, by superposition with the constant run (C131_zero_periodic_*; with diffusion 2D only). The instants are equal; the step does not depend on the values.
C132|partial|One process, 2D, the sides in and out. On the sides upper and bottom the code moves the cell to the wrong side (C68_shift_y_2d_wrong), so the claim is false there. The width condition (Mesh.Wide) is needed: the code sets the shift of a cell only when it shares a node with another cell of the side.
C133|partial|One process, 2D, the sides in and out, away from the walls. At a node that is also on a wall the code uses the ghost cells of its own side only, so the facing nodes may differ there. Only needs the pairs of faces: the conservation of a whole diffusive run also needs the faces next to the walls.
