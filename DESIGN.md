# Formal model of pyccel/manapy in Lean 4 — design

## 1. Layout

* `lean/Verif/Basic/*`  – array/fold/sum helper lemmas (no modelling content).
* `lean/Verif/Model/*`  – the model. Every definition cites the `/repo` file and lines it models and
  says what is simplified.
* `lean/Verif/Spec/*`   – small, independent specifications (what the English property says), written
  without using the model's helpers.
* `lean/Verif/Props/*`  – the property theorems (names `Cxx_...`), each followed by a non-vacuity
  `example` on a concrete, non-trivial case. Helper lemmas are in `lean/Verif/Lemmas/*` or in the
  same file as `private`/auxiliary lemmas.
* `properties.jsonl`, `MANIFEST.json`, `seeded/LOG.jsonl` – property list, claims, mutation log.

## 2. Modelling conventions (apply to every definition unless its comment says otherwise)

* **Scalars.** IEEE doubles are modelled by an arbitrary linearly ordered field `K`
  (`[Field K] [LinearOrder K] [IsStrictOrderedRing K]`), so theorems hold for exact rational and
  real arithmetic; kernels that use `sqrt` are stated over `ℝ` (or abstract the square root by its
  defining property).  Round-off, overflow, NaN and infinities are *not* modelled. Where the code
  divides, the theorem carries the explicit hypothesis that the denominator is nonzero (in Lean
  `x / 0 = 0`, in IEEE it is inf/NaN – so the zero case is excluded, never used).
* **Arrays.** A float array is a total function `Nat → K` together with its length where the length
  matters; writes are function updates; an in-place kernel becomes a function returning the new array.
  Integer tables built by list code are `List`s. Index entries that can be `-1` are `Int`.
  Python's negative index wrap-around is modelled where a property depends on it; elsewhere the theorem
  assumes indices in range.
* **Loops** are folds over the same index list in the same order as the code (`List.foldl` over
  `List.range n` or over the explicit face list).
* **Exceptions** are values (`Except PyErr α`).
* **Aliasing.** `Variable`'s boundary set-up, where numpy aliasing is the point, is modelled with
  an explicit heap (references → arrays).
* **MPI.** `alltoall`, `Neighbor_alltoallv`, `Alltoallv`, `Scatterv` are modelled by their
  specification on the vector of all ranks' buffers (all ranks execute the collective; counts and
  displacements as passed). Deadlock, failures and timing are not modelled.
* **METIS, meshio, MUMPS/PETSc/umfpack, HDF/VTU writers**: not modelled; their results are parameters
  (any partition vector, any mesh, any solution vector).

## 3. Trusted base

* Lean 4.33.0 kernel; axioms at most `propext`, `Classical.choice`, `Quot.sound` (checked by
  `#print axioms` for every claimed theorem – see `tools/axioms.sh`).
* The reading of the Python code into the model (no differential testing is possible here because the
  code cannot be run in the sandbox).
* The conventions of section 2 (exact arithmetic, MPI by specification).

## 4. Plan per property

(“neg” = the property is false of the code as written; a concrete counter-example is proved in Lean and
the strongest true restriction is proved as `_partial`.)

| id | modelled | proof |
|----|----------|-------|
| C01 | `compute_upwind_flux` | case split on the sign, ordered-field arithmetic |
| C02 | both `explicitscheme_convective_*`, all four face loops | fold = initial + Σ of contributions; induction over face lists |
| C03 | periodic loop of C02 | involution on the face list, `Finset.sum_involution`-style pairing |
| C04 | `explicitscheme_dissipative` | as C02 |
| C05 | C02 model + `update_new_value` | per-cell sum of outgoing normals |
| C06 | `time_step` | induction on the min-fold; permutation invariance of the fold |
| C07 | C02 model, order 1 + `update_new_value`; iterate for any number of steps | convex-combination argument per cell, invariant over steps |
| C08 | `update_new_value` | finite sums |
| C09–C13 | geometry kernels | polynomial identities (`ring`/`linear_combination`), sign analysis |
| C14, C15 | `create_node_cellid` incl. padding | fold invariants over cells; exact list characterisation |
| C16 | `create_2dfaces/3dfaces`, `create_cell_faceid`, unique step of `Domain` | first-occurrence index of sorted node lists |
| C17, C18 | `create_cellsOfFace`, `create_NeighborCellByFace` | fold invariant |
| C19 | `create_2doppNodeOfFaces` | fold invariant |
| C20–C23 | `create_npart_cpart`, `unique_func`, np.unique steps in `readmesh` | fold invariants |
| C24 | halo list construction of `readmesh` | dictionary-of-lists fold; exact list characterisation |
| C25 | writer and reader as functions on lists of lines | parser/printer round-trip by induction |
| C26 | `prepare_comm`, `define_halosend`, Neighbor_alltoallv by specification | segment/offset reasoning with C24 |
| C27 | halo face look-up dictionaries | dictionary fold; permutations of node tuples |
| C28 | naming branch of `create_info_*dfaces` | case analysis on all integer labels |
| C29 | face list construction in `Domain` | neg (label 100 / label 0); partial under labelled boundary nodes |
| C30 | `ghost_value_*`, `update_ghost_value` | fold over faces |
| C31 | `Variable.__init__` BC loop with heap | neg; partial for "all Dirichlet before other" orders |
| C32 | heap model of rebind + update | neg; partial when no rebinding happened |
| C33, C34 | `Variable.__init__`, `Boundary.__init__` control flow | exact characterisation of the error set; slip: neg |
| C35 | `haloghost_value_*` | neumann/dirichlet proved; nonslip neg |
| C36, C37 | `Variable` arithmetic, `norml2` | pointwise |
| C38, C39 | `variables`, `variables_3d`, `centertovertex_*` | moment identities of the stencil sums |
| C40, C41 | `cell_gradient_*` | normal equations; 3D periodic: neg |
| C42, C43 | `face_gradient_info_*`, `face_gradient_*`, `compute_P_gradient_*` | polynomial identities |
| C44 | `barthlimiter_*` | fold of min; case analysis |
| C45 | `facetocell` | sums |
| C46 | sizing pass and assembly as counting folds | equality of counters |
| C47–C49 | `get_triplet_2d`, `get_rhs_loc_2d` | sums of emitted triplets per face |
| C50 | loc/glob pairs | parallel folds, injectivity of loctoglob |
| C51 | `convert_solution` + Scatterv | segments of `tc` |
| C52 | `solve` as a state machine | invariant over histories |
| C53–C56, C74, C75 | SRNH scheme (`srnh_scheme`, `explicitscheme_convective_SW`) over `ℝ` with Mathlib's `sqrt`, `arccos`, `cos` | field arithmetic; trigonometric triple-angle identity for the Cardano eigenvalues; antisymmetry and rank pairing |
| C57–C60 | SW terms, update, time step | arithmetic; Coriolis, dissipation sign: neg |
| C61, C62 | streamer kernels | case analysis, sums |
| C63 | class-level `varbs` as a state machine | neg; partial for a single instance |
| C64 | append-mode file model | neg; partial for distinct iteration numbers |
| C65 | `update_haloghost_info_2d/3d` with Alltoallv by specification, fed by the partition/file model (C20–C26) | segments, dictionary folds |
| C66 | ghost centre formulas, `compute_K` | polynomial identities |
| C67 | `define_ghost_node` and periodic renaming | fold invariant |
| C68 | `update_pediodic_info_2d/3d` (rounding = arbitrary function, dictionaries with last-wins insertion) | dictionary folds; neg: y shift sign, 2D upper nodes, float32 keys |
| C69, C73 | `LinearSystem` life cycle, Dirichlet data stored on the domain, solver dispatch | state machine; neg with exact conditions |
| C70 | `Domain._BCs` | exact condition for acceptance; neg for a rank without the side |
| C71 | 3D assembly writing into `cells.center` | neg; partial without periodic vertices |
| C72 | `compute_P_gradient_*`, node Dirichlet data | neg at corners; partial otherwise |
| C76, C77 | `ShallowWaterModel.__init__` / `update_solution` control flow and argument mutation | exact success condition; neg |
| C78 | order 2 of the SW scheme on a lake at rest | neg: exact flow of water |
| C79, C80 | streamer right-hand side gather, streamer time step | segments of the gathered vector; min-fold; neg for zero field |
| C81, C84 | slip ghost kernels; user functions at halo ghosts (`Model/Variable`) | spec: reflection u − 2(u·n)n; algebra; exact conditions; neg |
| C82, C83 | whole pipeline: partition (`Model/Part`), `Domain` (`Model/Domain`), halo exchange (`Model/Comm`), convective scheme (`Model/Fvm`), transport driver (`Model/Run`) | the residual of a cell is rewritten as a sum over its sides with the outward normal (independent of the face orientation chosen by each rank); sub-mesh topology; simulation relation between the states of all ranks and the serial state, kept by one iteration; induction on iterations |
| C85, C86 | wind stress, electron diffusion (`Model/SW`, `Model/Streamer`) | real analysis; summation by parts over faces |
| C87–C90 | `Variable.update_values`, `interpolate_celltonode`, `compute_cell_gradient`, `compute_face_gradient` and the order-2/diffusive driver on all ranks in lock step (`Model/RunVar`, `Model/DomainNodes`) | stencils of nodes and cells are multisets of (point, value): a rank's stencil (own cells, halo cells, own ghosts, exchanged ghosts) is a permutation of the serial one; least-squares sums depend on the multiset only; face gradients on the two diamond triangles; simulation relation; induction on iterations; neg at corners |
| C91–C94 | the transport driver on all ranks (`Model/RunVar`) on Domains built from any valid mesh and partition; specification `Spec/RunFlow` | one iteration of all ranks is glued into one finite-volume update of the whole mesh (no hypothesis on corners or node stars); cells of a valid mesh are closed, have positive volumes and faces of nonzero measure; C02, C05–C07 on the whole mesh; induction over the iterations |
| C95 | the loop of the driver (`Model/RunVar: tloop`) | positive lower bound of the time steps over the finitely many cells; Archimedean property; least iteration |
| C96 | asynchronous processes meeting in collectives (`Model/Proc`), the program of one process (`Model/Job`: `prepare_comm`, `update_haloghost_info`, Variable methods, time loop) | invariant over all schedules: every process is in some round of the lock-step run and has contributed the messages of the earlier rounds; the slowest process can always go on; lock-step run of `job` = `tloop` |
| C97 | the same with `read_mesh_file` in front (`jobFile`) | invariant: the failed process contributes nothing, so its peers cannot leave their first collective |
| C98 | the assembly and the right-hand sides on the Domain of every process (`Model/LinRun`), `solve` (`Model/LinSolve`) | a row of the matrix is the diamond-scheme balance of its cell (C48), the balance only reads values of the parallel mesh that agree with the serial mesh (`ParLin`, `ParLinEq`); then C52 |
| C99 | `compute_Sol_gradient` on the Domain of every process (`Model/LinRun`) | the field on a face is a diamond gradient of points that agree with the serial mesh (`ParSolGrad`); node values agree where the label is not Dirichlet, and are not read elsewhere; composed with C98 |
| C100 | `Domain` on one process with periodic sides: `build2/3`, then `update_pediodic_info_*` (`Model/DomainPer`), then the ghost tables (`Model/RunPer`) | tables of the serial Domain (`PerDom`, `PerSer2`, `PerSer3`); the periodic hypotheses of C68 hold direction by direction (`PerDir`); partners are unique and have opposite normals (`PerUpd`) |
| C101 | the periodic transport loop (`Model/RunPer.pstep`, `ploop`) | fluxes of partner faces cancel: same velocity, opposite normals, exchanged cells (`PerRun.per_flux_cancel`); sum of the balance over the cells (C02); with diffusion (2D): sum of the dissipative terms (C04), `PerDiff` |
| C102 | as C101 | closed cells (`PerFlow.closed`), gradients of constants vanish in 2D (`PerGrad`), first-order bounds from C06/C07; with diffusion: node values of constants (C38), diamonds of constants vanish (`PerDiff`) |
| C103 | `updatePer` on the tables of one of several processes | the dictionary has no matching key, so the look-up fails (`KeyError` = `none`) |
| C104 | `Run.tstep` with diffusion: `varFaces`, `faceGrads`, `dissip` on the tables of `build2/3` | ghost point on the normal through the centre, so the Neumann flux is a multiple of ghost - cell = 0; inner fluxes cancel in pairs; parallel runs through C90 |
| C105 | same | node weights sum to 1 and `centertovertex` keeps constants when the stencil is not flat (`Spread2/3`, from the mesh), face gradients of constants vanish; induction over the iterations |
| C106 | `Model/RunSW` (`swStep`, `swLoop`: the loop of `test_sw_2d.py` around `ShallowWaterModel`), whole runs | every side of a cell gives the same flux in both runs (C74 antisymmetry), same source (outward normals, neighbours by face), same time step; induction over the iterations. Order 1 without dispersion: the new cells are a function of the old ones (`swStep_unique`), no hypothesis on nodes or corners |
| C107 | same | `swStep_total`: the fluxes telescope; reflection of both states and the normal leaves the flux of water unchanged, reversal changes its sign, so it is zero at a wall. Refuted at order 2 |
| C108 | same | the tables of the Domain form a triangulation in the sense of C56 (`RankOf.triMesh`); residual and source cancel (C56); induction |
| C109 | `Model/RunDarcy` (`darcyStep`, `darcyLoop`: the loops of `test_darcy_2d.py`, `test_darcy_3d.py`), whole runs | C99 gives the same face velocities, the agreement of velocities on faces is carried through time step, cell gradient, convective and dissipative residual (as in C90); induction over the iterations |
| C110 | `Model/LinRun` (`linTriplets`, `linRhsGlob`, `solGradient`), `GaussLaw` in `Spec/LinField` | a row of the system is the sum of the diamond fluxes of the scheme (C48, C49); these are, up to sign, the fluxes of the face field of `compute_Sol_gradient`: inner faces by equal points and values, Dirichlet faces by the same ghost value, Neumann faces because the mirror point gives a gradient without normal part |
| C111 | whole Darcy runs; `DarcyConst` | C110 with no source makes the velocity divergence free, so the convective residual of a constant is minus the constant times the outflow, zero; gradients of constants vanish (C105); induction over the iterations |
| C112 | whole Darcy runs (without face gradients, or Neumann conditions and `NormalDiffusion`), `darcyTotal`, `darcyOutflow` in `Spec/DarcyRun` | inner fluxes cancel (C01), boundary faces of the processes are those of the mesh (C84), C109 for the parallel state; induction |
| C113 | whole streamer runs on all processes (`Model/RunStreamer`): charge as right-hand side, solve, field, drift, time step, source, both schemes, update | as C109; the global right-hand side is the sum over the ranks of arrays with disjoint supports; every face and cell kernel of `Model/Streamer` reads values that agree; induction |
| C114 | whole streamer runs, `totalCharge`, `electronOutflow` in `Spec/StreamerRun` | source terms of electrons and ions are equal, inner convective and diffusive fluxes cancel, Neumann sides let no diffusive flux through; parallel state by C113 |
| C115 | whole streamer runs, `GaussStep` in `Spec/StreamerRun` | C110 for the source of the iteration; sum over the cells with cancellation of the inner faces |
| C116 | `Model/RunRebind` (`darcyRun`: the boundary objects of the pressure keep the array `cell` had at creation; spsolve and umfpack rebind `var.cell`) | Dirichlet ghosts do not read `cell`, so the bound model equals the in-place one; simulation between two solvers; flux through an insulated face = jump between cell and stale ghost over the distance of the mirrored centres, hence zero iff the values agree; counterexample on the strip |
| C117 | `Model/Gmsh` (`cellNodeid`, `fileNode`), `Spec/Gmsh` (meshes as drawn) | the label rule of C67 gives every node of an element its tag or one of higher priority and one node the tag itself (BoxSides), so `name2`/`name3` of the labels is the tag; a mesh as drawn is a `ValidMesh`, so the parallel tables are those of the serial mesh (C84); counterexample: unit square in two triangles |
| C118 | `Model/RunStreamer` with `order = 1`, `grad = false` | the halo array of the start is blank; all other arrays agree, so the convective residuals differ by the upwind flux of the halo cells (`interfaceInflow`); counterexample on the strip with a pinned solver
| C119 | `Model/RunDarcy`, `Spec/DarcyRun.StepFits` | C110 gives a velocity without divergence; then C03 for every cell, carried through the run; counterexample: explicit computation on one triangle (three faces, fluxes -3, -3, 6, time step 3/4) |
| C120 | `Model/RunSW`, `Spec/SWRun.Concentration`, `WetIteration`, `TracerSides` | framework `Props/Linear`: families of variables whose values lie in a subspace are kept there by halo exchange, ghosts and gradients; the tracer flux is the mass flux times the predicted concentration, which is κ; induction over the iterations |
| C121 | `Model/RunVar`, `Spec/Superpose` | `Props/Linear` with the subspace `x₂ = a x₀ + b x₁`: node values, face gradients, dissipative and first-order convective residuals of the family stay in the subspace; the time step does not depend on the values; induction over the iterations |
| C122 | the same | C121 with a = -1, b = 1 and C93 for the run of the differences; periodic domains (`Props/SuperposePer`): C121 for any `PWorld` and C102 |
| C123 | `Model/RunVar`, `RunDarcy`, `RunSW`, `RunStreamer` (time steps and `allreduce`) | `Spec/StepSize` (`StepOf`: greatest admissible number, limits with face means written out), `Props/StepSize`: local minima characterised by their lower bounds, then over the processes |
| C124 | `Model/Domain`, `Model/Run` on two mesh files | `Spec/Renum` (`Renumbered`: bijections of cells and nodes), `Props/Renum` (face lists, normals up to sign, balances, time step, loop), `Props/RenumMesh` (a renumbered valid mesh is valid; its tables correspond), `Props/RenumRun`; combined with C83 for parallel runs. Gradients, limiter, diffusion and node values: `Props/RenumNode` (the rows of the node stencils are permutations of each other), `Props/RenumVar`; combined with C90 for parallel runs |
| C125 | `Model/Frames` (counters, `tot`, saves), `Model/FramesRun` (the four drivers), `Model/Output` (index files) | `Spec/Frames` (`Reaches`, `EndsAt`, `FilesOf`, `Truncates`), `Spec/FramesRun`; invariant of the loop by induction on the iterations, `Props/Frames`, `Props/FramesRun`; the end of the run from C95 |
| C126 | as C125, `finish` = the save after the loop | false for transport and Darcy: 101 equal steps, `tot = 3`; exact condition from the invariant |
| C127 | as C125, `totOf` (no `+1`), `due` raises on `tot = 0` | exact set of final times from the invariant and the length of the first step; positivity of the first step of wet starts from C123 |
| C128 | the assembled systems (`linTriplets`, `matrixOf`, `boundaryOf`), `LinSolve.solve`, `solGradient` over whole meshes; `Spec/Affine` (`AffineData`, `SolvedExactly`, `EvenSides2/3`) | interpolation of affine functions (C38/C39) at all nodes, exactness of the diamond gradients on affine values, mirror position of the ghost points; regularity from a discrete maximum principle for all-Dirichlet meshes; counterexample on a right triangle |
| C129 | the transport driver on two meshes whose node columns are related by a proper motion and a unit of length (`Spec/Motion`: `Placed`, `SameProblem`, `SameField`) | all index tables of the two domains are equal; centres, normals, areas, volumes and ghost points are carried along (`MovedT`); fluxes scale with the volume over time; induction on the iterations; parallel runs through C83. Gradients, limiter, diffusion and node values: the normal equations of a moved stencil are those of the stencil conjugated by the rotation (`Props/MovedFit`, `Props/MovedKern`), so node values are equal and gradients turn (`Props/MovedNode`); `Props/MovedVar`; parallel through C90 |
| C130 | the transport driver of any `World` (any tables, any number of processes) and the periodic driver, for two problems related by `Spec/TimeUnit: OtherClock` | convective and dissipative kernels are homogeneous of degree one in velocity and diffusion (induction over the face loops); the limits scale by τ, the capped minimum scales while below the cap (`capped_clock`); induction on the iterations (`Props/TimeUnit`) |
| C131 | the transport driver on one process (`serW`) and on all (`parW`), for the same problem with `Spec/ZeroPoint: RaisedBC` data | least-squares fits and Green-Gauss sums depend on differences only (a raised stencil is the stencil plus a constant one, whose fit is the constant: `raised_nodeFit`, `gradPts2_raise`), the upwind flux of a raised state gains β × outflow, which sums to zero over a closed cell; induction on the iterations; several processes by composition with C90 (`Props/ZeroPoint`); periodic domains: superposition with the constant run (`Props/SuperposePer`) |
| C132 | `Model/RunPer: mkPWorld, faceGrads` on the Domain built from a valid mesh periodic in x | the shift of the cells next to `in`/`out` is ∓ the period (C68 with `Mesh.Wide`), so the point across the face is the moved centre; the diamond is not flat because the cell and the moved cell lie on different sides of the face; then C42 (`Props/PerCross`) |
| C133 | `Model/RunPer: mkPWorld, nodeValues, faceGrads` on the Domain built from a valid mesh periodic in x | the stencil of a node of `in` (its cells, and the cells of the facing node moved by −period) is the stencil of the facing node moved by the period; the least-squares weights do not change under a translation and a reordering (`nodeFit_perm`, `Moved`); the two diamonds of facing faces solve the same 2×2 system (uniqueness), and the normals are opposite (C121) (`Props/PerNode`) |

Every property could be expressed; none is `not_applicable`.

## 5. Coverage: what is modelled and what is not

| source | modelled in | not modelled |
|--------|-------------|--------------|
| `ddm/pyccel_ddm.py` | `Model/Geometry`, `Model/Names`, `Model/Conn`, `Model/Interp` | – |
| `ddm/numba_ddm.py` | `Model/Part` (partition), `Model/Conn` (connectivity), `Model/MeshFile` (reader), `Model/Names` (halo marking), `Model/Periodic` | `wedge_3d`/`det` helpers unused elsewhere |
| `ddm/meshpartitioning.py` | `Model/Part`, `Model/MeshFile`, `Model/Gmsh`, `Model/Output` (`ghostNodes`) | meshio parsing, METIS, directory handling |
| `ddm/domain.py` | pipeline of calls (`Model/Domain`, `Props/DomainGeometry`), face lists (`Model/Names`), `_BCs` (`Model/DomainBC`), `save_on_cell/node` index files (`Model/Output`) | bounds (`_bounds`), VTU bodies |
| `comms/communication.py` | `Model/Comm`, `Model/HaloGhost`, `Model/Job` (program of one process), `Model/Proc` (collectives, interleavings) | MPI failures |
| `ast/pyccel_functions.py` | `Model/Interp`, `Model/LinSys`, `Model/Variable` (ghosts) | – |
| `ast/core.py` | `Model/Variable` (heap), `Model/LinSolve` | decorators, repr |
| `ast/linearsystem.py` | `Model/LinSys`, `Model/LinSolve`, `Model/LinRun` | the solvers themselves (MUMPS, PETSc, UMFPACK): any vector solving the system |
| `fvm/*`, `solvers/advec` | `Model/Fvm` | – |
| transport driver (`models/tests/test_transport_*_periodic.py` loops, `tools/pyccel_tools.py` time_step/update_new_value) | `Model/Run`, `Model/RunVar`, `Model/DomainNodes`, `Model/DomainPer`, `Model/RunPer` | Gaussian initialisations |
| Darcy drivers (`models/tests/test_darcy_2d.py`, `test_darcy_3d.py`) | `Model/RunDarcy`, `Model/RunRebind` (rebinding solvers) | Gaussian initialisations (any function of the cell centre), `update_darcy` (unused) |
| `models/SWModel` | `Model/SW`, `Model/RunSW` (driver loop of test_sw_2d.py) | wall-clock printing |
| `models/StreamerModel` | `Model/Streamer`, `Model/RunStreamer` (loops of test_streamer_2d.py, test_streamer_2d_bis.py) | densities as functions of the cell centre are arbitrary |

The numba versions (`ast/numba_functions.py`, `fvm/numba_fvm.py`, `tools/numba_tools.py`) are older forms of the pyccel ones; no driver, `ast/core.py` or `ast/linearsystem.py` calls them, and they are not modelled.

## 6. Disagreements between property and code

Proved in Lean as negative theorems (name in parentheses); the property is then `partial` with the strongest restriction proved.

* C29: boundary faces with label 100 or 0 belong to no family (`C29_counterexample_*`).
* C31/C33: a Dirichlet entry after a Neumann/non-slip one in the BC dictionary gives `UnboundLocalError` or wrong data (`C31_counterexample_*`, `C33_counterexample`).
* C32: after `solve` or arithmetic, a rebinding of `cell` makes ghost/halo values stale (`C32_*`).
* C35: the non-slip halo ghost value reads the ghost slot instead of the cell (`C35_nonslip_reads_slot`).
* C41: `cell_gradient_3d` overwrites its accumulators for periodic neighbours.
* C47: a halo face with a periodic vertex gets the wrong column set.
* C58/C59/C76–C78: Coriolis and dissipation of the shallow-water model, selection of terms, arguments mutated, order 2 disturbs a lake at rest.
* C63: `varbs` is a class attribute: only the last instance is updated.
* C64: writing the same iteration twice gives an index file with two documents.
* C67: the list-mesh branch of the reader raises `UnboundLocalError`.
* C68: shift sign in y (and, by the same lines, z), stale loop variable for the 2D bottom-node dictionary, float32 keys.
* C69: Dirichlet data live on the domain; creating any `Variable` resets them.
* C70: a rank without a face of a periodic side refuses the BC dictionary.
* C71: the 3D assembly shifts `cells.center` in place for periodic vertices.
* C72: corners with several labels.
* C73: constructor `rhs` ignored with UMFPACK; `TypeError` on ranks other than 0 with MUMPS.
* C80: zero field gives no bound.
* C81: slip ghosts are multiplied by the cell value; the halo kernel writes at node numbers.
* C84: in 2D a user function's third argument at a halo ghost is the face normal's x component.
* C88: at a node shared between subdomains the halo ghost of a Dirichlet face holds 0 if the node is labelled with a side without Dirichlet condition (`C88_corner_zero_2d`, `C88_counterexample`).

* C103: on several processes a process holding a periodic face without its partner raises a KeyError while building the Domain.
* C107: at order 2 the walls of a closed basin leak water (`C107_order2_wall_leaks`): the wall ghost mirrors the cell value, not the reconstructed one.
* C97: an exception on one process leaves the others waiting in their next collective (`C97_unread_file_blocks`).
* C110: at a node with a Neumann label on a Dirichlet face the matrix treats the neighbouring faces differently from `compute_P_gradient_*`, and `pbordnode` keeps the placeholder 1; the law is proved without such nodes (`CornersMatch`).
* C116: `spsolve` and `umfpack` rebind `var.cell`, the Neumann boundary objects keep the old array: insulated sides leak (`C116_insulated_leak`); `StreamerModel` has `spsolve` as its default.

Observed while reading, not stated as theorems: `StreamerModel` with its default `order=1` calls `compute_cell_gradient` never, so ghost and halo values of `ne` are those of the previous face gradient (zero in the first iteration); `test_darcy_2d.py` comments out `ne.compute_face_gradient()`, so its diffusion coefficients act on the time step only; `np.int64` Dirichlet values are silently treated as 0; the Dirichlet loop writes the halo values
of all slots at a node whatever their label; slip/non-slip faces are put in `neumannfaces`; `solver=None` gives `AttributeError`; the SW predictor divides 0/0 at critical
flow `u² = gh`; the streamer passes `rhs=None` on ranks other than 0; ranks that touch only at a vertex take no part in the halo exchange of that node;
`cells._periodicfid` loses partner cell 0 (it is turned into -1).
* C117: on a box one cell wide the edges between the nodes labelled 1 and 2 get the name 100 and drop out of all face lists (`C117_lost_side`).
* C118: at its default order 1 `StreamerModel` never exchanges `ne` before the convection: runs depend on the number of processes (`C118_depends_on_processes`).
* C119: the time step of the Darcy drivers uses the velocity averaged over the faces of a cell, not the fluxes through its faces: the concentration can leave its bounds at `cfl = 1/2` (`C119_overshoot`).
* **Saved results (C126, C127).** The transport and Darcy drivers do not save the final state unless the number of iterations happens to be a multiple of `tot`; `test_sw_2d.py` and `test_streamer_2d_bis.py` compute `tot` without `+1` and stop with `ZeroDivisionError` in the second iteration when the final time is less than fifty steps away.
* **Unit of time (C130).** `time_step` starts from the constant `1e6`: where no cell limits the step below it, the step is a million of whatever unit the user computes in.
* **Linear potentials (C128).** The ghost value of a Dirichlet side is `2 v(face centre) - u(cell)`, placed at the mirror image of the cell centre: the average of the two is the value at the foot of the perpendicular, not at the face centre, so linear data are reproduced only when the two agree (`C128_not_general`: right triangle, potential `x`).
