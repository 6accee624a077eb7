import Verif.Model.RunVar
import Verif.Model.LinSolve
import Verif.Spec.LinSys

/-!
# Model of `LinearSystem(domain, var)` on all processes: the tables read by the assembly

The mesh data passed to `get_triplet_*` and `get_rhs_*` (`ast/linearsystem.py:186-250`) taken from the Domain of one process, and the
boundary data set by `LinearSystem.__init__` from the boundary conditions of the variable.  Periodic sides are left out, as in `build2`.
-/
namespace Verif.Run
open Verif Verif.Dom Verif.MeshFile Verif.HaloGhost
variable {K : Type*} [Field K] [LinearOrder K]

/-- A row of `nodes.ghostcenter` / `nodes.haloghostcenter` as read by the assembly: the coordinates, the cell (column 2 in 2D, 3 in 3D) and
the last column (ast/pyccel_functions.py:926-953, 1390-1428). -/
def linRow (r : GRow K) : LinSys.GhostRow K := ⟨fun k => r.pt.getD k 0, idx r.cell, r.last⟩

/-- The tables passed to the assembly (ast/linearsystem.py:229-250) on one process.  `cells.loctoglob` is read from the mesh file, with
one process it is the identity (ddm/numba_ddm.py:491-496, 660-668); `halosext[h][0]` is the global number of halo cell `h`.  The
ghost arrays have `nbnodes` rows. -/
def linMesh (dim size : Nat) (d : RankData K) (D : Tables K) (hg : HGResult K) : LinSys.Mesh K :=
  { T := nodeTabs dim size d D hg
    F := faceTabs dim D
    ghostrows := fun i => if i < D.nbnodes then (hg.ghosts i).map linRow else []
    haloghostrows := fun i => if i < D.nbnodes then (hg.haloghosts i).map linRow else []
    oldnamen := D.oldname
    volume := D.volume
    loctoglob := fun c => if size = 1 then c else d.loctoglob.getD c 0
    haloext := fun k => (d.halosext.getD k []).getD 0 0 }

/-- ast/linearsystem.py:48-51: `matrixinnerfaces` (without periodic sides: the inner faces, already sorted), `domain.halofaces`,
`var.dirichletfaces`. -/
def linLists (dim : Nat) (D : Tables K) (bc : Int → BCond K) : LinSys.Lists :=
  ⟨D.innerfaces, D.halofaces, (varFaces dim D bc).dirichlet⟩

/-- ast/core.py:230: `var.BCdirichlet`, the labels of the Dirichlet locations. -/
def bcDirichlet (dim : Nat) (bc : Int → BCond K) : List Int := (locNames dim).filter (fun loc => (bc loc).isDirichlet)

/-- ast/linearsystem.py:45, 53-61 and ast/core.py:240-242, 257-258: `domain.Pbordnode`: the user's value at the nodes labelled with a
Dirichlet location, 1 at the nodes labelled with a Neumann one (for dictionaries without the aliasing of C32). -/
def pbordNode (dim : Nat) (D : Tables K) (bc : Int → BCond K) : Nat → K :=
  (locNames dim).foldl (fun a loc =>
    let nodes := (List.range D.nbnodes).filter (fun i => D.oldname i = loc)
    match bc loc with
    | .dirichlet v => nodes.foldl (fun a i => setAt a i (v (D.vertex i 0) (D.vertex i 1) (D.vertex i 2))) a
    | .neumann => nodes.foldl (fun a i => setAt a i 1) a
    | .nonslip => a) (fun _ => 0)

/-- ast/linearsystem.py:46, 53-55 and ast/core.py:237-239, 253-254: `domain.Pbordface`: the user's value at the centres of the faces of
a Dirichlet location. -/
def pbordFace (dim : Nat) (D : Tables K) (bc : Int → BCond K) : Nat → K :=
  (locNames dim).foldl (fun a loc =>
    match bc loc with
    | .dirichlet v => (Var.facesNamed D.name D.nbfaces loc).foldl (fun a f => setAt a f (v (D.fcenter f 0) (D.fcenter f 1) (D.fcenter f 2))) a
    | _ => a) (fun _ => 0)

/-- ast/linearsystem.py:226-250 `assembly` on process `p`: the triplets it hands to the solver. -/
def linTriplets (W : World K) (bc : Int → BCond K) (p : Nat) : List (LinSys.Triplet K) :=
  let M := linMesh W.dim W.SIZE (W.data p) (W.D p) (W.hg p)
  let L := linLists W.dim (W.D p) bc
  if W.dim = 2 then LinSys.getTriplet2 M (bcDirichlet W.dim bc) L else (LinSys.getTriplet3 M (bcDirichlet W.dim bc) L).out

/-- ast/linearsystem.py:205-224 `compute_global_rhs` on process `p`. -/
def linRhsGlob (W : World K) (bc : Int → BCond K) (p : Nat) : Nat → K :=
  let M := linMesh W.dim W.SIZE (W.data p) (W.D p) (W.hg p)
  let L := linLists W.dim (W.D p) bc
  let pn := pbordNode W.dim (W.D p) bc
  let pf := pbordFace W.dim (W.D p) bc
  if W.dim = 2 then LinSys.getRhsGlob2 M (bcDirichlet W.dim bc) L pn pf (fun _ => 0)
  else LinSys.getRhsGlob3 M (bcDirichlet W.dim bc) L pn pf (fun _ => 0)

/-- ast/linearsystem.py:186-203 `compute_local_rhs` on process `p`. -/
def linRhsLoc (W : World K) (bc : Int → BCond K) (p : Nat) : Nat → K :=
  let M := linMesh W.dim W.SIZE (W.data p) (W.D p) (W.hg p)
  let L := linLists W.dim (W.D p) bc
  let pn := pbordNode W.dim (W.D p) bc
  let pf := pbordFace W.dim (W.D p) bc
  if W.dim = 2 then LinSys.getRhsLoc2 M (bcDirichlet W.dim bc) L pn pf (fun _ => 0)
  else LinSys.getRhsLoc3 M (bcDirichlet W.dim bc) L pn pf (fun _ => 0)

/-- `compute_P_gradient_2d` / `compute_P_gradient_3d` (ast/pyccel_functions.py:1854-2108) with the tables of one process:
`(gradfacex, gradfacey, gradfacez)`, zero before the call. -/
def solGrads (dim : Nat) (D : Tables K) (bc : Int → BCond K) (w : Interp.Fields K) (node : Nat → K) : Nat → Geo.Vec K :=
  if dim = 2 then
    let g := Interp.computePGradient2 (faceTabs dim D) (varFaces dim D bc) w node (pbordNode dim D bc) (pbordFace dim D bc) D.oldname
      (bcDirichlet dim bc) (fun _ => (0, 0))
    fun f k => match k with | 0 => (g f).1 | 1 => (g f).2 | _ => 0
  else Interp.computePGradient3 (faceTabs dim D) (varFaces dim D bc) w node (pbordNode dim D bc) (pbordFace dim D bc) D.oldname
      (bcDirichlet dim bc) (fun _ _ => 0)

/-- ast/linearsystem.py:184-195 `compute_Sol_gradient` on all processes: `interpolate_celltonode`, then the field on the faces. -/
def solGradient (W : World K) (bc : Int → BCond K) (V : Nat → Vari K) :
    Option ((Nat → Vari K) × (Nat → Nat → K) × (Nat → Nat → Geo.Vec K)) :=
  (celltonode W bc V).map (fun r => (r.1, r.2, fun p => solGrads W.dim (W.D p) bc (r.1 p).fields (r.2 p)))

/-- ast/linearsystem.py:63-131, 230-341: what `LinearSystem(domain, var, solver)` keeps on the processes: `localsize = nbcells`,
`cells.loctoglob`, `cells.tc` of rank 0, and the factorised matrix.  `direct A b` is the solution of the system with matrix `A` (the sum
of the triplets of all processes: scipy, MUMPS with ICNTL(18)=3 and PETSc with ADD_VALUES add repeated entries) and right-hand side `b`. -/
def linEnv (W : World K) (bc : Int → BCond K) (solver : LinSolve.Solver) (direct : (Nat → Nat → K) → (Nat → K) → Nat → K) : LinSolve.Env K where
  solver := solver
  SIZE := W.SIZE
  localsize := fun p => (W.D p).nbcells
  loctoglob := fun p c => if W.SIZE = 1 then c else (W.data p).loctoglob.getD c 0
  tc := (W.data 0).tc
  S := direct (fun i j => ((List.range W.SIZE).map (fun p => LinSys.entryT (linTriplets W bc p) i j)).sum)

/-- ast/linearsystem.py:84-131: the boundary contribution to the right-hand side on process `p`: local for PETSc, global otherwise. -/
def linBnd (W : World K) (bc : Int → BCond K) (solver : LinSolve.Solver) (p : Nat) : Nat → K :=
  match solver with
  | .petsc => linRhsLoc W bc p
  | _ => linRhsGlob W bc p

end Verif.Run
