import Verif.Model.RunDarcy

/-!
# Model of `LinearSystem.solve` followed by `compute_Sol_gradient` when the solver rebinds `var.cell`

`spsolve` and `umfpack` execute `self.var.cell = self.sol` (ast/linearsystem.py:355, 369): the name `cell` of the variable now means a new
array, while the `Boundary` objects of the Neumann, slip and non-slip locations keep the array `cell` had when the variable was created
(`BCvalueface=self.cell`, ast/core.py:200-229, 268-311).  MUMPS and PETSc write into the array itself (`Scatterv(..., self.var.cell)`,
lines 390, 426).  `Model/LinRun` and `Model/RunDarcy` describe the latter; here both cases.
-/
namespace Verif.Run
open Verif Verif.Dom Verif.Fvm Verif.MeshFile Verif.Comm Verif.HaloGhost
variable {K : Type*} [Field K] [LinearOrder K]

/-- ast/core.py:489-493 `update_ghost_value` when the boundary objects hold the arrays `old` (dirichlet conditions hold their own arrays).
`update_halo_value` reads the current `cell`. -/
def updateValuesBound (W : World K) (bc : Int → BCond K) (old : Nat → Nat → K) (V : Nat → Vari K) : Option (Nat → Vari K) :=
  (updateHaloValue W V).map (fun V p =>
    { V p with
      ghost := updateGhosts W.dim (W.D p) (old p) bc (V p).ghost
      haloghost := updateHaloghosts W.dim (W.D p) (W.hg p) (halonodes (W.D p)) (fun k => (V p).halo.getD k 0) bc (V p).haloghost })

/-- ast/linearsystem.py:184-195 `compute_Sol_gradient` when the boundary objects hold the arrays `old`. -/
def solGradientBound (W : World K) (bc : Int → BCond K) (old : Nat → Nat → K) (V : Nat → Vari K) :
    Option ((Nat → Vari K) × (Nat → Nat → K) × (Nat → Nat → Geo.Vec K)) :=
  ((updateValuesBound W bc old V).map (fun V => (V, fun p => nodeValues W.dim W.SIZE (W.data p) (W.D p) (W.hg p) (V p).fields))).map
    (fun r => (r.1, r.2, fun p => solGrads W.dim (W.D p) bc (r.1 p).fields (r.2 p)))

/-- What the boundary objects of the variable read after a solve: the array the variable was created with, if the solver rebinds `cell`;
the current one if it writes in place. -/
def boundCells (sv : LinSolve.Solver) (old cur : Nat → Nat → K) : Nat → Nat → K :=
  match sv with
  | .spsolve => old
  | .umfpack => old
  | .mumps => cur
  | .petsc => cur

/-- `darcyStep` (test_darcy_2d.py:104-147) for all four solvers; `old`: the contents of `P.cell` when the linear system was built (nothing
writes into that array afterwards if the solver rebinds). -/
def darcyStepBound (W : World K) (S : DSetup K) (sv : LinSolve.Solver) (direct : (Nat → Nat → K) → (Nat → K) → Nat → K) (old : Nat → Nat → K)
    (s : DState K) : Option (DState K) :=
  ((LinSolve.solve (linEnv W S.bcP sv direct) s.sys (fun _ => none)).toOption).bind fun sys =>
  (solGradientBound W S.bcP (boundCells sv old sys.cells) (fun p => { s.P p with cell := sys.cells p })).bind fun g =>
  (darcyMove W S g.2.2 s.V).map fun m =>
  { sys := sys, P := g.1, vel := g.2.2, V := m.1, node := m.2.1, time := s.time + m.2.2 }

/-- The first `N` iterations of `while time < tfinal`. -/
def darcyLoopBound (W : World K) (S : DSetup K) (sv : LinSolve.Solver) (direct : (Nat → Nat → K) → (Nat → K) → Nat → K) (old : Nat → Nat → K)
    (s : DState K) : Nat → Option (DState K)
  | 0 => some s
  | N + 1 => (darcyLoopBound W S sv direct old s N).bind (fun s => if s.time < S.tfinal then darcyStepBound W S sv direct old s else some s)

/-- The run of the program with the initial concentration `f` and the initial pressure `g` (`P.cell` is filled before the system is built). -/
def darcyRun (W : World K) (S : DSetup K) (sv : LinSolve.Solver) (direct : (Nat → Nat → K) → (Nat → K) → Nat → K) (f g : K → K → K → K) (N : Nat) :
    Option (DState K) :=
  (darcyStart W S sv direct f g).bind (fun s =>
    darcyLoopBound W S sv direct (fun p c => g ((W.D p).center c 0) ((W.D p).center c 1) ((W.D p).center c 2)) s N)

end Verif.Run
