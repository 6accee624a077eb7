import Verif.Model.LinRun
import Verif.Spec.LinSolve

/-!
# Model of a Darcy computation on all processes (`models/tests/test_darcy_2d.py`, `test_darcy_3d.py`)

The velocity of the convected variable is the gradient of the solution of a linear system, solved at every iteration.
-/
namespace Verif.Run
open Verif Verif.Dom Verif.Fvm Verif.MeshFile Verif.Comm Verif.HaloGhost
variable {K : Type*} [Field K] [LinearOrder K]

/-- The arrays passed to the convective scheme when the face velocities are the arrays `vel` (components 0, 1, 2: `u.face`, `v.face`,
`w.face`). -/
def velFields (vel : Nat → Geo.Vec K) (cell ghost : Nat → K) (halo : List K) (g : Grads K) : Fields K :=
  { w := cell, wx := g.wx, wy := g.wy, wz := g.wz, psi := g.psi
    w_halo := halo, wx_halo := g.wx_halo, wy_halo := g.wy_halo, wz_halo := g.wz_halo, psi_halo := g.psi_halo
    ghost := ghost, u_face := fun f => vel f 0, v_face := fun f => vel f 1, w_face := fun f => vel f 2 }

/-- What the user chooses: the boundary conditions of `ne` and of `P`, `cfl`, `tfinal`, the diffusion coefficients, the order of the
convective scheme, and whether `ne.compute_face_gradient()` is called (3D driver) or commented out (2D driver, line 139: the arrays
`ne.gradfacex`, ... stay zero). -/
structure DSetup (K : Type*) where
  bc : Int → BCond K
  bcP : Int → BCond K
  cfl : K
  tfinal : K
  Dxx : K
  Dyy : K
  Dzz : K
  order : Int
  diff : Bool

/-- The coefficients passed to `explicitscheme_dissipative`. -/
def DSetup.coeffs (S : DSetup K) : Setup K :=
  ⟨S.bc, fun _ _ _ _ => 0, fun _ _ _ _ => 0, fun _ _ _ _ => 0, S.cfl, S.tfinal, S.Dxx, S.Dyy, S.Dzz⟩

/-- The state of the run: the linear system (with `P.cell`), the other arrays of `P`, the face velocities `u.face`, `v.face`, `w.face`, the
arrays of `ne`, `ne.node`, `time`. -/
structure DState (K : Type*) where
  sys : LinSolve.St K
  P : Nat → Vari K
  vel : Nat → Nat → Geo.Vec K
  V : Nat → Vari K
  node : Nat → Nat → K
  time : K

/-- `dt_c = time_step(u.cell, v.cell, w.cell, cfl, ...)` on one rank, `u.cell`, ... from `interpolate_facetocell`
(test_darcy_2d.py:112-119).  In 2D `w` is never set: its face values are zero, as is the third component of the gradient. -/
def darcyDt (dim : Nat) (S : DSetup K) (D : Tables K) (vel : Nat → Geo.Vec K) : K :=
  timeStep D.nbcells (toCells dim D (fun f => vel f 0)) (toCells dim D (fun f => vel f 1)) (toCells dim D (fun f => vel f 2))
    S.cfl D.normal D.mesure D.volume D.faceid dim S.Dxx S.Dyy S.Dzz

/-- One iteration once the velocity is known (test_darcy_2d.py:115-147, test_darcy_3d.py:118-150): `ne.update_values()`, time step,
`compute_cell_gradient`, convective residual, dissipative residual, update, `interpolate_celltonode`. -/
def darcyMove (W : World K) (S : DSetup K) (vel : Nat → Nat → Geo.Vec K) (V : Nat → Vari K) : Option ((Nat → Vari K) × (Nat → Nat → K) × K) :=
  (updateValues W S.bc V).bind fun V =>
  let dt := allreduceMin W.SIZE (fun p => darcyDt W.dim S (W.D p) (vel p))
  (cellGradient W S.bc V).bind fun r =>
  let rez := fun p => conv W.dim (convArgs (W.D p) (velFields (vel p) (r.1 p).cell (r.1 p).ghost (r.1 p).halo (r.2 p)) S.order)
  let new := fun (V : Nat → Vari K) (grad : Nat → Nat → Geo.Vec K) p =>
    { V p with cell := updateNewValue (V p).cell (rez p) (dissip (W.D p) S.coeffs (grad p)) (fun _ => 0) dt (W.D p).volume }
  (if S.diff then (faceGradient W S.bc r.1).map (fun q => new q.1 q.2.2) else some (new r.1 (fun _ _ _ => 0))).bind fun V =>
  (celltonode W S.bc V).map fun o => (o.1, o.2, dt)

/-- One iteration of the loop (test_darcy_2d.py:104-147): `L.solve(compute_grad=True)`, the velocity is the gradient of `P` on the faces
(`u.face[:] = P.gradfacex[:]`, ...), then `darcyMove`.  `sv`: `"mumps"` in the drivers; the model of `P` is that of an array written in
place (MUMPS, PETSc); with `spsolve` and `umfpack` the boundary conditions of `P` go on reading the array it had before (C32). -/
def darcyStep (W : World K) (S : DSetup K) (sv : LinSolve.Solver) (direct : (Nat → Nat → K) → (Nat → K) → Nat → K) (s : DState K) :
    Option (DState K) :=
  ((LinSolve.solve (linEnv W S.bcP sv direct) s.sys (fun _ => none)).toOption).bind fun sys =>
  (solGradient W S.bcP (fun p => { s.P p with cell := sys.cells p })).bind fun g =>
  (darcyMove W S g.2.2 s.V).map fun m =>
  { sys := sys, P := g.1, vel := g.2.2, V := m.1, node := m.2.1, time := s.time + m.2.2 }

/-- The first `N` iterations of `while time < tfinal`. -/
def darcyLoop (W : World K) (S : DSetup K) (sv : LinSolve.Solver) (direct : (Nat → Nat → K) → (Nat → K) → Nat → K) (s : DState K) :
    Nat → Option (DState K)
  | 0 => some s
  | N + 1 => (darcyLoop W S sv direct s N).bind (fun s => if s.time < S.tfinal then darcyStep W S sv direct s else some s)

/-- The state before the loop (test_darcy_2d.py:81-98): `ne` and `P` initialised from the cell centres, `LinearSystem(domain, P, solver)`
without a constructor source. -/
def darcyStart (W : World K) (S : DSetup K) (sv : LinSolve.Solver) (direct : (Nat → Nat → K) → (Nat → K) → Nat → K) (f g : K → K → K → K) :
    Option (DState K) :=
  let at_ := fun (f : K → K → K → K) p c => f ((W.D p).center c 0) ((W.D p).center c 1) ((W.D p).center c 2)
  ((LinSolve.mkSystem (linEnv W S.bcP sv direct) (linBnd W S.bcP sv) (fun _ => none) (at_ g)).toOption).map fun sys =>
  { sys := sys, P := fun p => ⟨at_ g p, fun _ => 0, fun _ => 0, []⟩, vel := fun _ _ _ => 0
    V := fun p => ⟨at_ f p, fun _ => 0, fun _ => 0, []⟩
    node := fun _ _ => 0, time := 0 }

end Verif.Run
