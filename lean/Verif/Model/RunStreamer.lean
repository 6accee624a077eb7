import Verif.Model.RunDarcy
import Verif.Model.Streamer

/-!
# Model of a streamer computation on all processes (`models/tests/test_streamer_2d.py`, `models/StreamerModel/core.py`,
`models/tests/test_streamer_2d_bis.py`)

In every iteration: Poisson problem with the charge as source, field and drift velocity on the faces, time step, ionisation source,
convection and diffusion of the electrons, update of electrons and ions.  Real arithmetic.
-/
namespace Verif.Run
open Verif Verif.Dom Verif.Fvm Verif.MeshFile Verif.Comm Verif.HaloGhost

/-- The three components of the face or cell arrays `x`. -/
def toV (x : Nat → Geo.Vec ℝ) : Streamer.VField := fun f k => x f k.val

/-- Three components as a vector. -/
def ofV (x : Streamer.VField) : Nat → Geo.Vec ℝ := fun f k => if h : k < 3 then x f ⟨k, h⟩ else 0

/-- What the user chooses: the boundary conditions of `ne` and `P`, `cfl`, `tfinal`, the order of the convective scheme; `grad`: whether
`ne.compute_cell_gradient()` is called before the convective scheme (test_streamer_2d.py:138 always; core.py:88 only if `order == 2`);
`saves niter dt`: whether `ne.interpolate_celltonode()` is called at the end of the iteration (test_streamer_2d.py:153 always;
test_streamer_2d_bis.py:108-110 if `niter == 1 or niter % int(tfinal/dt/50) == 0`). -/
structure StrSetup where
  bc : Int → BCond ℝ
  bcP : Int → BCond ℝ
  cfl : ℝ
  tfinal : ℝ
  order : Int
  grad : Bool
  saves : Nat → ℝ → Bool

/-- The state of the run: the linear system (with `P.cell`), the other arrays of `P`, the arrays `rhs_updated`, the field `Ex.face`, ... and
the velocity `u.face`, ..., the arrays of `ne` with its gradients, `ni.cell`, `ne.node`, `niter`, `time`. -/
structure StrState where
  sys : LinSolve.St ℝ
  P : Nat → Vari ℝ
  rhs : Nat → Nat → ℝ
  el : Nat → Nat → Geo.Vec ℝ
  vel : Nat → Nat → Geo.Vec ℝ
  V : Nat → Vari ℝ
  gr : Nat → Grads ℝ
  ni : Nat → Nat → ℝ
  node : Nat → Nat → ℝ
  iter : Nat
  time : ℝ

/-- models/StreamerModel/tools.py:7-11 `update_rhs_loc`. -/
noncomputable def rhsLoc (n : Nat) (ne ni : Nat → ℝ) (rhs : Nat → ℝ) : Nat → ℝ :=
  (List.range n).foldl (fun r i => setAt r i (1.8096e-08 * (ne i - ni i))) rhs

/-- The charge as right-hand side and `L.solve(rhs=rhs)` (core.py:113-123, test_streamer_2d.py:117-120): for PETSc every rank passes its
local array; otherwise the global arrays are added up on rank 0 by `comm.reduce`, the other ranks pass `None`.  `solve` keeps no
reference to its argument, so the model passes new arrays with the contents of `rhs_updated`. -/
noncomputable def strSolve (W : World ℝ) (S : StrSetup) (sv : LinSolve.Solver) (direct : (Nat → Nat → ℝ) → (Nat → ℝ) → Nat → ℝ) (s : StrState) :
    Option (LinSolve.St ℝ × (Nat → Nat → ℝ)) :=
  match sv with
  | .petsc =>
    let rhs := fun p => rhsLoc (W.D p).nbcells (s.V p).cell (s.ni p) (s.rhs p)
    let q := (List.range W.SIZE).foldl (fun (st : LinSolve.St ℝ) p => (st.alloc (rhs p)).1) s.sys
    ((LinSolve.solve (linEnv W S.bcP sv direct) q (fun p => if p < W.SIZE then some (s.sys.next + p) else none)).toOption).map (fun t => (t, rhs))
  | _ =>
    let rhs := fun p => Streamer.rhsGlob (W.D p).nbcells (s.V p).cell (s.ni p) ((linEnv W S.bcP sv direct).loctoglob p) (s.rhs p)
    let a := s.sys.alloc (fun g => ∑ p ∈ Finset.range W.SIZE, rhs p g)
    ((LinSolve.solve (linEnv W S.bcP sv direct) a.1 (fun p => if p = 0 then some a.2 else none)).toOption).map (fun t => (t, rhs))

/-- `compute_velocity` on the faces of one rank (tools.py:132-174); `old` the previous contents of `u.face`, .... -/
noncomputable def strVel (D : Tables ℝ) (el old : Nat → Geo.Vec ℝ) : Nat → Geo.Vec ℝ := ofV (Streamer.velocityFaces D.nbfaces (toV el) (toV old))

/-- The cell averages of a face array (tools.py:176-197). -/
noncomputable def strCell (dim : Nat) (D : Tables ℝ) (x : Nat → Geo.Vec ℝ) : Streamer.VField := fun c => Streamer.faceAverage (toV x) D.faceid dim c

/-- `time_step_streamer(u.cell, ...)` on one rank. -/
noncomputable def strDt (dim : Nat) (S : StrSetup) (D : Tables ℝ) (el vel : Nat → Geo.Vec ℝ) : ℝ :=
  Streamer.timeStep D.nbcells (strCell dim D vel) (strCell dim D el) S.cfl (toV D.normal) D.mesure D.volume D.faceid dim

/-- `explicitscheme_dissipative_streamer(u.face, ..., ne.gradfacex, ...)` on one rank. -/
noncomputable def strDissip (D : Tables ℝ) (el vel grad : Nat → Geo.Vec ℝ) : Nat → ℝ :=
  Streamer.dissipative D.nbfaces (toV vel) (toV el) (toV grad) (fun f => idx (D.cellid f 0)) (fun f => idx (D.cellid f 1)) (toV D.normal) D.name

/-- `explicitscheme_source_streamer(ne.cell, ..., br=0)` on one rank. -/
noncomputable def strSource (dim : Nat) (D : Tables ℝ) (ne : Nat → ℝ) (el vel : Nat → Geo.Vec ℝ) : Nat → ℝ × ℝ :=
  Streamer.source ne (strCell dim D vel) (strCell dim D el) (toV D.center) 0

/-- One iteration once the field is known (test_streamer_2d.py:122-153, core.py:125-153): velocity, time step, source, cell gradient,
convective residual, face gradient, dissipative residual, `update_streamer_flux` (residuals of the ions are zero), node values. -/
noncomputable def strMove (W : World ℝ) (S : StrSetup) (el vel : Nat → Nat → Geo.Vec ℝ) (V : Nat → Vari ℝ) (gr : Nat → Grads ℝ) (ni : Nat → Nat → ℝ)
    (node : Nat → Nat → ℝ) (iter : Nat) : Option ((Nat → Vari ℝ) × (Nat → Grads ℝ) × (Nat → Nat → ℝ) × (Nat → Nat → ℝ) × ℝ) :=
  let dt := allreduceMin W.SIZE (fun p => strDt W.dim S (W.D p) (el p) (vel p))
  let src := fun p => strSource W.dim (W.D p) (V p).cell (el p) (vel p)
  (if S.grad then cellGradient W S.bc V else some (V, gr)).bind fun r =>
  let rez := fun p => conv W.dim (convArgs (W.D p) (velFields (vel p) (r.1 p).cell (r.1 p).ghost (r.1 p).halo (r.2 p)) S.order)
  (faceGradient W S.bc r.1).bind fun q =>
  let new := fun p => Streamer.updateFlux (q.1 p).cell (ni p) (rez p) (fun _ => 0) (strDissip (W.D p) (el p) (vel p) (q.2.2 p)) (fun _ => 0)
    (fun i => (src p i).1) (fun i => (src p i).2) dt (W.D p).volume
  let V := fun p => { q.1 p with cell := (new p).1 }
  let ni := fun p => (new p).2
  (if S.saves iter dt then celltonode W S.bc V else some (V, node)).map fun o => (o.1, r.2, ni, o.2, dt)

/-- One iteration of the loop (test_streamer_2d.py:114-165; test_streamer_2d_bis.py:88-116 with core.py): the field on the faces is the
gradient of `P` (`compute_el_field`).  As in `darcyStep` the model of `P` is that of an array written in place (MUMPS, PETSc). -/
noncomputable def strStep (W : World ℝ) (S : StrSetup) (sv : LinSolve.Solver) (direct : (Nat → Nat → ℝ) → (Nat → ℝ) → Nat → ℝ) (s : StrState) :
    Option StrState :=
  (strSolve W S sv direct s).bind fun q =>
  (solGradient W S.bcP (fun p => { s.P p with cell := q.1.cells p })).bind fun g =>
  let vel := fun p => strVel (W.D p) (g.2.2 p) (s.vel p)
  (strMove W S g.2.2 vel s.V s.gr s.ni s.node s.iter).map fun m =>
  { sys := q.1, P := g.1, rhs := q.2, el := g.2.2, vel := vel, V := m.1, gr := m.2.1, ni := m.2.2.1, node := m.2.2.2.1
    iter := s.iter + 1, time := s.time + m.2.2.2.2 }

open Classical in
/-- The first `N` iterations of `while time < tfinal`. -/
noncomputable def strLoop (W : World ℝ) (S : StrSetup) (sv : LinSolve.Solver) (direct : (Nat → Nat → ℝ) → (Nat → ℝ) → Nat → ℝ) (s : StrState) :
    Nat → Option StrState
  | 0 => some s
  | N + 1 => (strLoop W S sv direct s N).bind (fun s => if s.time < S.tfinal then strStep W S sv direct s else some s)

/-- The state before the loop (test_streamer_2d.py:88-111, core.py:45-79): `ne`, `ni`, `P` initialised from the cell centres
(`initialisation_streamer`), the other arrays zero, `LinearSystem(domain, P, solver)` without a constructor source, `niter = 1`. -/
noncomputable def strStart (W : World ℝ) (S : StrSetup) (sv : LinSolve.Solver) (direct : (Nat → Nat → ℝ) → (Nat → ℝ) → Nat → ℝ) (f fi g : ℝ → ℝ → ℝ → ℝ) :
    Option StrState :=
  let at_ := fun (f : ℝ → ℝ → ℝ → ℝ) p c => f ((W.D p).center c 0) ((W.D p).center c 1) ((W.D p).center c 2)
  ((LinSolve.mkSystem (linEnv W S.bcP sv direct) (linBnd W S.bcP sv) (fun _ => none) (at_ g)).toOption).map fun sys =>
  { sys := sys, P := fun p => ⟨at_ g p, fun _ => 0, fun _ => 0, []⟩, rhs := fun _ _ => 0, el := fun _ _ _ => 0, vel := fun _ _ _ => 0
    V := fun p => ⟨at_ f p, fun _ => 0, fun _ => 0, []⟩
    gr := fun _ => ⟨fun _ => 0, fun _ => 0, fun _ => 0, fun _ => 0, [], [], [], []⟩
    ni := at_ fi, node := fun _ _ => 0, iter := 1, time := 0 }

end Verif.Run
