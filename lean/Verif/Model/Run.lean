import Verif.Model.Domain
import Verif.Model.DomainBC
import Verif.Model.Interp

/-!
# Model of the explicit transport driver (`models/tests/test_transport_2d_periodic.py`, `test_transport_3d_periodic.py`) on all ranks

One loop, run by every process of the communicator in lock step (the collectives of an iteration are a halo exchange and an
`allreduce(MIN)`).  The serial run is the same program on one process.
-/
namespace Verif.Run
open Verif Verif.Dom Verif.Fvm Verif.MeshFile Verif.Comm
variable {K : Type*} [Field K] [LinearOrder K]

/-- The boundary condition of one location of the domain. -/
inductive BCond (K : Type*)
  | neumann
  | nonslip
  /-- `values[loc]`: a number (a constant function) or a lambda of the face centre, ast/core.py:249-275 -/
  | dirichlet (value : K → K → K → K)

/-- ast/core.py:489-491: `BC._func_ghost(BC.BCvalueface, self.ghost, faces.cellid, BC.BCfaces)` for the location whose faces are
named `loc`.  (`BCvalueface`: the cells, or the array of prescribed values; the aliasing of these arrays is `Var.mkVariable`.) -/
def ghostOne (D : Tables K) (cell : Nat → K) (b : BCond K) (loc : Int) (g : Nat → K) : Nat → K :=
  let fs := Var.facesNamed D.name D.nbfaces loc
  match b with
  | .neumann => Var.ghostNeumann cell (fun f => idx (D.cellid f 0)) fs g
  | .nonslip => Var.ghostNonslip cell (fun f => idx (D.cellid f 0)) fs g
  | .dirichlet v => Var.ghostDirichlet (fun f => v (D.fcenter f 0) (D.fcenter f 1) (D.fcenter f 2)) fs g

/-- The face names of the locations in the order of `Variable._BCs` (ast/core.py:156, 165: in, out, bottom, upper, front, back). -/
def locNames (dim : Nat) : List Int := if dim = 2 then [1, 2, 4, 3] else [1, 2, 4, 3, 5, 6]

/-- ast/core.py:489-493 `update_ghost_value` (the halo ghosts are not used by the convective scheme). -/
def updateGhosts (dim : Nat) (D : Tables K) (cell : Nat → K) (bc : Int → BCond K) (g : Nat → K) : Nat → K :=
  (locNames dim).foldl (fun g loc => ghostOne D cell (bc loc) loc g) g

/-- What the user chooses: the boundary conditions, the face velocity at an iteration as a function of the face centre (the drivers set
constants, `u.face[:] = 10.`), the CFL number, the final time, the diffusion coefficients used by `time_step`. -/
structure Setup (K : Type*) where
  bc : Int → BCond K
  u : Nat → K → K → K → K
  v : Nat → K → K → K → K
  w : Nat → K → K → K → K
  cfl : K
  tfinal : K
  Dxx : K
  Dyy : K
  Dzz : K

/-- Arrays produced by `compute_cell_gradient` on a rank. -/
structure Grads (K : Type*) where
  wx : Nat → K
  wy : Nat → K
  wz : Nat → K
  psi : Nat → K
  wx_halo : List K
  wy_halo : List K
  wz_halo : List K
  psi_halo : List K

/-- A quantity given at the face centres. -/
def atFaces (D : Tables K) (f : K → K → K → K) (i : Nat) : K := f (D.fcenter i 0) (D.fcenter i 1) (D.fcenter i 2)

/-- ast/core.py:426-427 `interpolate_facetocell`. -/
def toCells (dim : Nat) (D : Tables K) (face : Nat → K) (i : Nat) : K :=
  Interp.facetocell face ((List.range (dim + 1)).map (D.faceid i)) dim

/-- The state of the whole run: the cell values and ghosts of every rank, the (common) time and the iteration counter. -/
structure State (K : Type*) where
  cell : Nat → Nat → K
  ghost : Nat → Nat → K
  time : K
  iter : Nat

/-- The halo array of rank `p` (`update_halo_value`); with one process there is no halo cell and nothing is exchanged. -/
def exchange (SIZE : Nat) (data : Nat → RankData K) (cell : Nat → Nat → K) (p : Nat) : Option (List K) :=
  if SIZE = 1 then some [] else updateHalo SIZE data cell p

/-- `dt_c = time_step(u.cell, v.cell, w.cell, ...)` on rank `p`. -/
def localStep (dim : Nat) (S : Setup K) (D : Tables K) (it : Nat) : K :=
  timeStep D.nbcells (toCells dim D (atFaces D (S.u it))) (toCells dim D (atFaces D (S.v it))) (toCells dim D (atFaces D (S.w it)))
    S.cfl D.normal D.mesure D.volume D.faceid dim S.Dxx S.Dyy S.Dzz

/-- `COMM.allreduce(dt_c, MPI.MIN)` over `SIZE ≥ 1` ranks. -/
def allreduceMin (SIZE : Nat) (dt : Nat → K) : K := (List.range SIZE).foldl (fun m p => min m (dt p)) (dt 0)

/-- The arrays passed to the convective scheme on rank `p`. -/
def fieldsOf (S : Setup K) (D : Tables K) (it : Nat) (cell ghost : Nat → K) (halo : List K) (g : Grads K) : Fields K :=
  { w := cell, wx := g.wx, wy := g.wy, wz := g.wz, psi := g.psi
    w_halo := halo, wx_halo := g.wx_halo, wy_halo := g.wy_halo, wz_halo := g.wz_halo, psi_halo := g.psi_halo
    ghost := ghost
    u_face := atFaces D (S.u it), v_face := atFaces D (S.v it), w_face := atFaces D (S.w it) }

/-- `explicitscheme_convective_2d` or `_3d`. -/
def conv (dim : Nat) (a : ConvArgs K) : Nat → K := if dim = 2 then a.explicitschemeConvective2d else a.explicitschemeConvective3d

/-- One iteration of the loop on all ranks, the halo arrays having been received: ghosts, global time step, convective residual (order 1),
update.  `grads p`: whatever `compute_cell_gradient` left in the gradient arrays of rank `p`. -/
def stepWith (dim : Nat) (SIZE : Nat) (D : Nat → Tables K) (S : Setup K) (grads : Nat → Grads K) (s : State K) (halos : List (List K)) :
    State K :=
  let ghost := fun p => updateGhosts dim (D p) (s.cell p) S.bc (s.ghost p)
  let dt := allreduceMin SIZE (fun p => localStep dim S (D p) s.iter)
  let rez := fun p => conv dim (convArgs (D p) (fieldsOf S (D p) s.iter (s.cell p) (ghost p) (halos.getD p []) (grads p)) 1)
  { cell := fun p => updateNewValue (s.cell p) (rez p) (fun _ => 0) (fun _ => 0) dt (D p).volume
    ghost := ghost
    time := s.time + dt
    iter := s.iter + 1 }

/-- One iteration of the loop on all ranks (models/tests/test_transport_2d_periodic.py:104-137, test_transport_3d_periodic.py:108-142):
halo exchange, then `stepWith`.  Simplification: the dissipative term is left out, as in the 3D driver (where the call is commented
out); `time_step` still receives the diffusion coefficients.  `none`: the halo exchange fails. -/
def step (dim : Nat) (SIZE : Nat) (data : Nat → RankData K) (D : Nat → Tables K) (S : Setup K) (grads : Nat → Grads K) (s : State K) :
    Option (State K) :=
  ((List.range SIZE).mapM (exchange SIZE data s.cell)).map (stepWith dim SIZE D S grads s)

/-- The first `N` iterations of `while time < tfinal`. -/
def loop (dim : Nat) (SIZE : Nat) (data : Nat → RankData K) (D : Nat → Tables K) (S : Setup K) (grads : Nat → Nat → Grads K) (s : State K) :
    Nat → Option (State K)
  | 0 => some s
  | N + 1 => (loop dim SIZE data D S grads s N).bind
      (fun s => if s.time < S.tfinal then step dim SIZE data D S (grads s.iter) s else some s)

/-- The state before the loop: cells initialised from their centres (e.g. `initialisation_gaussian_2d`), ghosts zero, `time = 0`. -/
def start (D : Nat → Tables K) (f : K → K → K → K) : State K :=
  { cell := fun p c => f ((D p).center c 0) ((D p).center c 1) ((D p).center c 2), ghost := fun _ _ => 0, time := 0, iter := 0 }

end Verif.Run
