import Verif.Model.Proc
import Verif.Model.RunVar

/-!
# The transport run as the program of one process

`Model/Run.lean` and `Model/RunVar.lean` describe an iteration on all processes at once.  Here is the program of a single process, as a
sequence of computations on its own data and of collective operations: `prepare_comm`, `update_haloghost_info_*`, the methods of `Variable`
and the time loop.  What the other processes do is known only through the messages received.
-/
namespace Verif.Job
open Verif Verif.Dom Verif.Fvm Verif.MeshFile Verif.Comm Verif.HaloGhost Verif.Proc Verif.Run
variable {K : Type} [Field K] [LinearOrder K]

/-- What travels between the processes: nothing (`Barrier`), a count, a block of doubles, blocks of rows of ghost cells. -/
inductive Wire (K : Type)
  | unit
  | count (n : Nat)
  | vals (l : List K)
  | ghosts (l : List (HaloGhost.Msg K))
  | infos (l : List (List K))

instance : Inhabited (Wire K) := ⟨.unit⟩

/-- A message read as a count, as doubles, as rows. -/
def Wire.toCount : Wire K → Option Nat | .count n => some n | _ => none
@[inherit_doc Wire.toCount] def Wire.toVals : Wire K → Option (List K) | .vals l => some l | _ => none
@[inherit_doc Wire.toCount] def Wire.toGhosts : Wire K → Option (List (HaloGhost.Msg K)) | .ghosts l => some l | _ => none
@[inherit_doc Wire.toCount] def Wire.toInfos : Wire K → Option (List (List K)) | .infos l => some l | _ => none

/-- One collective: contribute, receive. -/
def collective (comm : Nat) (nb : List Nat) (out : List (Wire K)) : Prog (Wire K) (List (Wire K)) := .coll comm nb out .ret

/-- A collective of all processes, with message `f q` for process `q` (`COMM.alltoall`, `COMM.Alltoallv`, `allreduce`). -/
def allToAll (comm SIZE : Nat) (f : Nat → Wire K) : Prog (Wire K) (List (Wire K)) := collective comm (List.range SIZE) ((List.range SIZE).map f)

/-- `comm.Barrier()`. -/
def barrier (comm SIZE : Nat) : Prog (Wire K) Unit := do
  let _ ← allToAll comm SIZE (fun _ => .unit)
  return ()

/-- The results of `prepare_comm` on a process: the neighbours in the graph communicator, `scount`, `rcount`, `indsend`. -/
structure CommTabs where
  nbr : List Nat
  scount : List Nat
  rcount : List Nat
  ind : List Nat

/-- comms/communication.py:38-72 `prepare_comm` (communicator 0: `COMM_WORLD`; creating the graph communicator is a collective of
`COMM_WORLD`). -/
def prepareComm (SIZE : Nat) (d : RankData K) : Prog (Wire K) CommTabs :=
  if SIZE > 1 then do
    let r ← allToAll 0 SIZE (fun q => .count (scountArr d.neigh q))
    let rcount ← lift (r.mapM Wire.toCount)
    let ind ← lift (indsend d.globtoloc d.halosint)
    barrier 0 SIZE
    return ⟨d.neigh.getD 0 [], positive SIZE (scountArr d.neigh), positive SIZE (fun q => rcount.getD q 0), ind⟩
  else do
    barrier 0 SIZE
    return ⟨[0], [0], [0], [0]⟩

/-- comms/communication.py:16-35 `define_halosend` and `all_to_all` (communicator 1: the graph communicator).  An exception is raised if the
counts do not fit the buffers. -/
def exchangeP (c : CommTabs) (a : Nat → K) : Prog (Wire K) (List K) :=
  if c.scount.length = c.nbr.length then do
    let r ← collective 1 c.nbr ((List.range c.nbr.length).map (fun i => .vals (block c.scount (halosend a c.ind) i)))
    let b ← lift (r.mapM Wire.toVals)
    if b.map List.length = (List.range c.nbr.length).map (fun j => c.rcount.getD j 0) then return b.flatten else .fail
  else .fail

/-- The receiving side of `COMM.Alltoallv`: the block of process `q` is stored at `rdepl q`. -/
def storeBlocks {α : Type*} (SIZE : Nat) (rcount rdepl : Nat → Nat) (b : List (List α)) : Option (List α) :=
  (List.range SIZE).foldlM (fun acc q =>
    if (b.getD q []).length = rcount q ∧ acc.length = rdepl q then some (acc ++ b.getD q []) else none) []

/-- comms/communication.py:91-189, 260-367: the two exchanges of `update_haloghost_info_*` on process `p`. -/
def ghostExchangeP (SIZE p : Nat) (d : RankGhost K) : Prog (Wire K) ((Nat → List (GRow K)) × (Nat → List (List K))) := do
  let st := sendLoop d p
  let scount := scountNode d.neigh st.taille
  let sdepl := depl SIZE scount
  let r ← allToAll 0 SIZE (fun q => .count (scount q))
  let rc ← lift (r.mapM Wire.toCount)
  let rcount := fun q => rc.getD q 0
  let rdepl := depl SIZE rcount
  let g ← allToAll 0 SIZE (fun q => .ghosts (((sendBuf SIZE st.gc).drop (sdepl q)).take (scount q)))
  let g ← lift (g.mapM Wire.toGhosts)
  let gch ← lift (storeBlocks SIZE rcount rdepl g)
  let f ← allToAll 0 SIZE (fun q => .infos (((sendBuf SIZE st.gf).drop (sdepl q)).take (scount q)))
  let f ← lift (f.mapM Wire.toInfos)
  let gfh ← lift (storeBlocks SIZE rcount rdepl f)
  return (extendNodes d.halonodes d.gnode (recvDict (gch.map (fun m => (m.node, m.row)))),
    extendNodes d.halonodes d.gnode (recvDict ((gch.map (fun m => m.node)).zip gfh)))

/-- comms/communication.py:75-241, 243-420: `update_haloghost_info_2d/3d` on process `p`. -/
def haloGhostP (dim w SIZE p : Nat) (d : RankGhost K) : Prog (Wire K) (HGResult K) := do
  let ex ← if SIZE > 1 then ghostExchangeP SIZE p d else pure (fun _ => [], fun _ => [])
  let own := padRows d.nbnodes (HaloGhost.padRow dim) (List.replicate w (-1)) d.ghosts d.info
  let halo := padRows d.nbnodes (HaloGhost.padRow dim) (List.replicate w (-1)) ex.1 ex.2
  let num ← lift (numberNodes (haloexttoind d) d.halonodes halo.1)
  return { ghosts := own.1, info := own.2, haloghosts := num.1, haloinfo := halo.2, size := num.2 }

/-- What a process holds after building its Domain. -/
structure Local (K : Type) where
  dim : Nat
  SIZE : Nat
  d : RankData K
  D : Tables K
  c : CommTabs
  hg : HGResult K

/-- ast/core.py:420-424 `update_halo_value`. -/
def updateHaloValueP (R : Local K) (v : Vari K) : Prog (Wire K) (Vari K) := do
  let h ← exchangeP R.c v.cell
  barrier 1 R.SIZE
  return { v with halo := h }

/-- ast/core.py:489-493 `update_ghost_value`. -/
def updateGhostValueP (R : Local K) (bc : Int → BCond K) (v : Vari K) : Vari K :=
  { v with
    ghost := updateGhosts R.dim R.D v.cell bc v.ghost
    haloghost := updateHaloghosts R.dim R.D R.hg (halonodes R.D) (fun k => v.halo.getD k 0) bc v.haloghost }

/-- ast/core.py:414-418 `update_values`. -/
def updateValuesP (R : Local K) (bc : Int → BCond K) (v : Vari K) : Prog (Wire K) (Vari K) := do
  let v ← updateHaloValueP R v
  return updateGhostValueP R bc v

/-- ast/core.py:429-437 `interpolate_celltonode`. -/
def celltonodeP (R : Local K) (bc : Int → BCond K) (v : Vari K) : Prog (Wire K) (Vari K × (Nat → K)) := do
  let v ← updateValuesP R bc v
  return (v, nodeValues R.dim R.SIZE R.d R.D R.hg v.fields)

/-- ast/core.py:440-474 `compute_cell_gradient`. -/
def cellGradientP (R : Local K) (bc : Int → BCond K) (v : Vari K) : Prog (Wire K) (Vari K × Grads K) := do
  let v ← updateValuesP R bc v
  let g := cellGrads R.dim R.SIZE R.d R.D R.hg v.fields
  let psi := limiter R.dim (limEps R.dim) R.D v.fields g
  barrier 1 R.SIZE
  let hx ← exchangeP R.c (fun c => (g c).1)
  let hy ← exchangeP R.c (fun c => (g c).2.1)
  let hz ← exchangeP R.c (fun c => (g c).2.2)
  let hp ← exchangeP R.c psi
  return (v, ⟨fun c => (g c).1, fun c => (g c).2.1, fun c => (g c).2.2, psi, hx, hy, hz, hp⟩)

/-- ast/core.py:476-487 `compute_face_gradient`. -/
def faceGradientP (R : Local K) (bc : Int → BCond K) (v : Vari K) : Prog (Wire K) (Vari K × (Nat → K) × (Nat → Geo.Vec K)) := do
  let r ← celltonodeP R bc v
  return (r.1, r.2, faceGrads R.dim R.D bc r.1.fields r.2)

/-- The variables of the driver on one process. -/
structure RState (K : Type) where
  v : Vari K
  node : Nat → K
  time : K
  iter : Nat

/-- `COMM.allreduce(dt_c, MPI.MIN)`. -/
def allreduceMinP (SIZE : Nat) (dt : K) : Prog (Wire K) K := do
  let r ← allToAll 0 SIZE (fun _ => .vals [dt])
  let l ← lift (r.mapM Wire.toVals)
  let x := fun q => (l.getD q []).getD 0 0
  return (List.range SIZE).foldl (fun m q => min m (x q)) (x 0)

/-- One iteration (models/tests/test_transport_2d_periodic.py:104-140, test_transport_3d_periodic.py:108-142); see `Run.tstep`. -/
def tstepP (R : Local K) (S : Setup K) (order : Int) (diff : Bool) (s : RState K) : Prog (Wire K) (RState K) := do
  let v ← updateValuesP R S.bc s.v
  let dt ← allreduceMinP R.SIZE (localStep R.dim S R.D s.iter)
  let r ← cellGradientP R S.bc v
  let rez := conv R.dim (convArgs R.D (fieldsOf S R.D s.iter r.1.cell r.1.ghost r.1.halo r.2) order)
  if diff then do
    let q ← faceGradientP R S.bc r.1
    let new := { q.1 with cell := updateNewValue q.1.cell rez (Run.dissip R.D S q.2.2) (fun _ => 0) dt R.D.volume }
    let o ← celltonodeP R S.bc new
    return ⟨o.1, o.2, s.time + dt, s.iter + 1⟩
  else
    return ⟨{ r.1 with cell := updateNewValue r.1.cell rez (fun _ => 0) (fun _ => 0) dt R.D.volume }, s.node, s.time + dt, s.iter + 1⟩

/-- `while time < tfinal:`, at most `N` iterations. -/
def whileP (R : Local K) (S : Setup K) (order : Int) (diff : Bool) : Nat → RState K → Prog (Wire K) (RState K)
  | 0, s => return s
  | N + 1, s => if s.time < S.tfinal then do
      let s ← tstepP R S order diff s
      whileP R S order diff N s
    else return s

/-- The whole run of process `p`, its mesh file `d` having been read and its tables `D` built (no communication there): `prepare_comm`
(ddm/domain.py:455), `update_haloghost_info_*` (ddm/domain.py:558, 581), initial values, time loop. -/
def job (dim SIZE p : Nat) (d : RankData K) (D : Tables K) (S : Setup K) (order : Int) (diff : Bool) (init : K → K → K → K) (N : Nat) :
    Prog (Wire K) (RState K) := do
  let c ← prepareComm SIZE d
  let hg ← haloGhostP dim (2 * dim) SIZE p (domRankGhost dim d D)
  whileP ⟨dim, SIZE, d, D, c, hg⟩ S order diff N
    ⟨⟨fun c => init (D.center c 0) (D.center c 1) (D.center c 2), fun _ => 0, fun _ => 0, []⟩, fun _ => 0, 0, 0⟩

/-- The run from the mesh file: `read_mesh_file` (ddm/domain.py:344, ddm/numba_ddm.py:255-366) raises if the file is damaged. -/
def jobFile (dim SIZE p : Nat) (file master : List (Line K)) (build : RankData K → Tables K) (S : Setup K) (order : Int) (diff : Bool)
    (init : K → K → K → K) (N : Nat) : Prog (Wire K) (RState K) := do
  let d ← lift (readMeshFile SIZE p file master)
  job dim SIZE p d (build d) S order diff init N

end Verif.Job
