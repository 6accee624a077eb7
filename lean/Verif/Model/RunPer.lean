import Verif.Model.RunVar
import Verif.Model.DomainPer

/-!
# Model of the transport driver on a mesh with periodic sides (one process)

`models/tests/test_transport_2d_periodic.py:102-150`, `test_transport_3d_periodic.py:103-150`: the loop of Model/RunVar, with the tables
`update_pediodic_info_*` has produced (partner cells, shifts, periodic neighbours of nodes and cells).
-/
namespace Verif.Run
open Verif Verif.Dom Verif.Fvm Verif.MeshFile Verif.Comm Verif.HaloGhost Verif.Periodic
variable {K : Type*} [Field K] [LinearOrder K]

/-- What one process holds after building its Domain: the data read, the tables, the periodic tables, the ghost tables. -/
structure PWorld (K : Type*) where
  dim : Nat
  data : RankData K
  D : Tables K
  P : PState K
  hg : HGResult K

/-- ddm/domain.py:330-592 with one process, given the tables before the periodic update.  `none`: a `KeyError` of the periodic update or
a failure of the ghost tables. -/
def mkPWorld (dim : Nat) (r : K → K) (d : RankData K) (D : Tables K) : Option (PWorld K) :=
  (updatePer dim r D).bind fun t =>
  (haloGhosts dim 1 (fun _ => d) (fun _ => t.1) 0).map fun hg => ⟨dim, d, t.1, t.2, hg⟩

/-- The world of one process, for the methods that do not read the periodic tables. -/
def PWorld.world (W : PWorld K) : World K := ⟨W.dim, 1, fun _ => W.data, fun _ => W.D, fun _ => W.hg⟩

/-- An index of an array of length `n` that may be negative (`w_c[-1]` is the last entry). -/
def pyIndex (n : Nat) (z : Int) : Nat := if z < 0 then (z + n).toNat else z.toNat

/-- The node tables (ast/core.py:433-437, 445-450) with `nodes.periodicid` and `cells.shift`. -/
def PWorld.nodeTabs (W : PWorld K) : Interp.NodeTabs K :=
  { Dom.nodeTabs W.dim 1 W.data W.D W.hg with periodicn := fun i => (W.P.nper i).map (pyIndex W.D.nbcells), shift := W.P.shift }

/-- The cell tables with `cells.periodicnid`. -/
def PWorld.cellTabs (W : PWorld K) : Interp.CellTabs :=
  { Dom.cellTabs W.dim 1 W.data W.D with periodicnid := W.P.pnid }

/-- The face tables with `cells.shift`. -/
def PWorld.faceTabs (W : PWorld K) : Interp.FaceTabs K := { Run.faceTabs W.dim W.D with shift := W.P.shift }

/-- ast/core.py:429-437 `interpolate_celltonode`, the values being up to date. -/
def PWorld.nodeValues (W : PWorld K) (w : Interp.Fields K) (i : Nat) : K :=
  if W.dim = 2 then Interp.centertovertex2 W.nodeTabs w i else Interp.centertovertex3 W.nodeTabs w i

/-- ast/core.py:445-450: the cell gradients. -/
def PWorld.cellGrads (W : PWorld K) (w : Interp.Fields K) (c : Nat) : K × K × K :=
  if W.dim = 2 then Interp.cellGradient2 W.nodeTabs W.cellTabs w c else Interp.cellGradient3 W.nodeTabs W.cellTabs w c

/-- ast/core.py:476-487: the face gradients. -/
def PWorld.faceGrads (W : PWorld K) (bc : Int → BCond K) (w : Interp.Fields K) (node : Nat → K) : Nat → Geo.Vec K :=
  if W.dim = 2 then
    let g := Interp.faceGradient2 W.faceTabs (varFaces W.dim W.D bc) w node (fun _ => (0, 0))
    fun f k => match k with | 0 => (g f).1 | 1 => (g f).2 | _ => 0
  else Interp.faceGradient3 W.faceTabs (varFaces W.dim W.D bc) w node (fun _ _ => 0)

/-- ast/core.py:414-418 `update_values`: with one process no halo; the ghosts of the walls. -/
def PWorld.values (W : PWorld K) (bc : Int → BCond K) (v : Vari K) : Vari K :=
  updateGhostValue W.world bc (fun _ => { v with halo := [] }) 0

/-- ast/core.py:440-474 `compute_cell_gradient`, the values being up to date (no halo with one process). -/
def PWorld.grads (W : PWorld K) (v : Vari K) : Grads K :=
  let g := W.cellGrads v.fields
  ⟨fun c => (g c).1, fun c => (g c).2.1, fun c => (g c).2.2, limiter W.dim (limEps W.dim) W.D v.fields g, [], [], [], []⟩

/-- The arguments of the convective scheme: `cells.shift` is the one of the periodic update. -/
def PWorld.convArgs (W : PWorld K) (F : Dom.Fields K) (order : Int) : ConvArgs K := { Dom.convArgs W.D F order with shift := W.P.shift }

/-- The state of the run: the arrays of the variable, its node values, the time, the iteration counter. -/
structure QState (K : Type*) where
  v : Vari K
  node : Nat → K
  time : K
  iter : Nat

/-- One iteration of the loop (test_transport_2d_periodic.py:104-140, test_transport_3d_periodic.py:108-142); `diff`: with the
dissipative term (2D driver). -/
def pstep (W : PWorld K) (S : Setup K) (order : Int) (diff : Bool) (s : QState K) : QState K :=
  let v := W.values S.bc s.v
  let dt := localStep W.dim S W.D s.iter
  let v := W.values S.bc v
  let rez := conv W.dim (W.convArgs (fieldsOf S W.D s.iter v.cell v.ghost v.halo (W.grads v)) order)
  if diff then
    let v := W.values S.bc v
    let dis := dissip W.D S (W.faceGrads S.bc v.fields (W.nodeValues v.fields))
    let v := W.values S.bc { v with cell := updateNewValue v.cell rez dis (fun _ => 0) dt W.D.volume }
    { v := v, node := W.nodeValues v.fields, time := s.time + dt, iter := s.iter + 1 }
  else
    { v := { v with cell := updateNewValue v.cell rez (fun _ => 0) (fun _ => 0) dt W.D.volume }
      node := s.node, time := s.time + dt, iter := s.iter + 1 }

/-- The first `N` iterations of `while time < tfinal`. -/
def ploop (W : PWorld K) (S : Setup K) (order : Int) (diff : Bool) (s : QState K) : Nat → QState K
  | 0 => s
  | N + 1 => let s := ploop W S order diff s N; if s.time < S.tfinal then pstep W S order diff s else s

/-- The state before the loop: cells initialised from their centres, the other arrays zero. -/
def pstart (W : PWorld K) (f : K → K → K → K) : QState K :=
  { v := ⟨fun c => f (W.D.center c 0) (W.D.center c 1) (W.D.center c 2), fun _ => 0, fun _ => 0, []⟩, node := fun _ => 0, time := 0, iter := 0 }

end Verif.Run
