import Verif.Model.DomainNodes

/-!
# Model of the update methods of a `Variable` on all processes, and of the transport driver with its gradients

`ast/core.py:414-493` (`update_values`, `interpolate_celltonode`, `compute_cell_gradient`, `compute_face_gradient`) run by all processes
of the communicator in lock step, and the loop of `models/tests/test_transport_2d_periodic.py:102-137` /
`test_transport_3d_periodic.py:103-142` with the order-2 reconstruction and the diffusive term.
-/
namespace Verif.Run
open Verif Verif.Dom Verif.Fvm Verif.MeshFile Verif.Comm Verif.HaloGhost
variable {K : Type*} [Field K] [LinearOrder K]

/-- What the `SIZE` processes hold after building their Domain: the data read, the tables, the exchanged ghost tables. -/
structure World (K : Type*) where
  dim : Nat
  SIZE : Nat
  data : Nat → RankData K
  D : Nat → Tables K
  hg : Nat → HGResult K

/-- ddm/domain.py:558, 581 on all ranks (`none`: the exchange of the ghost tables fails). -/
def mkWorld (dim SIZE : Nat) (data : Nat → RankData K) (D : Nat → Tables K) : Option (World K) :=
  ((List.range SIZE).mapM (haloGhosts dim SIZE data D)).map
    (fun hgs => ⟨dim, SIZE, data, D, fun p => hgs.getD p ⟨fun _ => [], fun _ => [], fun _ => [], fun _ => [], 0⟩⟩)

/-- The arrays of a `Variable` on one rank: `cell`, `ghost`, `haloghost`, `halo`. -/
structure Vari (K : Type*) where
  cell : Nat → K
  ghost : Nat → K
  haloghost : Nat → K
  halo : List K

/-- The four arrays as the kernels of Model/Interp receive them. -/
def Vari.fields (v : Vari K) : Interp.Fields K := ⟨v.cell, v.ghost, fun k => v.halo.getD k 0, v.haloghost⟩

/-- `define_halosend(a, ...); all_to_all(...)` on all ranks: the received halo arrays. -/
def exchangeAll (W : World K) (a : Nat → Nat → K) : Option (Nat → List K) :=
  ((List.range W.SIZE).mapM (exchange W.SIZE W.data a)).map (fun l p => l.getD p [])

/-- ast/core.py:420-424 `update_halo_value`. -/
def updateHaloValue (W : World K) (V : Nat → Vari K) : Option (Nat → Vari K) :=
  (exchangeAll W (fun p => (V p).cell)).map (fun h p => { V p with halo := h p })

/-- ast/core.py:489-493 `update_ghost_value`. -/
def updateGhostValue (W : World K) (bc : Int → BCond K) (V : Nat → Vari K) (p : Nat) : Vari K :=
  { V p with
    ghost := updateGhosts W.dim (W.D p) (V p).cell bc (V p).ghost
    haloghost := updateHaloghosts W.dim (W.D p) (W.hg p) (halonodes (W.D p)) (fun k => (V p).halo.getD k 0) bc (V p).haloghost }

/-- ast/core.py:414-418 `update_values`. -/
def updateValues (W : World K) (bc : Int → BCond K) (V : Nat → Vari K) : Option (Nat → Vari K) :=
  (updateHaloValue W V).map (updateGhostValue W bc)

/-- ast/core.py:429-437 `interpolate_celltonode`: the arrays and the node values of every rank. -/
def celltonode (W : World K) (bc : Int → BCond K) (V : Nat → Vari K) : Option ((Nat → Vari K) × (Nat → Nat → K)) :=
  (updateValues W bc V).map (fun V => (V, fun p => nodeValues W.dim W.SIZE (W.data p) (W.D p) (W.hg p) (V p).fields))

/-- The threshold of the limiter: `1e-8` in `barthlimiter_2d` (ast/pyccel_functions.py:803), `1e-10` in `barthlimiter_3d` (852). -/
def limEps (dim : Nat) : K := if dim = 2 then 1 / 10 ^ 8 else 1 / 10 ^ 10

/-- ast/core.py:440-474 `compute_cell_gradient`: gradient, limiter, then the exchanges of `gradcellx`, `gradcelly`, `gradcellz`, `psi`. -/
def cellGradient (W : World K) (bc : Int → BCond K) (V : Nat → Vari K) : Option ((Nat → Vari K) × (Nat → Grads K)) :=
  (updateValues W bc V).bind fun V =>
    let g := fun p => cellGrads W.dim W.SIZE (W.data p) (W.D p) (W.hg p) (V p).fields
    let psi := fun p => limiter W.dim (limEps W.dim) (W.D p) (V p).fields (g p)
    (exchangeAll W (fun p c => (g p c).1)).bind fun hx =>
    (exchangeAll W (fun p c => (g p c).2.1)).bind fun hy =>
    (exchangeAll W (fun p c => (g p c).2.2)).bind fun hz =>
    (exchangeAll W psi).map fun hp =>
    (V, fun p => ⟨fun c => (g p c).1, fun c => (g p c).2.1, fun c => (g p c).2.2, psi p, hx p, hy p, hz p, hp p⟩)

/-- The face tables read by `face_gradient_*` and `face_gradient_info_*` (ddm/domain.py:564-568, 588-592).  `faces._ghostcenter`
(ddm/numba_ddm.py:446-466, 613-645): the ghost point on the boundary faces, -1 elsewhere; its third column in 2D (`gamma`) is not
read by these kernels. -/
def faceTabs (dim : Nat) (D : Tables K) : Interp.FaceTabs K :=
  { cellid0 := fun f => idx (D.cellid f 0), cellid1 := fun f => idx (D.cellid f 1)
    nodeid := fun f k => (D.fnode f).getD k 0
    name := D.name, halofid := D.halofid, normal := D.normal
    ghostcenter := fun f k => if bndOf dim (D.name f) then (ghostPoint dim D f).getD k 0 else -1
    centerc := D.center, centerh := D.centvol, shift := fun _ _ => 0, vertexn := D.vertex }

/-- The boundary condition is a Dirichlet condition. -/
def BCond.isDirichlet : BCond K → Bool
  | .dirichlet _ => true
  | _ => false

/-- ast/core.py:203-204, 232-233, 283-284, 302-303, 319-320: `dirichletfaces` and `neumannfaces` of a Variable (the lists are sorted
at the end of `__init__`; their order plays no role). -/
def varFaces (dim : Nat) (D : Tables K) (bc : Int → BCond K) : Interp.FaceLists :=
  { inner := D.innerfaces, halo := D.halofaces, periodic := D.periodicboundaryfaces
    dirichlet := (locNames dim).flatMap (fun loc => if (bc loc).isDirichlet then Var.facesNamed D.name D.nbfaces loc else [])
    neumann := (locNames dim).flatMap (fun loc => if (bc loc).isDirichlet then [] else Var.facesNamed D.name D.nbfaces loc) }

/-- `face_gradient_2d` / `face_gradient_3d`: `(gradfacex, gradfacey, gradfacez)`, zero before the call. -/
def faceGrads (dim : Nat) (D : Tables K) (bc : Int → BCond K) (w : Interp.Fields K) (node : Nat → K) : Nat → Geo.Vec K :=
  if dim = 2 then
    let g := Interp.faceGradient2 (faceTabs dim D) (varFaces dim D bc) w node (fun _ => (0, 0))
    fun f k => match k with | 0 => (g f).1 | 1 => (g f).2 | _ => 0
  else Interp.faceGradient3 (faceTabs dim D) (varFaces dim D bc) w node (fun _ _ => 0)

/-- ast/core.py:476-487 `compute_face_gradient`. -/
def faceGradient (W : World K) (bc : Int → BCond K) (V : Nat → Vari K) :
    Option ((Nat → Vari K) × (Nat → Nat → K) × (Nat → Nat → Geo.Vec K)) :=
  (celltonode W bc V).map (fun r => (r.1, r.2, fun p => faceGrads W.dim (W.D p) bc (r.1 p).fields (r.2 p)))

/-- `explicitscheme_dissipative(ne.gradfacex, ne.gradfacey, ne.gradfacez, faces.cellid, faces.normal, faces.name, dissip, ...)`. -/
def dissip (D : Tables K) (S : Setup K) (g : Nat → Geo.Vec K) : Nat → K :=
  explicitschemeDissipative D.nbfaces (fun f => g f 0) (fun f => g f 1) (fun f => g f 2) D.cellid D.normal D.name S.Dxx S.Dyy S.Dzz

/-- The state of the whole run: the arrays of the variable and its node values on every rank, the common time, the iteration counter. -/
structure TState (K : Type*) where
  V : Nat → Vari K
  node : Nat → Nat → K
  time : K
  iter : Nat

/-- One iteration of the loop on all ranks (models/tests/test_transport_2d_periodic.py:104-140, test_transport_3d_periodic.py:108-142):
`update_values`, time step and `allreduce(MIN)`, `compute_cell_gradient`, convective residual of order `order`; if `diff` (2D driver; in
the 3D driver these lines are commented out) `compute_face_gradient` and the dissipative residual; `update_new_value`; and, if `diff`,
`interpolate_celltonode` on the new values.  The source terms are zero, as in the drivers. -/
def tstep (W : World K) (S : Setup K) (order : Int) (diff : Bool) (s : TState K) : Option (TState K) :=
  (updateValues W S.bc s.V).bind fun V =>
  let dt := allreduceMin W.SIZE (fun p => localStep W.dim S (W.D p) s.iter)
  (cellGradient W S.bc V).bind fun r =>
  let rez := fun p => conv W.dim (convArgs (W.D p) (fieldsOf S (W.D p) s.iter (r.1 p).cell (r.1 p).ghost (r.1 p).halo (r.2 p)) order)
  let new := fun (V : Nat → Vari K) (dis : Nat → Nat → K) p =>
    { V p with cell := updateNewValue (V p).cell (rez p) (dis p) (fun _ => 0) dt (W.D p).volume }
  if diff then
    (faceGradient W S.bc r.1).bind fun q =>
    (celltonode W S.bc (new q.1 (fun p => dissip (W.D p) S (q.2.2 p)))).map fun o =>
    { V := o.1, node := o.2, time := s.time + dt, iter := s.iter + 1 }
  else some { V := new r.1 (fun _ _ => 0), node := s.node, time := s.time + dt, iter := s.iter + 1 }

/-- The first `N` iterations of `while time < tfinal`. -/
def tloop (W : World K) (S : Setup K) (order : Int) (diff : Bool) (s : TState K) : Nat → Option (TState K)
  | 0 => some s
  | N + 1 => (tloop W S order diff s N).bind (fun s => if s.time < S.tfinal then tstep W S order diff s else some s)

/-- The state before the loop: cells initialised from their centres, the other arrays zero. -/
def tstart (W : World K) (f : K → K → K → K) : TState K :=
  { V := fun p => ⟨fun c => f ((W.D p).center c 0) ((W.D p).center c 1) ((W.D p).center c 2), fun _ => 0, fun _ => 0, []⟩
    node := fun _ _ => 0, time := 0, iter := 0 }

end Verif.Run
