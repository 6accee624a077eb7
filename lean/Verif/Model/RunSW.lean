import Verif.Model.RunVar
import Verif.Model.SW

/-!
# Model of a whole shallow-water computation on all processes

`models/SWModel/core.py:80-155` (`ShallowWaterModel`) on the tables of the Domain, and the loop of `models/tests/test_sw_2d.py:84-115`.
Real arithmetic.  Component 0 `h`, 1 `hu`, 2 `hv`, 3 `hc`, 4 `Z`, as in Model/SW.
-/
namespace Verif.Run
open Verif Verif.Dom Verif.Fvm Verif.MeshFile Verif.Comm Verif.HaloGhost

/-- What the user chooses: the boundary conditions of the five variables, `cfl`, `tfinal`, the parameters `Dx`, `Dy`, the Manning number,
the Coriolis number (`self.fc`), the order. -/
structure SSetup where
  bc : Fin 5 → Int → BCond ℝ
  cfl : ℝ
  tfinal : ℝ
  Dx : ℝ
  Dy : ℝ
  mann : ℝ
  fc : ℝ
  order : Int

/-- The state of the whole run: the arrays of the five variables on every rank, `h.node`, `SWModel.time_step`, `time`. -/
structure SState where
  V : Fin 5 → Nat → Vari ℝ
  node : Nat → Nat → ℝ
  dt : ℝ
  time : ℝ

/-- The cells of the five variables of one rank. -/
def cellsOf (V : Fin 5 → Vari ℝ) : Nat → SW.W5 := fun i k => (V k).cell i

/-- The five variables with new cells. -/
def setCells (V : Fin 5 → Nat → Vari ℝ) (w : Nat → Nat → SW.W5) : Fin 5 → Nat → Vari ℝ :=
  fun k p => { V k p with cell := fun i => w p i k }

/-- models/SWModel/core.py:90-100: the arrays passed to `explicitscheme_convective_SW` (the limiter is that of `hc`). -/
def swArgs (D : Tables ℝ) (V : Fin 5 → Vari ℝ) (gh gc : Grads ℝ) (order : Int) : SW.Args :=
  { c := cellsOf V, ghost := fun i k => (V k).ghost i, halo := fun i k => (V k).halo.getD i 0
    h_x := gh.wx, h_y := gh.wy, hc_x := gc.wx, hc_y := gc.wy, psi := gc.psi
    hx_halo := fun i => gh.wx_halo.getD i 0, hy_halo := fun i => gh.wy_halo.getD i 0
    hcx_halo := fun i => gc.wx_halo.getD i 0, hcy_halo := fun i => gc.wy_halo.getD i 0
    psi_halo := fun i => gc.psi_halo.getD i 0
    centerc := D.center, centerf := D.fcenter, centerh := D.centvol
    cell0 := fun f => idx (D.cellid f 0), cell1 := fun f => idx (D.cellid f 1)
    mesuref := D.mesure, normalf := D.normal, halofid := D.halofid
    innerfaces := D.innerfaces, halofaces := D.halofaces, boundaryfaces := D.boundaryfaces, order := order }

/-- models/SWModel/core.py:107-118: the cell tables passed to `term_source_srnh_SW`: `cells.faceid`, `cells.cellfid`
(`create_NeighborCellByFace`, ddm/domain.py:408), `cells.nf` (`create_NormalFacesOfCell`, ddm/domain.py:426-429), `cells.center`, the second
vertex of the cell, `faces.name`, `faces.halofid`. -/
noncomputable def swCells (D : Tables ℝ) : SW.CellTabs :=
  { faceid := D.faceid
    cellfid := fun i j => idx ((Conn.createNeighborCellByFace D.faceid (fun f => (D.cellid f 0, D.cellid f 1)) D.nbcells 3 i).getD j (-1))
    nf := Geo.createNormalFacesOfCell D.center D.fcenter D.faceid D.normal D.nbcells (fun _ _ _ => 0) 2
    center := D.center, vertex1 := fun i => D.vertex (D.cnode i 1), namef := D.name, halofid := D.halofid }

/-- models/SWModel/core.py:80-82 `update_values`: the five variables in turn.  (In the driver of test_sw_2d.py `hu` and `hv` have been
replaced by new Variables which are not in `varbs`; they are updated by `update_term_friction` before they are read, as here.) -/
noncomputable def updateAll (W : World ℝ) (bc : Fin 5 → Int → BCond ℝ) (V : Fin 5 → Nat → Vari ℝ) : Option (Fin 5 → Nat → Vari ℝ) :=
  (updateValues W (bc 0) (V 0)).bind fun a =>
  (updateValues W (bc 1) (V 1)).bind fun b =>
  (updateValues W (bc 2) (V 2)).bind fun c =>
  (updateValues W (bc 3) (V 3)).bind fun d =>
  (updateValues W (bc 4) (V 4)).map fun e => ![a, b, c, d, e]

/-- models/SWModel/core.py:120-123 `update_term_friction`: `hu`, `hv` of every cell, then their halo and ghost values. -/
noncomputable def frictionAll (W : World ℝ) (S : SSetup) (dt : ℝ) (V : Fin 5 → Nat → Vari ℝ) : Option (Fin 5 → Nat → Vari ℝ) :=
  let V := setCells V (fun p i => SW.friction (cellsOf (fun k => V k p) i) SW.g0 S.mann dt)
  (updateValues W (S.bc 1) (V 1)).bind fun hu =>
  (updateValues W (S.bc 2) (V 2)).map fun hv => ![V 0, hu, hv, V 3, V 4]

/-- The gradient arrays before any gradient was computed (ast/core.py:126-141). -/
def zeroGrads : Grads ℝ := ⟨fun _ => 0, fun _ => 0, fun _ => 0, fun _ => 0, [], [], [], []⟩

/-- models/SWModel/core.py:84-88: at order 2 the gradients of `h` and `hc`. -/
noncomputable def gradsAll (W : World ℝ) (S : SSetup) (V : Fin 5 → Nat → Vari ℝ) :
    Option ((Fin 5 → Nat → Vari ℝ) × (Nat → Grads ℝ) × (Nat → Grads ℝ)) :=
  if S.order = 2 then
    (cellGradient W (S.bc 0) (V 0)).bind fun r =>
    (cellGradient W (S.bc 3) (V 3)).map fun q => (![r.1, V 1, V 2, q.1, V 4], r.2, q.2)
  else some (V, fun _ => zeroGrads, fun _ => zeroGrads)

/-- The coefficients of the dissipative term of `hc` (`self.Dz = 0`). -/
def swDiff (S : SSetup) : Setup ℝ :=
  ⟨S.bc 3, fun _ _ _ _ => 0, fun _ _ _ _ => 0, fun _ _ _ _ => 0, S.cfl, S.tfinal, S.Dx, S.Dy, 0⟩

/-- models/SWModel/core.py:129-135 `update_time_step`. -/
noncomputable def swTimeStep (W : World ℝ) (S : SSetup) (w : Nat → Nat → SW.W5) : ℝ :=
  allreduceMin W.SIZE (fun p => SW.timeStep (W.D p).nbcells (w p) S.cfl (W.D p).normal (W.D p).mesure (W.D p).volume (W.D p).faceid S.Dx S.Dy)

/-- The new cells (models/SWModel/core.py:84-155 from the convective term on): convective residual, source, Coriolis, `update_SW`. -/
noncomputable def swNew (D : Tables ℝ) (S : SSetup) (dt : ℝ) (V : Fin 5 → Vari ℝ) (gh gc : Grads ℝ) (dis : Nat → ℝ) : Nat → SW.W5 :=
  let a := swArgs D V gh gc S.order
  let rez := a.convective
  let src := SW.source (swCells D) a.c a.ghost a.halo
  fun i => SW.updateCell (a.c i) (rez i) (src i) (dis i) (SW.coriolis (a.c i) S.fc) (0, 0) dt (D.volume i)

/-- One iteration of the loop (models/tests/test_sw_2d.py:84-98): `time += time_step`, `update_values`, `update_solution`
(models/SWModel/core.py:137-155), `update_time_step`, `h.interpolate_celltonode()`.  The convective term is computed before
`hc.compute_face_gradient()` updates the halo and the ghosts of `hc` (not its cells); the source reads `h` and `Z` only. -/
noncomputable def swStep (W : World ℝ) (S : SSetup) (s : SState) : Option SState :=
  (updateAll W S.bc s.V).bind fun V =>
  (frictionAll W S s.dt V).bind fun V =>
  (gradsAll W S V).bind fun r =>
  (faceGradient W (S.bc 3) (r.1 3)).bind fun q =>
  let V := ![r.1 0, r.1 1, r.1 2, q.1, r.1 4]
  let w := fun p => swNew (W.D p) S s.dt (fun k => r.1 k p) (r.2.1 p) (r.2.2 p) (dissip (W.D p) (swDiff S) (q.2.2 p))
  let V := setCells V w
  (celltonode W (S.bc 0) (V 0)).map fun o =>
  { V := ![o.1, V 1, V 2, V 3, V 4], node := o.2, dt := swTimeStep W S w, time := s.time + s.dt }

/-- The first `N` iterations of `while time < tfinal`. -/
noncomputable def swLoop (W : World ℝ) (S : SSetup) (s : SState) : Nat → Option SState
  | 0 => some s
  | N + 1 => (swLoop W S s N).bind (fun s => if s.time < S.tfinal then swStep W S s else some s)

/-- The state before the loop (models/tests/test_sw_2d.py:60-66): cells initialised from their centres, the other arrays zero, first time
step. -/
noncomputable def swStart (W : World ℝ) (S : SSetup) (f : Fin 5 → ℝ → ℝ → ℝ → ℝ) : SState :=
  let w := fun p i k => f k ((W.D p).center i 0) ((W.D p).center i 1) ((W.D p).center i 2)
  { V := fun k p => ⟨fun i => w p i k, fun _ => 0, fun _ => 0, []⟩
    node := fun _ _ => 0, dt := swTimeStep W S w, time := 0 }

end Verif.Run
