import Verif.Model.Run
import Verif.Model.HaloGhost

/-!
# Model of the node tables of a Domain and of `Variable.interpolate_celltonode` / `compute_cell_gradient` on all ranks

The tables of `build2` / `build3` (Model/Domain) are completed by the ghost cells of the nodes, their exchange and the tables read by the
interpolation and gradient kernels (Model/Interp).  Periodic sides are left out, as in `build2` (the theorems assume there are none).
-/
namespace Verif.Dom
open Verif Verif.Geo Verif.Conn Verif.Names Verif.MeshFile Verif.HaloGhost Verif.Run Verif.Comm
variable {K : Type*} [Field K] [LinearOrder K]

/-- ddm/numba_ddm.py:446 (2D), 613 (3D): the faces that get a ghost cell, by their name. -/
def bndOf (dim : Nat) : Int → Bool := if dim = 2 then bnd2 else bnd3

/-- ddm/numba_ddm.py:443-444, 459-460 (2D), 615-617, 635-637 (3D): the nodes a ghost cell is attached to, in the order of the code. -/
def ghostNodes (dim : Nat) (D : Tables K) (f : Nat) : List Nat :=
  if dim = 2 then [(D.fnode f).getD 1 0, (D.fnode f).getD 0 0]
  else [(D.fnode f).getD 1 0, (D.fnode f).getD 0 0, (D.fnode f).getD 2 0]

/-- ddm/numba_ddm.py:448-458 (2D), 619-632 (3D): the ghost point of a boundary face. -/
def ghostPoint (dim : Nat) (D : Tables K) (f : Nat) : List K :=
  let v_1 := D.center (idx (D.cellid f 0))
  if dim = 2 then
    let g := ghostcenter2 (D.vertex ((D.fnode f).getD 1 0)) (D.vertex ((D.fnode f).getD 0 0)) v_1
    [g.1, g.2.1]
  else
    let g := (ghostcenter3 (D.normal f) (D.mesure f) (D.fcenter f) v_1).1
    [g 0, g 1, g 2]

/-- ddm/numba_ddm.py:462 (2D), 639 (3D): the row `ll`. -/
def faceInfo (dim : Nat) (D : Tables K) (f : Nat) : List K :=
  if dim = 2 then Var.infoRow2 (D.fcenter f) (D.normal f) else Var.infoRow3 (D.fcenter f) (D.normal f)

/-- ddm/numba_ddm.py:436-467 (2D), 610-645 (3D): `nodes._ghostcenter`, `nodes._ghostfaceinfo`.  (`facenameoldf` is `faces._name` on
the boundary faces.) -/
def domGhosts (dim : Nat) (D : Tables K) : (Nat → List (GRow K)) × (Nat → List (List K)) :=
  nodeGhosts (bndOf dim) D.name (fun f => D.cellid f 0) (ghostNodes dim D) (ghostPoint dim D) (faceInfo dim D) D.nbfaces

/-- What rank data `d` with tables `D` brings to `update_haloghost_info_2d/3d` (ddm/domain.py:558, 581). -/
def domRankGhost (dim : Nat) (d : RankData K) (D : Tables K) : RankGhost K :=
  rankGhost d D.nodename (domGhosts dim D).1 (domGhosts dim D).2

/-- ddm/domain.py:558, 581: the call of `update_haloghost_info_2d/3d` on rank `p`. -/
def haloGhosts (dim SIZE : Nat) (data : Nat → RankData K) (D : Nat → Tables K) (p : Nat) : Option (HGResult K) :=
  updateHaloGhost dim (2 * dim) SIZE (fun q => domRankGhost dim (data q) (D q)) p

/-- A ghost row as read by the kernels: the coordinates and the last column. -/
def rowPt (r : GRow K) : Vec K × Int := (fun k => r.pt.getD k 0, r.last)

/-- `nodes.halonid` (ddm/numba_ddm.py:407-431; with one process a table whose counts are 0). -/
def haloidn (size : Nat) (d : RankData K) (D : Tables K) (i : Nat) : List Nat :=
  if size > 1 then (if D.nodename i = 10 then haloCellsOfNode d.halosext (d.nodeloctoglob.getD i 0) else []) else []

/-- The node tables passed to `centertovertex_*` and `cell_gradient_*` (ast/core.py:433-437, 445-450): `nodes.cellid` is built by
`create_node_cellid` (ddm/domain.py:376) from the cells of each node, which the reordering of the nodes of a cell does not change. -/
def nodeTabs (dim size : Nat) (d : RankData K) (D : Tables K) (hg : HGResult K) : Interp.NodeTabs K :=
  { centerc := D.center, centerh := D.centvol
    cellidn := (nodeCells D.cnode D.nbcells (dim + 1)).1
    haloidn := haloidn size d D
    periodicn := fun _ => []
    vertexn := D.vertex, oldname := D.oldname, namen := D.nodename
    ghosts := fun i => (hg.ghosts i).map rowPt
    haloghosts := fun i => (hg.haloghosts i).map rowPt
    shift := fun _ _ => 0 }

/-- The cell tables passed to `cell_gradient_*`: `cells.cellnid`, `cells.halonid`, `cells.nodeid`, `cells.periodicnid`. -/
def cellTabs (dim size : Nat) (d : RankData K) (D : Tables K) : Interp.CellTabs :=
  { cellnid := fun c => cellNeigh D.cnode (nodeCells D.cnode D.nbcells (dim + 1)).1 (dim + 1) c
    halonid := fun c => if size > 1 then cellHalonid D.cnode (haloidn size d D) (dim + 1) c else []
    nodes := fun c => (List.range (dim + 1)).map (D.cnode c)
    periodicnid := fun _ => [] }

/-- `nodes.haloghostcenter` as read by `haloghost_value_*`. -/
def hgTable (hg : HGResult K) (i : Nat) : List Var.HG := (hg.haloghosts i).map (fun r => ⟨r.cell, r.name, r.last⟩)

/-- ast/core.py:243-262: `valuehalo` for the Dirichlet location `loc`: every halo ghost of every node *labelled* `loc` gets the value of
the user's function at the centre of the ghost's face. -/
def valuehaloOne (D : Tables K) (hg : HGResult K) (b : BCond K) (loc : Int) (vh : Nat → K) : Nat → K :=
  match b with
  | .dirichlet v =>
    ((List.range D.nbnodes).filter (fun i => D.oldname i = loc)).foldl (fun vh i =>
      (List.range (hg.haloghosts i).length).foldl (fun vh j =>
        match (hg.haloghosts i)[j]? with
        | some r => if r.last ≠ -1 then setAt vh r.last.toNat (Var.lambdaAtSlot v ((hg.haloinfo i).getD j [])) else vh
        | none => vh) vh) vh
  | _ => vh

/-- ast/core.py:216-275: the array `valuehalo` of a Variable, all Dirichlet locations (for dictionaries without the aliasing of C32). -/
def valuehalo (dim : Nat) (D : Tables K) (hg : HGResult K) (bc : Int → BCond K) : Nat → K :=
  (locNames dim).foldl (fun vh loc => valuehaloOne D hg (bc loc) loc vh) (fun _ => 0)

/-- ast/core.py:492-493: `BC._func_haloghost(BC.BCvaluehalo, self.haloghost, nodes.haloghostcenter, BC.BCtypeindex, domain.halonodes)`
for one location. -/
def haloghostOne (hg : HGResult K) (halonodes : List Nat) (whalo vh : Nat → K) (b : BCond K) (loc : Int) (g : Nat → K) :
    Nat → K :=
  match b with
  | .neumann => Var.haloghostNeumann whalo (hgTable hg) loc halonodes g
  | .nonslip => Var.haloghostNonslip whalo (hgTable hg) loc halonodes g
  | .dirichlet _ => Var.haloghostDirichlet vh (hgTable hg) loc halonodes g

/-- ast/core.py:489-493: the halo ghosts after `update_ghost_value`. -/
def updateHaloghosts (dim : Nat) (D : Tables K) (hg : HGResult K) (halonodes : List Nat) (whalo : Nat → K) (bc : Int → BCond K)
    (g : Nat → K) : Nat → K :=
  (locNames dim).foldl (fun g loc => haloghostOne hg halonodes whalo (valuehalo dim D hg bc) (bc loc) loc g) g

/-- The nodes named 10 (ddm/domain.py:486 `_halonodes`). -/
def halonodes (D : Tables K) : List Nat := (List.range D.nbnodes).filter (fun i => D.nodename i = 10)

/-- The four value arrays after `update_halo_value` and `update_ghost_value`, the halo values having been received. -/
def valuesWith (dim : Nat) (D : Tables K) (hg : HGResult K) (bc : Int → BCond K) (cell ghost0 hghost0 : Nat → K) (halo : List K) :
    Interp.Fields K :=
  { c := cell
    ghost := updateGhosts dim D cell bc ghost0
    halo := fun k => halo.getD k 0
    haloghost := updateHaloghosts dim D hg (halonodes D) (fun k => halo.getD k 0) bc hghost0 }

/-- ast/core.py:429-437: the node values. -/
def nodeValues (dim size : Nat) (d : RankData K) (D : Tables K) (hg : HGResult K) (w : Interp.Fields K) (i : Nat) : K :=
  if dim = 2 then Interp.centertovertex2 (nodeTabs dim size d D hg) w i else Interp.centertovertex3 (nodeTabs dim size d D hg) w i

/-- ast/core.py:445-450: the cell gradients. -/
def cellGrads (dim size : Nat) (d : RankData K) (D : Tables K) (hg : HGResult K) (w : Interp.Fields K) (c : Nat) : K × K × K :=
  if dim = 2 then Interp.cellGradient2 (nodeTabs dim size d D hg) (cellTabs dim size d D) w c
  else Interp.cellGradient3 (nodeTabs dim size d D hg) (cellTabs dim size d D) w c

/-- ast/core.py:453-456: the limiter (`eps`: 1e-8 in 2D, 1e-10 in 3D). -/
def limiter (dim : Nat) (eps : K) (D : Tables K) (w : Interp.Fields K) (grad : Nat → K × K × K) (c : Nat) : K :=
  Interp.barthLimiter dim eps w.c w.ghost w.halo (fun k => match k with | 0 => (grad c).1 | 1 => (grad c).2.1 | _ => (grad c).2.2)
    (fun f => idx (D.cellid f 0)) (fun f => idx (D.cellid f 1)) D.halofid D.name D.center D.fcenter
    ((List.range (dim + 1)).map (D.faceid c)) c

end Verif.Dom
