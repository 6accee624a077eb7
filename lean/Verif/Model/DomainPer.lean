import Verif.Model.DomainNodes
import Verif.Model.Periodic

/-!
# Model of the set-up of a Domain with periodic sides

`build2` / `build3` (Model/Domain) followed by `update_pediodic_info_2d` / `_3d` (Model/Periodic).
-/
namespace Verif.Dom
open Verif Verif.Geo Verif.Conn Verif.Names Verif.MeshFile Verif.Periodic
variable {K : Type*} [Field K] [LinearOrder K]

/-- `max(a[:n])` (ddm/numba_ddm.py:982-983, 1035-1036: Python's `max` of a column of an array). -/
def maxOver (n : Nat) (a : Nat → K) : K := (List.range n).foldl (fun m i => max m (a i)) (a 0)

/-- What `update_pediodic_info_*` reads of the tables of a process: `faces._center`, `faces._cellid[:,0]`, `cells._cellnid`,
`nodes._vertex`, `nodes._cellid` (ddm/domain.py:517-530). -/
def perMesh (dim : Nat) (D : Tables K) : PMesh K :=
  { centerf := D.fcenter
    cell0 := fun f => idx (D.cellid f 0)
    cellnid := fun c => cellNeigh D.cnode (nodeCells D.cnode D.nbcells (dim + 1)).1 (dim + 1) c
    vertex := D.vertex
    ncells := (nodeCells D.cnode D.nbcells (dim + 1)).1 }

/-- ddm/domain.py:464-467, 491-492: `where(faces._name==11)[0]` etc. -/
def faceSides (D : Tables K) : Sides :=
  let w := fun (l : Int) => (List.range D.nbfaces).filter (fun f => D.name f = l)
  ⟨w 11, w 22, w 33, w 44, w 55, w 66⟩

/-- ddm/domain.py:481-484, 496-497: `where(nodes._name==11)[0]` etc. -/
def nodeSides (D : Tables K) : Sides :=
  let w := fun (l : Int) => (List.range D.nbnodes).filter (fun i => D.nodename i = l)
  ⟨w 11, w 22, w 33, w 44, w 55, w 66⟩

/-- ddm/domain.py:517-530 applied to the tables `D` of a process: the second cell of the periodic faces is replaced by the partner cell;
the shifts and the periodic cells of nodes and cells are the second component.  `none`: a `KeyError`.  `r` is `float32`. -/
def updatePer (dim : Nat) (r : K → K) (D : Tables K) : Option (Tables K × PState K) :=
  let M := fun e => maxOver D.nbfaces (fun f => D.fcenter f e)
  let S := fun e => maxOver D.nbnodes (fun i => D.vertex i e)
  let c1 := fun f => D.cellid f 1
  let s := if dim = 2 then update2d r (perMesh dim D) M S (faceSides D) (nodeSides D) c1
    else update3d r (perMesh dim D) M S (faceSides D) (nodeSides D) c1
  s.map (fun s => ({ D with cellid := fun f k => if k = 0 then D.cellid f 0 else s.cell1 f }, s))

/-- ddm/domain.py:330-530 for `dim = 2`. -/
def buildPer2 (sqrt : K → K) (trunc : K → Int) (r : K → K) (size : Nat) (d : RankData K) : Option (Tables K × PState K) :=
  updatePer 2 r (build2 sqrt trunc size d)

/-- ddm/domain.py:330-530 for `dim = 3`. -/
def buildPer3 (sqrt : K → K) (trunc : K → Int) (r : K → K) (size : Nat) (d : RankData K) : Option (Tables K × PState K) :=
  updatePer 3 r (build3 sqrt trunc size d)

end Verif.Dom
