import Verif.Model.Comm
import Verif.Model.Names

/-!
# Model of the ghost cells of a node and of their exchange between the processes

* `create_2d_halo_structure` / `create_3d_halo_structure` (ddm/numba_ddm.py:428-485, 612-668): the ghost cells attached to each node,
  the halo cells around each cell;
* `update_haloghost_info_2d` / `update_haloghost_info_3d` (comms/communication.py:75-241, 243-420), for all ranks at once.

The 2D and the 3D function differ only in the number of coordinates of a row, so coordinates are a list.  Cell, name and face
columns are kept as integers instead of floats holding integers.
-/
namespace Verif.HaloGhost
open Verif.Comm
variable {K : Type*}

/-- A row of `nodes._ghostcenter[i]` / `nodes._haloghostcenter[i]`: coordinates, cell, boundary name, last column. -/
structure GRow (K : Type*) where
  pt : List K
  cell : Int
  name : Int
  last : Int
deriving DecidableEq

/-- ddm/numba_ddm.py:443-466 (2D: names 1, 2, 3, 4; nodes `[nodeid[1], nodeid[0]]`), 612-645 (3D: name ≠ 0 and < 7; nodes
`[nodeid[1], nodeid[0], nodeid[2]]`): `nodes._ghostcenter`, `nodes._ghostfaceinfo` after the loop over the faces.  `bnd` is the
test on the name, `fnodes` the nodes of the face in the order of the statements, `ghost i` the mirror point (see
`Geometry.ghostcenter2/3`), `info i` the row `ll` (centre and normal). -/
def nodeGhosts (bnd : Int → Bool) (name : Nat → Int) (cell0 : Nat → Int) (fnodes : Nat → List Nat) (ghost info : Nat → List K)
    (nbfaces : Nat) : (Nat → List (GRow K)) × (Nat → List (List K)) :=
  (List.range nbfaces).foldl (fun s i =>
    if bnd (name i) then
      (fnodes i).foldl (fun s n => (setAt s.1 n (s.1 n ++ [⟨ghost i, cell0 i, name i, (i : Int)⟩]), setAt s.2 n (s.2 n ++ [info i]))) s
    else s) (fun _ => [], fun _ => [])

/-- ddm/numba_ddm.py:446. -/
def bnd2 (z : Int) : Bool := z = 1 || z = 2 || z = 3 || z = 4
/-- ddm/numba_ddm.py:613. -/
def bnd3 (z : Int) : Bool := z ≠ 0 && z < 7

/-- ddm/numba_ddm.py:470-477, 653-660: the halo cells of cell `i`, `list(set(...))` of the concatenation of the halo cells of its
nodes (`halonid n` is the first `nodes._halonid[n][-1]` entries).  The order of `list(set(..))` is unspecified in Python; here the
last occurrence of each value is kept, the theorems speak about membership and repetition only. -/
def cellHalonid (nodeid : Nat → Nat → Nat) (halonid : Nat → List Nat) (d1 i : Nat) : List Nat :=
  ((List.range d1).foldl (fun l j => l ++ halonid (nodeid i j)) []).dedup

/-- What a rank brings to the exchange. -/
structure RankGhost (K : Type*) where
  /-- `where(nodes._name == 10)[0]` -/
  halonodes : List Nat
  /-- `nodes._loctoglob` -/
  gnode : Nat → Nat
  /-- `nodes._nparts` (indexed by global node) -/
  nparts : Nat → List Nat
  ghosts : Nat → List (GRow K)
  info : Nat → List (List K)
  /-- `cells._loctoglob` -/
  gcell : Nat → Nat
  /-- `halos._neigh[0]` -/
  neigh : List Nat
  /-- the first `nodes._halonid[i][-1]` entries of `nodes._halonid[i]` -/
  halonid : Nat → List Nat
  /-- `halos._halosext[h][0]` -/
  ext0 : Nat → Nat
  nbnodes : Nat

/-- A row of the first send buffer: the global node and a ghost row whose cell is global. -/
structure Msg (K : Type*) where
  node : Nat
  row : GRow K
deriving DecidableEq

/-- The dictionaries `ghostcenter`, `ghostfaceinfo` (an absent key is the empty list) and `taille_node_ghost`. -/
structure SendSt (K : Type*) where
  gc : Nat → List (Msg K)
  gf : Nat → List (List K)
  taille : Nat → Nat

/-- comms/communication.py:94-111 (2D), 263-287 (3D): the loop filling the send dictionaries of rank `RANK`. -/
def sendLoop (d : RankGhost K) (RANK : Nat) : SendSt K :=
  d.halonodes.foldl (fun s i =>
    (List.range (d.ghosts i).length).foldl (fun s j =>
      (d.nparts (d.gnode i)).foldl (fun s k =>
        if k ≠ RANK then
          match (d.ghosts i)[j]? with
          | some r => { gc := setAt s.gc k (s.gc k ++ [⟨d.gnode i, { r with cell := (d.gcell r.cell.toNat : Int) }⟩])
                        gf := setAt s.gf k (s.gf k ++ [(d.info i).getD j []])
                        taille := setAt s.taille k (s.taille k + 1) }
          | none => s
        else s) s) s) ⟨fun _ => [], fun _ => [], fun _ => 0⟩

/-- comms/communication.py:113-117, 134-137: `OrderedDict(sorted(items))` then concatenation.  Keys are below `SIZE` (otherwise
`taille_node_ghost[k]` raises), so the sorted keys are a sublist of `range(SIZE)` and absent keys contribute nothing. -/
def sendBuf {α : Type*} (SIZE : Nat) (g : Nat → List α) : List α := (List.range SIZE).flatMap g

/-- comms/communication.py:119-120: `scount_node`. -/
def scountNode (neigh : List Nat) (taille : Nat → Nat) : Nat → Nat :=
  neigh.foldl (fun s q => setAt s q (taille q)) (fun _ => 0)

/-- comms/communication.py:122-123, 127-128: `depl[i] = depl[i-1] + count[i-1]` for `i` in `range(1, SIZE)`. -/
def depl (SIZE : Nat) (count : Nat → Nat) : Nat → Nat :=
  (List.range' 1 (SIZE - 1)).foldl (fun s i => setAt s i (s (i - 1) + count (i - 1))) (fun _ => 0)

/-- `COMM.Alltoallv` with counts and displacements: rank `p` receives from rank `q` the `scount q p` items of `q`'s buffer from
`sdepl q p` on, at position `rdepl p q` of its own buffer.  `none`: an access outside a buffer, a count mismatch, or receive
displacements that are not contiguous. -/
def alltoallv {α : Type*} (SIZE : Nat) (scount sdepl rcount rdepl : Nat → Nat → Nat) (send : Nat → List α) (p : Nat) : Option (List α) :=
  (List.range SIZE).foldlM (fun acc q =>
    let b := ((send q).drop (sdepl q p)).take (scount q p)
    if b.length = scount q p ∧ scount q p = rcount p q ∧ acc.length = rdepl p q then some (acc ++ b) else none) []

/-- comms/communication.py:152-156: the dictionary of received rows, keyed by global node. -/
def recvDict {α : Type*} (l : List (Nat × α)) : Nat → List α :=
  l.foldl (fun d m => setAt d m.1 (d m.1 ++ [m.2])) (fun _ => [])

/-- comms/communication.py:157-159, 187-189: rows appended to the halo nodes. -/
def extendNodes {α : Type*} (halonodes : List Nat) (gnode : Nat → Nat) (d : Nat → List α) : Nat → List α :=
  halonodes.foldl (fun h i => if (d (gnode i)).isEmpty then h else setAt h i (h i ++ d (gnode i))) (fun _ => [])

/-- comms/communication.py:207-219 (and 193-204): every list is filled up to the maximal length, and has at least one row; the
lists of `info` get as many rows as those of the first argument. -/
def padRows {α β : Type*} (nbnodes : Nat) (padA : α) (padB : β) (a : Nat → List α) (b : Nat → List β) :
    (Nat → List α) × (Nat → List β) :=
  let m := (List.range nbnodes).foldl (fun m i => max m (a i).length) 0
  (List.range nbnodes).foldl (fun s i =>
    let it := m - (s.1 i).length
    let s := (List.range it).foldl (fun s _ => (setAt s.1 i (s.1 i ++ [padA]), setAt s.2 i (s.2 i ++ [padB]))) s
    if (s.1 i).length = 0 then (setAt s.1 i (s.1 i ++ [padA]), setAt s.2 i (s.2 i ++ [padB])) else s) (a, b)

/-- The padding row of `dim` coordinates. -/
def padRow [Neg K] [One K] (dim : Nat) : GRow K := ⟨List.replicate dim (-1), -1, -1, -1⟩

/-- comms/communication.py:222-225: `haloexttoind`, as the list of its insertions. -/
def haloexttoind (d : RankGhost K) : List (Nat × Nat) :=
  d.halonodes.flatMap (fun i => (d.halonid i).map (fun h => (d.ext0 h, h)))

/-- comms/communication.py:229-234: the rows of one node, from counter `cmpt`; `none` is a `KeyError`. -/
def numberRows (dict : List (Nat × Nat)) : List (GRow K) → Nat → Option (List (GRow K) × Nat)
  | [], c => some ([], c)
  | r :: rs, c =>
    if r.last ≠ -1 then
      match dictGet dict r.cell.toNat with
      | none => none
      | some h => match numberRows dict rs (c + 1) with
        | none => none
        | some (rs', c') => some ({ r with cell := (h : Int), last := (c : Int) } :: rs', c')
    else match numberRows dict rs c with
      | none => none
      | some (rs', c') => some (r :: rs', c')

/-- comms/communication.py:227-234. -/
def numberNodes (dict : List (Nat × Nat)) (halonodes : List Nat) (hg : Nat → List (GRow K)) : Option ((Nat → List (GRow K)) × Nat) :=
  halonodes.foldlM (fun s i => (numberRows dict (s.1 i) s.2).map (fun r => (setAt s.1 i r.1, r.2))) (hg, 0)

/-- What rank `p` holds after the call. -/
structure HGResult (K : Type*) where
  ghosts : Nat → List (GRow K)
  info : Nat → List (List K)
  haloghosts : Nat → List (GRow K)
  haloinfo : Nat → List (List K)
  size : Nat

/-- The two exchanges (comms/communication.py:92-189, 260-367): the rows appended to `_haloghostcenter` / `_haloghostfaceinfo` of
rank `p`. -/
def exchange (SIZE : Nat) (data : Nat → RankGhost K) (p : Nat) : Option ((Nat → List (GRow K)) × (Nat → List (List K))) := do
  let st := fun q => sendLoop (data q) q
  let scount := fun q => scountNode (data q).neigh (st q).taille
  let sdepl := fun q => depl SIZE (scount q)
  let rcount := fun r q => scount q r
  let rdepl := fun r => depl SIZE (rcount r)
  let gch ← alltoallv SIZE scount sdepl rcount rdepl (fun q => sendBuf SIZE (st q).gc) p
  let gfh ← alltoallv SIZE scount sdepl rcount rdepl (fun q => sendBuf SIZE (st q).gf) p
  return (extendNodes (data p).halonodes (data p).gnode (recvDict (gch.map (fun m => (m.node, m.row)))),
    extendNodes (data p).halonodes (data p).gnode (recvDict ((gch.map (fun m => m.node)).zip gfh)))

/-- comms/communication.py:75-241, 243-420: `update_haloghost_info_2d/3d` on rank `p`; `w` is the number of columns of the
face information (4 in 2D, 6 in 3D). -/
def updateHaloGhost [Neg K] [One K] (dim w SIZE : Nat) (data : Nat → RankGhost K) (p : Nat) : Option (HGResult K) := do
  let ex ← if SIZE > 1 then exchange SIZE data p else some (fun _ => [], fun _ => [])
  let d := data p
  let own := padRows d.nbnodes (padRow dim) (List.replicate w (-1)) d.ghosts d.info
  let halo := padRows d.nbnodes (padRow dim) (List.replicate w (-1)) ex.1 ex.2
  let num ← numberNodes (haloexttoind d) d.halonodes halo.1
  return { ghosts := own.1, info := own.2, haloghosts := num.1, haloinfo := halo.2, size := num.2 }

open Verif.MeshFile Verif.Names in
/-- What `Domain.__init__` passes to `update_haloghost_info_2d/3d` (ddm/domain.py:486, 558, 581) on a rank with mesh data `d`, node names
`name` (after `create_2d_halo_structure`) and ghost cells `ghosts`, `info`.  `nodes._halonid` (ddm/numba_ddm.py:400-426): the halo cells
of the nodes named 10, nothing for the others. -/
def rankGhost (d : RankData K) (name : Nat → Int) (ghosts : Nat → List (GRow K)) (info : Nat → List (List K)) : RankGhost K :=
  { halonodes := (List.range d.vertex.length).filter (fun i => name i = 10)
    gnode := fun i => d.nodeloctoglob.getD i 0
    nparts := fun g => d.nparts.getD g []
    ghosts := ghosts
    info := info
    gcell := fun c => d.loctoglob.getD c 0
    neigh := d.neigh.getD 0 []
    halonid := fun i => if name i = 10 then haloCellsOfNode d.halosext (d.nodeloctoglob.getD i 0) else []
    ext0 := fun h => (d.halosext.getD h []).getD 0 0
    nbnodes := d.vertex.length }

end Verif.HaloGhost
