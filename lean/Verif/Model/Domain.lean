import Verif.Model.Geometry
import Verif.Model.Conn
import Verif.Model.Names
import Verif.Model.Comm
import Verif.Model.Fvm

/-!
# Model of the set-up of a Domain (`ddm/domain.py:330-520`) and of a parallel explicit run

The connectivity, geometry, naming and halo tables are built by the kernels modelled in `Geometry`, `Conn`, `Names`; here they are put
together in the order of `Domain.__init__`, starting from what `read_mesh_file` returned.
-/
namespace Verif.Dom
open Verif Verif.Geo Verif.Conn Verif.Names Verif.MeshFile
variable {K : Type*} [Field K] [LinearOrder K]

/-- The geometric tables of a 2D Domain. -/
structure Domain2 (K : Type*) where
  nodeid : Nat → Nat × Nat × Nat
  center : Nat → Vec K
  volume : Nat → K
  facenodes : List (List Nat)
  faceid : Nat → Nat → Nat
  cellid : Nat → Int × Int
  normal : Nat → Vec K
  fcenter : Nat → Vec K
  mesure : Nat → K
  nf : Nat → Nat → Vec K

/-- Column `j` of a row of three nodes. -/
def col3 (t : Nat × Nat × Nat) : Nat → Nat
  | 0 => t.1
  | 1 => t.2.1
  | _ => t.2.2

/-- ddm/domain.py:362-429 for `dim = 2`: centres/volumes, faces, cells of faces, normals, outgoing normals, in this order,
all arrays initially zero (`-1` for `faces._cellid`). -/
def domain2 (sqrt : K → K) (vertex : Nat → Vec K) (nbcells : Nat) (rows : Nat → Nat × Nat × Nat) : Domain2 K :=
  let s := compute2dCenterVolume vertex nbcells ⟨rows, fun _ _ => 0, fun _ => 0⟩
  let nodeid := fun i => col3 (s.nodeid i)
  let ff := domainFaces 2 nodeid nbcells
  let cellid := createCellsOfFace ff.2 nbcells 3 noCells
  let info := createInfo2dfaces sqrt (fun f k => if k = 0 then idx (cellid f).1 else idx (cellid f).2)
    (fun f k => (ff.1.getD f []).getD k 0) vertex s.center ff.1.length (fun _ _ => 0) (fun _ _ => 0) (fun _ => 0)
  { nodeid := s.nodeid, center := s.center, volume := s.volume, facenodes := ff.1, faceid := ff.2, cellid := cellid,
    normal := info.1, fcenter := info.2.1, mesure := info.2.2,
    nf := createNormalFacesOfCell s.center info.2.1 ff.2 info.1 nbcells (fun _ _ _ => 0) 2 }

/-- The geometric tables of a 3D Domain (`nf` is not computed in 3D, ddm/domain.py:427). -/
structure Domain3 (K : Type*) where
  nodeid : Nat → Nat × Nat × Nat × Nat
  center : Nat → Vec K
  volume : Nat → K
  /-- `faces._nodeid` as returned by `unique` (before `oriente_3dfacenodeid`) -/
  facenodes : List (List Nat)
  /-- `faces._nodeid` after `oriente_3dfacenodeid` -/
  fnode : Nat → Nat × Nat × Nat
  faceid : Nat → Nat → Nat
  cellid : Nat → Int × Int
  normal : Nat → Vec K
  fcenter : Nat → Vec K
  mesure : Nat → K

/-- Column `j` of a row of four nodes. -/
def col4 (t : Nat × Nat × Nat × Nat) : Nat → Nat
  | 0 => t.1
  | 1 => t.2.1
  | 2 => t.2.2.1
  | _ => t.2.2.2

/-- ddm/domain.py:362-440 for `dim = 3`: centres/volumes, faces, cells of faces, normals, orientation of the face nodes. -/
def domain3 (sqrt : K → K) (vertex : Nat → Vec K) (nbcells : Nat) (rows : Nat → Nat × Nat × Nat × Nat) : Domain3 K :=
  let cv := compute3dCenterVolume rows vertex nbcells (fun _ _ => 0) (fun _ => 0)
  let nodeid := fun i => col4 (rows i)
  let ff := domainFaces 3 nodeid nbcells
  let cellid := createCellsOfFace ff.2 nbcells 4 noCells
  let info := createInfo3dfaces sqrt (fun f k => if k = 0 then idx (cellid f).1 else idx (cellid f).2)
    (fun f k => (ff.1.getD f []).getD k 0) vertex cv.1 ff.1.length (fun _ _ => 0) (fun _ _ => 0) (fun _ => 0)
  { nodeid := rows, center := cv.1, volume := cv.2, facenodes := ff.1, faceid := ff.2, cellid := cellid,
    fnode := oriente3dfacenodeid (fun f => let r := ff.1.getD f []; (r.getD 0 0, r.getD 1 0, r.getD 2 0)) info.1 vertex ff.1.length
    normal := info.1, fcenter := info.2.1, mesure := info.2.2 }

/-- The tables of a Domain used by the explicit schemes, same names as in the code (`fnode` is `faces.nodeid`). -/
structure Tables (K : Type*) where
  nbcells : Nat
  nbfaces : Nat
  center : Nat → Vec K
  volume : Nat → K
  fnode : Nat → List Nat
  faceid : Nat → Nat → Nat
  cellid : Nat → Nat → Int
  normal : Nat → Vec K
  fcenter : Nat → Vec K
  mesure : Nat → K
  name : Nat → Int
  halofid : Nat → Nat
  centvol : Nat → Vec K
  innerfaces : List Nat
  halofaces : List Nat
  boundaryfaces : List Nat
  periodicboundaryfaces : List Nat
  nbnodes : Nat
  vertex : Nat → Vec K
  /-- `nodes.oldname`: the label column of `vertex` -/
  oldname : Nat → Int
  /-- `nodes.name`: the labels, 10 at the nodes of the halo faces -/
  nodename : Nat → Int
  /-- `cells.nodeid` -/
  cnode : Nat → Nat → Nat

/-- Node `k` of row `i` of an array read from the file. -/
def at2 {α : Type*} (d : α) (rows : List (List α)) (i k : Nat) : α := (rows.getD i []).getD k d

/-- ddm/domain.py:330-472 for `dim = 2`, from the data read by `read_mesh_file`: geometry (`domain2`), face names
(`create_info_2dfaces`), halo faces (`create_2d_halo_structure`, only when `size > 1`), face lists.  `trunc` is Python's `int` on the
label column of `vertex`.  Simplification: `update_pediodic_info_2d` (517) is left out: it changes nothing when there is no periodic
face, which the theorems assume. -/
def build2 (sqrt : K → K) (trunc : K → Int) (size : Nat) (d : RankData K) : Tables K :=
  let vertex := at2 0 d.vertex
  let rows := fun i => (at2 0 d.nodeid i 0, at2 0 d.nodeid i 1, at2 0 d.nodeid i 2)
  let D := domain2 sqrt vertex d.nodeid.length rows
  let nb := D.facenodes.length
  let fnode := at2 0 D.facenodes
  let nodename := fun s => trunc (vertex s 3)
  let m0 : Marks := ⟨fun f => (D.cellid f).2, faceNames2 (fun f => (D.cellid f).2) fnode nodename nb, nodename, fun _ => 0⟩
  let m := if size > 1 then markLoop2 d.halosext fnode (fun s => d.nodeloctoglob.getD s 0) nb m0 else m0
  let fam := families2 m.name nb
  { nbcells := d.nodeid.length, nbfaces := nb, center := D.center, volume := D.volume
    fnode := fun f => [fnode f 0, fnode f 1]
    faceid := D.faceid
    cellid := fun f k => if k = 0 then (D.cellid f).1 else m.cellid1 f
    normal := D.normal, fcenter := D.fcenter, mesure := D.mesure, name := m.name, halofid := m.halofid
    centvol := at2 0 d.centvol
    innerfaces := fam.getD 0 [], halofaces := fam.getD 1 [], boundaryfaces := fam.getD 2 [], periodicboundaryfaces := fam.getD 3 []
    nbnodes := d.vertex.length, vertex := vertex, oldname := nodename, nodename := m.nodename, cnode := fun c => col3 (D.nodeid c) }

/-- ddm/domain.py:330-517 for `dim = 3` (same simplification as `build2`; the names are computed before the face nodes are
re-oriented, the halo faces after). -/
def build3 (sqrt : K → K) (trunc : K → Int) (size : Nat) (d : RankData K) : Tables K :=
  let vertex := at2 0 d.vertex
  let rows := fun i => (at2 0 d.nodeid i 0, at2 0 d.nodeid i 1, at2 0 d.nodeid i 2, at2 0 d.nodeid i 3)
  let D := domain3 sqrt vertex d.nodeid.length rows
  let nb := D.facenodes.length
  let fnode := fun f => col3 (D.fnode f)
  let nodename := fun s => trunc (vertex s 3)
  let m0 : Marks := ⟨fun f => (D.cellid f).2, faceNames3 (fun f => (D.cellid f).2) (at2 0 D.facenodes) nodename nb, nodename, fun _ => 0⟩
  let m := if size > 1 then markLoop3 d.halosext fnode (fun s => d.nodeloctoglob.getD s 0) nb m0 else m0
  let fam := families3 m.name nb
  { nbcells := d.nodeid.length, nbfaces := nb, center := D.center, volume := D.volume
    fnode := fun f => [fnode f 0, fnode f 1, fnode f 2]
    faceid := D.faceid
    cellid := fun f k => if k = 0 then (D.cellid f).1 else m.cellid1 f
    normal := D.normal, fcenter := D.fcenter, mesure := D.mesure, name := m.name, halofid := m.halofid
    centvol := at2 0 d.centvol
    innerfaces := fam.getD 0 [], halofaces := fam.getD 1 [], boundaryfaces := fam.getD 2 [], periodicboundaryfaces := fam.getD 3 []
    nbnodes := d.vertex.length, vertex := vertex, oldname := nodename, nodename := m.nodename, cnode := fun c => col4 (D.nodeid c) }

/-- ddm/meshpartitioning.py:237-249: the row of `centvol` of a halo cell in 2D. -/
def centvol2 (node : Nat → K × K × K × Nat) (nodeid : Nat → Nat → Nat) (c : Nat) : List K :=
  let s_1 := nodeid c 0; let s_2 := nodeid c 1; let s_3 := nodeid c 2
  let x_1 := (node s_1).1; let y_1 := (node s_1).2.1
  let x_2 := (node s_2).1; let y_2 := (node s_2).2.1
  let x_3 := (node s_3).1; let y_3 := (node s_3).2.1
  [1 / 3 * (x_1 + x_2 + x_3), 1 / 3 * (y_1 + y_2 + y_3), 0, (1 / 2) * |(x_1 - x_2) * (y_1 - y_3) - (x_1 - x_3) * (y_1 - y_2)|]

/-- ddm/meshpartitioning.py:251-274: the row of `centvol` of a halo cell in 3D. -/
def centvol3 (node : Nat → K × K × K × Nat) (nodeid : Nat → Nat → Nat) (c : Nat) : List K :=
  let s_1 := nodeid c 0; let s_2 := nodeid c 1; let s_3 := nodeid c 2; let s_4 := nodeid c 3
  let p : Nat → Vec K := fun s k => match k with | 0 => (node s).1 | 1 => (node s).2.1 | _ => (node s).2.2.1
  [1 / 4 * (p s_1 0 + p s_2 0 + p s_3 0 + p s_4 0), 1 / 4 * (p s_1 1 + p s_2 1 + p s_3 1 + p s_4 1),
   1 / 4 * (p s_1 2 + p s_2 2 + p s_3 2 + p s_4 2),
   1 / 6 * |detVec3d (fun k => p s_2 k - p s_1 k) (fun k => p s_3 k - p s_1 k) (fun k => p s_4 k - p s_1 k)|]

/-- ddm/meshpartitioning.py:158-177: what the serial writer has at hand (only `nodeid` and `nodes` are written). -/
def serialWrite (nodeid : Nat → Nat → Nat) (node : Nat → K × K × K × Nat) (nbnodes n d1 : Nat) : WriteData K :=
  { tc := [], nodeid := (List.range n).map (fun c => (List.range d1).map (nodeid c)), nodes := (List.range nbnodes).map node
    halosint := [], halosext := [], centvol := [], loctoglob := [], nodeloctoglob := [], neighsub := [], neighcount := [], nparts := [] }

/-- The arrays of a variable on one rank that the convective schemes read. -/
structure Fields (K : Type*) where
  w : Nat → K
  wx : Nat → K
  wy : Nat → K
  wz : Nat → K
  psi : Nat → K
  w_halo : List K
  wx_halo : List K
  wy_halo : List K
  wz_halo : List K
  psi_halo : List K
  ghost : Nat → K
  u_face : Nat → K
  v_face : Nat → K
  w_face : Nat → K

/-- The call `explicitscheme_convective_2d/3d(rez, ne.cell, ne.ghost, ne.halo, u.face, ..., domain.innerfaces, ..., order)`
(models/StreamerModel/core.py:91-100, models/tests/test_transport_2d_periodic.py:124-131). -/
def convArgs (D : Tables K) (F : Fields K) (order : Int) : Fvm.ConvArgs K :=
  { w_c := F.w, w_ghost := F.ghost
    w_halo := fun i => F.w_halo.getD i 0
    u_face := F.u_face, v_face := F.v_face, w_face := F.w_face
    w_x := F.wx, w_y := F.wy, w_z := F.wz
    wx_halo := fun i => F.wx_halo.getD i 0
    wy_halo := fun i => F.wy_halo.getD i 0
    wz_halo := fun i => F.wz_halo.getD i 0
    psi := F.psi
    psi_halo := fun i => F.psi_halo.getD i 0
    centerc := D.center, centerf := D.fcenter, centerh := D.centvol, cellidf := D.cellid, normalf := D.normal
    halofid := D.halofid, name := D.name, innerfaces := D.innerfaces, halofaces := D.halofaces
    boundaryfaces := D.boundaryfaces, periodicboundaryfaces := D.periodicboundaryfaces
    shift := fun _ _ => 0
    order := order }

end Verif.Dom
