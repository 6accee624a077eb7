import Verif.Model.Interp

/-!
# Model of the linear system (`ast/pyccel_functions.py:868-1852`, `ast/linearsystem.py`)

A triplet is `(row, col, value)`.  The kernels write triplet number `cmpt` into `irn_loc[cmpt], jcn_loc[cmpt], a_loc[cmpt]` and then
increment `cmpt`, so the written triplets are modelled as the list of triplets in the order of writing.  `search_element` (868-874) is
list membership.
-/
namespace Verif.LinSys
open Verif Verif.Geo Verif.Interp

variable {K : Type*} [Field K] [LinearOrder K]

/-- A row of `ghostcenter[node]` / `haloghostcenter[node]`: coordinates, cell (local cell, resp. halo cell), last column. -/
structure GhostRow (K : Type*) where
  point : Vec K
  cell : Nat
  last : Int

/-- The mesh data read by the assembly. -/
structure Mesh (K : Type*) where
  /-- node geometry and stencils -/
  T : NodeTabs K
  /-- face geometry -/
  F : FaceTabs K
  ghostrows : Nat → List (GhostRow K)
  haloghostrows : Nat → List (GhostRow K)
  /-- `nodes.oldname` -/
  oldnamen : Nat → Int
  volume : Nat → K
  loctoglob : Nat → Nat
  /-- `halosext[h][0]`, the global number of halo cell `h` -/
  haloext : Nat → Nat

/-- The face lists of `LinearSystem`. -/
structure Lists where
  /-- `matrixinnerfaces`: inner faces and one face of each periodic pair -/
  inner : List Nat
  halo : List Nat
  dirichlet : List Nat

/-- A triplet. -/
abbrev Triplet (K : Type*) := Nat × Nat × K

/-! ## 2D matrix -/

/-- The weight of a point at node `nod` (2D). -/
def wgt2 (M : Mesh K) (nod : Nat) (p : Vec K) : K := alpha2 (variables2 M.T nod) (M.T.vertexn nod) p

/-- ast/pyccel_functions.py:969-976: the shifted centre of a periodic neighbour.  (If the label of the node is none of 11, 22, 33, 44
the code keeps the previous content of `center`; here the unshifted centre is used.) -/
def periodicPoint2 (M : Mesh K) (nod c : Nat) : Vec K :=
  if M.T.oldname nod = 33 ∨ M.T.oldname nod = 44 then shiftY (M.T.centerc c) (M.T.shift c)
  else if M.T.oldname nod = 11 ∨ M.T.oldname nod = 22 then shiftX (M.T.centerc c) (M.T.shift c)
  else M.T.centerc c

/-- ast/pyccel_functions.py:911-1009, one node of a face of `matrixinnerfaces`; `par` is `parameters[cmptparam]`. -/
def innerNode2 (M : Mesh K) (i nod : Nat) (par : K) : List (Triplet K) :=
  let c_left := M.F.cellid0 i
  let c_right := M.F.cellid1 i
  let body := fun (p : Vec K) (col : Nat) =>
    [(M.loctoglob c_left, col, wgt2 M nod p / M.volume c_left * par), (M.loctoglob c_right, col, -1 * wgt2 M nod p / M.volume c_right * par)]
  (M.T.cellidn nod).flatMap (fun c => body (M.T.centerc c) (M.loctoglob c))
    ++ (M.ghostrows nod).flatMap (fun g => if g.last ≠ -1 then body g.point (M.loctoglob g.cell) else [])
    ++ (M.haloghostrows nod).flatMap (fun g => if g.last ≠ -1 then body g.point (M.haloext g.cell) else [])
    ++ (M.T.periodicn nod).flatMap (fun c => body (periodicPoint2 M nod c) (M.loctoglob c))
    ++ (M.T.haloidn nod).flatMap (fun h => body (M.T.centerh h) (M.haloext h))

/-- ast/pyccel_functions.py:891-1029: the triplets of a face of `matrixinnerfaces`.  The loop over the two nodes carries `cmptparam`,
which starts at 0 and is *set to 1* (`cmptparam =+1`, line 1010) after each node. -/
def inner2 (M : Mesh K) (BCdirichlet : List Int) (i : Nat) : List (Triplet K) :=
  let d := faceGradientInfo2 M.F i
  let gl := M.loctoglob (M.F.cellid0 i)
  let gr := M.loctoglob (M.F.cellid1 i)
  let vl := M.volume (M.F.cellid0 i)
  let vr := M.volume (M.F.cellid1 i)
  let parameters : Nat → K := fun k => if k = 0 then d.param4 else d.param2
  let nodes := [M.F.nodeid i 0, M.F.nodeid i 1].foldl (fun (s : Nat × List (Triplet K)) nod =>
    (1, s.2 ++ (if M.oldnamen nod ∈ BCdirichlet then [] else innerNode2 M i nod (parameters s.1)))) (0, [])
  [(gl, gl, d.param1 / vl)] ++ nodes.2 ++ [(gl, gr, d.param3 / vl), (gr, gl, -1 * d.param1 / vr), (gr, gr, -1 * d.param3 / vr)]

/-- ast/pyccel_functions.py:1056-1105, one node of a halo face: no loop over periodic neighbours. -/
def haloNode2 (M : Mesh K) (i nod : Nat) (par : K) : List (Triplet K) :=
  let c_left := M.F.cellid0 i
  let body := fun (p : Vec K) (col : Nat) => (M.loctoglob c_left, col, wgt2 M nod p / M.volume c_left * par)
  (M.T.cellidn nod).map (fun c => body (M.T.centerc c) (M.loctoglob c))
    ++ (M.ghostrows nod).flatMap (fun g => if g.last ≠ -1 then [body g.point (M.loctoglob g.cell)] else [])
    ++ (M.haloghostrows nod).flatMap (fun g => if g.last ≠ -1 then [body g.point (M.haloext g.cell)] else [])
    ++ (M.T.haloidn nod).map (fun h => body (M.T.centerh h) (M.haloext h))

/-- ast/pyccel_functions.py:1031-1106: the triplets of a halo face (`cmptparam += 1`). -/
def halo2 (M : Mesh K) (BCdirichlet : List Int) (i : Nat) : List (Triplet K) :=
  let d := faceGradientInfo2 M.F i
  let gl := M.loctoglob (M.F.cellid0 i)
  let gr := M.haloext (M.F.halofid i)
  let vl := M.volume (M.F.cellid0 i)
  let parameters : Nat → K := fun k => if k = 0 then d.param4 else d.param2
  let nodes := [M.F.nodeid i 0, M.F.nodeid i 1].foldl (fun (s : Nat × List (Triplet K)) nod =>
    (s.1 + 1, s.2 ++ (if M.oldnamen nod ∈ BCdirichlet then [] else haloNode2 M i nod (parameters s.1)))) (0, [])
  [(gl, gl, d.param1 / vl), (gl, gr, d.param3 / vl)] ++ nodes.2

/-- ast/pyccel_functions.py:1108-1122: the triplets of a Dirichlet face. -/
def dirichlet2 (M : Mesh K) (i : Nat) : List (Triplet K) :=
  let d := faceGradientInfo2 M.F i
  let gl := M.loctoglob (M.F.cellid0 i)
  let vl := M.volume (M.F.cellid0 i)
  [(gl, gl, d.param1 / vl), (gl, gl, -1 * d.param3 / vl)]

/-- ast/pyccel_functions.py:876-1122 `get_triplet_2d`. -/
def getTriplet2 (M : Mesh K) (BCdirichlet : List Int) (L : Lists) : List (Triplet K) :=
  L.inner.flatMap (inner2 M BCdirichlet) ++ L.halo.flatMap (halo2 M BCdirichlet) ++ L.dirichlet.flatMap (dirichlet2 M)

/-- Number of rows in use (`[-1] != -1`). -/
def nRows (g : List (GhostRow K)) : Nat := g.foldl (fun n r => if r.last ≠ -1 then n + 1 else n) 0

/-- ast/pyccel_functions.py:1124-1195 `compute_2dmatrix_size`. -/
def matrixSize2 (M : Mesh K) (BCdirichlet : List Int) (L : Lists) : Nat :=
  let cmpt := L.inner.foldl (fun cmpt i =>
    let cmpt := cmpt + 1
    let cmpt := [M.F.nodeid i 0, M.F.nodeid i 1].foldl (fun cmpt nod =>
      if M.oldnamen nod ∈ BCdirichlet then cmpt else
        let cmpt := cmpt + 2 * (M.T.cellidn nod).length
        let cmpt := cmpt + 2 * nRows (M.ghostrows nod)
        let cmpt := cmpt + 2 * nRows (M.haloghostrows nod)
        let cmpt := cmpt + 2 * (M.T.periodicn nod).length
        cmpt + 2 * (M.T.haloidn nod).length) cmpt
    cmpt + 1 + 1 + 1) 0
  let cmpt := L.halo.foldl (fun cmpt i =>
    let cmpt := cmpt + 1 + 1 + 1
    [M.F.nodeid i 0, M.F.nodeid i 1].foldl (fun cmpt nod =>
      if M.oldnamen nod ∈ BCdirichlet then cmpt else
        let cmpt := cmpt + (M.T.cellidn nod).length
        let cmpt := cmpt + nRows (M.ghostrows nod)
        let cmpt := cmpt + nRows (M.haloghostrows nod)
        cmpt + (M.T.haloidn nod).length) cmpt) cmpt
  L.dirichlet.foldl (fun cmpt _ => cmpt + 1 + 1) cmpt

/-! ## 2D right-hand sides -/

/-- ast/pyccel_functions.py:1568-1630 `get_rhs_loc_2d`. -/
def getRhsLoc2 (M : Mesh K) (BCdirichlet : List Int) (L : Lists) (Pbordnode Pbordface : Nat → K) (rhs : Nat → K) : Nat → K :=
  let rhs := L.inner.foldl (fun rhs i =>
    let d := faceGradientInfo2 M.F i
    let c_right := M.F.cellid1 i
    let c_left := M.F.cellid0 i
    let i_1 := M.F.nodeid i 0
    let i_2 := M.F.nodeid i 1
    let rhs := if M.oldnamen i_1 ∈ BCdirichlet then
        let rhs := addAt rhs c_left (-1 * Pbordnode i_1 * d.param4 / M.volume c_left)
        addAt rhs c_right (Pbordnode i_1 * d.param4 / M.volume c_right) else rhs
    if M.oldnamen i_2 ∈ BCdirichlet then
        let rhs := addAt rhs c_left (-1 * Pbordnode i_2 * d.param2 / M.volume c_left)
        addAt rhs c_right (Pbordnode i_2 * d.param2 / M.volume c_right) else rhs) rhs
  let rhs := L.halo.foldl (fun rhs i =>
    let d := faceGradientInfo2 M.F i
    let c_left := M.F.cellid0 i
    let i_1 := M.F.nodeid i 0
    let i_2 := M.F.nodeid i 1
    let rhs := if M.oldnamen i_1 ∈ BCdirichlet then addAt rhs c_left (-1 * Pbordnode i_1 * d.param4 / M.volume c_left) else rhs
    if M.oldnamen i_2 ∈ BCdirichlet then addAt rhs c_left (-1 * Pbordnode i_2 * d.param2 / M.volume c_left) else rhs) rhs
  L.dirichlet.foldl (fun rhs i =>
    let d := faceGradientInfo2 M.F i
    let c_left := M.F.cellid0 i
    let i_1 := M.F.nodeid i 0
    let i_2 := M.F.nodeid i 1
    let rhs := if firstGhost (M.T.ghosts i_1) ≠ -1 then addAt rhs c_left (-1 * Pbordnode i_1 * d.param4 / M.volume c_left) else rhs
    let rhs := if firstGhost (M.T.ghosts i_2) ≠ -1 then addAt rhs c_left (-1 * Pbordnode i_2 * d.param2 / M.volume c_left) else rhs
    addAt rhs c_left (-2 * d.param3 / M.volume c_left * Pbordface i)) rhs

/-- ast/pyccel_functions.py:1633-1700 `get_rhs_glob_2d`. -/
def getRhsGlob2 (M : Mesh K) (BCdirichlet : List Int) (L : Lists) (Pbordnode Pbordface : Nat → K) (rhs : Nat → K) : Nat → K :=
  let rhs := L.inner.foldl (fun rhs i =>
    let d := faceGradientInfo2 M.F i
    let c_left := M.F.cellid0 i
    let c_leftglob := M.loctoglob c_left
    let i_1 := M.F.nodeid i 0
    let i_2 := M.F.nodeid i 1
    let c_right := M.F.cellid1 i
    let c_rightglob := M.loctoglob c_right
    let rhs := if M.oldnamen i_1 ∈ BCdirichlet then
        let rhs := addAt rhs c_leftglob (-1 * Pbordnode i_1 * d.param4 / M.volume c_left)
        addAt rhs c_rightglob (Pbordnode i_1 * d.param4 / M.volume c_right) else rhs
    if M.oldnamen i_2 ∈ BCdirichlet then
        let rhs := addAt rhs c_leftglob (-1 * Pbordnode i_2 * d.param2 / M.volume c_left)
        addAt rhs c_rightglob (Pbordnode i_2 * d.param2 / M.volume c_right) else rhs) rhs
  let rhs := L.halo.foldl (fun rhs i =>
    let d := faceGradientInfo2 M.F i
    let c_left := M.F.cellid0 i
    let c_leftglob := M.loctoglob c_left
    let i_1 := M.F.nodeid i 0
    let i_2 := M.F.nodeid i 1
    let rhs := if M.oldnamen i_1 ∈ BCdirichlet then addAt rhs c_leftglob (-1 * Pbordnode i_1 * d.param4 / M.volume c_left) else rhs
    if M.oldnamen i_2 ∈ BCdirichlet then addAt rhs c_leftglob (-1 * Pbordnode i_2 * d.param2 / M.volume c_left) else rhs) rhs
  L.dirichlet.foldl (fun rhs i =>
    let d := faceGradientInfo2 M.F i
    let c_left := M.F.cellid0 i
    let c_leftglob := M.loctoglob c_left
    let i_1 := M.F.nodeid i 0
    let i_2 := M.F.nodeid i 1
    let rhs := if firstGhost (M.T.ghosts i_1) ≠ -1 then addAt rhs c_leftglob (-1 * Pbordnode i_1 * d.param4 / M.volume c_left) else rhs
    let rhs := if firstGhost (M.T.ghosts i_2) ≠ -1 then addAt rhs c_leftglob (-1 * Pbordnode i_2 * d.param2 / M.volume c_left) else rhs
    addAt rhs c_leftglob (-2 * d.param3 / M.volume c_left * Pbordface i)) rhs

/-! ## 3D matrix -/

/-- What the local name `center` of `get_triplet_3d` refers to: a row of `centerc`, a row of `centerh`, or something else (unbound, or a
row of the ghost arrays; the latter happens only after the ghost loops, and a node has at least one cell, so the first loop rebinds it
before the next periodic loop). -/
inductive CRef | cell (c : Nat) | halo (h : Nat) | other
deriving DecidableEq

/-- State of `get_triplet_3d`: the arrays `centerc` and `centerh` (of which `center` is a *view*), the binding of `center`, and the
triplets written so far. -/
structure St3 (K : Type*) where
  centerc : Nat → Vec K
  centerh : Nat → Vec K
  ref : CRef
  out : List (Triplet K)

/-- `center[k] = x`: writes through the view. -/
def St3.write (s : St3 K) (k : Nat) (x : K) : St3 K :=
  match s.ref with
  | .cell c => { s with centerc := setAt s.centerc c (setAt (s.centerc c) k x) }
  | .halo h => { s with centerh := setAt s.centerh h (setAt (s.centerh h) k x) }
  | .other => s

/-- Reading `center`. -/
def St3.center (s : St3 K) : Vec K :=
  match s.ref with
  | .cell c => s.centerc c
  | .halo h => s.centerh h
  | .other => fun _ => 0

/-- The weight of a point at node `nod` (3D); `lambda_*`, `number`, `R_*` were computed when the domain was created. -/
def wgt3 (M : Mesh K) (nod : Nat) (p : Vec K) : K := alpha3 (variables3 M.T nod) (M.T.vertexn nod) p

/-- The two triplets written for a stencil point of an inner face. -/
def pair3 (M : Mesh K) (i nod : Nat) (par : K) (p : Vec K) (col : Nat) : List (Triplet K) :=
  [(M.loctoglob (M.F.cellid0 i), col, wgt3 M nod p / M.volume (M.F.cellid0 i) * par),
   (M.loctoglob (M.F.cellid1 i), col, -1 * wgt3 M nod p / M.volume (M.F.cellid1 i) * par)]

/-- The triplet written for a stencil point of a halo face. -/
def single3 (M : Mesh K) (i nod : Nat) (par : K) (p : Vec K) (col : Nat) : List (Triplet K) :=
  [(M.loctoglob (M.F.cellid0 i), col, wgt3 M nod p / M.volume (M.F.cellid0 i) * par)]

/-- ast/pyccel_functions.py:1359-1376: the assignments to `center` for a periodic neighbour `c` of node `nod`. -/
def periodicWrite3 (M : Mesh K) (nod c : Nat) (s : St3 K) : St3 K :=
  let s := if M.T.oldname nod = 11 ∨ M.T.oldname nod = 22 then
      let s := s.write 0 (s.centerc c 0 + M.T.shift c 0)
      let s := s.write 1 (s.centerc c 1)
      s.write 2 (s.centerc c 2) else s
  let s := if M.T.oldname nod = 33 ∨ M.T.oldname nod = 44 then
      let s := s.write 0 (s.centerc c 0)
      let s := s.write 1 (s.centerc c 1 + M.T.shift c 1)
      s.write 2 (s.centerc c 2) else s
  if M.T.oldname nod = 55 ∨ M.T.oldname nod = 66 then
      let s := s.write 0 (s.centerc c 0)
      let s := s.write 1 (s.centerc c 1)
      s.write 2 (s.centerc c 2 + M.T.shift c 2) else s

/-- The loops over the cells and halos of a node (`center = centerc[..]`, `center = centerh[..]`), for `emit = pair3` or `single3`. -/
def cellHaloLoops3 (M : Mesh K) (emit : Vec K → Nat → List (Triplet K)) (nod : Nat) (s : St3 K) : St3 K :=
  let s := (M.T.cellidn nod).foldl (fun s c =>
    let s := { s with ref := .cell c }
    { s with out := s.out ++ emit s.center (M.loctoglob c) }) s
  (M.T.haloidn nod).foldl (fun s h =>
    let s := { s with ref := .halo h }
    { s with out := s.out ++ emit s.center (M.haloext h) }) s

/-- The loops over the ghosts and halo-ghosts of a node. -/
def ghostLoops3 (M : Mesh K) (emit : Vec K → Nat → List (Triplet K)) (nod : Nat) (s : St3 K) : St3 K :=
  let s := (M.ghostrows nod).foldl (fun s g => if g.last ≠ -1 then
    { s with ref := .other, out := s.out ++ emit g.point (M.loctoglob g.cell) } else s) s
  (M.haloghostrows nod).foldl (fun s g => if g.last ≠ -1 then
    { s with ref := .other, out := s.out ++ emit g.point (M.haloext g.cell) } else s) s

/-- ast/pyccel_functions.py:1321-1428: one node of an inner face. -/
def innerNode3 (M : Mesh K) (i nod : Nat) (par : K) (s : St3 K) : St3 K :=
  let s := cellHaloLoops3 M (pair3 M i nod par) nod s
  let s := (M.T.periodicn nod).foldl (fun s c =>
    let s := periodicWrite3 M nod c s
    { s with out := s.out ++ pair3 M i nod par s.center (M.loctoglob c) }) s
  ghostLoops3 M (pair3 M i nod par) nod s

/-- ast/pyccel_functions.py:1464-1520: one node of a halo face. -/
def haloNode3 (M : Mesh K) (i nod : Nat) (par : K) (s : St3 K) : St3 K :=
  ghostLoops3 M (single3 M i nod par) nod (cellHaloLoops3 M (single3 M i nod par) nod s)

/-- `parameters[k]` in 3D. -/
def parameters3 (M : Mesh K) (i k : Nat) : K :=
  let d := faceGradientInfo3 M.F i
  if k = 0 then d.param1 else if k = 1 then d.param2 else if k = 2 then -1 * d.param1 else -1 * d.param2

/-- `nodes` in 3D: the three nodes of the face, the last one twice. -/
def nodes3 (M : Mesh K) (i : Nat) : List Nat := [M.F.nodeid i 0, M.F.nodeid i 1, M.F.nodeid i 2, M.F.nodeid i 2]

/-- ast/pyccel_functions.py:1300-1447: a face of `matrixinnerfaces` in 3D. -/
def inner3 (M : Mesh K) (BCdirichlet : List Int) (s : St3 K) (i : Nat) : St3 K :=
  let d := faceGradientInfo3 M.F i
  let gl := M.loctoglob (M.F.cellid0 i)
  let gr := M.loctoglob (M.F.cellid1 i)
  let vl := M.volume (M.F.cellid0 i)
  let vr := M.volume (M.F.cellid1 i)
  let s := { s with out := s.out ++ [(gl, gl, -1 * d.param3 / vl)] }
  let s := ((nodes3 M i).foldl (fun (cs : Nat × St3 K) nod =>
    (cs.1 + 1, if M.oldnamen nod ∈ BCdirichlet then cs.2 else innerNode3 M i nod (parameters3 M i cs.1) cs.2)) (0, s)).2
  { s with out := s.out ++ [(gl, gr, d.param3 / vl), (gr, gl, d.param3 / vr), (gr, gr, -1 * d.param3 / vr)] }

/-- ast/pyccel_functions.py:1449-1532: a halo face in 3D. -/
def halo3 (M : Mesh K) (BCdirichlet : List Int) (s : St3 K) (i : Nat) : St3 K :=
  let d := faceGradientInfo3 M.F i
  let gl := M.loctoglob (M.F.cellid0 i)
  let gr := M.haloext (M.F.halofid i)
  let vl := M.volume (M.F.cellid0 i)
  let s := ((nodes3 M i).foldl (fun (cs : Nat × St3 K) nod =>
    (cs.1 + 1, if M.oldnamen nod ∈ BCdirichlet then cs.2 else haloNode3 M i nod (parameters3 M i cs.1) cs.2)) (0, s)).2
  { s with out := s.out ++ [(gl, gl, -1 * d.param3 / vl), (gl, gr, d.param3 / vl)] }

/-- ast/pyccel_functions.py:1534-1553: a Dirichlet face in 3D. -/
def dirichlet3 (M : Mesh K) (s : St3 K) (i : Nat) : St3 K :=
  let d := faceGradientInfo3 M.F i
  let gl := M.loctoglob (M.F.cellid0 i)
  let vl := M.volume (M.F.cellid0 i)
  { s with out := s.out ++ [(gl, gl, -1 * d.param3 / vl), (gl, gl, -1 * d.param3 / vl)] }

/-- ast/pyccel_functions.py:1283-1553 `get_triplet_3d`; the result contains the triplets and the final contents of the mesh arrays
`cells.center` and `halos.centvol`, which were passed by reference. -/
def getTriplet3 (M : Mesh K) (BCdirichlet : List Int) (L : Lists) : St3 K :=
  let s : St3 K := ⟨M.T.centerc, M.T.centerh, .other, []⟩
  let s := L.inner.foldl (inner3 M BCdirichlet) s
  let s := L.halo.foldl (halo3 M BCdirichlet) s
  L.dirichlet.foldl (dirichlet3 M) s

/-- ast/pyccel_functions.py:1201-1281 `compute_3dmatrix_size`. -/
def matrixSize3 (M : Mesh K) (BCdirichlet : List Int) (L : Lists) : Nat :=
  let cmpt := L.inner.foldl (fun cmpt i =>
    let cmpt := cmpt + 1
    let cmpt := (nodes3 M i).foldl (fun cmpt nod =>
      if M.oldnamen nod ∈ BCdirichlet then cmpt else
        let cmpt := cmpt + 2 * (M.T.cellidn nod).length
        let cmpt := cmpt + 2 * nRows (M.ghostrows nod)
        let cmpt := cmpt + 2 * nRows (M.haloghostrows nod)
        let cmpt := cmpt + 2 * (M.T.periodicn nod).length
        cmpt + 2 * (M.T.haloidn nod).length) cmpt
    cmpt + 1 + 1 + 1) 0
  let cmpt := L.halo.foldl (fun cmpt i =>
    let cmpt := cmpt + 1 + 1
    (nodes3 M i).foldl (fun cmpt nod =>
      if M.oldnamen nod ∈ BCdirichlet then cmpt else
        let cmpt := cmpt + (M.T.cellidn nod).length
        let cmpt := cmpt + nRows (M.ghostrows nod)
        let cmpt := cmpt + nRows (M.haloghostrows nod)
        cmpt + (M.T.haloidn nod).length) cmpt) cmpt
  L.dirichlet.foldl (fun cmpt _ => cmpt + 1 + 1) cmpt

/-! ## 3D right-hand sides -/

/-- ast/pyccel_functions.py:1703-1775 `get_rhs_loc_3d`. -/
def getRhsLoc3 (M : Mesh K) (BCdirichlet : List Int) (L : Lists) (Pbordnode Pbordface : Nat → K) (rhs : Nat → K) : Nat → K :=
  let rhs := L.inner.foldl (fun rhs i =>
    let c_left := M.F.cellid0 i
    let c_right := M.F.cellid1 i
    ((nodes3 M i).foldl (fun (cs : Nat × (Nat → K)) nod =>
      (cs.1 + 1, if M.oldnamen nod ∈ BCdirichlet then
          let rhs := addAt cs.2 c_left (-1 * Pbordnode nod * parameters3 M i cs.1 / M.volume c_left)
          addAt rhs c_right (Pbordnode nod * parameters3 M i cs.1 / M.volume c_right)
        else cs.2)) (0, rhs)).2) rhs
  let rhs := L.halo.foldl (fun rhs i =>
    let c_left := M.F.cellid0 i
    ((nodes3 M i).foldl (fun (cs : Nat × (Nat → K)) nod =>
      (cs.1 + 1, if M.oldnamen nod ∈ BCdirichlet then addAt cs.2 c_left (-1 * Pbordnode nod * parameters3 M i cs.1 / M.volume c_left)
        else cs.2)) (0, rhs)).2) rhs
  L.dirichlet.foldl (fun rhs i =>
    let d := faceGradientInfo3 M.F i
    let c_left := M.F.cellid0 i
    let rhs := ((nodes3 M i).foldl (fun (cs : Nat × (Nat → K)) nod =>
      (cs.1 + 1, if firstGhost (M.T.ghosts nod) ≠ -1 then addAt cs.2 c_left (-1 * Pbordnode nod * parameters3 M i cs.1 / M.volume c_left)
        else cs.2)) (0, rhs)).2
    addAt rhs c_left (-2 * d.param3 / M.volume c_left * Pbordface i)) rhs

/-- ast/pyccel_functions.py:1777-1852 `get_rhs_glob_3d`. -/
def getRhsGlob3 (M : Mesh K) (BCdirichlet : List Int) (L : Lists) (Pbordnode Pbordface : Nat → K) (rhs : Nat → K) : Nat → K :=
  let rhs := L.inner.foldl (fun rhs i =>
    let c_left := M.F.cellid0 i
    let c_leftglob := M.loctoglob c_left
    let c_right := M.F.cellid1 i
    let c_rightglob := M.loctoglob c_right
    ((nodes3 M i).foldl (fun (cs : Nat × (Nat → K)) nod =>
      (cs.1 + 1, if M.oldnamen nod ∈ BCdirichlet then
          let rhs := addAt cs.2 c_leftglob (-1 * Pbordnode nod * parameters3 M i cs.1 / M.volume c_left)
          addAt rhs c_rightglob (Pbordnode nod * parameters3 M i cs.1 / M.volume c_right)
        else cs.2)) (0, rhs)).2) rhs
  let rhs := L.halo.foldl (fun rhs i =>
    let c_left := M.F.cellid0 i
    let c_leftglob := M.loctoglob c_left
    ((nodes3 M i).foldl (fun (cs : Nat × (Nat → K)) nod =>
      (cs.1 + 1, if M.oldnamen nod ∈ BCdirichlet then addAt cs.2 c_leftglob (-1 * Pbordnode nod * parameters3 M i cs.1 / M.volume c_left)
        else cs.2)) (0, rhs)).2) rhs
  L.dirichlet.foldl (fun rhs i =>
    let d := faceGradientInfo3 M.F i
    let c_left := M.F.cellid0 i
    let c_leftglob := M.loctoglob c_left
    let rhs := ((nodes3 M i).foldl (fun (cs : Nat × (Nat → K)) nod =>
      (cs.1 + 1, if firstGhost (M.T.ghosts nod) ≠ -1 then addAt cs.2 c_leftglob (-1 * Pbordnode nod * parameters3 M i cs.1 / M.volume c_left)
        else cs.2)) (0, rhs)).2
    addAt rhs c_leftglob (-2 * d.param3 / M.volume c_left * Pbordface i)) rhs

end Verif.LinSys
