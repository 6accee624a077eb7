import Verif.Basic.Arr
import Verif.Model.Part

/-!
# Model of the periodic set-up (`ddm/numba_ddm.py:963-1108` `update_pediodic_info_2d`, `1111-1310` `update_pediodic_info_3d`)

`r` is the rounding `float32(.)`, an arbitrary function here.  Dictionary keys are triples of numbers (a `float32` and a `float64` key
are equal iff the numbers are).  `none` is a `KeyError`.
-/
namespace Verif.Periodic
variable {K : Type*}

abbrev Key (K : Type*) := K × K × K

/-- What the functions read. -/
structure PMesh (K : Type*) where
  /-- `faces._center` -/
  centerf : Nat → Nat → K
  /-- `faces._cellid[:,0]` -/
  cell0 : Nat → Nat
  /-- `cells._cellnid[c][:n]`, `n` its last entry -/
  cellnid : Nat → List Nat
  /-- `nodes._vertex` -/
  vertex : Nat → Nat → K
  /-- `nodes._cellid[i][:n]` -/
  ncells : Nat → List Nat

/-- What they write. -/
structure PState (K : Type*) where
  /-- `faces._cellid[:,1]` -/
  cell1 : Nat → Int
  /-- `cells._periodicfid` -/
  pfid : Nat → Int
  /-- `cells._periodicnid` (before `unique` and padding) -/
  pnid : Nat → List Nat
  shift : Nat → Nat → K
  /-- `nodes._periodicid` (before `unique` and padding) -/
  nper : Nat → List Int

/-- `tuple([float32(v[0]), float32(v[1]), float32(v[2])])`. -/
def keyAt (r : K → K) (v : Nat → K) : Key K := (r (v 0), r (v 1), r (v 2))

/-- The key with component `d` replaced. -/
def repl (d : Nat) (x : K) (k : Key K) : Key K := if d = 0 then (x, k.2.1, k.2.2) else if d = 1 then (k.1, x, k.2.2) else (k.1, k.2.1, x)

/-- Look-up; the last insertion wins. -/
def keyGet [DecidableEq K] {α : Type*} (d : List (Key K × α)) (k : Key K) : Option α := (d.reverse.find? (fun e => e.1 = k)).map (·.2)

/-- lines 977-980, 1030-1033: `dict[key of the face centre] = faces._cellid[i][0]`. -/
def faceDict (r : K → K) (m : PMesh K) (faces : List Nat) : List (Key K × Nat) := faces.map (fun i => (keyAt r (m.centerf i), m.cell0 i))

/-- lines 986-994 (and 996-1004, 1037-1054, ...): the loop over the faces of one side.  `look` is the searched key, `comp` the component
of the shift, `val` its value. -/
def facePass [DecidableEq K] (m : PMesh K) (dict : List (Key K × Nat)) (look : Nat → Key K) (comp : Nat) (val : K) (faces : List Nat)
    (s : PState K) : Option (PState K) :=
  faces.foldlM (fun s i =>
    match keyGet dict (look i) with
    | none => none
    | some c =>
      let nb := s.pnid (m.cell0 i) ++ m.cellnid c
      some { cell1 := setAt s.cell1 i (c : Int)
             pfid := setAt s.pfid (m.cell0 i) (c : Int)
             pnid := setAt s.pnid (m.cell0 i) nb
             shift := nb.foldl (fun sh cell => setAt sh cell (setAt (sh cell) comp val)) s.shift
             nper := s.nper }) s

/-- lines 1009-1014: `dict.setdefault(key of the node, []).append(cell)` for each cell of the node. -/
def nodeDict (r : K → K) (m : PMesh K) (nodes : List Nat) : List (Key K × Int) :=
  nodes.flatMap (fun i => (m.ncells i).map (fun (c : Nat) => (keyAt r (m.vertex i), (c : Int))))

/-- line 1061-1062 (2D, bottom nodes): the loop over `j` is missing; `j` keeps the value of the last iteration of the loop before,
`nodes._cellid[i][j]` is -1 behind the cells of the node. -/
def nodeDictStale (r : K → K) (m : PMesh K) (j : Nat) (nodes : List Nat) : List (Key K × Int) :=
  nodes.map (fun i => (keyAt r (m.vertex i), ((m.ncells i)[j]?.map (fun (c : Nat) => (c : Int))).getD (-1)))

/-- lines 1016-1023: `nodes._periodicid[i].extend(dict[key])`. -/
def nodePass [DecidableEq K] (dict : List (Key K × Int)) (look : Nat → Key K) (nodes : List Nat) (s : PState K) : Option (PState K) :=
  nodes.foldlM (fun s i =>
    match (dict.filter (fun e => e.1 = look i)).map (·.2) with
    | [] => none
    | l => some { s with nper := setAt s.nper i (s.nper i ++ l) }) s

/-- The two face loops of a direction: sides `A` and `B`, `lk x δ` the searched coordinate. -/
def facesDir [DecidableEq K] [Neg K] (r : K → K) (m : PMesh K) (d : Nat) (lk : K → K → K) (δ valA valB : K) (A B : List Nat)
    (s : PState K) : Option (PState K) := do
  let s ← facePass m (faceDict r m B) (fun i => repl d (lk (m.centerf i d) δ) (keyAt r (m.centerf i))) d valA A s
  facePass m (faceDict r m A) (fun i => repl d (lk (m.centerf i d) (-δ)) (keyAt r (m.centerf i))) d valB B s

/-- The two node loops of a direction, given the two dictionaries. -/
def nodesDir [DecidableEq K] [Neg K] (r : K → K) (m : PMesh K) (d : Nat) (lk : K → K → K) (δ : K) (dictA dictB : List (Key K × Int))
    (A B : List Nat) (s : PState K) : Option (PState K) := do
  let s ← nodePass dictB (fun i => repl d (lk (m.vertex i d) δ) (keyAt r (m.vertex i))) A s
  nodePass dictA (fun i => repl d (lk (m.vertex i d) (-δ)) (keyAt r (m.vertex i))) B s

/-- The lists of faces (or nodes) of the periodic sides. -/
structure Sides where
  inn : List Nat
  out : List Nat
  upper : List Nat
  bottom : List Nat
  front : List Nat
  back : List Nat

/-- lines 968-972: the arrays before the loops (`cell1` is what `create_cellsOfFace` left). -/
def pInit [Zero K] (cell1 : Nat → Int) : PState K := ⟨cell1, fun _ => 0, fun _ => [], fun _ _ => 0, fun _ => []⟩

/-- `j` after the loops over the upper nodes (line 1058-1060); simplification: 0 if there is none. -/
def staleJ (m : PMesh K) (upper : List Nat) : Nat := ((upper.getLast?.map m.ncells).getD []).length - 1

section
variable [DecidableEq K] [Field K]

/-- The x direction (lines 974-1023; 3D: 1122-1171).  `M` is `maxcoordx` (largest face centre), `S` is `shiftx` (largest vertex). -/
def dirX (r : K → K) (m : PMesh K) (M S : K) (F N : Sides) (s : PState K) : Option (PState K) := do
  let s ← facesDir r m 0 (fun x δ => r (x + δ)) M (-1 * S) S F.inn F.out s
  nodesDir r m 0 (fun x δ => r x + δ) M (nodeDict r m N.inn) (nodeDict r m N.out) N.inn N.out s

/-- The y direction of the 2D function (lines 1025-1071): upper faces look `maxcoordy` down, bottom faces up. -/
def dirY2 (r : K → K) (m : PMesh K) (M S : K) (F N : Sides) (s : PState K) : Option (PState K) := do
  let s ← facesDir r m 1 (fun x δ => r x + δ) (-M) (-1 * S) S F.upper F.bottom s
  nodesDir r m 1 (fun x δ => r x + δ) (-M) (nodeDict r m N.upper) (nodeDictStale r m (staleJ m N.upper) N.bottom) N.upper N.bottom s

/-- The y direction of the 3D function (lines 1175-1223). -/
def dirY3 (r : K → K) (m : PMesh K) (M S : K) (F N : Sides) (s : PState K) : Option (PState K) := do
  let s ← facesDir r m 1 (fun x δ => r x + δ) (-M) (-1 * S) S F.upper F.bottom s
  nodesDir r m 1 (fun x δ => r x + δ) (-M) (nodeDict r m N.upper) (nodeDict r m N.bottom) N.upper N.bottom s

/-- The z direction of the 3D function (lines 1226-1276). -/
def dirZ3 (r : K → K) (m : PMesh K) (M S : K) (F N : Sides) (s : PState K) : Option (PState K) := do
  let s ← facesDir r m 2 (fun x δ => r x + δ) (-M) (-1 * S) S F.front F.back s
  nodesDir r m 2 (fun x δ => r x + δ) (-M) (nodeDict r m N.front) (nodeDict r m N.back) N.front N.back s

/-- lines 1073-1108: `unique` of the lists; the visible part of `nodes._periodicid[i]` is the first `n` entries of the sorted list, `n`
the number of entries different from -1; `periodicfid` 0 becomes -1. -/
def visible (l : List Int) : List Int :=
  let u := (l.insertionSort (· ≤ ·)).dedup
  u.take (u.filter (fun x => x ≠ -1)).length

def finish (s : PState K) : PState K :=
  { s with pfid := fun c => if s.pfid c = 0 then -1 else s.pfid c, nper := fun i => visible (s.nper i),
           pnid := fun c => Part.npUniq (s.pnid c) }

/-- `update_pediodic_info_2d`; `M d`, `S d` are the largest face centre / vertex in direction `d`. -/
def update2d (r : K → K) (m : PMesh K) (M S : Nat → K) (F N : Sides) (cell1 : Nat → Int) : Option (PState K) := do
  let s ← dirX r m (M 0) (S 0) F N (pInit cell1)
  let s ← dirY2 r m (M 1) (S 1) F N s
  return finish s

/-- `update_pediodic_info_3d`. -/
def update3d (r : K → K) (m : PMesh K) (M S : Nat → K) (F N : Sides) (cell1 : Nat → Int) : Option (PState K) := do
  let s ← dirX r m (M 0) (S 0) F N (pInit cell1)
  let s ← dirY3 r m (M 1) (S 1) F N s
  let s ← dirZ3 r m (M 2) (S 2) F N s
  return finish s

end
end Verif.Periodic
