import Verif.Basic.Arr
import Mathlib.Data.List.Sort
import Mathlib.Data.List.Dedup

/-!
# Model of the connectivity tables (`ddm/numba_ddm.py`, `ddm/pyccel_ddm.py`, `ddm/domain.py`)

A node table `nodeid : Nat → Nat → Nat` is the array `cells.nodeid`; `d1 = dim + 1` is the number of nodes and of
faces of a cell.  Python lists of lists are functions `Nat → List _`.
-/
namespace Verif.Conn

/-- `for i in range(n): for j in range(m): body` with loop-carried state. -/
def loop2 {σ : Type*} (n m : Nat) (body : σ → Nat → Nat → σ) (s : σ) : σ :=
  (List.range n).foldl (fun s i => (List.range m).foldl (fun s j => body s i j) s) s

/-- Python `l[k].append(x)` for a list of lists. -/
def appendAt {α : Type*} (l : Nat → List α) (k : Nat) (x : α) : Nat → List α :=
  setAt l k (l k ++ [x])

/-- ddm/numba_ddm.py:209-215: state `(tmp, longn)` after the first double loop of `create_node_cellid`. -/
def nodeCells (nodeid : Nat → Nat → Nat) (nbelements d1 : Nat) : (Nat → List Nat) × (Nat → Nat) :=
  loop2 nbelements d1 (fun s i j =>
    (appendAt s.1 (nodeid i j) i, setAt s.2 (nodeid i j) (s.2 (nodeid i j) + 1)))
    (fun _ => [], fun _ => 0)

/-- ddm/numba_ddm.py:220-225: the list `tmp2[i]` and `longc[i]` before sorting (row `i` only reads `tmp`, so the
outer loop is a map over the rows). -/
def cellNeighRaw (nodeid : Nat → Nat → Nat) (tmp : Nat → List Nat) (d1 i : Nat) : List Nat × Nat :=
  (List.range d1).foldl (fun s j =>
    (tmp (nodeid i j)).foldl (fun s c =>
      if ¬ (c ∈ s.1) ∧ c ≠ i then (s.1 ++ [c], s.2 + 1) else s) s) ([], 0)

/-- ddm/numba_ddm.py:226 `tmp2[i].sort()`. -/
def cellNeigh (nodeid : Nat → Nat → Nat) (tmp : Nat → List Nat) (d1 i : Nat) : List Nat :=
  (cellNeighRaw nodeid tmp d1 i).1.insertionSort (· ≤ ·)

/-- `int(max(long))` of an array of `n` nonnegative counts (`n = 0` raises in Python; 0 here). -/
def maxLen (n : Nat) (long : Nat → Nat) : Nat := (List.range n).foldl (fun m i => max m (long i)) 0

/-- ddm/numba_ddm.py:229-236 / 240-247: a row of `-1`s of length `m`, overwritten from the left by the list, then
the count appended.  (`row.set` beyond the end is an `IndexError` in Python; the theorems show it never happens.) -/
def padRow (m : Nat) (l : List Nat) (count : Nat) : List Int :=
  (List.range l.length).foldl (fun row j => row.set j ((l.getD j 0 : Nat) : Int)) (List.replicate m (-1))
    ++ [(count : Int)]

/-- ddm/numba_ddm.py:206-252 `create_node_cellid`: the tables `nodes.cellid` and `cells.cellnid`. -/
def createNodeCellid (nodeid : Nat → Nat → Nat) (nbelements nbnodes d1 : Nat) :
    List (List Int) × List (List Int) :=
  let tl := nodeCells nodeid nbelements d1
  let tmp := tl.1; let longn := tl.2
  let maxlongn := maxLen nbnodes longn
  let cellid := (List.range nbnodes).map (fun k => padRow maxlongn (tmp k) (longn k))
  let longc := fun i => (cellNeighRaw nodeid tmp d1 i).2
  let maxlongc := maxLen nbelements longc
  let cellnid := (List.range nbelements).map (fun i => padRow maxlongc (cellNeigh nodeid tmp d1 i) (longc i))
  (cellid, cellnid)

/-! ## Faces -/

/-- Arrays `faces` (`p_faces`), `cellf` and the counter `k`. -/
structure FaceState where
  faces : Nat → List Nat
  cellf : Nat → Nat → Nat
  k : Nat

/-- ddm/pyccel_ddm.py:221-232 `create_2dfaces`. -/
def create2dfaces (nodeidc : Nat → Nat → Nat) (nbelements : Nat) (s : FaceState) : FaceState :=
  (List.range nbelements).foldl (fun s i =>
    { faces := setAt (setAt (setAt s.faces s.k [nodeidc i 0, nodeidc i 1]) (s.k + 1) [nodeidc i 1, nodeidc i 2])
        (s.k + 2) [nodeidc i 2, nodeidc i 0]
      cellf := setAt s.cellf i (setAt (setAt (setAt (s.cellf i) 0 s.k) 1 (s.k + 1)) 2 (s.k + 2))
      k := s.k + 3 }) { s with k := 0 }

/-- ddm/pyccel_ddm.py:244-257 `create_3dfaces`. -/
def create3dfaces (nodeidc : Nat → Nat → Nat) (nbelements : Nat) (s : FaceState) : FaceState :=
  (List.range nbelements).foldl (fun s i =>
    { faces := setAt (setAt (setAt (setAt s.faces s.k [nodeidc i 0, nodeidc i 1, nodeidc i 2])
        (s.k + 1) [nodeidc i 2, nodeidc i 3, nodeidc i 0])
        (s.k + 2) [nodeidc i 0, nodeidc i 1, nodeidc i 3])
        (s.k + 3) [nodeidc i 3, nodeidc i 1, nodeidc i 2]
      cellf := setAt s.cellf i
        (setAt (setAt (setAt (setAt (s.cellf i) 0 s.k) 1 (s.k + 1)) 2 (s.k + 2)) 3 (s.k + 3))
      k := s.k + 4 }) { s with k := 0 }

/-- numpy `sort` of a row (any sorting algorithm gives the same row). -/
def sortRow (r : List Nat) : List Nat := r.insertionSort (· ≤ ·)

/-- Lexicographic order of rows used by numpy `unique(axis=0)`. -/
def rowLe : List Nat → List Nat → Bool
  | [], _ => true
  | _ :: _, [] => false
  | a :: l, b :: m => a < b || (a == b && rowLe l m)

/-- numpy `unique(rows, axis=0, return_inverse=True)`: the distinct rows in lexicographic order, and for each input
row its position among them. -/
def npUnique (rows : List (List Nat)) : List (List Nat) × (Nat → Nat) :=
  let u := (rows.insertionSort (fun a b => rowLe a b = true)).dedup
  (u, fun r => u.idxOf (rows.getD r []))

/-- ddm/pyccel_ddm.py:234-241 `create_cell_faceid`. -/
def createCellFaceid (nbelements d1 : Nat) (oldTonewIndex : Nat → Nat) (cellf faceid : Nat → Nat → Nat) :
    Nat → Nat → Nat :=
  loop2 nbelements d1 (fun faceid i j => setAt faceid i (setAt (faceid i) j (oldTonewIndex (cellf i j)))) faceid

/-- ddm/domain.py:384-401: face table `faces.nodeid` and `cells.faceid`; `dim = 3` uses the 3D routine, every other
value the 2D one (the Domain is used with 2 and 3 only). -/
def domainFaces (dim : Nat) (nodeidc : Nat → Nat → Nat) (nbelements : Nat) : List (List Nat) × (Nat → Nat → Nat) :=
  let z : FaceState := ⟨fun _ => List.replicate dim 0, fun _ _ => 0, 0⟩
  let s := if dim = 3 then create3dfaces nodeidc nbelements z else create2dfaces nodeidc nbelements z
  let p_faces := (List.range ((dim + 1) * nbelements)).map (fun r => sortRow (s.faces r))
  let u := npUnique p_faces
  (u.1, createCellFaceid nbelements (dim + 1) u.2 s.cellf (fun _ _ => 0))

/-! ## Cells of a face -/

/-- ddm/pyccel_ddm.py:215-221: body of the double loop of `create_cellsOfFace` (`cellid[f] = (c0, c1)`; the
self-assignment of line 220 is dropped). -/
def cellsOfFaceStep (faceid : Nat → Nat → Nat) (cellid : Nat → Int × Int) (i j : Nat) : Nat → Int × Int :=
  let f := faceid i j
  let cellid := if (cellid f).1 = -1 then setAt cellid f ((i : Int), (cellid f).2) else cellid
  if (cellid f).1 ≠ (i : Int) then setAt cellid f ((cellid f).1, (i : Int)) else cellid

/-- ddm/pyccel_ddm.py:208-221 `create_cellsOfFace`. -/
def createCellsOfFace (faceid : Nat → Nat → Nat) (nbelements d1 : Nat) (cellid : Nat → Int × Int) :
    Nat → Int × Int :=
  loop2 nbelements d1 (cellsOfFaceStep faceid) cellid

/-- ddm/domain.py:405: the initial table `-1*ones((nbfaces, 2))`. -/
def noCells : Nat → Int × Int := fun _ => (-1, -1)

/-- ddm/numba_ddm.py:100-108: entry appended for face `j` of cell `i` in `create_NeighborCellByFace`. -/
def neighByFace (faceid : Nat → Nat → Nat) (cellid : Nat → Int × Int) (i j : Nat) : Int :=
  let f := faceid i j
  if (cellid f).2 ≠ -1 then
    if (i : Int) = (cellid f).1 then (cellid f).2 else (cellid f).1
  else -1

/-- ddm/numba_ddm.py:94-111 `create_NeighborCellByFace`: the table `cells.cellfid`. -/
def createNeighborCellByFace (faceid : Nat → Nat → Nat) (cellid : Nat → Int × Int) (nbelements d1 : Nat) :
    Nat → List Int :=
  loop2 nbelements d1 (fun t i j => appendAt t i (neighByFace faceid cellid i j)) (fun _ => [])

/-! ## Opposite nodes -/

/-- ddm/numba_ddm.py:113-148 `create_2doppNodeOfFaces` (`d1 = 3`) and ddm/numba_ddm.py:151-203
`create_3doppNodeOfFaces` (`d1 = 4`).  The unrolled `if`s are the double loop "for each node, for each face". -/
def createOppNodeOfFaces (nodeidc faceidc : Nat → Nat → Nat) (nodeidf : Nat → List Nat) (nbelements nbfaces d1 : Nat) :
    Nat → List Int :=
  let opp := (List.range nbelements).foldl (fun opp i =>
    loop2 d1 d1 (fun (opp : Nat → List Int) m j =>
      if ¬ (nodeidc i m ∈ nodeidf (faceidc i j)) then appendAt opp (faceidc i j) (nodeidc i m : Int) else opp) opp)
    (fun _ => [])
  (List.range nbfaces).foldl (fun opp f => if (opp f).length < 2 then appendAt opp f (-1) else opp) opp

end Verif.Conn
