import Verif.Model.Conn

/-!
# Model of mesh partitioning (`ddm/numba_ddm.py:13-55`, `ddm/meshpartitioning.py:184-240`)

METIS is not modelled: `epart` (part of each cell) and `npart0` (part of each node) are arbitrary inputs.
-/
namespace Verif.Part
open Verif.Conn

/-- Python `if x not in l: l.append(x)`. -/
def insertNew (l : List Nat) (x : Nat) : List Nat := if ¬ (x ∈ l) then l ++ [x] else l

/-- State of the first loop of `create_npart_cpart`. -/
structure S1 where
  npart : Nat → List Nat
  nodePart : Nat → List Nat
  cellPart : Nat → List Nat

/-- ddm/numba_ddm.py:17-32: `npart`, `node_part`, `cell_part`. -/
def loop1 (nodeid : Nat → Nat → Nat) (npart0 epart : Nat → Nat) (n d1 : Nat) : S1 :=
  (List.range n).foldl (fun s i =>
    let s := (List.range d1).foldl (fun (s : S1) j =>
      let k := nodeid i j
      { npart := setAt s.npart k (insertNew (s.npart k) (epart i))
        nodePart := appendAt s.nodePart (epart i) k
        cellPart := s.cellPart }) s
    { s with cellPart := appendAt s.cellPart (epart i) i })
    ⟨fun k => [npart0 k], fun _ => [], fun _ => []⟩

/-- ddm/numba_ddm.py:18, 35-39: `cpart[i]`. -/
def cpart (nodeid : Nat → Nat → Nat) (epart : Nat → Nat) (npart : Nat → List Nat) (d1 i : Nat) : List Nat :=
  (List.range d1).foldl (fun c j => (npart (nodeid i j)).foldl insertNew c) [epart i]

/-- ddm/numba_ddm.py:41-44: `neighsub` before `np.unique`. -/
def neighRaw (npart : Nat → List Nat) (nbnodes : Nat) : Nat → List Nat :=
  (List.range nbnodes).foldl (fun ns i =>
    if (npart i).length > 1 then
      (npart i).foldl (fun ns q => setAt ns q (ns q ++ npart i)) ns
    else ns) (fun _ => [])

/-- ddm/numba_ddm.py:46-52: `halo_cellid[i]` before `np.unique` (`a` starts at 0 for each cell). -/
def haloRaw (nodeid : Nat → Nat → Nat) (npart : Nat → List Nat) (cellPart : List Nat) (d1 : Nat) : List Nat :=
  cellPart.foldl (fun l j =>
    ((List.range d1).foldl (fun (s : Nat × List Nat) k =>
      let a := s.1 + (npart (nodeid j k)).length
      if a > d1 then (a, s.2 ++ [j]) else (a, s.2)) (0, l)).2) []

/-- numpy `unique` of a list of integers. -/
def npUniq (l : List Nat) : List Nat := (l.insertionSort (· ≤ ·)).dedup

/-- ddm/numba_ddm.py:54-56 `unique_func`: the distinct elements sorted by the index of their first occurrence. -/
def uniqueFunc (l : List Nat) : List Nat := (npUniq l).insertionSort (fun a b => l.idxOf a ≤ l.idxOf b)

/-- Everything `readmesh` computes about the partition. -/
structure Partition where
  npart : Nat → List Nat
  cpart : Nat → List Nat
  neighsub : Nat → List Nat
  nodePart : Nat → List Nat
  cellPart : Nat → List Nat
  haloCell : Nat → List Nat

/-- ddm/meshpartitioning.py:189-199. -/
def partition (nodeid : Nat → Nat → Nat) (npart0 epart : Nat → Nat) (nbnodes n d1 : Nat) : Partition :=
  let s := loop1 nodeid npart0 epart n d1
  { npart := s.npart
    cpart := fun i => cpart nodeid epart s.npart d1 i
    neighsub := fun p => (npUniq (neighRaw s.npart nbnodes p)).filter (fun q => q ≠ p)
    nodePart := fun p => uniqueFunc (s.nodePart p)
    cellPart := fun p => npUniq (s.cellPart p)
    haloCell := fun p => npUniq (haloRaw nodeid s.npart (s.cellPart p) d1) }

/-- ddm/meshpartitioning.py:209-214: `tc`. -/
def tcList (cellPart : Nat → List Nat) (SIZE : Nat) : List Nat :=
  (List.range SIZE).foldl (fun tc i => (cellPart i).foldl (fun tc c => tc ++ [c]) tc) []

/-- ddm/meshpartitioning.py:216-223: the dictionaries `(haloint, haloext)`; a key is present iff its list is nonempty. -/
def halos (cpart : Nat → List Nat) (haloCell : Nat → List Nat) (SIZE : Nat) :
    (Nat → Nat → List Nat) × (Nat → Nat → List Nat) :=
  (List.range SIZE).foldl (fun s i =>
    (haloCell i).foldl (fun s cell =>
      (cpart cell).foldl (fun (s : (Nat → Nat → List Nat) × (Nat → Nat → List Nat)) q =>
        if i ≠ q then
          (setAt s.1 i (appendAt (s.1 i) q cell), setAt s.2 q (appendAt (s.2 q) i cell))
        else s) s) s) (fun _ _ => [], fun _ _ => [])

end Verif.Part
