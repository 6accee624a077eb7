import Verif.Model.Part

/-!
# Model of the partition files (`ddm/meshpartitioning.py:158-352`, `ddm/numba_ddm.py:255-366`)

A text line is the list of its blank-separated tokens.  Simplification: a number is kept as a token `int n` / `real x`
instead of its decimal text, i.e. `int(str(n)) = n` and `float(repr(x)) = x` (true for Python integers, `str` of
float64 and `np.savetxt`'s `%.18e`) and "the text of a number contains none of the keywords" are trusted.
-/
namespace Verif.MeshFile

/-- A token of a line. -/
inductive Tok (K : Type*) where
  | word : String → Tok K
  | int : Nat → Tok K
  | real : K → Tok K

abbrev Line (K : Type*) := List (Tok K)

variable {K : Type*} [NatCast K]

/-- `line == "kw\n"`. -/
def isKw (kw : String) : Line K → Bool
  | [.word w] => w == kw
  | _ => false

/-- `"kw" in line` (keywords only occur inside word tokens). -/
def hasKw (kw : String) (l : Line K) : Bool :=
  l.any (fun t => match t with | .word w => decide (kw.toList <:+: w.toList) | _ => false)

/-- `int64(x)`: fails on words (reals are never converted). -/
def tokInt : Tok K → Option Nat
  | .int n => some n
  | _ => none

/-- `double(x)`. -/
def tokReal : Tok K → Option K
  | .int n => some (n : K)
  | .real x => some x
  | _ => none

/-- `[int64(x) for x in line.split()]`. -/
def intRow (l : Line K) : Option (List Nat) := l.mapM tokInt
/-- `[double(x) for x in line.split()]`. -/
def realRow (l : Line K) : Option (List K) := l.mapM tokReal
/-- `int(line)`. -/
def intLine : Line K → Option Nat
  | [t] => tokInt t
  | _ => none
/-- `[int64(x) for x in line.split()][0]`. -/
def intHead (l : Line K) : Option Nat := (intRow l).bind List.head?

/-- `for line in file: if skip: continue; if stop: break; acc.append(parse(line))`; returns the values and the remaining
lines of the file. -/
def readLoop {α : Type*} (skip stop : Line K → Bool) (parse : Line K → Option α) :
    List (Line K) → Option (List α × List (Line K))
  | [] => some ([], [])
  | l :: ls =>
    if skip l then readLoop skip stop parse ls
    else if stop l then some ([], ls)
    else match parse l with
      | none => none
      | some a => match readLoop skip stop parse ls with
        | none => none
        | some (as, rest) => some (a :: as, rest)

/-- What is known about a rank's mesh. -/
structure RankData (K : Type*) where
  tc : List Nat
  nodeid : List (List Nat)
  vertex : List (List K)
  halosint : List Nat
  halosext : List (List Nat)
  centvol : List (List K)
  /-- `Cellglobtoloc` as the list of its (key, value) insertions -/
  globtoloc : List (Nat × Nat)
  loctoglob : List Nat
  nodeloctoglob : List Nat
  neigh : List (List Nat)
  nparts : List (List Nat)

/-- ddm/numba_ddm.py:255-366 `read_mesh_file`, given the lines of `mesh<rank>.txt` and of `mesh_master.txt`. -/
def readMeshFile (size rank : Nat) (file master : List (Line K)) : Option (RankData K) := do
  let (tc, file) ← if size > 1 ∧ rank = 0 then
      readLoop (fun l => isKw "GtoL" l || isKw "endGtoL" l) (isKw "elements") intHead file
    else some ([], file)
  let (nodeid, file) ← readLoop (fun l => isKw "elements" l || isKw "endelements" l) (isKw "nodes") intRow file
  let (vertex, file) ← readLoop (fun l => isKw "nodes" l || isKw "endnodes" l) (isKw "halosint") realRow file
  let tc := if size = 1 then List.range nodeid.length else tc
  if size > 1 then do
    let (halosint, file) ← readLoop (fun _ => false) (hasKw "endhalosint") intLine file
    let (halosext, file) ← readLoop (hasKw "halosext") (hasKw "centvol") intRow file
    let (centvol, file) ← readLoop (hasKw "centvol") (hasKw "globalcelltolocal") realRow file
    let (loctoglob, file) ← readLoop (isKw "globalcelltomocal") (isKw "endglobalcelltolocal") intLine file
    let (nodeloctoglob, file) ← readLoop (isKw "localnodetoglobal") (isKw "endlocalnodetoglobal") intLine file
    let (neigh, _) ← readLoop (isKw "neigh") (isKw "endneigh") intRow file
    let (nparts, _) ← readLoop (isKw "nodeparts") (isKw "endnodeparts") intRow master
    return { tc, nodeid, vertex, halosint, halosext, centvol, globtoloc := loctoglob.zipIdx, loctoglob, nodeloctoglob,
             neigh, nparts }
  else
    return { tc, nodeid, vertex, halosint := [], halosext := [], centvol := [], globtoloc := [], loctoglob := [],
             nodeloctoglob := [], neigh := [], nparts := [] }

/-- What the writer has at hand for a rank: as `RankData`, with nodes given by three coordinates and a label. -/
structure WriteData (K : Type*) where
  tc : List Nat
  nodeid : List (List Nat)
  nodes : List (K × K × K × Nat)
  halosint : List Nat
  halosext : List (List Nat)
  centvol : List (List K)
  loctoglob : List Nat
  nodeloctoglob : List Nat
  neighsub : List Nat
  neighcount : List Nat
  nparts : List (List Nat)

def kw (s : String) : List (Line K) := [[.word s]]
def intRows (rows : List (List Nat)) : List (Line K) := rows.map (fun r => r.map .int)
def intLines (l : List Nat) : List (Line K) := l.map (fun n => [.int n])
def nodeRows (rows : List (K × K × K × Nat)) : List (Line K) :=
  rows.map (fun r => [.real r.1, .real r.2.1, .real r.2.2.1, .int r.2.2.2])

/-- ddm/meshpartitioning.py:167-177: the serial mesh file. -/
def writeSerial (d : WriteData K) : List (Line K) :=
  kw "elements" ++ intRows d.nodeid ++ kw "endelements" ++ kw "nodes" ++ nodeRows d.nodes ++ kw "endnodes"

/-- ddm/meshpartitioning.py:279-340: the lines of `mesh<rank>.txt`. -/
def writeRank (rank : Nat) (d : WriteData K) : List (Line K) :=
  (if rank = 0 then kw "GtoL" ++ intLines d.tc ++ kw "endGtoL" else []) ++
  kw "elements" ++ intRows d.nodeid ++ kw "endelements" ++
  kw "nodes" ++ nodeRows d.nodes ++ kw "endnodes" ++
  kw "halosint" ++ intLines d.halosint ++ kw "endhalosint" ++
  kw "halosext" ++ intRows d.halosext ++ kw "endhalosext" ++
  kw "centvol" ++ d.centvol.map (fun r => r.map .real) ++ kw "endcentvol" ++
  kw "globalcelltolocal" ++ intLines d.loctoglob ++ kw "endglobalcelltolocal" ++
  kw "localnodetoglobal" ++ intLines d.nodeloctoglob ++ kw "endlocalnodetoglobal" ++
  kw "neigh" ++ [d.neighsub.map .int] ++ [d.neighcount.map .int] ++ kw "endneigh"

/-- ddm/meshpartitioning.py:342-350: `mesh_master.txt`. -/
def writeMaster (nparts : List (List Nat)) : List (Line K) :=
  kw "nodeparts" ++ intRows nparts ++ kw "endnodeparts"

open Verif.Part in
/-- ddm/meshpartitioning.py:201-340: what is written for rank `i`, computed from the partition.  `cell_nodeid`
is `nodeid`, `nodes`/`ghost_nodes` are `node`; `centvol c` is the row (centre, volume) of the halo cell `c`. -/
def rankWrite (nodeid : Nat → Nat → Nat) (node : Nat → K × K × K × Nat) (centvol : Nat → List K) (P : Partition)
    (h : (Nat → Nat → List Nat) × (Nat → Nat → List Nat)) (nbnodes SIZE d1 i : Nat) : WriteData K :=
  { tc := tcList P.cellPart SIZE
    nodeid := (P.cellPart i).map (fun c => (List.range d1).map (fun k => (P.nodePart i).idxOf (nodeid c k)))
    nodes := (P.nodePart i).map node
    halosint := (P.neighsub i).flatMap (fun q => h.1 i q)
    halosext := (P.neighsub i).flatMap (fun q => (h.2 i q).map (fun c => c :: (List.range d1).map (nodeid c)))
    centvol := (P.neighsub i).flatMap (fun q => (h.2 i q).map centvol)
    loctoglob := P.cellPart i
    nodeloctoglob := P.nodePart i
    neighsub := P.neighsub i
    neighcount := (P.neighsub i).map (fun q => (h.1 i q).length)
    nparts := (List.range nbnodes).map P.npart }

end Verif.MeshFile
