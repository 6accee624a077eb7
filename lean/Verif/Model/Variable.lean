import Verif.Basic.Arr

/-!
# Model of `Boundary`, `Variable` and the ghost kernels (`ast/core.py`, `ast/pyccel_functions.py:10-118`)

numpy arrays live in a heap: an attribute or a local variable holds a reference (`Ref`), several of them may hold the same one.
-/
namespace Verif.Var
open Verif

/-! ## Ghost kernels -/
section
variable {K : Type*}

/-- ast/pyccel_functions.py:49-53 `ghost_value_neumann`. -/
def ghostNeumann (w_c : Nat → K) (cellid0 : Nat → Nat) (faces : List Nat) (w_ghost : Nat → K) : Nat → K :=
  faces.foldl (fun g i => setAt g i (w_c (cellid0 i))) w_ghost

/-- ast/pyccel_functions.py:41-46 `ghost_value_nonslip`. -/
def ghostNonslip [Ring K] (w_c : Nat → K) (cellid0 : Nat → Nat) (faces : List Nat) (w_ghost : Nat → K) : Nat → K :=
  faces.foldl (fun g i => setAt g i (-1 * w_c (cellid0 i))) w_ghost

/-- ast/pyccel_functions.py:55-60 `ghost_value_dirichlet`. -/
def ghostDirichlet (value : Nat → K) (faces : List Nat) (w_ghost : Nat → K) : Nat → K :=
  faces.foldl (fun g i => setAt g i (value i)) w_ghost

/-- An entry of `haloghostcenter[node]`: (..., halo cell, boundary name, slot); only the last three are used here. -/
structure HG where
  cellhalo : Int
  bc : Int
  slot : Int
deriving DecidableEq

/-- The loops of ast/pyccel_functions.py:63-103: for every halo node and entry with slot ≠ -1 and boundary name `bc`, store `f e`. -/
def haloghostLoop (f : HG → K) (table : Nat → List HG) (bc : Int) (halonodes : List Nat) (w : Nat → K) : Nat → K :=
  halonodes.foldl (fun w i => (table i).foldl (fun w e =>
    if e.slot ≠ -1 then if e.bc = bc then setAt w e.slot.toNat (f e) else w else w) w) w

/-- ast/pyccel_functions.py:63-72 `haloghost_value_neumann`. -/
def haloghostNeumann (w_halo : Nat → K) (table : Nat → List HG) (bc : Int) (halonodes : List Nat) (w : Nat → K) : Nat → K :=
  haloghostLoop (fun e => w_halo e.cellhalo.toNat) table bc halonodes w

/-- ast/pyccel_functions.py:75-83 `haloghost_value_dirichlet`. -/
def haloghostDirichlet (value : Nat → K) (table : Nat → List HG) (bc : Int) (halonodes : List Nat) (w : Nat → K) : Nat → K :=
  haloghostLoop (fun e => value e.slot.toNat) table bc halonodes w

/-- ast/pyccel_functions.py:85-93 `haloghost_value_nonslip` (reads `w_halo[cellghost]`). -/
def haloghostNonslip [Ring K] (w_halo : Nat → K) (table : Nat → List HG) (bc : Int) (halonodes : List Nat) (w : Nat → K) : Nat → K :=
  haloghostLoop (fun e => -1 * w_halo e.slot.toNat) table bc halonodes w

/-- ast/pyccel_functions.py:36-38, 111-114: `u_g`, with `s_n = (n0 / mesure, n1 / mesure)`. -/
def slipU [Field K] (u_i v_i n0 n1 mesure : K) : K :=
  let s0 := n0 / mesure
  let s1 := n1 / mesure
  u_i * (s1 * s1 - s0 * s0) - 2 * v_i * s0 * s1

/-- ast/pyccel_functions.py:24-39 `ghost_value_slip`. -/
def ghostSlip [Field K] (u_c v_c : Nat → K) (cellid0 : Nat → Nat) (normal : Nat → Nat → K) (mesure : Nat → K) (faces : List Nat)
    (w_ghost : Nat → K) : Nat → K :=
  faces.foldl (fun g i => setAt g i (u_c (cellid0 i) * slipU (u_c (cellid0 i)) (v_c (cellid0 i)) (normal i 0) (normal i 1) (mesure i))) w_ghost

/-- ast/pyccel_functions.py:96-117 `haloghost_value_slip`: `info i j` is `haloghostfaceinfo[i][j][2:4]`; it reads `u_halo[cellghost]` and
writes `w_haloghost[i]` (the node number). -/
def haloghostSlip [Field K] (sqrt : K → K) (u_halo v_halo : Nat → K) (table : Nat → List HG) (info : Nat → Nat → K × K) (bc : Int)
    (halonodes : List Nat) (w : Nat → K) : Nat → K :=
  halonodes.foldl (fun w i => (table i).zipIdx.foldl (fun w e =>
    if e.1.slot ≠ -1 then if e.1.bc = bc then
      let n := info i e.2
      let mesure := sqrt (n.1 * n.1 + n.2 * n.2)
      let u := u_halo e.1.slot.toNat
      setAt w i (u * slipU u (v_halo e.1.slot.toNat) n.1 n.2 mesure)
    else w else w) w) w

/-- ddm/numba_ddm.py:458-460 and comms/communication.py:105-109: the 2D row `[centre x, centre y, normal x, normal y]`. -/
def infoRow2 (c n : Nat → K) : List K := [c 0, c 1, n 0, n 1]
/-- ddm/numba_ddm.py:640-644 and comms/communication.py:276-284: the 3D row. -/
def infoRow3 (c n : Nat → K) : List K := [c 0, c 1, c 2, n 0, n 1, n 2]

/-- ast/core.py:248-249: the value of the user's function at a halo ghost: `center = haloghostfaceinfo[i][j][0:3]`,
`values[loc](center[0], center[1], center[2])` (one code path for 2D and 3D). -/
def lambdaAtSlot [Zero K] (f : K → K → K → K) (row : List K) : K :=
  let center := row.take 3
  f (center.getD 0 0) (center.getD 1 0) (center.getD 2 0)

/-- ast/core.py:233-236: the value of the user's function on a local boundary face. -/
def lambdaAtFace (f : K → K → K → K) (c : Nat → K) : K := f (c 0) (c 1) (c 2)
end

/-! ## Variables -/

/-- Boundary condition names accepted by `Variable`. -/
inductive BCType | dirichlet | neumann | periodic | slip | nonslip | other
deriving DecidableEq

/-- Exceptions. -/
inductive PyErr | valueError | attributeError | indexError | keyError | typeError | assertionError
deriving DecidableEq

/-- Heap references: the variable's own arrays, the arrays allocated by `__init__`, and arrays created later (by number). -/
inductive Ref | cell | node | halo | vface | vnode | vhalo | empty | fresh (n : Nat)
deriving DecidableEq

/-- Location names are numbered: 0 in, 1 out, 2 bottom, 3 upper, 4 front, 5 back. -/
abbrev Loc := Nat

/-- What `Variable` uses of the domain. -/
structure Dom where
  nbfaces : Nat
  nbcells : Nat
  nbnodes : Nat
  nbhalos : Nat
  sizehaloghost : Nat
  /-- locations known to the domain (`_BCs`): index used for the faces/nodes and "is periodic" -/
  typeindex : Loc → Int
  isPeriodic : Loc → Bool
  /-- `_infaces`, ... -/
  faces : Loc → List Nat
  /-- `np.where(nodes.oldname == typeindex)[0]` -/
  nodes : Loc → List Nat
  /-- slots of `haloghostcenter[node]` -/
  slots : Nat → List Int
  cellid0 : Nat → Nat
  table : Nat → List HG
  halonodes : List Nat

/-- Lengths and contents of the arrays. -/
structure Heap (K : Type*) where
  len : Ref → Nat
  val : Ref → Nat → K

/-- `a[i] = x`, with numpy's bounds check (indices are nonnegative here). -/
def Heap.write {K : Type*} (h : Heap K) (r : Ref) (i : Nat) (x : K) : Except PyErr (Heap K) :=
  if i < h.len r then .ok { h with val := fun r' => if r' = r then setAt (h.val r) i x else h.val r' }
  else .error .indexError

/-- `for i in l: a[i] = x i`. -/
def Heap.writeAll {K : Type*} (h : Heap K) (r : Ref) (l : List Nat) (x : Nat → K) : Except PyErr (Heap K) :=
  l.foldlM (fun h i => h.write r i (x i)) h

/-- A `Boundary` object. -/
structure Boundary where
  bctype : BCType
  valueface : Ref
  valuenode : Ref
  valuehalo : Ref

/-- State of `Variable.__init__` (and of the finished object). -/
structure VState (K : Type*) where
  heap : Heap K
  /-- local variables `valueface`, `valuenode`, `valuehalo` -/
  vf : Ref
  vn : Ref
  vh : Ref
  bcs : Loc → Option Boundary
  /-- attribute `cell` -/
  cell : Ref
  ghost : Nat → K
  haloghost : Nat → K
  nextFresh : Nat

/-- The values argument: for a location, the prescribed value on a face / a node / at a halo-ghost slot seen from a node (a number or
the result of the lambda at the corresponding centre). -/
structure Vals (K : Type*) where
  face : Nat → K
  node : Nat → K
  slot : Nat → Nat → K

/-- ast/core.py:124-185: the arrays before the boundary conditions. -/
def vInit {K : Type*} [Zero K] (d : Dom) : VState K :=
  { heap := { len := fun r => match r with
                | .cell => d.nbcells | .node => d.nbnodes | .halo => d.nbhalos
                | .vface => d.nbfaces | .vnode => d.nbnodes | .vhalo => d.sizehaloghost | .empty => 0 | .fresh _ => 0
              val := fun _ _ => 0 }
    vf := .vface, vn := .vnode, vh := .vhalo, bcs := fun _ => none, cell := .cell
    ghost := fun _ => 0, haloghost := fun _ => 0, nextFresh := 0 }

/-- `self.BCs[loc] = Boundary(...)` followed by the three value attributes. -/
def setBC {K : Type*} (s : VState K) (loc : Loc) (t : BCType) (f n h : Ref) : VState K :=
  { s with bcs := setAt s.bcs loc (some ⟨t, f, n, h⟩) }

/-- ast/core.py:216-305: one iteration of `for loc, bct in BC.items()`.  (The lists `BCdirichlet`, `dirichletfaces`, ... are
`bcLists` below.)  `values loc = none`: no entry for `loc`. -/
def bcStep {K : Type*} (d : Dom) (values : Loc → Option (Vals K)) (s : VState K) (e : Loc × BCType) : Except PyErr (VState K) :=
  let loc := e.1
  if d.isPeriodic loc && decide (e.2 ≠ .periodic) then .error .valueError
  else if !(d.isPeriodic loc) && decide (e.2 = .periodic) then .error .valueError
  else match e.2 with
  | .dirichlet =>
    match values loc with
    | none => .error .valueError
    | some v => do
      let h ← s.heap.writeAll s.vf (d.faces loc) v.face
      let h ← (d.nodes loc).foldlM (fun h i => do
        let h ← h.write s.vn i (v.node i)
        (d.slots i).foldlM (fun (h : Heap K) (c : Int) =>
          if c ≠ -1 then h.write s.vh c.toNat (v.slot i c.toNat) else .ok h) h) h
      .ok (setBC { s with heap := h } loc .dirichlet s.vf s.vn s.vh)
  | .neumann => .ok (setBC { s with vf := .cell, vn := .node, vh := .halo } loc .neumann .cell .node .halo)
  | .periodic => .ok (setBC s loc .periodic .empty .empty .empty)
  | .slip => .error .attributeError
  | .nonslip => .ok (setBC { s with vf := .cell, vn := .node, vh := .halo } loc .nonslip .cell .node .halo)
  | .other => .ok s

/-- ast/core.py:216-322: `Variable(domain, BC=..., values=...)`, the dictionary given as the list of its items. -/
def mkVariable {K : Type*} [Zero K] (d : Dom) (BC : List (Loc × BCType)) (values : Loc → Option (Vals K)) :
    Except PyErr (VState K) := BC.foldlM (bcStep d values) (vInit d)

/-- ast/core.py:190-214: `Variable(domain)` without `BC`: every location of the domain, in order. -/
def mkDefault {K : Type*} [Zero K] (d : Dom) (locs : List Loc) : VState K :=
  locs.foldl (fun s loc =>
    let s := if d.isPeriodic loc then s else { s with vf := .cell, vn := .node, vh := .halo }
    setBC s loc (if d.isPeriodic loc then .periodic else .neumann) s.vf s.vn s.vh) (vInit d)

/-- ast/core.py:216-330: `(BCdirichlet, BCneumann, dirichletfaces, neumannfaces)` (the last two before sorting). -/
def bcLists (d : Dom) (BC : List (Loc × BCType)) : List Int × List Int × List Nat × List Nat :=
  BC.foldl (fun s e => match e.2 with
    | .dirichlet => (s.1 ++ [d.typeindex e.1], s.2.1, s.2.2.1 ++ d.faces e.1, s.2.2.2)
    | .neumann | .slip | .nonslip => (s.1, s.2.1 ++ [d.typeindex e.1], s.2.2.1, s.2.2.2 ++ d.faces e.1)
    | _ => s) ([], [], [], [])

/-- ast/core.py:489-493 `update_ghost_value`: over the locations of `_BCs` in order; a location without a `Boundary` object is an
`AttributeError` (`None._func_ghost`). -/
def updateGhost {K : Type*} [Ring K] (d : Dom) (locs : List Loc) (s : VState K) : Except PyErr (VState K) :=
  locs.foldlM (fun s loc => match s.bcs loc with
    | none => .error .attributeError
    | some b =>
      let vf := s.heap.val b.valueface
      let vh := s.heap.val b.valuehalo
      match b.bctype with
      | .dirichlet => .ok { s with ghost := ghostDirichlet vf (d.faces loc) s.ghost
                                   haloghost := haloghostDirichlet vh d.table (d.typeindex loc) d.halonodes s.haloghost }
      | .nonslip => .ok { s with ghost := ghostNonslip vf d.cellid0 (d.faces loc) s.ghost
                                 haloghost := haloghostNonslip vh d.table (d.typeindex loc) d.halonodes s.haloghost }
      | _ => .ok { s with ghost := ghostNeumann vf d.cellid0 (d.faces loc) s.ghost
                          haloghost := haloghostNeumann vh d.table (d.typeindex loc) d.halonodes s.haloghost }) s

/-- `var.cell[i] = x` (in place: what the explicit schemes, `Scatterv` and the user do). -/
def setCell {K : Type*} (s : VState K) (i : Nat) (x : K) : VState K :=
  { s with heap := { s.heap with val := fun r => if r = s.cell then setAt (s.heap.val r) i x else s.heap.val r } }

/-- `var.cell = array` (ast/linearsystem.py:361, 376 `self.var.cell = self.sol`; ast/core.py:361-395 `res.cell = ...`): the attribute
is rebound to a new array. -/
def rebindCell {K : Type*} (s : VState K) (n : Nat) (a : Nat → K) : VState K :=
  let r := Ref.fresh s.nextFresh
  { s with
    heap := { len := fun r' => if r' = r then n else s.heap.len r'
              val := fun r' => if r' = r then a else s.heap.val r' }
    cell := r
    nextFresh := s.nextFresh + 1 }

/-- The current cell values of the variable. -/
def cells {K : Type*} (s : VState K) : Nat → K := s.heap.val s.cell

/-! ## Arithmetic and norm -/

/-- ast/core.py:357-391: `res = Variable(self.domain); res.cell = self.cell OP other.cell; return res` for `+`, `-`, `*`
(`locs`: the locations of the domain, in order). -/
def varOp {K : Type*} [Zero K] (op : K → K → K) (d : Dom) (locs : List Loc) (a b : VState K) : VState K :=
  rebindCell (mkDefault d locs) d.nbcells (fun i => op (cells a i) (cells b i))

/-- ast/core.py:357-367 `__add__`. -/
def varAdd {K : Type*} [Zero K] [Add K] := varOp (K := K) (· + ·)
/-- ast/core.py:369-379 `__sub__`. -/
def varSub {K : Type*} [Zero K] [Sub K] := varOp (K := K) (· - ·)
/-- ast/core.py:381-391 `__mul__`. -/
def varMul {K : Type*} [Zero K] [Mul K] := varOp (K := K) (· * ·)
/-- ast/core.py:393-412 `__truediv__`: `if (other.cell != 0).all(): ... else: raise ValueError`. -/
def varDiv {K : Type*} [Zero K] [Div K] [DecidableEq K] (d : Dom) (locs : List Loc) (a b : VState K) : Except PyErr (VState K) :=
  if (List.range d.nbcells).all (fun i => cells b i ≠ 0) then .ok (varOp (· / ·) d locs a b) else .error .valueError

/-- ast/core.py:495-511 `norml2` with the default order 1 (`np.linalg.norm(ord=1)` of a vector: sum of absolute values). -/
def norml2 {K : Type*} [Field K] [LinearOrder K] (n : Nat) (cell exact vol : Nat → K) : K :=
  ((List.range n).map (fun i => |(|cell i - exact i| * vol i)|)).sum / ((List.range n).map (fun i => |(|exact i| * vol i)|)).sum

end Verif.Var
