import Verif.Model.Geometry

/-!
# Model of interpolation, gradients and the limiter (`ast/pyccel_functions.py`, `ddm/pyccel_ddm.py:343-620`)

`cellidn i` is the valid part `cellidn[i][0 : cellidn[i][-1]]` of a row, likewise `haloidn`, `periodicn`, `cellnid`, `halonid`.
A row of `centergn[i]` is the pair (coordinates, last column); the last column is the face number, or -1 for padding.
A row of `halocentergn[i]` is (coordinates, last column = slot or -1).
-/
namespace Verif.Interp
open Verif Verif.Geo

variable {K : Type*} [Field K] [LinearOrder K]

/-- The mesh arrays read at a node. -/
structure NodeTabs (K : Type*) where
  centerc : Nat → Vec K
  centerh : Nat → Vec K
  cellidn : Nat → List Nat
  haloidn : Nat → List Nat
  periodicn : Nat → List Nat
  vertexn : Nat → Vec K
  /-- `vertexn[i][3]` -/
  oldname : Nat → Int
  namen : Nat → Int
  ghosts : Nat → List (Vec K × Int)
  haloghosts : Nat → List (Vec K × Int)
  shift : Nat → Vec K

/-- The four value arrays `w_c, w_ghost, w_halo, w_haloghost`. -/
structure Fields (K : Type*) where
  c : Nat → K
  ghost : Nat → K
  halo : Nat → K
  haloghost : Nat → K

/-- `centergn[i][0][2]` in 2D (`[3]` in 3D): last column of the first ghost row. -/
def firstGhost (l : List (Vec K × Int)) : Int := match l with | [] => -1 | g :: _ => g.2

/-- Coordinates with a shift in x. -/
def shiftX (p s : Vec K) : Vec K := fun k => if k = 0 then p 0 + s 0 else p k
/-- Coordinates with a shift in y. -/
def shiftY (p s : Vec K) : Vec K := fun k => if k = 1 then p 1 + s 1 else p k
/-- Coordinates with a shift in z. -/
def shiftZ (p s : Vec K) : Vec K := fun k => if k = 2 then p 2 + s 2 else p k

/-! ## Node weights, 2D -/

/-- Accumulators of `variables`. -/
structure Acc2 (K : Type*) where
  xx : K
  yy : K
  xy : K
  rx : K
  ry : K
  number : K

/-- The body repeated in every loop of ddm/pyccel_ddm.py:343-447. -/
def accStep2 (v : Vec K) (a : Acc2 K) (center : Vec K) : Acc2 K :=
  let Rx := center 0 - v 0
  let Ry := center 1 - v 1
  { xx := a.xx + Rx * Rx, yy := a.yy + Ry * Ry, xy := a.xy + Rx * Ry, rx := a.rx + Rx, ry := a.ry + Ry, number := a.number + 1 }

/-- ddm/pyccel_ddm.py:357-440: the sums of `variables` at node `i`. -/
def variables2 (T : NodeTabs K) (i : Nat) : Acc2 K :=
  let v := T.vertexn i
  let a : Acc2 K := ⟨0, 0, 0, 0, 0, 0⟩
  let a := (T.cellidn i).foldl (fun a cell => accStep2 v a (T.centerc cell)) a
  let a := if firstGhost (T.ghosts i) ≠ -1 then
      (T.ghosts i).foldl (fun a g => if g.2 ≠ -1 then accStep2 v a g.1 else a) a else a
  let a := if T.oldname i = 11 ∨ T.oldname i = 22 then
      (T.periodicn i).foldl (fun a cell => accStep2 v a (shiftX (T.centerc cell) (T.shift cell))) a
    else if T.oldname i = 33 ∨ T.oldname i = 44 then
      (T.periodicn i).foldl (fun a cell => accStep2 v a (shiftY (T.centerc cell) (T.shift cell))) a
    else a
  if T.namen i = 10 then
    let a := (T.haloghosts i).foldl (fun a g => if g.2 ≠ -1 then accStep2 v a g.1 else a) a
    (T.haloidn i).foldl (fun a cell => accStep2 v a (T.centerh cell)) a
  else a

/-- ddm/pyccel_ddm.py:443-445: `(lambda_x, lambda_y)`. -/
def lambda2 (a : Acc2 K) : K × K :=
  let D := a.xx * a.yy - a.xy * a.xy
  ((a.xy * a.ry - a.yy * a.rx) / D, (a.xy * a.rx - a.xx * a.ry) / D)

/-- The weight `alpha` of ast/pyccel_functions.py:568-649 (also used by the matrix assembly). -/
def alpha2 (a : Acc2 K) (v center : Vec K) : K :=
  let lx := (lambda2 a).1
  let ly := (lambda2 a).2
  (1 + lx * (center 0 - v 0) + ly * (center 1 - v 1)) / (a.number + lx * a.rx + ly * a.ry)

/-- ast/pyccel_functions.py:568-649 `centertovertex_2d` at node `i`. -/
def centertovertex2 (T : NodeTabs K) (w : Fields K) (i : Nat) : K :=
  let v := T.vertexn i
  let a := variables2 T i
  let s : K := 0
  let s := (T.cellidn i).foldl (fun s cell => s + alpha2 a v (T.centerc cell) * w.c cell) s
  let s := if firstGhost (T.ghosts i) ≠ -1 then
      (T.ghosts i).foldl (fun s g => if g.2 ≠ -1 then s + alpha2 a v g.1 * w.ghost g.2.toNat else s) s else s
  let s := if T.oldname i = 11 ∨ T.oldname i = 22 then
      (T.periodicn i).foldl (fun s cell => s + alpha2 a v (shiftX (T.centerc cell) (T.shift cell)) * w.c cell) s
    else if T.oldname i = 33 ∨ T.oldname i = 44 then
      (T.periodicn i).foldl (fun s cell => s + alpha2 a v (shiftY (T.centerc cell) (T.shift cell)) * w.c cell) s
    else s
  if T.namen i = 10 then
    let s := (T.haloghosts i).foldl (fun s g => if g.2 ≠ -1 then s + alpha2 a v g.1 * w.haloghost g.2.toNat else s) s
    (T.haloidn i).foldl (fun s cell => s + alpha2 a v (T.centerh cell) * w.halo cell) s
  else s

/-! ## Node weights, 3D -/

/-- Accumulators of `variables_3d`. -/
structure Acc3 (K : Type*) where
  xx : K
  yy : K
  zz : K
  xy : K
  xz : K
  yz : K
  rx : K
  ry : K
  rz : K
  number : K

/-- The body repeated in every loop of ddm/pyccel_ddm.py:451-620. -/
def accStep3 (v : Vec K) (a : Acc3 K) (center : Vec K) : Acc3 K :=
  let Rx := center 0 - v 0
  let Ry := center 1 - v 1
  let Rz := center 2 - v 2
  { xx := a.xx + Rx * Rx, yy := a.yy + Ry * Ry, zz := a.zz + Rz * Rz, xy := a.xy + Rx * Ry, xz := a.xz + Rx * Rz,
    yz := a.yz + Ry * Rz, rx := a.rx + Rx, ry := a.ry + Ry, rz := a.rz + Rz, number := a.number + 1 }

/-- ddm/pyccel_ddm.py:469-616: the sums of `variables_3d` at node `i`. -/
def variables3 (T : NodeTabs K) (i : Nat) : Acc3 K :=
  let v := T.vertexn i
  let a : Acc3 K := ⟨0, 0, 0, 0, 0, 0, 0, 0, 0, 0⟩
  let a := (T.cellidn i).foldl (fun a cell => accStep3 v a (T.centerc cell)) a
  let a := if firstGhost (T.ghosts i) ≠ -1 then
      (T.ghosts i).foldl (fun a g => if g.2 ≠ -1 then accStep3 v a g.1 else a) a else a
  let a := if T.oldname i = 11 ∨ T.oldname i = 22 then
      (T.periodicn i).foldl (fun a cell => accStep3 v a (shiftX (T.centerc cell) (T.shift cell))) a
    else if T.oldname i = 33 ∨ T.oldname i = 44 then
      (T.periodicn i).foldl (fun a cell => accStep3 v a (shiftY (T.centerc cell) (T.shift cell))) a
    else if T.oldname i = 55 ∨ T.oldname i = 66 then
      (T.periodicn i).foldl (fun a cell => accStep3 v a (shiftZ (T.centerc cell) (T.shift cell))) a
    else a
  if T.namen i = 10 then
    let a := (T.haloidn i).foldl (fun a cell => accStep3 v a (T.centerh cell)) a
    (T.haloghosts i).foldl (fun a g => if g.2 ≠ -1 then accStep3 v a g.1 else a) a
  else a

/-- ddm/pyccel_ddm.py:618 `D`. -/
def det3 (a : Acc3 K) : K :=
  a.xx * a.yy * a.zz + 2 * a.xy * a.xz * a.yz - a.xx * a.yz * a.yz - a.yy * a.xz * a.xz - a.zz * a.xy * a.xy

/-- ddm/pyccel_ddm.py:618-622: `(lambda_x, lambda_y, lambda_z)`. -/
def lambda3 (a : Acc3 K) : K × K × K :=
  let D := det3 a
  (((a.yz * a.yz - a.yy * a.zz) * a.rx + (a.xy * a.zz - a.xz * a.yz) * a.ry + (a.xz * a.yy - a.xy * a.yz) * a.rz) / D,
   ((a.xy * a.zz - a.xz * a.yz) * a.rx + (a.xz * a.xz - a.xx * a.zz) * a.ry + (a.yz * a.xx - a.xz * a.xy) * a.rz) / D,
   ((a.xz * a.yy - a.xy * a.yz) * a.rx + (a.yz * a.xx - a.xz * a.xy) * a.ry + (a.xy * a.xy - a.xx * a.yy) * a.rz) / D)

/-- The weight `alpha` of ast/pyccel_functions.py:652-765. -/
def alpha3 (a : Acc3 K) (v center : Vec K) : K :=
  let l := lambda3 a
  (1 + l.1 * (center 0 - v 0) + l.2.1 * (center 1 - v 1) + l.2.2 * (center 2 - v 2))
    / (a.number + l.1 * a.rx + l.2.1 * a.ry + l.2.2 * a.rz)

/-- ast/pyccel_functions.py:652-765 `centertovertex_3d` at node `i`. -/
def centertovertex3 (T : NodeTabs K) (w : Fields K) (i : Nat) : K :=
  let v := T.vertexn i
  let a := variables3 T i
  let s : K := 0
  let s := (T.cellidn i).foldl (fun s cell => s + alpha3 a v (T.centerc cell) * w.c cell) s
  let s := if firstGhost (T.ghosts i) ≠ -1 then
      (T.ghosts i).foldl (fun s g => if g.2 ≠ -1 then s + alpha3 a v g.1 * w.ghost g.2.toNat else s) s else s
  let s := if T.oldname i = 11 ∨ T.oldname i = 22 then
      (T.periodicn i).foldl (fun s cell => s + alpha3 a v (shiftX (T.centerc cell) (T.shift cell)) * w.c cell) s
    else if T.oldname i = 33 ∨ T.oldname i = 44 then
      (T.periodicn i).foldl (fun s cell => s + alpha3 a v (shiftY (T.centerc cell) (T.shift cell)) * w.c cell) s
    else if T.oldname i = 55 ∨ T.oldname i = 66 then
      (T.periodicn i).foldl (fun s cell => s + alpha3 a v (shiftZ (T.centerc cell) (T.shift cell)) * w.c cell) s
    else s
  if T.namen i = 10 then
    let s := (T.haloghosts i).foldl (fun s g => if g.2 ≠ -1 then s + alpha3 a v g.1 * w.haloghost g.2.toNat else s) s
    (T.haloidn i).foldl (fun s cell => s + alpha3 a v (T.centerh cell) * w.halo cell) s
  else s

/-! ## Least-squares cell gradients -/

/-- The rows read by `cell_gradient_*` for a cell. -/
structure CellTabs where
  cellnid : Nat → List Nat
  halonid : Nat → List Nat
  /-- `nodecid[i][0:3]` in 2D, `[0:4]` in 3D -/
  nodes : Nat → List Nat
  /-- `periodicn[i]` of the 3D kernel (`cells.periodicnid`) -/
  periodicnid : Nat → List Nat

/-- Accumulators `i_xx, i_yy, i_xy, j_xw, j_yw` of `cell_gradient_2d`. -/
structure Grad2 (K : Type*) where
  xx : K
  yy : K
  xy : K
  xw : K
  yw : K

/-- The body of every loop of `cell_gradient_2d`. -/
def gradStep2 (c : Vec K) (wi : K) (a : Grad2 K) (p : Vec K) (val : K) : Grad2 K :=
  let jx := p 0 - c 0
  let jy := p 1 - c 1
  { xx := a.xx + jx * jx, yy := a.yy + jy * jy, xy := a.xy + jx * jy, xw := a.xw + jx * (val - wi), yw := a.yw + jy * (val - wi) }

/-- ast/pyccel_functions.py:132-216: the sums of `cell_gradient_2d` for cell `i`.  The 2D kernel shifts at a node named 11/22 in x and
(not `elif`, but the tests exclude each other) at a node named 33/44 in y. -/
def gradSums2 (T : NodeTabs K) (C : CellTabs) (w : Fields K) (i : Nat) : Grad2 K :=
  let c := T.centerc i
  let st := gradStep2 c (w.c i)
  let a : Grad2 K := ⟨0, 0, 0, 0, 0⟩
  let a := (C.cellnid i).foldl (fun a cell => st a (T.centerc cell) (w.c cell)) a
  let a := (C.nodes i).foldl (fun a nod =>
    let a := if T.oldname nod = 11 ∨ T.oldname nod = 22 then
        (T.periodicn nod).foldl (fun a cell => st a (shiftX (T.centerc cell) (T.shift cell)) (w.c cell)) a else a
    if T.oldname nod = 33 ∨ T.oldname nod = 44 then
      (T.periodicn nod).foldl (fun a cell => st a (shiftY (T.centerc cell) (T.shift cell)) (w.c cell)) a else a) a
  let a := (C.halonid i).foldl (fun a cell => st a (T.centerh cell) (w.halo cell)) a
  (C.nodes i).foldl (fun a nod =>
    let a := if T.oldname nod ≤ 4 then
        (T.ghosts nod).foldl (fun a g => if g.2 ≠ -1 then st a g.1 (w.ghost g.2.toNat) else a) a else a
    (T.haloghosts nod).foldl (fun a g => if g.2 ≠ -1 then st a g.1 (w.haloghost g.2.toNat) else a) a) a

/-- ast/pyccel_functions.py:218-222: `(w_x, w_y, w_z)` of `cell_gradient_2d`. -/
def cellGradient2 (T : NodeTabs K) (C : CellTabs) (w : Fields K) (i : Nat) : K × K × K :=
  let a := gradSums2 T C w i
  let dia := a.xx * a.yy - a.xy * a.xy
  ((a.yy * a.xw - a.xy * a.yw) / dia, (a.xx * a.yw - a.xy * a.xw) / dia, 0)

/-- State of the loops of `cell_gradient_3d`: the six moments, `j_x, j_y, j_z`, and the *local variables* `jx, jy, jz`, which survive
from one loop to the next. -/
structure Grad3 (K : Type*) where
  xx : K
  yy : K
  zz : K
  xy : K
  xz : K
  yz : K
  j_x : K
  j_y : K
  j_z : K
  jx : K
  jy : K
  jz : K

/-- The body of the cell, halo and ghost loops of `cell_gradient_3d`. -/
def gradStep3 (c : Vec K) (wi : K) (a : Grad3 K) (p : Vec K) (val : K) : Grad3 K :=
  let jx := p 0 - c 0
  let jy := p 1 - c 1
  let jz := p 2 - c 2
  { xx := a.xx + jx * jx, yy := a.yy + jy * jy, zz := a.zz + jz * jz, xy := a.xy + jx * jy, xz := a.xz + jx * jz, yz := a.yz + jy * jz,
    j_x := a.j_x + jx * (val - wi), j_y := a.j_y + jy * (val - wi), j_z := a.j_z + jz * (val - wi), jx := jx, jy := jy, jz := jz }

/-- ast/pyccel_functions.py:268-284: the periodic loop of `cell_gradient_3d`: it *assigns* the shifted offset to the accumulators
`j_x, j_y, j_z` and uses the stale `jx, jy, jz`. -/
def gradStep3Periodic (c : Vec K) (wi : K) (a : Grad3 K) (p s : Vec K) (val : K) : Grad3 K :=
  let j_x := p 0 + s 0 - c 0
  let j_y := p 1 + s 1 - c 1
  let j_z := p 2 + s 2 - c 2
  { a with
    xx := a.xx + a.jx * a.jx, yy := a.yy + a.jy * a.jy, zz := a.zz + a.jz * a.jz, xy := a.xy + a.jx * a.jy, xz := a.xz + a.jx * a.jz,
    yz := a.yz + a.jy * a.jz, j_x := j_x + a.jx * (val - wi), j_y := j_y + a.jy * (val - wi), j_z := j_z + a.jz * (val - wi) }

/-- ast/pyccel_functions.py:238-345: the sums of `cell_gradient_3d` for cell `i` (`jx, jy, jz` are undefined before the first
assignment; here 0). -/
def gradSums3 (T : NodeTabs K) (C : CellTabs) (w : Fields K) (i : Nat) : Grad3 K :=
  let c := T.centerc i
  let st := gradStep3 c (w.c i)
  let a : Grad3 K := ⟨0, 0, 0, 0, 0, 0, 0, 0, 0, 0, 0, 0⟩
  let a := (C.cellnid i).foldl (fun a cell => st a (T.centerc cell) (w.c cell)) a
  let a := (C.periodicnid i).foldl (fun a cell => gradStep3Periodic c (w.c i) a (T.centerc cell) (T.shift cell) (w.c cell)) a
  let a := (C.halonid i).foldl (fun a cell => st a (T.centerh cell) (w.halo cell)) a
  (C.nodes i).foldl (fun a nod =>
    let a := if T.oldname nod ≤ 6 then
        (T.ghosts nod).foldl (fun a g => if g.2 ≠ -1 then st a g.1 (w.ghost g.2.toNat) else a) a else a
    (T.haloghosts nod).foldl (fun a g => if g.2 ≠ -1 then st a g.1 (w.haloghost g.2.toNat) else a) a) a

/-- ast/pyccel_functions.py:348-352: `(w_x, w_y, w_z)` of `cell_gradient_3d`. -/
def cellGradient3 (T : NodeTabs K) (C : CellTabs) (w : Fields K) (i : Nat) : K × K × K :=
  let a := gradSums3 T C w i
  let dia := a.xx * a.yy * a.zz + 2 * a.xy * a.xz * a.yz - a.xx * a.yz ^ 2 - a.yy * a.xz ^ 2 - a.zz * a.xy ^ 2
  (((a.yy * a.zz - a.yz ^ 2) * a.j_x + (a.xz * a.yz - a.xy * a.zz) * a.j_y + (a.xy * a.yz - a.xz * a.yy) * a.j_z) / dia,
   ((a.xz * a.yz - a.xy * a.zz) * a.j_x + (a.xx * a.zz - a.xz ^ 2) * a.j_y + (a.xy * a.xz - a.yz * a.xx) * a.j_z) / dia,
   ((a.xy * a.yz - a.xz * a.yy) * a.j_x + (a.xy * a.xz - a.yz * a.xx) * a.j_y + (a.xx * a.yy - a.xy ^ 2) * a.j_z) / dia)

/-! ## Diamond face gradients -/

/-- The face arrays used by the gradient information. -/
structure FaceTabs (K : Type*) where
  cellid0 : Nat → Nat
  cellid1 : Nat → Nat
  nodeid : Nat → Nat → Nat
  name : Nat → Int
  halofid : Nat → Nat
  normal : Nat → Vec K
  ghostcenter : Nat → Vec K
  centerc : Nat → Vec K
  centerh : Nat → Vec K
  shift : Nat → Vec K
  vertexn : Nat → Vec K

/-- ddm/pyccel_ddm.py:311-322: the point `v_2` on the other side of face `i` (2D). -/
def right2 (F : FaceTabs K) (i : Nat) : Vec K :=
  let c_right := F.cellid1 i
  if F.name i = 0 then F.centerc c_right
  else if F.name i = 11 ∨ F.name i = 22 then shiftX (F.centerc c_right) (F.shift c_right)
  else if F.name i = 33 ∨ F.name i = 44 then shiftY (F.centerc c_right) (F.shift c_right)
  else if F.name i = 10 then F.centerh (F.halofid i)
  else F.ghostcenter i

/-- What `face_gradient_info_2d` stores for a face. -/
structure Diamond2 (K : Type*) where
  f_1 : Vec K
  f_2 : Vec K
  f_3 : Vec K
  f_4 : Vec K
  airDiamond : K
  param1 : K
  param2 : K
  param3 : K
  param4 : K

/-- ddm/pyccel_ddm.py:285-337 `face_gradient_info_2d` for face `i`. -/
def faceGradientInfo2 (F : FaceTabs K) (i : Nat) : Diamond2 K :=
  let xy_1 := F.vertexn (F.nodeid i 0)
  let xy_2 := F.vertexn (F.nodeid i 1)
  let v_1 := F.centerc (F.cellid0 i)
  let v_2 := right2 F i
  let f_1 : Vec K := fun k => v_1 k - xy_1 k
  let f_2 : Vec K := fun k => xy_2 k - v_1 k
  let f_3 : Vec K := fun k => v_2 k - xy_2 k
  let f_4 : Vec K := fun k => xy_1 k - v_2 k
  let n1 := F.normal i 0
  let n2 := F.normal i 1
  let air := 1 / 2 * ((xy_2 0 - xy_1 0) * (v_2 1 - v_1 1) + (v_1 0 - v_2 0) * (xy_2 1 - xy_1 1))
  { f_1 := f_1, f_2 := f_2, f_3 := f_3, f_4 := f_4, airDiamond := air
    param1 := 1 / (2 * air) * ((f_1 1 + f_2 1) * n1 - (f_1 0 + f_2 0) * n2)
    param2 := 1 / (2 * air) * ((f_2 1 + f_3 1) * n1 - (f_2 0 + f_3 0) * n2)
    param3 := 1 / (2 * air) * ((f_3 1 + f_4 1) * n1 - (f_3 0 + f_4 0) * n2)
    param4 := 1 / (2 * air) * ((f_4 1 + f_1 1) * n1 - (f_4 0 + f_1 0) * n2) }

/-- The formula repeated in ast/pyccel_functions.py:359-446 (`wx_face`, `wy_face`). -/
def diamondGrad2 (d : Diamond2 K) (vi1 vi2 vv1 vv2 : K) : K × K :=
  (1 / (2 * d.airDiamond) * ((vi1 + vv1) * d.f_1 1 + (vv1 + vi2) * d.f_2 1 + (vi2 + vv2) * d.f_3 1 + (vv2 + vi1) * d.f_4 1),
   -1 / (2 * d.airDiamond) * ((vi1 + vv1) * d.f_1 0 + (vv1 + vi2) * d.f_2 0 + (vi2 + vv2) * d.f_3 0 + (vv2 + vi1) * d.f_4 0))

/-- The face lists of a variable. -/
structure FaceLists where
  inner : List Nat
  halo : List Nat
  dirichlet : List Nat
  neumann : List Nat
  periodic : List Nat

/-- `for i in l: out[i] = f i`. -/
def writeList {α : Type*} (l : List Nat) (f : Nat → α) (out : Nat → α) : Nat → α :=
  l.foldl (fun o i => setAt o i (f i)) out

/-- ast/pyccel_functions.py:359-446 `face_gradient_2d`; the output arrays `(wx_face, wy_face)` as one array of pairs. -/
def faceGradient2 (F : FaceTabs K) (L : FaceLists) (w : Fields K) (w_node : Nat → K) (out : Nat → K × K) : Nat → K × K :=
  let g := fun i vv2 => diamondGrad2 (faceGradientInfo2 F i) (w_node (F.nodeid i 0)) (w_node (F.nodeid i 1)) (w.c (F.cellid0 i)) vv2
  let out := writeList L.inner (fun i => g i (w.c (F.cellid1 i))) out
  let out := writeList L.periodic (fun i => g i (w.c (F.cellid1 i))) out
  let out := writeList L.halo (fun i => g i (w.halo (F.halofid i))) out
  let out := writeList L.dirichlet (fun i => g i (w.ghost i)) out
  writeList L.neumann (fun i => g i (w.ghost i)) out

/-- ddm/numba_ddm.py:1346-1366: the point `v_2` (3D). -/
def right3 (F : FaceTabs K) (i : Nat) : Vec K :=
  let c_right := F.cellid1 i
  if F.name i = 0 then F.centerc c_right
  else if F.name i = 11 ∨ F.name i = 22 then shiftX (F.centerc c_right) (F.shift c_right)
  else if F.name i = 33 ∨ F.name i = 44 then shiftY (F.centerc c_right) (F.shift c_right)
  else if F.name i = 55 ∨ F.name i = 66 then shiftZ (F.centerc c_right) (F.shift c_right)
  else if F.name i = 10 then F.centerh (F.halofid i)
  else F.ghostcenter i

/-- What `face_gradient_info_3d` stores for a face (`n1`, `n2` are stored in `f_1`, `f_2`). -/
structure Diamond3 (K : Type*) where
  n1 : Vec K
  n2 : Vec K
  airDiamond : K
  param1 : K
  param2 : K
  param3 : K

/-- ddm/numba_ddm.py:1314-1397 `face_gradient_info_3d` for face `i` (`i_4 = i_3`). -/
def faceGradientInfo3 (F : FaceTabs K) (i : Nat) : Diamond3 K :=
  let i_1 := F.nodeid i 0
  let i_2 := F.nodeid i 1
  let i_3 := F.nodeid i 2
  let i_4 := i_3
  let v_1 := F.centerc (F.cellid0 i)
  let v_2 := right3 F i
  let s1 : Vec K := fun k => v_2 k - F.vertexn i_2 k
  let s2 : Vec K := fun k => F.vertexn i_4 k - F.vertexn i_2 k
  let s3 : Vec K := fun k => v_1 k - F.vertexn i_2 k
  let n1 : Vec K := fun k => 1 / 2 * wedge s1 s2 k + 1 / 2 * wedge s2 s3 k
  let s4 : Vec K := fun k => v_2 k - F.vertexn i_3 k
  let s5 : Vec K := fun k => F.vertexn i_1 k - F.vertexn i_3 k
  let s6 : Vec K := fun k => v_1 k - F.vertexn i_3 k
  let n2 : Vec K := fun k => 1 / 2 * wedge s4 s5 k + 1 / 2 * wedge s5 s6 k
  let s7 : Vec K := fun k => v_2 k - v_1 k
  let air := dot3 (F.normal i) s7
  { n1 := n1, n2 := n2, airDiamond := air, param1 := dot3 n1 (F.normal i) / air, param2 := dot3 n2 (F.normal i) / air
    param3 := dot3 (F.normal i) (F.normal i) / air }

/-- The formula repeated in ast/pyccel_functions.py:448-563. -/
def diamondGrad3 (d : Diamond3 K) (normal : Vec K) (V_A V_B V_C V_D V_L V_R : K) : Vec K :=
  fun k => (d.n1 k * (V_A - V_C) + d.n2 k * (V_B - V_D) + normal k * (V_R - V_L)) / d.airDiamond

/-- ast/pyccel_functions.py:448-563 `face_gradient_3d`. -/
def faceGradient3 (F : FaceTabs K) (L : FaceLists) (w : Fields K) (w_node : Nat → K) (out : Nat → Vec K) : Nat → Vec K :=
  let g := fun i V_R => diamondGrad3 (faceGradientInfo3 F i) (F.normal i) (w_node (F.nodeid i 0)) (w_node (F.nodeid i 1))
    (w_node (F.nodeid i 2)) (w_node (F.nodeid i 2)) (w.c (F.cellid0 i)) V_R
  let out := writeList L.inner (fun i => g i (w.c (F.cellid1 i))) out
  let out := writeList L.periodic (fun i => g i (w.c (F.cellid1 i))) out
  let out := writeList L.halo (fun i => g i (w.halo (F.halofid i))) out
  let out := writeList L.dirichlet (fun i => g i (w.ghost i)) out
  writeList L.neumann (fun i => g i (w.ghost i)) out

/-! ## Electric field -/

/-- `P_node[n]`, replaced by `Pbordnode[n]` when the node's label is a Dirichlet label (ast/pyccel_functions.py:1869-1874;
`search_element` 868-874 is membership). -/
def nodeValue (P_node Pbordnode : Nat → K) (oldname : Nat → Int) (BCdirichlet : List Int) (n : Nat) : K :=
  if oldname n ∈ BCdirichlet then Pbordnode n else P_node n

/-- ast/pyccel_functions.py:1854-1961 `compute_P_gradient_2d`. -/
def computePGradient2 (F : FaceTabs K) (L : FaceLists) (w : Fields K) (P_node Pbordnode Pbordface : Nat → K) (oldname : Nat → Int)
    (BCdirichlet : List Int) (out : Nat → K × K) : Nat → K × K :=
  let nv := nodeValue P_node Pbordnode oldname BCdirichlet
  let e := fun i vi1 vi2 vv1 vv2 =>
    let d := faceGradientInfo2 F i
    (-1 / (2 * d.airDiamond) * ((vi1 + vv1) * d.f_1 1 + (vv1 + vi2) * d.f_2 1 + (vi2 + vv2) * d.f_3 1 + (vv2 + vi1) * d.f_4 1),
     1 / (2 * d.airDiamond) * ((vi1 + vv1) * d.f_1 0 + (vv1 + vi2) * d.f_2 0 + (vi2 + vv2) * d.f_3 0 + (vv2 + vi1) * d.f_4 0))
  let out := writeList L.inner (fun i => e i (nv (F.nodeid i 0)) (nv (F.nodeid i 1)) (w.c (F.cellid0 i)) (w.c (F.cellid1 i))) out
  let out := writeList L.periodic (fun i => e i (nv (F.nodeid i 0)) (nv (F.nodeid i 1)) (w.c (F.cellid0 i)) (w.c (F.cellid1 i))) out
  let out := writeList L.neumann (fun i => e i (nv (F.nodeid i 0)) (nv (F.nodeid i 1)) (w.c (F.cellid0 i)) (w.ghost i)) out
  let out := writeList L.halo (fun i => e i (nv (F.nodeid i 0)) (nv (F.nodeid i 1)) (w.c (F.cellid0 i)) (w.halo (F.halofid i))) out
  writeList L.dirichlet (fun i => e i (Pbordnode (F.nodeid i 0)) (Pbordnode (F.nodeid i 1)) (w.c (F.cellid0 i))
    (2 * Pbordface i - w.c (F.cellid0 i))) out

/-- ast/pyccel_functions.py:1964-2108 `compute_P_gradient_3d`. -/
def computePGradient3 (F : FaceTabs K) (L : FaceLists) (w : Fields K) (P_node Pbordnode Pbordface : Nat → K) (oldname : Nat → Int)
    (BCdirichlet : List Int) (out : Nat → Vec K) : Nat → Vec K :=
  let nv := nodeValue P_node Pbordnode oldname BCdirichlet
  let e : Nat → K → K → K → K → K → K → Vec K := fun i V_A V_B V_C V_D V_L V_R k =>
    -1 * ((faceGradientInfo3 F i).n1 k * (V_A - V_C) + (faceGradientInfo3 F i).n2 k * (V_B - V_D) + F.normal i k * (V_R - V_L))
      / (faceGradientInfo3 F i).airDiamond
  let n := fun i V_R => e i (nv (F.nodeid i 0)) (nv (F.nodeid i 1)) (nv (F.nodeid i 2)) (nv (F.nodeid i 2)) (w.c (F.cellid0 i)) V_R
  let out := writeList L.inner (fun i => n i (w.c (F.cellid1 i))) out
  let out := writeList L.periodic (fun i => n i (w.c (F.cellid1 i))) out
  let out := writeList L.neumann (fun i => n i (w.ghost i)) out
  let out := writeList L.halo (fun i => n i (w.halo (F.halofid i))) out
  writeList L.dirichlet (fun i => e i (Pbordnode (F.nodeid i 0)) (Pbordnode (F.nodeid i 1)) (Pbordnode (F.nodeid i 2))
    (Pbordnode (F.nodeid i 2)) (w.c (F.cellid0 i)) (2 * Pbordface i - w.c (F.cellid0 i))) out

/-! ## Limiter and face-to-cell average -/

/-- Loop state of the min/max search: `(w_max, w_min)`. -/
def limiterBounds (dim : Nat) (wc wghost whalo : Nat → K) (cellid0 cellid1 halofid : Nat → Nat) (name : Nat → Int) (faces : List Nat) (i : Nat) : K × K :=
  faces.foldl (fun (b : K × K) face =>
    let a := wc (cellid0 face)
    let r := if name face = 0 ∨ name face > 10 then wc (cellid1 face)
      else if dim = 2 then
        (if name face = 1 ∨ name face = 2 ∨ name face = 3 ∨ name face = 4 then wghost face else whalo (halofid face))
      else if name face = 10 then whalo (halofid face) else wghost face
    (max (max b.1 a) r, min (min b.2 a) r)) (wc i, wc i)

/-- One face of the limiter: `psi_ij` (ast/pyccel_functions.py:803-813). -/
def psiFace (eps wi wmax wmin delta2 : K) : K :=
  if |delta2| < eps then 1
  else if delta2 > 0 then min 1 ((wmax - wi) / delta2) else min 1 ((wmin - wi) / delta2)

/-- ast/pyccel_functions.py:768-815 `barthlimiter_2d` (`dim = 2`, `eps = 1e-8`) and 818-864 `barthlimiter_3d` (`dim = 3`,
`eps = 1e-10`) for cell `i`; `grad k` the gradient components, `faces = faceid[i][0:dim+1]`. -/
def barthLimiter (dim : Nat) (eps : K) (wc wghost whalo : Nat → K) (grad : Vec K) (cellid0 cellid1 halofid : Nat → Nat) (name : Nat → Int)
    (centerc centerf : Nat → Vec K) (faces : List Nat) (i : Nat) : K :=
  let b := limiterBounds dim wc wghost whalo cellid0 cellid1 halofid name faces i
  faces.foldl (fun psi face =>
    let d0 := grad 0 * (centerf face 0 - centerc i 0) + grad 1 * (centerf face 1 - centerc i 1)
    let delta2 := if dim = 3 then d0 + grad 2 * (centerf face 2 - centerc i 2) else d0
    min psi (psiFace eps (wc i) b.1 b.2 delta2)) 1

/-- ast/pyccel_functions.py:2111-2120 `facetocell` for cell `i` (`faces = faceidc[i][0:dim+1]`). -/
def facetocell (u_face : Nat → K) (faces : List Nat) (dim : Nat) : K :=
  faces.foldl (fun s f => s + u_face f) 0 / ((dim : K) + 1)

end Verif.Interp
