import Verif.Model.Interp

/-!
# Vocabulary for interpolation and gradients (C38-C45)
-/
namespace Verif.Interp
open Verif Verif.Geo

variable {K : Type*} [Field K] [LinearOrder K]

/-- The affine function `p ↦ a + g·p` in `d` variables (`d = 2, 3`). -/
def affine (d : Nat) (a : K) (g : Vec K) (p : Vec K) : K := a + ∑ k ∈ Finset.range d, g k * p k

/-- All points lie on one line (d = 2) / one plane (d = 3). -/
def Flat (d : Nat) (pts : List (Vec K)) : Prop :=
  ∃ (u : Vec K) (c : K), (∃ k < d, u k ≠ 0) ∧ ∀ p ∈ pts, ∑ k ∈ Finset.range d, u k * p k = c

/-- The ghost rows in use, with their values. -/
def ghostPart (gs : List (Vec K × Int)) (val : Nat → K) : List (Vec K × K) :=
  (gs.filter (fun g => decide (g.2 ≠ -1))).map (fun g => (g.1, val g.2.toNat))

/-- Periodic neighbours of a node (points translated by the stored shift). -/
def periodicPart (dim : Nat) (T : NodeTabs K) (w : Fields K) (i : Nat) : List (Vec K × K) :=
  if T.oldname i = 11 ∨ T.oldname i = 22 then (T.periodicn i).map (fun c => (shiftX (T.centerc c) (T.shift c), w.c c))
  else if T.oldname i = 33 ∨ T.oldname i = 44 then (T.periodicn i).map (fun c => (shiftY (T.centerc c) (T.shift c), w.c c))
  else if dim = 3 ∧ (T.oldname i = 55 ∨ T.oldname i = 66) then
    (T.periodicn i).map (fun c => (shiftZ (T.centerc c) (T.shift c), w.c c))
  else []

/-- The points around node `i` with their values: cells, ghosts, periodic cells, and on a subdomain boundary the ghosts of other
subdomains and the halo cells. -/
def nodeStencil (dim : Nat) (T : NodeTabs K) (w : Fields K) (i : Nat) : List (Vec K × K) :=
  (T.cellidn i).map (fun c => (T.centerc c, w.c c))
    ++ (if firstGhost (T.ghosts i) ≠ -1 then ghostPart (T.ghosts i) w.ghost else [])
    ++ periodicPart dim T w i
    ++ (if T.namen i = 10 then ghostPart (T.haloghosts i) w.haloghost ++ (T.haloidn i).map (fun c => (T.centerh c, w.halo c)) else [])

/-- The neighbours of cell `i` with their values, used by the least-squares gradient.  `maxname` is 4 in 2D, 6 in 3D; `per` the
periodic neighbours. -/
def cellStencil (maxname : Int) (T : NodeTabs K) (C : CellTabs) (w : Fields K) (per : List (Vec K × K)) (i : Nat) : List (Vec K × K) :=
  (C.cellnid i).map (fun c => (T.centerc c, w.c c)) ++ per
    ++ (C.halonid i).map (fun c => (T.centerh c, w.halo c))
    ++ (C.nodes i).flatMap (fun nod => (if T.oldname nod ≤ maxname then ghostPart (T.ghosts nod) w.ghost else [])
        ++ ghostPart (T.haloghosts nod) w.haloghost)

/-- Periodic neighbours of cell `i` in 2D, through its nodes. -/
def cellPeriodic2 (T : NodeTabs K) (C : CellTabs) (w : Fields K) (i : Nat) : List (Vec K × K) :=
  (C.nodes i).flatMap (fun nod => periodicPart 2 T w nod)

/-- The point on the other side of face `i`: the centre of the neighbour; moved by the period in `x` (labels 11, 22), in `y` (33, 44)
or in `z` (55, 66) if the neighbour is across a periodic side; the halo cell's centre (10); the ghost point of a boundary face otherwise. -/
def OtherPoint (F : FaceTabs K) (i : Nat) (p : Vec K) : Prop :=
  let R := F.centerc (F.cellid1 i)
  let s := F.shift (F.cellid1 i)
  let moved : Vec K → Nat → Prop := fun p d => ∀ k, p k = if k = d then R k + s k else R k
  (F.name i = 0 → p = R) ∧ (F.name i ∈ [11, 22] → moved p 0) ∧ (F.name i ∈ [33, 44] → moved p 1) ∧ (F.name i ∈ [55, 66] → moved p 2) ∧
    (F.name i = 10 → p = F.centerh (F.halofid i)) ∧ (F.name i ∉ [0, 10, 11, 22, 33, 44, 55, 66] → p = F.ghostcenter i)

/-- `g` is the diamond gradient in 2D of the data: it reproduces the differences along the face and across the face. -/
def IsDiamondGrad2 (g : K × K) (x1 x2 v1 v2 : Vec K) (vi1 vi2 vv1 vv2 : K) : Prop :=
  g.1 * (x2 0 - x1 0) + g.2 * (x2 1 - x1 1) = vi2 - vi1 ∧ g.1 * (v2 0 - v1 0) + g.2 * (v2 1 - v1 1) = vv2 - vv1

/-- `g` is the diamond gradient in 3D of the data. -/
def IsDiamondGrad3 (g : Vec K) (A B C v1 v2 : Vec K) (VA VB VC VL VR : K) : Prop :=
  ∑ k ∈ Finset.range 3, g k * (A k - C k) = VA - VC ∧ ∑ k ∈ Finset.range 3, g k * (B k - C k) = VB - VC ∧
    ∑ k ∈ Finset.range 3, g k * (v2 k - v1 k) = VR - VL

/-- The face belongs to exactly one of the five families. -/
inductive FaceKind | inner | periodic | halo | dirichlet | neumann

/-- `i` is in the list of its kind and in no other list. -/
def FaceLists.HasKind (L : FaceLists) (i : Nat) : FaceKind → Prop
  | .inner => i ∈ L.inner ∧ i ∉ L.periodic ∧ i ∉ L.halo ∧ i ∉ L.dirichlet ∧ i ∉ L.neumann
  | .periodic => i ∈ L.periodic ∧ i ∉ L.inner ∧ i ∉ L.halo ∧ i ∉ L.dirichlet ∧ i ∉ L.neumann
  | .halo => i ∈ L.halo ∧ i ∉ L.inner ∧ i ∉ L.periodic ∧ i ∉ L.dirichlet ∧ i ∉ L.neumann
  | .dirichlet => i ∈ L.dirichlet ∧ i ∉ L.inner ∧ i ∉ L.periodic ∧ i ∉ L.halo ∧ i ∉ L.neumann
  | .neumann => i ∈ L.neumann ∧ i ∉ L.inner ∧ i ∉ L.periodic ∧ i ∉ L.halo ∧ i ∉ L.dirichlet

/-- The value on the other side of the face: the neighbouring cell, the halo cell or the ghost cell. -/
def otherValue (F : FaceTabs K) (w : Fields K) (i : Nat) : FaceKind → K
  | .inner | .periodic => w.c (F.cellid1 i)
  | .halo => w.halo (F.halofid i)
  | .dirichlet | .neumann => w.ghost i

/-- The potential used at a vertex and across the face by `compute_P_gradient_*`, by kind of face: Dirichlet faces use the Dirichlet
data at their vertices and the value reflected about the Dirichlet value of the face; the other faces use the Dirichlet data at the
vertices with a Dirichlet label and the interpolated potential at the others. -/
def potNode (P_node Pbordnode : Nat → K) (oldname : Nat → Int) (BCdirichlet : List Int) (n : Nat) : FaceKind → K
  | .dirichlet => Pbordnode n
  | _ => if oldname n ∈ BCdirichlet then Pbordnode n else P_node n

/-- See `potNode`. -/
def potOther (F : FaceTabs K) (w : Fields K) (Pbordface : Nat → K) (i : Nat) : FaceKind → K
  | .dirichlet => 2 * Pbordface i - w.c (F.cellid0 i)
  | k => otherValue F w i k

/-- The value on the other side of a face, by the face's name: a boundary face (1..6) has a ghost, a face on a subdomain boundary (10)
a halo cell, an inner (0) or periodic (> 10) face a cell. -/
def acrossFace (wc wghost whalo : Nat → K) (cellid1 halofid : Nat → Nat) (name : Nat → Int) (f : Nat) : K :=
  if name f = 10 then whalo (halofid f) else if 1 ≤ name f ∧ name f ≤ 6 then wghost f else wc (cellid1 f)

/-- The values of cell `i` and of the cells/ghosts/halos on both sides of its faces. -/
def limiterValues (wc wghost whalo : Nat → K) (cellid0 cellid1 halofid : Nat → Nat) (name : Nat → Int) (faces : List Nat) (i : Nat) : List K :=
  wc i :: faces.flatMap (fun f => [wc (cellid0 f), acrossFace wc wghost whalo cellid1 halofid name f])

/-- The unlimited increment of the reconstruction from the centre of cell `i` to the centre of face `f`. -/
def increment (dim : Nat) (grad : Vec K) (centerc centerf : Nat → Vec K) (i f : Nat) : K :=
  ∑ k ∈ Finset.range dim, grad k * (centerf f k - centerc i k)

/-- Names a face can have in `dim` dimensions. -/
def ValidName (dim : Nat) (n : Int) : Prop := n = 0 ∨ n ≥ 10 ∨ (1 ≤ n ∧ n ≤ 2 * dim)

end Verif.Interp
