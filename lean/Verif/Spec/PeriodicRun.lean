import Verif.Spec.Parallel
import Verif.Spec.Periodic
import Verif.Spec.RunFlow

/-! # Specification: meshes with periodic sides -/
namespace Verif.Spec
open Verif Verif.Dom Verif.Geo Verif.MeshFile Verif.Part
variable {K : Type*} [Field K] [LinearOrder K]

/-- A mesh as given by the user: the nodes of the cells, the nodes (coordinates and label), their numbers.  `dim + 1` nodes per cell. -/
structure Mesh (K : Type*) where
  dim : Nat
  nodeid : Nat → Nat → Nat
  node : Nat → K × K × K × Nat
  nbnodes : Nat
  n : Nat

/-- `l` lists the corners of a face of cell `c` that belongs to no other cell; `x` is the remaining corner of `c`. -/
def Mesh.Outer (m : Mesh K) (c : Nat) (l : List Nat) (x : Nat) : Prop :=
  c < m.n ∧ (l ++ [x]).Perm (nodesOf m.nodeid (m.dim + 1) c) ∧ ∀ c' < m.n, c' ≠ c → ¬ ∀ a ∈ l, Uses m.nodeid (m.dim + 1) c' a

/-- The labels a corner of a face of side `s` may have besides `s` (corners and edges of the domain keep the label of `in`/`out`, then
that of `upper`/`bottom`). -/
def cornerLabels (s : Nat) : List Nat :=
  if s = 3 ∨ s = 4 ∨ s = 33 ∨ s = 44 then [1, 2, 11, 22]
  else if s = 5 ∨ s = 6 then [1, 2, 11, 22, 3, 4, 33, 44]
  else if s = 55 ∨ s = 66 then [1, 2, 11, 22, 33, 44]
  else []

/-- The face with corners `l` lies on side `s` according to the labels of its corners. -/
def Mesh.On (m : Mesh K) (s : Nat) (l : List Nat) : Prop :=
  (∃ a ∈ l, labelOf m.node a = s) ∧ ∀ a ∈ l, labelOf m.node a = s ∨ labelOf m.node a ∈ cornerLabels s

/-- The sides of a domain: the physical ones and the periodic ones. -/
def wallSides (dim : Nat) : List Nat := if dim = 2 then [1, 2, 3, 4] else [1, 2, 3, 4, 5, 6]
def perSides (dim : Nat) : List Nat := if dim = 2 then [11, 22, 33, 44] else [11, 22, 33, 44, 55, 66]

/-- The centre of the face with corners `l`. -/
def Mesh.centre (m : Mesh K) (l : List Nat) (k : Nat) : K := (l.map (fun a => pos m.node a k)).sum / (m.dim : K)

/-- In direction `d` the sides `lo` (at 0) and `hi` (at `L`) face each other: every face (node) of one is the translate of a face (node)
of the other, and the domain lies between them.  (Nothing is required when the mesh has no node of these sides.) -/
structure Mesh.Facing (m : Mesh K) (d lo hi : Nat) (L : K) : Prop where
  up : ∀ c l x, m.Outer c l x → m.On lo l → ∃ c' l' x', m.Outer c' l' x' ∧ m.On hi l' ∧
    List.Forall₂ (fun a a' => IsTranslate d L (pos m.node a) (pos m.node a')) l l'
  down : ∀ c l x, m.Outer c l x → m.On hi l → ∃ c' l' x', m.Outer c' l' x' ∧ m.On lo l' ∧
    List.Forall₂ (fun a a' => IsTranslate d (-L) (pos m.node a) (pos m.node a')) l l'
  nup : ∀ a < m.nbnodes, labelOf m.node a = lo → ∃ a' < m.nbnodes, labelOf m.node a' = hi ∧ IsTranslate d L (pos m.node a) (pos m.node a')
  ndown : ∀ a < m.nbnodes, labelOf m.node a = hi → ∃ a' < m.nbnodes, labelOf m.node a' = lo ∧ IsTranslate d (-L) (pos m.node a) (pos m.node a')
  low : ∀ c l x, m.Outer c l x → m.On lo l → ∀ a ∈ l, pos m.node a d = 0
  high : ∀ c l x, m.Outer c l x → m.On hi l → ∀ a ∈ l, pos m.node a d = L
  range : ∀ b < m.nbnodes, (labelOf m.node b = lo ∨ labelOf m.node b = hi) → ∀ a < m.nbnodes, 0 ≤ pos m.node a d ∧ pos m.node a d ≤ L
  face : ∀ b < m.nbnodes, (labelOf m.node b = lo ∨ labelOf m.node b = hi) → ∃ c l x, m.Outer c l x ∧ m.On hi l

/-- A valid mesh, possibly with periodic sides (periods `L`), whose coordinates on the periodic sides are not changed by the rounding
`r` of the look-up keys. -/
structure Mesh.Valid (m : Mesh K) (L : Nat → K) (r : K → K) : Prop where
  nodes : ∀ c < m.n, ∀ j < m.dim + 1, m.nodeid c j < m.nbnodes
  used : ∀ k < m.nbnodes, ∃ c < m.n, Uses m.nodeid (m.dim + 1) c k
  label : ∀ c l x, m.Outer c l x → ∃ s ∈ wallSides m.dim ++ perSides m.dim, m.On s l
  x : m.Facing 0 11 22 (L 0)
  y : m.Facing 1 44 33 (L 1)
  z : m.dim = 3 → m.Facing 2 66 55 (L 2)
  /-- two nodes at the same place are the same -/
  apart : ∀ a < m.nbnodes, ∀ b < m.nbnodes, (∀ k < 3, pos m.node a k = pos m.node b k) → a = b
  /-- two boundary faces with the same centre are the same -/
  fapart : ∀ c l x c' l' x', m.Outer c l x → m.Outer c' l' x' → (∀ k < 3, m.centre l k = m.centre l' k) → l.Perm l'
  exact : ∀ a < m.nbnodes, labelOf m.node a ∈ perSides m.dim → ∀ k < 3, r (pos m.node a k) = pos m.node a k
  fexact : ∀ c l x, m.Outer c l x → (∃ s ∈ perSides m.dim, m.On s l) → ∀ k < 3, r (m.centre l k) = m.centre l k

/-- A valid triangular mesh. -/
structure Mesh.Valid2 (m : Mesh K) (L : Nat → K) (r : K → K) : Prop extends m.Valid L r where
  two : m.dim = 2
  area : ∀ c < m.n, signedArea (pos m.node (m.nodeid c 0)) (pos m.node (m.nodeid c 1)) (pos m.node (m.nodeid c 2)) ≠ 0
  opposite : ∀ c < m.n, ∀ c' < m.n, c ≠ c' → ∀ a b x y, [a, b, x].Perm (nodesOf m.nodeid 3 c) → [a, b, y].Perm (nodesOf m.nodeid 3 c') →
    signedArea (pos m.node a) (pos m.node b) (pos m.node x) * signedArea (pos m.node a) (pos m.node b) (pos m.node y) < 0

/-- A valid tetrahedral mesh. -/
structure Mesh.Valid3 (m : Mesh K) (L : Nat → K) (r : K → K) : Prop extends m.Valid L r where
  three : m.dim = 3
  volume : ∀ c < m.n, signedVol (pos m.node (m.nodeid c 0)) (pos m.node (m.nodeid c 1)) (pos m.node (m.nodeid c 2)) (pos m.node (m.nodeid c 3)) ≠ 0
  opposite : ∀ c < m.n, ∀ c' < m.n, c ≠ c' → ∀ a b d x y, [a, b, d, x].Perm (nodesOf m.nodeid 4 c) →
    [a, b, d, y].Perm (nodesOf m.nodeid 4 c') →
    signedVol (pos m.node a) (pos m.node b) (pos m.node d) (pos m.node x) * signedVol (pos m.node a) (pos m.node b) (pos m.node d) (pos m.node y) < 0

/-- The data a serial run has read from the file `readmesh` has written. -/
def Mesh.Read (m : Mesh K) (serial : RankData K) : Prop :=
  readMeshFile 1 0 (writeSerial (serialWrite m.nodeid m.node m.nbnodes m.n (m.dim + 1))) [] = some serial

/-- The periodic directions: axis, name of the side at 0, name of the side at the period. -/
def perDirs (dim : Nat) : List (Nat × Nat × Nat) := if dim = 2 then [(0, 11, 22), (1, 44, 33)] else [(0, 11, 22), (1, 44, 33), (2, 66, 55)]

/-- Faces `f` and `f'` of the Domain lie on facing periodic sides and are translates of each other by the period. -/
def PartnerFaces (D : Tables K) (dim : Nat) (L : Nat → K) (f f' : Nat) : Prop :=
  f < D.nbfaces ∧ f' < D.nbfaces ∧ ∃ t ∈ perDirs dim,
    (D.name f = (t.2.1 : Int) ∧ D.name f' = (t.2.2 : Int) ∧ IsTranslate t.1 (L t.1) (D.fcenter f) (D.fcenter f')) ∨
    (D.name f = (t.2.2 : Int) ∧ D.name f' = (t.2.1 : Int) ∧ IsTranslate t.1 (-L t.1) (D.fcenter f) (D.fcenter f'))

/-- The face tables of a Domain built from the mesh `m` with periods `L`: every outer face of the mesh is one face of the Domain, with its
cell, side and centre, listed as a boundary face or as a periodic face according to its side; every periodic face has exactly one
partner; partner faces have opposite normals, and the second cell of each is the cell of the other. -/
structure PeriodicDomain (m : Mesh K) (L : Nat → K) (D : Tables K) : Prop where
  cells : D.nbcells = m.n
  face : ∀ c l x s, m.Outer c l x → s ∈ wallSides m.dim ++ perSides m.dim → m.On s l → ∃ f < D.nbfaces, D.cellid f 0 = (c : Int) ∧
    D.name f = (s : Int) ∧ (∀ k < 3, D.fcenter f k = m.centre l k) ∧
    (f ∈ D.boundaryfaces ↔ s ∈ wallSides m.dim) ∧ (f ∈ D.periodicboundaryfaces ↔ s ∈ perSides m.dim)
  unique : ∀ f < D.nbfaces, ∀ f' < D.nbfaces, D.name f ≠ 0 → D.name f' ≠ 0 → (∀ k < 3, D.fcenter f k = D.fcenter f' k) → f = f'
  listed : ∀ f < D.nbfaces, f ∈ D.boundaryfaces ∨ f ∈ D.periodicboundaryfaces → ∃ c l x s, m.Outer c l x ∧
    s ∈ wallSides m.dim ++ perSides m.dim ∧ m.On s l ∧ D.cellid f 0 = (c : Int) ∧ D.name f = (s : Int) ∧ ∀ k < 3, D.fcenter f k = m.centre l k
  partner : ∀ f ∈ D.periodicboundaryfaces, ∃ f' ∈ D.periodicboundaryfaces, PartnerFaces D m.dim L f f' ∧
    ∀ f'', PartnerFaces D m.dim L f f'' → f'' = f'
  exchange : ∀ f f', PartnerFaces D m.dim L f f' → D.cellid f 1 = D.cellid f' 0 ∧ D.cellid f' 1 = D.cellid f 0
  normal : ∀ f f', PartnerFaces D m.dim L f f' → ∀ k < 3, D.normal f' k = - D.normal f k

/-- The velocity is periodic: the same at the centres of partner faces. -/
def PeriodicVelocity (D : Tables K) (dim : Nat) (L : Nat → K) (S : Run.Setup K) : Prop :=
  ∀ it f f', PartnerFaces D dim L f f' →
    S.u it (D.fcenter f 0) (D.fcenter f 1) (D.fcenter f 2) = S.u it (D.fcenter f' 0) (D.fcenter f' 1) (D.fcenter f' 2) ∧
    S.v it (D.fcenter f 0) (D.fcenter f 1) (D.fcenter f 2) = S.v it (D.fcenter f' 0) (D.fcenter f' 1) (D.fcenter f' 2) ∧
    S.w it (D.fcenter f 0) (D.fcenter f 1) (D.fcenter f 2) = S.w it (D.fcenter f' 0) (D.fcenter f' 1) (D.fcenter f' 2)

/-- The integral over the domain of the function with value `cell c` in cell `c`. -/
def massOf (D : Tables K) (cell : Nat → K) : K := ∑ c ∈ Finset.range D.nbcells, D.volume c * cell c

/-- What leaves the domain through its walls, first order. -/
def wallOutflow (D : Tables K) (S : Run.Setup K) (it : Nat) (cell : Nat → K) : K := (D.boundaryfaces.map (outflow D S it cell)).sum

end Verif.Spec
