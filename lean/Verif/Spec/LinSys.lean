import Verif.Model.LinSys
import Verif.Spec.Interp

/-!
# Vocabulary for the linear system (C46-C52)
-/
namespace Verif.LinSys
open Verif Verif.Geo Verif.Interp

variable {K : Type*} [Field K] [LinearOrder K]

/-- Entry `r` of the product of the matrix given by triplets (duplicates are summed) with the vector `P`. -/
def applyT (ts : List (Triplet K)) (P : Nat → K) (r : Nat) : K :=
  (ts.map (fun t => if t.1 = r then t.2.2 * P t.2.1 else 0)).sum

/-- Entry `(i, j)` of the matrix given by triplets (duplicates are summed). -/
def entryT (ts : List (Triplet K)) (i j : Nat) : K := (ts.map (fun t => if t.1 = i ∧ t.2.1 = j then t.2.2 else 0)).sum

/-- The fields seen by one process when the global cell values are `P`: own cells, halo cells, and ghosts equal to the adjacent cell
(homogeneous Neumann). -/
structure FieldsOf (M : Mesh K) (P : Nat → K) (w : Fields K) : Prop where
  c : ∀ c, w.c c = P (M.loctoglob c)
  halo : ∀ h, w.halo h = P (M.haloext h)
  ghost : ∀ n, ∀ g ∈ M.ghostrows n, g.last ≠ -1 → w.ghost g.last.toNat = w.c g.cell
  haloghost : ∀ n, ∀ g ∈ M.haloghostrows n, g.last ≠ -1 → w.haloghost g.last.toNat = w.halo g.cell

/-- Consistency of the node tables at node `n`: unused ghost tables are all padding, halo neighbours only on subdomain boundaries,
periodic neighbours only at nodes with a periodic label (`dim`: labels 11..44 in 2D, 11..66 in 3D). -/
structure NodeOk (dim : Nat) (M : Mesh K) (n : Nat) : Prop where
  ghosts_eq : M.T.ghosts n = (M.ghostrows n).map (fun g => (g.point, g.last))
  haloghosts_eq : M.T.haloghosts n = (M.haloghostrows n).map (fun g => (g.point, g.last))
  first : firstGhost (M.T.ghosts n) = -1 → ∀ g ∈ M.ghostrows n, g.last = -1
  halo : M.T.namen n ≠ 10 → M.T.haloidn n = [] ∧ ∀ g ∈ M.haloghostrows n, g.last = -1
  per : M.T.periodicn n ≠ [] → M.T.oldname n = 11 ∨ M.T.oldname n = 22 ∨ M.T.oldname n = 33 ∨ M.T.oldname n = 44 ∨
    (dim = 3 ∧ (M.T.oldname n = 55 ∨ M.T.oldname n = 66))

/-- The value at a vertex in the scheme: the Dirichlet value at a vertex with a Dirichlet label, otherwise the interpolated one. -/
def vertexValue2 (M : Mesh K) (w : Fields K) (BCdirichlet : List Int) (Pbordnode : Nat → K) (n : Nat) : K :=
  if M.oldnamen n ∈ BCdirichlet then Pbordnode n else centertovertex2 M.T w n

/-- The flux through face `i`: normal component of the diamond gradient of the four values (times the length of the face, `normal` not
being unit). -/
def flux2 (M : Mesh K) (i : Nat) (v1 v2 vL vR : K) : K :=
  let g := diamondGrad2 (faceGradientInfo2 M.F i) v1 v2 vL vR
  g.1 * M.F.normal i 0 + g.2 * M.F.normal i 1

/-- The balance of cell `c`: fluxes through its inner, halo and Dirichlet faces, divided by the volume; Neumann faces carry no flux. -/
def balance2 (M : Mesh K) (w : Fields K) (BCdirichlet : List Int) (L : Lists) (Pbordnode Pbordface : Nat → K) (c : Nat) : K :=
  let v := vertexValue2 M w BCdirichlet Pbordnode
  let φ := fun i vR => flux2 M i (v (M.F.nodeid i 0)) (v (M.F.nodeid i 1)) (w.c (M.F.cellid0 i)) vR / M.volume c
  (L.inner.map (fun i => (if M.F.cellid0 i = c then φ i (w.c (M.F.cellid1 i)) else 0)
      - (if M.F.cellid1 i = c then φ i (w.c (M.F.cellid1 i)) else 0))).sum
    + (L.halo.map (fun i => if M.F.cellid0 i = c then φ i (w.halo (M.F.halofid i)) else 0)).sum
    + (L.dirichlet.map (fun i => if M.F.cellid0 i = c then
        flux2 M i (Pbordnode (M.F.nodeid i 0)) (Pbordnode (M.F.nodeid i 1)) (w.c c) (2 * Pbordface i - w.c c) / M.volume c else 0)).sum

/-- What the mesh must satisfy for the assembly (`dim` = 2, 3; `n` cells). -/
structure Ok (dim : Nat) (M : Mesh K) (L : Lists) (n : Nat) : Prop where
  inj : ∀ a < n, ∀ b < n, M.loctoglob a = M.loctoglob b → a = b
  cell0 : ∀ i ∈ L.inner ++ L.halo ++ L.dirichlet, M.F.cellid0 i < n
  cell1 : ∀ i ∈ L.inner, M.F.cellid1 i < n
  node : ∀ i ∈ L.inner ++ L.halo, ∀ j < dim, NodeOk dim M (M.F.nodeid i j)
  /-- no periodic neighbours at the vertices of halo faces -/
  haloper : ∀ i ∈ L.halo, ∀ j < dim, M.T.periodicn (M.F.nodeid i j) = []
  /-- the vertices of Dirichlet faces have ghosts -/
  dir : ∀ i ∈ L.dirichlet, ∀ j < dim, firstGhost (M.T.ghosts (M.F.nodeid i j)) ≠ -1

/-- The value at a vertex, 3D. -/
def vertexValue3 (M : Mesh K) (w : Fields K) (BCdirichlet : List Int) (Pbordnode : Nat → K) (n : Nat) : K :=
  if M.oldnamen n ∈ BCdirichlet then Pbordnode n else centertovertex3 M.T w n

/-- The flux through face `i`, 3D. -/
def flux3 (M : Mesh K) (i : Nat) (vA vB vC vL vR : K) : K :=
  dot3 (diamondGrad3 (faceGradientInfo3 M.F i) (M.F.normal i) vA vB vC vC vL vR) (M.F.normal i)

/-- The balance of cell `c`, 3D. -/
def balance3 (M : Mesh K) (w : Fields K) (BCdirichlet : List Int) (L : Lists) (Pbordnode Pbordface : Nat → K) (c : Nat) : K :=
  let v := vertexValue3 M w BCdirichlet Pbordnode
  let φ := fun i vR => flux3 M i (v (M.F.nodeid i 0)) (v (M.F.nodeid i 1)) (v (M.F.nodeid i 2)) (w.c (M.F.cellid0 i)) vR / M.volume c
  (L.inner.map (fun i => (if M.F.cellid0 i = c then φ i (w.c (M.F.cellid1 i)) else 0)
      - (if M.F.cellid1 i = c then φ i (w.c (M.F.cellid1 i)) else 0))).sum
    + (L.halo.map (fun i => if M.F.cellid0 i = c then φ i (w.halo (M.F.halofid i)) else 0)).sum
    + (L.dirichlet.map (fun i => if M.F.cellid0 i = c then
        flux3 M i (Pbordnode (M.F.nodeid i 0)) (Pbordnode (M.F.nodeid i 1)) (Pbordnode (M.F.nodeid i 2)) (w.c c) (2 * Pbordface i - w.c c)
          / M.volume c else 0)).sum

/-- The vertex stencil around node `n` is not contained in a line (plane). -/
def WellPosed (dim : Nat) (M : Mesh K) (n : Nat) : Prop :=
  ¬ Flat dim ((nodeStencil dim M.T ⟨fun _ => 0, fun _ => 0, fun _ => 0, fun _ => 0⟩ n).map Prod.fst)

/-- The line from the cell centre to the point across face `i` is parallel to the normal (for a boundary face the point across is the
mirror image of the centre, C66). -/
def Orthogonal2 (F : FaceTabs K) (i : Nat) : Prop :=
  (right2 F i 1 - F.centerc (F.cellid0 i) 1) * F.normal i 0 = (right2 F i 0 - F.centerc (F.cellid0 i) 0) * F.normal i 1

/-- Same, 3D. -/
def Orthogonal3 (F : FaceTabs K) (i : Nat) : Prop :=
  ∃ t : K, ∀ k < 3, right3 F i k - F.centerc (F.cellid0 i) k = t * F.normal i k

end Verif.LinSys
