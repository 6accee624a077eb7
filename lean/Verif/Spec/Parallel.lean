import Verif.Spec.Part
import Verif.Spec.Geometry
import Mathlib.Logic.Relation

/-! # Specification: valid meshes, and what "the same run on several processes" means -/
namespace Verif.Spec
variable {K : Type*} [Field K] [LinearOrder K]

/-- Position of a node given as (x, y, z, label). -/
def pos (node : Nat → K × K × K × Nat) (s : Nat) : Nat → K
  | 0 => (node s).1
  | 1 => (node s).2.1
  | _ => (node s).2.2.1

/-- Label of a node. -/
def labelOf (node : Nat → K × K × K × Nat) (s : Nat) : Nat := (node s).2.2.2

/-- The node list of a cell. -/
def nodesOf (nodeid : Nat → Nat → Nat) (d1 c : Nat) : List Nat := (List.range d1).map (nodeid c)

/-- Labels `a`, `b` of the two ends of a boundary edge name a side of the domain: both are side labels and they agree, or one of
them is "upper" (3) or "bottom" (4). -/
def SideLabels2 (a b : Nat) : Prop :=
  (a = 1 ∨ a = 2 ∨ a = 3 ∨ a = 4) ∧ (b = 1 ∨ b = 2 ∨ b = 3 ∨ b = 4) ∧ (a = b ∨ a = 3 ∨ a = 4 ∨ b = 3 ∨ b = 4)

/-- A valid triangular mesh with `n` cells and `nbnodes` nodes, without periodic sides. -/
structure ValidMesh2 (nodeid : Nat → Nat → Nat) (node : Nat → K × K × K × Nat) (nbnodes n : Nat) : Prop where
  /-- the nodes of the cells exist -/
  nodes : ∀ c < n, ∀ j < 3, nodeid c j < nbnodes
  /-- every node is a node of a cell -/
  used : ∀ k < nbnodes, ∃ c < n, Uses nodeid 3 c k
  /-- no triangle is flat -/
  area : ∀ c < n, signedArea (pos node (nodeid c 0)) (pos node (nodeid c 1)) (pos node (nodeid c 2)) ≠ 0
  /-- two triangles with a common edge `a b` lie on opposite sides of it -/
  opposite : ∀ c < n, ∀ c' < n, c ≠ c' → ∀ a b x y, [a, b, x].Perm (nodesOf nodeid 3 c) → [a, b, y].Perm (nodesOf nodeid 3 c') →
    signedArea (pos node a) (pos node b) (pos node x) * signedArea (pos node a) (pos node b) (pos node y) < 0
  /-- the ends of an edge of one triangle only carry side labels -/
  label : ∀ c < n, ∀ a b x, [a, b, x].Perm (nodesOf nodeid 3 c) →
    (∀ c' < n, c' ≠ c → ¬ (Uses nodeid 3 c' a ∧ Uses nodeid 3 c' b)) → SideLabels2 (labelOf node a) (labelOf node b)

/-- Labels of the three corners of a boundary triangle (3D). -/
def SideLabels3 (a b c : Nat) : Prop :=
  (1 ≤ a ∧ a ≤ 6) ∧ (1 ≤ b ∧ b ≤ 6) ∧ (1 ≤ c ∧ c ≤ 6) ∧
    ((a = b ∧ a = c) ∨ 3 ≤ a ∨ 3 ≤ b ∨ 3 ≤ c)

/-- A valid tetrahedral mesh without periodic sides. -/
structure ValidMesh3 (nodeid : Nat → Nat → Nat) (node : Nat → K × K × K × Nat) (nbnodes n : Nat) : Prop where
  nodes : ∀ c < n, ∀ j < 4, nodeid c j < nbnodes
  used : ∀ k < nbnodes, ∃ c < n, Uses nodeid 4 c k
  /-- no tetrahedron is flat -/
  volume : ∀ c < n, signedVol (pos node (nodeid c 0)) (pos node (nodeid c 1)) (pos node (nodeid c 2)) (pos node (nodeid c 3)) ≠ 0
  /-- two tetrahedra with a common face `a b d` lie on opposite sides of it -/
  opposite : ∀ c < n, ∀ c' < n, c ≠ c' → ∀ a b d x y, [a, b, d, x].Perm (nodesOf nodeid 4 c) →
    [a, b, d, y].Perm (nodesOf nodeid 4 c') →
    signedVol (pos node a) (pos node b) (pos node d) (pos node x) * signedVol (pos node a) (pos node b) (pos node d) (pos node y) < 0
  /-- the corners of a face of one tetrahedron only carry side labels -/
  label : ∀ c < n, ∀ a b d x, [a, b, d, x].Perm (nodesOf nodeid 4 c) →
    (∀ c' < n, c' ≠ c → ¬ (Uses nodeid 4 c' a ∧ Uses nodeid 4 c' b ∧ Uses nodeid 4 c' d)) →
    SideLabels3 (labelOf node a) (labelOf node b) (labelOf node d)

/-- The rank's array `loc` holds, for every cell of the rank, the value of the global array `glob`
(`loctoglob`: the global numbers of the rank's cells). -/
def Restricts {α : Type*} (loctoglob : List Nat) (loc glob : Nat → α) : Prop :=
  ∀ j g, loctoglob[j]? = some g → loc j = glob g

/-- Face `lf` of a rank (local node numbers) and face `gf` of the whole mesh have the same nodes
(`nodeloctoglob`: the global numbers of the rank's nodes). -/
def SameFace (nodeloctoglob : List Nat) (lf gf : List Nat) : Prop := (lf.map (fun s => nodeloctoglob.getD s 0)).Perm gf

/-- Cells `a`, `b` have a common face (`dim` common nodes) through node `k`. -/
def ShareFaceAt (dim : Nat) (nodeid : Nat → Nat → Nat) (k a b : Nat) : Prop :=
  ∃ f : List Nat, f.length = dim ∧ f.Nodup ∧ k ∈ f ∧ ∀ x ∈ f, Uses nodeid (dim + 1) a x ∧ Uses nodeid (dim + 1) b x

/-- Around every node one can go from any cell to any other one through faces containing the node (no cells touching in a node only). -/
def StarConnected (dim : Nat) (nodeid : Nat → Nat → Nat) (n : Nat) : Prop :=
  ∀ k, ∀ a < n, ∀ b < n, Uses nodeid (dim + 1) a k → Uses nodeid (dim + 1) b k →
    Relation.ReflTransGen (fun x y => x < n ∧ y < n ∧ ShareFaceAt dim nodeid k x y) a b

/-- Node `s` is a node of cells of two different subdomains. -/
def SharedNode (dim : Nat) (nodeid : Nat → Nat → Nat) (epart : Nat → Nat) (n s : Nat) : Prop :=
  ∃ a < n, ∃ b < n, epart a ≠ epart b ∧ Uses nodeid (dim + 1) a s ∧ Uses nodeid (dim + 1) b s

end Verif.Spec
