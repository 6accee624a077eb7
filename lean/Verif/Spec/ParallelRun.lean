import Verif.Model.RunVar
import Verif.Spec.Parallel
import Verif.Spec.ParallelBC

/-! # Specification: the arrays of a run on several processes against the arrays of the serial run -/
namespace Verif.Spec
open Verif.Run Verif.MeshFile Verif.Dom
variable {α : Type*} {K : Type*} [Field K] [LinearOrder K]

/-- In every cell of every rank, the array `a` of the rank has the value of the serial array `b`. -/
def CellsAgree (SIZE : Nat) (data : Nat → RankData K) (a : Nat → Nat → α) (b : Nat → α) : Prop :=
  ∀ p < SIZE, Restricts (data p).loctoglob (a p) b

/-- The same at every node of every rank. -/
def NodesAgree (SIZE : Nat) (data : Nat → RankData K) (a : Nat → Nat → α) (b : Nat → α) : Prop :=
  ∀ p < SIZE, Restricts (data p).nodeloctoglob (a p) b

/-- The same on every face of every rank (faces are the same when they have the same nodes). -/
def FacesAgree (SIZE : Nat) (data : Nat → RankData K) (L : Nat → Tables K) (G : Tables K) (a : Nat → Nat → α) (b : Nat → α) : Prop :=
  ∀ p < SIZE, ∀ f < (L p).nbfaces, ∀ F < G.nbfaces, SameFace (data p).nodeloctoglob ((L p).fnode f) (G.fnode F) → a p f = b F

/-- Every slot of the halo arrays `a` holds the value of the serial array `b` in the cell the slot stands for (the first entry of its
row in `halosext`). -/
def HalosAgree (SIZE : Nat) (data : Nat → RankData K) (a : Nat → List K) (b : Nat → K) : Prop :=
  ∀ p < SIZE, ∀ (k : Nat) (row : List Nat) E, (data p).halosext[k]? = some row → row.head? = some E → (a p).getD k 0 = b E

/-- The conditions of the boundary at the nodes shared between subdomains: for every boundary face `F` of the mesh `G` and every node
`s` of it shared between two subdomains, the condition on `F` is Neumann, or Dirichlet with the function of the location the node is
labelled with. -/
def CornersOk (dim : Nat) (nodeid : Nat → Nat → Nat) (epart : Nat → Nat) (n : Nat) (G : Tables K) (bc : Int → BCond K) : Prop :=
  ∀ F ∈ G.boundaryfaces, ∀ s ∈ G.fnode F, SharedNode dim nodeid epart n s → CornerOk dim bc (G.name F) (G.oldname s)

/-- For the field of a linear system: a boundary node shared between two subdomains carries the label of a Dirichlet location, or the
boundary faces around it have Neumann conditions. -/
def FieldCornersOk (dim : Nat) (nodeid : Nat → Nat → Nat) (epart : Nat → Nat) (n : Nat) (G : Tables K) (bc : Int → BCond K) : Prop :=
  ∀ F ∈ G.boundaryfaces, ∀ s ∈ G.fnode F, SharedNode dim nodeid epart n s →
    (G.oldname s ∈ locNames dim ∧ (bc (G.oldname s)).isDirichlet = true) ∨ bc (G.name F) = .neumann

end Verif.Spec
