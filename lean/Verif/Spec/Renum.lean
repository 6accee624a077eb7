import Verif.Spec.Parallel

/-!
# Specification: two numberings of one mesh

A mesh generator is free to number the nodes and the cells of a mesh as it likes.  `Renumbered` says that two meshes differ only in
that: node `k` of the second is node `g k` of the first (same coordinates, same label), cell `c` of the second is cell `σ c` of the first
(same nodes), and `g`, `σ` are one-to-one.
-/
namespace Verif.Spec
variable {K : Type*}

structure Renumbered (d1 : Nat) (nodeid : Nat → Nat → Nat) (node : Nat → K × K × K × Nat) (nodeid' : Nat → Nat → Nat)
    (node' : Nat → K × K × K × Nat) (nbnodes n : Nat) (σ g : Nat → Nat) : Prop where
  cell_lt : ∀ c < n, σ c < n
  cell_inj : ∀ c < n, ∀ c' < n, σ c = σ c' → c = c'
  node_lt : ∀ k < nbnodes, g k < nbnodes
  node_inj : ∀ k < nbnodes, ∀ k' < nbnodes, g k = g k' → k = k'
  corner_lt : ∀ c < n, ∀ j < d1, nodeid' c j < nbnodes
  /-- the corners of cell `c` of the second mesh are those of cell `σ c` of the first -/
  corner : ∀ c < n, ∀ j < d1, nodeid (σ c) j = g (nodeid' c j)
  /-- the same point and label -/
  point : ∀ k < nbnodes, node' k = node (g k)

end Verif.Spec
