import Verif.Spec.Conn

/-! # Specification of the partition -/
namespace Verif.Spec

/-- Node `k` belongs to subdomain `q`: METIS put it there or some cell of `q` uses it. -/
def NodeIn (nodeid : Nat → Nat → Nat) (npart0 epart : Nat → Nat) (n d1 q k : Nat) : Prop :=
  npart0 k = q ∨ ∃ i < n, epart i = q ∧ Uses nodeid d1 i k

/-- What METIS guarantees for the nodes of cells: the part of a used node is the part of a cell using it. -/
def NodePartOk (nodeid : Nat → Nat → Nat) (npart0 epart : Nat → Nat) (n d1 : Nat) : Prop :=
  ∀ i < n, ∀ j < d1, ∃ i' < n, epart i' = npart0 (nodeid i j) ∧ Uses nodeid d1 i' (nodeid i j)

end Verif.Spec
