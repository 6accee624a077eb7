import Verif.Model.HaloGhost

/-! Specification of the exchange of ghost cells (C65). -/
namespace Verif.Spec
open Verif.HaloGhost
variable {K : Type*}

/-- A ghost cell held by another rank: that rank, the row and the face information it holds. -/
structure Remote (K : Type*) where
  rank : Nat
  row : GRow K
  info : List K
deriving DecidableEq

/-- The ghost cells that the other ranks hold at global node `g`, rank by rank. -/
def remoteGhosts (SIZE : Nat) (data : Nat → RankGhost K) (p g : Nat) : List (Remote K) :=
  (List.range SIZE).flatMap (fun q => if q = p then [] else
    (data q).halonodes.flatMap (fun j => if (data q).gnode j = g then
      (((data q).ghosts j).zip ((data q).info j)).map (fun e => ⟨q, e.1, e.2⟩) else []))

/-- Row `r` of rank `p` describes the remote ghost cell `e`: same point, same boundary label, and its cell column is a halo cell of
`p` (recorded at one of its halo nodes) whose global number is the cell of `e` on its owner. -/
def Describes (data : Nat → RankGhost K) (p : Nat) (r : GRow K) (e : Remote K) : Prop :=
  r.pt = e.row.pt ∧ r.name = e.row.name ∧ r.last ≠ -1 ∧
  ∃ h : Nat, r.cell = (h : Int) ∧ (∃ i ∈ (data p).halonodes, h ∈ (data p).halonid i) ∧
    (data p).ext0 h = (data e.rank).gcell e.row.cell.toNat

/-- The data of the ranks fit together: what `C65_partitioned_mesh` shows of a partitioned mesh. -/
structure GhostAgree (SIZE : Nat) (data : Nat → RankGhost K) (nparts : Nat → List Nat) : Prop where
  nodup : ∀ q < SIZE, (data q).halonodes.Nodup
  bound : ∀ q < SIZE, ∀ j ∈ (data q).halonodes, j < (data q).nbnodes
  nparts_eq : ∀ q < SIZE, (data q).nparts = nparts
  nparts_nodup : ∀ g, (nparts g).Nodup
  /-- a rank is one of the parts of its own halo nodes -/
  self : ∀ q < SIZE, ∀ j ∈ (data q).halonodes, q ∈ nparts ((data q).gnode j)
  /-- the other parts of a halo node are neighbours -/
  neigh : ∀ q < SIZE, ∀ j ∈ (data q).halonodes, ∀ k ∈ nparts ((data q).gnode j), k ≠ q → k < SIZE ∧ k ∈ (data q).neigh
  info_len : ∀ q < SIZE, ∀ j ∈ (data q).halonodes, ((data q).info j).length = ((data q).ghosts j).length
  /-- the last column of a ghost row is a face number -/
  face : ∀ q < SIZE, ∀ j ∈ (data q).halonodes, ∀ r ∈ (data q).ghosts j, 0 ≤ r.last
  /-- the cell of a ghost at a node shared with a halo node of `p` is a halo cell of `p` -/
  known : ∀ p < SIZE, ∀ i ∈ (data p).halonodes, ∀ e ∈ remoteGhosts SIZE data p ((data p).gnode i),
    ∃ i' ∈ (data p).halonodes, ∃ h ∈ (data p).halonid i', (data p).ext0 h = (data e.rank).gcell e.row.cell.toNat

end Verif.Spec
