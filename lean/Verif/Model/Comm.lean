import Verif.Model.MeshFile

/-!
# Model of the halo exchange (`comms/communication.py:16-72`, `ast/core.py` `update_halo_value`)

The state of all `SIZE` ranks is a function of the rank.  Collectives are modelled by their MPI specification on the buffers of all
ranks; a count mismatch (an MPI error / truncation) or a missing dictionary key gives `none`.
-/
namespace Verif.Comm
open Verif.MeshFile
variable {K : Type*}

/-- comms/communication.py:44-46: `scount[neigh[0][i]] = neigh[1][i]` on a zero array. -/
def scountArr (neigh : List (List Nat)) : Nat → Nat :=
  ((neigh.getD 0 []).zip (neigh.getD 1 [])).foldl (fun s e => setAt s e.1 e.2) (fun _ => 0)

/-- comms/communication.py:48: `rcount = COMM.alltoall(scount)`: entry `q` on rank `p` is entry `p` on rank `q`. -/
def rcountArr (neigh : Nat → List (List Nat)) (p : Nat) : Nat → Nat := fun q => scountArr (neigh q) p

/-- comms/communication.py:69: `scount[scount>0]` (and `rcount`). -/
def positive (SIZE : Nat) (c : Nat → Nat) : List Nat := ((List.range SIZE).map c).filter (fun x => 0 < x)

/-- comms/communication.py:50-53: `taille`. -/
def taille (SIZE : Nat) (c : Nat → Nat) : Nat := (List.range SIZE).foldl (fun t q => t + c q) 0

/-- Python dictionary look-up in the list of (key, value) insertions: the last insertion wins, a missing key is a `KeyError`. -/
def dictGet (d : List (Nat × Nat)) (k : Nat) : Option Nat := (d.reverse.find? (fun e => e.1 = k)).map (·.2)

/-- comms/communication.py:55-57: `indsend`. -/
def indsend (globtoloc : List (Nat × Nat)) (halosint : List Nat) : Option (List Nat) := halosint.mapM (dictGet globtoloc)

/-- comms/communication.py:16-19 `define_halosend`: `w_halosend[:] = w_c[indsend[:]]`. -/
def halosend (cell : Nat → K) (ind : List Nat) : List K := ind.map cell

/-- The `i`-th block of a buffer cut according to the counts (displacements are the prefix sums, the default of mpi4py). -/
def block (counts : List Nat) (buf : List K) (i : Nat) : List K := (buf.drop (counts.take i).sum).take (counts.getD i 0)

/-- `Neighbor_alltoallv` on the graph where the sources and destinations of rank `p` are `nbr p`: rank `p` receives, for the `j`-th
neighbour `q`, the block of `q`'s buffer for `p`, and stores it after the earlier ones.  `none`: a count mismatch. -/
def neighborAlltoallv (nbr : Nat → List Nat) (scount rcount : Nat → List Nat) (send : Nat → List K) (p : Nat) :
    Option (List K) :=
  ((List.range (nbr p).length).mapM (fun j =>
    let q := (nbr p).getD j 0
    let b := block (scount q) (send q) ((nbr q).idxOf p)
    if b.length = (rcount p).getD j 0 ∧ p ∈ nbr q ∧ (scount q).length = (nbr q).length then some b else none)).map List.flatten

/-- `Variable.update_halo_value` (ast/core.py:420-423: `define_halosend`, then `all_to_all`) on all ranks, with the data
prepared by `prepare_comm` from the mesh data of each rank: the halo array of rank `p`. -/
def updateHalo (SIZE : Nat) (data : Nat → RankData K) (cell : Nat → Nat → K) (p : Nat) : Option (List K) := do
  let neigh := fun q => (data q).neigh
  let send ← (List.range SIZE).mapM (fun q => (indsend (data q).globtoloc (data q).halosint).map (halosend (cell q)))
  let scount := fun q => positive SIZE (scountArr (neigh q))
  let rcount := fun q => positive SIZE (rcountArr neigh q)
  neighborAlltoallv (fun q => (neigh q).getD 0 []) scount rcount (fun q => send.getD q []) p

end Verif.Comm
