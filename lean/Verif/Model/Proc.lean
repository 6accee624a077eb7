import Mathlib.Data.List.Basic
import Mathlib.Data.List.GetD

/-!
# Processes that meet in collective operations, in any order

The MPI programs of manapy communicate only through collective operations (`Neighbor_alltoallv`, `Alltoallv`, `alltoall`, `allreduce`,
`Barrier`, the creation of a communicator).  A process is the tree of its collectives: what it does between two of them touches its own
memory only and is folded into the continuation.  The semantics below is asynchronous: the processes advance one at a time, in the order of
an arbitrary schedule, and a process leaves a collective when what it is to receive has been contributed.

Not taken from a file of /repo: this is the meaning given to the calls of mpi4py used in comms/communication.py:21-33, 48, 148, 178,
ast/core.py:424, 458 and models/tests/test_transport_2d_periodic.py:118.
-/
namespace Verif.Proc
variable {M α β : Type*}

/-- The rest of the run of one process. -/
inductive Prog (M α : Type*)
  /-- the process is finished -/
  | ret (a : α)
  /-- an exception: the process stops and takes part in no later operation -/
  | fail
  /-- a collective on communicator `comm`: the process contributes `out` (the `i`-th message is for the `i`-th process of `nb`) and
  goes on when it has the messages of the processes `nb` -/
  | coll (comm : Nat) (nb : List Nat) (out : List M) (k : List M → Prog M α)

/-- Sequence of two programs. -/
def Prog.bind : Prog M α → (α → Prog M β) → Prog M β
  | .ret a, f => f a
  | .fail, _ => .fail
  | .coll c nb out k, f => .coll c nb out (fun l => (k l).bind f)

instance : Monad (Prog M) where
  pure := .ret
  bind := Prog.bind

/-- A computation of the process itself which may raise. -/
def lift : Option α → Prog M α
  | some a => .ret a
  | none => .fail

/-- All processes at once. -/
structure Cfg (M α : Type*) where
  /-- what process `p` still has to do -/
  st : Nat → Prog M α
  /-- process `p` has entered the collective at the head of its program and not left it -/
  waiting : Nat → Bool
  /-- the contributions of process `p` to the collectives of a communicator, in order: receivers and messages -/
  posted : Nat → Nat → List (List Nat × List M)

/-- The beginning: nothing has been contributed. -/
def Cfg.init (P : Nat → Prog M α) : Cfg M α := ⟨P, fun _ => false, fun _ _ => []⟩

/-- Change one entry. -/
def put {γ : Type*} (f : Nat → γ) (p : Nat) (x : γ) : Nat → γ := fun q => if q = p then x else f q

/-- The message of a contribution `(receivers, messages)` for process `p`. -/
def msgFor [Inhabited M] (c : List Nat × List M) (p : Nat) : M := c.2.getD (c.1.idxOf p) default

/-- The `n`-th contribution of process `q` on a communicator (`n = 1, 2, ..`). -/
def nth (c : Cfg M α) (q comm n : Nat) : List Nat × List M := (c.posted q comm).getD (n - 1) ([], [])

variable [Inhabited M]

/-- Process `p` makes one step.  `sync c p comm n`: what an implementation of the collectives may require before it lets process `p` leave its
`n`-th collective on `comm`, besides the arrival of its messages. -/
inductive Step (sync : Cfg M α → Nat → Nat → Nat → Prop) (p : Nat) : Cfg M α → Cfg M α → Prop
  /-- the process contributes to the collective -/
  | enter (c : Cfg M α) (comm : Nat) (nb : List Nat) (out : List M) (k : List M → Prog M α) :
      c.st p = .coll comm nb out k → c.waiting p = false →
      Step sync p c ⟨c.st, put c.waiting p true, put c.posted p (put (c.posted p) comm (c.posted p comm ++ [(nb, out)]))⟩
  /-- the messages are there: each process of `nb` has contributed as many times as `p`, with a message for `p` -/
  | leave (c : Cfg M α) (comm : Nat) (nb : List Nat) (out : List M) (k : List M → Prog M α) :
      c.st p = .coll comm nb out k → c.waiting p = true →
      (∀ q ∈ nb, (c.posted p comm).length ≤ (c.posted q comm).length ∧ p ∈ (nth c q comm (c.posted p comm).length).1) →
      sync c p comm (c.posted p comm).length →
      Step sync p c ⟨put c.st p (k (nb.map (fun q => msgFor (nth c q comm (c.posted p comm).length) p))), put c.waiting p false, c.posted⟩

/-- The processes advance in the order of the schedule (one of `SIZE` processes at a time). -/
inductive Exec (sync : Cfg M α → Nat → Nat → Nat → Prop) (SIZE : Nat) : Cfg M α → List Nat → Cfg M α → Prop
  | nil (c : Cfg M α) : Exec sync SIZE c [] c
  | step (c c' c'' : Cfg M α) (sch : List Nat) (p : Nat) : Exec sync SIZE c sch c' → p < SIZE → Step sync p c' c'' →
      Exec sync SIZE c (sch ++ [p]) c''

/-- Collectives that wait for the messages only. -/
def noSync : Cfg M α → Nat → Nat → Nat → Prop := fun _ _ _ _ => True

/-- Collectives that let nobody leave before everybody has entered (`Barrier`, and all the others in the strictest implementation). -/
def fullSync (SIZE : Nat) : Cfg M α → Nat → Nat → Nat → Prop := fun c _ comm n => ∀ q < SIZE, n ≤ (c.posted q comm).length

end Verif.Proc
