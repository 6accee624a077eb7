import Verif.Model.Proc

/-! # Specification: what is asked of a program run by several processes, whatever the order in which they advance -/
namespace Verif.Spec
open Verif.Proc
variable {M α : Type*} [Inhabited M]

/-- Collectives may wait for more than the messages, but not for more than the arrival of all processes. -/
def Fair (SIZE : Nat) (sync : Cfg M α → Nat → Nat → Nat → Prop) : Prop := ∀ c p comm n, fullSync SIZE c p comm n → sync c p comm n

/-- Whatever the order in which the processes advance and however strictly the collectives synchronise: no process raises an exception, a process
that ends has the result `a p`, as long as not all have ended one of them can go on (no deadlock), and the run is at most `bound` steps long. -/
def EverySchedule (SIZE : Nat) (P : Nat → Prog M α) (a : Nat → α) : Prop :=
  ∃ bound : Nat, ∀ sync, Fair SIZE sync → ∀ sch c, Exec sync SIZE (Cfg.init P) sch c →
    sch.length ≤ bound ∧ (∀ p < SIZE, c.st p ≠ .fail) ∧ (∀ p < SIZE, ∀ x, c.st p = .ret x → x = a p) ∧
      ((∀ p < SIZE, c.st p = .ret (a p)) ∨ ∃ p < SIZE, ∃ c', Step sync p c c')

/-- No order of the processes lets process `p` end. -/
def NeverEnds (SIZE : Nat) (P : Nat → Prog M α) (p : Nat) : Prop :=
  ∀ sync sch c, Exec sync SIZE (Cfg.init P) sch c → ∀ x, c.st p ≠ .ret x

end Verif.Spec
