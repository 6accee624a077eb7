import Verif.Model.LinSolve
import Verif.Spec.LinSys
import Verif.Spec.Variable

/-!
# Vocabulary for solving (C51, C52, C69, C72, C73)
-/
namespace Verif.LinSolve
open Verif Verif.Var

variable {K : Type*}

/-- The numbering tables agree: rank 0's table lists the global numbers of the cells of rank 0, then of rank 1, ..., every global
number exactly once; a single process numbers its cells as the mesh does. -/
structure NumberingOk (E : Env K) : Prop where
  tc : E.tc = (List.range E.SIZE).flatMap (fun p => (List.range (E.localsize p)).map (E.loctoglob p))
  perm : E.tc.Perm (List.range E.globalsize)
  serial : E.SIZE = 1 → ∀ j, E.loctoglob 0 j = j

/-- The solver reads the first `globalsize` entries of the right-hand side. -/
def SolverOk (E : Env K) : Prop :=
  ∀ b b' : Nat → K, (∀ g < E.globalsize, b g = b' g) → ∀ g < E.globalsize, E.S b g = E.S b' g

/-- The value of an optional array. -/
def optVal [Zero K] (c : Option (Nat → K)) (i : Nat) : K := match c with | none => 0 | some r => r i

/-- `b` is the global right-hand side at construction: the boundary contributions of all ranks plus the constructor argument
(`useCtor`: whether that argument counts). -/
def RhsIs [AddCommMonoid K] (E : Env K) (bnd : Nat → Nat → K) (ctor : Nat → Option (Nat → K)) (useCtor : Bool) (b : Nat → K) : Prop :=
  let c := fun p i => if useCtor then optVal (ctor p) i else 0
  match E.solver with
  | .spsolve | .umfpack => ∀ g < E.globalsize, b g = bnd 0 g + c 0 g
  | .mumps => ∀ g < E.globalsize, b g = ((List.range E.SIZE).map (fun p => bnd p g)).sum + c 0 g
  | .petsc => ∀ p < E.SIZE, ∀ i < E.localsize p, b (E.loctoglob p i) = bnd p i + c p i

/-- The arguments of `solve` represent the global source `r`: a global array on rank 0, or local arrays on all ranks for PETSc. -/
def SourceIs [Zero K] (E : Env K) (s : St K) (args : Nat → Option Nat) (r : Nat → K) : Prop :=
  match E.solver with
  | .petsc => ∀ p < E.SIZE, ∀ i < E.localsize p, r (E.loctoglob p i) = optVal ((args p).map s.heap) i
  | _ => ∀ g < E.globalsize, r g = optVal ((args 0).map s.heap) g

/-- The program does not write into the system's private right-hand sides (arrays `0 .. SIZE-1`). -/
def Op.Legal (E : Env K) : Op K → Prop
  | .poke r _ _ => E.SIZE ≤ r
  | .pokeCell p _ _ => p < E.SIZE
  | _ => True

/-- The cell values of the variable on rank `p`. -/
def St.cells (s : St K) (p : Nat) : Nat → K := s.heap (s.cell p)

/-- A solver of `n` equations reads the first `n` rows and columns of the matrix and the first `n` entries of the right-hand side. -/
def ReadsRows (n : Nat) (direct : (Nat → Nat → K) → (Nat → K) → Nat → K) : Prop :=
  ∀ A A' b b', (∀ i < n, ∀ j < n, A i j = A' i j) → (∀ i < n, b i = b' i) → ∀ g < n, direct A b g = direct A' b' g

/-- `s` is the state after: building the system (boundary contributions `bnd`, no constructor source), any history of operations, and a
final `solve` with arguments representing the global source `r`. -/
def SolvedWith [AddCommMonoid K] (E : Env K) (bnd : Nat → Nat → K) (r : Nat → K) (s' : St K) : Prop :=
  ∃ (cell0 : Nat → Nat → K) (s0 s : St K) (ops : List (Op K)) (args : Nat → Option Nat),
    mkSystem E bnd (fun _ => none) cell0 = .ok s0 ∧ (∀ o ∈ ops, o.Legal E) ∧ run E s0 ops = .ok s ∧
    (∀ p < E.SIZE, ∀ a, args p = some a → a < s.next) ∧ SourceIs E s args r ∧ solve E s args = .ok s'

/-- The solver writes the solution into the array `var.cell`, so that the boundary conditions that kept that array (Neumann) see it;
`spsolve` and `umfpack` replace the array (C32). -/
def InPlace (sv : Solver) : Prop := sv = .mumps ∨ sv = .petsc

end Verif.LinSolve
