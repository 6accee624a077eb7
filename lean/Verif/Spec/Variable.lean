import Verif.Model.Variable

/-!
# What boundary conditions should do

Vocabulary for the statements about `Variable` (C30-C37): which entries of a BC dictionary are legal, which values are prescribed,
and what a ghost value must be.
-/
namespace Verif.Var
open Verif

/-- An entry of the BC dictionary is legal for the domain: periodic exactly on periodic locations, and Dirichlet data are given. -/
def LegalEntry {K : Type*} (d : Dom) (values : Loc → Option (Vals K)) (e : Loc × BCType) : Prop :=
  (e.2 = .periodic ↔ d.isPeriodic e.1 = true) ∧ (e.2 = .dirichlet → (values e.1).isSome)

/-- In the order of the dictionary no Dirichlet entry comes after a Neumann or non-slip one. -/
def DirichletFirst (BC : List (Loc × BCType)) : Prop :=
  BC.Pairwise (fun e f => f.2 = .dirichlet → e.2 ≠ .neumann ∧ e.2 ≠ .nonslip ∧ e.2 ≠ .slip)

instance (BC : List (Loc × BCType)) : Decidable (DirichletFirst BC) := by unfold DirichletFirst; infer_instance

/-- The domain's index lists are inside the arrays. -/
structure DomOk (d : Dom) : Prop where
  faces : ∀ loc, ∀ i ∈ d.faces loc, i < d.nbfaces
  nodes : ∀ loc, ∀ i ∈ d.nodes loc, i < d.nbnodes
  slots : ∀ loc, ∀ i ∈ d.nodes loc, ∀ c ∈ d.slots i, c ≠ -1 → c.toNat < d.sizehaloghost

/-- Different locations have different faces and different nodes. -/
structure DisjointLocs (d : Dom) : Prop where
  faces : ∀ a b, a ≠ b → ∀ i, i ∈ d.faces a → i ∉ d.faces b
  nodes : ∀ a b, a ≠ b → ∀ i, i ∈ d.nodes a → i ∉ d.nodes b

/-- The ghost value a boundary condition prescribes on face `i`: `cell` the current cell values, `value` the prescribed ones. -/
def ghostSpec {K : Type*} [Neg K] (t : BCType) (cell value : Nat → K) (inside : Nat → Nat) (i : Nat) : K :=
  match t with
  | .dirichlet => value i
  | .nonslip => - cell (inside i)
  | _ => cell (inside i)

/-- The first component of the mirror image of the vector `(u, v)` in a wall with unit normal `(a, b)`: `u - 2 (u·n) n`. -/
def mirror1 {K : Type*} [Field K] (u v a b : K) : K := u - 2 * (u * a + v * b) * a

/-- The second component of the mirror image. -/
def mirror2 {K : Type*} [Field K] (u v a b : K) : K := v - 2 * (u * a + v * b) * b

end Verif.Var
