import Verif.Spec.RunFlow

/-!
# Vocabulary for several transport runs at once (C121, C122)
-/
namespace Verif.Spec
open Verif Verif.Run Verif.Dom Verif.Fvm
variable {K : Type*} [Field K] [LinearOrder K]

/-- The conditions of three runs on every side: all continue, all reverse, or all prescribe values, those of the third run being `a` times the
first plus `b` times the second. -/
def CombinedSides (a b : K) (bc₁ bc₂ bc₃ : Int → BCond K) : Prop :=
  ∀ loc, (bc₁ loc = .neumann ∧ bc₂ loc = .neumann ∧ bc₃ loc = .neumann) ∨ (bc₁ loc = .nonslip ∧ bc₂ loc = .nonslip ∧ bc₃ loc = .nonslip) ∨
    ∃ v₁ v₂ v₃, bc₁ loc = .dirichlet v₁ ∧ bc₂ loc = .dirichlet v₂ ∧ bc₃ loc = .dirichlet v₃ ∧ ∀ x y z, v₃ x y z = a * v₁ x y z + b * v₂ x y z

/-- The conditions of two runs on every side: both continue, or both prescribe values that differ by something in `[m, M]`. -/
def SidesDiffer (m M : K) (bc₁ bc₂ : Int → BCond K) : Prop :=
  ∀ loc, (bc₁ loc = .neumann ∧ bc₂ loc = .neumann) ∨
    ∃ v₁ v₂, bc₁ loc = .dirichlet v₁ ∧ bc₂ loc = .dirichlet v₂ ∧ ∀ x y z, m ≤ v₂ x y z - v₁ x y z ∧ v₂ x y z - v₁ x y z ≤ M

/-- On every rank the cells and nodes of the third run are `a` times the first plus `b` times the second; all have reached the same time in the same
number of iterations. -/
structure Superposed (a b : K) (W : World K) (s₁ s₂ s₃ : TState K) : Prop where
  cell : ∀ p < W.SIZE, ∀ c < (W.D p).nbcells, (s₃.V p).cell c = a * (s₁.V p).cell c + b * (s₂.V p).cell c
  node : ∀ p < W.SIZE, ∀ k < (W.D p).nbnodes, s₃.node p k = a * s₁.node p k + b * s₂.node p k
  time : s₃.time = s₁.time ∧ s₃.time = s₂.time
  iter : s₃.iter = s₁.iter ∧ s₃.iter = s₂.iter

end Verif.Spec
