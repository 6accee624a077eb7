import Verif.Model.Run

/-! Specification: boundary conditions for which the ghosts of a node shared between subdomains get the value of their face. -/
namespace Verif.Spec
open Verif.Run
variable {K : Type*}

/-- The condition on the faces named `face` is Neumann, or it is Dirichlet and so is the condition of the location `corner`, with the
same function (in two dimensions the third argument of the functions plays no role). -/
def CornerOk (dim : Nat) (bc : Int → BCond K) (face corner : Int) : Prop :=
  bc face = .neumann ∨ ∃ v v', bc face = .dirichlet v ∧ bc corner = .dirichlet v' ∧
    ∀ x y z z', (dim = 2 ∨ z = z') → v' x y z = v x y z'

end Verif.Spec
