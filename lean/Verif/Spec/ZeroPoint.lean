import Verif.Model.RunVar

/-!
# Vocabulary for a change of the zero of the transported quantity (C131)
-/
namespace Verif.Spec
open Verif Verif.Run
variable {K : Type*} [Field K] [LinearOrder K]

/-- The same boundary condition for the quantity counted from another zero: prescribed values are raised by `β`.  (A non-slip wall, which
mirrors the value with the opposite sign, means something else after the change and is excluded.) -/
inductive RaisedBC (β : K) : BCond K → BCond K → Prop
  | neumann : RaisedBC β .neumann .neumann
  | dirichlet {v v' : K → K → K → K} (h : ∀ x y z, v' x y z = v x y z + β) : RaisedBC β (.dirichlet v) (.dirichlet v')

end Verif.Spec
