import Verif.Model.RunVar
import Verif.Model.RunPer

/-!
# Vocabulary for a change of the unit of time (C130)
-/
namespace Verif.Spec
open Verif Verif.Dom Verif.Run
variable {K : Type*} [Field K] [LinearOrder K]

/-- `S'` is the problem `S` with the time counted in a unit `1/τ` of the former one: an instant `t` reads `τ t`, the velocities and the
diffusion coefficients are divided by `τ`; the boundary values and the CFL number have no time in them. -/
structure OtherClock (τ : K) (S S' : Setup K) : Prop where
  pos : 0 < τ
  bc : S'.bc = S.bc
  cfl : S'.cfl = S.cfl
  tfinal : S'.tfinal = τ * S.tfinal
  u : ∀ it x y z, S'.u it x y z = S.u it x y z / τ
  v : ∀ it x y z, S'.v it x y z = S.v it x y z / τ
  w : ∀ it x y z, S'.w it x y z = S.w it x y z / τ
  Dxx : S'.Dxx = S.Dxx / τ
  Dyy : S'.Dyy = S.Dyy / τ
  Dzz : S'.Dzz = S.Dzz / τ

/-- The same state, its instant read on the other clock. -/
def reclock (τ : K) (s : TState K) : TState K := { s with time := τ * s.time }

/-- The same for the states of the periodic driver. -/
def reclockP (τ : K) (s : QState K) : QState K := { s with time := τ * s.time }

/-- The time step all processes use in iteration `it`: the minimum of what `time_step` returns on each. -/
def stepAt (W : World K) (S : Setup K) (it : Nat) : K := allreduceMin W.SIZE (fun p => localStep W.dim S (W.D p) it)

end Verif.Spec
