import Verif.Model.RunDarcy
import Verif.Spec.LinField
import Verif.Spec.Fvm

/-!
# Vocabulary for Darcy runs (C111, C112, C119)
-/
namespace Verif.Spec
open Verif Verif.Dom Verif.Run Verif.Geo Verif.Fvm
open scoped BigOperators
variable {K : Type*} [Field K] [LinearOrder K]

/-- The integral of the convected variable, added up over the processes. -/
def darcyTotal (W : World K) (s : DState K) : K :=
  ∑ p ∈ Finset.range W.SIZE, ∑ c ∈ Finset.range (W.D p).nbcells, (W.D p).volume c * (s.V p).cell c

/-- The value outside boundary face `f` under the conditions `bc`. -/
def darcyOutside (D : Tables K) (bc : Int → BCond K) (cell : Nat → K) (f : Nat) : K :=
  match bc (D.name f) with
  | .neumann => cell (D.cellid f 0).toNat
  | .nonslip => - cell (D.cellid f 0).toNat
  | .dirichlet v => v (D.fcenter f 0) (D.fcenter f 1) (D.fcenter f 2)

/-- What leaves the domain per unit of time in the iteration from `s` to `s'`: through every boundary face of every process, the velocity of
the iteration carries the value of the cell out or the outside value in. -/
def darcyOutflow (W : World K) (S : DSetup K) (s s' : DState K) : K :=
  ∑ p ∈ Finset.range W.SIZE, ((W.D p).boundaryfaces.map (fun f =>
    let v := through (W.D p) (s'.vel p) f
    (if 0 ≤ v then (s.V p).cell ((W.D p).cellid f 0).toNat else darcyOutside (W.D p) S.bc (s.V p).cell f) * v)).sum

/-- The rate at which the face velocities `E` bring fluid into cell `c` (with `d1` faces). -/
def fluxIn (D : Tables K) (d1 : Nat) (E : Nat → Vec K) (c : Nat) : K :=
  ∑ j ∈ Finset.range d1, max (- if D.cellid (D.faceid c j) 0 = (c : Int) then through D E (D.faceid c j) else - through D E (D.faceid c j)) 0

/-- In the iteration from `s` to `s'` no cell receives more fluid than it holds. -/
def StepFits (W : World K) (s s' : DState K) : Prop :=
  ∀ p < W.SIZE, ∀ c < (W.D p).nbcells, (s'.time - s.time) * fluxIn (W.D p) (W.dim + 1) (s'.vel p) c ≤ (W.D p).volume c

end Verif.Spec
