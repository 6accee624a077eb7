import Verif.Spec.Frames
import Verif.Model.FramesRun
import Verif.Model.Output
import Verif.Spec.RunFlow

/-! # The result files of whole computations (C125-C127) -/
namespace Verif.Spec
open Verif.Frames Verif.Run
variable {K : Type*} [Field K] [LinearOrder K]

/-- The prescribed velocity does not change in time. -/
def Steady (S : Setup K) : Prop := ∀ it, S.u it = S.u 0 ∧ S.v it = S.v 0 ∧ S.w it = S.w 0

/-- The setups for which the time loop is known to end (C95): positive CFL number, bounded velocities, and positive diffusion or a uniform
velocity that does not vanish. -/
structure Moving (dim : Nat) (S : Setup K) : Prop where
  cfl : 0 < S.cfl
  bounded : ∃ U, ∀ it x y z, |S.u it x y z| ≤ U ∧ |S.v it x y z| ≤ U ∧ |S.w it x y z| ≤ U
  diffusion : 0 ≤ S.Dxx + S.Dyy + S.Dzz
  moving : 0 < S.Dxx + S.Dyy + S.Dzz ∨ (UniformVelocity S ∧ NotAtRest dim S)

/-- The transport driver ends, and the files it leaves are those of the first iteration and of the iterations whose number is a multiple of
`int(tfinal/d_t/50)+1`; at most 51 of them if the velocity is steady. -/
def TransportFiles (W : World K) : Prop :=
  ∀ (S : Setup K), Moving W.dim S → ∀ (order : Int) (diff : Bool) (init : K → K → K → K) (trunc : K → Int), Truncates trunc →
    ∃ n r, (∀ N ≥ n, Frames.loop (transportDriver W S order diff) (transportTot trunc S) (begin_ (tstart W init)) N = .ok r) ∧
      tloop W S order diff (tstart W init) n = some r.state ∧ EndsAt (transportDriver W S order diff) (tstart W init) n r.state ∧
      FilesOf (transportDriver W S order diff) (transportTot trunc S) (tstart W init) n r.saved ∧ (Steady S → r.saved.length ≤ 51)

/-- `S` with another final time. -/
def withEnd (S : Setup K) (T : K) : Setup K := { S with tfinal := T }

/-- For every steady setup there is a final time for which the transport driver ends without having saved the values it ends with. -/
def LastMissed (W : World K) : Prop :=
  ∀ (S : Setup K), Moving W.dim S → Steady S → ∃ T, 0 < T ∧ ∀ (order : Int) (diff : Bool) (init : K → K → K → K) (trunc : K → Int), Truncates trunc →
    ∃ n r, (∀ N ≥ n, Frames.loop (transportDriver W (withEnd S T) order diff) (transportTot trunc (withEnd S T)) (begin_ (tstart W init)) N = .ok r) ∧
      EndsAt (transportDriver W (withEnd S T) order diff) (tstart W init) n r.state ∧ ∀ e ∈ r.saved, e.niter < n

/-- The shallow-water driver completes exactly when the final time is not strictly between one and fifty first time steps; otherwise it stops
with a division by zero in its second iteration. -/
def ShallowCompletes (W : World ℝ) : Prop :=
  ∀ (S : SSetup) (f : Fin 5 → ℝ → ℝ → ℝ → ℝ) (trunc : ℝ → Int), Truncates trunc → 0 < (swStart W S f).dt →
    ((∀ N, ∃ r, Frames.loop (swDriver W S) (swTot trunc S (swStart W S f)) (begin_ (swStart W S f)) N = .ok r ∧
        swLoop W S (swStart W S f) N = some r.state) ↔
      ¬ ((swStart W S f).dt < S.tfinal ∧ S.tfinal < 50 * (swStart W S f).dt)) ∧
    ((swStart W S f).dt < S.tfinal → S.tfinal < 50 * (swStart W S f).dt →
      ∀ N ≥ 2, Frames.loop (swDriver W S) (swTot trunc S (swStart W S f)) (begin_ (swStart W S f)) N = .error .zeroDivision)

end Verif.Spec
