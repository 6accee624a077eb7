import Verif.Model.RunVar
import Verif.Model.RunSW
import Verif.Model.RunDarcy
import Verif.Model.RunStreamer
import Verif.Spec.Fvm
import Verif.Spec.SW
import Verif.Spec.Streamer

/-!
# Vocabulary for the time step of whole runs (C123)
-/
namespace Verif.Spec
open Verif Verif.Dom Verif.Run Verif.Geo Verif.Fvm
open scoped BigOperators
variable {K : Type*} [Field K] [LinearOrder K]

/-- `dt` is the largest number that exceeds neither `10^6` nor the limit `lim p c` of any (concerned) cell of any process. -/
def StepOf (W : World K) (concerned : Nat → Nat → Prop) (lim : Nat → Nat → K) (dt : K) : Prop :=
  IsGreatest {t | t ≤ 1000000 ∧ ∀ p < W.SIZE, ∀ c < (W.D p).nbcells, concerned p c → t ≤ lim p c} dt

/-- The mean of a face array over the faces of a cell. -/
def faceMean (dim : Nat) (D : Tables K) (x : Nat → K) (c : Nat) : K :=
  (∑ j ∈ Finset.range (dim + 1), x (D.faceid c j)) / (dim + 1)

/-- The CFL limit `cfl · volume / Σ_faces (|v·n| + (Dxx + Dyy + Dzz) |n|² / volume)` of a cell, `v` the mean of the velocity over its faces. -/
def cflLimit (dim : Nat) (D : Tables K) (vel : Nat → Vec K) (cfl Dxx Dyy Dzz : K) (c : Nat) : K :=
  cfl * D.volume c / cflRate (faceMean dim D (fun f => vel f 0)) (faceMean dim D (fun f => vel f 1)) (faceMean dim D (fun f => vel f 2))
    D.normal D.volume D.faceid dim Dxx Dyy Dzz c

/-- The velocity prescribed by the user, at the face centres, in iteration `it`. -/
def givenVel (D : Tables K) (S : Setup K) (it f : Nat) : Vec K
  | 0 => S.u it (D.fcenter f 0) (D.fcenter f 1) (D.fcenter f 2)
  | 1 => S.v it (D.fcenter f 0) (D.fcenter f 1) (D.fcenter f 2)
  | _ => S.w it (D.fcenter f 0) (D.fcenter f 1) (D.fcenter f 2)

/-- The limit `cfl · volume / Σ_faces (|u·n| + sqrt(g h) |face| + (Dx + Dy) |n|² / volume)` of a shallow-water cell. -/
noncomputable def swLimit (D : Tables ℝ) (w : Nat → SW.W5) (S : SSetup) (c : Nat) : ℝ :=
  S.cfl * D.volume c / SW.cellRate w D.normal D.mesure D.volume D.faceid S.Dx S.Dy c

/-- The mean of a face vector over the faces of a cell. -/
noncomputable def meanVec (dim : Nat) (D : Tables ℝ) (x : Nat → Vec ℝ) : Streamer.VField := fun c k => faceMean dim D (fun f => x f k) c

/-- The limit of a streamer cell, with the mobility-dependent diffusion coefficient (C80). -/
noncomputable def strLimit (dim : Nat) (D : Tables ℝ) (S : StrSetup) (el vel : Nat → Vec ℝ) (c : Nat) : ℝ :=
  S.cfl * D.volume c / Streamer.rate (meanVec dim D vel) (meanVec dim D el) (fun f k => D.normal f k) D.volume D.faceid dim c

/-- Transport: every iteration advances the time by the largest step within the limits of all cells, for the velocity prescribed for it. -/
def TransportSteps (W : World K) : Prop :=
  ∀ (S : Setup K) (order : Int) (diff : Bool) (s s' : TState K), tstep W S order diff s = some s' →
    StepOf W (fun _ _ => True) (fun p => cflLimit W.dim (W.D p) (givenVel (W.D p) S s.iter) S.cfl S.Dxx S.Dyy S.Dzz) (s'.time - s.time)

/-- Darcy: the same with the velocity `u.face`, `v.face`, `w.face` computed in the iteration. -/
def DarcySteps (W : World K) : Prop :=
  ∀ (S : DSetup K) (sv : LinSolve.Solver) (direct : (Nat → Nat → K) → (Nat → K) → Nat → K) (s s' : DState K), darcyStep W S sv direct s = some s' →
    StepOf W (fun _ _ => True) (fun p => cflLimit W.dim (W.D p) (s'.vel p) S.cfl S.Dxx S.Dyy S.Dzz) (s'.time - s.time)

/-- Shallow water: the first step and every later one is the largest within the limits of the cell values at that moment, and the time
advances by it in the next iteration. -/
def ShallowSteps (W : World ℝ) : Prop :=
  ∀ S : SSetup, (∀ f, StepOf W (fun _ _ => True) (fun p => swLimit (W.D p) (fun c k => ((swStart W S f).V k p).cell c) S) (swStart W S f).dt) ∧
    ∀ s s', swStep W S s = some s' → s'.time - s.time = s.dt ∧
      StepOf W (fun _ _ => True) (fun p => swLimit (W.D p) (fun c k => (s'.V k p).cell c) S) s'.dt

/-- Streamer: the limits of the cells with a nonzero mean field (and a nonzero rate), for the field and velocity of the iteration. -/
def StreamerSteps (W : World ℝ) : Prop :=
  ∀ (S : StrSetup) (sv : LinSolve.Solver) (direct : (Nat → Nat → ℝ) → (Nat → ℝ) → Nat → ℝ) (s s' : StrState), strStep W S sv direct s = some s' →
    StepOf W (fun p c => meanVec W.dim (W.D p) (s'.el p) c ≠ 0 ∧ Streamer.rate (meanVec W.dim (W.D p) (s'.vel p)) (meanVec W.dim (W.D p) (s'.el p))
        (fun f k => (W.D p).normal f k) (W.D p).volume (W.D p).faceid W.dim c ≠ 0)
      (fun p => strLimit W.dim (W.D p) S (s'.el p) (s'.vel p)) (s'.time - s.time)

end Verif.Spec
