import Verif.Model.Frames
import Verif.Model.RunVar
import Verif.Model.RunDarcy
import Verif.Model.RunSW
import Verif.Model.RunStreamer

/-!
# The loops of the drivers, with their result files

`Model/Frames` instantiated with the iterations of `Model/RunVar`, `RunDarcy`, `RunSW`, `RunStreamer`.  The `d_t` of an iteration is the
difference of the values of `time` after and before it (exact arithmetic).
-/
namespace Verif.Frames
open Verif.Run
variable {K : Type*} [Field K] [LinearOrder K]

/-- test_transport_2d_periodic.py:103-150, test_transport_3d_periodic.py:103-149. -/
def transportDriver (W : World K) (S : Setup K) (order : Int) (diff : Bool) : Driver (TState K) K :=
  { step := tstep W S order diff, time := TState.time, tfinal := S.tfinal }

/-- The `tot` of the transport drivers. -/
def transportTot (trunc : K → Int) (S : Setup K) (s s' : TState K) : Int := totPlus trunc S.tfinal (s'.time - s.time)

/-- test_darcy_2d.py:110-159, test_darcy_3d.py:112-163. -/
def darcyDriver (W : World K) (S : DSetup K) (sv : LinSolve.Solver) (direct : (Nat → Nat → K) → (Nat → K) → Nat → K) : Driver (DState K) K :=
  { step := darcyStep W S sv direct, time := DState.time, tfinal := S.tfinal }

/-- The `tot` of the Darcy drivers. -/
def darcyTot (trunc : K → Int) (S : DSetup K) (s s' : DState K) : Int := totPlus trunc S.tfinal (s'.time - s.time)

/-- test_sw_2d.py:102-125. -/
noncomputable def swDriver (W : World ℝ) (S : SSetup) : Driver SState ℝ :=
  { step := swStep W S, time := SState.time, tfinal := S.tfinal }

/-- The `tot` of the shallow-water driver, computed once from the first time step (test_sw_2d.py:92). -/
noncomputable def swTot (trunc : ℝ → Int) (S : SSetup) (s0 : SState) (_ _ : SState) : Int := totOf trunc S.tfinal s0.dt

/-- test_streamer_2d.py:116-165, test_streamer_2d_bis.py:84-108. -/
noncomputable def streamerDriver (W : World ℝ) (S : StrSetup) (sv : LinSolve.Solver) (direct : (Nat → Nat → ℝ) → (Nat → ℝ) → Nat → ℝ) :
    Driver StrState ℝ :=
  { step := strStep W S sv direct, time := StrState.time, tfinal := S.tfinal }

/-- The `tot` of test_streamer_2d_bis.py:94 (without the `+1` of test_streamer_2d.py:132). -/
noncomputable def streamerTot (trunc : ℝ → Int) (S : StrSetup) (s s' : StrState) : Int := totOf trunc S.tfinal (s'.time - s.time)

end Verif.Frames
