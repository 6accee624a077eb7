import Mathlib.Algebra.Order.Field.Basic

/-!
# Model of the time loops of the drivers with their result files

The loops `while time < tfinal` of `models/tests/*.py`, of which `Model/RunVar`, `RunDarcy`, `RunSW`, `RunStreamer` model one iteration each,
with the counters `niter`, `miter` and the calls of `save_on_cell` / `save_on_node`.  What is stored in a file is modelled as the state it is
written from; the names of the files are those of `Model/Output` (they contain `miter`).
-/
namespace Verif.Frames
variable {σ K : Type*} [Field K] [LinearOrder K]

/-- One iteration of a driver, the value of its variable `time`, and the constant `tfinal`. -/
structure Driver (σ K : Type*) where
  step : σ → Option σ
  time : σ → K
  tfinal : K

/-- A result file: `miter` (in its name), `niter` (printed), and the state whose values are stored. -/
structure Saved (σ : Type*) where
  miter : Nat
  niter : Nat
  state : σ

/-- The variables of the loop. -/
structure RunSt (σ : Type*) where
  state : σ
  niter : Nat
  miter : Nat
  saved : List (Saved σ)

inductive Err where
  /-- the iteration itself fails -/
  | failed
  /-- `niter%tot` with `tot = 0` -/
  | zeroDivision
deriving DecidableEq

/-- `niter== 1 or niter%tot == 0` (test_transport_2d_periodic.py:142, 3d:141, test_darcy_2d.py:151, 3d:155, test_streamer_2d.py:157,
test_streamer_2d_bis.py:100, test_sw_2d.py:118). -/
def due (niter : Nat) (tot : Int) : Except Err Bool :=
  if niter = 1 then .ok true
  else if tot = 0 then .error .zeroDivision
  else .ok (decide ((niter : Int) % tot = 0))

/-- `tot = int(tfinal/d_t/50)+1` (test_transport_2d_periodic.py:119, 3d:121, test_darcy_2d.py:128, 3d:132, test_streamer_2d.py:132);
`trunc` is the `int` of Python. -/
def totPlus (trunc : K → Int) (tfinal dt : K) : Int := trunc (tfinal / dt / 50) + 1

/-- `tot = int((tfinal-time)/SWModel.time_step/50)` with `time = 0` (test_sw_2d.py:92), `tot = int(tfinal/Model.time_step/50)`
(test_streamer_2d_bis.py:94). -/
def totOf (trunc : K → Int) (tfinal dt : K) : Int := trunc (tfinal / dt / 50)

/-- The body of the loop (e.g. test_transport_2d_periodic.py:104-150).  `tot s s'` is the value of `tot` in the iteration leading from
`s` to `s'`. -/
def iterate (D : Driver σ K) (tot : σ → σ → Int) (r : RunSt σ) : Except Err (RunSt σ) :=
  match D.step r.state with
  | none => .error .failed
  | some s' =>
    match due r.niter (tot r.state s') with
    | .error e => .error e
    | .ok b =>
      .ok { state := s', niter := r.niter + 1
            miter := if b then r.miter + 1 else r.miter
            saved := if b then r.saved ++ [⟨r.miter, r.niter, s'⟩] else r.saved }

/-- The first `N` iterations of `while time < tfinal`. -/
def loop (D : Driver σ K) (tot : σ → σ → Int) (r : RunSt σ) : Nat → Except Err (RunSt σ)
  | 0 => .ok r
  | N + 1 =>
    match loop D tot r N with
    | .error e => .error e
    | .ok r => if D.time r.state < D.tfinal then iterate D tot r else .ok r

/-- `miter = 0; niter = 1` (test_transport_2d_periodic.py:69-70 and the same lines of the other drivers). -/
def begin_ (s : σ) : RunSt σ := { state := s, niter := 1, miter := 0, saved := [] }

/-- The save after the loop (test_sw_2d.py:127-130, test_streamer_2d.py:167-170). -/
def finish (r : RunSt σ) : List (Saved σ) := r.saved ++ [⟨r.miter, r.niter, r.state⟩]

end Verif.Frames
