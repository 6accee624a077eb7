import Verif.Model.Fvm
import Mathlib.Analysis.SpecialFunctions.Pow.Real
import Mathlib.Analysis.SpecialFunctions.Exp
import Mathlib.Analysis.Real.Sqrt

/-!
# Model of the streamer model (`models/StreamerModel/tools.py`, `models/StreamerModel/core.py`)

Real arithmetic; float behaviour at `E = 0` is modelled explicitly where it matters (`alphaN`, `cellRateOpt`).
-/
namespace Verif.Streamer
open Verif

/-- models/StreamerModel/tools.py: `n = 2.5e19`. -/
noncomputable def nGas : ℝ := 2.5e19

/-- A vector field on faces or cells: components 0, 1, 2. -/
abbrev VField := Nat → Fin 3 → ℝ

/-- `sqrt(Ex**2 + Ey**2 + Ez**2)`. -/
noncomputable def norm3 (e : Fin 3 → ℝ) : ℝ := Real.sqrt (e 0 ^ 2 + e 1 ^ 2 + e 2 ^ 2)

/-- models/StreamerModel/tools.py:145-174: the velocity on a face with field `e`; `old` is the previous value (kept if no branch applies). -/
noncomputable def faceVelocity (e old : Fin 3 → ℝ) : Fin 3 → ℝ :=
  let E := norm3 e
  if E = 0 then fun _ => 0
  else if E / nGas > 2e-15 then fun k => -1 / E * (7.4e21 * E / nGas + 7.1e6) * e k
  else if 1e-16 < E / nGas ∧ E / nGas ≤ 2e-15 then fun k => -1 / E * (1.03e22 * E / nGas + 1.3e6) * e k
  else if 2.6e-17 < E / nGas ∧ E / nGas ≤ 1e-16 then fun k => -1 / E * (7.2973e21 * E / nGas + 1.63e6) * e k
  else if E / nGas ≤ 2.6e-17 then fun k => -1 / E * (6.87e22 * E / nGas + 3.38e4) * e k
  else old

/-- models/StreamerModel/tools.py:122-129 `compute_el_field`. -/
def elField (gradP : VField) : VField := gradP

/-- models/StreamerModel/tools.py:132-174 `compute_velocity`, the face loop. -/
noncomputable def velocityFaces (nbfaces : Nat) (E old : VField) : VField :=
  (List.range nbfaces).foldl (fun u i => setAt u i (faceVelocity (E i) (u i))) old

/-- models/StreamerModel/tools.py:176-197: the average of a face array over the faces of a cell (arrays reset to 0 at the start). -/
noncomputable def faceAverage (u : VField) (faceid : Nat → Nat → Nat) (dim i : Nat) : Fin 3 → ℝ :=
  let s := (List.range (dim + 1)).foldl (fun s j => s + u (faceid i j)) (0 : Fin 3 → ℝ)
  fun k => s k / (dim + 1)

/-- models/StreamerModel/tools.py:104-110: `alpha_n`; at `E = 0` the exponent is `-inf` and `exp` gives 0. -/
noncomputable def alphaN (E : ℝ) : ℝ :=
  if E / nGas > 1.5e-15 then 2e-16 * Real.exp (-7.248e-15 / (E / nGas))
  else if E = 0 then 0 else 6.619e-17 * Real.exp (-5.593e-15 / (E / nGas))

/-- models/StreamerModel/tools.py:112-118: photoionisation seeds of the branching option. -/
noncomputable def seed (x : Fin 3 → ℝ) (br : Int) : ℝ :=
  (if br = 1 then 1e25 * Real.exp (-1 * ((x 0 - 0.3) ^ 2 + (x 1 - 0.25) ^ 2 + (x 2 - 0.28) ^ 2) / 0.005 ^ 2) else 0)
  + (if br = 2 then 1e25 * Real.exp (-1 * ((x 0 - 0.31) ^ 2 + (x 1 - 0.25) ^ 2 + (x 2 - 0.22) ^ 2) / 0.005 ^ 2) else 0)

/-- models/StreamerModel/tools.py:89-120 `explicitscheme_source_streamer`: `src_ne[i]` and `src_ni[i]`. -/
noncomputable def source (ne : Nat → ℝ) (u E : VField) (center : VField) (br : Int) (i : Nat) : ℝ × ℝ :=
  let S := alphaN (norm3 (E i)) * norm3 (u i) * ne i * nGas + seed (center i) br
  (S, S)

/-- models/StreamerModel/tools.py:73-79: the diffusion coefficient on a face (0 where `E = 0`). -/
noncomputable def faceDe (u E : Fin 3 → ℝ) : ℝ :=
  if norm3 E = 0 then 0 else 0.3341e9 * (norm3 E / nGas) ^ (0.54069 : ℝ) * (norm3 u / norm3 E)

/-- models/StreamerModel/tools.py:66-87: one face of `explicitscheme_dissipative_streamer`. -/
noncomputable def dissipStep (u E gradne : VField) (cell0 cell1 : Nat → Nat) (normal : VField) (name : Nat → Int) (d : Nat → ℝ) (i : Nat) : Nat → ℝ :=
  let q := gradne i 0 * normal i 0 + gradne i 1 * normal i 1 + gradne i 2 * normal i 2
  let flux := faceDe (u i) (E i) * q
  if name i = 0 then subAt (addAt d (cell0 i) flux) (cell1 i) flux else addAt d (cell0 i) flux

/-- models/StreamerModel/tools.py:57-87 `explicitscheme_dissipative_streamer`. -/
noncomputable def dissipative (nb : Nat) (u E gradne : VField) (cell0 cell1 : Nat → Nat) (normal : VField) (name : Nat → Int) : Nat → ℝ :=
  (List.range nb).foldl (dissipStep u E gradne cell0 cell1 normal name) (fun _ => 0)

/-- models/StreamerModel/tools.py:225-234 `update_streamer_flux`. -/
noncomputable def updateFlux (ne ni rez_ne rez_ni dis_ne dis_ni src_ne src_ni : Nat → ℝ) (dt : ℝ) (vol : Nat → ℝ) : (Nat → ℝ) × (Nat → ℝ) :=
  (fun i => ne i + dt * ((rez_ne i + dis_ne i) / vol i + src_ne i), fun i => ni i + dt * ((rez_ni i + dis_ni i) / vol i + src_ni i))

/-- State of the two densities. -/
structure Dens where
  ne : Nat → ℝ
  ni : Nat → ℝ

/-- Inputs of one `update_solution` (fields, velocities, residual and dissipation of the electrons, all arbitrary). -/
structure StepIn where
  u : VField
  E : VField
  center : VField
  rez_ne : Nat → ℝ
  dis_ne : Nat → ℝ
  dt : ℝ
  vol : Nat → ℝ

/-- models/StreamerModel/core.py:139-153 `update_solution`: `update_term_source()` uses `branching=0`; the arrays `ni.convective`,
`ni.dissipation` are allocated with zeros and never written. -/
noncomputable def step (s : Dens) (x : StepIn) : Dens :=
  let r := updateFlux s.ne s.ni x.rez_ne (fun _ => 0) x.dis_ne (fun _ => 0)
    (fun i => (source s.ne x.u x.E x.center 0 i).1) (fun i => (source s.ne x.u x.E x.center 0 i).2) x.dt x.vol
  ⟨r.1, r.2⟩

/-- models/StreamerModel/tools.py:2-5 `update_rhs_glob`. -/
noncomputable def rhsGlob (n : Nat) (ne ni : Nat → ℝ) (loctoglob : Nat → Nat) (rhs : Nat → ℝ) : Nat → ℝ :=
  (List.range n).foldl (fun r i => setAt r (loctoglob i) (1.8096e-8 * (ne i - ni i))) rhs

/-- models/StreamerModel/core.py:115-118: `reduce(rhs_updated, SUM)` over the ranks `0..R-1`. -/
noncomputable def rhsReduced (R : Nat) (n : Nat → Nat) (ne ni : Nat → Nat → ℝ) (loctoglob : Nat → Nat → Nat) (rhs : Nat → Nat → ℝ) : Nat → ℝ :=
  fun g => ∑ q ∈ Finset.range R, rhsGlob (n q) (ne q) (ni q) (loctoglob q) (rhs q) g

/-- models/StreamerModel/tools.py:200-218: `lam` of cell `i`; `none` (nan) when `E = 0`: `(E/n)**0.54069 * (ve/E)` is `0 * (ve/0)`. -/
noncomputable def cellLamOpt (u E : VField) (normal : VField) (mesure volume : Nat → ℝ) (faceid : Nat → Nat → Nat) (dim i : Nat) : Option ℝ :=
  if norm3 (E i) = 0 then none else
  let De := 0.3341e9 * (norm3 (E i) / nGas) ^ (0.54069 : ℝ) * (norm3 (u i) / norm3 (E i))
  some ((List.range (dim + 1)).foldl (fun lam j =>
    let norm := normal (faceid i j)
    let u_n := |u i 0 * norm 0 + u i 1 * norm 1 + u i 2 * norm 2|
    let lam_convect := u_n / mesure (faceid i j)
    let lam := lam + lam_convect * mesure (faceid i j)
    let mes := Real.sqrt (norm 0 * norm 0 + norm 1 * norm 1 + norm 2 * norm 2)
    let lam_diff := De * mes ^ 2
    lam + lam_diff / volume i) 0)

/-- models/StreamerModel/tools.py:189-222 `time_step_streamer`; `min(dt, nan)` keeps `dt` (`nan < dt` is false), `min(dt, inf)` too
(a cell with `lam = 0`). -/
noncomputable def timeStep (n : Nat) (u E : VField) (cfl : ℝ) (normal : VField) (mesure volume : Nat → ℝ) (faceid : Nat → Nat → Nat) (dim : Nat) : ℝ :=
  (List.range n).foldl (fun dt i => match cellLamOpt u E normal mesure volume faceid dim i with
    | none => dt
    | some lam => if lam = 0 then dt else min dt (cfl * volume i / lam)) 1e6

end Verif.Streamer
