import Verif.Model.Streamer

/-!
# Specification side of C61, C62, C79, C80 (streamer model)
-/
namespace Verif.Spec.Streamer
open Verif Verif.Streamer

/-- The empirical drift speed of the electrons as a function of the reduced field `x = E/n`. -/
noncomputable def driftSpeed (x : ℝ) : ℝ :=
  if 2e-15 < x then 7.4e21 * x + 7.1e6
  else if 1e-16 < x then 1.03e22 * x + 1.3e6
  else if 2.6e-17 < x then 7.2973e21 * x + 1.63e6
  else 6.87e22 * x + 3.38e4

/-- The empirical ionisation coefficient (per neutral) as a function of the reduced field `x = E/n > 0`. -/
noncomputable def ionisation (x : ℝ) : ℝ :=
  if x ≤ 1.5e-15 then 6.619e-17 * Real.exp (-(5.593e-15 / x)) else 2e-16 * Real.exp (-(7.248e-15 / x))

/-- Euclidean inner product. -/
def dot3 (a b : Fin 3 → ℝ) : ℝ := a 0 * b 0 + a 1 * b 1 + a 2 * b 2

/-- Diffusive flux through face `f`. -/
noncomputable def diffFlux (u E gradne normal : VField) (f : Nat) : ℝ := faceDe (u f) (E f) * dot3 (gradne f) (normal f)

/-- Electron diffusion coefficient of a cell. -/
noncomputable def cellDe (u E : Fin 3 → ℝ) : ℝ := 0.3341e9 * (norm3 E / nGas) ^ (0.54069 : ℝ) * (norm3 u / norm3 E)

/-- The stability rate of cell `i`: sum over its faces of `|u·n|` plus `De |n|² / volume`. -/
noncomputable def rate (u E normal : VField) (volume : Nat → ℝ) (faceid : Nat → Nat → Nat) (dim i : Nat) : ℝ :=
  ∑ j ∈ Finset.range (dim + 1), (|dot3 (u i) (normal (faceid i j))|
    + cellDe (u i) (E i) * dot3 (normal (faceid i j)) (normal (faceid i j)) / volume i)

/-- A history of `update_solution` calls. -/
noncomputable def runSteps (s : Dens) (xs : List StepIn) : Dens := xs.foldl step s

/-- A history of `solve_linearSystem` calls (the densities of every rank change between the calls, the array `rhs_updated` of every rank is kept). -/
noncomputable def runRhs (n : Nat → Nat) (loctoglob : Nat → Nat → Nat) (hist : List ((Nat → Nat → ℝ) × (Nat → Nat → ℝ))) (q : Nat) : Nat → ℝ :=
  hist.foldl (fun r d => rhsGlob (n q) (d.1 q) (d.2 q) (loctoglob q) r) (fun _ => 0)

end Verif.Spec.Streamer
