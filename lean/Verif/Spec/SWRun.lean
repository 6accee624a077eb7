import Verif.Model.RunSW
import Verif.Spec.SW

/-!
# Vocabulary for whole shallow-water runs (C106-C108, C120)
-/
namespace Verif.Spec
open Verif Verif.Run Verif.Dom Verif.Fvm

/-- A closed basin: depth and bottom continue outside, the discharge is reversed (`"nonslip"`), on every side; any condition on the tracer. -/
structure ClosedBasin (bc : Fin 5 → Int → BCond ℝ) : Prop where
  depth : ∀ loc, bc 0 loc = .neumann
  hu : ∀ loc, bc 1 loc = .nonslip
  hv : ∀ loc, bc 2 loc = .nonslip
  bottom : ∀ loc, bc 4 loc = .neumann

/-- Conditions under which water at rest sees water at rest outside: depth and bottom continue, and the discharge continues, is reversed, or is
prescribed to be zero. -/
structure QuietSides (bc : Fin 5 → Int → BCond ℝ) : Prop where
  depth : ∀ loc, bc 0 loc = .neumann
  flow : ∀ k ∈ [(1 : Fin 5), 2], ∀ loc, bc k loc = .neumann ∨ bc k loc = .nonslip ∨ ∃ v, bc k loc = .dirichlet v ∧ ∀ x y z, v x y z = 0
  bottom : ∀ loc, bc 4 loc = .neumann

/-- The integral of component `k` over the domain, added up over the ranks. -/
noncomputable def totalOf (W : World ℝ) (s : SState) (k : Fin 5) : ℝ :=
  ∑ p ∈ Finset.range W.SIZE, ∑ c ∈ Finset.range (W.D p).nbcells, (W.D p).volume c * (s.V k p).cell c

/-- Water at rest at the level `H` in every cell of every rank: positive depth, no discharge, depth plus bottom equal to `H`. -/
def AtRest (W : World ℝ) (s : SState) (H : ℝ) : Prop :=
  ∀ p < W.SIZE, ∀ c < (W.D p).nbcells, 0 < (s.V 0 p).cell c ∧ (s.V 1 p).cell c = 0 ∧ (s.V 2 p).cell c = 0 ∧ (s.V 0 p).cell c + (s.V 4 p).cell c = H

/-- The flux between two states has no division by zero: positive depth on both sides, and the depth predicted on the face is not zero. -/
def WetPair (l r : SW.W5) (normal : Nat → ℝ) (mesure : ℝ) : Prop := 0 < l 0 ∧ 0 < r 0 ∧ SW.predict l r normal mesure SW.g0 0 ≠ 0

/-- So it is on every face of a rank. -/
structure WetFaces (a : SW.Args) : Prop where
  inner : ∀ f ∈ a.innerfaces, WetPair (a.fromCell (a.cell0 f) f) (a.fromCell (a.cell1 f) f) (a.normalf f) (a.mesuref f)
  halo : ∀ f ∈ a.halofaces, WetPair (a.fromCell (a.cell0 f) f) (a.fromHalo (a.halofid f) f) (a.normalf f) (a.mesuref f)
  boundary : ∀ f ∈ a.boundaryfaces, WetPair (a.fromCell (a.cell0 f) f) (a.ghost f) (a.normalf f) (a.mesuref f)

/-- An iteration from the state `s` computes its fluxes without a division by zero: the states on the two sides of the faces are those after
`update_values`, the friction term and (at order 2) the gradients. -/
def WetIteration (W : World ℝ) (S : SSetup) (s : SState) : Prop :=
  ∀ V1 V2 r, updateAll W S.bc s.V = some V1 → frictionAll W S s.dt V1 = some V2 → gradsAll W S V2 = some r →
    ∀ p < W.SIZE, WetFaces (swArgs (W.D p) (fun k => r.1 k p) (r.2.1 p) (r.2.2 p) S.order)

/-- The sides bring water of concentration `κ`: both conditions continue, both are reversed, or the prescribed `hc` is `κ` times the prescribed
depth. -/
def TracerSides (κ : ℝ) (bc : Fin 5 → Int → BCond ℝ) : Prop :=
  ∀ loc, (bc 0 loc = .neumann ∧ bc 3 loc = .neumann) ∨ (bc 0 loc = .nonslip ∧ bc 3 loc = .nonslip) ∨
    ∃ v v', bc 0 loc = .dirichlet v ∧ bc 3 loc = .dirichlet v' ∧ ∀ x y z, v' x y z = κ * v x y z

/-- The tracer has the concentration `κ` in every cell of every rank: `hc = κ h`. -/
def Concentration (W : World ℝ) (s : SState) (κ : ℝ) : Prop :=
  ∀ p < W.SIZE, ∀ c < (W.D p).nbcells, (s.V 3 p).cell c = κ * (s.V 0 p).cell c

end Verif.Spec
