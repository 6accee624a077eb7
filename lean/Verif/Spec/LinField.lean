import Verif.Model.LinRun
import Verif.Spec.LinSolve
import Mathlib.Algebra.BigOperators.Group.Finset.Basic

/-!
# Vocabulary for the field computed from the solution of a linear system (C110, C111)
-/
namespace Verif.Spec
open Verif Verif.Dom Verif.Run Verif.Geo
open scoped BigOperators
variable {K : Type*} [Field K] [LinearOrder K]

/-- The component of the face field `E` along the normal of face `f` (the normal has the measure of the face as length and points away
from the first cell of the face): the flux through the face. -/
def through (D : Tables K) (E : Nat → Vec K) (f : Nat) : K := E f 0 * D.normal f 0 + E f 1 * D.normal f 1 + E f 2 * D.normal f 2

/-- The flux of the face field `E` out of cell `c` (with `d1` faces). -/
def fieldOut (D : Tables K) (d1 : Nat) (E : Nat → Vec K) (c : Nat) : K :=
  ∑ j ∈ Finset.range d1, if D.cellid (D.faceid c j) 0 = (c : Int) then through D E (D.faceid c j) else - through D E (D.faceid c j)

/-- At every boundary node: the node carries the label of a Dirichlet location, or the boundary faces around it have Neumann conditions. -/
def CornersMatch (dim : Nat) (G : Tables K) (bc : Int → BCond K) : Prop :=
  ∀ F ∈ G.boundaryfaces, ∀ s ∈ G.fnode F, (G.oldname s ∈ locNames dim ∧ (bc (G.oldname s)).isDirichlet = true) ∨ bc (G.name F) = .neumann

/-- Every location has a Dirichlet or a Neumann condition. -/
def DirichletOrNeumann (bc : Int → BCond K) : Prop := ∀ loc, (bc loc).isDirichlet = true ∨ bc loc = .neumann

/-- The assembled matrix: the triplets of all processes added up. -/
def matrixOf (W : World K) (bc : Int → BCond K) (i j : Nat) : K := ((List.range W.SIZE).map (fun p => LinSys.entryT (linTriplets W bc p) i j)).sum

/-- The assembled boundary contribution. -/
def boundaryOf (W : World K) (bc : Int → BCond K) (g : Nat) : K := ((List.range W.SIZE).map (fun p => linRhsGlob W bc p g)).sum

/-- The system of `n` equations has a solution. -/
def Solvable (n : Nat) (A : Nat → Nat → K) (b : Nat → K) : Prop := ∃ x : Nat → K, ∀ i < n, ∑ j ∈ Finset.range n, A i j * x j = b i

/-- The solver solves every system that has a solution. -/
def SolvesSystems (n : Nat) (direct : (Nat → Nat → K) → (Nat → K) → Nat → K) : Prop :=
  ∀ A b, Solvable n A b → ∀ i < n, ∑ j ∈ Finset.range n, A i j * direct A b j = b i

/-- The discrete Gauss law for the field computed from a solution: whatever the source `r` and the history of the system, if the assembled
system has a solution, then after `solve` the field `compute_Sol_gradient` puts on the faces has, for every cell of every process, the flux
`- volume * r` out of the cell. -/
def GaussLaw (W : World K) (bc : Int → BCond K) (sv : LinSolve.Solver) (direct : (Nat → Nat → K) → (Nat → K) → Nat → K) (n : Nat) : Prop :=
  ∀ (r : Nat → K) (s : LinSolve.St K), Solvable n (matrixOf W bc) (fun g => boundaryOf W bc g + r g) →
    LinSolve.SolvedWith (linEnv W bc sv direct) (linBnd W bc sv) r s → ∀ V : Nat → Vari K, (∀ p < W.SIZE, (V p).cell = s.cells p) →
    ∃ (V' : Nat → Vari K) (nodes : Nat → Nat → K) (E : Nat → Nat → Vec K), solGradient W bc V = some (V', nodes, E) ∧
      ∀ p < W.SIZE, ∀ c < (W.D p).nbcells,
        fieldOut (W.D p) (W.dim + 1) (E p) c = - ((W.D p).volume c * r ((linEnv W bc sv direct).loctoglob p c))

end Verif.Spec
