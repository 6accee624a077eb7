import Verif.Spec.LinField
import Verif.Spec.Interp
import Verif.Spec.RunFlow

/-!
# Vocabulary for linear potentials (C128)
-/
namespace Verif.Spec
open Verif Verif.Dom Verif.Run Verif.Geo Verif.Interp
open scoped BigOperators
variable {K : Type*} [Field K] [LinearOrder K]

/-- The boundary conditions are those of the potential `x ↦ a + g·x`:
* a Dirichlet location gives the value of the potential, at its nodes and at the centres of its faces, and the potential is as large at the
  foot of the perpendicular from the cell centre as at the centre of the face (so it is if the side is an equipotential, or if the foot
  is the centre of the face);
* through a Neumann side there is no flux: `g` is parallel to it. -/
structure AffineData (dim : Nat) (D : Tables K) (bc : Int → BCond K) (a : K) (g : Vec K) : Prop where
  node : ∀ s < D.nbnodes, ∀ v, D.oldname s ∈ locNames dim → bc (D.oldname s) = .dirichlet v →
    v (D.vertex s 0) (D.vertex s 1) (D.vertex s 2) = affine dim a g (D.vertex s)
  face : ∀ F ∈ D.boundaryfaces, ∀ v, bc (D.name F) = .dirichlet v →
    v (D.fcenter F 0) (D.fcenter F 1) (D.fcenter F 2) = affine dim a g (D.fcenter F)
  foot : ∀ F ∈ D.boundaryfaces, ∀ v, bc (D.name F) = .dirichlet v → ∀ q : Vec K,
    ∑ k ∈ Finset.range dim, D.normal F k * (q k - D.fcenter F k) = 0 →
    (∃ t, ∀ k < dim, q k - D.center (idx (D.cellid F 0)) k = t * D.normal F k) → affine dim a g q = affine dim a g (D.fcenter F)
  wall : ∀ F ∈ D.boundaryfaces, bc (D.name F) = .neumann → ∑ k ∈ Finset.range dim, g k * D.normal F k = 0

/-- The system with matrix `A` of `n` equations has at most one solution. -/
def Regular (n : Nat) (A : Nat → Nat → K) : Prop :=
  ∀ x : Nat → K, (∀ i < n, ∑ j ∈ Finset.range n, A i j * x j = 0) → ∀ i < n, x i = 0

/-- The linear potential is what the solver returns, to the last digit: after a `solve` without source every cell of every process holds
the value of `a + g·x` at its centre, and the field computed from it is `-g` on every face. -/
def SolvedExactly (W : World K) (bc : Int → BCond K) (sv : LinSolve.Solver) (direct : (Nat → Nat → K) → (Nat → K) → Nat → K) (a : K) (g : Vec K) : Prop :=
  ∀ s : LinSolve.St K, LinSolve.SolvedWith (linEnv W bc sv direct) (linBnd W bc sv) (fun _ => 0) s →
    (∀ p < W.SIZE, ∀ c < (W.D p).nbcells, s.cells p c = affine W.dim a g ((W.D p).center c)) ∧
    ∀ V : Nat → Vari K, (∀ p < W.SIZE, (V p).cell = s.cells p) →
      ∃ (V' : Nat → Vari K) (nodes : Nat → Nat → K) (E : Nat → Nat → Vec K), solGradient W bc V = some (V', nodes, E) ∧
        ∀ p < W.SIZE, ∀ c < (W.D p).nbcells, ∀ j < W.dim + 1, ∀ k < W.dim, E p ((W.D p).faceid c j) k = - g k

/-- On every outer edge `a b` of a triangle `a b x`, the potential with gradient `g` is as large at the foot of the perpendicular from `x` (hence also at
the foot of the perpendicular from the centroid) as in the middle of the edge: the foot is the middle (the triangle is isosceles over its outer edge),
or the edge is an equipotential. -/
def EvenSides2 (nodeid : Nat → Nat → Nat) (node : Nat → K × K × K × Nat) (n : Nat) (g : Vec K) : Prop :=
  ∀ c < n, ∀ a b x, [a, b, x].Perm (nodesOf nodeid 3 c) → (∀ c' < n, c' ≠ c → ¬ (Uses nodeid 3 c' a ∧ Uses nodeid 3 c' b)) →
    (∑ k ∈ Finset.range 2, (pos node x k - (pos node a k + pos node b k) / 2) * (pos node b k - pos node a k)) = 0 ∨
    (∑ k ∈ Finset.range 2, g k * (pos node b k - pos node a k)) = 0

/-- The same in space: on every outer face `a b d` of a tetrahedron `a b d x`, the potential is as large at the foot of the perpendicular from `x` as in the
middle of the face. With `w` the vector from the middle to `x` and `N` the vector product of two edges, the foot lies `w - (w·N / N·N) N` from the middle. -/
def EvenSides3 (nodeid : Nat → Nat → Nat) (node : Nat → K × K × K × Nat) (n : Nat) (g : Vec K) : Prop :=
  ∀ c < n, ∀ a b d x, [a, b, d, x].Perm (nodesOf nodeid 4 c) →
    (∀ c' < n, c' ≠ c → ¬ (Uses nodeid 4 c' a ∧ Uses nodeid 4 c' b ∧ Uses nodeid 4 c' d)) →
    (∑ k ∈ Finset.range 3, g k * (pos node x k - (pos node a k + pos node b k + pos node d k) / 3)) * (∑ k ∈ Finset.range 3, cross node a b d k ^ 2) =
    (∑ k ∈ Finset.range 3, (pos node x k - (pos node a k + pos node b k + pos node d k) / 3) * cross node a b d k) *
      ∑ k ∈ Finset.range 3, g k * cross node a b d k

end Verif.Spec
