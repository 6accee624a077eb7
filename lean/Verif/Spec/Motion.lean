import Verif.Spec.Parallel
import Verif.Model.Run

/-!
# Specification: the same mesh and the same problem in another system of coordinates

A user is free to choose the origin and the directions of the axes, and the unit of length.  `Motion` is such a change: a point `p` gets
the coordinates `scale * rot p + shift`.
-/
namespace Verif.Spec
open Verif Verif.Run
variable {K : Type*} [Field K] [LinearOrder K]

/-- A change of coordinates: a unit of length, a rotation and a shift. -/
structure Motion (K : Type*) where
  scale : K
  rot : Nat → Nat → K
  shift : Nat → K

/-- The components of a vector after the rotation. -/
def Motion.turn (M : Motion K) (v : Nat → K) : Nat → K := fun k => M.rot k 0 * v 0 + M.rot k 1 * v 1 + M.rot k 2 * v 2

/-- The new coordinates of a point. -/
def Motion.place (M : Motion K) (p : Nat → K) : Nat → K := fun k => M.scale * M.turn p k + M.shift k

/-- A proper motion of the plane (`dim = 2`) or of the space, up to a positive unit of length: the columns of the matrix are orthonormal,
its determinant is one, and in two dimensions it turns and shifts the plane only. -/
structure Motion.Proper (M : Motion K) (dim : Nat) : Prop where
  pos : 0 < M.scale
  orth : ∀ i < 3, ∀ j < 3, M.rot 0 i * M.rot 0 j + M.rot 1 i * M.rot 1 j + M.rot 2 i * M.rot 2 j = if i = j then 1 else 0
  det : M.rot 0 0 * (M.rot 1 1 * M.rot 2 2 - M.rot 2 1 * M.rot 1 2) - M.rot 1 0 * (M.rot 0 1 * M.rot 2 2 - M.rot 2 1 * M.rot 0 2)
    + M.rot 2 0 * (M.rot 0 1 * M.rot 1 2 - M.rot 1 1 * M.rot 0 2) = 1
  flat : dim = 2 → M.rot 0 2 = 0 ∧ M.rot 1 2 = 0 ∧ M.rot 2 0 = 0 ∧ M.rot 2 1 = 0 ∧ M.rot 2 2 = 1 ∧ M.shift 2 = 0

/-- The nodes of the second mesh file are those of the first in the new coordinates, with the same labels. -/
def Placed (M : Motion K) (node node' : Nat → K × K × K × Nat) (nbnodes : Nat) : Prop :=
  ∀ s < nbnodes, (∀ k < 3, pos node' s k = M.place (pos node s) k) ∧ labelOf node' s = labelOf node s

/-- The same function of the position. -/
def SameField (M : Motion K) (f f' : K → K → K → K) : Prop :=
  ∀ p : Nat → K, f' (M.place p 0) (M.place p 1) (M.place p 2) = f (p 0) (p 1) (p 2)

/-- The same boundary condition. -/
inductive SameBC (M : Motion K) : BCond K → BCond K → Prop
  | neumann : SameBC M .neumann .neumann
  | nonslip : SameBC M .nonslip .nonslip
  | dirichlet {v v' : K → K → K → K} (h : SameField M v v') : SameBC M (.dirichlet v) (.dirichlet v')

/-- The velocity of a setup at a point. -/
def velocity (S : Setup K) (it : Nat) (p : Nat → K) : Nat → K
  | 0 => S.u it (p 0) (p 1) (p 2)
  | 1 => S.v it (p 0) (p 1) (p 2)
  | _ => S.w it (p 0) (p 1) (p 2)

/-- The diffusion coefficient of a setup in a direction. -/
def diffusion (S : Setup K) : Nat → K
  | 0 => S.Dxx
  | 1 => S.Dyy
  | _ => S.Dzz

/-- The same problem in the new coordinates: the same boundary conditions, the velocity turned and measured in the new unit, the same CFL
number and final time, and the diffusion measured in the new unit: the new diffusion of a turned vector is the turned diffusion of the
vector.  (The code has one coefficient per axis, so a problem has a counterpart only if its diffusion is diagonal in both systems: any
rotation if the coefficients are equal, quarter turns and renamed axes otherwise.) -/
structure SameProblem (M : Motion K) (S S' : Setup K) : Prop where
  bc : ∀ loc, SameBC M (S.bc loc) (S'.bc loc)
  vel : ∀ it p, ∀ k < 3, velocity S' it (M.place p) k = M.scale * M.turn (velocity S it p) k
  cfl : S'.cfl = S.cfl
  tfinal : S'.tfinal = S.tfinal
  diff : ∀ i < 3, ∀ j < 3, diffusion S' i * M.rot i j = M.scale ^ 2 * (M.rot i j * diffusion S j)

/-- The square root respects the unit of area of the faces: `sqrt (ρ² x) = ρ sqrt x`. -/
def SqrtUnit (sqrt : K → K) (ρ : K) : Prop := ∀ x, 0 ≤ x → sqrt (ρ ^ 2 * x) = ρ * sqrt x

end Verif.Spec
