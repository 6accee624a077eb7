import Verif.Model.RunVar
import Verif.Spec.Fvm
import Verif.Spec.Part
import Verif.Spec.Parallel

/-! # Specification: boundary data, mass and boundary outflow of a run on several processes -/
namespace Verif.Spec
open Verif.Run Verif.Dom
variable {K : Type*} [Field K] [LinearOrder K]

/-- At every iteration the velocity is the same in the whole domain (it may change from one iteration to the next). -/
def UniformVelocity (S : Setup K) : Prop :=
  ∀ it, ∃ u v w, ∀ x y z, S.u it x y z = u ∧ S.v it x y z = v ∧ S.w it x y z = w

/-- At every iteration there is some diffusion or the (uniform) velocity is not zero. -/
def NotAtRest (dim : Nat) (S : Setup K) : Prop :=
  0 < S.Dxx + S.Dyy + S.Dzz ∨ ∀ it x y z, S.u it x y z ≠ 0 ∨ S.v it x y z ≠ 0 ∨ (dim = 3 ∧ S.w it x y z ≠ 0)

/-- A boundary condition that keeps values of the interval `[m, M]` in it: Neumann; Dirichlet with values of the interval; non-slip for
an interval symmetric about 0. -/
def BcIn (m M : K) : BCond K → Prop
  | .neumann => True
  | .nonslip => m + M = 0
  | .dirichlet v => ∀ x y z, m ≤ v x y z ∧ v x y z ≤ M

/-- `v·n` on face `f` at iteration `it` (the normal is not normalised: its length is the measure of the face). -/
def normalVel (D : Tables K) (S : Setup K) (it f : Nat) : K :=
  S.u it (D.fcenter f 0) (D.fcenter f 1) (D.fcenter f 2) * D.normal f 0 +
  S.v it (D.fcenter f 0) (D.fcenter f 1) (D.fcenter f 2) * D.normal f 1 +
  S.w it (D.fcenter f 0) (D.fcenter f 1) (D.fcenter f 2) * D.normal f 2

/-- The value outside boundary face `f`. -/
def outsideValue (D : Tables K) (S : Setup K) (cell : Nat → K) (f : Nat) : K :=
  match S.bc (D.name f) with
  | .neumann => cell (D.cellid f 0).toNat
  | .nonslip => - cell (D.cellid f 0).toNat
  | .dirichlet v => v (D.fcenter f 0) (D.fcenter f 1) (D.fcenter f 2)

/-- What leaves the domain through boundary face `f`, first order. -/
def outflow (D : Tables K) (S : Setup K) (it : Nat) (cell : Nat → K) (f : Nat) : K :=
  upwind (normalVel D S it f) (cell (D.cellid f 0).toNat) (outsideValue D S cell f)

/-- The integral of the variable over the domain, added up over the ranks. -/
def totalMass (W : World K) (s : TState K) : K :=
  ∑ p ∈ Finset.range W.SIZE, ∑ c ∈ Finset.range (W.D p).nbcells, (W.D p).volume c * (s.V p).cell c

/-- What leaves the domain, added up over the ranks. -/
def totalOutflow (W : World K) (S : Setup K) (s : TState K) : K :=
  ∑ p ∈ Finset.range W.SIZE, ((W.D p).boundaryfaces.map (outflow (W.D p) S s.iter (s.V p).cell)).sum

/-- The diffusion tensor `diag(Dxx, Dyy, Dzz)` maps the normal of every boundary face to a multiple of it: always so for an isotropic
tensor, and for any tensor when the sides of the domain are parallel to the axes. -/
def NormalDiffusion (D : Tables K) (S : Setup K) : Prop :=
  ∀ f ∈ D.boundaryfaces, ∃ lam, S.Dxx * D.normal f 0 = lam * D.normal f 0 ∧ S.Dyy * D.normal f 1 = lam * D.normal f 1 ∧
    S.Dzz * D.normal f 2 = lam * D.normal f 2

/-- Vector product of the edges `s x` and `s y`. -/
def cross (node : Nat → K × K × K × Nat) (s x y : Nat) : Nat → K
  | 0 => (pos node x 1 - pos node s 1) * (pos node y 2 - pos node s 2) - (pos node x 2 - pos node s 2) * (pos node y 1 - pos node s 1)
  | 1 => (pos node x 2 - pos node s 2) * (pos node y 0 - pos node s 0) - (pos node x 0 - pos node s 0) * (pos node y 2 - pos node s 2)
  | _ => (pos node x 0 - pos node s 0) * (pos node y 1 - pos node s 1) - (pos node x 1 - pos node s 1) * (pos node y 0 - pos node s 0)

/-- The triangles around node `s` are spread in the plane: no line contains their centroids and is parallel to all outer edges at `s`
(edges of one triangle only); `u` is a normal of such a line. -/
def Spread2 (nodeid : Nat → Nat → Nat) (node : Nat → K × K × K × Nat) (n s : Nat) : Prop :=
  ∀ (u : Nat → K) (c : K),
    (∀ C < n, Uses nodeid 3 C s → u 0 * (1 / 3 * (pos node (nodeid C 0) 0 + pos node (nodeid C 1) 0 + pos node (nodeid C 2) 0)) +
      u 1 * (1 / 3 * (pos node (nodeid C 0) 1 + pos node (nodeid C 1) 1 + pos node (nodeid C 2) 1)) = c) →
    (∀ C < n, ∀ x, s ≠ x → Uses nodeid 3 C s → Uses nodeid 3 C x → (∀ c' < n, c' ≠ C → ¬ (Uses nodeid 3 c' s ∧ Uses nodeid 3 c' x)) →
      u 0 * (pos node s 1 - pos node x 1) + u 1 * (pos node x 0 - pos node s 0) = 0) →
    u 0 = 0 ∧ u 1 = 0

/-- The tetrahedra around node `s` are spread in space: no plane contains their centroids and is perpendicular to all outer faces at `s`
(faces of one tetrahedron only); `u` is a normal of such a plane. -/
def Spread3 (nodeid : Nat → Nat → Nat) (node : Nat → K × K × K × Nat) (n s : Nat) : Prop :=
  ∀ (u : Nat → K) (c : K),
    (∀ C < n, Uses nodeid 4 C s → ∑ k ∈ Finset.range 3, u k * (1 / 4 * (pos node (nodeid C 0) k + pos node (nodeid C 1) k +
      pos node (nodeid C 2) k + pos node (nodeid C 3) k)) = c) →
    (∀ C < n, ∀ x y, [s, x, y].Nodup → Uses nodeid 4 C s → Uses nodeid 4 C x → Uses nodeid 4 C y →
      (∀ c' < n, c' ≠ C → ¬ (Uses nodeid 4 c' s ∧ Uses nodeid 4 c' x ∧ Uses nodeid 4 c' y)) →
      u 0 * cross node s x y 0 + u 1 * cross node s x y 1 + u 2 * cross node s x y 2 = 0) →
    u 0 = 0 ∧ u 1 = 0 ∧ u 2 = 0

end Verif.Spec
