import Verif.Spec.PeriodicDiff

/-! # Specification: the width of a mesh with periodic sides -/
namespace Verif.Spec
open Verif Verif.Dom Verif.Geo Verif.MeshFile Verif.Part
variable {K : Type*} [Field K] [LinearOrder K]

/-- Cell `c` shares a node with another cell that has a face on side `s`. -/
def Mesh.NextTo (m : Mesh K) (s c : Nat) : Prop :=
  ∃ c₂ l x, m.Outer c₂ l x ∧ m.On s l ∧ c₂ ≠ c ∧ ∃ a, Uses m.nodeid (m.dim + 1) c a ∧ Uses m.nodeid (m.dim + 1) c₂ a

/-- The facing sides `lo` and `hi` are several faces long and several cells apart: every cell with a face on one of them shares a node with
another such cell, and with none that has a face on the facing side. -/
def Mesh.Wide (m : Mesh K) (lo hi : Nat) : Prop :=
  ∀ c l x, m.Outer c l x → (m.On lo l → m.NextTo lo c ∧ ¬ m.NextTo hi c) ∧ (m.On hi l → m.NextTo hi c ∧ ¬ m.NextTo lo c)

/-- The same for every cell that touches a node of one of the sides. -/
def Mesh.WideAt (m : Mesh K) (lo hi : Nat) : Prop :=
  ∀ c < m.n, ∀ a, Uses m.nodeid (m.dim + 1) c a →
    (labelOf m.node a = lo → m.NextTo lo c ∧ ¬ m.NextTo hi c) ∧ (labelOf m.node a = hi → m.NextTo hi c ∧ ¬ m.NextTo lo c)

/-- Neither end of face `f` lies on a wall. -/
def FreeOfWalls (D : Tables K) (f : Nat) : Prop :=
  ∀ b ∈ D.boundaryfaces, ∀ i < 2, ∀ j < 2, (D.fnode f).getD j 0 ≠ (D.fnode b).getD i 0

end Verif.Spec
