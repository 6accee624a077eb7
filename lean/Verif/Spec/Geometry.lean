import Verif.Basic.Arr

/-! # Geometric specification: signed area / volume, dot product, reflections -/
namespace Verif.Spec
variable {K : Type*} [Field K] [LinearOrder K]

/-- Signed area of the triangle `A B C` (positive iff counter-clockwise). -/
def signedArea (A B C : Nat → K) : K :=
  ((B 0 - A 0) * (C 1 - A 1) - (C 0 - A 0) * (B 1 - A 1)) / 2

/-- Signed volume of the tetrahedron `A B C D`: one sixth of the determinant of its edge vectors. -/
def signedVol (A B C D : Nat → K) : K :=
  ((B 0 - A 0) * ((C 1 - A 1) * (D 2 - A 2) - (C 2 - A 2) * (D 1 - A 1))
   - (B 1 - A 1) * ((C 0 - A 0) * (D 2 - A 2) - (C 2 - A 2) * (D 0 - A 0))
   + (B 2 - A 2) * ((C 0 - A 0) * (D 1 - A 1) - (C 1 - A 1) * (D 0 - A 0))) / 6

/-- Scalar product of vectors of the space (three components). -/
def sp (u v : Nat → K) : K := ∑ k ∈ Finset.range 3, u k * v k

/-- What the theorems assume about the square root. -/
structure SqrtSpec (sqrt : K → K) : Prop where
  nonneg : ∀ x, 0 ≤ x → 0 ≤ sqrt x
  sq : ∀ x, 0 ≤ x → sqrt x ^ 2 = x

/-- Sides of a triangle and of a tetrahedron (as produced face by face by the code). -/
def side2 (a b c : Nat) : Nat → List Nat
  | 0 => [a, b]
  | 1 => [b, c]
  | _ => [c, a]

def side3 (a b c d : Nat) : Nat → List Nat
  | 0 => [a, b, c]
  | 1 => [c, d, a]
  | 2 => [a, b, d]
  | _ => [d, b, c]

/-- `v'` is the mirror image of `v` in the line through `P` and `Q`: the midpoint lies on the line and the
displacement is orthogonal to it. -/
def IsMirror2 (P Q v v' : Nat → K) : Prop :=
  (∃ t, ∀ k < 2, (v k + v' k) / 2 = P k + t * (Q k - P k)) ∧
  (v' 0 - v 0) * (Q 0 - P 0) + (v' 1 - v 1) * (Q 1 - P 1) = 0

end Verif.Spec
