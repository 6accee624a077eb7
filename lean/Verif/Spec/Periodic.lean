import Verif.Model.Periodic

/-! Specification of periodic boundaries (C68). -/
namespace Verif.Spec
open Verif.Periodic
variable {K : Type*}

/-- `b` is the point `a` translated by `δ` in direction `d`. -/
def IsTranslate [Add K] [Zero K] (d : Nat) (δ : K) (a b : Nat → K) : Prop := ∀ e < 3, b e = a e + if e = d then δ else 0

/-- The objects of `A` and `B` at positions `pos` correspond to each other by the translation. -/
def Matched [Add K] [Zero K] (d : Nat) (δ : K) (pos : Nat → Nat → K) (A B : List Nat) : Prop :=
  (∀ i ∈ A, ∃ k ∈ B, IsTranslate d δ (pos i) (pos k)) ∧ (∀ k ∈ B, ∃ i ∈ A, IsTranslate d δ (pos i) (pos k))

/-- The positions remain distinct after rounding. -/
def KeysDistinct (r : K → K) (pos : Nat → Nat → K) (A : List Nat) : Prop :=
  ∀ i ∈ A, ∀ j ∈ A, keyAt r (pos i) = keyAt r (pos j) → i = j

/-- Rounding commutes with the translation at the coordinates in direction `d`. -/
def Exact [Add K] (r : K → K) (d : Nat) (δ : K) (pos : Nat → Nat → K) (A : List Nat) : Prop := ∀ i ∈ A, r (pos i d) + δ = r (pos i d + δ)

/-- The periodic partners of the faces: each face has as second cell the cell of the translated face, and conversely. -/
def Partners [Add K] [Zero K] (m : PMesh K) (cell1 : Nat → Int) (d : Nat) (δ : K) (A B : List Nat) : Prop :=
  ∀ i ∈ A, ∀ k ∈ B, IsTranslate d δ (m.centerf i) (m.centerf k) → cell1 i = (m.cell0 k : Int) ∧ cell1 k = (m.cell0 i : Int)

/-- A list of cells (ascending, without repetition) with the same elements as `l`. -/
def ListsCells (row : List Int) (l : List Nat) : Prop := row.Pairwise (· < ·) ∧ ∀ x, x ∈ row ↔ ∃ c ∈ l, x = (c : Int)

/-- The periodic cells of the nodes of `A` are the cells of the translated nodes of `B`. -/
def NodeCells [Add K] [Zero K] (m : PMesh K) (nper : Nat → List Int) (d : Nat) (δ : K) (A B : List Nat) : Prop :=
  ∀ i ∈ A, ∀ k ∈ B, IsTranslate d δ (m.vertex i) (m.vertex k) → ListsCells (nper i) (m.ncells k)

/-- What a periodic direction of a mesh must satisfy: sides `A`, `B` of faces, `NA`, `NB` of nodes, related by the translation `δ` in
direction `d`. -/
structure PeriodicDir [Add K] [Zero K] [Neg K] (r : K → K) (m : PMesh K) (d : Nat) (δ : K) (A B NA NB : List Nat) : Prop where
  faces : Matched d δ m.centerf A B
  nodes : Matched d δ m.vertex NA NB
  keysA : KeysDistinct r m.centerf A
  keysB : KeysDistinct r m.centerf B
  nkeysA : KeysDistinct r m.vertex NA
  nkeysB : KeysDistinct r m.vertex NB
  nodupA : NA.Nodup
  nodupB : NB.Nodup
  disj : ∀ i ∈ A, i ∉ B
  ndisj : ∀ i ∈ NA, i ∉ NB
  used : ∀ i, i ∈ NA ∨ i ∈ NB → m.ncells i ≠ []
  exactA : Exact r d δ m.centerf A
  exactB : Exact r d (-δ) m.centerf B
  nexactA : Exact r d δ m.vertex NA
  nexactB : Exact r d (-δ) m.vertex NB

/-- The lists `l1`, `l2` have no element in common with `l3`, `l4`. -/
def Apart (l1 l2 l3 l4 : List Nat) : Prop := ∀ i, i ∈ l1 ∨ i ∈ l2 → ¬ (i ∈ l3 ∨ i ∈ l4)

/-- A 2D mesh periodic in x (`in`/`out`) and y (`upper`/`bottom`) with periods `L 0`, `L 1`; empty lists: not periodic.  A face (node) is
on one side only (it has one name). -/
structure PeriodicMesh2 [Add K] [Zero K] [Neg K] (r : K → K) (m : PMesh K) (L : Nat → K) (F N : Sides) : Prop where
  x : PeriodicDir r m 0 (L 0) F.inn F.out N.inn N.out
  y : PeriodicDir r m 1 (-L 1) F.upper F.bottom N.upper N.bottom
  xyF : Apart F.inn F.out F.upper F.bottom
  xyN : Apart N.inn N.out N.upper N.bottom

/-- A 3D mesh, periodic in x, y and z (`front`/`back`). -/
structure PeriodicMesh3 [Add K] [Zero K] [Neg K] (r : K → K) (m : PMesh K) (L : Nat → K) (F N : Sides) : Prop
    extends PeriodicMesh2 r m L F N where
  z : PeriodicDir r m 2 (-L 2) F.front F.back N.front N.back
  xzF : Apart F.inn F.out F.front F.back
  xzN : Apart N.inn N.out N.front N.back
  yzF : Apart F.upper F.bottom F.front F.back
  yzN : Apart N.upper N.bottom N.front N.back

/-- `c` touches (by a node) another cell that has a face in `A`. -/
def Near (m : PMesh K) (A : List Nat) (c : Nat) : Prop := ∃ i ∈ A, c ∈ m.cellnid (m.cell0 i)

end Verif.Spec
