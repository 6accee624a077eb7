import Verif.Spec.Parallel
import Verif.Model.Output
import Verif.Model.Domain

/-!
# Meshes as a user draws them: cells, points, tagged boundary elements
-/
namespace Verif.Spec
open Verif Verif.Output
variable {K : Type*} [Field K] [LinearOrder K]

/-- Signed area and volume of points. -/
def areaOf (points : Nat → K × K × K) (a b c : Nat) : K :=
  signedArea (pos (fun k => ((points k).1, (points k).2.1, (points k).2.2, 0)) a) (pos (fun k => ((points k).1, (points k).2.1, (points k).2.2, 0)) b)
    (pos (fun k => ((points k).1, (points k).2.1, (points k).2.2, 0)) c)

def volOf (points : Nat → K × K × K) (a b c d : Nat) : K :=
  signedVol (pos (fun k => ((points k).1, (points k).2.1, (points k).2.2, 0)) a) (pos (fun k => ((points k).1, (points k).2.1, (points k).2.2, 0)) b)
    (pos (fun k => ((points k).1, (points k).2.1, (points k).2.2, 0)) c) (pos (fun k => ((points k).1, (points k).2.1, (points k).2.2, 0)) d)

/-- Node `v` lies on a side with tag `t`. -/
def OnSide (els : List BElem) (t : Int) (v : Nat) : Prop := ∃ e ∈ els, e.2 = t ∧ v ∈ e.1

/-- The tags of the sides are those of a box: opposite sides (1/2, 3/4, 5/6) do not touch, and every boundary element has a node that is not
on a side of higher priority. -/
structure BoxSides (els : List BElem) : Prop where
  tag : ∀ e ∈ els, 1 ≤ e.2 ∧ e.2 ≤ 6
  apart12 : ∀ v, ¬ (OnSide els 1 v ∧ OnSide els 2 v)
  apart34 : ∀ v, ¬ (OnSide els 3 v ∧ OnSide els 4 v)
  apart56 : ∀ v, ¬ (OnSide els 5 v ∧ OnSide els 6 v)
  own34 : ∀ e ∈ els, e.2 = 3 ∨ e.2 = 4 → ∃ v ∈ e.1, ¬ OnSide els 1 v ∧ ¬ OnSide els 2 v
  own56 : ∀ e ∈ els, e.2 = 5 ∨ e.2 = 6 → ∃ v ∈ e.1, ¬ OnSide els 1 v ∧ ¬ OnSide els 2 v ∧ ¬ OnSide els 3 v ∧ ¬ OnSide els 4 v

/-- A triangular mesh: `n` triangles with `nbnodes` points, the outer edges tagged 1 to 4. -/
structure GmshMesh2 (cells : Nat → List Nat) (points : Nat → K × K × K) (els : List BElem) (nbnodes n : Nat) : Prop where
  len : ∀ c < n, (cells c).length = 3
  nodes : ∀ c < n, ∀ s ∈ cells c, s < nbnodes
  used : ∀ s < nbnodes, ∃ c < n, s ∈ cells c
  area : ∀ c < n, ∀ a b x, [a, b, x].Perm (cells c) → areaOf points a b x ≠ 0
  opposite : ∀ c < n, ∀ c' < n, c ≠ c' → ∀ a b x y, [a, b, x].Perm (cells c) → [a, b, y].Perm (cells c') → areaOf points a b x * areaOf points a b y < 0
  sides : BoxSides els
  edge : ∀ e ∈ els, e.1.length = 2 ∧ e.2 ≤ 4
  outer : ∀ c < n, ∀ a b x, [a, b, x].Perm (cells c) → (∀ c' < n, c' ≠ c → ¬ (a ∈ cells c' ∧ b ∈ cells c')) → ∃ e ∈ els, e.1.Perm [a, b]

/-- A tetrahedral mesh: `n` tetrahedra with `nbnodes` points, the outer triangles tagged 1 to 6. -/
structure GmshMesh3 (cells : Nat → List Nat) (points : Nat → K × K × K) (els : List BElem) (nbnodes n : Nat) : Prop where
  len : ∀ c < n, (cells c).length = 4
  nodes : ∀ c < n, ∀ s ∈ cells c, s < nbnodes
  used : ∀ s < nbnodes, ∃ c < n, s ∈ cells c
  volume : ∀ c < n, ∀ a b d x, [a, b, d, x].Perm (cells c) → volOf points a b d x ≠ 0
  opposite : ∀ c < n, ∀ c' < n, c ≠ c' → ∀ a b d x y, [a, b, d, x].Perm (cells c) → [a, b, d, y].Perm (cells c') →
    volOf points a b d x * volOf points a b d y < 0
  sides : BoxSides els
  face : ∀ e ∈ els, e.1.length = 3
  outer : ∀ c < n, ∀ a b d x, [a, b, d, x].Perm (cells c) → (∀ c' < n, c' ≠ c → ¬ (a ∈ cells c' ∧ b ∈ cells c' ∧ d ∈ cells c')) →
    ∃ e ∈ els, e.1.Perm [a, b, d]

/-- The boundary faces of a domain are boundary elements of the mesh file, and the location of each is the tag of its element
(`glob`: global numbers of the domain's nodes). -/
def SidesAsTagged (els : List BElem) (D : Dom.Tables K) (glob : Nat → Nat) : Prop :=
  ∀ f ∈ D.boundaryfaces, (∃ e ∈ els, e.1.Perm ((D.fnode f).map glob)) ∧ ∀ e ∈ els, e.1.Perm ((D.fnode f).map glob) → D.name f = e.2

/-- The domain has a boundary face with the nodes `l`. -/
def HasSide (D : Dom.Tables K) (glob : Nat → Nat) (l : List Nat) : Prop := ∃ f ∈ D.boundaryfaces, ((D.fnode f).map glob).Perm l

end Verif.Spec
