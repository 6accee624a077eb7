import Verif.Basic.Arr
import Mathlib.Data.List.Sort

/-! # Specification of the connectivity tables (in terms of "cell `i` uses node/face `x`") -/
namespace Verif.Spec

/-- Cell `i` has `x` among its `d1` entries of the table `t` (its nodes, or its faces). -/
def Uses (t : Nat → Nat → Nat) (d1 i x : Nat) : Prop := ∃ j, j < d1 ∧ t i j = x

instance (t : Nat → Nat → Nat) (d1 i x : Nat) : Decidable (Uses t d1 i x) :=
  inferInstanceAs (Decidable (∃ j, j < d1 ∧ t i j = x))

/-- The cells below `n` using `x`, ascending. -/
def users (t : Nat → Nat → Nat) (d1 n x : Nat) : List Nat := (List.range n).filter (fun i => Uses t d1 i x)

/-- Two cells share a node. -/
def ShareNode (nodeid : Nat → Nat → Nat) (d1 i c : Nat) : Prop := ∃ k, Uses nodeid d1 i k ∧ Uses nodeid d1 c k

/-- The `d1` nodes of every cell are distinct. -/
def DistinctRows (t : Nat → Nat → Nat) (d1 n : Nat) : Prop :=
  ∀ i < n, ∀ j < d1, ∀ j' < d1, t i j = t i j' → j = j'

/-- `row` is the list `l`, padded with `-1` to width `m`, followed by the length of `l`. -/
def PaddedRow (m : Nat) (row : List Int) (l : List Nat) : Prop :=
  l.length ≤ m ∧ row = l.map (fun (x : Nat) => (x : Int)) ++ List.replicate (m - l.length) (-1) ++ [(l.length : Int)]

/-- The list is strictly increasing and has exactly the elements satisfying `P`. -/
def Lists (l : List Nat) (P : Nat → Prop) : Prop := l.Pairwise (· < ·) ∧ ∀ x, x ∈ l ↔ P x

/-- A strictly increasing list is determined by its elements. -/
theorem Lists.unique {l l' : List Nat} {P : Nat → Prop} (h : Lists l P) (h' : Lists l' P) : l = l' := by
  apply List.Perm.eq_of_pairwise (le := (· < ·)) _ h.1 h'.1
  · rw [List.perm_ext_iff_of_nodup (h.1.imp (fun h => Nat.ne_of_lt h)) (h'.1.imp (fun h => Nat.ne_of_lt h))]
    intro a; rw [h.2, h'.2]
  · intro a b _ _ h1 h2; omega

/-- Shape of the face table for a list of cell sides `side i j`, `j < d1`. -/
def FacesSpec (n d1 : Nat) (side : Nat → Nat → List Nat) (F : List (List Nat)) (faceid : Nat → Nat → Nat) : Prop :=
  F.Nodup ∧
  (∀ r ∈ F, ∀ r' ∈ F, r.Perm r' → r = r') ∧
  (∀ r ∈ F, r.Pairwise (· ≤ ·) ∧ ∃ i < n, ∃ j < d1, r.Perm (side i j)) ∧
  (∀ i < n, ∀ j < d1, faceid i j < F.length ∧ (F.getD (faceid i j) []).Perm (side i j))

/-- Row `f` of the opposite-node table: for the ascending list `us` of cells using the face (node list `face`), the node
`o i` of cell `i` that is not on the face, one per cell; a single `-1` is appended when fewer than two cells use it. -/
def OppRow (nodeid : Nat → Nat → Nat) (d1 : Nat) (face us : List Nat) (row : List Int) : Prop :=
  ∃ o : Nat → Nat, (∀ i ∈ us, Uses nodeid d1 i (o i) ∧ o i ∉ face ∧ ∀ x, Uses nodeid d1 i x → x ∉ face → x = o i) ∧
    row = us.map (fun i => (o i : Int)) ++ if us.length < 2 then [-1] else []

end Verif.Spec
