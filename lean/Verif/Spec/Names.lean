import Verif.Spec.Part

/-! # Specification of halo faces and face families -/
namespace Verif.Spec

/-- The node list `face` is, up to order, a side with `dim` nodes of a cell with node list `nodes`. -/
def IsSide (dim : Nat) (nodes face : List Nat) : Prop := ∃ s : List Nat, s.Sublist nodes ∧ s.length = dim ∧ face.Perm s

/-- Every face below `nbfaces` is in exactly one of the lists, exactly once, and the lists contain nothing else. -/
def CoversOnce (nbfaces : Nat) (families : List (List Nat)) : Prop :=
  ∀ f, (families.map (fun l => l.count f)).sum = if f < nbfaces then 1 else 0

/-- Boundary labels used by the 2D readers. -/
def labels2 : List Int := [1, 2, 3, 4, 11, 22, 33, 44]
/-- Boundary labels used by the 3D readers. -/
def labels3 : List Int := [1, 2, 3, 4, 5, 6, 11, 22, 33, 44, 55, 66]

end Verif.Spec
