import Verif.Model.Output

/-! # Vocabulary for C63, C64, C67 -/
namespace Verif.Output

/-- Saves of iteration `m` since the last time the results were cleared. -/
def savesSince (ops : List FOp) (m : Nat) : Nat := (ops.reverse.takeWhile (fun o => o ≠ .readmesh)).count (.save m)

/-- Labels of the boundary elements that contain node `v` and whose label satisfies `P`, in mesh order. -/
def labelsAt (els : List BElem) (P : Int → Bool) (v : Nat) : List Int := (els.filter (fun e => decide (v ∈ e.1) && P e.2)).map Prod.snd

/-- The priority rule: the last label 1 or 2; failing that the last label 3 or 4; failing that the first nonzero label; 0 for other nodes. -/
def labelRule (els : List BElem) (v : Nat) : Int :=
  match (labelsAt els (fun l => l = 1 ∨ l = 2) v).getLast? with
  | some l => l
  | none => match (labelsAt els (fun l => l = 3 ∨ l = 4) v).getLast? with
    | some l => l
    | none => (labelsAt els (fun l => l ≠ 0) v).head?.getD 0

end Verif.Output
