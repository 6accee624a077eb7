import Verif.Model.Variable

/-!
# The table of boundary locations of a domain (`ddm/domain.py`)

Each rank builds this table from the names of *its own* faces.
-/
namespace Verif.Var
open Verif

/-- ddm/domain.py:458-473, 492-495: `where(faces._name == k)[0]`. -/
def facesNamed (name : Nat → Int) (nbfaces : Nat) (k : Int) : List Nat := (List.range nbfaces).filter (fun i => name i = k)

/-- ddm/domain.py:544-555, 571-577: `_BCs[loc] = [type, index]`; the type is given as "is periodic".  (Numbers above 5 name
no location; they get unused indices.) -/
def domBCs (name : Nat → Int) (nbfaces : Nat) (loc : Loc) : Bool × Int :=
  let perIn := decide ((facesNamed name nbfaces 11).length ≠ 0)
  let perUp := decide ((facesNamed name nbfaces 33).length ≠ 0)
  let perFr := decide ((facesNamed name nbfaces 55).length ≠ 0)
  match loc with
  | 0 => if perIn then (true, 11) else (false, 1)
  | 1 => if perIn then (true, 22) else (false, 2)
  | 2 => if perUp then (true, 44) else (false, 4)
  | 3 => if perUp then (true, 33) else (false, 3)
  | 4 => if perFr then (true, 55) else (false, 5)
  | 5 => if perFr then (true, 66) else (false, 6)
  | loc => (false, -1 - loc)

/-- ast/core.py:45-68: the faces of a location, `domain._infaces`, ...; never the periodic ones. -/
def locFaces (name : Nat → Int) (nbfaces : Nat) (loc : Loc) : List Nat :=
  facesNamed name nbfaces (match loc with | 0 => 1 | 1 => 2 | 2 => 4 | 3 => 3 | 4 => 5 | 5 => 6 | loc => -1 - loc)

/-- What `Variable` sees of the domain built by one rank (`oldname`: labels of its nodes; the halo-ghost tables are as given). -/
def domOf (nbfaces nbcells nbnodes nbhalos sizehaloghost : Nat) (name : Nat → Int) (oldname : Nat → Int) (slots : Nat → List Int)
    (cellid0 : Nat → Nat) (table : Nat → List HG) (halonodes : List Nat) : Dom where
  nbfaces := nbfaces
  nbcells := nbcells
  nbnodes := nbnodes
  nbhalos := nbhalos
  sizehaloghost := sizehaloghost
  typeindex := fun loc => (domBCs name nbfaces loc).2
  isPeriodic := fun loc => (domBCs name nbfaces loc).1
  faces := locFaces name nbfaces
  nodes := fun loc => (List.range nbnodes).filter (fun n => oldname n = (domBCs name nbfaces loc).2)
  slots := slots
  cellid0 := cellid0
  table := table
  halonodes := halonodes

end Verif.Var
