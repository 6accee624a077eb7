import Verif.Model.MeshFile

/-!
# Model of face naming, halo face identification and face families
(`ddm/pyccel_ddm.py:15-147`, `ddm/numba_ddm.py:369-430, 504-590`, `ddm/domain.py:455-520`)
-/
namespace Verif.Names
open Verif

/-- ddm/pyccel_ddm.py:28-51: name of a one-sided 2D face from the labels of its two nodes. -/
def name2 (a b : Int) : Int :=
  if a = b then a
  else if (a = 3 ∧ b ≠ 0) ∨ (a ≠ 0 ∧ b = 3) then 3
  else if (a = 4 ∧ b ≠ 0) ∨ (a ≠ 0 ∧ b = 4) then 4
  else if (a = 33 ∧ b ≠ 0) ∨ (a ≠ 0 ∧ b = 33) then 33
  else if (a = 44 ∧ b ≠ 0) ∨ (a ≠ 0 ∧ b = 44) then 44
  else 100

/-- ddm/pyccel_ddm.py:82-131: name of a one-sided 3D face from the labels of its three nodes. -/
def name3 (a b c : Int) : Int :=
  if a = b ∧ a = c then a
  else if (a = 5 ∧ b ≠ 0 ∧ c ≠ 0) ∨ (a ≠ 0 ∧ b = 5 ∧ c ≠ 0) ∨ (a ≠ 0 ∧ b ≠ 0 ∧ c = 5) then 5
  else if (a = 6 ∧ b ≠ 0 ∧ c ≠ 0) ∨ (a ≠ 0 ∧ b = 6 ∧ c ≠ 0) ∨ (a ≠ 0 ∧ b ≠ 0 ∧ c = 6) then 6
  else if (a = 3 ∧ b ≠ 0 ∧ c ≠ 0) ∨ (a ≠ 0 ∧ b = 3 ∧ c ≠ 0) ∨ (a ≠ 0 ∧ b ≠ 0 ∧ c = 3) then 3
  else if (a = 4 ∧ b ≠ 0 ∧ c ≠ 0) ∨ (a ≠ 0 ∧ b = 4 ∧ c ≠ 0) ∨ (a ≠ 0 ∧ b ≠ 0 ∧ c = 4) then 4
  else if (a = 55 ∧ b ≠ 0 ∧ c ≠ 0) ∨ (a ≠ 0 ∧ b = 55 ∧ c ≠ 0) ∨ (a ≠ 0 ∧ b ≠ 0 ∧ c = 55) then 55
  else if (a = 66 ∧ b ≠ 0 ∧ c ≠ 0) ∨ (a ≠ 0 ∧ b = 66 ∧ c ≠ 0) ∨ (a ≠ 0 ∧ b ≠ 0 ∧ c = 66) then 66
  else if (a = 33 ∧ b ≠ 0 ∧ c ≠ 0) ∨ (a ≠ 0 ∧ b = 33 ∧ c ≠ 0) ∨ (a ≠ 0 ∧ b ≠ 0 ∧ c = 33) then 33
  else if (a = 44 ∧ b ≠ 0 ∧ c ≠ 0) ∨ (a ≠ 0 ∧ b = 44 ∧ c ≠ 0) ∨ (a ≠ 0 ∧ b ≠ 0 ∧ c = 44) then 44
  else 100

/-- ddm/pyccel_ddm.py:27-51, the loop over the faces: `name` starts at 0 (ddm/domain.py:413). -/
def faceNames2 (cellid1 : Nat → Int) (nodeid : Nat → Nat → Nat) (namen : Nat → Int) (nbfaces : Nat) : Nat → Int :=
  (List.range nbfaces).foldl (fun nm i =>
    if cellid1 i = -1 ∧ cellid1 i ≠ -10 then setAt nm i (name2 (namen (nodeid i 0)) (namen (nodeid i 1))) else nm) (fun _ => 0)

/-- ddm/pyccel_ddm.py:77-131. -/
def faceNames3 (cellid1 : Nat → Int) (nodeid : Nat → Nat → Nat) (namen : Nat → Int) (nbfaces : Nat) : Nat → Int :=
  (List.range nbfaces).foldl (fun nm i =>
    if cellid1 i = -1 then setAt nm i (name3 (namen (nodeid i 0)) (namen (nodeid i 1)) (namen (nodeid i 2))) else nm) (fun _ => 0)

/-- Python dictionary with tuples as keys, as the list of its insertions; `dict.get(key)`: the last insertion wins. -/
def tupleGet (d : List (List Nat × Nat)) (k : List Nat) : Option Nat := (d.reverse.find? (fun e => e.1 = k)).map (·.2)

/-- ddm/numba_ddm.py:379-384: `halos._faces` in 2D (a row of `halosext` is `[cell, n1, n2, n3]`). -/
def haloDict2 (ext : List (List Nat)) : List (List Nat × Nat) :=
  (ext.foldl (fun (s : List (List Nat × Nat) × Nat) r =>
    let n := fun j => r.getD j 0
    (s.1 ++ [([n 1, n 2], s.2), ([n 2, n 3], s.2 + 1), ([n 1, n 3], s.2 + 2)], s.2 + 3)) ([], 1)).1

/-- ddm/numba_ddm.py:512-519: `halos._faces` in 3D (a row of `halosext` is `[cell, n1, n2, n3, n4]`). -/
def haloDict3 (ext : List (List Nat)) : List (List Nat × Nat) :=
  (ext.foldl (fun (s : List (List Nat × Nat) × Nat) r =>
    let n := fun j => r.getD j 0
    (s.1 ++ [([n 1, n 2, n 3], s.2), ([n 3, n 4, n 1], s.2 + 1), ([n 1, n 2, n 4], s.2 + 2), ([n 4, n 2, n 3], s.2 + 3)],
      s.2 + 4)) ([], 1)).1

/-- The arrays written by the halo face loop. -/
structure Marks where
  cellid1 : Nat → Int
  name : Nat → Int
  nodename : Nat → Int
  halofid : Nat → Nat

/-- One `if halos._faces.get(tuple): ...` block (a value `0` would be falsy). -/
def markStep (w : Nat) (dict : List (List Nat × Nat)) (fnodes : List Nat) (i : Nat) (s : Marks) (key : List Nat) : Marks :=
  match tupleGet dict key with
  | some v => if v ≠ 0 then
      { cellid1 := setAt s.cellid1 i (-10)
        name := setAt s.name i 10
        nodename := fnodes.foldl (fun nm m => setAt nm m 10) s.nodename
        halofid := setAt s.halofid i ((v - 1) / w) }
    else s
  | none => s

/-- ddm/numba_ddm.py:386-405: the loop over the faces in 2D; `nodeid` has local nodes, `g` is `nodes._loctoglob`. -/
def markLoop2 (ext : List (List Nat)) (nodeid : Nat → Nat → Nat) (g : Nat → Nat) (nbfaces : Nat) (s : Marks) : Marks :=
  (List.range nbfaces).foldl (fun s i =>
    let n1 := g (nodeid i 0); let n2 := g (nodeid i 1)
    [[n1, n2], [n2, n1]].foldl (markStep 3 (haloDict2 ext) [nodeid i 0, nodeid i 1] i) s) s

/-- ddm/numba_ddm.py:521-576: the loop over the faces in 3D. -/
def markLoop3 (ext : List (List Nat)) (nodeid : Nat → Nat → Nat) (g : Nat → Nat) (nbfaces : Nat) (s : Marks) : Marks :=
  (List.range nbfaces).foldl (fun s i =>
    let n1 := g (nodeid i 0); let n2 := g (nodeid i 1); let n3 := g (nodeid i 2)
    [[n1, n2, n3], [n1, n3, n2], [n2, n1, n3], [n2, n3, n1], [n3, n1, n2], [n3, n2, n1]].foldl
      (markStep 4 (haloDict3 ext) [nodeid i 0, nodeid i 1, nodeid i 2] i) s) s

/-- ddm/numba_ddm.py:410-415, 578-583: `where(halosext[:,1:] == node)[0]`: the rows of `halosext` containing the node (one entry
per occurrence). -/
def haloCellsOfNode (ext : List (List Nat)) (node : Nat) : List Nat :=
  ext.zipIdx.flatMap (fun e => (e.1.tail.filter (fun x => x = node)).map (fun _ => e.2))

/-- `where(name == v)[0]` (ddm/domain.py:455-520). -/
def named (name : Nat → Int) (nbfaces : Nat) (v : Int) : List Nat := (List.range nbfaces).filter (fun f => name f = v)

/-- ddm/domain.py:455-472: the face lists the 2D schemes loop over. -/
def families2 (name : Nat → Int) (nbfaces : Nat) : List (List Nat) :=
  let w := named name nbfaces
  [w 0, w 10, (w 1 ++ w 2 ++ w 4 ++ w 3).insertionSort (· ≤ ·), (w 11 ++ w 22 ++ w 44 ++ w 33).insertionSort (· ≤ ·)]

/-- ddm/domain.py:455-517: the face lists in 3D. -/
def families3 (name : Nat → Int) (nbfaces : Nat) : List (List Nat) :=
  let w := named name nbfaces
  [w 0, w 10, ((w 1 ++ w 2 ++ w 4 ++ w 3) ++ w 6 ++ w 5).insertionSort (· ≤ ·),
    ((w 11 ++ w 22 ++ w 44 ++ w 33) ++ w 66 ++ w 55).insertionSort (· ≤ ·)]

end Verif.Names
