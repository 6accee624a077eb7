import Verif.Basic.Arr

/-!
# Model of shared state outside the numerics: class-level variable tables of the models, result files, node labels
-/
namespace Verif.Output
open Verif

/-! ## Class-level `varbs` (models/SWModel/core.py:20-80, models/StreamerModel/core.py:22-62, 80-82) -/

/-- The process: `nextId` variables exist; `varbs` is the dictionary shared by all instances of the class; `own i` are the variables of
instance `i` (in the order of `variables`); `updated` counts the calls of `Variable.update_values` on each variable. -/
structure Heap where
  nextId : Nat
  varbs : List (String × Nat)
  own : List (List Nat)
  updated : Nat → Nat

/-- `d[k] = v` on an association list. -/
def dictSet (d : List (String × Nat)) (k : String) (v : Nat) : List (String × Nat) :=
  if k ∈ d.map Prod.fst then d.map (fun e => if e.1 = k then (k, v) else e) else d ++ [(k, v)]

/-- Before any instance: `varbs = {}` in the class body (models/SWModel/core.py:21, models/StreamerModel/core.py:24). -/
def Heap.empty : Heap := ⟨0, [], [], fun _ => 0⟩

/-- Constructor (models/SWModel/core.py:73-80): `for var in self.variables: self.varbs[var] = Variable(...)`, then `self.h = self.varbs['h']`
and so on. -/
def Heap.construct (names : List String) (h : Heap) : Heap :=
  let r := names.foldl (fun (s : Nat × List (String × Nat)) v => (s.1 + 1, dictSet s.2 v s.1)) (h.nextId, h.varbs)
  { h with nextId := r.1, varbs := r.2, own := h.own ++ [names.map (fun v => ((r.2.find? (fun e => e.1 = v)).map Prod.snd).getD 0)] }

/-- `update_values` of any instance (models/SWModel/core.py:82-84): iterates over the class dictionary. -/
def Heap.updateValues (_inst : Nat) (h : Heap) : Heap :=
  { h with updated := h.varbs.foldl (fun u e => setAt u e.2 (u e.2 + 1)) h.updated }

/-- Operations of a program using the class. -/
inductive HOp where
  | construct
  | update (inst : Nat)
deriving DecidableEq, Repr

def Heap.exec (names : List String) (h : Heap) : HOp → Heap
  | .construct => h.construct names
  | .update i => h.updateValues i

/-! ## Result files (ddm/domain.py:606-723, ddm/meshpartitioning.py:36-41) -/

/-- Contents of the index file `results/visu<miter>.pvtu`: the documents in it, each with its list of pieces. -/
abbrev Files := Nat → List (List String)

/-- ddm/domain.py:650-657: the pieces named in a document. -/
def pieces (size miter : Nat) : List String :=
  (List.range size).map (fun i => "visu" ++ toString i ++ "-" ++ toString miter ++ ".vtu")

inductive FOp where
  /-- `save_on_cell` or `save_on_node` with this `miter` (rank 0 of `size` ranks) -/
  | save (miter : Nat)
  /-- `readmesh`: removes all files under `results` -/
  | readmesh
deriving DecidableEq, Repr

/-- ddm/domain.py:637-661: the index is written by rank 0 only when there are several ranks, in append mode. -/
def fexec (size : Nat) (f : Files) : FOp → Files
  | .save m => if size > 1 then setAt f m (f m ++ [pieces size m]) else f
  | .readmesh => fun _ => []

/-! ## Node labels (ddm/meshpartitioning.py:68-128) -/

/-- A boundary element: its nodes and its physical label. -/
abbrev BElem := List Nat × Int

/-- ddm/meshpartitioning.py:77-81. -/
def pass12 (lab : Nat → Int) (e : BElem) : Nat → Int :=
  e.1.foldl (fun l v => if e.2 = 1 ∨ e.2 = 2 then setAt l v e.2 else l) lab

/-- ddm/meshpartitioning.py:83-88. -/
def pass34 (lab : Nat → Int) (e : BElem) : Nat → Int :=
  e.1.foldl (fun l v => if l v ≠ 1 ∧ l v ≠ 2 then (if e.2 = 3 ∨ e.2 = 4 then setAt l v e.2 else l) else l) lab

/-- ddm/meshpartitioning.py:91-96. -/
def passRest (lab : Nat → Int) (e : BElem) : Nat → Int :=
  e.1.foldl (fun l v => if l v = 0 then setAt l v e.2 else l) lab

/-- ddm/meshpartitioning.py:109-127: renaming for the periodic directions. -/
def rename (periodic : Nat → Int) (l : Int) : Int :=
  let l := if periodic 0 = 1 then (if l = 1 then 11 else if l = 2 then 22 else l) else l
  let l := if periodic 1 = 1 then (if l = 3 then 33 else if l = 4 then 44 else l) else l
  if periodic 2 = 1 then (if l = 5 then 55 else if l = 6 then 66 else l) else l

/-- ddm/meshpartitioning.py:68-128 `define_ghost_node`, dictionary meshes. -/
def ghostNodes (els : List BElem) (periodic : Nat → Int) : Nat → Int :=
  let lab := els.foldl pass12 (fun _ => 0)
  let lab := els.foldl pass34 lab
  let lab := els.foldl passRest lab
  fun v => rename periodic (lab v)

/-- ddm/meshpartitioning.py:98-107, list meshes: the first iteration reads the local variable `k`, which only the other branch assigns. -/
def ghostNodesList (els : List BElem) (periodic : Nat → Int) : Except String (Nat → Int) :=
  if els.any (fun e => e.1 ≠ []) then .error "UnboundLocalError: k" else .ok (fun _ => rename periodic 0)

end Verif.Output
