import Verif.Model.MeshFile
import Verif.Props.Part
import Mathlib.Algebra.Order.Field.Rat

/-!
# Property C25: mesh file round trip
-/
set_option linter.unusedSectionVars false
namespace Verif.Props
open Verif.MeshFile Verif.Spec Verif.Part Verif.Conn
variable {K : Type*} [NatCast K]

/-- What the reader is expected to return for the written data. -/
def expected (size rank : Nat) (d : WriteData K) : RankData K :=
  { tc := if size = 1 then List.range d.nodeid.length else if rank = 0 then d.tc else []
    nodeid := d.nodeid
    vertex := d.nodes.map (fun r => [r.1, r.2.1, r.2.2.1, (r.2.2.2 : K)])
    halosint := if size = 1 then [] else d.halosint
    halosext := if size = 1 then [] else d.halosext
    centvol := if size = 1 then [] else d.centvol
    globtoloc := if size = 1 then [] else d.loctoglob.zipIdx
    loctoglob := if size = 1 then [] else d.loctoglob
    nodeloctoglob := if size = 1 then [] else d.nodeloctoglob
    neigh := if size = 1 then [] else [d.neighsub, d.neighcount]
    nparts := if size = 1 then [] else d.nparts }

/-- Lines that are neither skipped nor stop the loop are parsed. -/
theorem readLoop_values {α : Type*} (skip stop : Line K → Bool) (parse : Line K → Option α) (ls rest : List (Line K))
    (as : List α) (hs : ∀ l ∈ ls, skip l = false ∧ stop l = false) (hp : ls.map parse = as.map some) :
    readLoop skip stop parse (ls ++ rest) = (readLoop skip stop parse rest).map (fun r => (as ++ r.1, r.2)) := by
  induction ls generalizing as with
  | nil =>
    obtain rfl : as = [] := by simpa using hp.symm
    cases h : readLoop skip stop parse rest <;> simp [h]
  | cons l ls ih =>
    match as with
    | [] => simp at hp
    | a :: as =>
      simp only [List.map_cons, List.cons.injEq] at hp
      obtain ⟨h1, h2⟩ := hs l (by simp)
      simp only [List.cons_append, readLoop, h1, h2, hp.1, if_false, Bool.false_eq_true]
      rw [ih as (fun x hx => hs x (by simp [hx])) hp.2]
      cases h : readLoop skip stop parse rest <;> simp

theorem readLoop_skip {α : Type*} (skip stop : Line K → Bool) (parse : Line K → Option α) (l : Line K) (rest : List (Line K))
    (h : skip l = true) : readLoop skip stop parse (l :: rest) = readLoop skip stop parse rest := by
  simp [readLoop, h]

theorem readLoop_stop {α : Type*} (skip stop : Line K → Bool) (parse : Line K → Option α) (l : Line K) (rest : List (Line K))
    (h : skip l = false) (h' : stop l = true) : readLoop skip stop parse (l :: rest) = some ([], rest) := by
  simp [readLoop, h, h']

theorem isKw_ints (k : String) (r : List Nat) : isKw (K := K) k (r.map .int) = false := by
  match r with
  | [] => rfl
  | [_] => rfl
  | _ :: _ :: _ => rfl

theorem hasKw_ints (k : String) (r : List Nat) : hasKw (K := K) k (r.map .int) = false := by
  simp [hasKw]

theorem hasKw_reals (k : String) (r : List K) : hasKw (K := K) k (r.map .real) = false := by
  simp [hasKw]

theorem intRow_ints (r : List Nat) : intRow (K := K) (r.map .int) = some r := by
  unfold intRow
  induction r with
  | nil => rfl
  | cons a r ih => simp [tokInt, ih]

theorem realRow_reals (r : List K) : realRow (K := K) (r.map .real) = some r := by
  unfold realRow
  induction r with
  | nil => rfl
  | cons a r ih => simp [tokReal, ih]

/-- Loops over rows of integers. -/
theorem readLoop_intRows (skip stop : Line K → Bool) (rows : List (List Nat)) (rest : List (Line K))
    (hs : ∀ r : List Nat, skip (r.map .int) = false ∧ stop (r.map .int) = false) :
    readLoop skip stop intRow (intRows rows ++ rest)
      = (readLoop skip stop intRow rest).map (fun r => (rows ++ r.1, r.2)) := by
  apply readLoop_values
  · intro l hl; obtain ⟨r, _, rfl⟩ := List.mem_map.mp hl; exact hs r
  · simp [intRows, Function.comp_def, intRow_ints]

theorem readLoop_intLines (skip stop : Line K → Bool) (parse : Line K → Option Nat) (l : List Nat) (rest : List (Line K))
    (hs : ∀ n : Nat, skip [.int n] = false ∧ stop [.int n] = false) (hp : ∀ n : Nat, parse [.int n] = some n) :
    readLoop skip stop parse (intLines l ++ rest)
      = (readLoop skip stop parse rest).map (fun r => (l ++ r.1, r.2)) := by
  apply readLoop_values
  · intro x hx; obtain ⟨n, _, rfl⟩ := List.mem_map.mp hx; exact hs n
  · simp [intLines, Function.comp_def, hp]

theorem readLoop_nodeRows (skip stop : Line K → Bool) (rows : List (K × K × K × Nat)) (rest : List (Line K))
    (hs : ∀ r : K × K × K × Nat, skip [.real r.1, .real r.2.1, .real r.2.2.1, .int r.2.2.2] = false ∧
      stop [.real r.1, .real r.2.1, .real r.2.2.1, .int r.2.2.2] = false) :
    readLoop skip stop realRow (nodeRows rows ++ rest)
      = (readLoop skip stop realRow rest).map
        (fun r => (rows.map (fun r => [r.1, r.2.1, r.2.2.1, (r.2.2.2 : K)]) ++ r.1, r.2)) := by
  apply readLoop_values
  · intro l hl; obtain ⟨r, _, rfl⟩ := List.mem_map.mp hl; exact hs r
  · simp [nodeRows, realRow, tokReal]

theorem kw_append (s : String) (r : List (Line K)) : kw s ++ r = [.word s] :: r := rfl

theorem hasKw_word (k w : String) : hasKw (K := K) k [.word w] = decide (k.toList <:+: w.toList) := by simp [hasKw]

/-- Closed facts about the keywords. -/
theorem kwf :
    ("endhalosint".toList <:+: "endhalosint".toList) ∧
    ("halosext".toList <:+: "halosext".toList) ∧ ("halosext".toList <:+: "endhalosext".toList) ∧
    ¬ ("halosext".toList <:+: "centvol".toList) ∧ ("centvol".toList <:+: "centvol".toList) ∧
    ("centvol".toList <:+: "endcentvol".toList) ∧ ¬ ("centvol".toList <:+: "globalcelltolocal".toList) ∧
    ("globalcelltolocal".toList <:+: "globalcelltolocal".toList) := by decide +kernel

/-- `if size > 1 and rank == 0`: the block `GtoL`. -/
theorem rd_tc (l : List Nat) (T : List (Line K)) :
    readLoop (K := K) (fun l => isKw "GtoL" l || isKw "endGtoL" l) (isKw "elements") intHead
        (kw "GtoL" ++ (intLines l ++ (kw "endGtoL" ++ (kw "elements" ++ T)))) = some (l, T) := by
  simp only [kw_append]
  rw [readLoop_skip _ _ _ _ _ (by simp [isKw]), readLoop_intLines _ _ _ _ _ (fun n => by simp [isKw])
    (fun n => by simp [intHead, intRow, tokInt]),
    readLoop_skip _ _ _ _ _ (by simp [isKw]), readLoop_stop _ _ _ _ _ (by simp [isKw]) (by simp [isKw])]
  simp

theorem rd_elements (rows : List (List Nat)) (T : List (Line K)) :
    readLoop (K := K) (fun l => isKw "elements" l || isKw "endelements" l) (isKw "nodes") intRow
      (intRows rows ++ (kw "endelements" ++ (kw "nodes" ++ T))) = some (rows, T) := by
  simp only [kw_append]
  rw [readLoop_intRows _ _ _ _ (fun r => by simp [isKw_ints]),
    readLoop_skip _ _ _ _ _ (by simp [isKw]), readLoop_stop _ _ _ _ _ (by simp [isKw]) (by simp [isKw])]
  simp

theorem rd_elements' (rows : List (List Nat)) (T : List (Line K)) :
    readLoop (K := K) (fun l => isKw "elements" l || isKw "endelements" l) (isKw "nodes") intRow
      (kw "elements" ++ (intRows rows ++ (kw "endelements" ++ (kw "nodes" ++ T)))) = some (rows, T) := by
  rw [kw_append "elements", readLoop_skip _ _ _ _ _ (by simp [isKw]), rd_elements]

theorem rd_nodes (rows : List (K × K × K × Nat)) (T : List (Line K)) :
    readLoop (K := K) (fun l => isKw "nodes" l || isKw "endnodes" l) (isKw "halosint") realRow
      (nodeRows rows ++ (kw "endnodes" ++ (kw "halosint" ++ T)))
      = some (rows.map (fun r => [r.1, r.2.1, r.2.2.1, (r.2.2.2 : K)]), T) := by
  simp only [kw_append]
  rw [readLoop_nodeRows _ _ _ _ (fun r => by simp [isKw]),
    readLoop_skip _ _ _ _ _ (by simp [isKw]), readLoop_stop _ _ _ _ _ (by simp [isKw]) (by simp [isKw])]
  simp

theorem rd_nodes' (rows : List (K × K × K × Nat)) :
    readLoop (K := K) (fun l => isKw "nodes" l || isKw "endnodes" l) (isKw "halosint") realRow
      (nodeRows rows ++ kw "endnodes")
      = some (rows.map (fun r => [r.1, r.2.1, r.2.2.1, (r.2.2.2 : K)]), []) := by
  rw [readLoop_nodeRows _ _ _ _ (fun r => by simp [isKw]), kw, readLoop_skip _ _ _ _ _ (by simp [isKw])]
  simp [readLoop]

theorem rd_halosint (l : List Nat) (T : List (Line K)) :
    readLoop (K := K) (fun _ => false) (hasKw "endhalosint") intLine
      (intLines l ++ (kw "endhalosint" ++ T)) = some (l, T) := by
  simp only [kw_append]
  rw [readLoop_intLines _ _ _ _ _ (fun n => by simp [hasKw]) (fun n => rfl),
    readLoop_stop _ _ _ _ _ rfl (by rw [hasKw_word]; exact decide_eq_true kwf.1)]
  simp

theorem rd_halosext (rows : List (List Nat)) (T : List (Line K)) :
    readLoop (K := K) (hasKw "halosext") (hasKw "centvol") intRow
      (kw "halosext" ++ (intRows rows ++ (kw "endhalosext" ++ (kw "centvol" ++ T)))) = some (rows, T) := by
  simp only [kw_append]
  obtain ⟨-, k1, k2, k3, k4, -⟩ := kwf
  rw [readLoop_skip _ _ _ _ _ (by rw [hasKw_word]; exact decide_eq_true k1),
    readLoop_intRows _ _ _ _ (fun r => by simp [hasKw]),
    readLoop_skip _ _ _ _ _ (by rw [hasKw_word]; exact decide_eq_true k2),
    readLoop_stop _ _ _ _ _ (by rw [hasKw_word]; exact decide_eq_false k3) (by rw [hasKw_word]; exact decide_eq_true k4)]
  simp

theorem rd_centvol (rows : List (List K)) (T : List (Line K)) :
    readLoop (K := K) (hasKw "centvol") (hasKw "globalcelltolocal") realRow
      (rows.map (fun r => r.map Tok.real) ++ (kw "endcentvol" ++ (kw "globalcelltolocal" ++ T))) = some (rows, T) := by
  simp only [kw_append]
  obtain ⟨-, -, -, -, -, k1, k2, k3⟩ := kwf
  rw [readLoop_values _ _ _ _ _ rows]
  · rw [readLoop_skip _ _ _ _ _ (by rw [hasKw_word]; exact decide_eq_true k1),
      readLoop_stop _ _ _ _ _ (by rw [hasKw_word]; exact decide_eq_false k2) (by rw [hasKw_word]; exact decide_eq_true k3)]
    simp
  · intro l hl; obtain ⟨r, _, rfl⟩ := List.mem_map.mp hl
    exact ⟨hasKw_reals _ r, hasKw_reals _ r⟩
  · simp [Function.comp_def, realRow_reals]

theorem rd_loctoglob (l : List Nat) (T : List (Line K)) :
    readLoop (K := K) (isKw "globalcelltomocal") (isKw "endglobalcelltolocal") intLine
      (intLines l ++ (kw "endglobalcelltolocal" ++ T)) = some (l, T) := by
  simp only [kw_append]
  rw [readLoop_intLines _ _ _ _ _ (fun n => by simp [isKw]) (fun n => rfl),
    readLoop_stop _ _ _ _ _ (by simp [isKw]) (by simp [isKw])]
  simp

theorem rd_nodeloctoglob (l : List Nat) (T : List (Line K)) :
    readLoop (K := K) (isKw "localnodetoglobal") (isKw "endlocalnodetoglobal") intLine
      (kw "localnodetoglobal" ++ (intLines l ++ (kw "endlocalnodetoglobal" ++ T))) = some (l, T) := by
  simp only [kw_append]
  rw [readLoop_skip _ _ _ _ _ (by simp [isKw]), readLoop_intLines _ _ _ _ _ (fun n => by simp [isKw]) (fun n => rfl),
    readLoop_stop _ _ _ _ _ (by simp [isKw]) (by simp [isKw])]
  simp

theorem rd_neigh (a b : List Nat) :
    readLoop (K := K) (isKw "neigh") (isKw "endneigh") intRow
      (kw "neigh" ++ ([a.map .int] ++ ([b.map .int] ++ kw "endneigh"))) = some ([a, b], []) := by
  rw [kw_append, readLoop_skip _ _ _ _ _ (by simp [isKw])]
  have := readLoop_intRows (K := K) (isKw "neigh") (isKw "endneigh") [a, b] (kw "endneigh")
      (fun r => by simp [isKw_ints])
  rw [show ([a.map .int] ++ ([b.map .int] ++ kw "endneigh") : List (Line K)) = intRows [a, b] ++ kw "endneigh" from rfl, this, kw,
    readLoop_stop _ _ _ _ _ (by simp [isKw]) (by simp [isKw])]
  simp

theorem rd_nparts (rows : List (List Nat)) :
    readLoop (K := K) (isKw "nodeparts") (isKw "endnodeparts") intRow (writeMaster rows) = some (rows, []) := by
  rw [writeMaster, List.append_assoc, kw_append, readLoop_skip _ _ _ _ _ (by simp [isKw]),
    readLoop_intRows _ _ _ _ (fun r => by simp [isKw_ints]), kw,
    readLoop_stop _ _ _ _ _ (by simp [isKw]) (by simp [isKw])]
  simp

/-- C25 (serial): reading the serial mesh file returns the cells and nodes written, and the identity as gather table. -/
theorem C25_round_trip_serial (d : WriteData K) (master : List (Line K)) :
    readMeshFile 1 0 (writeSerial d) master = some (expected 1 0 d) := by
  unfold readMeshFile writeSerial
  simp only [List.append_assoc]
  rw [if_neg (by omega)]
  simp only [Option.bind_eq_bind, Option.bind_some, rd_elements', rd_nodes']
  simp [expected]

/-- C25 (parallel): for every number of processes above 1 and every rank, reading the files written for the rank returns
exactly the data written, whatever the data. -/
theorem C25_round_trip_parallel (size rank : Nat) (hs : 1 < size) (d : WriteData K) :
    readMeshFile size rank (writeRank rank d) (writeMaster d.nparts) = some (expected size rank d) := by
  have hs1 : ¬ size = 1 := by omega
  unfold readMeshFile writeRank
  by_cases h0 : rank = 0
  · rw [if_pos h0, if_pos ⟨hs, h0⟩]
    simp only [List.append_assoc, Option.bind_eq_bind, Option.bind_some, rd_tc, rd_elements, rd_nodes, rd_halosint, rd_halosext,
      rd_centvol, rd_loctoglob, rd_nodeloctoglob, rd_neigh, rd_nparts]
    rw [if_neg hs1, if_pos hs]
    simp only [expected, if_neg hs1, if_pos h0]; rfl
  · rw [if_neg h0, if_neg (fun h => h0 h.2)]
    simp only [List.append_assoc, List.nil_append, Option.bind_eq_bind, Option.bind_some, rd_elements', rd_nodes, rd_halosint,
      rd_halosext, rd_centvol, rd_loctoglob, rd_nodeloctoglob, rd_neigh, rd_nparts]
    rw [if_neg hs1, if_pos hs]
    simp only [expected, if_neg hs1, if_neg h0]; rfl

/-- C25: the local mesh written for rank `i` is the restriction of the global mesh: local cell `j` is the global cell
`loctoglob[j]`, and its local nodes, renamed by `nodeloctoglob`, are the nodes of that global cell; the coordinates and label of
local node `m` are those of the global node `nodeloctoglob[m]`. -/
theorem C25_local_mesh (nodeid : Nat → Nat → Nat) (node : Nat → K × K × K × Nat) (cv : Nat → List K)
    (npart0 epart : Nat → Nat) (nbnodes n d1 SIZE i : Nat) :
    let P := partition nodeid npart0 epart nbnodes n d1
    let d := rankWrite nodeid node cv P (halos P.cpart P.haloCell SIZE) nbnodes SIZE d1 i
    d.nodeid.length = d.loctoglob.length ∧
    (∀ (j g : Nat), d.loctoglob[j]? = some g → ∃ row : List Nat, d.nodeid[j]? = some row ∧ row.length = d1 ∧
      ∀ k < d1, ∃ m : Nat, row[k]? = some m ∧ d.nodeloctoglob[m]? = some (nodeid g k) ∧ d.nodes[m]? = some (node (nodeid g k))) := by
  intro P d
  refine ⟨by simp [d, rankWrite], ?_⟩
  intro j g hg
  have hg' : (P.cellPart i)[j]? = some g := hg
  have hgmem : g ∈ P.cellPart i := List.mem_of_getElem? hg'
  obtain ⟨hgn, hge⟩ := ((C20_cell_part nodeid npart0 epart nbnodes n d1 i).2 g).mp hgmem
  refine ⟨(List.range d1).map (fun k => (P.nodePart i).idxOf (nodeid g k)), ?_, by simp, ?_⟩
  · simp [d, rankWrite, hg']
  · intro k hk
    have hmem : nodeid g k ∈ P.nodePart i :=
      (((C21_node_parts nodeid npart0 epart nbnodes n d1).2 i).2 _).mpr ⟨g, hgn, hge, k, hk, rfl⟩
    have hlt := List.idxOf_lt_length_iff.mpr hmem
    refine ⟨(P.nodePart i).idxOf (nodeid g k), by simp [hk], ?_, ?_⟩
    · show (P.nodePart i)[_]? = _
      rw [List.getElem?_eq_getElem hlt, List.getElem_idxOf hlt]
    · show ((P.nodePart i).map node)[_]? = _
      rw [List.getElem?_map, List.getElem?_eq_getElem hlt, List.getElem_idxOf hlt]; rfl

/-- The reader would misread a file whose section keyword is wrong: the closing line of the cell numbering is required. -/
example : (readMeshFile (K := ℚ) 2 1 [[.word "elements"], [.word "oops"]] []).isNone = true := by decide +kernel

example : (readMeshFile (K := ℚ) 2 1 (writeRank 1 ⟨[], [[0, 1, 2]], [(0, 0, 0, 1), (1, 0, 0, 0), (0, 1, 0, 4)], [7], [[3, 4, 5, 6]],
    [[1, 2, 0, 1/2]], [7], [4, 5, 6], [0], [1], [[0, 1]]⟩) (writeMaster [[0, 1]])).map (fun r => (r.nodeid, r.halosext, r.neigh))
    = some ([[0, 1, 2]], [[3, 4, 5, 6]], [[0], [1]]) := by decide +kernel

end Verif.Props
