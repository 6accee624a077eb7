import Verif.Lemmas.Conn
import Verif.Spec.Geometry
import Mathlib.Tactic.IntervalCases

/-!
# Properties C14–C19: connectivity tables
-/
set_option linter.unusedSectionVars false
namespace Verif.Props
open Verif.Conn Verif.Spec

/-! ## C14, C15 -/

/-- C14: there is a common width `M` such that for every node `k`, row `k` of the node table is the ascending,
repetition-free list of the cells using `k`, padded with `-1` to width `M` and followed by the number of these
cells; `M` is the largest such number. -/
theorem C14_node_cells (nodeid : Nat → Nat → Nat) (n nbnodes d1 : Nat) (hd : DistinctRows nodeid d1 n)
    (hpos : 0 < nbnodes) :
    ∃ M, (∀ k < nbnodes, ∃ row l, (createNodeCellid nodeid n nbnodes d1).1[k]? = some row ∧ PaddedRow M row l ∧
        Lists l (fun i => i < n ∧ Uses nodeid d1 i k)) ∧
      (createNodeCellid nodeid n nbnodes d1).1.length = nbnodes ∧
      ∃ k < nbnodes, ∀ l, Lists l (fun i => i < n ∧ Uses nodeid d1 i k) → l.length = M := by
  refine ⟨maxLen nbnodes (nodeCells nodeid n d1).2, ?_, by simp [createNodeCellid], ?_⟩
  · intro k hk
    have hl := nodeCells_users nodeid n d1 k hd
    have hc := (nodeCells_eq nodeid n d1 k).2
    refine ⟨padRow (maxLen nbnodes (nodeCells nodeid n d1).2) ((nodeCells nodeid n d1).1 k) ((nodeCells nodeid n d1).2 k),
      users nodeid d1 n k, ?_, ?_, users_lists nodeid d1 n k⟩
    · simp [createNodeCellid, hk]
    · rw [hc, ← hl]
      apply padRow_eq
      rw [← hc]; exact le_maxLen _ _ k hk
  · obtain ⟨k, hk, he⟩ := maxLen_attained nbnodes (nodeCells nodeid n d1).2 hpos
    refine ⟨k, hk, ?_⟩
    intro l hl
    rw [he, (nodeCells_eq nodeid n d1 k).2, nodeCells_users nodeid n d1 k hd,
      Lists.unique hl (users_lists nodeid d1 n k)]

/-- C15: row `i` of the neighbour table is the ascending list of the cells other than `i` sharing a node with `i`,
padded and counted (common width `M`).  No distinctness of nodes is needed. -/
theorem C15_neighbours_by_node (nodeid : Nat → Nat → Nat) (n nbnodes d1 : Nat) :
    ∃ M, (createNodeCellid nodeid n nbnodes d1).2.length = n ∧
      ∀ i < n, ∃ row l, (createNodeCellid nodeid n nbnodes d1).2[i]? = some row ∧ PaddedRow M row l ∧
        Lists l (fun c => c < n ∧ c ≠ i ∧ ShareNode nodeid d1 i c) := by
  set tmp := (nodeCells nodeid n d1).1 with htmp
  refine ⟨maxLen n (fun i => (cellNeighRaw nodeid tmp d1 i).2), by simp [createNodeCellid], ?_⟩
  intro i hi
  obtain ⟨hnd, hlen, hmem⟩ := cellNeighRaw_spec nodeid tmp d1 i
  have hperm : (cellNeigh nodeid tmp d1 i).Perm (cellNeighRaw nodeid tmp d1 i).1 := List.perm_insertionSort _ _
  have hlen' : (cellNeighRaw nodeid tmp d1 i).2 = (cellNeigh nodeid tmp d1 i).length := by
    rw [hlen, hperm.length_eq]
  refine ⟨padRow (maxLen n (fun i => (cellNeighRaw nodeid tmp d1 i).2)) (cellNeigh nodeid tmp d1 i)
    (cellNeighRaw nodeid tmp d1 i).2, cellNeigh nodeid tmp d1 i, ?_, ?_, ?_, ?_⟩
  · simp [createNodeCellid, hi, htmp]
  · rw [hlen']; apply padRow_eq; rw [← hlen']
    exact le_maxLen n (fun i => (cellNeighRaw nodeid tmp d1 i).2) i hi
  · have hs : (cellNeigh nodeid tmp d1 i).Pairwise (· ≤ ·) := sortRow_sorted _
    have hn : (cellNeigh nodeid tmp d1 i).Nodup := hperm.nodup_iff.mpr hnd
    exact (hs.and hn).imp (fun h => lt_of_le_of_ne h.1 h.2)
  · intro c
    rw [hperm.mem_iff, hmem c]
    constructor
    · rintro ⟨⟨j, hj, hc⟩, hne⟩
      obtain ⟨h1, h2⟩ := (mem_nodeCells nodeid n d1 _ c).mp hc
      exact ⟨h1, hne, nodeid i j, ⟨j, hj, rfl⟩, h2⟩
    · rintro ⟨hc, hne, k, ⟨j, hj, rfl⟩, h2⟩
      exact ⟨⟨j, hj, (mem_nodeCells nodeid n d1 _ c).mpr ⟨hc, h2⟩⟩, hne⟩

/-- C15: the rows of the neighbour table are as short as possible: one more than the largest number of neighbours. -/
theorem C15_width (nodeid : Nat → Nat → Nat) (n nbnodes d1 : Nat) (hn : 0 < n) :
    ∃ M, (∀ i < n, ∃ row, (createNodeCellid nodeid n nbnodes d1).2[i]? = some row ∧ row.length = M + 1) ∧
      ∃ i < n, ∀ l, Lists l (fun c => c < n ∧ c ≠ i ∧ ShareNode nodeid d1 i c) → l.length = M := by
  obtain ⟨tmp, htmp⟩ : ∃ tmp, tmp = (nodeCells nodeid n d1).1 := ⟨_, rfl⟩
  have hraw : ∀ i < n, (cellNeighRaw nodeid tmp d1 i).2 = (cellNeigh nodeid tmp d1 i).length ∧
      Lists (cellNeigh nodeid tmp d1 i) (fun c => c < n ∧ c ≠ i ∧ ShareNode nodeid d1 i c) := by
    intro i hi
    obtain ⟨hnd, hlen, hmem⟩ := cellNeighRaw_spec nodeid tmp d1 i
    have hperm : (cellNeigh nodeid tmp d1 i).Perm (cellNeighRaw nodeid tmp d1 i).1 := List.perm_insertionSort _ _
    refine ⟨by rw [hlen, hperm.length_eq], ?_, fun c => ?_⟩
    · have hs : (cellNeigh nodeid tmp d1 i).Pairwise (· ≤ ·) := sortRow_sorted _
      have hn : (cellNeigh nodeid tmp d1 i).Nodup := hperm.nodup_iff.mpr hnd
      exact (hs.and hn).imp (fun h => lt_of_le_of_ne h.1 h.2)
    · rw [hperm.mem_iff, hmem c]
      constructor
      · rintro ⟨⟨j, hj, hc⟩, hne⟩
        obtain ⟨h1, h2⟩ := (mem_nodeCells nodeid n d1 _ c).mp (htmp ▸ hc)
        exact ⟨h1, hne, nodeid i j, ⟨j, hj, rfl⟩, h2⟩
      · rintro ⟨hc, hne, k, ⟨j, hj, rfl⟩, h2⟩
        exact ⟨⟨j, hj, htmp ▸ (mem_nodeCells nodeid n d1 _ c).mpr ⟨hc, h2⟩⟩, hne⟩
  refine ⟨maxLen n (fun i => (cellNeighRaw nodeid tmp d1 i).2), fun i hi => ?_, ?_⟩
  · refine ⟨padRow (maxLen n (fun i => (cellNeighRaw nodeid tmp d1 i).2)) (cellNeigh nodeid tmp d1 i) (cellNeighRaw nodeid tmp d1 i).2, by simp [createNodeCellid, hi, htmp], ?_⟩
    have hle := le_maxLen n (fun i => (cellNeighRaw nodeid tmp d1 i).2) i hi
    rw [(hraw i hi).1] at hle ⊢
    have hp := padRow_eq (maxLen n (fun i => (cellNeighRaw nodeid tmp d1 i).2)) (cellNeigh nodeid tmp d1 i) hle
    unfold PaddedRow at hp
    rw [hp.2]
    simp
    omega
  · obtain ⟨i, hi, he⟩ := maxLen_attained n (fun i => (cellNeighRaw nodeid tmp d1 i).2) hn
    refine ⟨i, hi, fun l hl => ?_⟩
    rw [he, (hraw i hi).1, Lists.unique hl (hraw i hi).2]

example : 0 < 1 ∧ (createNodeCellid (fun _ k => k) 1 3 3).2 = [[0]] := by decide

/-- C15: the neighbour table is symmetric: `c` occurs in row `i` iff `i` occurs in row `c`. -/
theorem C15_symmetric (nodeid : Nat → Nat → Nat) (n nbnodes d1 i c : Nat) (hi : i < n) (hc : c < n)
    (ri rc : List Int) (hri : (createNodeCellid nodeid n nbnodes d1).2[i]? = some ri)
    (hrc : (createNodeCellid nodeid n nbnodes d1).2[c]? = some rc) :
    (c : Int) ∈ ri.dropLast ↔ (i : Int) ∈ rc.dropLast := by
  obtain ⟨M, _, h⟩ := C15_neighbours_by_node nodeid n nbnodes d1
  have mem : ∀ i < n, ∀ row, (createNodeCellid nodeid n nbnodes d1).2[i]? = some row → ∀ c : Nat,
      (c : Int) ∈ row.dropLast ↔ (c < n ∧ c ≠ i ∧ ShareNode nodeid d1 i c) := by
    intro i hi row hr c
    obtain ⟨row', l, hr', hp, hl⟩ := h i hi
    rw [hr] at hr'
    obtain rfl : row = row' := by simpa using hr'
    rw [hp.2, List.dropLast_concat, List.mem_append]
    refine Iff.trans ?_ (hl.2 c)
    constructor
    · rintro (h | h)
      · obtain ⟨x, hx, e⟩ := List.mem_map.mp h
        have : x = c := by exact_mod_cast e
        exact this ▸ hx
      · have := List.eq_of_mem_replicate h; omega
    · intro h; left; exact List.mem_map.mpr ⟨c, h, rfl⟩
  rw [mem i hi ri hri c, mem c hc rc hrc i]
  constructor
  · rintro ⟨_, hne, k, h1, h2⟩; exact ⟨hi, fun e => hne e.symm, k, h2, h1⟩
  · rintro ⟨_, hne, k, h1, h2⟩; exact ⟨hc, fun e => hne e.symm, k, h2, h1⟩

/-- Two triangles (0,1,2), (0,2,3) and a third one (4,5,6) apart. -/
def exNodes : Nat → Nat → Nat := fun i j => match i, j with
  | 0, 0 => 0 | 0, 1 => 1 | 0, 2 => 2 | 1, 0 => 0 | 1, 1 => 2 | 1, 2 => 3 | 2, 0 => 4 | 2, 1 => 5 | _, _ => 6

example : (createNodeCellid exNodes 3 7 3).1 = [[0, 1, 2], [0, -1, 1], [0, 1, 2], [1, -1, 1], [2, -1, 1], [2, -1, 1], [2, -1, 1]]
    ∧ (createNodeCellid exNodes 3 7 3).2 = [[1, 1], [0, 1], [-1, 0]] := by decide +kernel
instance (t : Nat → Nat → Nat) (d1 n : Nat) : Decidable (DistinctRows t d1 n) := by unfold DistinctRows; infer_instance
example : DistinctRows exNodes 3 3 := by decide +kernel

/-! ## C16 -/

theorem facesSpec_of (n d1 : Nat) (hd1 : 0 < d1) (side : Nat → Nat → List Nat) (faces : Nat → List Nat) (cellf : Nat → Nat → Nat)
    (hf : ∀ i < n, ∀ j < d1, faces (d1 * i + j) = side i j) (hc : ∀ i < n, ∀ j < d1, cellf i j = d1 * i + j) :
    let u := npUnique ((List.range (d1 * n)).map (fun r => sortRow (faces r)))
    FacesSpec n d1 side u.1 (createCellFaceid n d1 u.2 cellf (fun _ _ => 0)) := by
  intro u
  obtain ⟨h1, h2, h3⟩ := npUnique_spec ((List.range (d1 * n)).map (fun r => sortRow (faces r)))
  have hsort : ∀ r ∈ u.1, r.Pairwise (· ≤ ·) ∧ ∃ i < n, ∃ j < d1, r.Perm (side i j) := by
    intro r hr
    obtain ⟨t, ht, rfl⟩ := List.mem_map.mp ((h2 r).mp hr)
    have ht := List.mem_range.mp ht
    refine ⟨sortRow_sorted _, t / d1, ?_, t % d1, Nat.mod_lt _ hd1, ?_⟩
    · exact Nat.div_lt_of_lt_mul ht
    · rw [← hf (t / d1) (Nat.div_lt_of_lt_mul ht) (t % d1) (Nat.mod_lt _ hd1), Nat.div_add_mod]
      exact sortRow_perm _
  refine ⟨h1, ?_, hsort, ?_⟩
  · intro r hr r' hr' hp
    exact sorted_perm_eq (hsort r hr).1 (hsort r' hr').1 hp
  · intro i hi j hj
    rw [createCellFaceid_eq n d1 u.2 cellf _ i j hi hj, hc i hi j hj]
    have hlt : d1 * i + j < d1 * n := by
      have : d1 * (i + 1) ≤ d1 * n := Nat.mul_le_mul_left _ hi
      rw [Nat.mul_add, Nat.mul_one] at this; omega
    obtain ⟨a, b⟩ := h3 (d1 * i + j) (by simpa using hlt)
    refine ⟨a, ?_⟩
    show (u.1.getD (u.2 (d1 * i + j)) []).Perm _
    rw [b]
    simp only [List.getD_eq_getElem?_getD, List.getElem?_map, List.getElem?_range hlt, Option.map_some, Option.getD_some]
    rw [hf i hi j hj]; exact sortRow_perm _

/-- C16 (2D): the face table built by the Domain contains, without repetition and once per node set, exactly the sides of
the triangles; the `j`-th face of cell `i` has the nodes of the `j`-th side of `i`. -/
theorem C16_faces_2d (nodeid : Nat → Nat → Nat) (n : Nat) :
    FacesSpec n 3 (fun i j => side2 (nodeid i 0) (nodeid i 1) (nodeid i 2) j)
      (domainFaces 2 nodeid n).1 (domainFaces 2 nodeid n).2 := by
  obtain ⟨_, h⟩ := create2dfaces_spec nodeid n ⟨fun _ => List.replicate 2 0, fun _ _ => 0, 0⟩
  apply facesSpec_of n 3 (by omega)
  · intro i hi j hj
    obtain ⟨a, b, c, _⟩ := h i hi
    interval_cases j
    · exact a
    · exact b
    · exact c
  · intro i hi j hj; exact (h i hi).2.2.2 j hj

/-- C16 (3D). -/
theorem C16_faces_3d (nodeid : Nat → Nat → Nat) (n : Nat) :
    FacesSpec n 4 (fun i j => side3 (nodeid i 0) (nodeid i 1) (nodeid i 2) (nodeid i 3) j)
      (domainFaces 3 nodeid n).1 (domainFaces 3 nodeid n).2 := by
  obtain ⟨_, h⟩ := create3dfaces_spec nodeid n ⟨fun _ => List.replicate 3 0, fun _ _ => 0, 0⟩
  apply facesSpec_of n 4 (by omega)
  · intro i hi j hj
    obtain ⟨a, b, c, d, _⟩ := h i hi
    interval_cases j
    · exact a
    · exact b
    · exact c
    · exact d
  · intro i hi j hj; exact (h i hi).2.2.2.2 j hj

/-- C16: two cells have the same face index iff the sides have the same nodes (so shared faces are recognised). -/
theorem C16_shared_face (n d1 : Nat) (side : Nat → Nat → List Nat) (F : List (List Nat)) (faceid : Nat → Nat → Nat)
    (h : FacesSpec n d1 side F faceid) (i i' j j' : Nat) (hi : i < n) (hi' : i' < n) (hj : j < d1) (hj' : j' < d1) :
    faceid i j = faceid i' j' ↔ (side i j).Perm (side i' j') := by
  obtain ⟨hn, hu, _, hf⟩ := h
  obtain ⟨a, b⟩ := hf i hi j hj
  obtain ⟨a', b'⟩ := hf i' hi' j' hj'
  rw [List.getD_eq_getElem _ _ a] at b
  rw [List.getD_eq_getElem _ _ a'] at b'
  constructor
  · intro e; simp only [e] at b; exact b.symm.trans b'
  · intro e
    have := hu _ (List.getElem_mem a) _ (List.getElem_mem a') (b.trans (e.trans b'.symm))
    exact (List.Nodup.getElem_inj_iff hn).mp this

example : (domainFaces 2 exNodes 2).1 = [[0, 1], [0, 2], [0, 3], [1, 2], [2, 3]] ∧
    (domainFaces 2 exNodes 2).2 0 2 = 1 ∧ (domainFaces 2 exNodes 2).2 1 0 = 1 := by decide +kernel

/-! ## C17 -/

/-- C17: for every face, the stored pair is determined by the ascending list of the cells using it. -/
theorem C17_cells_of_face (faceid : Nat → Nat → Nat) (n d1 f : Nat) (l : List Nat)
    (hl : Lists l (fun i => i < n ∧ Uses faceid d1 i f)) :
    let r := createCellsOfFace faceid n d1 noCells f
    (l = [] → r = (-1, -1)) ∧
    (∀ a, l = [a] → r = ((a : Int), -1)) ∧
    (∀ a b, l = [a, b] → r = ((a : Int), (b : Int)) ∧ a < b) ∧
    (r.2 = -1 ↔ l.length ≤ 1) := by
  intro r
  have hr : r = twoOf l := by
    rw [Lists.unique hl (users_lists faceid d1 n f)]; exact cellsOfFace_eq faceid n d1 f
  refine ⟨?_, ?_, ?_, ?_⟩
  · rintro rfl; rw [hr]; rfl
  · rintro a rfl; rw [hr]; simp [twoOf]
  · rintro a b rfl; rw [hr]; refine ⟨by simp [twoOf], ?_⟩
    have := hl.1; simpa using this
  · rw [hr]
    match l with
    | [] => simp [twoOf]
    | [a] => simp [twoOf]
    | a :: b :: t =>
      simp only [twoOf, List.length_cons]
      rw [if_pos (by omega)]
      obtain ⟨x, hx⟩ : ∃ x, (a :: b :: t).getLast? = some x := ⟨_, List.getLast?_eq_getLast_of_ne_nil (by simp)⟩
      rw [hx]; simp only
      constructor
      · intro h; omega
      · intro h; omega

/-- C17: with the Domain's face table every face has at least one cell, so its first cell is valid; a face of a
conforming mesh (at most two cells per face) has `-1` as second cell exactly when it lies in one cell only. -/
theorem C17_first_cell_valid (nodeid : Nat → Nat → Nat) (n f : Nat) (hf : f < (domainFaces 2 nodeid n).1.length) :
    ∃ a, a < n ∧ (createCellsOfFace (domainFaces 2 nodeid n).2 n 3 noCells f).1 = (a : Int) ∧
      Uses (domainFaces 2 nodeid n).2 3 a f := by
  have hspec := C16_faces_2d nodeid n
  obtain ⟨hn, hu, hr, hfi⟩ := hspec
  obtain ⟨_, i, hi, j, hj, hp⟩ := hr _ (List.getElem_mem hf)
  obtain ⟨hlt, hp'⟩ := hfi i hi j hj
  rw [List.getD_eq_getElem _ _ hlt] at hp'
  have he : (domainFaces 2 nodeid n).2 i j = f := by
    have := hu _ (List.getElem_mem hlt) _ (List.getElem_mem hf) (hp'.trans hp.symm)
    exact (List.Nodup.getElem_inj_iff hn).mp this
  have hmem : i ∈ users (domainFaces 2 nodeid n).2 3 n f := (mem_users _ _ _ _ _).mpr ⟨hi, j, hj, he⟩
  rw [cellsOfFace_eq]
  match hl : users (domainFaces 2 nodeid n).2 3 n f with
  | [] => rw [hl] at hmem; simp at hmem
  | a :: t =>
    have ha : a ∈ users (domainFaces 2 nodeid n).2 3 n f := by rw [hl]; simp
    obtain ⟨h1, h2⟩ := (mem_users _ _ _ _ _).mp ha
    exact ⟨a, h1, by simp [twoOf], h2⟩

example : createCellsOfFace (domainFaces 2 exNodes 2).2 2 3 noCells 1 = (0, 1) ∧
    createCellsOfFace (domainFaces 2 exNodes 2).2 2 3 noCells 2 = (1, -1) := by decide +kernel

/-! ## C18 -/

/-- C18: entry `j` of row `i` is `-1` if the `j`-th face of `i` belongs to `i` only, and the other cell if it belongs to
exactly two cells. -/
theorem C18_neighbour_by_face (faceid : Nat → Nat → Nat) (n d1 i j : Nat) (hi : i < n) (hj : j < d1) (l : List Nat)
    (hl : Lists l (fun c => c < n ∧ Uses faceid d1 c (faceid i j))) :
    let row := createNeighborCellByFace faceid (createCellsOfFace faceid n d1 noCells) n d1 i
    row.length = d1 ∧
    (l = [i] → row[j]? = some (-1)) ∧
    (∀ a, a ≠ i → (l = [i, a] ∨ l = [a, i]) → row[j]? = some (a : Int)) := by
  intro row
  have hrow : row = (List.range d1).map (fun j => neighByFace faceid (createCellsOfFace faceid n d1 noCells) i j) := by
    simp only [row, neigh_row, hi, if_true]
  obtain ⟨_, h1, h2, h3⟩ := C17_cells_of_face faceid n d1 (faceid i j) l hl
  rw [hrow]
  refine ⟨by simp, ?_, ?_⟩
  · intro e
    simp [hj, neighByFace, h1 i e]
  · rintro a ha (e | e)
    · obtain ⟨h, _⟩ := h2 i a e
      have hn : ¬ ((a : Int) = -1) := by omega
      simp [hj, neighByFace, h, hn]
    · obtain ⟨h, _⟩ := h2 a i e
      have hn : ¬ ((i : Int) = -1) := by omega
      have hn' : ¬ ((i : Int) = (a : Int)) := by omega
      simp [hj, neighByFace, h, hn, hn']

/-- C18: symmetry.  On a mesh where every face belongs to at most two cells, if entry `j` of row `i` is the cell `k`, then
`k` has the same face as one of its faces, and the corresponding entry of row `k` is `i`. -/
theorem C18_symmetric (faceid : Nat → Nat → Nat) (n d1 i j k : Nat) (hi : i < n) (hj : j < d1)
    (hconf : ∀ f, (users faceid d1 n f).length ≤ 2)
    (he : (createNeighborCellByFace faceid (createCellsOfFace faceid n d1 noCells) n d1 i)[j]? = some (k : Int)) :
    k < n ∧ k ≠ i ∧ ∃ j' < d1, faceid k j' = faceid i j ∧
      (createNeighborCellByFace faceid (createCellsOfFace faceid n d1 noCells) n d1 k)[j']? = some (i : Int) := by
  have hL := users_lists faceid d1 n (faceid i j)
  have hmem : i ∈ users faceid d1 n (faceid i j) := (mem_users _ _ _ _ _).mpr ⟨hi, j, hj, rfl⟩
  have hc := hconf (faceid i j)
  obtain ⟨_, h1, h2⟩ := C18_neighbour_by_face faceid n d1 i j hi hj _ hL
  match hl : users faceid d1 n (faceid i j) with
  | [] => rw [hl] at hmem; simp at hmem
  | [a] =>
    rw [hl] at hmem h1
    obtain rfl : i = a := by simpa using hmem
    rw [h1 rfl] at he
    have : (-1 : Int) = k := by simpa using he
    omega
  | a :: b :: c :: t => rw [hl] at hc; simp at hc
  | [a, b] =>
    have hab : a < b := by have := hL.1; rw [hl] at this; simpa using this
    rw [hl] at hmem h2 hL
    have hk : (i = a ∧ k = b) ∨ (i = b ∧ k = a) := by
      have hmem' : i = a ∨ i = b := by simpa using hmem
      rcases hmem' with rfl | rfl
      · rw [h2 b (by omega) (Or.inl rfl)] at he
        left; refine ⟨rfl, ?_⟩; have : (b : Int) = k := by simpa using he
        omega
      · rw [h2 a (by omega) (Or.inr rfl)] at he
        right; refine ⟨rfl, ?_⟩; have : (a : Int) = k := by simpa using he
        omega
    have hkm : k ∈ [a, b] := by rcases hk with ⟨_, rfl⟩ | ⟨_, rfl⟩ <;> simp
    obtain ⟨hkn, j', hj', hf⟩ := (hL.2 k).mp hkm
    refine ⟨hkn, by rcases hk with ⟨rfl, rfl⟩ | ⟨rfl, rfl⟩ <;> omega, j', hj', hf, ?_⟩
    have hL' : Lists [a, b] (fun c => c < n ∧ Uses faceid d1 c (faceid k j')) := by rw [hf]; exact hL
    obtain ⟨_, _, h2'⟩ := C18_neighbour_by_face faceid n d1 k j' hkn hj' _ hL'
    rcases hk with ⟨rfl, rfl⟩ | ⟨rfl, rfl⟩
    · exact h2' i (by omega) (Or.inr rfl)
    · exact h2' i (by omega) (Or.inl rfl)

example : createNeighborCellByFace (domainFaces 2 exNodes 2).2
    (createCellsOfFace (domainFaces 2 exNodes 2).2 2 3 noCells) 2 3 0 = [-1, -1, 1] := by decide +kernel
example : ∀ f < 6, (users (domainFaces 2 exNodes 2).2 3 2 f).length ≤ 2 := by decide +kernel

/-! ## C19 -/

theorem oppPad_eq (nbfaces : Nat) (opp : Nat → List Int) (f : Nat) :
    (List.range nbfaces).foldl (fun opp f => if (opp f).length < 2 then appendAt opp f (-1) else opp) opp f
      = opp f ++ if f < nbfaces ∧ (opp f).length < 2 then [-1] else [] := by
  induction nbfaces with
  | zero => simp
  | succ m ih =>
    rw [List.range_succ, List.foldl_append]
    simp only [List.foldl_cons, List.foldl_nil]
    set t := (List.range m).foldl (fun opp f => if (opp f).length < 2 then appendAt opp f (-1) else opp) opp
    by_cases h : f = m
    · subst h
      simp only [lt_irrefl, false_and, if_false, List.append_nil] at ih
      rw [ih]
      by_cases h2 : (opp f).length < 2
      · simp [h2, appendAt, ih]
      · simp [h2, ih]
    · have e : f < m + 1 ↔ f < m := by omega
      simp only [e]
      rw [← ih]
      split
      · simp [appendAt, setAt_ne _ _ h]
      · rfl

theorem foldl_appendIf {α β : Type*} (l : List β) (P : β → Prop) [DecidablePred P] (key : β → Nat) (val : β → α)
    (t : Nat → List α) (k : Nat) :
    l.foldl (fun t x => if P x then appendAt t (key x) (val x) else t) t k
      = t k ++ (l.filter (fun x => P x ∧ key x = k)).map val := by
  induction l generalizing t with
  | nil => simp
  | cons a l ih =>
    rw [List.foldl_cons, ih]
    by_cases hp : P a
    · by_cases h : key a = k
      · subst h; simp [hp, appendAt]
      · have h' : k ≠ key a := fun e => h e.symm
        simp [hp, appendAt, setAt_ne _ _ h', h]
    · simp [hp]

theorem filter_range_unique (m a : Nat) (P : Nat → Prop) [DecidablePred P] (ha : a < m) (h : ∀ x < m, P x ↔ x = a) :
    (List.range m).filter (fun x => P x) = [a] := by
  have hsub : ((List.range m).filter (fun x => P x)).length ≤ 1 := by
    apply filter_single _ _ List.nodup_range
    intro x hx y hy h1 h2
    simp only [List.mem_range, decide_eq_true_eq] at *
    rw [(h x hx).mp h1, (h y hy).mp h2]
  have hm : a ∈ (List.range m).filter (fun x => P x) := by simp [ha, (h a ha).mpr rfl]
  match hl : (List.range m).filter (fun x => decide (P x)) with
  | [] => rw [hl] at hm; simp at hm
  | [b] => rw [hl] at hm; simp at hm; rw [hm]
  | b :: c :: t => rw [hl] at hsub; simp at hsub

/-- General form: whenever face `j` of each cell contains all nodes of the cell but the `oi j`-th. -/
theorem oppnodes_general (nodeid faceid : Nat → Nat → Nat) (nodeidf : Nat → List Nat) (n nbfaces d1 : Nat) (oi : Nat → Nat)
    (hoi : ∀ j < d1, oi j < d1) (hinj : ∀ j < d1, ∀ j' < d1, oi j = oi j' → j = j')
    (hside : ∀ i < n, ∀ j < d1, ∀ m < d1, nodeid i m ∉ nodeidf (faceid i j) ↔ m = oi j)
    (f : Nat) (hf : f < nbfaces) :
    OppRow nodeid d1 (nodeidf f) (users faceid d1 n f) (createOppNodeOfFaces nodeid faceid nodeidf n nbfaces d1 f) := by
  -- the node recorded for cell `i`
  have hjunique : ∀ i < n, ∀ j < d1, ∀ j' < d1, faceid i j = faceid i j' → j = j' := by
    intro i hi j hj j' hj' e
    apply hinj j hj j' hj'
    have h1 := (hside i hi j hj (oi j) (hoi j hj)).mpr rfl
    rw [e] at h1
    exact (hside i hi j' hj' (oi j) (hoi j hj)).mp h1
  classical
  let o : Nat → Nat := fun i => if h : Uses faceid d1 i f then nodeid i (oi h.choose) else 0
  have ho : ∀ i < n, ∀ j < d1, faceid i j = f → o i = nodeid i (oi j) := by
    intro i hi j hj e
    have hU : Uses faceid d1 i f := ⟨j, hj, e⟩
    have : hU.choose = j := hjunique i hi _ hU.choose_spec.1 j hj (hU.choose_spec.2.trans e.symm)
    simp only [o, dif_pos hU, this]
  have hraw : ∀ k ≤ n, (List.range k).foldl (fun opp i =>
      loop2 d1 d1 (fun (opp : Nat → List Int) m j =>
        if ¬ (nodeid i m ∈ nodeidf (faceid i j)) then appendAt opp (faceid i j) (nodeid i m : Int) else opp) opp)
      (fun _ => []) f = (users faceid d1 k f).map (fun i => (o i : Int)) := by
    intro k hk
    induction k with
    | zero => simp [users]
    | succ k ih =>
      rw [List.range_succ, List.foldl_append]
      simp only [List.foldl_cons, List.foldl_nil]
      rw [loop2_eq, foldl_appendIf (pairs d1 d1) (fun p => ¬ (nodeid k p.1 ∈ nodeidf (faceid k p.2)))
        (fun p => faceid k p.2) (fun p => (nodeid k p.1 : Int)), ih (by omega), users_succ, List.map_append]
      congr 1
      rw [filter_pairs d1 d1 (fun m j => ¬ (nodeid k m ∈ nodeidf (faceid k j)) ∧ faceid k j = f)]
      by_cases hU : Uses faceid d1 k f
      · obtain ⟨j0, hj0, e0⟩ := hU
        rw [if_pos ⟨j0, hj0, e0⟩]
        have hrow : ∀ m < d1, ((List.range d1).filter (fun j => ¬ (nodeid k m ∈ nodeidf (faceid k j)) ∧ faceid k j = f)).map
            (fun j => (m, j)) = if m = oi j0 then [(m, j0)] else [] := by
          intro m hm
          by_cases hmo : m = oi j0
          · rw [if_pos hmo, filter_range_unique d1 j0 _ hj0]
            · rfl
            · intro j hj
              constructor
              · rintro ⟨_, e⟩; exact hjunique k (by omega) j hj j0 hj0 (e.trans e0.symm)
              · rintro rfl; exact ⟨(hside k (by omega) j hj m hm).mpr hmo, e0⟩
          · rw [if_neg hmo]
            have : (List.range d1).filter (fun j => decide (¬ (nodeid k m ∈ nodeidf (faceid k j)) ∧ faceid k j = f)) = [] := by
              rw [List.filter_eq_nil_iff]
              intro j hj hh
              simp only [List.mem_range] at hj
              simp only [decide_eq_true_eq] at hh
              have := hjunique k (by omega) j hj j0 hj0 (hh.2.trans e0.symm)
              subst this
              exact hmo ((hside k (by omega) j hj m hm).mp hh.1)
            rw [this]; rfl
        have hfm : (List.range d1).flatMap (fun m => ((List.range d1).filter
            (fun j => ¬ (nodeid k m ∈ nodeidf (faceid k j)) ∧ faceid k j = f)).map (fun j => (m, j))) = [(oi j0, j0)] := by
          have h1 : (List.range d1).flatMap (fun m => ((List.range d1).filter
            (fun j => ¬ (nodeid k m ∈ nodeidf (faceid k j)) ∧ faceid k j = f)).map (fun j => (m, j)))
            = ((List.range d1).filter (fun m => m = oi j0)).map (fun m => (m, j0)) := by
            have h2 : ∀ r ≤ d1, (List.range r).flatMap (fun m => ((List.range d1).filter
              (fun j => ¬ (nodeid k m ∈ nodeidf (faceid k j)) ∧ faceid k j = f)).map (fun j => (m, j)))
              = ((List.range r).filter (fun m => m = oi j0)).map (fun m => (m, j0)) := by
              intro r hr
              induction r with
              | zero => simp
              | succ r ihr =>
                rw [List.range_succ, List.flatMap_append, ihr (by omega), List.filter_append, List.map_append]
                congr 1
                rw [List.flatMap_singleton, hrow r (by omega)]
                by_cases h : r = oi j0 <;> simp [h]
            exact h2 d1 le_rfl
          rw [h1, filter_range_unique d1 (oi j0) _ (hoi j0 hj0) (fun x _ => Iff.rfl)]; rfl
        rw [hfm]
        simp [ho k (by omega) j0 hj0 e0]
      · rw [if_neg hU]
        have : ∀ m, (List.range d1).filter (fun j => decide (¬ (nodeid k m ∈ nodeidf (faceid k j)) ∧ faceid k j = f)) = [] := by
          intro m
          rw [List.filter_eq_nil_iff]
          intro j hj hh
          simp only [decide_eq_true_eq] at hh
          exact hU ⟨j, by simpa using hj, hh.2⟩
        simp only [this, List.map_nil, List.flatMap_nil]
        simp
  refine ⟨o, ?_, ?_⟩
  · intro i hi
    obtain ⟨hin, j, hj, e⟩ := (mem_users _ _ _ _ _).mp hi
    rw [ho i hin j hj e]
    refine ⟨⟨oi j, hoi j hj, rfl⟩, ?_, ?_⟩
    · rw [← e]; exact (hside i hin j hj _ (hoi j hj)).mpr rfl
    · rintro x ⟨m, hm, rfl⟩ hx
      rw [← e] at hx
      rw [(hside i hin j hj m hm).mp hx]
  · unfold createOppNodeOfFaces
    rw [oppPad_eq, hraw n le_rfl]
    simp [hf]

/-- C19 (2D): with the Domain's face tables, for every face the opposite nodes are recorded exactly. -/
theorem C19_opposite_2d (nodeid : Nat → Nat → Nat) (n : Nat) (hd : DistinctRows nodeid 3 n)
    (f : Nat) (hf : f < (domainFaces 2 nodeid n).1.length) :
    let F := (domainFaces 2 nodeid n).1; let faceid := (domainFaces 2 nodeid n).2
    OppRow nodeid 3 (F.getD f []) (users faceid 3 n f)
      (createOppNodeOfFaces nodeid faceid (fun f => F.getD f []) n F.length 3 f) := by
  intro F faceid
  obtain ⟨_, _, _, hfi⟩ := C16_faces_2d nodeid n
  apply oppnodes_general nodeid faceid (fun f => F.getD f []) n F.length 3 (fun j => (j + 2) % 3)
  · intro j hj; exact Nat.mod_lt _ (by omega)
  · intro j hj j' hj' h; omega
  · intro i hi j hj m hm
    obtain ⟨_, hp⟩ := hfi i hi j hj
    rw [hp.mem_iff]
    have h01 := fun h => hd i hi 0 (by omega) 1 (by omega) h
    have h02 := fun h => hd i hi 0 (by omega) 2 (by omega) h
    have h12 := fun h => hd i hi 1 (by omega) 2 (by omega) h
    interval_cases j <;> interval_cases m <;> simp [side2] <;> grind
  · exact hf

/-- C19 (3D). -/
theorem C19_opposite_3d (nodeid : Nat → Nat → Nat) (n : Nat) (hd : DistinctRows nodeid 4 n)
    (f : Nat) (hf : f < (domainFaces 3 nodeid n).1.length) :
    let F := (domainFaces 3 nodeid n).1; let faceid := (domainFaces 3 nodeid n).2
    OppRow nodeid 4 (F.getD f []) (users faceid 4 n f)
      (createOppNodeOfFaces nodeid faceid (fun f => F.getD f []) n F.length 4 f) := by
  intro F faceid
  obtain ⟨_, _, _, hfi⟩ := C16_faces_3d nodeid n
  apply oppnodes_general nodeid faceid (fun f => F.getD f []) n F.length 4
    (fun j => if j = 0 then 3 else if j = 1 then 1 else if j = 2 then 2 else 0)
  · intro j hj; split_ifs <;> omega
  · intro j hj j' hj' h; split_ifs at h <;> omega
  · intro i hi j hj m hm
    obtain ⟨_, hp⟩ := hfi i hi j hj
    rw [hp.mem_iff]
    have h01 := fun h => hd i hi 0 (by omega) 1 (by omega) h
    have h02 := fun h => hd i hi 0 (by omega) 2 (by omega) h
    have h03 := fun h => hd i hi 0 (by omega) 3 (by omega) h
    have h12 := fun h => hd i hi 1 (by omega) 2 (by omega) h
    have h13 := fun h => hd i hi 1 (by omega) 3 (by omega) h
    have h23 := fun h => hd i hi 2 (by omega) 3 (by omega) h
    interval_cases j <;> interval_cases m <;> simp [side3] <;> grind
  · exact hf

example : (List.range 5).map (createOppNodeOfFaces exNodes (domainFaces 2 exNodes 2).2
    (fun f => (domainFaces 2 exNodes 2).1.getD f []) 2 5 3) = [[2, -1], [1, 3], [2, -1], [0, -1], [0, -1]] := by
  decide +kernel

end Verif.Props
