import Verif.Props.ParMesh
import Verif.Props.Comm
import Verif.Spec.Parallel

/-! Helper lemmas for the parallel theorems: what the processes of a parallel run and a serial run have read. -/
set_option linter.unusedSectionVars false
set_option linter.unusedVariables false
set_option linter.unusedSimpArgs false
namespace Verif.Props.Par
open Verif.Fvm Verif.Spec Verif.Conn Verif.Dom Verif.Geo Verif.Names Verif.MeshFile Verif.Part Verif.Comm
variable {K : Type*} [Field K] [LinearOrder K] [IsStrictOrderedRing K]

/-- One mesh, run on `SIZE > 1` processes and serially: `readmesh` partitions the mesh with the METIS result (`npart0` for the nodes,
`epart` for the cells), writes the files, and every process reads its own (`data p`); a serial run has read `serial`. -/
structure Launched (d1 : Nat) (nodeid : Nat → Nat → Nat) (node : Nat → K × K × K × Nat) (cv : Nat → List K) (npart0 epart : Nat → Nat)
    (nbnodes n SIZE : Nat) (data : Nat → RankData K) (serial : RankData K) : Prop where
  hd : 0 < d1
  hS : 1 < SIZE
  he : ∀ i < n, epart i < SIZE
  hok : NodePartOk nodeid npart0 epart n d1
  hused : ∀ k < nbnodes, ∃ i < n, Uses nodeid d1 i k
  hnode : ∀ i < n, ∀ j < d1, nodeid i j < nbnodes
  hdata : ∀ p < SIZE, readMeshFile SIZE p
    (writeRank p (rankWrite nodeid node cv (partition nodeid npart0 epart nbnodes n d1)
      (halos (partition nodeid npart0 epart nbnodes n d1).cpart (partition nodeid npart0 epart nbnodes n d1).haloCell SIZE) nbnodes SIZE d1 p))
    (writeMaster ((List.range nbnodes).map (partition nodeid npart0 epart nbnodes n d1).npart)) = some (data p)
  hserial : readMeshFile 1 0 (writeSerial (serialWrite nodeid node nbnodes n d1)) [] = some serial

section
variable {d1 : Nat} {nodeid : Nat → Nat → Nat} {node : Nat → K × K × K × Nat} {cv : Nat → List K} {npart0 epart : Nat → Nat}
  {nbnodes n SIZE : Nat} {data : Nat → RankData K} {serial : RankData K}

theorem Launched.data_eq (h : Launched d1 nodeid node cv npart0 epart nbnodes n SIZE data serial) {p : Nat} (hp : p < SIZE) :
    data p = expected SIZE p (rankWrite nodeid node cv (partition nodeid npart0 epart nbnodes n d1)
      (halos (partition nodeid npart0 epart nbnodes n d1).cpart (partition nodeid npart0 epart nbnodes n d1).haloCell SIZE) nbnodes SIZE d1 p) := by
  have := h.hdata p hp
  generalize hP : partition nodeid npart0 epart nbnodes n d1 = P at this ⊢
  generalize hh : halos P.cpart P.haloCell SIZE = hl at this ⊢
  rw [show (List.range nbnodes).map P.npart = (rankWrite nodeid node cv P hl nbnodes SIZE d1 p).nparts from rfl,
    C25_round_trip_parallel SIZE p h.hS] at this
  exact (Option.some.inj this).symm

theorem Launched.serial_eq (h : Launched d1 nodeid node cv npart0 epart nbnodes n SIZE data serial) :
    serial = expected 1 0 (serialWrite nodeid node nbnodes n d1) := by
  have := h.hserial
  rw [C25_round_trip_serial] at this
  exact (Option.some.inj this).symm

theorem Launched.cells (h : Launched d1 nodeid node cv npart0 epart nbnodes n SIZE data serial) {p : Nat} (hp : p < SIZE) :
    Lists (data p).loctoglob (fun c => c < n ∧ epart c = p) ∧ (data p).nodeid.length = (data p).loctoglob.length := by
  have hS1 : ¬ SIZE = 1 := by have := h.hS; omega
  rw [h.data_eq hp]
  simp only [expected, if_neg hS1, rankWrite, List.length_map]
  exact ⟨C20_cell_part nodeid npart0 epart nbnodes n d1 p, trivial⟩

/-- Global number of local cell `c`. -/
def phi (d : RankData K) (c : Nat) : Nat := d.loctoglob.getD c 0

theorem phi_get {d : RankData K} {c : Nat} (hc : c < d.loctoglob.length) : d.loctoglob[c]? = some (phi d c) := by
  rw [phi, List.getD_eq_getElem _ _ hc, List.getElem?_eq_getElem hc]

theorem Launched.phi_lt (h : Launched d1 nodeid node cv npart0 epart nbnodes n SIZE data serial) {p : Nat} (hp : p < SIZE) {c : Nat}
    (hc : c < (data p).nodeid.length) : phi (data p) c < n ∧ epart (phi (data p) c) = p := by
  rw [(h.cells hp).2] at hc
  exact ((h.cells hp).1.2 _).mp (List.mem_of_getElem? (phi_get hc))

theorem Launched.phi_mono (h : Launched d1 nodeid node cv npart0 epart nbnodes n SIZE data serial) {p : Nat} (hp : p < SIZE) (c c' : Nat)
    (hcc : c < c') (hc' : c' < (data p).nodeid.length) : phi (data p) c < phi (data p) c' := by
  rw [(h.cells hp).2] at hc'
  have := List.pairwise_iff_getElem.mp (h.cells hp).1.1 c c' (by omega) hc' hcc
  rw [phi, phi, List.getD_eq_getElem _ _ hc', List.getD_eq_getElem _ _ (by omega)]
  exact this

theorem Launched.phi_surj (h : Launched d1 nodeid node cv npart0 epart nbnodes n SIZE data serial) {p : Nat} (hp : p < SIZE) (C : Nat)
    (hC : C < n) (he : epart C = p) : ∃ c < (data p).nodeid.length, phi (data p) c = C := by
  have hm := ((h.cells hp).1.2 C).mpr ⟨hC, he⟩
  obtain ⟨c, hc, e⟩ := List.mem_iff_getElem.mp hm
  exact ⟨c, by rw [(h.cells hp).2]; exact hc, by rw [phi, List.getD_eq_getElem _ _ hc, e]⟩

theorem Launched.serial_cells (h : Launched d1 nodeid node cv npart0 epart nbnodes n SIZE data serial) :
    serial.nodeid.length = n ∧ (∀ C < n, ∀ j < d1, at2 0 serial.nodeid C j = nodeid C j) ∧
    (∀ s < nbnodes, (∀ k < 3, at2 0 serial.vertex s k = pos node s k) ∧ at2 0 serial.vertex s 3 = (labelOf node s : K)) ∧
    serial.halosext = [] := by
  rw [h.serial_eq]
  refine ⟨by simp [expected, serialWrite], ?_, ?_, rfl⟩
  · intro C hC j hj
    simp [expected, serialWrite, at2, List.getD, hC, hj]
  · intro s hs
    have e : ∀ k, at2 0 (expected 1 0 (serialWrite nodeid node nbnodes n d1)).vertex s k =
        ([(node s).1, (node s).2.1, (node s).2.2.1, ((node s).2.2.2 : K)]).getD k 0 := by
      intro k; simp [expected, serialWrite, at2, List.getD, hs]
    refine ⟨fun k hk => ?_, ?_⟩
    · rw [e]
      match k, hk with
      | 0, _ => rfl
      | 1, _ => rfl
      | 2, _ => rfl
    · rw [e]; rfl

/-- Local node numbers, their global numbers and their coordinates. -/
theorem Launched.local_nodes (h : Launched d1 nodeid node cv npart0 epart nbnodes n SIZE data serial) {p : Nat} (hp : p < SIZE) {c : Nat}
    (hc : c < (data p).nodeid.length) {j : Nat} (hj : j < d1) :
    (data p).nodeloctoglob.getD (at2 0 (data p).nodeid c j) 0 = nodeid (phi (data p) c) j ∧
    at2 0 (data p).nodeid c j = (data p).nodeloctoglob.idxOf (nodeid (phi (data p) c) j) ∧
    ∀ k < 4, at2 0 (data p).vertex (at2 0 (data p).nodeid c j) k = at2 0 serial.vertex (nodeid (phi (data p) c) j) k := by
  have hS1 : ¬ SIZE = 1 := by have := h.hS; omega
  have hc' : c < (data p).loctoglob.length := by rw [← (h.cells hp).2]; exact hc
  have hphi := h.phi_lt hp hc
  have hget := phi_get hc'
  generalize hC : phi (data p) c = C at hphi hget ⊢
  have hsn := (h.serial_cells).2.2.1
  have hD := h.data_eq hp
  obtain ⟨P, hP⟩ : ∃ P, P = partition nodeid npart0 epart nbnodes n d1 := ⟨_, rfl⟩
  have hmem : nodeid C j ∈ P.nodePart p := by
    rw [hP]; exact (((C21_node_parts nodeid npart0 epart nbnodes n d1).2 p).2 _).mpr ⟨C, hphi.1, hphi.2, j, hj, rfl⟩
  have hlt := List.idxOf_lt_length_iff.mpr hmem
  have e1 : (data p).nodeloctoglob = P.nodePart p := by rw [hD]; simp only [expected, if_neg hS1, rankWrite, hP]
  have e2 : (data p).nodeid[c]? = some ((List.range d1).map (fun k => (P.nodePart p).idxOf (nodeid C k))) := by
    have : (data p).loctoglob = P.cellPart p := by rw [hD]; simp only [expected, if_neg hS1, rankWrite, hP]
    rw [this] at hget
    rw [hD]; simp only [expected, rankWrite, ← hP, List.getElem?_map, hget]; rfl
  have e3 : at2 0 (data p).nodeid c j = (P.nodePart p).idxOf (nodeid C j) := by
    unfold at2; rw [List.getD_eq_getElem?_getD (l := (data p).nodeid), e2]
    simp [List.getD, hj]
  have e4 : (data p).vertex = (P.nodePart p).map (fun s => [(node s).1, (node s).2.1, (node s).2.2.1, ((node s).2.2.2 : K)]) := by
    rw [hD]; simp only [expected, rankWrite, ← hP, List.map_map]; rfl
  refine ⟨?_, ?_, ?_⟩
  · rw [e3, e1, List.getD_eq_getElem _ _ hlt, List.getElem_idxOf hlt]
  · rw [e3, e1]
  · intro k hk
    rw [e3]
    have : at2 0 (data p).vertex ((P.nodePart p).idxOf (nodeid C j)) k =
        ([(node (nodeid C j)).1, (node (nodeid C j)).2.1, (node (nodeid C j)).2.2.1, ((node (nodeid C j)).2.2.2 : K)]).getD k 0 := by
      unfold at2
      rw [e4, List.getD_eq_getElem?_getD (l := List.map _ _), List.getElem?_map, List.getElem?_eq_getElem hlt, List.getElem_idxOf hlt]
      rfl
    rw [this]
    obtain ⟨a, b⟩ := hsn _ (h.hnode C hphi.1 j hj)
    match k, hk with
    | 0, _ => rw [a 0 (by omega)]; rfl
    | 1, _ => rw [a 1 (by omega)]; rfl
    | 2, _ => rw [a 2 (by omega)]; rfl
    | 3, _ => rw [b]; rfl

theorem Launched.neigh_lt (h : Launched d1 nodeid node cv npart0 epart nbnodes n SIZE data serial) (p : Nat) :
    ∀ q ∈ (partition nodeid npart0 epart nbnodes n d1).neighsub p, q < SIZE := by
  intro q hq
  obtain ⟨_, k, hk, _, hrk⟩ := ((C22_neighbours nodeid npart0 epart nbnodes n d1 p).2 q).mp hq
  rcases hrk with hrk | ⟨i, hi, hei, _⟩
  · obtain ⟨i, hi, j, hj, rfl⟩ := h.hused k hk
    obtain ⟨i', hi', hei, _⟩ := h.hok i hi j hj
    rw [← hrk, ← hei]; exact h.he i' hi'
  · rw [← hei]; exact h.he i hi

theorem Launched.ext_rows (h : Launched d1 nodeid node cv npart0 epart nbnodes n SIZE data serial) {p : Nat} (hp : p < SIZE)
    (row : List Nat) : row ∈ (data p).halosext ↔ ∃ c, row = c :: (List.range d1).map (nodeid c) ∧ c < n ∧ epart c ≠ p ∧
        ∃ k, Uses nodeid d1 c k ∧ NodeIn nodeid npart0 epart n d1 p k := by
  have hS1 : ¬ SIZE = 1 := by have := h.hS; omega
  rw [← halosext_rows nodeid node cv npart0 epart nbnodes n d1 SIZE p h.hd h.he h.hnode row (h.neigh_lt p), h.data_eq hp]
  simp only [expected, if_neg hS1]

theorem Launched.centvol (h : Launched d1 nodeid node cv npart0 epart nbnodes n SIZE data serial) {p : Nat} (hp : p < SIZE)
    (k : Nat) (row : List Nat) (E : Nat) (hk : (data p).halosext[k]? = some row) (hE : row.head? = some E) :
    (data p).centvol[k]? = some (cv E) := by
  have hS1 : ¬ SIZE = 1 := by have := h.hS; omega
  rw [h.data_eq hp] at hk ⊢
  simp only [expected, if_neg hS1, rankWrite] at hk ⊢
  rw [← List.map_flatMap, List.getElem?_map, Option.map_eq_some_iff] at hk
  obtain ⟨c, hc, rfl⟩ := hk
  obtain rfl : c = E := by simpa using hE
  rw [← List.map_flatMap, List.getElem?_map, hc]; rfl

/-- The halo values received: those of the serial run. -/
theorem Launched.halo (h : Launched d1 nodeid node cv npart0 epart nbnodes n SIZE data serial) (cell : Nat → Nat → K) (W : Nat → K)
    (hc : ∀ p < SIZE, Restricts (data p).loctoglob (cell p) W) {p : Nat} (hp : p < SIZE) :
    ∃ halo : List K, updateHalo SIZE data cell p = some halo ∧ ∀ (k : Nat) row E, (data p).halosext[k]? = some row → row.head? = some E →
      halo.getD k 0 = W E := by
  obtain ⟨halo, h1, _, h3⟩ := C26_halo_exchange nodeid node cv npart0 epart nbnodes n d1 SIZE h.hd h.hS h.he h.hok h.hused
    (fun p => writeRank p (rankWrite nodeid node cv (partition nodeid npart0 epart nbnodes n d1)
      (halos (partition nodeid npart0 epart nbnodes n d1).cpart (partition nodeid npart0 epart nbnodes n d1).haloCell SIZE) nbnodes SIZE d1 p))
    _ ⟨fun _ _ => rfl, rfl⟩ data h.hdata cell p hp
  refine ⟨halo, h1, ?_⟩
  intro k row E hk hE
  obtain ⟨g, j, hg, hgn, hge, hl, hv⟩ := h3 k row hk
  obtain rfl : g = E := by rw [hg] at hE; simpa using hE
  rw [List.getD_eq_getElem?_getD, hv]
  exact hc (epart g) (h.he g hgn) j g hl

end
end Verif.Props.Par
