import Verif.Props.ParSerial3
import Verif.Props.ParRank2

/-! Helper lemmas for the parallel theorems (3D): the tables of a rank describe its part of the mesh (`RankOf`). -/
set_option linter.unusedSectionVars false
set_option linter.unusedVariables false
set_option linter.unusedSimpArgs false
namespace Verif.Props.Par
open Verif.Fvm Verif.Spec Verif.Conn Verif.Dom Verif.Geo Verif.Names Verif.MeshFile Verif.Part Verif.Comm
variable {K : Type*} [Field K] [LinearOrder K] [IsStrictOrderedRing K]

section
variable {nodeid : Nat → Nat → Nat} {node : Nat → K × K × K × Nat} {cv : Nat → List K} {npart0 epart : Nat → Nat}
  {nbnodes n SIZE : Nat} {data : Nat → RankData K} {serial : RankData K}

theorem Launched.labelS3 (h : Launched 4 nodeid node cv npart0 epart nbnodes n SIZE data serial) {s : Nat} (hs : s < nbnodes) :
    vtx serial s 3 = (labelOf node s : K) := (h.serial_cells.2.2.1 s hs).2

/-- A face of one cell only has a side name. -/
theorem Launched.nm_boundary3 (h : Launched 4 nodeid node cv npart0 epart nbnodes n SIZE data serial) (vm : ValidMesh3 nodeid node nbnodes n)
    (sqrt : K → K) (trunc : K → Int) (htr : ∀ m : Nat, trunc (m : K) = m) :
    ∀ F < (build3 sqrt trunc 1 serial).nbfaces,
      (users (build3 sqrt trunc 1 serial).faceid 4 (build3 sqrt trunc 1 serial).nbcells F).length = 1 →
      nm3 trunc serial F ∈ ([1, 2, 3, 4, 5, 6] : List Int) := by
  intro F hF hu
  have hn : (build3 sqrt trunc 1 serial).nbcells = n := h.serial_cells.1
  have hlen : serial.nodeid.length = n := h.serial_cells.1
  have spec := facesSpec3 sqrt trunc 1 serial
  obtain ⟨C, hC, j, hj, rfl⟩ := facesSpec_surj spec hF
  rw [nm3_side sqrt trunc 1 serial hC hj]
  rw [hlen] at hC
  obtain ⟨l1, l2, l3, l4⟩ := h.side_lt3 hC hj
  rw [h.labelS3 l1, h.labelS3 l2, h.labelS3 l3, htr, htr, htr]
  apply name3_sides
  refine vm.label C hC _ _ _ _ (h.side_perm3 hC hj) ?_
  rintro c' hc' hne ⟨⟨i, hi, ei⟩, ⟨i', hi', ei'⟩, ⟨i2, hi2, ei2⟩⟩
  have hmem : ∀ x i, i < 4 → nodeid c' i = x → x ∈ [nodeid c' 0, nodeid c' 1, nodeid c' 2, nodeid c' 3] := by
    intro x i hi e
    rw [← nodesOf4]; exact List.mem_map.mpr ⟨i, List.mem_range.mpr hi, e⟩
  obtain ⟨n1, n2, n3⟩ := h.side_ne3 vm hC hj
  obtain ⟨j', hj', hp⟩ := mem_side3_of (hmem _ i hi ei) (hmem _ i' hi' ei') (hmem _ i2 hi2 ei2) n1 n2 n3
  have huse : (build3 sqrt trunc 1 serial).faceid c' j' = (build3 sqrt trunc 1 serial).faceid C j := by
    rw [C16_shared_face _ _ _ _ _ spec c' C j' j (by rw [hlen]; exact hc') (by rw [hlen]; exact hC) hj' hj]
    rw [sid3_eq serial C j]
    show (side3 (row3 serial c').1 (row3 serial c').2.1 (row3 serial c').2.2.1 (row3 serial c').2.2.2 j').Perm _
    rw [h.row3S hc']
    exact hp.symm
  have m1 : c' ∈ users (build3 sqrt trunc 1 serial).faceid 4 (build3 sqrt trunc 1 serial).nbcells ((build3 sqrt trunc 1 serial).faceid C j) :=
    (mem_users _ _ _ _ _).mpr ⟨by rw [hn]; exact hc', j', hj', huse⟩
  have m2 : C ∈ users (build3 sqrt trunc 1 serial).faceid 4 (build3 sqrt trunc 1 serial).nbcells ((build3 sqrt trunc 1 serial).faceid C j) :=
    (mem_users _ _ _ _ _).mpr ⟨by rw [hn]; exact hC, j, hj, rfl⟩
  obtain ⟨a, e⟩ := List.length_eq_one_iff.mp hu
  rw [e, List.mem_singleton] at m1 m2
  exact hne (m1.trans m2.symm)

set_option maxHeartbeats 1000000 in
theorem Launched.rankOf3 (h : Launched 4 nodeid node (centvol3 node nodeid) npart0 epart nbnodes n SIZE data serial)
    (vm : ValidMesh3 nodeid node nbnodes n)
    (sqrt : K → K) (trunc : K → Int) (htr : ∀ m : Nat, trunc (m : K) = m) {p : Nat} (hp : p < SIZE) :
    RankOf (build3 sqrt trunc SIZE (data p)) (build3 sqrt trunc 1 serial) 4 (phi (data p)) (fun C => epart C = p)
      (data p).halosext [1, 2, 3, 4, 5, 6] (out3 serial) := by
  have hn : (build3 sqrt trunc 1 serial).nbcells = n := h.serial_cells.1
  have hlen : serial.nodeid.length = n := h.serial_cells.1
  have m := h.meshPair3 vm sqrt trunc hp
  have hextS : extOf SIZE (data p) = (data p).halosext := by unfold extOf; rw [if_pos h.hS]
  have bL := built3 sqrt trunc SIZE (data p) (fun r hr => by
    obtain ⟨c, rfl, _⟩ := (h.ext_rows hp r).mp hr; simp)
  have bG := built3 sqrt trunc 1 serial (fun r hr => by rw [h.serial_cells.2.2.2] at hr; simp at hr)
  have hext1 : extOf 1 serial = [] := by unfold extOf; simp
  rw [hext1] at bG
  have hnm := h.nm_boundary3 vm sqrt trunc htr
  have B0 : (0 : Int) ∉ ([1, 2, 3, 4, 5, 6] : List Int) := by decide
  have B10 : (10 : Int) ∉ ([1, 2, 3, 4, 5, 6] : List Int) := by decide
  have hsame : ∀ c < (build3 sqrt trunc SIZE (data p)).nbcells, ∀ j < 4,
      nm3 trunc (data p) ((build3 sqrt trunc SIZE (data p)).faceid c j) =
        nm3 trunc serial ((build3 sqrt trunc 1 serial).faceid (phi (data p) c) j) := by
    intro c hc j hj
    have sc := h.sameCell3 hp hc
    obtain ⟨v1, v2, v3⟩ := sc.vertS hj
    rw [nm3_side sqrt trunc SIZE (data p) hc hj, nm3_side sqrt trunc 1 serial sc.Lt hj, v1 3 (by omega), v2 3 (by omega), v3 3 (by omega)]
  obtain ⟨cG, nG⟩ := consistentG m bG B0 B10 hnm
  obtain ⟨cL, nL⟩ := consistentL m bL bG B0 B10 hnm hsame
  rw [hextS] at nL
  refine ⟨subMesh_of m bL.faces bG.faces, cL, cG, ?_, ?_, ?_, ?_, ?_, ?_, nL, ?_⟩
  · intro c hc k hk
    have sc := h.sameCell3 hp hc
    rw [center_build3 _ _ _ _ hc, center_build3 _ _ _ _ sc.Lt]
    exact sc.cen k hk
  · intro c hc j hj k hk
    have sc := h.sameCell3 hp hc
    rw [fcenter_side3 _ _ _ _ hc hj, fcenter_side3 _ _ _ _ sc.Lt hj]
    exact sc.fcenter hj k hk
  · intro c hc j hj h0 k hk
    have sc := h.sameCell3 hp hc
    rw [normal_first3 _ _ _ _ hc hj (sc.nonFlat.mpr (h.nonFlatS3 vm (h.phi_lt hp hc).1)) h0, sc.out hj]
  · intro C hC j hj h0 k hk
    rw [hn] at hC
    rw [normal_first3 _ _ _ _ (by rw [hlen]; exact hC) hj (h.nonFlatS3 vm hC) h0]
  · intro C hC C' hC' hne j hj j' hj' e k hk
    have hpm := (C16_shared_face _ _ _ _ _ bG.faces C C' j j' hC hC' hj hj').mp e
    rw [hn] at hC hC'
    exact out3_opp serial hj hj' (h.nonFlatS3 vm hC') hpm (h.opp3 vm hC hC' hne hj hj' hpm) k
  · intro F hF
    exact ⟨(nG F hF).1, fun e => ((nG F hF).2 e).1⟩
  · intro k row E hk hE hEn i hi
    rw [hn] at hEn
    have hcv := h.centvol hp k row E hk hE
    rw [center_build3 _ _ _ _ (by rw [hlen]; exact hEn), h.row3S hEn]
    have hs := h.serial_cells.2.2.1
    have e : (build3 sqrt trunc SIZE (data p)).centvol k i = (centvol3 node nodeid E).getD i 0 := by
      show at2 0 (data p).centvol k i = _
      unfold at2
      rw [List.getD_eq_getElem?_getD (l := (data p).centvol), hcv]; rfl
    rw [e]
    have hv : ∀ j < 4, ∀ k < 3, vtx serial (nodeid E j) k = pos node (nodeid E j) k :=
      fun j hj k hk => (hs _ (vm.nodes E hEn j hj)).1 k hk
    simp only [center3]
    match i, hi with
    | 0, _ => rw [hv 0 (by omega) 0 (by omega), hv 1 (by omega) 0 (by omega), hv 2 (by omega) 0 (by omega), hv 3 (by omega) 0 (by omega)]; rfl
    | 1, _ => rw [hv 0 (by omega) 1 (by omega), hv 1 (by omega) 1 (by omega), hv 2 (by omega) 1 (by omega), hv 3 (by omega) 1 (by omega)]; rfl
    | 2, _ => rw [hv 0 (by omega) 2 (by omega), hv 1 (by omega) 2 (by omega), hv 2 (by omega) 2 (by omega), hv 3 (by omega) 2 (by omega)]; rfl

end
end Verif.Props.Par
