import Verif.Props.ParSerial2

/-! Helper lemmas for the parallel theorems (2D): the tables of a rank describe its part of the mesh (`RankOf`). -/
set_option linter.unusedSectionVars false
set_option linter.unusedVariables false
set_option linter.unusedSimpArgs false
namespace Verif.Props.Par
open Verif.Fvm Verif.Spec Verif.Conn Verif.Dom Verif.Geo Verif.Names Verif.MeshFile Verif.Part Verif.Comm
variable {K : Type*} [Field K] [LinearOrder K] [IsStrictOrderedRing K]

section
variable {nodeid : Nat → Nat → Nat} {node : Nat → K × K × K × Nat} {cv : Nat → List K} {npart0 epart : Nat → Nat}
  {nbnodes n SIZE : Nat} {data : Nat → RankData K} {serial : RankData K}

theorem Launched.labelS (h : Launched 3 nodeid node cv npart0 epart nbnodes n SIZE data serial) {s : Nat} (hs : s < nbnodes) :
    vtx serial s 3 = (labelOf node s : K) := (h.serial_cells.2.2.1 s hs).2

/-- A face of one cell only has a side name. -/
theorem Launched.nm_boundary2 (h : Launched 3 nodeid node cv npart0 epart nbnodes n SIZE data serial) (vm : ValidMesh2 nodeid node nbnodes n)
    (sqrt : K → K) (trunc : K → Int) (htr : ∀ m : Nat, trunc (m : K) = m) :
    ∀ F < (build2 sqrt trunc 1 serial).nbfaces,
      (users (build2 sqrt trunc 1 serial).faceid 3 (build2 sqrt trunc 1 serial).nbcells F).length = 1 →
      nm2 trunc serial F ∈ ([1, 2, 3, 4] : List Int) := by
  intro F hF hu
  have hn : (build2 sqrt trunc 1 serial).nbcells = n := h.serial_cells.1
  have hlen : serial.nodeid.length = n := h.serial_cells.1
  have spec := facesSpec2 sqrt trunc 1 serial
  obtain ⟨C, hC, j, hj, rfl⟩ := facesSpec_surj spec hF
  rw [nm2_side sqrt trunc 1 serial hC hj]
  rw [hlen] at hC
  obtain ⟨l1, l2, l3⟩ := h.side_lt hC hj
  rw [h.labelS l1, h.labelS l2, htr, htr]
  apply name2_sides
  refine vm.label C hC _ _ _ (h.side_perm hC hj) ?_
  rintro c' hc' hne ⟨⟨i, hi, ei⟩, ⟨i', hi', ei'⟩⟩
  have ha : sA serial C j ∈ [nodeid c' 0, nodeid c' 1, nodeid c' 2] := by
    rw [← nodesOf3]; exact List.mem_map.mpr ⟨i, List.mem_range.mpr hi, ei⟩
  have hb : sB serial C j ∈ [nodeid c' 0, nodeid c' 1, nodeid c' 2] := by
    rw [← nodesOf3]; exact List.mem_map.mpr ⟨i', List.mem_range.mpr hi', ei'⟩
  have hop := orow2_perm serial (c := c') (by rw [hlen]; exact hc')
  rw [h.row2S hc'] at hop
  obtain ⟨j', hj', hp⟩ := mem_side2_of (hop.symm.subset ha) (hop.symm.subset hb) (h.side_ne vm hC hj)
  have huse : (build2 sqrt trunc 1 serial).faceid c' j' = (build2 sqrt trunc 1 serial).faceid C j := by
    rw [C16_shared_face _ _ _ _ _ spec c' C j' j (by rw [hlen]; exact hc') (by rw [hlen]; exact hC) hj' hj]
    show (side2 _ _ _ j').Perm _
    rw [sid2_eq serial C j]
    exact hp.symm
  have m1 : c' ∈ users (build2 sqrt trunc 1 serial).faceid 3 (build2 sqrt trunc 1 serial).nbcells ((build2 sqrt trunc 1 serial).faceid C j) :=
    (mem_users _ _ _ _ _).mpr ⟨by rw [hn]; exact hc', j', hj', huse⟩
  have m2 : C ∈ users (build2 sqrt trunc 1 serial).faceid 3 (build2 sqrt trunc 1 serial).nbcells ((build2 sqrt trunc 1 serial).faceid C j) :=
    (mem_users _ _ _ _ _).mpr ⟨by rw [hn]; exact hC, j, hj, rfl⟩
  obtain ⟨a, e⟩ := List.length_eq_one_iff.mp hu
  rw [e, List.mem_singleton] at m1 m2
  exact hne (m1.trans m2.symm)

theorem Launched.rankOf2 (h : Launched 3 nodeid node (centvol2 node nodeid) npart0 epart nbnodes n SIZE data serial)
    (vm : ValidMesh2 nodeid node nbnodes n)
    (sqrt : K → K) (trunc : K → Int) (htr : ∀ m : Nat, trunc (m : K) = m) {p : Nat} (hp : p < SIZE) :
    RankOf (build2 sqrt trunc SIZE (data p)) (build2 sqrt trunc 1 serial) 3 (phi (data p)) (fun C => epart C = p)
      (data p).halosext [1, 2, 3, 4] (out2 serial) := by
  have hn : (build2 sqrt trunc 1 serial).nbcells = n := h.serial_cells.1
  have hlen : serial.nodeid.length = n := h.serial_cells.1
  have m := h.meshPair2 vm sqrt trunc hp
  have hextS : extOf SIZE (data p) = (data p).halosext := by unfold extOf; rw [if_pos h.hS]
  have bL := built2 sqrt trunc SIZE (data p) (fun r hr => by
    obtain ⟨c, rfl, _⟩ := (h.ext_rows hp r).mp hr; simp)
  have bG := built2 sqrt trunc 1 serial (fun r hr => by rw [h.serial_cells.2.2.2] at hr; simp at hr)
  have hext1 : extOf 1 serial = [] := by unfold extOf; simp
  rw [hext1] at bG
  have hnm := h.nm_boundary2 vm sqrt trunc htr
  have B0 : (0 : Int) ∉ ([1, 2, 3, 4] : List Int) := by decide
  have B10 : (10 : Int) ∉ ([1, 2, 3, 4] : List Int) := by decide
  have hsame : ∀ c < (build2 sqrt trunc SIZE (data p)).nbcells, ∀ j < 3,
      nm2 trunc (data p) ((build2 sqrt trunc SIZE (data p)).faceid c j) =
        nm2 trunc serial ((build2 sqrt trunc 1 serial).faceid (phi (data p) c) j) := by
    intro c hc j hj
    have sc := h.sameCell2 hp hc
    obtain ⟨v1, v2⟩ := sc.vertS hj
    rw [nm2_side sqrt trunc SIZE (data p) hc hj, nm2_side sqrt trunc 1 serial sc.Lt hj, v1 3 (by omega), v2 3 (by omega)]
  obtain ⟨cG, nG⟩ := consistentG m bG B0 B10 hnm
  obtain ⟨cL, nL⟩ := consistentL m bL bG B0 B10 hnm hsame
  rw [hextS] at nL
  refine ⟨subMesh_of m bL.faces bG.faces, cL, cG, ?_, ?_, ?_, ?_, ?_, ?_, nL, ?_⟩
  · intro c hc k hk
    have sc := h.sameCell2 hp hc
    rw [center_build2 _ _ _ _ hc, center_build2 _ _ _ _ sc.Lt, sc.center]
  · intro c hc j hj k hk
    have sc := h.sameCell2 hp hc
    rw [fcenter_side2 _ _ _ _ hc hj, fcenter_side2 _ _ _ _ sc.Lt hj]
    exact sc.fcenter hj k hk
  · intro c hc j hj h0 k hk
    have sc := h.sameCell2 hp hc
    rw [normal_first2 _ _ _ _ hc hj (sc.nonFlat.mpr (h.nonFlatS vm (h.phi_lt hp hc).1)) h0, sc.out hj]
  · intro C hC j hj h0 k hk
    rw [hn] at hC
    rw [normal_first2 _ _ _ _ (by rw [hlen]; exact hC) hj (h.nonFlatS vm hC) h0]
  · intro C hC C' hC' hne j hj j' hj' e k hk
    have hpm := (C16_shared_face _ _ _ _ _ bG.faces C C' j j' hC hC' hj hj').mp e
    rw [hn] at hC hC'
    exact out2_opp serial (by rw [hlen]; exact hC) (by rw [hlen]; exact hC') hj hj' (h.nonFlatS vm hC') hpm
      (h.opp vm hC hC' hne hj hj' hpm) k
  · intro F hF
    exact ⟨(nG F hF).1, fun e => ((nG F hF).2 e).1⟩
  · intro k row E hk hE hEn i hi
    rw [hn] at hEn
    have hcv := h.centvol hp k row E hk hE
    rw [center_build2 _ _ _ _ (by rw [hlen]; exact hEn), h.row2S hEn]
    have hs := h.serial_cells.2.2.1
    have e : (build2 sqrt trunc SIZE (data p)).centvol k i = (centvol2 node nodeid E).getD i 0 := by
      show at2 0 (data p).centvol k i = _
      unfold at2
      rw [List.getD_eq_getElem?_getD (l := (data p).centvol), hcv]; rfl
    rw [e]
    have hv : ∀ j < 3, ∀ k < 3, vtx serial (nodeid E j) k = pos node (nodeid E j) k :=
      fun j hj k hk => (hs _ (vm.nodes E hEn j hj)).1 k hk
    match i, hi with
    | 0, _ => simp only [center2]; rw [hv 0 (by omega) 0 (by omega), hv 1 (by omega) 0 (by omega), hv 2 (by omega) 0 (by omega)]; rfl
    | 1, _ => simp only [center2]; rw [hv 0 (by omega) 1 (by omega), hv 1 (by omega) 1 (by omega), hv 2 (by omega) 1 (by omega)]; rfl
    | 2, _ => rfl

end
end Verif.Props.Par
