import Verif.Props.ParNodePair2
import Verif.Props.Parallel3

/-! Helper lemmas for the parallel theorems (3D): the tables of the ranks and of the serial run at the nodes (`NodePair`). -/
set_option linter.unusedSectionVars false
set_option linter.unusedVariables false
set_option linter.unusedSimpArgs false
namespace Verif.Props.Par
open Verif.Fvm Verif.Spec Verif.Conn Verif.Dom Verif.Geo Verif.Names Verif.MeshFile Verif.Part Verif.Comm Verif.Run Verif.HaloGhost
variable {K : Type*} [Field K] [LinearOrder K] [IsStrictOrderedRing K]

/-- The nodes of a face of a halo cell are named 10. -/
theorem nodename_build3 (sqrt : K → K) (trunc : K → Int) (size : Nat) (d : RankData K) (hext : ∀ r ∈ d.halosext, r.length = 5)
    {f : Nat} (hf : f < (fac3 d).length) (hfor : Foreign 3 (extOf size d) (gOf d) ((fac3 d).getD f []))
    {i : Nat} (hi : i ∈ (build3 sqrt trunc size d).fnode f) : (build3 sqrt trunc size d).nodename i = 10 := by
  obtain ⟨D, hD⟩ : ∃ D, D = domain3 sqrt (vtx d) d.nodeid.length (row3 d) := ⟨_, rfl⟩
  obtain ⟨m0, hm0⟩ : ∃ m0 : Marks, m0 = ⟨fun f => (D.cellid f).2, faceNames3 (fun f => (D.cellid f).2) (at2 0 D.facenodes)
    (fun s => trunc (vtx d s 3)) D.facenodes.length, fun s => trunc (vtx d s 3), fun _ => 0⟩ := ⟨_, rfl⟩
  obtain ⟨m, hm⟩ : ∃ m, m = (if size > 1 then markLoop3 d.halosext (fun f => col3 (D.fnode f)) (gOf d) D.facenodes.length m0 else m0) :=
    ⟨_, rfl⟩
  have hF : D.facenodes = fac3 d := by rw [hD]; rfl
  have hnn : (build3 sqrt trunc size d).nodename = m.nodename := by rw [hm, hm0, hD]; rfl
  have hfn : (build3 sqrt trunc size d).fnode f = [col3 (D.fnode f) 0, col3 (D.fnode f) 1, col3 (D.fnode f) 2] := by rw [hD]; rfl
  have marks : MarksSpec 3 (fac3 d).length (extOf size d)
      (fun i => [gOf d (col3 (D.fnode i) 0), gOf d (col3 (D.fnode i) 1), gOf d (col3 (D.fnode i) 2)])
      (fun i => [col3 (D.fnode i) 0, col3 (D.fnode i) 1, col3 (D.fnode i) 2]) m0 m := by
    rw [hm, hF]
    unfold extOf
    by_cases hs : size > 1
    · rw [if_pos hs, if_pos hs]
      exact C27_halo_faces_3d d.halosext hext _ _ _ _
    · rw [if_neg hs, if_neg hs]; exact marks_nil _ _ _ _ _
  have heta : [gOf d (col3 (D.fnode f) 0), gOf d (col3 (D.fnode f) 1), gOf d (col3 (D.fnode f) 2)].Perm
      (((fac3 d).getD f []).map (gOf d)) := by
    have := (fnode3_perm sqrt d hf).map (gOf d)
    rw [← hD] at this
    exact this
  rw [hnn]
  refine marks.2.2.1 i ⟨f, hf, ?_, show i ∈ [col3 (D.fnode f) 0, col3 (D.fnode f) 1, col3 (D.fnode f) 2] by rw [← hfn]; exact hi⟩
  dsimp only
  simp only [isSide_perm heta]
  exact hfor

theorem ghostcenter3_congr (n n' : Vec K) (m : K) (f f' v v' : Vec K) (ε : K) (hε : ε = 1 ∨ ε = -1) (hn : ∀ k < 3, n k = ε * n' k)
    (hf : ∀ k < 3, f k = f' k) (hv : ∀ k < 3, v k = v' k) : ∀ k < 3, (ghostcenter3 n m f v).1 k = (ghostcenter3 n' m f' v').1 k := by
  intro k hk
  simp only [ghostcenter3, dot3]
  rw [hn k hk, hv k hk, hn 0 (by omega), hn 1 (by omega), hn 2 (by omega), hf 0 (by omega), hf 1 (by omega), hf 2 (by omega),
    hv 0 (by omega), hv 1 (by omega), hv 2 (by omega)]
  rcases hε with rfl | rfl <;> ring

section
variable {nodeid : Nat → Nat → Nat} {node : Nat → K × K × K × Nat} {npart0 epart : Nat → Nat}
  {nbnodes n SIZE : Nat} {data : Nat → RankData K} {serial : RankData K}

theorem range4 {α : Type*} (f : Nat → α) : (List.range 4).map f = [f 0, f 1, f 2, f 3] := rfl

set_option maxHeartbeats 1000000 in
theorem Launched.nodePair3 (h : Launched 4 nodeid node (centvol3 node nodeid) npart0 epart nbnodes n SIZE data serial)
    (vm : ValidMesh3 nodeid node nbnodes n) (sqrt : K → K) (trunc : K → Int) (htr : ∀ m : Nat, trunc (m : K) = m) :
    NodePair 3 nodeid node (centvol3 node nodeid) npart0 epart nbnodes n SIZE data serial (fun p => build3 sqrt trunc SIZE (data p))
      (build3 sqrt trunc 1 serial) [1, 2, 3, 4, 5, 6] (out3 serial) trunc := by
  have hn : (build3 sqrt trunc 1 serial).nbcells = n := h.serial_cells.1
  have hlen : serial.nodeid.length = n := h.serial_cells.1
  have R := h.runPair3 vm sqrt trunc htr
  have spec := facesSpec3 sqrt trunc 1 serial
  have extlen : ∀ p < SIZE, ∀ r ∈ (data p).halosext, r.length = 5 := by
    intro p hp r hr
    obtain ⟨c, rfl, _⟩ := (h.ext_rows hp r).mp hr; simp
  refine ⟨R, h, ?_, ?_, ?_, fun p hp => rfl, h.serial_vertex, h.serial_vertex, fun p hp => rfl, rfl, fun p hp i => rfl, fun i => rfl, ?_, ?_, ?_,
    ?_, ?_, ?_, ?_, ?_, rfl⟩
  · intro C hC j hj j' hj' e
    obtain ⟨d1, d2, d3, d4, d5, d6⟩ := signedVol_distinct (v := pos node) (vm.volume C hC)
    interval_cases j <;> interval_cases j' <;> first | rfl | (exfalso; first
      | exact d1 e | exact d2 e | exact d3 e | exact d4 e | exact d5 e | exact d6 e
      | exact d1 e.symm | exact d2 e.symm | exact d3 e.symm | exact d4 e.symm | exact d5 e.symm | exact d6 e.symm)
  · intro p hp c hc
    exact List.Perm.refl _
  · intro C hC
    show (([at2 0 serial.nodeid C 0, at2 0 serial.nodeid C 1, at2 0 serial.nodeid C 2, at2 0 serial.nodeid C 3] : List Nat)).Perm _
    have := h.serial_cells.2.1 C hC
    rw [this 0 (by omega), this 1 (by omega), this 2 (by omega), this 3 (by omega)]
    exact List.Perm.refl _
  · intro p hp c hc j hj
    exact h.sameFace3 sqrt trunc hp hc hj
  · intro p hp c hc j hj x hx
    have hm := (fnode_perm3 sqrt trunc SIZE (data p) hc hj).subset hx
    obtain ⟨i, hi, e⟩ := node_mem3 (data p) c hj hm
    exact ⟨i, hi, e.symm⟩
  · intro C hC j hj
    have hp := fnode_perm3 sqrt trunc 1 serial (c := C) (by rw [hlen]; exact hC) hj
    obtain ⟨n1, n2, n3⟩ := h.side_ne3 vm hC hj
    refine ⟨?_, ?_, ?_⟩
    · rw [hp.nodup_iff, sid3_eq]
      simp [n1, n2, n3]
    · rw [hp.length_eq, sid3_eq]; rfl
    · intro x hx
      have hx := hp.subset hx
      rw [sid3_eq] at hx
      have : x ∈ nodesOf nodeid 4 C := (h.side_perm3 hC hj).subset (by
        simp only [List.mem_cons, List.not_mem_nil, or_false] at hx ⊢; tauto)
      obtain ⟨k, hk, e⟩ := List.mem_map.mp this
      exact ⟨k, List.mem_range.mp hk, e⟩
  · intro C hC f hnd hl hu
    match f, hl with
    | [a, b, c], _ =>
      have hmem : ∀ x ∈ [a, b, c], x ∈ [nodeid C 0, nodeid C 1, nodeid C 2, nodeid C 3] := by
        intro x hx
        obtain ⟨k, hk, e⟩ := hu x hx
        rw [← range4 (nodeid C)]
        exact List.mem_map.mpr ⟨k, List.mem_range.mpr hk, e⟩
      simp only [List.nodup_cons, List.mem_cons, List.not_mem_nil, or_false, not_or, not_false_eq_true, List.nodup_nil, and_true] at hnd
      obtain ⟨j, hj, hp⟩ := mem_side3_of (hmem a (by simp)) (hmem b (by simp)) (hmem c (by simp)) hnd.1.1 hnd.2 hnd.1.2
      refine ⟨j, hj, hp.trans (List.Perm.trans ?_ (fnode_perm3 sqrt trunc 1 serial (c := C) (by rw [hlen]; exact hC) hj).symm)⟩
      show _root_.List.Perm _ (side3 (row3 serial C).1 (row3 serial C).2.1 (row3 serial C).2.2.1 (row3 serial C).2.2.2 j)
      rw [h.row3S hC]
  · intro C hC C' hC' j hj j' hj' hp
    rw [← hlen] at hC hC'
    exact (C16_shared_face _ _ _ _ _ spec C C' j j' hC hC' hj hj').mpr
      ((fnode_perm3 sqrt trunc 1 serial hC hj).symm.trans (hp.trans (fnode_perm3 sqrt trunc 1 serial hC' hj')))
  · intro p hp c hc j hj hE i hi
    have m := h.meshPair3 vm sqrt trunc hp
    have hfor := (foreign_iff m (facesSpec3 sqrt trunc SIZE (data p)) spec hc hj).mpr (by rw [hn]; exact hE)
    exact nodename_build3 sqrt trunc SIZE (data p) (extlen p hp) (face_perm3 sqrt trunc SIZE (data p) hc hj).1 hfor hi
  · intro p hp c hc j hj hb
    have r := R.rank p hp
    obtain ⟨_, _, c0, C0⟩ := r.boundary hc hj hb
    obtain ⟨ε, hε, hnn⟩ := r.normal_pm hc hj
    have hmes := R.mesure p hp c hc j hj
    have key := ghostcenter3_congr _ _ ((build3 sqrt trunc 1 serial).mesure ((build3 sqrt trunc 1 serial).faceid (phi (data p) c) j)) _ _ _ _ ε hε hnn
      (r.fcenter c hc j hj) (r.center c hc)
    unfold ghostPoint
    simp only [show ¬ (3 = 2) by decide, if_false]
    rw [c0, C0, show idx ((c : Nat) : Int) = c by simp [idx], show idx ((phi (data p) c : Nat) : Int) = phi (data p) c by simp [idx], hmes,
      key 0 (by omega), key 1 (by omega), key 2 (by omega)]
  · intro F hF s hs
    have r0 := R.rank 0 (by have := h.hS; omega)
    have cG := r0.cG
    obtain ⟨hFl, hFB⟩ := (cG.bnd.2 F).mp hF
    obtain ⟨C, hC, j, hj, rfl⟩ := cG.fsurj F hFl
    rw [hn] at hC
    obtain ⟨U, hU⟩ : ∃ U, U = users (build3 sqrt trunc 1 serial).faceid 4 (build3 sqrt trunc 1 serial).nbcells ((build3 sqrt trunc 1 serial).faceid C j) := ⟨_, rfl⟩
    have hu : U.length = 1 := by
      have h2 : U.length ≤ 2 := by rw [hU]; exact r0.sub.two ((build3 sqrt trunc 1 serial).faceid C j)
      have h0 : C ∈ U := by rw [hU]; exact (mem_users _ _ _ _ _).mpr ⟨by rw [hn]; exact hC, j, hj, rfl⟩
      have hpos := List.length_pos_of_mem h0
      by_contra hne
      have := (r0.nameG _ hFl).1 (by rw [← hU]; omega)
      rw [this] at hFB
      exact cG.B0 hFB
    obtain ⟨l1, l2, l3, l4⟩ := h.side_lt3 hC hj
    have lab : SideLabels3 (labelOf node (tA serial C j)) (labelOf node (tB serial C j)) (labelOf node (tC serial C j)) := by
      refine vm.label C hC _ _ _ _ (h.side_perm3 hC hj) ?_
      rintro c' hc' hne ⟨⟨i, hi, ei⟩, ⟨i', hi', ei'⟩, ⟨i2, hi2, ei2⟩⟩
      have hmem : ∀ x i, i < 4 → nodeid c' i = x → x ∈ [nodeid c' 0, nodeid c' 1, nodeid c' 2, nodeid c' 3] := by
        intro x i hi e
        rw [← nodesOf4]; exact List.mem_map.mpr ⟨i, List.mem_range.mpr hi, e⟩
      obtain ⟨n1, n2, n3⟩ := h.side_ne3 vm hC hj
      obtain ⟨j', hj', hp⟩ := mem_side3_of (hmem _ i hi ei) (hmem _ i' hi' ei') (hmem _ i2 hi2 ei2) n1 n2 n3
      have huse : (build3 sqrt trunc 1 serial).faceid c' j' = (build3 sqrt trunc 1 serial).faceid C j := by
        rw [C16_shared_face _ _ _ _ _ spec c' C j' j (by rw [hlen]; exact hc') (by rw [hlen]; exact hC) hj' hj]
        rw [sid3_eq serial C j]
        show (side3 (row3 serial c').1 (row3 serial c').2.1 (row3 serial c').2.2.1 (row3 serial c').2.2.2 j').Perm _
        rw [h.row3S hc']
        exact hp.symm
      have m1 : c' ∈ U := by rw [hU]; exact (mem_users _ _ _ _ _).mpr ⟨by rw [hn]; exact hc', j', hj', huse⟩
      have m2 : C ∈ U := by rw [hU]; exact (mem_users _ _ _ _ _).mpr ⟨by rw [hn]; exact hC, j, hj, rfl⟩
      obtain ⟨a, e⟩ := List.length_eq_one_iff.mp hu
      rw [e, List.mem_singleton] at m1 m2
      exact hne (m1.trans m2.symm)
    have hx := (fnode_perm3 sqrt trunc 1 serial (c := C) (by rw [hlen]; exact hC) hj).subset hs
    rw [sid3_eq] at hx
    have old : ∀ s < nbnodes, (build3 sqrt trunc 1 serial).oldname s = (labelOf node s : Int) := by
      intro s hs
      show trunc (vtx serial s 3) = _
      rw [h.labelS3 hs, htr]
    obtain ⟨la, lb, lc, _⟩ := lab
    have fin : ∀ m : Nat, 1 ≤ m ∧ m ≤ 6 → ((m : Nat) : Int) ∈ ([1, 2, 3, 4, 5, 6] : List Int) := by
      rintro m ⟨h1, h2⟩
      interval_cases m <;> decide
    simp only [List.mem_cons, List.not_mem_nil, or_false] at hx
    rcases hx with rfl | rfl | rfl
    · rw [old _ l1]; exact fin _ la
    · rw [old _ l2]; exact fin _ lb
    · rw [old _ l3]; exact fin _ lc

end
end Verif.Props.Par
