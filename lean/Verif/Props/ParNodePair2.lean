import Verif.Props.ParStencilEq
import Verif.Props.Parallel

/-! Helper lemmas for the parallel theorems (2D): the tables of the ranks and of the serial run at the nodes (`NodePair`). -/
set_option linter.unusedSectionVars false
set_option linter.unusedVariables false
set_option linter.unusedSimpArgs false
namespace Verif.Props.Par
open Verif.Fvm Verif.Spec Verif.Conn Verif.Dom Verif.Geo Verif.Names Verif.MeshFile Verif.Part Verif.Comm Verif.Run Verif.HaloGhost
variable {K : Type*} [Field K] [LinearOrder K] [IsStrictOrderedRing K]

/-- The nodes of a face of a halo cell are named 10. -/
theorem nodename_build2 (sqrt : K → K) (trunc : K → Int) (size : Nat) (d : RankData K) (hext : ∀ r ∈ d.halosext, r.length = 4)
    {f : Nat} (hf : f < (fac2 d).length) (hfor : Foreign 2 (extOf size d) (gOf d) ((fac2 d).getD f []))
    {i : Nat} (hi : i ∈ (build2 sqrt trunc size d).fnode f) : (build2 sqrt trunc size d).nodename i = 10 := by
  obtain ⟨D, hD⟩ : ∃ D, D = domain2 sqrt (vtx d) d.nodeid.length (row2 d) := ⟨_, rfl⟩
  obtain ⟨m0, hm0⟩ : ∃ m0 : Marks, m0 = ⟨fun f => (D.cellid f).2, faceNames2 (fun f => (D.cellid f).2) (at2 0 D.facenodes)
    (fun s => trunc (vtx d s 3)) D.facenodes.length, fun s => trunc (vtx d s 3), fun _ => 0⟩ := ⟨_, rfl⟩
  obtain ⟨m, hm⟩ : ∃ m, m = (if size > 1 then markLoop2 d.halosext (at2 0 D.facenodes) (gOf d) D.facenodes.length m0 else m0) := ⟨_, rfl⟩
  have spec := facesSpec2 sqrt trunc size d
  have hF : D.facenodes = fac2 d := by rw [hD]; rfl
  have hnn : (build2 sqrt trunc size d).nodename = m.nodename := by rw [hm, hm0, hD]; rfl
  have hfn : (build2 sqrt trunc size d).fnode f = [at2 0 D.facenodes f 0, at2 0 D.facenodes f 1] := by rw [hD]; rfl
  have marks : MarksSpec 2 (fac2 d).length (extOf size d) (fun i => [gOf d (at2 0 D.facenodes i 0), gOf d (at2 0 D.facenodes i 1)])
      (fun i => [at2 0 D.facenodes i 0, at2 0 D.facenodes i 1]) m0 m := by
    rw [hm, hF]
    unfold extOf
    by_cases hs : size > 1
    · rw [if_pos hs, if_pos hs]
      exact C27_halo_faces_2d d.halosext hext _ _ _ _
    · rw [if_neg hs, if_neg hs]; exact marks_nil _ _ _ _ _
  have hlen2 : ∀ i j, (sid2 d i j).length = 2 := by intro i j; unfold sid2 side2; split <;> rfl
  have heta : [gOf d (at2 0 D.facenodes f 0), gOf d (at2 0 D.facenodes f 1)] = ((fac2 d).getD f []).map (gOf d) := by
    rw [hF]
    have := list2_eta (facesSpec_len spec hlen2 hf)
    conv_rhs => rw [← this]
    rfl
  rw [hnn]
  refine marks.2.2.1 i ⟨f, hf, ?_, show i ∈ [at2 0 D.facenodes f 0, at2 0 D.facenodes f 1] by rw [← hfn]; exact hi⟩
  dsimp only
  rw [heta]; exact hfor

theorem ghostcenter2_swap (x y v : Vec K) (h : (x 0 - y 0) ^ 2 + (x 1 - y 1) ^ 2 ≠ 0) :
    (ghostcenter2 y x v).1 = (ghostcenter2 x y v).1 ∧ (ghostcenter2 y x v).2.1 = (ghostcenter2 x y v).2.1 := by
  have e : (y 0 - x 0) ^ 2 + (y 1 - x 1) ^ 2 = (x 0 - y 0) ^ 2 + (x 1 - y 1) ^ 2 := by ring
  have hg : ((v 0 - x 0) * (y 0 - x 0) + (v 1 - x 1) * (y 1 - x 1)) / ((y 0 - x 0) ^ 2 + (y 1 - x 1) ^ 2) =
      1 - ((v 0 - y 0) * (x 0 - y 0) + (v 1 - y 1) * (x 1 - y 1)) / ((x 0 - y 0) ^ 2 + (x 1 - y 1) ^ 2) := by
    rw [e, eq_sub_iff_add_eq, ← add_div, div_eq_one_iff_eq h]; ring
  simp only [ghostcenter2]
  rw [hg]
  constructor <;> ring

theorem signedArea_edge {x y z : Vec K} (h : signedArea x y z ≠ 0) : (x 0 - y 0) ^ 2 + (x 1 - y 1) ^ 2 ≠ 0 := by
  intro e
  have h0 : x 0 - y 0 = 0 := by nlinarith [sq_nonneg (x 0 - y 0), sq_nonneg (x 1 - y 1)]
  have h1 : x 1 - y 1 = 0 := by nlinarith [sq_nonneg (x 0 - y 0), sq_nonneg (x 1 - y 1)]
  apply h
  have e0 : x 0 = y 0 := by linarith
  have e1 : x 1 = y 1 := by linarith
  unfold signedArea; rw [e0, e1]; ring

section
variable {nodeid : Nat → Nat → Nat} {node : Nat → K × K × K × Nat} {npart0 epart : Nat → Nat}
  {nbnodes n SIZE : Nat} {data : Nat → RankData K} {serial : RankData K}

theorem Launched.serial_vertex {d1 : Nat} {cv : Nat → List K} (h : Launched d1 nodeid node cv npart0 epart nbnodes n SIZE data serial) :
    serial.vertex.length = nbnodes := by
  rw [h.serial_eq]; simp [expected, serialWrite]

theorem ghostPoint_side2 (sqrt : K → K) (trunc : K → Int) (size : Nat) (d : RankData K) {c j : Nat} (hc : c < d.nodeid.length) (hj : j < 3)
    (hne : NonFlat d c) (h0 : (build2 sqrt trunc size d).cellid ((build2 sqrt trunc size d).faceid c j) 0 = (c : Int)) :
    ghostPoint 2 (build2 sqrt trunc size d) ((build2 sqrt trunc size d).faceid c j) =
      [(ghostcenter2 (vtx d (sB d c j)) (vtx d (sA d c j)) (center2 (vtx d) (row2 d c).1 (row2 d c).2.1 (row2 d c).2.2)).1,
       (ghostcenter2 (vtx d (sB d c j)) (vtx d (sA d c j)) (center2 (vtx d) (row2 d c).1 (row2 d c).2.1 (row2 d c).2.2)).2.1] := by
  have hp := (face_perm2 sqrt trunc size d hc hj).2
  have hcen := center_build2 sqrt trunc size d hc
  have hA := signedArea_edge (signedArea_perm_ne (vtx d) _ _ _ _ _ _ (side_perm d hc hj) hne)
  unfold ghostPoint
  rw [if_pos rfl, h0]
  dsimp only
  rw [show idx ((c : Nat) : Int) = c by simp [idx], hcen]
  rcases perm2 hp with ⟨e1, e2⟩ | ⟨e1, e2⟩
  · rw [show ((build2 sqrt trunc size d).fnode ((build2 sqrt trunc size d).faceid c j)).getD 1 0 = sB d c j from e2,
      show ((build2 sqrt trunc size d).fnode ((build2 sqrt trunc size d).faceid c j)).getD 0 0 = sA d c j from e1]
    rfl
  · rw [show ((build2 sqrt trunc size d).fnode ((build2 sqrt trunc size d).faceid c j)).getD 1 0 = sA d c j from e2,
      show ((build2 sqrt trunc size d).fnode ((build2 sqrt trunc size d).faceid c j)).getD 0 0 = sB d c j from e1]
    obtain ⟨g1, g2⟩ := ghostcenter2_swap (vtx d (sA d c j)) (vtx d (sB d c j))
      (center2 (vtx d) (row2 d c).1 (row2 d c).2.1 (row2 d c).2.2) hA
    rw [g1, g2]; rfl

theorem range3 {α : Type*} (f : Nat → α) : (List.range 3).map f = [f 0, f 1, f 2] := rfl

theorem Launched.nodePair2 (h : Launched 3 nodeid node (centvol2 node nodeid) npart0 epart nbnodes n SIZE data serial)
    (vm : ValidMesh2 nodeid node nbnodes n) (sqrt : K → K) (trunc : K → Int) (htr : ∀ m : Nat, trunc (m : K) = m) :
    NodePair 2 nodeid node (centvol2 node nodeid) npart0 epart nbnodes n SIZE data serial (fun p => build2 sqrt trunc SIZE (data p))
      (build2 sqrt trunc 1 serial) [1, 2, 3, 4] (out2 serial) trunc := by
  have hn : (build2 sqrt trunc 1 serial).nbcells = n := h.serial_cells.1
  have hlen : serial.nodeid.length = n := h.serial_cells.1
  have R := h.runPair2 vm sqrt trunc htr
  have spec := facesSpec2 sqrt trunc 1 serial
  have extlen : ∀ p < SIZE, ∀ r ∈ (data p).halosext, r.length = 4 := by
    intro p hp r hr
    obtain ⟨c, rfl, _⟩ := (h.ext_rows hp r).mp hr; simp
  have orowG : ∀ C < n, [(orow2 serial C).1, (orow2 serial C).2.1, (orow2 serial C).2.2].Perm [nodeid C 0, nodeid C 1, nodeid C 2] := by
    intro C hC
    have := orow2_perm serial (c := C) (by rw [hlen]; exact hC)
    rw [h.row2S hC] at this; exact this
  refine ⟨R, h, ?_, ?_, ?_, fun p hp => rfl, h.serial_vertex, h.serial_vertex, fun p hp => rfl, rfl, fun p hp i => rfl, fun i => rfl, ?_, ?_, ?_,
    ?_, ?_, ?_, ?_, ?_, rfl⟩
  · intro C hC j hj j' hj' e
    obtain ⟨d1, d2, d3⟩ := signedArea_distinct (v := pos node) (vm.area C hC)
    interval_cases j <;> interval_cases j' <;> first | rfl | (exfalso; first | exact d1 e | exact d2 e | exact d3 e | exact d1 e.symm | exact d2 e.symm | exact d3 e.symm)
  · intro p hp c hc
    exact orow2_perm (data p) hc
  · intro C hC
    exact orowG C hC
  · intro p hp c hc j hj
    exact h.sameFace2 sqrt trunc hp hc hj
  · intro p hp c hc j hj x hx
    have hm := (fnode_perm2 sqrt trunc SIZE (data p) hc hj).subset hx
    obtain ⟨i, hi, e⟩ := h.node_mem hp hc hj hm
    exact ⟨i, hi, e.symm⟩
  · intro C hC j hj
    have hp := fnode_perm2 sqrt trunc 1 serial (c := C) (by rw [hlen]; exact hC) hj
    refine ⟨?_, ?_, ?_⟩
    · rw [hp.nodup_iff, sid2_eq]
      simpa using h.side_ne vm hC hj
    · rw [hp.length_eq, sid2_eq]; rfl
    · intro x hx
      have hx := hp.subset hx
      rw [sid2_eq] at hx
      have : x ∈ nodesOf nodeid 3 C := (h.side_perm hC hj).subset (by
        simp only [List.mem_cons, List.not_mem_nil, or_false] at hx ⊢; tauto)
      obtain ⟨k, hk, e⟩ := List.mem_map.mp this
      exact ⟨k, List.mem_range.mp hk, e⟩
  · intro C hC f hnd hl hu
    match f, hl with
    | [a, b], _ =>
      have hmem : ∀ x ∈ [a, b], x ∈ [(orow2 serial C).1, (orow2 serial C).2.1, (orow2 serial C).2.2] := by
        intro x hx
        obtain ⟨k, hk, e⟩ := hu x hx
        apply (orowG C hC).symm.subset
        rw [← range3 (nodeid C)]
        exact List.mem_map.mpr ⟨k, List.mem_range.mpr hk, e⟩
      have hab : a ≠ b := by
        intro e; subst e; simp at hnd
      obtain ⟨j, hj, hp⟩ := mem_side2_of (hmem a (by simp)) (hmem b (by simp)) hab
      exact ⟨j, hj, hp.trans (fnode_perm2 sqrt trunc 1 serial (c := C) (by rw [hlen]; exact hC) hj).symm⟩
  · intro C hC C' hC' j hj j' hj' hp
    rw [← hlen] at hC hC'
    exact (C16_shared_face _ _ _ _ _ spec C C' j j' hC hC' hj hj').mpr
      ((fnode_perm2 sqrt trunc 1 serial hC hj).symm.trans (hp.trans (fnode_perm2 sqrt trunc 1 serial hC' hj')))
  · intro p hp c hc j hj hE i hi
    have m := h.meshPair2 vm sqrt trunc hp
    have hfor := (foreign_iff m (facesSpec2 sqrt trunc SIZE (data p)) spec hc hj).mpr (by rw [hn]; exact hE)
    exact nodename_build2 sqrt trunc SIZE (data p) (extlen p hp) (face_perm2 sqrt trunc SIZE (data p) hc hj).1 hfor hi
  · intro p hp c hc j hj hb
    obtain ⟨_, _, c0, C0⟩ := (R.rank p hp).boundary hc hj hb
    have sc := h.sameCell2 hp hc
    have nf := h.nonFlatS vm (h.phi_lt hp hc).1
    rw [ghostPoint_side2 sqrt trunc SIZE (data p) hc hj (sc.nonFlat.mpr nf) c0, ghostPoint_side2 sqrt trunc 1 serial sc.Lt hj nf C0, sc.center]
    obtain ⟨v1, v2⟩ := sc.vertS hj
    simp only [ghostcenter2]
    rw [v1 0 (by omega), v1 1 (by omega), v2 0 (by omega), v2 1 (by omega)]
  · intro F hF s hs
    have cG := (R.rank 0 (by have := h.hS; omega)).cG
    obtain ⟨hFl, hFB⟩ := (cG.bnd.2 F).mp hF
    obtain ⟨C, hC, j, hj, rfl⟩ := cG.fsurj F hFl
    rw [hn] at hC
    have hu : (users (build2 sqrt trunc 1 serial).faceid 3 (build2 sqrt trunc 1 serial).nbcells ((build2 sqrt trunc 1 serial).faceid C j)).length = 1 := by
      have h2 : (users (build2 sqrt trunc 1 serial).faceid 3 (build2 sqrt trunc 1 serial).nbcells ((build2 sqrt trunc 1 serial).faceid C j)).length ≤ 2 :=
        (R.rank 0 (by have := h.hS; omega)).sub.two ((build2 sqrt trunc 1 serial).faceid C j)
      have h0 : C ∈ users (build2 sqrt trunc 1 serial).faceid 3 (build2 sqrt trunc 1 serial).nbcells ((build2 sqrt trunc 1 serial).faceid C j) :=
        (mem_users _ _ _ _ _).mpr ⟨by rw [hn]; exact hC, j, hj, rfl⟩
      have hpos := List.length_pos_of_mem h0
      by_contra hne
      have := ((R.rank 0 (by have := h.hS; omega)).nameG _ hFl).1 (show (users (build2 sqrt trunc 1 serial).faceid 3 (build2 sqrt trunc 1 serial).nbcells ((build2 sqrt trunc 1 serial).faceid C j)).length = 2 by omega)
      rw [this] at hFB
      exact cG.B0 hFB
    obtain ⟨l1, l2, l3⟩ := h.side_lt hC hj
    have lab : SideLabels2 (labelOf node (sA serial C j)) (labelOf node (sB serial C j)) := by
      refine vm.label C hC _ _ _ (h.side_perm hC hj) ?_
      rintro c' hc' hne ⟨⟨i, hi, ei⟩, ⟨i', hi', ei'⟩⟩
      have ha : sA serial C j ∈ [nodeid c' 0, nodeid c' 1, nodeid c' 2] := by
        rw [← nodesOf3]; exact List.mem_map.mpr ⟨i, List.mem_range.mpr hi, ei⟩
      have hb : sB serial C j ∈ [nodeid c' 0, nodeid c' 1, nodeid c' 2] := by
        rw [← nodesOf3]; exact List.mem_map.mpr ⟨i', List.mem_range.mpr hi', ei'⟩
      have hop := orowG c' hc'
      obtain ⟨j', hj', hp⟩ := mem_side2_of (hop.symm.subset ha) (hop.symm.subset hb) (h.side_ne vm hC hj)
      have huse : (build2 sqrt trunc 1 serial).faceid c' j' = (build2 sqrt trunc 1 serial).faceid C j := by
        rw [C16_shared_face _ _ _ _ _ spec c' C j' j (by rw [hlen]; exact hc') (by rw [hlen]; exact hC) hj' hj]
        show (side2 _ _ _ j').Perm _
        rw [sid2_eq serial C j]
        exact hp.symm
      have m1 : c' ∈ users (build2 sqrt trunc 1 serial).faceid 3 (build2 sqrt trunc 1 serial).nbcells ((build2 sqrt trunc 1 serial).faceid C j) :=
        (mem_users _ _ _ _ _).mpr ⟨by rw [hn]; exact hc', j', hj', huse⟩
      have m2 : C ∈ users (build2 sqrt trunc 1 serial).faceid 3 (build2 sqrt trunc 1 serial).nbcells ((build2 sqrt trunc 1 serial).faceid C j) :=
        (mem_users _ _ _ _ _).mpr ⟨by rw [hn]; exact hC, j, hj, rfl⟩
      obtain ⟨a, e⟩ := List.length_eq_one_iff.mp hu
      rw [e, List.mem_singleton] at m1 m2
      exact hne (m1.trans m2.symm)
    have hx := (fnode_perm2 sqrt trunc 1 serial (c := C) (by rw [hlen]; exact hC) hj).subset hs
    rw [sid2_eq] at hx
    have old : ∀ s < nbnodes, (build2 sqrt trunc 1 serial).oldname s = (labelOf node s : Int) := by
      intro s hs
      show trunc (vtx serial s 3) = _
      rw [h.labelS hs, htr]
    obtain ⟨la, lb, _⟩ := lab
    simp only [List.mem_cons, List.not_mem_nil, or_false] at hx
    rcases hx with rfl | rfl
    · rw [old _ l1]; rcases la with e | e | e | e <;> rw [e] <;> decide
    · rw [old _ l2]; rcases lb with e | e | e | e <;> rw [e] <;> decide

end
end Verif.Props.Par
