import Verif.Props.ParLaunch
import Verif.Props.ParGeom2

/-! Helper lemmas for the parallel theorems (2D): the tables of a rank of a parallel run against those of the serial run. -/
set_option linter.unusedSectionVars false
set_option linter.unusedVariables false
set_option linter.unusedSimpArgs false
namespace Verif.Props.Par
open Verif.Fvm Verif.Spec Verif.Conn Verif.Dom Verif.Geo Verif.Names Verif.MeshFile Verif.Part Verif.Comm
variable {K : Type*} [Field K] [LinearOrder K] [IsStrictOrderedRing K]

theorem name2_symm (a b : Int) : name2 a b = name2 b a := by
  have e : ∀ v : Int, ((b = v ∧ a ≠ 0) ∨ (b ≠ 0 ∧ a = v)) ↔ ((a = v ∧ b ≠ 0) ∨ (a ≠ 0 ∧ b = v)) := fun v => by tauto
  unfold name2
  simp only [e]
  by_cases h : a = b
  · rw [if_pos h, if_pos h.symm, h]
  · have h' : ¬ b = a := fun e' => h e'.symm
    simp only [h, h', if_false]

theorem nm2_side (sqrt : K → K) (trunc : K → Int) (size : Nat) (d : RankData K) {c j : Nat} (hc : c < d.nodeid.length) (hj : j < 3) :
    nm2 trunc d ((build2 sqrt trunc size d).faceid c j) = name2 (trunc (vtx d (sA d c j) 3)) (trunc (vtx d (sB d c j) 3)) := by
  obtain ⟨_, hp⟩ := face_perm2 sqrt trunc size d hc hj
  unfold nm2
  rcases perm2 hp with ⟨h1, h2⟩ | ⟨h1, h2⟩
  · rw [h1, h2]
  · rw [h1, h2]; exact name2_symm _ _

theorem name2_sides {a b : Nat} (h : SideLabels2 a b) : name2 (a : Int) (b : Int) ∈ ([1, 2, 3, 4] : List Int) := by
  obtain ⟨ha, hb, hab⟩ := h
  rcases ha with rfl | rfl | rfl | rfl <;> rcases hb with rfl | rfl | rfl | rfl <;> first | (exfalso; omega) | decide

theorem mem_side2_of {x y z a b : Nat} (ha : a ∈ [x, y, z]) (hb : b ∈ [x, y, z]) (hne : a ≠ b) : ∃ j < 3, [a, b].Perm (side2 x y z j) := by
  simp only [List.mem_cons, List.not_mem_nil, or_false] at ha hb
  rcases ha with rfl | rfl | rfl <;> rcases hb with rfl | rfl | rfl <;> first
    | exact absurd rfl hne
    | exact ⟨0, by omega, List.Perm.refl _⟩
    | exact ⟨1, by omega, List.Perm.refl _⟩
    | exact ⟨2, by omega, List.Perm.refl _⟩
    | exact ⟨0, by omega, List.Perm.swap _ _ _⟩
    | exact ⟨1, by omega, List.Perm.swap _ _ _⟩
    | exact ⟨2, by omega, List.Perm.swap _ _ _⟩

theorem signedArea_distinct {v : Nat → Vec K} {a b c : Nat} (h : signedArea (v a) (v b) (v c) ≠ 0) : a ≠ b ∧ b ≠ c ∧ a ≠ c := by
  refine ⟨?_, ?_, ?_⟩ <;> (rintro rfl; apply h; unfold signedArea; ring)

section
variable {nodeid : Nat → Nat → Nat} {node : Nat → K × K × K × Nat} {cv : Nat → List K} {npart0 epart : Nat → Nat}
  {nbnodes n SIZE : Nat} {data : Nat → RankData K} {serial : RankData K}

theorem Launched.row2S (h : Launched 3 nodeid node cv npart0 epart nbnodes n SIZE data serial) {C : Nat} (hC : C < n) :
    row2 serial C = (nodeid C 0, nodeid C 1, nodeid C 2) := by
  have := h.serial_cells.2.1 C hC
  unfold row2
  rw [this 0 (by omega), this 1 (by omega), this 2 (by omega)]

theorem nodesOf3 (nodeid : Nat → Nat → Nat) (C : Nat) : nodesOf nodeid 3 C = [nodeid C 0, nodeid C 1, nodeid C 2] := rfl

theorem Launched.area_eq (h : Launched 3 nodeid node cv npart0 epart nbnodes n SIZE data serial) {a b c : Nat} (ha : a < nbnodes)
    (hb : b < nbnodes) (hc : c < nbnodes) :
    signedArea (vtx serial a) (vtx serial b) (vtx serial c) = signedArea (pos node a) (pos node b) (pos node c) := by
  have hs := h.serial_cells.2.2.1
  unfold signedArea vtx
  rw [(hs a ha).1 0 (by omega), (hs a ha).1 1 (by omega), (hs b hb).1 0 (by omega), (hs b hb).1 1 (by omega), (hs c hc).1 0 (by omega),
    (hs c hc).1 1 (by omega)]

theorem Launched.nonFlatS (h : Launched 3 nodeid node cv npart0 epart nbnodes n SIZE data serial) (vm : ValidMesh2 nodeid node nbnodes n)
    {C : Nat} (hC : C < n) : NonFlat serial C := by
  unfold NonFlat
  rw [h.row2S hC, h.area_eq (vm.nodes C hC 0 (by omega)) (vm.nodes C hC 1 (by omega)) (vm.nodes C hC 2 (by omega))]
  exact vm.area C hC

theorem Launched.side_perm (h : Launched 3 nodeid node cv npart0 epart nbnodes n SIZE data serial) {C : Nat} (hC : C < n) {j : Nat}
    (hj : j < 3) : [sA serial C j, sB serial C j, sO serial C j].Perm (nodesOf nodeid 3 C) := by
  have := Par.side_perm serial (c := C) (by rw [h.serial_cells.1]; exact hC) hj
  rw [h.row2S hC] at this; exact this

theorem Launched.side_lt (h : Launched 3 nodeid node cv npart0 epart nbnodes n SIZE data serial) {C : Nat} (hC : C < n) {j : Nat}
    (hj : j < 3) : sA serial C j < nbnodes ∧ sB serial C j < nbnodes ∧ sO serial C j < nbnodes := by
  have hp := h.side_perm hC hj
  have key : ∀ x ∈ nodesOf nodeid 3 C, x < nbnodes := by
    intro x hx
    obtain ⟨k, hk, rfl⟩ := List.mem_map.mp hx
    exact h.hnode C hC k (List.mem_range.mp hk)
  exact ⟨key _ (hp.subset (by simp)), key _ (hp.subset (by simp)), key _ (hp.subset (by simp))⟩

theorem Launched.side_ne (h : Launched 3 nodeid node cv npart0 epart nbnodes n SIZE data serial) (vm : ValidMesh2 nodeid node nbnodes n)
    {C : Nat} (hC : C < n) {j : Nat} (hj : j < 3) : sA serial C j ≠ sB serial C j := by
  have h1 := signedArea_perm_ne (vtx serial) _ _ _ _ _ _ (Par.side_perm serial (c := C) (by rw [h.serial_cells.1]; exact hC) hj) (h.nonFlatS vm hC)
  exact (signedArea_distinct h1).1

/-- Two cells with a common side lie on opposite sides of it. -/
theorem Launched.opp (h : Launched 3 nodeid node cv npart0 epart nbnodes n SIZE data serial) (vm : ValidMesh2 nodeid node nbnodes n)
    {C C' j j' : Nat} (hC : C < n) (hC' : C' < n) (hne : C ≠ C') (hj : j < 3) (hj' : j' < 3)
    (hp : (sid2 serial C j).Perm (sid2 serial C' j')) :
    signedArea (vtx serial (sA serial C j)) (vtx serial (sB serial C j)) (vtx serial (sO serial C j)) *
      signedArea (vtx serial (sA serial C j)) (vtx serial (sB serial C j)) (vtx serial (sO serial C' j')) < 0 := by
  obtain ⟨l1, l2, l3⟩ := h.side_lt hC hj
  obtain ⟨_, _, l3'⟩ := h.side_lt hC' hj'
  rw [h.area_eq l1 l2 l3, h.area_eq l1 l2 l3']
  refine vm.opposite C hC C' hC' hne _ _ _ _ (h.side_perm hC hj) ?_
  refine List.Perm.trans ?_ (h.side_perm hC' hj')
  rw [sid2_eq, sid2_eq] at hp
  have : ∀ x y z : Nat, [x, y, z] = [x, y] ++ [z] := fun _ _ _ => rfl
  rw [this, this]; exact hp.append_right _

theorem Launched.sameCell2 (h : Launched 3 nodeid node cv npart0 epart nbnodes n SIZE data serial) {p : Nat} (hp : p < SIZE) {c : Nat}
    (hc : c < (data p).nodeid.length) : SameCell (data p) serial (gOf (data p)) c (phi (data p) c) := by
  have hC := (h.phi_lt hp hc).1
  have hl := fun j (hj : j < 3) => h.local_nodes hp hc hj
  refine ⟨hc, by rw [h.serial_cells.1]; exact hC, ?_, ?_⟩
  · rw [h.row2S hC]
    unfold row2 gOf
    rw [(hl 0 (by omega)).1, (hl 1 (by omega)).1, (hl 2 (by omega)).1]
  · intro s hs k hk
    simp only [List.mem_cons, List.not_mem_nil, or_false, row2] at hs
    unfold vtx gOf
    rcases hs with rfl | rfl | rfl
    · rw [(hl 0 (by omega)).2.2 k hk, (hl 0 (by omega)).1]
    · rw [(hl 1 (by omega)).2.2 k hk, (hl 1 (by omega)).1]
    · rw [(hl 2 (by omega)).2.2 k hk, (hl 2 (by omega)).1]

theorem Launched.node_mem (h : Launched 3 nodeid node cv npart0 epart nbnodes n SIZE data serial) {p : Nat} (hp : p < SIZE) {c : Nat}
    (hc : c < (data p).nodeid.length) {j : Nat} (hj : j < 3) {x : Nat} (hx : x ∈ sid2 (data p) c j) :
    ∃ i < 3, x = at2 0 (data p).nodeid c i := by
  have hp3 := Par.side_perm (data p) hc hj
  rw [sid2_eq] at hx
  have : x ∈ [(row2 (data p) c).1, (row2 (data p) c).2.1, (row2 (data p) c).2.2] := by
    apply hp3.subset
    simp only [List.mem_cons, List.not_mem_nil, or_false] at hx ⊢
    tauto
  simp only [List.mem_cons, List.not_mem_nil, or_false, row2] at this
  rcases this with e | e | e
  · exact ⟨0, by omega, e⟩
  · exact ⟨1, by omega, e⟩
  · exact ⟨2, by omega, e⟩

theorem Launched.isSide2 (h : Launched 3 nodeid node cv npart0 epart nbnodes n SIZE data serial) {C : Nat} (hC : C < n) (face : List Nat) :
    IsSide 2 ((List.range 3).map (nodeid C)) face ↔ ∃ j < 3, face.Perm (sid2 serial C j) := by
  have ho := orow2_eq serial (i := C) (by rw [h.serial_cells.1]; exact hC)
  rw [h.row2S hC] at ho
  have hr : (List.range 3).map (nodeid C) = [nodeid C 0, nodeid C 1, nodeid C 2] := rfl
  rw [hr]
  generalize nodeid C 0 = a at *
  generalize nodeid C 1 = b at *
  generalize nodeid C 2 = e at *
  have key : ∀ x y : Nat, IsSide 2 [a, b, e] [x, y] ↔ ∃ j < 3, [x, y].Perm (sid2 serial C j) := by
    intro x y
    rw [Props.isSide2]
    constructor
    · rintro ⟨key, hk, hm⟩
      simp only [List.mem_cons, List.not_mem_nil, or_false] at hk hm
      have hpk : [x, y].Perm key := by
        rcases hk with rfl | rfl
        · exact List.Perm.refl _
        · exact List.Perm.swap _ _ _
      unfold sid2
      rcases orient2_cases (vtx serial) a b e with ho' | ho' <;> rw [ho'] at ho <;> rw [ho]
      · rcases hm with rfl | rfl | rfl
        · exact ⟨2, by omega, hpk.trans (List.Perm.swap _ _ _)⟩
        · exact ⟨1, by omega, hpk.trans (List.Perm.swap _ _ _)⟩
        · exact ⟨0, by omega, hpk⟩
      · rcases hm with rfl | rfl | rfl
        · exact ⟨0, by omega, hpk⟩
        · exact ⟨1, by omega, hpk⟩
        · exact ⟨2, by omega, hpk.trans (List.Perm.swap _ _ _)⟩
    · rintro ⟨j, hj, hpj⟩
      unfold sid2 at hpj
      rcases orient2_cases (vtx serial) a b e with ho' | ho' <;> rw [ho'] at ho <;> rw [ho] at hpj <;>
        interval_cases j <;> simp only [side2] at hpj <;> rcases perm2 hpj with ⟨rfl, rfl⟩ | ⟨rfl, rfl⟩ <;> simp
  constructor
  · rintro ⟨s, h1, h2, h3⟩
    match face, h3.length_eq.trans h2 with
    | [x, y], _ => exact (key x y).mp ⟨s, h1, h2, h3⟩
  · rintro ⟨j, hj, hpj⟩
    have hl := hpj.length_eq
    rw [sid2_eq] at hl
    match face, hl with
    | [x, y], _ => exact (key x y).mpr ⟨j, hj, hpj⟩

/-- The tables of rank `p` and of the serial run, as far as cells, faces and halo cells are concerned. -/
theorem Launched.meshPair2 (h : Launched 3 nodeid node cv npart0 epart nbnodes n SIZE data serial) (vm : ValidMesh2 nodeid node nbnodes n)
    (sqrt : K → K) (trunc : K → Int) {p : Nat} (hp : p < SIZE) :
    MeshPair (build2 sqrt trunc SIZE (data p)) (build2 sqrt trunc 1 serial) 3 2 (sid2 (data p)) (sid2 serial) nodeid (phi (data p))
      (gOf (data p)) (fun C => epart C = p) (extOf SIZE (data p)) := by
  have hn : (build2 sqrt trunc 1 serial).nbcells = n := h.serial_cells.1
  have hL : (build2 sqrt trunc SIZE (data p)).nbcells = (data p).nodeid.length := rfl
  have hext : extOf SIZE (data p) = (data p).halosext := by unfold extOf; rw [if_pos h.hS]
  refine ⟨?_, ?_, ?_, ?_, ?_, ?_, ?_, ?_, ?_, ?_⟩
  · intro c hc; rw [hn]; exact h.phi_lt hp hc
  · intro c c' hcc hc'; exact h.phi_mono hp c c' hcc hc'
  · intro C hC hm; rw [hn] at hC; exact h.phi_surj hp C hC hm
  · intro c hc j hj; exact (h.sameCell2 hp hc).side j
  · intro c hc c' hc' j hj j' hj' x hx y hy e
    obtain ⟨i, hi, rfl⟩ := h.node_mem hp hc hj hx
    obtain ⟨i', hi', rfl⟩ := h.node_mem hp hc' hj' hy
    have l1 := h.local_nodes hp hc hi
    have l2 := h.local_nodes hp hc' hi'
    unfold gOf at e
    rw [l1.1, l2.1] at e
    rw [l1.2.1, l2.2.1, e]
  · intro C hC face; rw [hn] at hC; exact h.isSide2 hC face
  · intro row hr
    rw [hext] at hr
    obtain ⟨c, h1, h2, h3, _⟩ := (h.ext_rows hp row).mp hr
    exact ⟨c, h1, by rw [hn]; exact h2, h3⟩
  · intro E hE hm C hC hmC j hj j' hj' hpm
    rw [hn] at hE hC
    rw [hext]
    refine (h.ext_rows hp _).mpr ⟨E, rfl, hE, hm, sA serial E j, ?_, Or.inr ⟨C, hC, hmC, ?_⟩⟩
    · have : sA serial E j ∈ nodesOf nodeid 3 E := (h.side_perm hE hj).subset (by simp)
      obtain ⟨k, hk, e⟩ := List.mem_map.mp this
      exact ⟨k, List.mem_range.mp hk, e⟩
    · have h1 : sA serial E j ∈ sid2 serial C j' := hpm.subset (by rw [sid2_eq]; simp)
      have : sA serial E j ∈ nodesOf nodeid 3 C := by
        apply (h.side_perm hC hj').subset
        rw [sid2_eq] at h1
        simp only [List.mem_cons, List.not_mem_nil, or_false] at h1 ⊢
        tauto
      obtain ⟨k, hk, e⟩ := List.mem_map.mp this
      exact ⟨k, List.mem_range.mp hk, e⟩
  · intro a ha b hb c hc h1 h2 h3 ja hja jb hjb jc hjc p1 p2
    rw [hn] at ha hb hc
    have s1 := h.opp vm ha hb h1 hja hjb p1
    have s2 := h.opp vm ha hc h2 hja hjc p2
    obtain ⟨lA, lB, lO⟩ := h.side_lt ha hja
    have s3 : signedArea (vtx serial (sA serial a ja)) (vtx serial (sB serial a ja)) (vtx serial (sO serial b jb)) *
        signedArea (vtx serial (sA serial a ja)) (vtx serial (sB serial a ja)) (vtx serial (sO serial c jc)) < 0 := by
      rw [h.area_eq lA lB (h.side_lt hb hjb).2.2, h.area_eq lA lB (h.side_lt hc hjc).2.2]
      have e3 : ∀ x y z : Nat, [x, y, z] = [x, y] ++ [z] := fun _ _ _ => rfl
      rw [sid2_eq, sid2_eq] at p1 p2
      refine vm.opposite b hb c hc h3 _ _ _ _ ?_ ?_
      · refine List.Perm.trans ?_ (h.side_perm hb hjb); rw [e3, e3]; exact p1.append_right _
      · refine List.Perm.trans ?_ (h.side_perm hc hjc); rw [e3, e3]; exact p2.append_right _
    rcases mul_neg_iff.mp s1 with ⟨x1, x2⟩ | ⟨x1, x2⟩ <;> rcases mul_neg_iff.mp s2 with ⟨y1, y2⟩ | ⟨y1, y2⟩ <;>
      rcases mul_neg_iff.mp s3 with ⟨z1, z2⟩ | ⟨z1, z2⟩ <;> linarith
  · intro C hC j hj j' hj' hpm
    rw [hn] at hC
    have hnf := signedArea_perm_ne (vtx serial) _ _ _ _ _ _ (orow2_perm serial (c := C) (by rw [h.serial_cells.1]; exact hC)) (h.nonFlatS vm hC)
    obtain ⟨d1, d2, d3⟩ := signedArea_distinct hnf
    unfold sid2 at hpm
    interval_cases j <;> interval_cases j' <;> first
      | rfl
      | (exfalso
         simp only [side2] at hpm
         rcases perm2 hpm with ⟨e1, e2⟩ | ⟨e1, e2⟩ <;> first
           | exact d1 e1 | exact d1 e2 | exact d2 e1 | exact d2 e2 | exact d3 e1 | exact d3 e2
           | exact d1 e1.symm | exact d1 e2.symm | exact d2 e1.symm | exact d2 e2.symm | exact d3 e1.symm | exact d3 e2.symm)

end
end Verif.Props.Par
