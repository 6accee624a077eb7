import Verif.Props.Renum
import Verif.Props.Parallel3
import Verif.Props.JobRun
import Verif.Spec.Renum

/-! C124: the result of a run does not depend on the numbering of the nodes and cells of the mesh. -/
set_option linter.unusedSectionVars false
set_option linter.unusedVariables false
set_option linter.unusedSimpArgs false
namespace Verif.Props.Par
open Verif.Fvm Verif.Spec Verif.Conn Verif.Dom Verif.Geo Verif.Names Verif.MeshFile Verif.Part Verif.Comm Verif.Run

section
variable {K : Type*} [Field K] [LinearOrder K] [IsStrictOrderedRing K]
variable {nodeid nodeid' : Nat → Nat → Nat} {node node' : Nat → K × K × K × Nat} {nbnodes n : Nat} {σ g : Nat → Nat} {d1 : Nat}

theorem ren_surj (r : Renumbered d1 nodeid node nodeid' node' nbnodes n σ g) {C : Nat} (hC : C < n) : ∃ c < n, σ c = C := by
  have hm : Set.MapsTo σ (Finset.range n : Set Nat) (Finset.range n : Set Nat) := by
    intro c hc
    simp only [Finset.coe_range, Set.mem_Iio] at hc ⊢
    exact r.cell_lt c hc
  have hi : Set.InjOn σ (Finset.range n : Set Nat) := by
    intro c hc c' hc' e
    simp only [Finset.coe_range, Set.mem_Iio] at hc hc'
    exact r.cell_inj c hc c' hc' e
  obtain ⟨c, hc, e⟩ := (Finset.surjOn_of_injOn_of_card_le σ hm hi le_rfl) (show C ∈ (Finset.range n : Set Nat) by
    simp only [Finset.coe_range, Set.mem_Iio]; exact hC)
  simp only [Finset.coe_range, Set.mem_Iio] at hc
  exact ⟨c, hc, e⟩

theorem ren_uses (r : Renumbered d1 nodeid node nodeid' node' nbnodes n σ g) {c k : Nat} (hc : c < n) (hk : k < nbnodes) :
    Uses nodeid d1 (σ c) (g k) ↔ Uses nodeid' d1 c k := by
  constructor
  · rintro ⟨j, hj, e⟩
    rw [r.corner c hc j hj] at e
    exact ⟨j, hj, r.node_inj _ (r.corner_lt c hc j hj) _ hk e⟩
  · rintro ⟨j, hj, e⟩
    exact ⟨j, hj, by rw [r.corner c hc j hj, e]⟩

theorem ren_nodesOf (r : Renumbered d1 nodeid node nodeid' node' nbnodes n σ g) {c : Nat} (hc : c < n) :
    nodesOf nodeid d1 (σ c) = (nodesOf nodeid' d1 c).map g := by
  unfold nodesOf
  rw [List.map_map]
  apply List.map_congr_left
  intro j hj
  exact r.corner c hc j (List.mem_range.mp hj)

theorem ren_mem (r : Renumbered d1 nodeid node nodeid' node' nbnodes n σ g) {c : Nat} (hc : c < n) {l : List Nat}
    (hl : l.Perm (nodesOf nodeid' d1 c)) : ∀ x ∈ l, x < nbnodes := by
  intro x hx
  have := hl.subset hx
  unfold nodesOf at this
  obtain ⟨j, hj, rfl⟩ := List.mem_map.mp this
  exact r.corner_lt c hc j (List.mem_range.mp hj)

theorem ren_pos (r : Renumbered d1 nodeid node nodeid' node' nbnodes n σ g) {k : Nat} (hk : k < nbnodes) : pos node' k = pos node (g k) := by
  unfold pos; rw [r.point k hk]

theorem ren_label (r : Renumbered d1 nodeid node nodeid' node' nbnodes n σ g) {k : Nat} (hk : k < nbnodes) : labelOf node' k = labelOf node (g k) := by
  unfold labelOf; rw [r.point k hk]

theorem ren_used (r : Renumbered d1 nodeid node nodeid' node' nbnodes n σ g) (hu : ∀ k < nbnodes, ∃ c < n, Uses nodeid d1 c k) :
    ∀ k < nbnodes, ∃ c < n, Uses nodeid' d1 c k := by
  intro k hk
  obtain ⟨C, hC, hU⟩ := hu (g k) (r.node_lt k hk)
  obtain ⟨c, hc, rfl⟩ := ren_surj r hC
  exact ⟨c, hc, (ren_uses r hc hk).mp hU⟩

/-- A renumbering of a valid mesh is a valid mesh (2D). -/
theorem ren_valid2 (r : Renumbered 3 nodeid node nodeid' node' nbnodes n σ g) (vm : ValidMesh2 nodeid node nbnodes n) :
    ValidMesh2 nodeid' node' nbnodes n where
  nodes := r.corner_lt
  used := ren_used r vm.used
  area := by
    intro c hc
    have := vm.area (σ c) (r.cell_lt c hc)
    rw [r.corner c hc 0 (by omega), r.corner c hc 1 (by omega), r.corner c hc 2 (by omega)] at this
    rwa [ren_pos r (r.corner_lt c hc 0 (by omega)), ren_pos r (r.corner_lt c hc 1 (by omega)), ren_pos r (r.corner_lt c hc 2 (by omega))]
  opposite := by
    intro c hc c' hc' hne a b x y h1 h2
    have m1 := ren_mem r hc h1
    have m2 := ren_mem r hc' h2
    rw [ren_pos r (m1 a (by simp)), ren_pos r (m1 b (by simp)), ren_pos r (m1 x (by simp)), ren_pos r (m2 y (by simp))]
    refine vm.opposite (σ c) (r.cell_lt c hc) (σ c') (r.cell_lt c' hc') (fun e => hne (r.cell_inj c hc c' hc' e)) _ _ _ _ ?_ ?_
    · rw [ren_nodesOf r hc]; exact h1.map g
    · rw [ren_nodesOf r hc']; exact h2.map g
  label := by
    intro c hc a b x h1 h2
    have m1 := ren_mem r hc h1
    rw [ren_label r (m1 a (by simp)), ren_label r (m1 b (by simp))]
    refine vm.label (σ c) (r.cell_lt c hc) (g a) (g b) (g x) (by rw [ren_nodesOf r hc]; exact h1.map g) ?_
    intro C hC hne ⟨u1, u2⟩
    obtain ⟨c', hc', rfl⟩ := ren_surj r hC
    exact h2 c' hc' (fun e => hne (by rw [e])) ⟨(ren_uses r hc' (m1 a (by simp))).mp u1, (ren_uses r hc' (m1 b (by simp))).mp u2⟩

/-- A renumbering of a valid mesh is a valid mesh (3D). -/
theorem ren_valid3 (r : Renumbered 4 nodeid node nodeid' node' nbnodes n σ g) (vm : ValidMesh3 nodeid node nbnodes n) :
    ValidMesh3 nodeid' node' nbnodes n where
  nodes := r.corner_lt
  used := ren_used r vm.used
  volume := by
    intro c hc
    have := vm.volume (σ c) (r.cell_lt c hc)
    rw [r.corner c hc 0 (by omega), r.corner c hc 1 (by omega), r.corner c hc 2 (by omega), r.corner c hc 3 (by omega)] at this
    rwa [ren_pos r (r.corner_lt c hc 0 (by omega)), ren_pos r (r.corner_lt c hc 1 (by omega)), ren_pos r (r.corner_lt c hc 2 (by omega)),
      ren_pos r (r.corner_lt c hc 3 (by omega))]
  opposite := by
    intro c hc c' hc' hne a b d x y h1 h2
    have m1 := ren_mem r hc h1
    have m2 := ren_mem r hc' h2
    rw [ren_pos r (m1 a (by simp)), ren_pos r (m1 b (by simp)), ren_pos r (m1 d (by simp)), ren_pos r (m1 x (by simp)), ren_pos r (m2 y (by simp))]
    refine vm.opposite (σ c) (r.cell_lt c hc) (σ c') (r.cell_lt c' hc') (fun e => hne (r.cell_inj c hc c' hc' e)) _ _ _ _ _ ?_ ?_
    · rw [ren_nodesOf r hc]; exact h1.map g
    · rw [ren_nodesOf r hc']; exact h2.map g
  label := by
    intro c hc a b d x h1 h2
    have m1 := ren_mem r hc h1
    rw [ren_label r (m1 a (by simp)), ren_label r (m1 b (by simp)), ren_label r (m1 d (by simp))]
    refine vm.label (σ c) (r.cell_lt c hc) (g a) (g b) (g d) (g x) (by rw [ren_nodesOf r hc]; exact h1.map g) ?_
    intro C hC hne ⟨u1, u2, u3⟩
    obtain ⟨c', hc', rfl⟩ := ren_surj r hC
    exact h2 c' hc' (fun e => hne (by rw [e])) ⟨(ren_uses r hc' (m1 a (by simp))).mp u1, (ren_uses r hc' (m1 b (by simp))).mp u2,
      (ren_uses r hc' (m1 d (by simp))).mp u3⟩

variable {npart0 npart0' epart epart' : Nat → Nat} {SIZE SIZE' : Nat} {data data' : Nat → RankData K} {serial serial' : RankData K}

theorem ren_vtx {cv cv' : Nat → List K} (h : Launched d1 nodeid node cv npart0 epart nbnodes n SIZE data serial)
    (h' : Launched d1 nodeid' node' cv' npart0' epart' nbnodes n SIZE' data' serial')
    (r : Renumbered d1 nodeid node nodeid' node' nbnodes n σ g) {s : Nat} (hs : s < nbnodes) : ∀ k < 4, vtx serial' s k = vtx serial (g s) k := by
  intro k hk
  obtain ⟨a1, a2⟩ := h'.serial_cells.2.2.1 s hs
  obtain ⟨b1, b2⟩ := h.serial_cells.2.2.1 (g s) (r.node_lt s hs)
  unfold vtx
  by_cases h3 : k < 3
  · rw [a1 k h3, b1 k h3, ren_pos r hs]
  · obtain rfl : k = 3 := by omega
    rw [a2, b2, ren_label r hs]

theorem ren_sameCell2 {cv cv' : Nat → List K} (h : Launched 3 nodeid node cv npart0 epart nbnodes n SIZE data serial)
    (h' : Launched 3 nodeid' node' cv' npart0' epart' nbnodes n SIZE' data' serial')
    (r : Renumbered 3 nodeid node nodeid' node' nbnodes n σ g) {c : Nat} (hc : c < n) : SameCell serial' serial g c (σ c) := by
  have hC := r.cell_lt c hc
  refine ⟨by rw [h'.serial_cells.1]; exact hc, by rw [h.serial_cells.1]; exact hC, ?_, ?_⟩
  · rw [h.row2S hC, h'.row2S hc, r.corner c hc 0 (by omega), r.corner c hc 1 (by omega), r.corner c hc 2 (by omega)]
  · intro s hs
    apply ren_vtx h h' r
    rw [h'.row2S hc] at hs
    simp only [List.mem_cons, List.not_mem_nil, or_false] at hs
    rcases hs with rfl | rfl | rfl
    · exact r.corner_lt c hc 0 (by omega)
    · exact r.corner_lt c hc 1 (by omega)
    · exact r.corner_lt c hc 2 (by omega)

theorem ren_side_lt2 {cv' : Nat → List K} (h' : Launched 3 nodeid' node' cv' npart0' epart' nbnodes n SIZE' data' serial') {c j : Nat} (hc : c < n)
    (hj : j < 3) : ∀ x ∈ sid2 serial' c j, x < nbnodes := by
  intro x hx
  obtain ⟨l1, l2, _⟩ := h'.side_lt hc hj
  rw [sid2_eq] at hx
  simp only [List.mem_cons, List.not_mem_nil, or_false] at hx
  rcases hx with rfl | rfl
  · exact l1
  · exact l2

/-- The tables of the two numberings (2D). -/
theorem renum2 (h : Launched 3 nodeid node (centvol2 node nodeid) npart0 epart nbnodes n SIZE data serial)
    (h' : Launched 3 nodeid' node' (centvol2 node' nodeid') npart0' epart' nbnodes n SIZE' data' serial')
    (vm : ValidMesh2 nodeid node nbnodes n) (r : Renumbered 3 nodeid node nodeid' node' nbnodes n σ g)
    (sqrt : K → K) (trunc : K → Int) (htr : ∀ m : Nat, trunc (m : K) = m) :
    Renum (build2 sqrt trunc 1 serial') (build2 sqrt trunc 1 serial) 3 σ [1, 2, 3, 4] (out2 serial') (out2 serial) := by
  have vm' := ren_valid2 r vm
  have hn : (build2 sqrt trunc 1 serial).nbcells = n := h.serial_cells.1
  have hn' : (build2 sqrt trunc 1 serial').nbcells = n := h'.serial_cells.1
  have hS : 0 < SIZE := by have := h.hS; omega
  have hS' : 0 < SIZE' := by have := h'.hS; omega
  have RG := (h.rankOf2 vm sqrt trunc htr hS).whole
  have RL := (h'.rankOf2 vm' sqrt trunc htr hS').whole
  have bG := built2 sqrt trunc 1 serial (fun r hr => by rw [h.serial_cells.2.2.2] at hr; simp at hr)
  have bL := built2 sqrt trunc 1 serial' (fun r hr => by rw [h'.serial_cells.2.2.2] at hr; simp at hr)
  have hext1 : ∀ d : RankData K, extOf 1 d = [] := by intro d; unfold extOf; simp
  rw [hext1] at bG bL
  have B0 : (0 : Int) ∉ ([1, 2, 3, 4] : List Int) := by decide
  have B10 : (10 : Int) ∉ ([1, 2, 3, 4] : List Int) := by decide
  obtain ⟨_, nG⟩ := consistentG (h.meshPair2 vm sqrt trunc hS) bG B0 B10 (h.nm_boundary2 vm sqrt trunc htr)
  obtain ⟨_, nL⟩ := consistentG (h'.meshPair2 vm' sqrt trunc hS') bL B0 B10 (h'.nm_boundary2 vm' sqrt trunc htr)
  have same : ∀ c < n, ∀ c' < n, ∀ j < 3, ∀ j' < 3, ((build2 sqrt trunc 1 serial').faceid c j = (build2 sqrt trunc 1 serial').faceid c' j' ↔
      (build2 sqrt trunc 1 serial).faceid (σ c) j = (build2 sqrt trunc 1 serial).faceid (σ c') j') := by
    intro c hc c' hc' j hj j' hj'
    rw [C16_shared_face _ _ _ _ _ bL.faces c c' j j' (by rw [hn']; exact hc) (by rw [hn']; exact hc') hj hj',
      C16_shared_face _ _ _ _ _ bG.faces (σ c) (σ c') j j' (by rw [hn]; exact r.cell_lt c hc) (by rw [hn]; exact r.cell_lt c' hc') hj hj',
      (ren_sameCell2 h h' r hc).side, (ren_sameCell2 h h' r hc').side]
    refine (perm_map_inj g (fun x hx y hy e => r.node_inj x ?_ y ?_ e) (fun x hx y hy e => r.node_inj x ?_ y ?_ e)).symm
    · exact ren_side_lt2 h' hc hj x hx
    · exact ren_side_lt2 h' hc' hj' y hy
    · exact ren_side_lt2 h' hc hj x hx
    · exact ren_side_lt2 h' hc hj y hy
  have hcen : ∀ c < n, ∀ k < 3, (build2 sqrt trunc 1 serial').center c k = (build2 sqrt trunc 1 serial).center (σ c) k := by
    intro c hc k hk
    have sc := ren_sameCell2 h h' r hc
    rw [center_build2 _ _ _ _ sc.lt, center_build2 _ _ _ _ sc.Lt, sc.center]
  have hpm : ∀ c < n, ∀ j < 3, ∃ ε : K, (ε = 1 ∨ ε = -1) ∧ ∀ k < 3,
      (build2 sqrt trunc 1 serial').normal ((build2 sqrt trunc 1 serial').faceid c j) k =
        ε * (build2 sqrt trunc 1 serial).normal ((build2 sqrt trunc 1 serial).faceid (σ c) j) k := by
    intro c hc j hj
    obtain ⟨a, ha, h1⟩ := RL.normalG_pm (show c < (build2 sqrt trunc 1 serial').nbcells by rw [hn']; exact hc) hj
    obtain ⟨b, hb, h2⟩ := RG.normalG_pm (show σ c < (build2 sqrt trunc 1 serial).nbcells by rw [hn]; exact r.cell_lt c hc) hj
    refine ⟨a * b, by rcases ha with rfl | rfl <;> rcases hb with rfl | rfl <;> simp, fun k hk => ?_⟩
    rw [h1 k hk, h2 k hk, (ren_sameCell2 h h' r hc).out hj]
    rcases hb with rfl | rfl <;> ring
  refine ⟨RL, RG, by rw [hn, hn'], ?_, ?_, ?_, ?_, ?_, ?_, ?_, ?_, ?_⟩
  · intro c hc; rw [hn'] at hc; rw [hn]; exact r.cell_lt c hc
  · intro c hc c' hc' e; rw [hn'] at hc hc'; exact r.cell_inj c hc c' hc' e
  · intro c hc c' hc'; rw [hn'] at hc hc'; exact same c hc c' hc'
  · intro c hc; rw [hn'] at hc; exact hcen c hc
  · intro c hc j hj k hk
    rw [hn'] at hc
    have sc := ren_sameCell2 h h' r hc
    rw [fcenter_side2 _ _ _ _ sc.lt hj, fcenter_side2 _ _ _ _ sc.Lt hj]
    exact sc.fcenter hj k hk
  · intro c hc j hj k hk
    rw [hn'] at hc
    rw [(ren_sameCell2 h h' r hc).out hj]
  · intro c hc
    rw [hn'] at hc
    have sc := ren_sameCell2 h h' r hc
    rw [volume_build2 _ _ _ _ sc.lt, volume_build2 _ _ _ _ sc.Lt, sc.volume]
  · intro c hc j hj
    rw [hn'] at hc
    have sc := ren_sameCell2 h h' r hc
    obtain ⟨hf, _⟩ := face_perm2 sqrt trunc 1 serial' sc.lt hj
    obtain ⟨hF, _⟩ := face_perm2 sqrt trunc 1 serial sc.Lt hj
    obtain ⟨ε, hε, hnn⟩ := hpm c hc j hj
    rw [mesure_build2 _ _ _ _ hf, mesure_build2 _ _ _ _ hF]
    exact mesure2_even sqrt _ _ ε hε hnn
  · intro c hc j hj u1 u2
    rw [hn'] at hc
    have sc := ren_sameCell2 h h' r hc
    obtain ⟨v1, v2⟩ := sc.vertS hj
    rw [((nL _ (RL.cG.flt c (by rw [hn']; exact hc) j hj)).2 u1).2, ((nG _ (RG.cG.flt (σ c) (by rw [hn]; exact r.cell_lt c hc) j hj)).2 u2).2,
      nm2_side sqrt trunc 1 serial' sc.lt hj, nm2_side sqrt trunc 1 serial sc.Lt hj, v1 3 (by omega), v2 3 (by omega)]


theorem ren_sameCell3 {cv cv' : Nat → List K} (h : Launched 4 nodeid node cv npart0 epart nbnodes n SIZE data serial)
    (h' : Launched 4 nodeid' node' cv' npart0' epart' nbnodes n SIZE' data' serial')
    (r : Renumbered 4 nodeid node nodeid' node' nbnodes n σ g) {c : Nat} (hc : c < n) : SameCell3 serial' serial g c (σ c) := by
  have hC := r.cell_lt c hc
  refine ⟨by rw [h'.serial_cells.1]; exact hc, by rw [h.serial_cells.1]; exact hC, ?_, ?_⟩
  · rw [h.row3S hC, h'.row3S hc, r.corner c hc 0 (by omega), r.corner c hc 1 (by omega), r.corner c hc 2 (by omega), r.corner c hc 3 (by omega)]
  · intro s hs
    apply ren_vtx h h' r
    unfold lst3 at hs; rw [h'.row3S hc] at hs
    simp only [List.mem_cons, List.not_mem_nil, or_false] at hs
    rcases hs with rfl | rfl | rfl | rfl
    · exact r.corner_lt c hc 0 (by omega)
    · exact r.corner_lt c hc 1 (by omega)
    · exact r.corner_lt c hc 2 (by omega)
    · exact r.corner_lt c hc 3 (by omega)

theorem ren_side_lt3 {cv' : Nat → List K} (h' : Launched 4 nodeid' node' cv' npart0' epart' nbnodes n SIZE' data' serial') {c j : Nat} (hc : c < n)
    (hj : j < 4) : ∀ x ∈ sid3 serial' c j, x < nbnodes := by
  intro x hx
  obtain ⟨l1, l2, l3, _⟩ := h'.side_lt3 hc hj
  rw [sid3_eq] at hx
  simp only [List.mem_cons, List.not_mem_nil, or_false] at hx
  rcases hx with rfl | rfl | rfl
  · exact l1
  · exact l2
  · exact l3

/-- The tables of the two numberings (3D). -/
theorem renum3 (h : Launched 4 nodeid node (centvol3 node nodeid) npart0 epart nbnodes n SIZE data serial)
    (h' : Launched 4 nodeid' node' (centvol3 node' nodeid') npart0' epart' nbnodes n SIZE' data' serial')
    (vm : ValidMesh3 nodeid node nbnodes n) (r : Renumbered 4 nodeid node nodeid' node' nbnodes n σ g)
    (sqrt : K → K) (trunc : K → Int) (htr : ∀ m : Nat, trunc (m : K) = m) :
    Renum (build3 sqrt trunc 1 serial') (build3 sqrt trunc 1 serial) 4 σ [1, 2, 3, 4, 5, 6] (out3 serial') (out3 serial) := by
  have vm' := ren_valid3 r vm
  have hn : (build3 sqrt trunc 1 serial).nbcells = n := h.serial_cells.1
  have hn' : (build3 sqrt trunc 1 serial').nbcells = n := h'.serial_cells.1
  have hS : 0 < SIZE := by have := h.hS; omega
  have hS' : 0 < SIZE' := by have := h'.hS; omega
  have RG := (h.rankOf3 vm sqrt trunc htr hS).whole
  have RL := (h'.rankOf3 vm' sqrt trunc htr hS').whole
  have bG := built3 sqrt trunc 1 serial (fun r hr => by rw [h.serial_cells.2.2.2] at hr; simp at hr)
  have bL := built3 sqrt trunc 1 serial' (fun r hr => by rw [h'.serial_cells.2.2.2] at hr; simp at hr)
  have hext1 : ∀ d : RankData K, extOf 1 d = [] := by intro d; unfold extOf; simp
  rw [hext1] at bG bL
  have B0 : (0 : Int) ∉ ([1, 2, 3, 4, 5, 6] : List Int) := by decide
  have B10 : (10 : Int) ∉ ([1, 2, 3, 4, 5, 6] : List Int) := by decide
  obtain ⟨_, nG⟩ := consistentG (h.meshPair3 vm sqrt trunc hS) bG B0 B10 (h.nm_boundary3 vm sqrt trunc htr)
  obtain ⟨_, nL⟩ := consistentG (h'.meshPair3 vm' sqrt trunc hS') bL B0 B10 (h'.nm_boundary3 vm' sqrt trunc htr)
  have same : ∀ c < n, ∀ c' < n, ∀ j < 4, ∀ j' < 4, ((build3 sqrt trunc 1 serial').faceid c j = (build3 sqrt trunc 1 serial').faceid c' j' ↔
      (build3 sqrt trunc 1 serial).faceid (σ c) j = (build3 sqrt trunc 1 serial).faceid (σ c') j') := by
    intro c hc c' hc' j hj j' hj'
    rw [C16_shared_face _ _ _ _ _ bL.faces c c' j j' (by rw [hn']; exact hc) (by rw [hn']; exact hc') hj hj',
      C16_shared_face _ _ _ _ _ bG.faces (σ c) (σ c') j j' (by rw [hn]; exact r.cell_lt c hc) (by rw [hn]; exact r.cell_lt c' hc') hj hj',
      (ren_sameCell3 h h' r hc).side, (ren_sameCell3 h h' r hc').side]
    refine (perm_map_inj g (fun x hx y hy e => r.node_inj x ?_ y ?_ e) (fun x hx y hy e => r.node_inj x ?_ y ?_ e)).symm
    · exact ren_side_lt3 h' hc hj x hx
    · exact ren_side_lt3 h' hc' hj' y hy
    · exact ren_side_lt3 h' hc hj x hx
    · exact ren_side_lt3 h' hc hj y hy
  have hcen : ∀ c < n, ∀ k < 3, (build3 sqrt trunc 1 serial').center c k = (build3 sqrt trunc 1 serial).center (σ c) k := by
    intro c hc k hk
    have sc := ren_sameCell3 h h' r hc
    rw [center_build3 _ _ _ _ sc.lt, center_build3 _ _ _ _ sc.Lt]
    exact sc.cen k hk
  have hpm : ∀ c < n, ∀ j < 4, ∃ ε : K, (ε = 1 ∨ ε = -1) ∧ ∀ k < 3,
      (build3 sqrt trunc 1 serial').normal ((build3 sqrt trunc 1 serial').faceid c j) k =
        ε * (build3 sqrt trunc 1 serial).normal ((build3 sqrt trunc 1 serial).faceid (σ c) j) k := by
    intro c hc j hj
    obtain ⟨a, ha, h1⟩ := RL.normalG_pm (show c < (build3 sqrt trunc 1 serial').nbcells by rw [hn']; exact hc) hj
    obtain ⟨b, hb, h2⟩ := RG.normalG_pm (show σ c < (build3 sqrt trunc 1 serial).nbcells by rw [hn]; exact r.cell_lt c hc) hj
    refine ⟨a * b, by rcases ha with rfl | rfl <;> rcases hb with rfl | rfl <;> simp, fun k hk => ?_⟩
    rw [h1 k hk, h2 k hk, (ren_sameCell3 h h' r hc).out hj]
    rcases hb with rfl | rfl <;> ring
  refine ⟨RL, RG, by rw [hn, hn'], ?_, ?_, ?_, ?_, ?_, ?_, ?_, ?_, ?_⟩
  · intro c hc; rw [hn'] at hc; rw [hn]; exact r.cell_lt c hc
  · intro c hc c' hc' e; rw [hn'] at hc hc'; exact r.cell_inj c hc c' hc' e
  · intro c hc c' hc'; rw [hn'] at hc hc'; exact same c hc c' hc'
  · intro c hc; rw [hn'] at hc; exact hcen c hc
  · intro c hc j hj k hk
    rw [hn'] at hc
    have sc := ren_sameCell3 h h' r hc
    rw [fcenter_side3 _ _ _ _ sc.lt hj, fcenter_side3 _ _ _ _ sc.Lt hj]
    exact sc.fcenter hj k hk
  · intro c hc j hj k hk
    rw [hn'] at hc
    rw [(ren_sameCell3 h h' r hc).out hj]
  · intro c hc
    rw [hn'] at hc
    have sc := ren_sameCell3 h h' r hc
    rw [volume_build3 _ _ _ _ sc.lt, volume_build3 _ _ _ _ sc.Lt, sc.volume]
  · intro c hc j hj
    rw [hn'] at hc
    have sc := ren_sameCell3 h h' r hc
    obtain ⟨hf, _⟩ := face_perm3 sqrt trunc 1 serial' sc.lt hj
    obtain ⟨hF, _⟩ := face_perm3 sqrt trunc 1 serial sc.Lt hj
    obtain ⟨ε, hε, hnn⟩ := hpm c hc j hj
    rw [mesure_build3 _ _ _ _ hf, mesure_build3 _ _ _ _ hF]
    exact mesure3_even sqrt _ _ ε hε hnn
  · intro c hc j hj u1 u2
    rw [hn'] at hc
    have sc := ren_sameCell3 h h' r hc
    obtain ⟨v1, v2, v3⟩ := sc.vertS hj
    rw [((nL _ (RL.cG.flt c (by rw [hn']; exact hc) j hj)).2 u1).2, ((nG _ (RG.cG.flt (σ c) (by rw [hn]; exact r.cell_lt c hc) j hj)).2 u2).2,
      nm3_side sqrt trunc 1 serial' sc.lt hj, nm3_side sqrt trunc 1 serial sc.Lt hj, v1 3 (by omega), v2 3 (by omega), v3 3 (by omega)]

end
end Verif.Props.Par
