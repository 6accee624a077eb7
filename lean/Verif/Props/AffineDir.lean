import Verif.Props.Affine
import Verif.Props.DarcyBounds

/-!
# C128, continued: the potential prescribed on the whole boundary

Conditions on the mesh under which a linear potential prescribed on all sides is returned exactly, meshes meeting them, and a mesh (one right
triangle) on which a linear potential prescribed on all sides is not returned.
-/
set_option linter.unusedSectionVars false
set_option linter.unusedVariables false
set_option linter.unusedSimpArgs false
namespace Verif.Props.Par
open Verif.Fvm Verif.Spec Verif.Conn Verif.Dom Verif.Geo Verif.Names Verif.MeshFile Verif.Part Verif.Comm Verif.Run Verif.HaloGhost Verif.Interp
open Verif.LinSolve (ReadsRows SolvedWith InPlace)

section
variable {K : Type*} [Field K] [LinearOrder K] [IsStrictOrderedRing K]
variable {dim : Nat} {nodeid : Nat → Nat → Nat} {node : Nat → K × K × K × Nat} {cv : Nat → List K} {npart0 epart : Nat → Nat}
  {nbnodes n SIZE : Nat} {data : Nat → RankData K} {serial : RankData K} {L : Nat → Tables K} {G : Tables K} {B : List Int}
  {out : Nat → Nat → Vec K} {trunc : K → Int}

/-- A boundary face belongs to one cell only. -/
theorem outer_only (h : NodePair dim nodeid node cv npart0 epart nbnodes n SIZE data serial L G B out trunc) {F : Nat} (hF : F ∈ G.boundaryfaces) :
    ∃ C < n, ∃ j < dim + 1, F = G.faceid C j ∧ G.cellid F 0 = (C : Int) ∧ ∀ c' < n, c' ≠ C → ¬ ∀ x ∈ G.fnode F, Uses nodeid (dim + 1) c' x := by
  have h0 : 0 < SIZE := by have := h.run.hS; omega
  have R := h.run.rank 0 h0
  obtain ⟨C, hC, j, hj, rfl⟩ := R.cG.fsurj F ((R.cG.bnd.2 F).mp hF).1
  have hCn : C < n := h.run.nG ▸ hC
  rcases R.gkinds hC hj with ⟨_, _, _, e⟩ | ⟨_, _, _, _, _, k, _⟩
  · refine ⟨C, hCn, j, hj, rfl, e, fun c' hc' hne hall => ?_⟩
    obtain ⟨j', hj', pj⟩ := h.faceG c' hc' _ (h.fnodeG C hCn j hj).1 (h.fnodeG C hCn j hj).2.1 hall
    have he := h.faceG_eq C hCn c' hc' j hj j' hj' pj
    rw [he] at hF e
    rcases R.gkinds (show c' < G.nbcells from h.run.nG ▸ hc') hj' with ⟨_, _, _, e'⟩ | ⟨_, _, _, _, _, k, _⟩
    · rw [e'] at e; exact hne (by exact_mod_cast e)
    · exact k hF
  · exact absurd hF k

/-- A face of one cell only is a boundary face. -/
theorem boundary_of_only (h : NodePair dim nodeid node cv npart0 epart nbnodes n SIZE data serial L G B out trunc) {C : Nat} (hC : C < n) (f : List Nat)
    (hf : f.Nodup) (hl : f.length = dim) (hu : ∀ x ∈ f, Uses nodeid (dim + 1) C x) (ho : ∀ c' < n, c' ≠ C → ¬ ∀ x ∈ f, Uses nodeid (dim + 1) c' x) :
    ∃ j < dim + 1, G.faceid C j ∈ G.boundaryfaces := by
  have h0 : 0 < SIZE := by have := h.run.hS; omega
  have R := h.run.rank 0 h0
  have hCG : C < G.nbcells := h.run.nG ▸ hC
  obtain ⟨j, hj, pj⟩ := h.faceG C hC f hf hl hu
  refine ⟨j, hj, ?_⟩
  rcases R.gkinds hCG hj with ⟨_, hb, _, _⟩ | ⟨E, hE, hEC, _, _, _, hcell⟩
  · exact hb
  · exfalso
    have hF := R.cG.flt C hCG j hj
    have hu : Uses G.faceid (dim + 1) E (G.faceid C j) := by
      obtain ⟨a, ha, ea, ua⟩ := users_first (R.cG.users_ne hF)
      obtain ⟨b, hb, eb, ub⟩ := users_second (R.cG.name0 _ hF ‹_›)
      rcases hcell with ⟨_, e⟩ | ⟨e, _⟩
      · rw [R.cG.cell1 _ hF ‹_›, eb] at e
        obtain rfl : b = E := by exact_mod_cast e
        exact ub
      · rw [R.cG.cell0 _ hF, ea] at e
        obtain rfl : a = E := by exact_mod_cast e
        exact ua
    obtain ⟨i, hi, e⟩ := hu
    have hEn : E < n := h.run.nG ▸ hE
    have hall := (h.fnodeG E hEn i hi).2.2
    rw [e] at hall
    exact ho E hEn hEC fun x hx => hall x (pj.subset hx)

/-- The condition on the foot of the perpendicular, without the foot. -/
theorem foot_of {dim : Nat} {N w g q fc c : Vec K} {t : K} (hN : ∑ k ∈ Finset.range dim, N k ^ 2 ≠ 0) (hw : ∀ k < dim, w k = c k - fc k)
    (hq : ∑ k ∈ Finset.range dim, N k * (q k - fc k) = 0) (ht : ∀ k < dim, q k - c k = t * N k)
    (he : (∑ k ∈ Finset.range dim, g k * w k) * (∑ k ∈ Finset.range dim, N k ^ 2) = (∑ k ∈ Finset.range dim, w k * N k) * ∑ k ∈ Finset.range dim, g k * N k) :
    ∑ k ∈ Finset.range dim, g k * (q k - fc k) = 0 := by
  have e1 : ∑ k ∈ Finset.range dim, N k * (q k - fc k) = (∑ k ∈ Finset.range dim, w k * N k) + t * ∑ k ∈ Finset.range dim, N k ^ 2 := by
    rw [Finset.mul_sum, ← Finset.sum_add_distrib]
    refine Finset.sum_congr rfl fun k hk => ?_
    rw [hw k (Finset.mem_range.mp hk), show q k - fc k = (q k - c k) + (c k - fc k) by ring, ht k (Finset.mem_range.mp hk)]; ring
  have e2 : ∑ k ∈ Finset.range dim, g k * (q k - fc k) = (∑ k ∈ Finset.range dim, g k * w k) + t * ∑ k ∈ Finset.range dim, g k * N k := by
    rw [Finset.mul_sum, ← Finset.sum_add_distrib]
    refine Finset.sum_congr rfl fun k hk => ?_
    rw [hw k (Finset.mem_range.mp hk), show q k - fc k = (q k - c k) + (c k - fc k) by ring, ht k (Finset.mem_range.mp hk)]; ring
  rw [e1] at hq
  rw [e2]
  refine (mul_eq_zero.mp ?_).resolve_right hN
  linear_combination he + (∑ k ∈ Finset.range dim, g k * N k) * hq

end

section
variable {K : Type*} [Field K] [LinearOrder K] [IsStrictOrderedRing K]
variable {nodeid : Nat → Nat → Nat} {node : Nat → K × K × K × Nat} {npart0 epart : Nat → Nat}
  {nbnodes n SIZE : Nat} {data : Nat → RankData K} {serial : RankData K}

theorem foot2 (h : Launched 3 nodeid node (centvol2 node nodeid) npart0 epart nbnodes n SIZE data serial)
    (vm : ValidMesh2 nodeid node nbnodes n) (sqrt : K → K) (hs : ∀ x, 0 < x → sqrt x ≠ 0) (trunc : K → Int) (htr : ∀ m : Nat, trunc (m : K) = m)
    (g : Vec K) (hev : EvenSides2 nodeid node n g) {F : Nat} (hF : F ∈ (build2 sqrt trunc 1 serial).boundaryfaces) {q : Vec K}
    (hq : ∑ k ∈ Finset.range 2, (build2 sqrt trunc 1 serial).normal F k * (q k - (build2 sqrt trunc 1 serial).fcenter F k) = 0)
    (ht : ∃ t, ∀ k < 2, q k - (build2 sqrt trunc 1 serial).center (idx ((build2 sqrt trunc 1 serial).cellid F 0)) k = t * (build2 sqrt trunc 1 serial).normal F k) :
    ∑ k ∈ Finset.range 2, g k * (q k - (build2 sqrt trunc 1 serial).fcenter F k) = 0 := by
  have np := h.nodePair2 vm sqrt trunc htr
  obtain ⟨C, hC, j, hj, rfl, e0, ho⟩ := outer_only np hF
  obtain ⟨t, ht⟩ := ht
  rw [e0, idx_cast] at ht
  have hl : C < serial.nodeid.length := by rw [h.serial_cells.1]; exact hC
  have hCG : C < (build2 sqrt trunc 1 serial).nbcells := np.run.nG ▸ hC
  have hne := h.nonFlatS vm hC
  have hN := normal_first2 sqrt trunc 1 serial hl hj hne e0
  have hpm := fnode_perm2 sqrt trunc 1 serial hl hj
  rw [sid2_eq] at hpm
  have sp := side_perm serial hl hj
  rw [h.row2S hC] at sp
  have hev := hev C hC _ _ _ sp fun c' hc' hn ⟨u1, u2⟩ => ho c' hc' hn fun x hx => by
    have := hpm.subset hx
    simp at this
    rcases this with rfl | rfl
    · exact u1
    · exact u2
  have hin : ∀ s ∈ [sA serial C j, sB serial C j, sO serial C j], ∀ k < 3, vtx serial s k = pos node s k := by
    intro s hs
    have := sp.subset hs
    have hlt : s < nbnodes := by
      simp at this
      rcases this with rfl | rfl | rfl
      · exact vm.nodes C hC 0 (by omega)
      · exact vm.nodes C hC 1 (by omega)
      · exact vm.nodes C hC 2 (by omega)
    exact (h.serial_cells.2.2.1 s hlt).1
  have vA := hin (sA serial C j) (by simp)
  have vB := hin (sB serial C j) (by simp)
  have vO := hin (sO serial C j) (by simp)
  have hbig := (h.solid2 vm sqrt hs trunc htr).big C hCG j hj
  rw [out2_third] at hbig
  have hcen : ∀ k < 2, (build2 sqrt trunc 1 serial).center C k = (vtx serial (sA serial C j) k + vtx serial (sB serial C j) k + vtx serial (sO serial C j) k) / 3 := by
    intro k hk
    have hsum := (sp.map (fun s => vtx serial s k)).sum_eq
    simp only [List.map_cons, List.map_nil, List.sum_cons, List.sum_nil] at hsum
    rw [center_build2 sqrt trunc 1 serial hl, h.row2S hC]
    interval_cases k <;> simp only [center2] <;> linear_combination (-1 / 3 : K) * hsum
  refine foot_of (N := (build2 sqrt trunc 1 serial).normal ((build2 sqrt trunc 1 serial).faceid C j))
    (w := fun k => (build2 sqrt trunc 1 serial).center C k - (build2 sqrt trunc 1 serial).fcenter ((build2 sqrt trunc 1 serial).faceid C j) k)
    ?_ (fun k _ => rfl) hq ht ?_
  · rw [hN]
    simp only [Finset.sum_range_succ, Finset.sum_range_zero, zero_add]
    intro hz; rw [hz] at hbig; simp at hbig
  · obtain ⟨s, hs2, m0, m1⟩ : ∃ s : K, s ^ 2 = 1 ∧ out2 serial C j 0 = s * (pos node (sA serial C j) 1 - pos node (sB serial C j) 1) ∧
        out2 serial C j 1 = s * (pos node (sB serial C j) 0 - pos node (sA serial C j) 0) := by
      rw [← vA 1 (by omega), ← vB 1 (by omega), ← vA 0 (by omega), ← vB 0 (by omega)]
      unfold out2; rw [orientedNormal2_eq]; split
      · exact ⟨-1, by norm_num, rfl, rfl⟩
      · exact ⟨1, by norm_num, by simp [rawNormal2], by simp [rawNormal2]⟩
    rw [hN, fcenter_side2 sqrt trunc 1 serial hl hj]
    simp only [Finset.sum_range_succ, Finset.sum_range_zero, zero_add, hcen 0 (by omega), hcen 1 (by omega), centerf2, m0, m1, vA 0 (by omega), vA 1 (by omega), vB 0 (by omega), vB 1 (by omega),
      vO 0 (by omega), vO 1 (by omega)] at hev ⊢
    rcases hev with he | he
    · linear_combination (s ^ 2 * (g 0 * (pos node (sB serial C j) 0 - pos node (sA serial C j) 0) + g 1 * (pos node (sB serial C j) 1 - pos node (sA serial C j) 1)) / 3) * he
    · linear_combination (s ^ 2 / 3 * ((pos node (sO serial C j) 0 - (pos node (sA serial C j) 0 + pos node (sB serial C j) 0) / 2) * (pos node (sB serial C j) 0 - pos node (sA serial C j) 0) +
        (pos node (sO serial C j) 1 - (pos node (sA serial C j) 1 + pos node (sB serial C j) 1) / 2) * (pos node (sB serial C j) 1 - pos node (sA serial C j) 1))) * he

theorem foot3 (h : Launched 4 nodeid node (centvol3 node nodeid) npart0 epart nbnodes n SIZE data serial)
    (vm : ValidMesh3 nodeid node nbnodes n) (sqrt : K → K) (hs : ∀ x, 0 < x → sqrt x ≠ 0) (trunc : K → Int) (htr : ∀ m : Nat, trunc (m : K) = m)
    (g : Vec K) (hev : EvenSides3 nodeid node n g) {F : Nat} (hF : F ∈ (build3 sqrt trunc 1 serial).boundaryfaces) {q : Vec K}
    (hq : ∑ k ∈ Finset.range 3, (build3 sqrt trunc 1 serial).normal F k * (q k - (build3 sqrt trunc 1 serial).fcenter F k) = 0)
    (ht : ∃ t, ∀ k < 3, q k - (build3 sqrt trunc 1 serial).center (idx ((build3 sqrt trunc 1 serial).cellid F 0)) k = t * (build3 sqrt trunc 1 serial).normal F k) :
    ∑ k ∈ Finset.range 3, g k * (q k - (build3 sqrt trunc 1 serial).fcenter F k) = 0 := by
  have np := h.nodePair3 vm sqrt trunc htr
  obtain ⟨C, hC, j, hj, rfl, e0, ho⟩ := outer_only np hF
  obtain ⟨t, ht⟩ := ht
  rw [e0, idx_cast] at ht
  have hl : C < serial.nodeid.length := by rw [h.serial_cells.1]; exact hC
  have hCG : C < (build3 sqrt trunc 1 serial).nbcells := np.run.nG ▸ hC
  have hne := h.nonFlatS3 vm hC
  have hN := normal_first3 sqrt trunc 1 serial hl hj hne e0
  have hpm := fnode_perm3 sqrt trunc 1 serial hl hj
  rw [sid3_eq] at hpm
  have sp := side_perm3 serial C hj
  unfold lst3 at sp
  rw [h.row3S hC] at sp
  have hev := hev C hC _ _ _ _ sp fun c' hc' hn ⟨u1, u2, u3⟩ => ho c' hc' hn fun x hx => by
    have := hpm.subset hx
    simp at this
    rcases this with rfl | rfl | rfl
    · exact u1
    · exact u2
    · exact u3
  have hin : ∀ s ∈ [tA serial C j, tB serial C j, tC serial C j, tO serial C j], ∀ k < 3, vtx serial s k = pos node s k := by
    intro s hs
    have := sp.subset hs
    have hlt : s < nbnodes := by
      simp at this
      rcases this with rfl | rfl | rfl | rfl
      · exact vm.nodes C hC 0 (by omega)
      · exact vm.nodes C hC 1 (by omega)
      · exact vm.nodes C hC 2 (by omega)
      · exact vm.nodes C hC 3 (by omega)
    exact (h.serial_cells.2.2.1 s hlt).1
  have vA := hin (tA serial C j) (by simp)
  have vB := hin (tB serial C j) (by simp)
  have vC := hin (tC serial C j) (by simp)
  have vO := hin (tO serial C j) (by simp)
  have hbig := (h.solid3 vm sqrt hs trunc htr).big C hCG j hj
  have hcen : ∀ k < 3, (build3 sqrt trunc 1 serial).center C k =
      (vtx serial (tA serial C j) k + vtx serial (tB serial C j) k + vtx serial (tC serial C j) k + vtx serial (tO serial C j) k) / 4 := by
    intro k hk
    rw [center_build3 sqrt trunc 1 serial hl, h.row3S hC]
    exact center3_perm _ [] _ _ _ _ _ _ _ _ sp k
  refine foot_of (N := (build3 sqrt trunc 1 serial).normal ((build3 sqrt trunc 1 serial).faceid C j))
    (w := fun k => (build3 sqrt trunc 1 serial).center C k - (build3 sqrt trunc 1 serial).fcenter ((build3 sqrt trunc 1 serial).faceid C j) k)
    ?_ (fun k _ => rfl) hq ht ?_
  · rw [hN]
    simp only [Finset.sum_range_succ, Finset.sum_range_zero, zero_add]
    exact hbig.ne'
  · obtain ⟨s, m⟩ : ∃ s : K, ∀ k < 3, out3 serial C j k = s * cross node (tA serial C j) (tB serial C j) (tC serial C j) k := by
      have hc : ∀ k < 3, rawNormal3 (vtx serial) (tA serial C j) (tB serial C j) (tC serial C j) k = 1 / 2 * cross node (tA serial C j) (tB serial C j) (tC serial C j) k := by
        intro k hk
        interval_cases k <;> simp only [rawNormal3, cross, vA 0 (by omega), vA 1 (by omega), vA 2 (by omega), vB 0 (by omega), vB 1 (by omega), vB 2 (by omega), vC 0 (by omega), vC 1 (by omega), vC 2 (by omega)]
      unfold out3; rw [orientedNormal3_eq]; split
      · exact ⟨-1 / 2, fun k hk => by show -1 * rawNormal3 _ _ _ _ k = _; rw [hc k hk]; ring⟩
      · exact ⟨1 / 2, fun k hk => hc k hk⟩
    have m0 := m 0 (by omega)
    have m1 := m 1 (by omega)
    have m2 := m 2 (by omega)
    rw [hN, fcenter_side3 sqrt trunc 1 serial hl hj]
    generalize cross node (tA serial C j) (tB serial C j) (tC serial C j) = X at *
    simp only [Finset.sum_range_succ, Finset.sum_range_zero, zero_add, hcen 0 (by omega), hcen 1 (by omega), hcen 2 (by omega), centerf3, m0, m1, m2, vA 0 (by omega), vA 1 (by omega), vA 2 (by omega), vB 0 (by omega), vB 1 (by omega), vB 2 (by omega),
      vC 0 (by omega), vC 1 (by omega), vC 2 (by omega), vO 0 (by omega), vO 1 (by omega), vO 2 (by omega)] at hev ⊢
    linear_combination (s ^ 2 / 4) * hev

/-- A boundary face of a 2D mesh: its cell, its two nodes, its name and its normal. -/
theorem side2 (h : Launched 3 nodeid node (centvol2 node nodeid) npart0 epart nbnodes n SIZE data serial)
    (vm : ValidMesh2 nodeid node nbnodes n) (sqrt : K → K) (trunc : K → Int) (htr : ∀ m : Nat, trunc (m : K) = m)
    {F : Nat} (hF : F ∈ (build2 sqrt trunc 1 serial).boundaryfaces) :
    ∃ C < n, ∃ a b x, [a, b, x].Perm (nodesOf nodeid 3 C) ∧ (∀ c' < n, c' ≠ C → ¬ (Uses nodeid 3 c' a ∧ Uses nodeid 3 c' b)) ∧
      [a, b].Perm ((build2 sqrt trunc 1 serial).fnode F) ∧ (build2 sqrt trunc 1 serial).name F = name2 (labelOf node a) (labelOf node b) ∧
      (∃ s : K, (build2 sqrt trunc 1 serial).normal F 0 = s * (pos node a 1 - pos node b 1) ∧ (build2 sqrt trunc 1 serial).normal F 1 = s * (pos node b 0 - pos node a 0) ∧ s ^ 2 = 1) ∧
      ∀ k < 3, (build2 sqrt trunc 1 serial).fcenter F k = 1 / 2 * (pos node a k + pos node b k) := by
  have np := h.nodePair2 vm sqrt trunc htr
  have R := np.run.rank 0 (by have := np.run.hS; omega)
  obtain ⟨C, hC, j, hj, rfl, e0, ho⟩ := outer_only np hF
  have hl : C < serial.nodeid.length := by rw [h.serial_cells.1]; exact hC
  have hCG : C < (build2 sqrt trunc 1 serial).nbcells := np.run.nG ▸ hC
  have hpm := fnode_perm2 sqrt trunc 1 serial hl hj
  rw [sid2_eq] at hpm
  have sp := side_perm serial hl hj
  rw [h.row2S hC] at sp
  have hlt : ∀ s ∈ [sA serial C j, sB serial C j, sO serial C j], s < nbnodes := by
    intro s hs
    have := sp.subset hs
    simp at this
    rcases this with rfl | rfl | rfl
    · exact vm.nodes C hC 0 (by omega)
    · exact vm.nodes C hC 1 (by omega)
    · exact vm.nodes C hC 2 (by omega)
  have vA : ∀ k < 3, vtx serial (sA serial C j) k = pos node (sA serial C j) k := (h.serial_cells.2.2.1 _ (hlt (sA serial C j) (by simp))).1
  have vB : ∀ k < 3, vtx serial (sB serial C j) k = pos node (sB serial C j) k := (h.serial_cells.2.2.1 _ (hlt (sB serial C j) (by simp))).1
  have hFl := R.cG.flt C hCG j hj
  have hu : users (build2 sqrt trunc 1 serial).faceid 3 n ((build2 sqrt trunc 1 serial).faceid C j) = [C] := by
    have h1 : ∀ c', c' ∈ users (build2 sqrt trunc 1 serial).faceid 3 n ((build2 sqrt trunc 1 serial).faceid C j) ↔ c' = C := by
      intro c'
      rw [mem_users]
      constructor
      · rintro ⟨hc', jj, hjj, e⟩
        by_contra hne
        have hn := (np.fnodeG c' hc' jj hjj).2.2
        rw [e] at hn
        exact ho c' hc' hne hn
      · rintro rfl; exact ⟨hC, j, hj, rfl⟩
    have hnd : (users (build2 sqrt trunc 1 serial).faceid 3 n ((build2 sqrt trunc 1 serial).faceid C j)).Nodup := List.nodup_range.filter _
    exact List.perm_singleton.mp ((List.perm_ext_iff_of_nodup hnd (by simp)).mpr (by simpa using h1))
  have hB := built2 sqrt trunc 1 serial (by intro r hr; rw [h.serial_cells.2.2.2] at hr; simp at hr)
  refine ⟨C, hC, sA serial C j, sB serial C j, sO serial C j, sp, fun c' hc' hn ⟨u1, u2⟩ => ho c' hc' hn fun x hx => ?_, hpm.symm, ?_, ?_, ?_⟩
  · have := hpm.subset hx
    simp at this
    rcases this with rfl | rfl
    · exact u1
    · exact u2
  · rw [hB.one _ hFl (by rintro ⟨row, hr, _⟩; simp [extOf] at hr) (by
      show (users _ 3 serial.nodeid.length _).length = 1
      rw [h.serial_cells.1, hu]; rfl), nm2_side sqrt trunc 1 serial hl hj, h.labelS (hlt _ (by simp)), h.labelS (hlt _ (by simp)), htr, htr]
  · rw [normal_first2 sqrt trunc 1 serial hl hj (h.nonFlatS vm hC) e0, ← vA 1 (by omega), ← vB 1 (by omega), ← vA 0 (by omega), ← vB 0 (by omega)]
    unfold out2; rw [orientedNormal2_eq]; split
    · exact ⟨-1, rfl, rfl, by norm_num⟩
    · exact ⟨1, by simp [rawNormal2], by simp [rawNormal2], by norm_num⟩
  · intro k hk
    rw [fcenter_side2 sqrt trunc 1 serial hl hj, ← vA k hk, ← vB k hk]; rfl

/-- **C128** (2D): the linear potential `a + g·x` prescribed on the whole boundary. If every triangle has an outer edge, every node is on the boundary, and
the potential is as large at the foot of the perpendicular as in the middle of every outer edge, `solve` returns the potential at every cell and the field
computed from it is `-g` on every face, on one process and on any number of processes. -/
theorem C128_dirichlet_2d_partial (h : Launched 3 nodeid node (centvol2 node nodeid) npart0 epart nbnodes n SIZE data serial)
    (vm : ValidMesh2 nodeid node nbnodes n) (sqrt : K → K) (hs : ∀ x, 0 < x → sqrt x ≠ 0) (trunc : K → Int) (htr : ∀ m : Nat, trunc (m : K) = m)
    (star : StarConnected 2 nodeid n) (hsp : ∀ s < nbnodes, Spread2 nodeid node n s) (a : K) (g : Vec K) (hev : EvenSides2 nodeid node n g)
    (hlab : ∀ s < nbnodes, labelOf node s ∈ [1, 2, 3, 4])
    (hout : ∀ c < n, ∃ p q, p ≠ q ∧ Uses nodeid 3 c p ∧ Uses nodeid 3 c q ∧ ∀ c' < n, c' ≠ c → ¬ (Uses nodeid 3 c' p ∧ Uses nodeid 3 c' q)) :
    ∀ W, (mkWorld 2 SIZE data (fun p => build2 sqrt trunc SIZE (data p)) = some W ∨
        mkWorld 2 1 (fun _ => serial) (fun _ => build2 sqrt trunc 1 serial) = some W) →
      ∀ direct, ReadsRows n direct → SolvesSystems n direct → ∀ sv, SolvedExactly W (fun _ => .dirichlet (fun x y _ => a + g 0 * x + g 1 * y)) sv direct a g := by
  have np := h.nodePair2 vm sqrt trunc htr
  have h0 : 0 < SIZE := by have := np.run.hS; omega
  have R := np.run.rank 0 h0
  have hcm := C110_dirichlet_corners_2d h vm sqrt trunc htr (fun _ x y _ => a + g 0 * x + g 1 * y)
  have hA : AffineData 2 (build2 sqrt trunc 1 serial) (fun _ => .dirichlet (fun x y _ => a + g 0 * x + g 1 * y)) a g := by
    have key : ∀ p : Vec K, a + g 0 * p 0 + g 1 * p 1 = affine 2 a g p := fun p => by
      unfold affine; simp only [Finset.sum_range_succ, Finset.sum_range_zero, zero_add]; ring
    refine ⟨fun s hs v _ hv => ?_, fun F hF v hv => ?_, fun F hF v hv q hq ht => ?_, fun F hF hv => by cases hv⟩
    · cases hv; exact key _
    · cases hv; exact key _
    · rw [← sub_eq_zero, affine_sub]
      exact foot2 h vm sqrt hs trunc htr g hev hF hq ht
  obtain ⟨hgL, hgG, w1, w2, sL, sG⟩ := np.worlds
  have hreg : Regular n (matrixOf (serW 2 serial (build2 sqrt trunc 1 serial) hgG) (fun _ => .dirichlet (fun x y _ => a + g 0 * x + g 1 * y))) := by
    refine regular_dirichlet np (h.solid2 vm sqrt hs trunc htr) (plain2 h vm sqrt hs trunc htr) (by omega) hcm (fun f hf => Or.inl ?_) (fun s hs => ?_) (fun C hC => ?_) sG
    · rw [normal_build2 sqrt trunc 1 serial hf, orientedNormal2_eq]; split <;> simp [rawNormal2]
    · rw [np.nbG] at hs
      rw [np.oldnameG, np.vertexG, show at2 0 serial.vertex s 3 = (labelOf node s : K) from h.labelS hs, htr]
      have := hlab s hs
      simp at this ⊢
      omega
    · obtain ⟨p, q, hpq, up, uq, ho⟩ := hout C (np.run.nG ▸ hC)
      exact boundary_of_only np (np.run.nG ▸ hC) [p, q] (by simp [hpq]) rfl (by simp [up, uq]) fun c' hc' hn hall => ho c' hc' hn ⟨hall p (by simp), hall q (by simp)⟩
  intro W hW direct h1 h2 sv
  refine C128_exact_2d_partial h vm sqrt hs trunc htr star hsp _ (fun _ => Or.inl rfl) hcm a g hA W hW ?_ direct h1 h2 sv
  rcases hW with e | e
  · rw [w1] at e
    obtain rfl := Option.some.inj e
    rw [(matrix_par np (by omega) star _ sL sG).1]
    exact hreg
  · rw [w2] at e
    obtain rfl := Option.some.inj e
    exact hreg

/-- **C128** (3D). -/
theorem C128_dirichlet_3d_partial (h : Launched 4 nodeid node (centvol3 node nodeid) npart0 epart nbnodes n SIZE data serial)
    (vm : ValidMesh3 nodeid node nbnodes n) (sqrt : K → K) (hs : ∀ x, 0 < x → sqrt x * sqrt x = x) (trunc : K → Int) (htr : ∀ m : Nat, trunc (m : K) = m)
    (star : StarConnected 3 nodeid n) (hsp : ∀ s < nbnodes, Spread3 nodeid node n s) (a : K) (g : Vec K) (hev : EvenSides3 nodeid node n g)
    (hlab : ∀ s < nbnodes, labelOf node s ∈ [1, 2, 3, 4, 5, 6])
    (hout : ∀ c < n, ∃ p q r, [p, q, r].Nodup ∧ Uses nodeid 4 c p ∧ Uses nodeid 4 c q ∧ Uses nodeid 4 c r ∧
      ∀ c' < n, c' ≠ c → ¬ (Uses nodeid 4 c' p ∧ Uses nodeid 4 c' q ∧ Uses nodeid 4 c' r)) :
    ∀ W, (mkWorld 3 SIZE data (fun p => build3 sqrt trunc SIZE (data p)) = some W ∨
        mkWorld 3 1 (fun _ => serial) (fun _ => build3 sqrt trunc 1 serial) = some W) →
      ∀ direct, ReadsRows n direct → SolvesSystems n direct → ∀ sv,
        SolvedExactly W (fun _ => .dirichlet (fun x y z => a + g 0 * x + g 1 * y + g 2 * z)) sv direct a g := by
  have np := h.nodePair3 vm sqrt trunc htr
  have h0 : 0 < SIZE := by have := np.run.hS; omega
  have R := np.run.rank 0 h0
  have hcm := C110_dirichlet_corners_3d h vm sqrt trunc htr (fun _ x y z => a + g 0 * x + g 1 * y + g 2 * z)
  have hA : AffineData 3 (build3 sqrt trunc 1 serial) (fun _ => .dirichlet (fun x y z => a + g 0 * x + g 1 * y + g 2 * z)) a g := by
    have key : ∀ p : Vec K, a + g 0 * p 0 + g 1 * p 1 + g 2 * p 2 = affine 3 a g p := fun p => by
      unfold affine; simp only [Finset.sum_range_succ, Finset.sum_range_zero, zero_add]; ring
    refine ⟨fun s hs v _ hv => ?_, fun F hF v hv => ?_, fun F hF v hv q hq ht => ?_, fun F hF hv => by cases hv⟩
    · cases hv; exact key _
    · cases hv; exact key _
    · rw [← sub_eq_zero, affine_sub]
      exact foot3 h vm sqrt (root_ne hs) trunc htr g hev hF hq ht
  obtain ⟨hgL, hgG, w1, w2, sL, sG⟩ := np.worlds
  have hw : 3 = 3 → WedgeOk (build3 sqrt trunc 1 serial) ∧ ∀ p < SIZE, WedgeOk (build3 sqrt trunc SIZE (data p)) :=
    fun _ => ⟨wedge_build3 sqrt trunc 1 serial, fun p _ => wedge_build3 sqrt trunc SIZE (data p)⟩
  have hreg : Regular n (matrixOf (serW 3 serial (build3 sqrt trunc 1 serial) hgG) (fun _ => .dirichlet (fun x y z => a + g 0 * x + g 1 * y + g 2 * z))) := by
    refine regular_dirichlet np (h.solid3 vm sqrt (root_ne hs) trunc htr) (plain3 h vm sqrt hs trunc htr) hw hcm (fun f hf => Or.inr rfl) (fun s hs => ?_) (fun C hC => ?_) sG
    · rw [np.nbG] at hs
      rw [np.oldnameG, np.vertexG, show at2 0 serial.vertex s 3 = (labelOf node s : K) from h.labelS3 hs, htr]
      have := hlab s hs
      simp at this ⊢
      omega
    · obtain ⟨p, q, r, hpq, up, uq, ur, ho⟩ := hout C (np.run.nG ▸ hC)
      exact boundary_of_only np (np.run.nG ▸ hC) [p, q, r] hpq rfl (by simp [up, uq, ur]) fun c' hc' hn hall =>
        ho c' hc' hn ⟨hall p (by simp), hall q (by simp), hall r (by simp)⟩
  intro W hW direct h1 h2 sv
  refine C128_exact_3d_partial h vm sqrt hs trunc htr star hsp _ (fun _ => Or.inl rfl) hcm a g hA W hW ?_ direct h1 h2 sv
  rcases hW with e | e
  · rw [w1] at e
    obtain rfl := Option.some.inj e
    rw [(matrix_par np hw star _ sL sG).1]
    exact hreg
  · rw [w2] at e
    obtain rfl := Option.some.inj e
    exact hreg

end

/-! ### the hypotheses are met -/

def evenAt (c i1 i2 i3 : Nat) : Prop := i1 ≠ i2 → i1 ≠ i3 → i2 ≠ i3 →
  (∀ c' < 4, c' ≠ c → ¬ (Uses exStrip 3 c' (exStrip c i1) ∧ Uses exStrip 3 c' (exStrip c i2))) →
  (∑ k ∈ Finset.range 2, (pos stripNode (exStrip c i3) k - (pos stripNode (exStrip c i1) k + pos stripNode (exStrip c i2) k) / 2) * (pos stripNode (exStrip c i2) k - pos stripNode (exStrip c i1) k)) = 0 ∨
  (∑ k ∈ Finset.range 2, (if k = 0 then (1 : ℚ) else -1) * (pos stripNode (exStrip c i2) k - pos stripNode (exStrip c i1) k)) = 0

instance (c i1 i2 i3 : Nat) : Decidable (evenAt c i1 i2 i3) := by unfold evenAt; infer_instance

/-- The strip, with the potential `x - y`: its horizontal outer edges are below or above the centroids, its two other outer edges are equipotentials. -/
theorem stripEven : EvenSides2 exStrip stripNode 4 (fun k => if k = 0 then 1 else -1) := by
  have D : ∀ c < 4, ∀ i1 < 3, ∀ i2 < 3, ∀ i3 < 3, evenAt c i1 i2 i3 := by decide +kernel
  intro c hc a b x hp ho
  have key : ∀ z ∈ nodesOf exStrip 3 c, ∃ i < 3, z = exStrip c i := by
    intro z hz
    obtain ⟨k, hk, rfl⟩ := List.mem_map.mp hz
    exact ⟨k, List.mem_range.mp hk, rfl⟩
  obtain ⟨i1, l1, rfl⟩ := key a (hp.subset (by simp))
  obtain ⟨i2, l2, rfl⟩ := key b (hp.subset (by simp))
  obtain ⟨i3, l3, rfl⟩ := key x (hp.subset (by simp))
  have hnd : [exStrip c i1, exStrip c i2, exStrip c i3].Nodup := hp.nodup_iff.mpr (by interval_cases c <;> decide)
  simp at hnd
  exact D c hc i1 l1 i2 l2 i3 l3 (fun e => hnd.1.1 (by rw [e])) (fun e => hnd.1.2 (by rw [e])) (fun e => hnd.2 (by rw [e])) ho

/-- Every triangle of the strip has an outer edge. -/
theorem stripOut : ∀ c < 4, ∃ p q, p ≠ q ∧ Uses exStrip 3 c p ∧ Uses exStrip 3 c q ∧ ∀ c' < 4, c' ≠ c → ¬ (Uses exStrip 3 c' p ∧ Uses exStrip 3 c' q) := by
  intro c hc
  refine ⟨c, c + 2, by omega, ?_⟩
  interval_cases c <;> decide

/-- The strip on two processes, potential `7 + x - y` prescribed on its boundary: the solver returns it. -/
example : ∃ W, mkWorld 2 2 stripData (fun p => build2 (fun x => x) Rat.floor 2 (stripData p)) = some W ∧
    ∃ direct, ReadsRows 4 direct ∧ SolvesSystems 4 direct ∧
      SolvedExactly W (fun _ => .dirichlet (fun x y _ => 7 + (if 0 = 0 then 1 else -1) * x + (if 1 = 0 then 1 else -1) * y)) .mumps direct (7 : ℚ) (fun k => if k = 0 then 1 else -1) := by
  obtain ⟨hgL, hgG, w1, w2, sL, sG⟩ := (stripLaunched.nodePair2 stripValid (fun x => x) Rat.floor floor_nat).worlds
  obtain ⟨direct, h1, h2⟩ := solver_exists (K := ℚ) 4
  exact ⟨_, w1, direct, h1, h2, C128_dirichlet_2d_partial stripLaunched stripValid (fun x => x) (fun x hx => ne_of_gt hx) Rat.floor floor_nat (run_star 2 4) stripSpread 7 _ stripEven
    (by decide) stripOut _ (Or.inl w1) direct h1 h2 .mumps⟩

/-- A plate condenser: the rectangle `[0,2] × [0,1]`, two nodes on the left plate (label 1), two on the right one (label 2), one in the middle of each of the
other sides (labels 3 and 4). -/
def capNode (k : Nat) : ℚ × ℚ × ℚ × Nat :=
  (((k / 2 : Nat) : ℚ), if k % 2 = 0 then 0 else 1, 0, if k < 2 then 1 else if 3 < k then 2 else if k = 2 then 4 else 3)

def capOpp (c c' a b x y : Nat) : Prop := [a, b, x].Perm (nodesOf exStrip 3 c) → c ≠ c' → [a, b, y].Perm (nodesOf exStrip 3 c') →
  signedArea (pos capNode a) (pos capNode b) (pos capNode x) * signedArea (pos capNode a) (pos capNode b) (pos capNode y) < 0

instance (c c' a b x y : Nat) : Decidable (capOpp c c' a b x y) := by unfold capOpp; infer_instance

def capLab (c a b x : Nat) : Prop := [a, b, x].Perm (nodesOf exStrip 3 c) →
  (∀ c' < 4, c' ≠ c → ¬ (Uses exStrip 3 c' a ∧ Uses exStrip 3 c' b)) → SideLabels2 (labelOf capNode a) (labelOf capNode b)

instance (c a b x : Nat) : Decidable (capLab c a b x) := by unfold capLab; infer_instance

theorem strip_lt : ∀ c < 4, ∀ a b x, [a, b, x].Perm (nodesOf exStrip 3 c) → a < 6 ∧ b < 6 ∧ x < 6 := by
  intro c hc a b x hp
  have key : ∀ z ∈ nodesOf exStrip 3 c, z < 6 := by
    intro z hz
    obtain ⟨k, hk, rfl⟩ := List.mem_map.mp hz
    have := List.mem_range.mp hk
    show c + k < 6
    omega
  exact ⟨key _ (hp.subset (by simp)), key _ (hp.subset (by simp)), key _ (hp.subset (by simp))⟩

theorem capValid : ValidMesh2 exStrip capNode 6 4 := by
  refine ⟨stripValid.nodes, stripValid.used, by decide +kernel, ?_, ?_⟩
  · intro c hc c' hc' hne a b x y h1 h2
    obtain ⟨ha, hb, hx⟩ := strip_lt c hc a b x h1
    obtain ⟨_, _, hy⟩ := strip_lt c' hc' a b y h2
    have D : ∀ c < 4, ∀ c' < 4, ∀ a < 6, ∀ b < 6, ∀ x < 6, ∀ y < 6, capOpp c c' a b x y := by decide +kernel
    exact D c hc c' hc' a ha b hb x hx y hy h1 hne h2
  · intro c hc a b x h1 h2
    obtain ⟨ha, hb, hx⟩ := strip_lt c hc a b x h1
    have D : ∀ c < 4, ∀ a < 6, ∀ b < 6, ∀ x < 6, capLab c a b x := by decide +kernel
    exact D c hc a ha b hb x hx h1 h2

def capData (p : Nat) : RankData ℚ :=
  expected 2 p (rankWrite exStrip capNode (centvol2 capNode exStrip) (partition exStrip exN exE 6 4 3)
    (halos (partition exStrip exN exE 6 4 3).cpart (partition exStrip exN exE 6 4 3).haloCell 2) 6 2 3 p)

def capSerial : RankData ℚ := expected 1 0 (serialWrite exStrip capNode 6 4 3)

theorem capLaunched : Launched 3 exStrip capNode (centvol2 capNode exStrip) exN exE 6 4 2 capData capSerial := by
  refine ⟨by decide, by decide, by decide +kernel, by decide +kernel, by decide +kernel, by decide +kernel, ?_, ?_⟩
  · intro p hp; exact C25_round_trip_parallel (K := ℚ) 2 p (by decide) _
  · exact C25_round_trip_serial (K := ℚ) _ _

theorem capSpread : ∀ s < 6, Spread2 exStrip capNode 4 s := by
  intro s hs u c h1 h2
  have e : ∀ C x, C < 4 → s ≠ x → Uses exStrip 3 C s → Uses exStrip 3 C x → (∀ c' < 4, c' ≠ C → ¬ (Uses exStrip 3 c' s ∧ Uses exStrip 3 c' x)) →
      u 0 * (pos capNode s 1 - pos capNode x 1) + u 1 * (pos capNode x 0 - pos capNode s 0) = 0 := fun C x a b c' d e => h2 C a x b c' d e
  interval_cases s
  · have a := e 0 1 (by decide) (by decide) (by decide) (by decide) (by decide)
    have b := e 0 2 (by decide) (by decide) (by decide) (by decide) (by decide)
    norm_num [pos, capNode] at a b
    exact ⟨by linarith, by linarith⟩
  · have a := e 0 0 (by decide) (by decide) (by decide) (by decide) (by decide)
    have b := e 1 3 (by decide) (by decide) (by decide) (by decide) (by decide)
    norm_num [pos, capNode] at a b
    exact ⟨by linarith, by linarith⟩
  · have a := e 0 0 (by decide) (by decide) (by decide) (by decide) (by decide)
    have b := h1 0 (by decide) (by decide)
    have d := h1 2 (by decide) (by decide)
    norm_num [pos, capNode, exStrip] at a b d
    exact ⟨by linarith, by linarith⟩
  · have a := e 1 1 (by decide) (by decide) (by decide) (by decide) (by decide)
    have b := h1 1 (by decide) (by decide)
    have d := h1 3 (by decide) (by decide)
    norm_num [pos, capNode, exStrip] at a b d
    exact ⟨by linarith, by linarith⟩
  · have a := e 2 2 (by decide) (by decide) (by decide) (by decide) (by decide)
    have b := e 3 5 (by decide) (by decide) (by decide) (by decide) (by decide)
    norm_num [pos, capNode] at a b
    exact ⟨by linarith, by linarith⟩
  · have a := e 3 3 (by decide) (by decide) (by decide) (by decide) (by decide)
    have b := e 3 4 (by decide) (by decide) (by decide) (by decide) (by decide)
    norm_num [pos, capNode] at a b
    exact ⟨by linarith, by linarith⟩

/-- Potential 10 on the left plate, 16 on the right one, insulated sides. -/
def capBC : Int → BCond ℚ := fun l => if l = 1 then .dirichlet (fun _ _ _ => 10) else if l = 2 then .dirichlet (fun _ _ _ => 16) else .neumann

/-- An outer edge of the condenser is a plate, with its two nodes, or it is horizontal. -/
def capSide (c a b x : Nat) : Prop := [a, b, x].Perm (nodesOf exStrip 3 c) →
  (∀ c' < 4, c' ≠ c → ¬ (Uses exStrip 3 c' a ∧ Uses exStrip 3 c' b)) →
  (name2 (labelOf capNode a) (labelOf capNode b) = 1 ∧ labelOf capNode a = 1 ∧ labelOf capNode b = 1 ∧ pos capNode a 0 = 0 ∧ pos capNode b 0 = 0 ∧ pos capNode a 1 ≠ pos capNode b 1) ∨
  (name2 (labelOf capNode a) (labelOf capNode b) = 2 ∧ labelOf capNode a = 2 ∧ labelOf capNode b = 2 ∧ pos capNode a 0 = 2 ∧ pos capNode b 0 = 2 ∧ pos capNode a 1 ≠ pos capNode b 1) ∨
  ((name2 (labelOf capNode a) (labelOf capNode b) = 3 ∨ name2 (labelOf capNode a) (labelOf capNode b) = 4) ∧ pos capNode a 1 = pos capNode b 1)

instance (c a b x : Nat) : Decidable (capSide c a b x) := by unfold capSide; infer_instance

theorem capSides : ∀ c < 4, ∀ a < 6, ∀ b < 6, ∀ x < 6, capSide c a b x := by decide +kernel

/-- Where the nodes of the plates are. -/
theorem cap_label : ∀ s < 6, ((labelOf capNode s : Int) = 1 → pos capNode s 0 = 0) ∧ ((labelOf capNode s : Int) = 2 → pos capNode s 0 = 2) := by decide +kernel

theorem cap_affine : AffineData 2 (build2 (fun x => x) Rat.floor 1 capSerial) capBC 10 (fun k => if k = 0 then 3 else 0) := by
  have np := capLaunched.nodePair2 capValid (fun x => x) Rat.floor floor_nat
  have aff : ∀ p : Vec ℚ, affine 2 10 (fun k => if k = 0 then 3 else 0) p = 10 + 3 * p 0 := fun p => by
    unfold affine; simp [Finset.sum_range_succ]
  have side : ∀ F ∈ (build2 (fun x => x) Rat.floor 1 capSerial).boundaryfaces, _ := fun F hF => side2 capLaunched capValid (fun x => x) Rat.floor floor_nat hF
  refine plates_affine (fun s hs v _ hv => ?_) (fun F hF v hv => ?_) (fun F hF v hv => ?_) (fun F hF hv => ?_)
  · rw [np.nbG] at hs
    have hx : (build2 (fun x => x) Rat.floor 1 capSerial).vertex s 0 = pos capNode s 0 := by
      rw [np.vertexG]; exact (capLaunched.serial_cells.2.2.1 s hs).1 0 (by omega)
    have ho : (build2 (fun x => x) Rat.floor 1 capSerial).oldname s = (labelOf capNode s : Int) := by
      rw [np.oldnameG, np.vertexG, show at2 0 capSerial.vertex s 3 = (labelOf capNode s : ℚ) from capLaunched.labelS hs, floor_nat]
    have hc := cap_label s hs
    rw [ho] at hv
    unfold capBC at hv
    rw [aff, hx]
    split at hv
    · cases hv; rw [hc.1 ‹_›]; norm_num
    · split at hv
      · cases hv; rw [hc.2 ‹_›]; norm_num
      · cases hv
  · obtain ⟨C, hC, a, b, x, hp, ho, _, hn, _, hfc⟩ := side F hF
    obtain ⟨ha, hb, hx⟩ := strip_lt C hC a b x hp
    rw [aff, hfc 0 (by omega)]
    rcases capSides C hC a ha b hb x hx hp ho with ⟨e, _, _, p, q, _⟩ | ⟨e, _, _, p, q, _⟩ | ⟨e | e, _⟩ <;> rw [hn, e] at hv <;> simp [capBC] at hv
    · subst hv; rw [p, q]; norm_num
    · subst hv; rw [p, q]; norm_num
  · obtain ⟨C, hC, a, b, x, hp, ho, _, hn, ⟨s, n0, n1, s1⟩, _⟩ := side F hF
    obtain ⟨ha, hb, hx⟩ := strip_lt C hC a b x hp
    have hs0 : s ≠ 0 := by rintro rfl; norm_num at s1
    rcases capSides C hC a ha b hb x hx hp ho with ⟨e, _, _, p, q, r⟩ | ⟨e, _, _, p, q, r⟩ | ⟨e | e, _⟩ <;> rw [hn, e] at hv <;> simp [capBC] at hv
    · have hr := sub_ne_zero.mpr r
      refine ⟨3 / (s * (pos capNode a 1 - pos capNode b 1)), fun k hk => ?_⟩
      interval_cases k
      · rw [n0]; simp; field_simp
      · rw [n1, p, q]; simp
    · have hr := sub_ne_zero.mpr r
      refine ⟨3 / (s * (pos capNode a 1 - pos capNode b 1)), fun k hk => ?_⟩
      interval_cases k
      · rw [n0]; simp; field_simp
      · rw [n1, p, q]; simp
  · obtain ⟨C, hC, a, b, x, hp, ho, _, hn, ⟨s, n0, n1, s1⟩, _⟩ := side F hF
    obtain ⟨ha, hb, hx⟩ := strip_lt C hC a b x hp
    rcases capSides C hC a ha b hb x hx hp ho with ⟨e, _⟩ | ⟨e, _⟩ | ⟨_, p⟩
    · rw [hn, e] at hv; simp [capBC] at hv
    · rw [hn, e] at hv; simp [capBC] at hv
    · simp [Finset.sum_range_succ, n0, p]

theorem cap_corners : CornersMatch 2 (build2 (fun x => x) Rat.floor 1 capSerial) capBC := by
  intro F hF s hs
  have np := capLaunched.nodePair2 capValid (fun x => x) Rat.floor floor_nat
  obtain ⟨C, hC, a, b, x, hp, ho, hpm, hn, _⟩ := side2 capLaunched capValid (fun x => x) Rat.floor floor_nat hF
  obtain ⟨ha, hb, hx⟩ := strip_lt C hC a b x hp
  have hold : ∀ t < 6, (build2 (fun x => x) Rat.floor 1 capSerial).oldname t = (labelOf capNode t : Int) := fun t ht => by
    rw [np.oldnameG, np.vertexG, show at2 0 capSerial.vertex t 3 = (labelOf capNode t : ℚ) from capLaunched.labelS ht, floor_nat]
  have hst : s = a ∨ s = b := by simpa using hpm.symm.subset hs
  rcases capSides C hC a ha b hb x hx hp ho with ⟨_, p, q, _⟩ | ⟨_, p, q, _⟩ | ⟨e | e, _⟩
  · left
    rcases hst with rfl | rfl
    · rw [hold _ ha, p]; exact ⟨by decide, rfl⟩
    · rw [hold _ hb, q]; exact ⟨by decide, rfl⟩
  · left
    rcases hst with rfl | rfl
    · rw [hold _ ha, p]; exact ⟨by decide, rfl⟩
    · rw [hold _ hb, q]; exact ⟨by decide, rfl⟩
  · right; rw [hn, e]; rfl
  · right; rw [hn, e]; rfl

theorem cap_mixed : DirichletOrNeumann capBC := fun l => by
  unfold capBC
  split
  · exact Or.inl rfl
  · split
    · exact Or.inl rfl
    · exact Or.inr rfl

/-- The condenser on two processes: the potential `10 + 3x` solves the system. -/
example : ∃ W, mkWorld 2 2 capData (fun p => build2 (fun x => x) Rat.floor 2 (capData p)) = some W ∧ ∀ i < 4,
    ∑ j ∈ Finset.range 4, matrixOf W capBC i j * affine 2 10 (fun k => if k = 0 then 3 else 0) ((build2 (fun x => x) Rat.floor 1 capSerial).center j) = boundaryOf W capBC i := by
  obtain ⟨hgL, hgG, w1, w2, sL, sG⟩ := (capLaunched.nodePair2 capValid (fun x => x) Rat.floor floor_nat).worlds
  exact ⟨_, w1, C128_solves_2d_partial capLaunched capValid (fun x => x) (fun x hx => ne_of_gt hx) Rat.floor floor_nat (run_star 2 4) capSpread capBC cap_mixed cap_corners 10 _ cap_affine
    _ (Or.inl w1)⟩

/-- Two regular tetrahedra with a common face. -/
def duoNode (k : Nat) : ℚ × ℚ × ℚ × Nat :=
  match k with
  | 0 => (1, 1, 1, 1)
  | 1 => (1, -1, -1, 1)
  | 2 => (-1, 1, -1, 1)
  | 3 => (-1, -1, 1, 1)
  | _ => (-5 / 3, -5 / 3, -5 / 3, 1)

def duoOpp (c a b d x : Nat) : Prop := [a, b, d, x].Perm (nodesOf chainCell 4 c) → ∀ c' < 2, ∀ y < 5, c ≠ c' →
  [a, b, d, y].Perm (nodesOf chainCell 4 c') →
  signedVol (pos duoNode a) (pos duoNode b) (pos duoNode d) (pos duoNode x) *
    signedVol (pos duoNode a) (pos duoNode b) (pos duoNode d) (pos duoNode y) < 0

instance (c a b d x : Nat) : Decidable (duoOpp c a b d x) := by unfold duoOpp; infer_instance

/-- The apex lies over the middle of the face. -/
def duoOver (c a b d x : Nat) : Prop := [a, b, d, x].Perm (nodesOf chainCell 4 c) → ∀ i < 3, ∀ j < 3,
  (pos duoNode x i - (pos duoNode a i + pos duoNode b i + pos duoNode d i) / 3) * cross duoNode a b d j =
  (pos duoNode x j - (pos duoNode a j + pos duoNode b j + pos duoNode d j) / 3) * cross duoNode a b d i

instance (c a b d x : Nat) : Decidable (duoOver c a b d x) := by unfold duoOver; infer_instance

theorem chain_nodes {c : Nat} (a b d x : Nat) (hp : [a, b, d, x].Perm (nodesOf chainCell 4 c)) :
    (∃ i < 4, a = c + i) ∧ (∃ i < 4, b = c + i) ∧ (∃ i < 4, d = c + i) ∧ (∃ i < 4, x = c + i) := by
  have key : ∀ z ∈ nodesOf chainCell 4 c, ∃ i < 4, z = c + i := by
    intro z hz
    obtain ⟨k, hk, rfl⟩ := List.mem_map.mp hz
    exact ⟨k, List.mem_range.mp hk, rfl⟩
  exact ⟨key _ (hp.subset (by simp)), key _ (hp.subset (by simp)), key _ (hp.subset (by simp)), key _ (hp.subset (by simp))⟩

theorem duo_label (s : Nat) : labelOf duoNode s = 1 := by
  match s with
  | 0 | 1 | 2 | 3 => rfl
  | (k + 4) => rfl

theorem duoValid : ValidMesh3 chainCell duoNode 5 2 := by
  refine ⟨by decide, by decide +kernel, by decide +kernel, ?_, ?_⟩
  · intro c hc c' hc' hne a b d x y h1 h2
    obtain ⟨⟨i1, l1, rfl⟩, ⟨i2, l2, rfl⟩, ⟨i3, l3, rfl⟩, ⟨i4, l4, rfl⟩⟩ := chain_nodes a b d x h1
    obtain ⟨_, _, _, ⟨k, lk, rfl⟩⟩ := chain_nodes _ _ _ y h2
    have D : ∀ c < 2, ∀ i1 < 4, ∀ i2 < 4, ∀ i3 < 4, ∀ i4 < 4, duoOpp c (c + i1) (c + i2) (c + i3) (c + i4) := by decide +kernel
    exact D c hc i1 l1 i2 l2 i3 l3 i4 l4 h1 c' hc' (c' + k) (by omega) hne h2
  · intro c hc a b d x h1 h2
    rw [duo_label, duo_label, duo_label]; decide

theorem pos_real (node : Nat → ℚ × ℚ × ℚ × Nat) (s k : Nat) : pos (realNode node) s k = ((pos node s k : ℚ) : ℝ) := by
  match k with
  | 0 | 1 => rfl
  | (k + 2) => rfl

theorem cross_real (node : Nat → ℚ × ℚ × ℚ × Nat) (s x y k : Nat) : cross (realNode node) s x y k = ((cross node s x y k : ℚ) : ℝ) := by
  match k with
  | 0 | 1 => simp only [cross, pos_real]; push_cast; rfl
  | (k + 2) => simp only [cross, pos_real]; push_cast; rfl

/-- Every linear potential meets the condition on the outer faces of two regular tetrahedra. -/
theorem duoEven (g : Vec ℝ) : EvenSides3 chainCell (realNode duoNode) 2 g := by
  intro c hc a b d x hp _
  obtain ⟨⟨i1, l1, rfl⟩, ⟨i2, l2, rfl⟩, ⟨i3, l3, rfl⟩, ⟨i4, l4, rfl⟩⟩ := chain_nodes a b d x hp
  have D : ∀ c < 2, ∀ i1 < 4, ∀ i2 < 4, ∀ i3 < 4, ∀ i4 < 4, duoOver c (c + i1) (c + i2) (c + i3) (c + i4) := by decide +kernel
  have E := D c hc i1 l1 i2 l2 i3 l3 i4 l4 hp
  have E' : ∀ i < 3, ∀ j < 3, (pos (realNode duoNode) (c + i4) i - (pos (realNode duoNode) (c + i1) i + pos (realNode duoNode) (c + i2) i + pos (realNode duoNode) (c + i3) i) / 3) *
        cross (realNode duoNode) (c + i1) (c + i2) (c + i3) j =
      (pos (realNode duoNode) (c + i4) j - (pos (realNode duoNode) (c + i1) j + pos (realNode duoNode) (c + i2) j + pos (realNode duoNode) (c + i3) j) / 3) *
        cross (realNode duoNode) (c + i1) (c + i2) (c + i3) i := by
    intro i hi j hj
    simp only [pos_real, cross_real]
    exact_mod_cast E i hi j hj
  have e01 := E' 0 (by omega) 1 (by omega)
  have e02 := E' 0 (by omega) 2 (by omega)
  have e12 := E' 1 (by omega) 2 (by omega)
  simp only [Finset.sum_range_succ, Finset.sum_range_zero, zero_add]
  generalize cross (realNode duoNode) (c + i1) (c + i2) (c + i3) = N at *
  generalize pos (realNode duoNode) (c + i4) 0 - _ = w0 at *
  generalize pos (realNode duoNode) (c + i4) 1 - _ = w1 at *
  generalize pos (realNode duoNode) (c + i4) 2 - _ = w2 at *
  linear_combination (g 0 * N 1 - g 1 * N 0) * e01 + (g 0 * N 2 - g 2 * N 0) * e02 + (g 1 * N 2 - g 2 * N 1) * e12

theorem duoSpread : ∀ s < 5, Spread3 chainCell (realNode duoNode) 2 s := by
  intro s hs u c h1 h2
  have e : ∀ C x y, C < 2 → [s, x, y].Nodup → Uses chainCell 4 C s → Uses chainCell 4 C x → Uses chainCell 4 C y →
      (∀ c' < 2, c' ≠ C → ¬ (Uses chainCell 4 c' s ∧ Uses chainCell 4 c' x ∧ Uses chainCell 4 c' y)) →
      u 0 * cross (realNode duoNode) s x y 0 + u 1 * cross (realNode duoNode) s x y 1 + u 2 * cross (realNode duoNode) s x y 2 = 0 := fun C x y a => h2 C a x y
  interval_cases s
  · have a := e 0 1 2 (by decide) (by decide) (by decide) (by decide) (by decide) (by decide)
    have b := e 0 1 3 (by decide) (by decide) (by decide) (by decide) (by decide) (by decide)
    have d := e 0 2 3 (by decide) (by decide) (by decide) (by decide) (by decide) (by decide)
    norm_num [pos, duoNode, realNode, cross] at a b d
    exact ⟨by linarith, by linarith, by linarith⟩
  · have a := e 0 0 2 (by decide) (by decide) (by decide) (by decide) (by decide) (by decide)
    have b := e 0 0 3 (by decide) (by decide) (by decide) (by decide) (by decide) (by decide)
    have d := e 1 2 4 (by decide) (by decide) (by decide) (by decide) (by decide) (by decide)
    norm_num [pos, duoNode, realNode, cross] at a b d
    exact ⟨by linarith, by linarith, by linarith⟩
  · have a := e 0 0 1 (by decide) (by decide) (by decide) (by decide) (by decide) (by decide)
    have b := e 0 0 3 (by decide) (by decide) (by decide) (by decide) (by decide) (by decide)
    have d := e 1 1 4 (by decide) (by decide) (by decide) (by decide) (by decide) (by decide)
    norm_num [pos, duoNode, realNode, cross] at a b d
    exact ⟨by linarith, by linarith, by linarith⟩
  · have a := e 0 0 1 (by decide) (by decide) (by decide) (by decide) (by decide) (by decide)
    have b := e 0 0 2 (by decide) (by decide) (by decide) (by decide) (by decide) (by decide)
    have d := e 1 1 4 (by decide) (by decide) (by decide) (by decide) (by decide) (by decide)
    norm_num [pos, duoNode, realNode, cross] at a b d
    exact ⟨by linarith, by linarith, by linarith⟩
  · have a := e 1 1 2 (by decide) (by decide) (by decide) (by decide) (by decide) (by decide)
    have b := e 1 1 3 (by decide) (by decide) (by decide) (by decide) (by decide) (by decide)
    have d := e 1 2 3 (by decide) (by decide) (by decide) (by decide) (by decide) (by decide)
    norm_num [pos, duoNode, realNode, cross] at a b d
    exact ⟨by linarith, by linarith, by linarith⟩

theorem duoLaunched : ∃ data serial, Launched 4 chainCell (realNode duoNode) (centvol3 (realNode duoNode) chainCell) (fun k => if k = 4 then 1 else 0) (fun c => c) 5 2 2 data serial := by
  refine ⟨fun p => expected 2 p (rankWrite chainCell (realNode duoNode) (centvol3 (realNode duoNode) chainCell) (partition chainCell (fun k => if k = 4 then 1 else 0) (fun c => c) 5 2 4)
    (halos (partition chainCell (fun k => if k = 4 then 1 else 0) (fun c => c) 5 2 4).cpart (partition chainCell (fun k => if k = 4 then 1 else 0) (fun c => c) 5 2 4).haloCell 2) 5 2 4 p),
    expected 1 0 (serialWrite chainCell (realNode duoNode) 5 2 4), by decide, by decide, by decide +kernel, by decide +kernel, by decide +kernel, by decide +kernel, ?_, ?_⟩
  · exact fun p hp => C25_round_trip_parallel (K := ℝ) 2 p (by decide) _
  · exact C25_round_trip_serial (K := ℝ) _ _

theorem duoOut : ∀ c < 2, ∃ p q r, [p, q, r].Nodup ∧ Uses chainCell 4 c p ∧ Uses chainCell 4 c q ∧ Uses chainCell 4 c r ∧
    ∀ c' < 2, c' ≠ c → ¬ (Uses chainCell 4 c' p ∧ Uses chainCell 4 c' q ∧ Uses chainCell 4 c' r) := by
  intro c hc
  interval_cases c
  · exact ⟨0, 1, 2, by decide, by decide, by decide, by decide, by decide⟩
  · exact ⟨4, 1, 2, by decide, by decide, by decide, by decide, by decide⟩

/-- Two regular tetrahedra on two processes, any linear potential prescribed on the boundary: the solver returns it. -/
example (a : ℝ) (g : Vec ℝ) : ∃ data serial, Launched 4 chainCell (realNode duoNode) (centvol3 (realNode duoNode) chainCell) (fun k => if k = 4 then 1 else 0) (fun c => c) 5 2 2 data serial ∧
    ∃ W, mkWorld 3 2 data (fun p => build3 Real.sqrt Int.floor 2 (data p)) = some W ∧ ∃ direct, ReadsRows 2 direct ∧ SolvesSystems 2 direct ∧
      SolvedExactly W (fun _ => .dirichlet (fun x y z => a + g 0 * x + g 1 * y + g 2 * z)) .petsc direct a g := by
  obtain ⟨data, serial, h⟩ := duoLaunched
  obtain ⟨hgL, hgG, w1, w2, sL, sG⟩ := (h.nodePair3 (validReal3 duoValid) Real.sqrt Int.floor floor_real).worlds
  obtain ⟨direct, h1, h2⟩ := solver_exists (K := ℝ) 2
  exact ⟨data, serial, h, _, w1, direct, h1, h2, C128_dirichlet_3d_partial h (validReal3 duoValid) Real.sqrt (fun x hx => Real.mul_self_sqrt hx.le) Int.floor floor_real (run_star 3 2)
    duoSpread a g (duoEven g) (fun s _ => by rw [show labelOf (realNode duoNode) s = labelOf duoNode s from rfl, duo_label]; decide) duoOut _ (Or.inl w1) direct h1 h2 .petsc⟩

end Verif.Props.Par
