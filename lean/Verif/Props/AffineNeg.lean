import Verif.Props.AffineDir

/-!
# C128: a linear potential that is not returned

One right triangle with nodes `(0,0)`, `(2,0)`, `(0,2)` and the potential `x` prescribed on all sides: the exact value at the cell centre does not solve
the assembled equation. The ghost value beyond the side `y = 0` is computed as if the potential at the foot of the perpendicular were the one in the
middle of the side.
-/
set_option linter.unusedSectionVars false
set_option linter.unusedVariables false
set_option linter.unusedSimpArgs false
namespace Verif.Props.Par
open Verif.Fvm Verif.Spec Verif.Conn Verif.Dom Verif.Geo Verif.Names Verif.MeshFile Verif.Part Verif.Comm Verif.Run Verif.HaloGhost Verif.Interp
open Verif.LinSolve (ReadsRows SolvedWith InPlace)
section
variable {data : Nat → RankData ℝ} {serial : RankData ℝ}

def slope (x _y _z : ℝ) : ℝ := x
def slopeBC : Int → BCond ℝ := fun _ => .dirichlet slope

/-- The face between nodes `a` and `b` of the triangle: centre `(x, y)`, outward normal, value of the pressure at the ends and in the middle, and
the field computed from the value 2/3 in the cell. -/
theorem slope_face (h : Launched 3 (fun _ j => j) (realNode triNode) (centvol2 (realNode triNode) (fun _ j => j)) (fun _ => 0) (fun _ => 0) 3 1 2 data serial)
    {hgG : HGResult ℝ} (sG : HGSerial 2 (build2 Real.sqrt Int.floor 1 serial) 3 hgG) (w : Interp.Fields ℝ) (hw : w.c 0 = 2 / 3) (nd : Nat → ℝ)
    (a b : Nat) (ha : a < 3) (hb : b < 3) (hab : a ≠ b) :
    ∃ j < 3, [a, b].Perm ((build2 Real.sqrt Int.floor 1 serial).fnode ((build2 Real.sqrt Int.floor 1 serial).faceid 0 j)) ∧
      ∀ F, F = (build2 Real.sqrt Int.floor 1 serial).faceid 0 j →
      F ∈ (build2 Real.sqrt Int.floor 1 serial).boundaryfaces ∧ (build2 Real.sqrt Int.floor 1 serial).cellid F 0 = ((0 : Nat) : Int) ∧
      (build2 Real.sqrt Int.floor 1 serial).normal F 2 = 0 ∧ solGrads 2 (build2 Real.sqrt Int.floor 1 serial) slopeBC w nd F 2 = 0 ∧
      ((build2 Real.sqrt Int.floor 1 serial).normal F 0, (build2 Real.sqrt Int.floor 1 serial).normal F 1) =
        (if a + b = 1 then (0, -2) else if a + b = 2 then (-2, 0) else (2, 2) : ℝ × ℝ) ∧
      (solGrads 2 (build2 Real.sqrt Int.floor 1 serial) slopeBC w nd F 0, solGrads 2 (build2 Real.sqrt Int.floor 1 serial) slopeBC w nd F 1) =
        (if a + b = 1 then (-1, 1 / 2) else if a + b = 2 then (-1, 0) else (-1, 0) : ℝ × ℝ) := by
  have vm := validReal triValid
  have np := h.nodePair2 vm Real.sqrt Int.floor floor_real
  have R := np.run.rank 0 (by omega)
  have c0 : 0 < (build2 Real.sqrt Int.floor 1 serial).nbcells := by rw [np.run.nG]; omega
  have oG := np.linOkG (by omega) sG
  obtain ⟨j, hj, pj⟩ := np.faceG 0 (by omega) [a, b] (by simp [hab]) rfl (by
    intro s hs
    simp at hs
    rcases hs with rfl | rfl
    · exact ⟨_, ha, rfl⟩
    · exact ⟨_, hb, rfl⟩)
  refine ⟨j, hj, pj, ?_⟩
  rintro F rfl
  have hf1 := R.cG.flt 0 c0 j hj
  obtain ⟨hB, hbd, hcell⟩ : (build2 Real.sqrt Int.floor 1 serial).name ((build2 Real.sqrt Int.floor 1 serial).faceid 0 j) ∈ ([1, 2, 3, 4] : List Int) ∧
      (build2 Real.sqrt Int.floor 1 serial).faceid 0 j ∈ (build2 Real.sqrt Int.floor 1 serial).boundaryfaces ∧
      (build2 Real.sqrt Int.floor 1 serial).cellid ((build2 Real.sqrt Int.floor 1 serial).faceid 0 j) 0 = ((0 : Nat) : Int) := by
    rcases R.gkinds c0 hj with ⟨x, hb, _, e⟩ | ⟨E, hE, hne, _⟩
    · exact ⟨by rw [np.hBe] at x; exact x, hb, e⟩
    · rw [np.run.nG] at hE; omega
  obtain ⟨F, hF⟩ : ∃ F, F = (build2 Real.sqrt Int.floor 1 serial).faceid 0 j := ⟨_, rfl⟩
  rw [← hF] at hf1 hB hbd hcell pj ⊢
  have hfn : (build2 Real.sqrt Int.floor 1 serial).fnode F = [a, b] ∨ (build2 Real.sqrt Int.floor 1 serial).fnode F = [b, a] := by
    have hl := pj.length_eq
    match hx : (build2 Real.sqrt Int.floor 1 serial).fnode F, hl with
    | [x, y], _ =>
      rw [hx] at pj
      have hxa : x ∈ [a, b] := pj.symm.subset (by simp)
      have hya : y ∈ [a, b] := pj.symm.subset (by simp)
      have hn : [x, y].Nodup := pj.nodup_iff.mp (by simp [hab])
      simp at hxa hya hn
      rcases hxa with rfl | rfl <;> rcases hya with rfl | rfl <;> simp_all
  have hcen : ∀ k < 2, (build2 Real.sqrt Int.floor 1 serial).center 0 k = 2 / 3 := by
    intro k hk
    rw [center_build2 Real.sqrt Int.floor 1 serial (by rw [h.serial_cells.1]; omega), h.row2S (by omega)]
    interval_cases k <;> simp only [center2] <;> rw [tri_vertex h (by omega) _ (by omega), tri_vertex h (by omega) _ (by omega), tri_vertex h (by omega) _ (by omega)] <;> norm_num
  have hvx : ∀ s k, (build2 Real.sqrt Int.floor 1 serial).vertex s k = vtx serial s k := fun s k => by rw [np.vertexG]; rfl
  have hdf : dirFace 2 (build2 Real.sqrt Int.floor 1 serial) slopeBC F := ⟨np.run.hB _ (by rw [np.hBe]; exact hB), rfl⟩
  have hfc : ∀ k < 2, (build2 Real.sqrt Int.floor 1 serial).fcenter F k = 1 / 2 * (vtx serial (((build2 Real.sqrt Int.floor 1 serial).fnode F).getD 0 0) k + vtx serial (((build2 Real.sqrt Int.floor 1 serial).fnode F).getD 1 0) k) := by
    intro k hk; rw [fcenter_build2 Real.sqrt Int.floor 1 serial hf1]; rfl
  have hpn : ∀ s < 3, solNode 2 (build2 Real.sqrt Int.floor 1 serial) slopeBC nd F s = slope (vtx serial s 0) (vtx serial s 1) 0 := by
    intro s hs
    have ho : (build2 Real.sqrt Int.floor 1 serial).oldname s = 1 := by
      rw [np.oldnameG, np.vertexG, (h.serial_cells.2.2.1 s hs).2]
      exact floor_real 1
    unfold solNode
    rw [if_pos hdf, pbordNode_apply _ _ _ (by rw [np.nbG]; exact hs), ho, if_pos (by decide)]
    show slope ((build2 Real.sqrt Int.floor 1 serial).vertex s 0) ((build2 Real.sqrt Int.floor 1 serial).vertex s 1) ((build2 Real.sqrt Int.floor 1 serial).vertex s 2) = _
    rw [hvx, hvx]; rfl
  have hpf : pbordFace 2 (build2 Real.sqrt Int.floor 1 serial) slopeBC F = slope ((build2 Real.sqrt Int.floor 1 serial).fcenter F 0) ((build2 Real.sqrt Int.floor 1 serial).fcenter F 1) 0 :=
    pbordFace_apply 2 _ slopeBC hf1 (np.run.hB _ (by rw [np.hBe]; exact hB)) (v := slope) rfl
  have pts : ∀ k < 3, solGrads 2 (build2 Real.sqrt Int.floor 1 serial) slopeBC w nd F k = - gradD 2 (build2 Real.sqrt Int.floor 1 serial) (solNode 2 (build2 Real.sqrt Int.floor 1 serial) slopeBC nd F) F (sideL 2 (build2 Real.sqrt Int.floor 1 serial) w F) (solR 2 (build2 Real.sqrt Int.floor 1 serial) slopeBC w F) k :=
    fun k hk => solGrads_pts (Or.inl rfl) R.cG np.hBe (by omega) slopeBC w _ hf1 (oG.names _ hf1) hk
  have hnorm := normal_build2 Real.sqrt Int.floor 1 serial hf1
  rw [hcell, idx_cast] at hnorm
  have ho : (fun k => (ghostPoint 2 (build2 Real.sqrt Int.floor 1 serial) F).getD k 0) = otherPt 2 (build2 Real.sqrt Int.floor 1 serial) F := by
    unfold otherPt
    rw [if_neg (by intro x; rw [x] at hB; exact absurd hB (by decide)), if_neg (by intro x; rw [x] at hB; exact absurd hB (by decide))]
  refine ⟨hbd, hcell, ?_, ?_, ?_, ?_⟩
  · rw [hnorm, orientedNormal2_eq]; split <;> simp [rawNormal2]
  · rw [pts 2 (by omega)]
    show - (0 : ℝ) = 0
    simp
  · have : orientedNormal2 (vtx serial) ((build2 Real.sqrt Int.floor 1 serial).center 0) (at2 0 (fac2 serial) F 0) (at2 0 (fac2 serial) F 1) =
        orientedNormal2 (vtx serial) ((build2 Real.sqrt Int.floor 1 serial).center 0) (((build2 Real.sqrt Int.floor 1 serial).fnode F).getD 0 0) (((build2 Real.sqrt Int.floor 1 serial).fnode F).getD 1 0) := rfl
    rw [hnorm, this]
    interval_cases a <;> interval_cases b <;> first | (exact absurd rfl hab) |
      (rcases hfn with e | e <;> rw [e] <;> simp only [List.getD_cons_zero, List.getD_cons_succ] <;>
        rw [orient_at _ _ _ _ _ rfl] <;>
        simp only [tst, centerf2, rawNormal2, hcen 0 (by omega), hcen 1 (by omega), tri_vertex h (show 0 < 3 by omega) 0 (by omega), tri_vertex h (show 0 < 3 by omega) 1 (by omega), tri_vertex h (show 1 < 3 by omega) 0 (by omega),
          tri_vertex h (show 1 < 3 by omega) 1 (by omega), tri_vertex h (show 2 < 3 by omega) 0 (by omega), tri_vertex h (show 2 < 3 by omega) 1 (by omega)] <;> norm_num)
  · rw [pts 0 (by omega), pts 1 (by omega)]
    unfold solR sideL
    rw [if_pos hdf, hpf, hcell, idx_cast, hw, ← ho]
    unfold ghostPoint
    rw [hcell, idx_cast]
    simp only [gradD, if_true, gradPts2, cut, nodePt, show (0:Nat) < 2 by omega, show (1:Nat) < 2 by omega, hfc 0 (by omega), hfc 1 (by omega), List.getD_cons_zero, List.getD_cons_succ, ghostcenter2, hcen 0 (by omega), hcen 1 (by omega)]
    interval_cases a <;> interval_cases b <;> first | (exact absurd rfl hab) |
      (rcases hfn with e | e <;> rw [e] <;> simp only [List.getD_cons_zero, List.getD_cons_succ] <;> simp only [hvx, hpn 0 (by omega), hpn 1 (by omega), hpn 2 (by omega),
          tri_vertex h (show 0 < 3 by omega) 0 (by omega), tri_vertex h (show 0 < 3 by omega) 1 (by omega), tri_vertex h (show 1 < 3 by omega) 0 (by omega),
          tri_vertex h (show 1 < 3 by omega) 1 (by omega), tri_vertex h (show 2 < 3 by omega) 0 (by omega), tri_vertex h (show 2 < 3 by omega) 1 (by omega), slope] <;> norm_num)

/-- The three sides of the triangle. -/
theorem slope_sides (h : Launched 3 (fun _ j => j) (realNode triNode) (centvol2 (realNode triNode) (fun _ j => j)) (fun _ => 0) (fun _ => 0) 3 1 2 data serial)
    {hgG : HGResult ℝ} (sG : HGSerial 2 (build2 Real.sqrt Int.floor 1 serial) 3 hgG) (w : Interp.Fields ℝ) (hw : w.c 0 = 2 / 3) (nd : Nat → ℝ)
    {G : Tables ℝ} (hG : G = build2 Real.sqrt Int.floor 1 serial) {E : Nat → Vec ℝ} (hE : E = solGrads 2 G slopeBC w nd) :
    ∃ F0 F1 F2, G.boundaryfaces.Perm [F0, F1, F2] ∧ (∀ g : Nat → ℝ, ∑ j ∈ Finset.range 3, g (G.faceid 0 j) = g F0 + g F1 + g F2) ∧
      (∀ F ∈ [F0, F1, F2], G.cellid F 0 = ((0 : Nat) : Int) ∧ G.normal F 2 = 0 ∧ E F 2 = 0) ∧
      (G.normal F0 0 = 0 ∧ G.normal F0 1 = -2 ∧ E F0 0 = -1 ∧ E F0 1 = 1 / 2) ∧
      (G.normal F1 0 = -2 ∧ G.normal F1 1 = 0 ∧ E F1 0 = -1 ∧ E F1 1 = 0) ∧
      (G.normal F2 0 = 2 ∧ G.normal F2 1 = 2 ∧ E F2 0 = -1 ∧ E F2 1 = 0) := by
  have vm := validReal triValid
  have np := h.nodePair2 vm Real.sqrt Int.floor floor_real
  have R := np.run.rank 0 (by omega)
  obtain ⟨j0, l0, p0, q0⟩ := slope_face h sG w hw nd 0 1 (by omega) (by omega) (by omega)
  obtain ⟨j1, l1, p1, q1⟩ := slope_face h sG w hw nd 0 2 (by omega) (by omega) (by omega)
  obtain ⟨j2, l2, p2, q2⟩ := slope_face h sG w hw nd 1 2 (by omega) (by omega) (by omega)
  have q0 := q0 _ rfl
  have q1 := q1 _ rfl
  have q2 := q2 _ rfl
  rw [← hG] at p0 p1 p2 q0 q1 q2 R
  rw [← hE] at q0 q1 q2
  have c0 : 0 < G.nbcells := by rw [hG, np.run.nG]; omega
  have n01 : j0 ≠ j1 := by rintro rfl; have := (p0.trans p1.symm).subset (show 1 ∈ [0, 1] by simp); simp at this
  have n02 : j0 ≠ j2 := by rintro rfl; have := (p0.trans p2.symm).subset (show 0 ∈ [0, 1] by simp); simp at this
  have n12 : j1 ≠ j2 := by rintro rfl; have := (p1.trans p2.symm).subset (show 0 ∈ [0, 2] by simp); simp at this
  obtain ⟨b0, e0, z0, y0, m0, v0⟩ := q0
  obtain ⟨b1, e1, z1, y1, m1, v1⟩ := q1
  obtain ⟨b2, e2, z2, y2, m2, v2⟩ := q2
  simp only [Nat.zero_add, if_true, Prod.mk.injEq] at m0 v0
  simp only [Nat.zero_add, if_true, Prod.mk.injEq, show ¬ (2 = 1) by omega, if_false] at m1 v1
  simp only [Prod.mk.injEq, show ¬ (1 + 2 = 1) by omega, show ¬ (1 + 2 = 2) by omega, if_false] at m2 v2
  refine ⟨G.faceid 0 j0, G.faceid 0 j1, G.faceid 0 j2, ?_, fun g => sum_three j0 j1 j2 l0 l1 l2 n01 n02 n12 (fun j => g (G.faceid 0 j)), ?_,
    ⟨m0.1, m0.2, v0.1, v0.2⟩, ⟨m1.1, m1.2, v1.1, v1.2⟩, ⟨m2.1, m2.2, v2.1, v2.2⟩⟩
  · have hnd : [G.faceid 0 j0, G.faceid 0 j1, G.faceid 0 j2].Nodup := by
      simp only [List.nodup_cons, List.mem_cons, List.not_mem_nil, or_false, not_or, not_false_eq_true, List.nodup_nil, and_true]
      exact ⟨⟨fun x => n01 (R.cG.inj 0 c0 _ l0 _ l1 x), fun x => n02 (R.cG.inj 0 c0 _ l0 _ l2 x)⟩, fun x => n12 (R.cG.inj 0 c0 _ l1 _ l2 x)⟩
    refine (List.perm_ext_iff_of_nodup R.cG.bnd.1 hnd).mpr fun f => ⟨fun hf => ?_, fun hf => ?_⟩
    · obtain ⟨C, hC, j, hj, rfl⟩ := R.cG.fsurj f ((R.cG.bnd.2 f).mp hf).1
      obtain rfl : C = 0 := by rw [hG, np.run.nG] at hC; omega
      have : j = j0 ∨ j = j1 ∨ j = j2 := by omega
      rcases this with rfl | rfl | rfl <;> simp
    · simp at hf
      rcases hf with rfl | rfl | rfl
      · exact b0
      · exact b1
      · exact b2
  · intro F hF
    simp at hF
    rcases hF with rfl | rfl | rfl
    · exact ⟨e0, z0, y0⟩
    · exact ⟨e1, z1, y1⟩
    · exact ⟨e2, z2, y2⟩

/-- A solution of the system is not 2/3. -/
theorem slope_row (h : Launched 3 (fun _ j => j) (realNode triNode) (centvol2 (realNode triNode) (fun _ j => j)) (fun _ => 0) (fun _ => 0) 3 1 2 data serial)
    {hgG : Nat → HGResult ℝ} (sG : HGSerial 2 (build2 Real.sqrt Int.floor 1 serial) 3 (hgG 0)) (x : Nat → ℝ)
    (hx : ∑ j ∈ Finset.range 1, matrixOf (serW 2 serial (build2 Real.sqrt Int.floor 1 serial) hgG) slopeBC 0 j * x j =
      boundaryOf (serW 2 serial (build2 Real.sqrt Int.floor 1 serial) hgG) slopeBC 0) : x 0 ≠ 2 / 3 := by
  intro hx0
  have vm := validReal triValid
  have np := h.nodePair2 vm Real.sqrt Int.floor floor_real
  have R := np.run.rank 0 (by omega)
  have oG := np.linOkG (by omega) sG
  have hgn := ghostNormal_build2 h vm Real.sqrt (fun x hx => (Real.sqrt_pos.mpr hx).ne') Int.floor floor_real
  have hcm : CornersMatch 2 (build2 Real.sqrt Int.floor 1 serial) slopeBC := C110_dirichlet_corners_2d h vm Real.sqrt Int.floor floor_real (fun _ => slope)
  obtain ⟨G, hG⟩ : ∃ G, G = build2 Real.sqrt Int.floor 1 serial := ⟨_, rfl⟩
  have c0 : 0 < G.nbcells := by rw [hG, np.run.nG]; omega
  obtain ⟨w, hwd⟩ : ∃ w, w = linW 2 1 serial G (hgG 0) x := ⟨_, rfl⟩
  have hc0 : w.c 0 = 2 / 3 := by rw [hwd]; exact hx0
  obtain ⟨E, hE⟩ : ∃ E, E = solGrads 2 G slopeBC w (fun _ => 0) := ⟨_, rfl⟩
  obtain ⟨F0, F1, F2, hp, hsum, hz, a0, a1, a2⟩ := slope_sides h sG w hc0 (fun _ => 0) hG hE
  have eG : (linMesh 2 1 serial G (hgG 0)).loctoglob 0 = 0 := by simp [linMesh]
  rw [← hG] at oG np R sG hgn hcm hx
  have r1 := oG.row slopeBC x c0
  rw [eG, oG.balance_dissip slopeBC _ c0, apply_matrix np (by omega) hgn hcm (fun loc => Or.inl rfl) sG x c0, ← hwd, R.cG.dissip unitD _ c0] at r1
  have hg : ∀ F ∈ [F0, F1, F2], diffTerm G unitD (linGrad 2 1 serial G (hgG 0) slopeBC w) 0 F = - through G E F := by
    intro F hF
    obtain ⟨hfl, hB⟩ := (R.cG.bnd.2 F).mp (hp.symm.subset hF)
    have hn0 : G.name F ≠ 0 := fun x => by rw [x] at hB; exact R.cG.B0 hB
    have hn1 : G.name F ≠ 10 := fun x => by rw [x] at hB; exact R.cG.B10 hB
    have hdf : dirFace 2 G slopeBC F := ⟨np.run.hB _ hB, rfl⟩
    have hk : ∀ k < 3, linGrad 2 1 serial G (hgG 0) slopeBC w F k = - E F k := by
      intro k hk
      rw [hE, solGrads_pts (Or.inl rfl) R.cG np.hBe (by omega) slopeBC w _ hfl (oG.names _ hfl) hk, neg_neg]
      unfold linGrad
      rw [if_neg (by rintro (x | x); exacts [hn0 x, hn1 x]), if_pos (show (slopeBC (G.name F)).isDirichlet = true from rfl)]
      have e1 : solNode 2 G slopeBC (fun _ => 0) F = pbordNode 2 G slopeBC := funext fun i => by unfold solNode; rw [if_pos hdf]
      unfold solR
      rw [e1, if_pos hdf]
    unfold diffTerm
    rw [(hz F hF).1, if_pos (show (((0 : Nat) : Int)).toNat = 0 from rfl), if_neg (fun x => hn0 x.1)]
    unfold Spec.diffFlux through
    simp only [hk 0 (by omega), hk 1 (by omega), hk 2 (by omega), unitD]
    ring
  have hs : ∑ j ∈ Finset.range (2 + 1), diffTerm G unitD (linGrad 2 1 serial G (hgG 0) slopeBC w) 0 (G.faceid 0 j) = 1 := by
    rw [hsum (diffTerm G unitD (linGrad 2 1 serial G (hgG 0) slopeBC w) 0), hg F0 (by simp), hg F1 (by simp), hg F2 (by simp)]
    unfold through
    rw [a0.1, a0.2.1, a0.2.2.1, a0.2.2.2, a1.1, a1.2.1, a1.2.2.1, a1.2.2.2, a2.1, a2.2.1, a2.2.2.1, a2.2.2.2, (hz F0 (by simp)).2.1, (hz F1 (by simp)).2.1, (hz F2 (by simp)).2.1]
    norm_num
  have hv := (h.solid2 vm Real.sqrt (fun x hx => (Real.sqrt_pos.mpr hx).ne') Int.floor floor_real).vpos 0 (hG ▸ c0)
  rw [hs] at r1
  simp only [matrixOf_serial, boundaryOf_serial] at hx
  rw [hx, sub_self] at r1
  rw [← hG] at hv
  have : 0 < 1 / G.volume 0 := by positivity
  linarith

/-- A linear potential prescribed on all sides is not returned in general: on this mesh every solution of the assembled system differs from the potential at the
cell centre; in particular no linear solver returns it, and `EvenSides2` cannot be dropped. -/
theorem C128_not_general : ValidMesh2 (fun _ j => j) (realNode triNode) 3 1 ∧
    ∃ serial W, readMeshFile 1 0 (writeSerial (serialWrite (fun _ j => j) (realNode triNode) 3 1 3)) [] = some serial ∧
    mkWorld 2 1 (fun _ => serial) (fun _ => build2 Real.sqrt Int.floor 1 serial) = some W ∧
    ∀ x : Nat → ℝ, (∀ i < 1, ∑ j ∈ Finset.range 1, matrixOf W (fun _ => .dirichlet (fun x _ _ => x)) i j * x j = boundaryOf W (fun _ => .dirichlet (fun x _ _ => x)) i) →
      x 0 ≠ (W.D 0).center 0 0 := by
  have vm := validReal triValid
  obtain ⟨serial, hr⟩ : ∃ serial, readMeshFile 1 0 (writeSerial (serialWrite (fun _ j => j) (realNode triNode) 3 1 3)) [] = some serial := ⟨_, C25_round_trip_serial _ _⟩
  obtain ⟨data, h⟩ := launched_of_serial (centvol2 (realNode triNode) (fun _ j => j)) (by omega) vm.nodes vm.used hr
  have np := h.nodePair2 vm Real.sqrt Int.floor floor_real
  obtain ⟨hgL, hgG, w1, w2, sL, sG⟩ := np.worlds
  refine ⟨vm, serial, _, hr, w2, fun x hx => ?_⟩
  have hcen : (build2 Real.sqrt Int.floor 1 serial).center 0 0 = 2 / 3 := by
    rw [center_build2 Real.sqrt Int.floor 1 serial (by rw [h.serial_cells.1]; omega), h.row2S (by omega)]
    simp only [center2]
    rw [tri_vertex h (by omega) _ (by omega), tri_vertex h (by omega) _ (by omega), tri_vertex h (by omega) _ (by omega)]; norm_num
  show x 0 ≠ (build2 Real.sqrt Int.floor 1 serial).center 0 0
  rw [hcen]
  exact slope_row h sG x (hx 0 (by omega))
end
end Verif.Props.Par
