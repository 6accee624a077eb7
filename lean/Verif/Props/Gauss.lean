import Verif.Props.ParSolGrad
import Verif.Props.Diffusion
import Verif.Spec.LinField

/-!
C110: the field computed from the solution of a linear system satisfies the discrete Gauss law in every cell.
-/
set_option linter.unusedSectionVars false
set_option linter.unusedVariables false
set_option linter.unusedSimpArgs false
namespace Verif.Props.Par
open Verif.Fvm Verif.Spec Verif.Conn Verif.Dom Verif.Geo Verif.Names Verif.MeshFile Verif.Part Verif.Comm Verif.Run Verif.HaloGhost Verif.Interp
open Verif.LinSolve (ReadsRows SolvedWith InPlace)
variable {K : Type*} [Field K] [LinearOrder K] [IsStrictOrderedRing K]

/-! ### the flux out of a cell as a dissipative residual -/

theorem diffTerm_unit (D : Tables K) (E : Nat → Vec K) (c f : Nat) : diffTerm D (unitD : Setup K) E c f =
    (if (D.cellid f 0).toNat = c then through D E f else 0) - (if D.name f = 0 ∧ (D.cellid f 1).toNat = c then through D E f else 0) := by
  have : diffFlux (fun f => E f 0) (fun f => E f 1) (fun f => E f 2) D.normal (unitD : Setup K).Dxx (unitD : Setup K).Dyy (unitD : Setup K).Dzz f =
      through D E f := by simp only [diffFlux, unitD, through, one_mul]
  unfold diffTerm; rw [this]

theorem fieldOut_local {L G : Tables K} {d1 : Nat} {φ : Nat → Nat} {mine : Nat → Prop} {ext : List (List Nat)} {B : List Int}
    {out : Nat → Nat → Vec K} (h : RankOf L G d1 φ mine ext B out) (E : Nat → Vec K) {c : Nat} (hc : c < L.nbcells) :
    fieldOut L d1 E c = Run.dissip L unitD E c := by
  rw [h.cL.dissip _ _ hc]
  apply Finset.sum_congr rfl
  intro j hj
  have hj := Finset.mem_range.mp hj
  rw [diffTerm_unit]
  rcases h.kinds hc hj with ⟨hbL, hbG, hBm, hnm, l0, g0⟩ | ⟨e, he, hne, hLn, hGn, hk⟩ | ⟨E', hE, row, hm, hLn, hGn, hrow, hhead, l0, hk⟩
  · have n0 : L.name (L.faceid c j) ≠ 0 := fun x => h.cL.B0 (x ▸ hBm)
    rw [l0]; simp [n0]
  · rcases hk with ⟨k1, k2, _⟩ | ⟨k1, k2, _⟩
    · rw [k1, k2]; simp [hLn, hne]
    · rw [k1, k2]; simp [hLn, hne]
  · rw [l0]; simp [hLn]

theorem fieldOut_global {L G : Tables K} {d1 : Nat} {φ : Nat → Nat} {mine : Nat → Prop} {ext : List (List Nat)} {B : List Int}
    {out : Nat → Nat → Vec K} (h : RankOf L G d1 φ mine ext B out) (E : Nat → Vec K) {c : Nat} (hc : c < G.nbcells) :
    fieldOut G d1 E c = Run.dissip G unitD E c := by
  rw [h.cG.dissip _ _ hc]
  apply Finset.sum_congr rfl
  intro j hj
  have hj := Finset.mem_range.mp hj
  rw [diffTerm_unit]
  rcases h.gkinds hc hj with ⟨hBm, _, _, l0⟩ | ⟨e, he, hne, hLn, _, _, hk⟩
  · have n0 : G.name (G.faceid c j) ≠ 0 := fun x => h.cG.B0 (x ▸ hBm)
    rw [l0]; simp [n0]
  · rcases hk with ⟨k1, k2⟩ | ⟨k1, k2⟩
    · rw [k1, k2]; simp [hLn, hne]
    · rw [k1, k2]; simp [hLn, hne]

section
variable {dim : Nat} {nodeid : Nat → Nat → Nat} {node : Nat → K × K × K × Nat} {cv : Nat → List K} {npart0 epart : Nat → Nat}
  {nbnodes n SIZE : Nat} {data : Nat → RankData K} {serial : RankData K} {L : Nat → Tables K} {G : Tables K} {B : List Int}
  {out : Nat → Nat → Vec K} {trunc : K → Int}

/-- The value at a node with Neumann faces only does not depend on the conditions elsewhere. -/
theorem node_neumann (h : NodePair dim nodeid node cv npart0 epart nbnodes n SIZE data serial L G B out trunc) {bc : Int → BCond K}
    {hgG : HGResult K} (sG : HGSerial dim G nbnodes hgG) {w w' : Interp.Fields K} (v : ValuesG dim G bc w) (v' : ValuesG dim G (fun _ => .neumann) w')
    (hc : ∀ C < G.nbcells, w.c C = w'.c C) {s : Nat} (hi : s < nbnodes) (hb : ∀ F ∈ G.boundaryfaces, s ∈ G.fnode F → bc (G.name F) = .neumann) :
    nodeValues dim 1 serial G hgG w s = nodeValues dim 1 serial G hgG w' s := by
  have h0 : 0 < SIZE := by have := h.run.hS; omega
  have R := h.run.rank 0 h0
  have st : SameStencil dim (nodeStencil dim (nodeTabs dim 1 serial G hgG) w s) (nodeStencil dim (nodeTabs dim 1 serial G hgG) w' s) := by
    unfold SameStencil
    rw [h.node_stencilG sG v hi, h.node_stencilG sG v' hi]
    have e1 : (users nodeid (dim + 1) n s).map (EC dim G w.c) = (users nodeid (dim + 1) n s).map (EC dim G w'.c) :=
      List.map_congr_left fun C hC => by
        unfold EC; rw [hc C (by rw [h.run.nG]; exact ((mem_users _ _ _ _ _).mp hC).1)]
    have e2 : (bf G s).map (EF dim G w.c bc) = (bf G s).map (EF dim G w'.c (fun _ => .neumann)) :=
      List.map_congr_left fun F hF => by
        obtain ⟨f1, f2, f3⟩ := (mem_bf _ _ _).mp hF
        obtain ⟨c, hcl, e⟩ := R.first_lt f1
        unfold EF
        rw [hb F f2 f3]
        simp only [ghostVal]
        rw [e, idx_cast, hc c hcl]
    rw [e1, e2]
  unfold nodeValues
  rcases h.run.hd with rfl | rfl
  · rw [if_pos rfl, if_pos rfl]; exact node_value2 _ _ _ _ _ _ (fun _ _ => rfl) st
  · rw [if_neg (by decide), if_neg (by decide)]; exact node_value3 _ _ _ _ _ _ (fun _ _ => rfl) st

theorem gradD_congr {dim : Nat} (hd : dim = 2 ∨ dim = 3) (D : Tables K) (a b : Nat → K) (f : Nat) (l r : Vec K × K)
    (hab : ∀ j < dim, a ((D.fnode f).getD j 0) = b ((D.fnode f).getD j 0)) : gradD dim D a f l r = gradD dim D b f l r := by
  unfold gradD nodePt
  rcases hd with rfl | rfl
  · rw [if_pos rfl, if_pos rfl, hab 0 (by omega), hab 1 (by omega)]
  · rw [if_neg (by decide), if_neg (by decide), hab 0 (by omega), hab 1 (by omega), hab 2 (by omega)]

/-- No flux through a boundary face with the same value on both sides. -/
theorem gradD_insul {D : Tables K} (hd : dim = 2 ∨ dim = 3) (node : Nat → K) (f : Nat) (l r : Vec K × K) (ev : r.2 = l.2) (t : K)
    (ep : ∀ k < dim, r.1 k - l.1 k = t * D.normal f k) :
    gradD dim D node f l r 0 * D.normal f 0 + gradD dim D node f l r 1 * D.normal f 1 + gradD dim D node f l r 2 * D.normal f 2 = 0 := by
  rcases hd with rfl | rfl
  · have p0 := ep 0 (by omega)
    have p1 := ep 1 (by omega)
    simp only [gradD, if_true, gradPts2, zero_mul, add_zero]
    rw [ev, show l.1 1 - r.1 1 = - (t * D.normal f 1) by rw [← p1]; ring, show l.1 0 - r.1 0 = - (t * D.normal f 0) by rw [← p0]; ring]
    ring
  · have p0 := ep 0 (by omega)
    have p1 := ep 1 (by omega)
    have p2 := ep 2 (by omega)
    simp only [gradD, if_neg (show ¬ 3 = 2 by decide)]
    unfold gradPts3
    simp only [wedge]
    rw [ev, p0, p1, p2]
    ring

/-- The field of a solution against the gradient of the scheme: the same flux (up to sign) through every face of the serial mesh. -/
theorem field_flux (h : NodePair dim nodeid node cv npart0 epart nbnodes n SIZE data serial L G B out trunc)
    (hw : dim = 3 → WedgeOk G ∧ ∀ p < SIZE, WedgeOk (L p)) (hgn : GhostNormal dim G) {bc : Int → BCond K} (hcm : CornersMatch dim G bc)
    (hdn : DirichletOrNeumann bc) {hgG : HGResult K} (sG : HGSerial dim G nbnodes hgG) {w : Interp.Fields K} (v : ValuesG dim G bc w) (P : Nat → K)
    (hP : ∀ C < G.nbcells, w.c C = P C) {f : Nat} (hf : f < G.nbfaces) :
    through G (solGrads dim G bc w (nodeValues dim 1 serial G hgG w)) f =
      - through G (linGrad dim 1 serial G hgG bc (linW dim 1 serial G hgG P)) f := by
  have h0 : 0 < SIZE := by have := h.run.hS; omega
  have R := h.run.rank 0 h0
  have oG := h.linOkG hw sG
  obtain ⟨c0, hc0, e0⟩ := R.first_lt hf
  have v' := (h.linVals P h0 hgG hgG).2
  have hc : ∀ C < G.nbcells, w.c C = (linW dim 1 serial G hgG P).c C := by
    intro C hC
    rw [hP C hC]; simp [linW, linMesh]
  have hL : sideL dim G w f = sideL dim G (linW dim 1 serial G hgG P) f := by
    unfold sideL; rw [e0, idx_cast, hc c0 hc0]
  have pts : ∀ k < 3, solGrads dim G bc w (nodeValues dim 1 serial G hgG w) f k =
      - gradD dim G (solNode dim G bc (nodeValues dim 1 serial G hgG w) f) f (sideL dim G w f) (solR dim G bc w f) k :=
    fun k hk => solGrads_pts h.run.hd R.cG h.hBe (fun e => (hw e).1) bc w _ hf (oG.names f hf) hk
  obtain ⟨X, hX⟩ : ∃ X, X = gradD dim G (solNode dim G bc (nodeValues dim 1 serial G hgG w) f) f (sideL dim G w f) (solR dim G bc w f) := ⟨_, rfl⟩
  rw [← hX] at pts
  obtain ⟨Y, hY⟩ : ∃ Y, Y = linGrad dim 1 serial G hgG bc (linW dim 1 serial G hgG P) f := ⟨_, rfl⟩
  have key : X 0 * G.normal f 0 + X 1 * G.normal f 1 + X 2 * G.normal f 2 = Y 0 * G.normal f 0 + Y 1 * G.normal f 1 + Y 2 * G.normal f 2 := by
    obtain ⟨c, hcl, j, hj, rfl⟩ := R.cG.fsurj f hf
    have loc : ∀ b : Int, b ∈ B ↔ b ∈ locNames dim := oG.loc
    rcases R.gkinds hcl hj with ⟨hBm, hbd, _, l0⟩ | ⟨e, he, hne, hn, _, _, hk⟩
    · have n0 : G.name (G.faceid c j) ≠ 0 := fun x => R.cG.B0 (x ▸ hBm)
      have n10 : G.name (G.faceid c j) ≠ 10 := fun x => R.cG.B10 (x ▸ hBm)
      have hnn : ¬ (G.name (G.faceid c j) = 0 ∨ G.name (G.faceid c j) = 10) := by rintro (x | x); exacts [n0 x, n10 x]
      by_cases hD : (bc (G.name (G.faceid c j))).isDirichlet = true
      · have hdf : dirFace dim G bc (G.faceid c j) := ⟨(loc _).mp hBm, hD⟩
        have : X = Y := by
          rw [hX, hY]
          unfold linGrad
          rw [if_neg hnn, if_pos hD, hL]
          have e1 : solR dim G bc w (G.faceid c j) =
              cut dim (otherPt dim G (G.faceid c j), 2 * pbordFace dim G bc (G.faceid c j) - (linW dim 1 serial G hgG P).c (idx (G.cellid (G.faceid c j) 0))) := by
            unfold solR; rw [if_pos hdf, e0, idx_cast, hc c0 hc0]
          rw [e1]
          exact gradD_congr h.run.hd G _ _ _ _ _ (fun i _ => by unfold solNode; rw [if_pos hdf])
        rw [this]
      · have hN : bc (G.name (G.faceid c j)) = .neumann := (hdn _).resolve_left hD
        have hdf : ¬ dirFace dim G bc (G.faceid c j) := fun x => hD x.2
        have hY0 : Y = fun _ => 0 := by rw [hY]; unfold linGrad; rw [if_neg hnn, if_neg hD]
        obtain ⟨t, ht⟩ := hgn _ hbd
        obtain ⟨g0, hg0⟩ := v.ghost
        rw [hY0, hX, gradD_insul h.run.hd _ _ _ _ ?_ t ?_]
        · simp
        · unfold solR sideL cut
          rw [if_neg hdf]
          unfold otherVal
          rw [if_neg n0, if_neg n10, hg0, updateGhosts_apply _ _ _ _ _ hf ((loc _).mp hBm), hN]
          rfl
        · intro k hk
          have e2 := ht k hk
          unfold solR sideL cut otherPt
          rw [if_neg n0, if_neg n10]
          simp only [if_pos hk]
          exact e2
    · have hdf : ¬ dirFace dim G bc (G.faceid c j) := fun x => R.cG.B0 ((loc _).mpr (hn ▸ x.1))
      have : X = Y := by
        rw [hX, hY]
        unfold linGrad
        rw [if_pos (Or.inl hn), hL]
        have e1 : solR dim G bc w (G.faceid c j) = sideR dim G (linW dim 1 serial G hgG P) (G.faceid c j) := by
          unfold solR sideR
          rw [if_neg hdf]
          unfold otherVal
          rw [if_pos hn, if_pos hn]
          rcases hk with ⟨_, k2⟩ | ⟨_, k2⟩
          · rw [k2, idx_cast, hc e he]
          · rw [k2, idx_cast, hc c hcl]
        rw [e1]
        refine gradD_congr h.run.hd G _ _ _ _ _ (fun i hi => ?_)
        have hm := oG.fnode_lt hf hi
        obtain ⟨s, hs⟩ : ∃ s, s = (G.fnode (G.faceid c j)).getD i 0 := ⟨_, rfl⟩
        have hm' : s < nbnodes := by rw [← h.nbG, hs]; exact hm.2
        rw [← hs]
        unfold solNode vertD nodeValue
        rw [if_neg hdf]
        by_cases hd : G.oldname s ∈ bcDirichlet dim bc
        · simp [hd]
        · rw [if_neg hd]
          have := node_neumann h sG v v' hc hm' (fun F hF hsF => by
            rcases hcm F hF s hsF with ⟨x1, x2⟩ | x
            · exact absurd (List.mem_filter.mpr ⟨x1, x2⟩) hd
            · exact x)
          simpa [hd] using this
      rw [this]
  unfold through
  rw [pts 0 (by omega), pts 1 (by omega), pts 2 (by omega), ← hY]
  linear_combination - key

theorem dissip_through (h : NodePair dim nodeid node cv npart0 epart nbnodes n SIZE data serial L G B out trunc) (E E' : Nat → Vec K)
    (he : ∀ f < G.nbfaces, through G E f = - through G E' f) {c : Nat} (hc : c < G.nbcells) :
    Run.dissip G unitD E c = - Run.dissip G unitD E' c := by
  have h0 : 0 < SIZE := by have := h.run.hS; omega
  have R := h.run.rank 0 h0
  rw [R.cG.dissip _ _ hc, R.cG.dissip _ _ hc, ← Finset.sum_neg_distrib]
  apply Finset.sum_congr rfl
  intro j hj
  rw [diffTerm_unit, diffTerm_unit, he _ (R.cG.flt c hc j (Finset.mem_range.mp hj))]
  split_ifs <;> ring

theorem applyT_lin (ts : List (LinSys.Triplet K)) (a : Nat → K) (m i : Nat) :
    LinSys.applyT ts (fun k => ∑ j ∈ Finset.range m, a j * (if k = j then 1 else 0)) i = ∑ j ∈ Finset.range m, LinSys.entryT ts i j * a j := by
  induction ts with
  | nil => simp [LinSys.applyT, LinSys.entryT]
  | cons t ts ih =>
    have e1 : ∀ P, LinSys.applyT (t :: ts) P i = (if t.1 = i then t.2.2 * P t.2.1 else 0) + LinSys.applyT ts P i := fun P => by simp [LinSys.applyT]
    have e2 : ∀ j, LinSys.entryT (t :: ts) i j = (if t.1 = i ∧ t.2.1 = j then t.2.2 else 0) + LinSys.entryT ts i j := fun j => by simp [LinSys.entryT]
    rw [e1, ih]
    simp only [e2, add_mul, Finset.sum_add_distrib]
    congr 1
    by_cases ht : t.1 = i
    · rw [if_pos ht, Finset.mul_sum]
      refine Finset.sum_congr rfl fun j _ => ?_
      by_cases hj : t.2.1 = j <;> simp [ht, hj]
    · rw [if_neg ht]
      simp [ht]

/-- The matrix of the serial system applied to cell values. -/
theorem apply_matrix (h : NodePair dim nodeid node cv npart0 epart nbnodes n SIZE data serial L G B out trunc)
    (hw : dim = 3 → WedgeOk G ∧ ∀ p < SIZE, WedgeOk (L p)) (hgn : GhostNormal dim G) {bc : Int → BCond K} (hcm : CornersMatch dim G bc)
    (hdn : DirichletOrNeumann bc) {hgG : HGResult K} (sG : HGSerial dim G nbnodes hgG) (P : Nat → K) {c : Nat} (hc : c < G.nbcells) :
    LinSys.applyT (tripletsD dim 1 serial G hgG bc) P c = ∑ j ∈ Finset.range n, LinSys.entryT (tripletsD dim 1 serial G hgG bc) c j * P j := by
  have oG := h.linOkG hw sG
  have eG : (linMesh dim 1 serial G hgG).loctoglob c = c := by simp [linMesh]
  rw [← applyT_lin]
  obtain ⟨P', hP'⟩ : ∃ P' : Nat → K, P' = fun k => ∑ j ∈ Finset.range n, P j * (if k = j then 1 else 0) := ⟨_, rfl⟩
  rw [← hP']
  have hPP : ∀ C < G.nbcells, P C = P' C := by
    intro C hC
    rw [hP', h.run.nG] at *
    simp [hC]
  have r1 := oG.row bc P hc
  have r2 := oG.row bc P' hc
  rw [eG, oG.balance_dissip bc _ hc] at r1 r2
  obtain ⟨w, hw1⟩ : ∃ w : Interp.Fields K, w = { c := P, ghost := updateGhosts dim G P bc (fun _ => 0), halo := fun _ => 0, haloghost := fun _ => 0 } := ⟨_, rfl⟩
  have v : ValuesG dim G bc w := ⟨⟨fun _ => 0, by rw [hw1]⟩⟩
  have hwc : w.c = P := by rw [hw1]
  have d1 := dissip_through h _ _ (fun f hf => field_flux h hw hgn hcm hdn sG v P (fun C _ => by rw [hwc]) hf) hc
  have d2 := dissip_through h _ _ (fun f hf => field_flux h hw hgn hcm hdn sG v P' (fun C hC => by rw [hwc]; exact hPP C hC) hf) hc
  have : Run.dissip G unitD (linGrad dim 1 serial G hgG bc (linW dim 1 serial G hgG P)) c =
      Run.dissip G unitD (linGrad dim 1 serial G hgG bc (linW dim 1 serial G hgG P')) c := by linear_combination d1 - d2
  rw [this, ← r2] at r1
  linear_combination r1

/-- The discrete Gauss law on one process for cell values that solve the system. -/
theorem gauss_cells (h : NodePair dim nodeid node cv npart0 epart nbnodes n SIZE data serial L G B out trunc) (hs : Solid G dim out)
    (hw : dim = 3 → WedgeOk G ∧ ∀ p < SIZE, WedgeOk (L p)) (hgn : GhostNormal dim G) {bc : Int → BCond K} (hcm : CornersMatch dim G bc)
    (hdn : DirichletOrNeumann bc) {hgG : HGResult K} (sG : HGSerial dim G nbnodes hgG) {w : Interp.Fields K} (v : ValuesG dim G bc w) (r : Nat → K)
    {c : Nat} (hc : c < G.nbcells)
    (hsol : ∑ j ∈ Finset.range n, LinSys.entryT (tripletsD dim 1 serial G hgG bc) c j * w.c j = rhsD dim 1 serial G hgG bc c + r c) :
    Run.dissip G unitD (solGrads dim G bc w (nodeValues dim 1 serial G hgG w)) c = - (G.volume c * r c) := by
  have oG := h.linOkG hw sG
  have eG : (linMesh dim 1 serial G hgG).loctoglob c = c := by simp [linMesh]
  have r1 := oG.row bc w.c hc
  rw [eG, oG.balance_dissip bc _ hc, apply_matrix h hw hgn hcm hdn sG w.c hc, hsol] at r1
  rw [dissip_through h _ _ (fun f hf => field_flux h hw hgn hcm hdn sG v w.c (fun C _ => rfl) hf) hc]
  have hv := (hs.vpos c hc).ne'
  have r2 : r c = Run.dissip G unitD (linGrad dim 1 serial G hgG bc (linW dim 1 serial G hgG w.c)) c / G.volume c := by linear_combination r1
  rw [r2, mul_div_cancel₀ _ hv]

theorem matrixOf_serial (hgG : Nat → HGResult K) (bc : Int → BCond K) (i j : Nat) :
    matrixOf (serW dim serial G hgG) bc i j = LinSys.entryT (tripletsD dim 1 serial G (hgG 0) bc) i j := by
  show ((List.range 1).map _).sum = _
  simp; rfl

theorem boundaryOf_serial (hgG : Nat → HGResult K) (bc : Int → BCond K) (i : Nat) :
    boundaryOf (serW dim serial G hgG) bc i = rhsD dim 1 serial G (hgG 0) bc i := by
  show ((List.range 1).map _).sum = _
  simp; rfl

/-- The cells after a serial solve. -/
theorem serial_solution (h : NodePair dim nodeid node cv npart0 epart nbnodes n SIZE data serial L G B out trunc)
    (hw : dim = 3 → WedgeOk G ∧ ∀ p < SIZE, WedgeOk (L p)) {bc : Int → BCond K}
    {hgG : Nat → HGResult K} (sG : HGSerial dim G nbnodes (hgG 0)) {direct : (Nat → Nat → K) → (Nat → K) → Nat → K} (hdir : ReadsRows n direct)
    {sv : LinSolve.Solver} {r : Nat → K} {t' : LinSolve.St K}
    (hG : SolvedWith (linEnv (serW dim serial G hgG) bc sv direct) (linBnd (serW dim serial G hgG) bc sv) r t') {c : Nat} (hc : c < G.nbcells) :
    t'.cells 0 c = direct (matrixOf (serW dim serial G hgG) bc) (fun g => boundaryOf (serW dim serial G hgG) bc g + r g) c := by
  obtain ⟨d0, t0, t, ops', args', n1, n2, n3, n4, n5, n6⟩ := hG
  obtain ⟨nG, gG⟩ := h.lin_numbering_serial bc hgG sv direct
  have soG : LinSolve.SolverOk (linEnv (serW dim serial G hgG) bc sv direct) := by
    intro b b' hb; rw [gG] at hb ⊢; exact hdir _ _ b b' (fun _ _ _ _ => rfl) hb
  have e2 := C52_history _ (by show 0 < 1; omega) nG soG _ _ d0 t0 t t' n1 _ (h.lin_rhs_serial hw bc sG sv direct _) ops' n2 n3
    args' n4 r n5 n6 0 (by show 0 < 1; omega) c hc
  rw [e2]
  refine hdir _ _ _ _ (fun i _ j _ => rfl) (fun g _ => ?_) _ (by rw [← h.run.nG]; exact hc)
  show linRhsGlob (serW dim serial G hgG) bc 0 g + r g = boundaryOf (serW dim serial G hgG) bc g + r g
  congr 1
  show _ = ((List.range 1).map _).sum
  simp

theorem gauss_serial (h : NodePair dim nodeid node cv npart0 epart nbnodes n SIZE data serial L G B out trunc) (hs : Solid G dim out)
    (hw : dim = 3 → WedgeOk G ∧ ∀ p < SIZE, WedgeOk (L p)) (hgn : GhostNormal dim G) {bc : Int → BCond K} (hcm : CornersMatch dim G bc)
    (hdn : DirichletOrNeumann bc) {hgG : Nat → HGResult K} (sG : HGSerial dim G nbnodes (hgG 0))
    {direct : (Nat → Nat → K) → (Nat → K) → Nat → K} (hdir : ReadsRows n direct) (hsol : SolvesSystems n direct) (sv : LinSolve.Solver) :
    GaussLaw (serW dim serial G hgG) bc sv direct n := by
  intro r s hsv hG V hV
  have h0 : 0 < SIZE := by have := h.run.hS; omega
  obtain ⟨U', e1, e2, e3⟩ := serial_update (dim := dim) serial G hgG bc V
  refine ⟨U', _, _, by unfold solGradient celltonode; rw [e1]; rfl, fun p hp c hc => ?_⟩
  obtain rfl : p = 0 := by have : p < 1 := hp; omega
  have hcG : c < G.nbcells := hc
  refine (fieldOut_global (h.run.rank 0 h0) _ hcG).trans ?_
  refine gauss_cells h hs hw hgn hcm hdn sG (e3 0) r hcG ?_
  have ew : ∀ j < n, (U' 0).fields.c j = direct (matrixOf (serW dim serial G hgG) bc) (fun g => boundaryOf (serW dim serial G hgG) bc g + r g) j := by
    intro j hj
    show (U' 0).cell j = _
    rw [e2 0, hV 0 hp, serial_solution h hw sG hdir hG (by rw [h.run.nG]; exact hj)]
  have := hsol _ _ hsv c (by rw [← h.run.nG]; exact hcG)
  rw [boundaryOf_serial] at this
  rw [← this]
  refine Finset.sum_congr rfl fun j hj => ?_
  rw [ew j (Finset.mem_range.mp hj), matrixOf_serial]

theorem gauss_par (h : NodePair dim nodeid node cv npart0 epart nbnodes n SIZE data serial L G B out trunc) (hs : Solid G dim out)
    (hw : dim = 3 → WedgeOk G ∧ ∀ p < SIZE, WedgeOk (L p)) (hgn : GhostNormal dim G) (star : StarConnected dim nodeid n)
    {bc : Int → BCond K} (hcm : CornersMatch dim G bc) (hdn : DirichletOrNeumann bc) {hgL : Nat → HGResult K}
    (sL : ∀ p < SIZE, ∃ rows, HGSpec dim SIZE data L p (hgL p) rows) {hgG : Nat → HGResult K} (sG : HGSerial dim G nbnodes (hgG 0))
    {direct : (Nat → Nat → K) → (Nat → K) → Nat → K} (hdir : ReadsRows n direct) (hsol : SolvesSystems n direct) (sv : LinSolve.Solver) :
    GaussLaw (parW dim SIZE data L hgL) bc sv direct n := by
  intro r s hsv hL V hV
  have hS := h.run.hS
  obtain ⟨a1, a2, _⟩ := h.lin_agree hw star bc sL sG
  obtain ⟨nG, gG⟩ := h.lin_numbering_serial bc hgG .mumps direct
  obtain ⟨t, ht⟩ := solvedWith_exists (linEnv (serW dim serial G hgG) bc .mumps direct) (by show 0 < 1; omega) nG (Or.inl rfl)
    (linBnd (serW dim serial G hgG) bc .mumps) r
  have hm := h.lin_solve hw star bc sL sG direct hdir sv .mumps r s t hL ht
  obtain ⟨U, hU⟩ : ∃ U : Nat → Vari K, U = fun p => ⟨t.cells p, fun _ => 0, fun _ => 0, []⟩ := ⟨_, rfl⟩
  have hmV : VMatch SIZE data L V U := by
    intro p hp c hc
    rw [hV p hp, hU]
    exact (h.cellsAgree _ _).mp hm p hp c hc
  obtain ⟨V', nL, fL, U', nG', fG, e1, e2, _, _, _, hf⟩ := solGradient_match h hw sL sG bc star (fun F hF s hs _ => hcm F hF s hs) V U hmV
  have hsvG : Solvable n (matrixOf (serW dim serial G hgG) bc) (fun g => boundaryOf (serW dim serial G hgG) bc g + r g) := by
    obtain ⟨x, hx⟩ := hsv
    refine ⟨x, fun i hi => ?_⟩
    have b1 : boundaryOf (parW dim SIZE data L hgL) bc i = boundaryOf (serW dim serial G hgG) bc i := by
      refine (a2 i).trans ?_
      rw [boundaryOf_serial]; rfl
    have := hx i hi
    beta_reduce at this ⊢
    rw [b1] at this
    rw [← this]
    refine Finset.sum_congr rfl fun j _ => ?_
    congr 1
    rw [matrixOf_serial]
    exact (a1 i j).symm
  obtain ⟨U2, n2, E2, e3, hE⟩ := gauss_serial h hs hw hgn hcm hdn sG hdir hsol .mumps r t hsvG ht U (fun p _ => by rw [hU])
  rw [e2] at e3
  obtain ⟨rfl, rfl, rfl⟩ : U' = U2 ∧ nG' = n2 ∧ fG = E2 := by
    have := Option.some.inj e3
    exact ⟨congrArg (·.1) this, congrArg (·.2.1) this, congrArg (·.2.2) this⟩
  refine ⟨V', nL, fL, e1, fun p hp c hc => ?_⟩
  have hp' : p < SIZE := hp
  have hc' : c < (L p).nbcells := hc
  have R := h.run.rank p hp'
  have hC := (R.sub.lt c hc').1
  refine (fieldOut_local R _ hc').trans ?_
  rw [h.dissip_eq unitD hp' _ (fG 0) (hf p hp') hc', ← fieldOut_global R _ hC]
  have k := hE 0 (by show 0 < 1; omega) _ hC
  refine Eq.trans k ?_
  have ev : (L p).volume c = G.volume (phi (data p) c) := h.run.volume p hp' c hc'
  have eg : (linEnv (parW dim SIZE data L hgL) bc sv direct).loctoglob p c = phi (data p) c := by
    show (if SIZE = 1 then c else _) = _
    rw [if_neg (by omega)]; rfl
  rw [eg]
  show - (G.volume _ * r _) = - ((L p).volume c * _)
  rw [ev]; rfl
end

/-! ### C110 -/

section
variable {nodeid : Nat → Nat → Nat} {node : Nat → K × K × K × Nat} {npart0 epart : Nat → Nat}
  {nbnodes n SIZE : Nat} {data : Nat → RankData K} {serial : RankData K}

/-- **C110** (2D, one process): with a solver that solves solvable systems, the field put on the faces after a solve with the source `r` has
the flux `- volume * r` out of every cell.  Partial: at a corner whose node does not carry a Dirichlet label, the faces around must be Neumann
faces (`CornersMatch`); elsewhere the matrix and the field use different values at the node. -/
theorem C110_gauss_serial_2d_partial (vm : ValidMesh2 nodeid node nbnodes n)
    (hr : readMeshFile 1 0 (writeSerial (serialWrite nodeid node nbnodes n 3)) [] = some serial)
    (sqrt : K → K) (hs : ∀ x, 0 < x → sqrt x ≠ 0) (trunc : K → Int) (htr : ∀ m : Nat, trunc (m : K) = m) :
    ∃ W, mkWorld 2 1 (fun _ => serial) (fun _ => build2 sqrt trunc 1 serial) = some W ∧
      ∀ bc : Int → BCond K, DirichletOrNeumann bc → CornersMatch 2 (build2 sqrt trunc 1 serial) bc →
        ∀ direct, ReadsRows n direct → SolvesSystems n direct → ∀ sv, InPlace sv → GaussLaw W bc sv direct n := by
  obtain ⟨data, h⟩ := launched_of_serial (centvol2 node nodeid) (by omega) vm.nodes vm.used hr
  have np := h.nodePair2 vm sqrt trunc htr
  obtain ⟨hgL, hgG, w1, w2, sL, sG⟩ := np.worlds
  exact ⟨_, w2, fun bc hdn hcm direct h1 h2 sv _ => gauss_serial np (h.solid2 vm sqrt hs trunc htr) (by omega)
    (ghostNormal_build2 h vm sqrt hs trunc htr) hcm hdn sG h1 h2 sv⟩

/-- C110 (3D, one process). -/
theorem C110_gauss_serial_3d_partial (vm : ValidMesh3 nodeid node nbnodes n)
    (hr : readMeshFile 1 0 (writeSerial (serialWrite nodeid node nbnodes n 4)) [] = some serial)
    (sqrt : K → K) (hs : ∀ x, 0 < x → sqrt x ≠ 0) (trunc : K → Int) (htr : ∀ m : Nat, trunc (m : K) = m) :
    ∃ W, mkWorld 3 1 (fun _ => serial) (fun _ => build3 sqrt trunc 1 serial) = some W ∧
      ∀ bc : Int → BCond K, DirichletOrNeumann bc → CornersMatch 3 (build3 sqrt trunc 1 serial) bc →
        ∀ direct, ReadsRows n direct → SolvesSystems n direct → ∀ sv, InPlace sv → GaussLaw W bc sv direct n := by
  obtain ⟨data, h⟩ := launched_of_serial (centvol3 node nodeid) (by omega) vm.nodes vm.used hr
  have np := h.nodePair3 vm sqrt trunc htr
  obtain ⟨hgL, hgG, w1, w2, sL, sG⟩ := np.worlds
  exact ⟨_, w2, fun bc hdn hcm direct h1 h2 sv _ => gauss_serial np (h.solid3 vm sqrt hs trunc htr)
    (fun _ => ⟨wedge_build3 sqrt trunc 1 serial, fun p _ => wedge_build3 sqrt trunc 2 (data p)⟩) (ghostNormal3 _) hcm hdn sG h1 h2 sv⟩

/-- **C110** (2D, any number of processes, any partition). -/
theorem C110_gauss_2d_partial (h : Launched 3 nodeid node (centvol2 node nodeid) npart0 epart nbnodes n SIZE data serial)
    (vm : ValidMesh2 nodeid node nbnodes n) (sqrt : K → K) (hs : ∀ x, 0 < x → sqrt x ≠ 0) (trunc : K → Int) (htr : ∀ m : Nat, trunc (m : K) = m)
    (star : StarConnected 2 nodeid n) :
    ∃ W, mkWorld 2 SIZE data (fun p => build2 sqrt trunc SIZE (data p)) = some W ∧
      ∀ bc : Int → BCond K, DirichletOrNeumann bc → CornersMatch 2 (build2 sqrt trunc 1 serial) bc →
        ∀ direct, ReadsRows n direct → SolvesSystems n direct → ∀ sv, InPlace sv → GaussLaw W bc sv direct n := by
  have np := h.nodePair2 vm sqrt trunc htr
  obtain ⟨hgL, hgG, w1, w2, sL, sG⟩ := np.worlds
  exact ⟨_, w1, fun bc hdn hcm direct h1 h2 sv _ => gauss_par np (h.solid2 vm sqrt hs trunc htr) (by omega)
    (ghostNormal_build2 h vm sqrt hs trunc htr) star hcm hdn sL sG h1 h2 sv⟩

/-- C110 (3D, any number of processes, any partition). -/
theorem C110_gauss_3d_partial (h : Launched 4 nodeid node (centvol3 node nodeid) npart0 epart nbnodes n SIZE data serial)
    (vm : ValidMesh3 nodeid node nbnodes n) (sqrt : K → K) (hs : ∀ x, 0 < x → sqrt x ≠ 0) (trunc : K → Int) (htr : ∀ m : Nat, trunc (m : K) = m)
    (star : StarConnected 3 nodeid n) :
    ∃ W, mkWorld 3 SIZE data (fun p => build3 sqrt trunc SIZE (data p)) = some W ∧
      ∀ bc : Int → BCond K, DirichletOrNeumann bc → CornersMatch 3 (build3 sqrt trunc 1 serial) bc →
        ∀ direct, ReadsRows n direct → SolvesSystems n direct → ∀ sv, InPlace sv → GaussLaw W bc sv direct n := by
  have np := h.nodePair3 vm sqrt trunc htr
  obtain ⟨hgL, hgG, w1, w2, sL, sG⟩ := np.worlds
  exact ⟨_, w1, fun bc hdn hcm direct h1 h2 sv _ => gauss_par np (h.solid3 vm sqrt hs trunc htr)
    (fun _ => ⟨wedge_build3 sqrt trunc 1 serial, fun p _ => wedge_build3 sqrt trunc SIZE (data p)⟩) (ghostNormal3 _) star hcm hdn sL sG h1 h2 sv⟩

/-- C110: with Dirichlet conditions on the whole boundary (any values) the corner condition holds. -/
theorem C110_dirichlet_corners_2d (h : Launched 3 nodeid node (centvol2 node nodeid) npart0 epart nbnodes n SIZE data serial)
    (vm : ValidMesh2 nodeid node nbnodes n) (sqrt : K → K) (trunc : K → Int) (htr : ∀ m : Nat, trunc (m : K) = m) (v : Int → K → K → K → K) :
    CornersMatch 2 (build2 sqrt trunc 1 serial) (fun b => BCond.dirichlet (v b)) :=
  let np := h.nodePair2 vm sqrt trunc htr
  fun F hF s hs => Or.inl ⟨np.run.hB _ (np.labelG F hF s hs), rfl⟩

/-- C110 (3D). -/
theorem C110_dirichlet_corners_3d (h : Launched 4 nodeid node (centvol3 node nodeid) npart0 epart nbnodes n SIZE data serial)
    (vm : ValidMesh3 nodeid node nbnodes n) (sqrt : K → K) (trunc : K → Int) (htr : ∀ m : Nat, trunc (m : K) = m) (v : Int → K → K → K → K) :
    CornersMatch 3 (build3 sqrt trunc 1 serial) (fun b => BCond.dirichlet (v b)) :=
  let np := h.nodePair3 vm sqrt trunc htr
  fun F hF s hs => Or.inl ⟨np.run.hB _ (np.labelG F hF s hs), rfl⟩
end

/-- There are solvers as C110 wants them. -/
theorem solver_exists (n : Nat) : ∃ direct : (Nat → Nat → K) → (Nat → K) → Nat → K, ReadsRows n direct ∧ SolvesSystems n direct := by
  classical
  obtain ⟨cutA, hA⟩ : ∃ cutA : (Nat → Nat → K) → Nat → Nat → K, cutA = fun A i j => if i < n ∧ j < n then A i j else 0 := ⟨_, rfl⟩
  obtain ⟨cutb, hb⟩ : ∃ cutb : (Nat → K) → Nat → K, cutb = fun b i => if i < n then b i else 0 := ⟨_, rfl⟩
  refine ⟨fun A b => if e : Solvable n (cutA A) (cutb b) then e.choose else fun _ => 0, ?_, ?_⟩
  · intro A A' b b' h1 h2 g hg
    have e1 : cutA A = cutA A' := by
      rw [hA]; funext i j; dsimp only; split_ifs with hc
      · exact h1 i hc.1 j hc.2
      · rfl
    have e2 : cutb b = cutb b' := by
      rw [hb]; funext i; dsimp only; split_ifs with hc
      · exact h2 i hc
      · rfl
    dsimp only
    rw [e1, e2]
  · intro A b hs i hi
    have sm : ∀ x : Nat → K, ∑ j ∈ Finset.range n, A i j * x j = ∑ j ∈ Finset.range n, cutA A i j * x j := fun x =>
      Finset.sum_congr rfl fun j hj => by rw [hA]; simp [hi, Finset.mem_range.mp hj]
    have hs' : Solvable n (cutA A) (cutb b) := by
      obtain ⟨x, hx⟩ := hs
      refine ⟨x, fun i hi => ?_⟩
      have := hx i hi
      rw [show cutb b i = b i by rw [hb]; simp [hi], ← this]
      exact Finset.sum_congr rfl fun j hj => by rw [hA]; simp [hi, Finset.mem_range.mp hj]
    dsimp only
    rw [dif_pos hs', sm, hs'.choose_spec i hi, hb]
    simp [hi]

/-- Sources for which the system has a solution: those of any potential `P`. -/
theorem source_exists (W : World K) (bc : Int → BCond K) (n : Nat) (P : Nat → K) :
    ∃ r : Nat → K, Solvable n (matrixOf W bc) (fun g => boundaryOf W bc g + r g) :=
  ⟨fun g => ∑ j ∈ Finset.range n, matrixOf W bc g j * P j - boundaryOf W bc g, P, fun i _ => by ring⟩

/-! ### the hypotheses can be met -/

example : ∃ W, mkWorld 2 2 stripData (fun p => build2 (fun x => x) Rat.floor 2 (stripData p)) = some W ∧
    ∃ direct, GaussLaw W (fun b => BCond.dirichlet (fun x y _ => b * x + y)) .mumps direct 4 := by
  obtain ⟨W, e, h⟩ := C110_gauss_2d_partial stripLaunched stripValid (fun x => x) (fun x hx => ne_of_gt hx) Rat.floor floor_nat (run_star 2 4)
  obtain ⟨direct, h1, h2⟩ := solver_exists (K := ℚ) 4
  exact ⟨W, e, direct, h _ (fun _ => Or.inl rfl) (C110_dirichlet_corners_2d stripLaunched stripValid _ _ floor_nat (fun b x y _ => b * x + y))
    direct h1 h2 _ (Or.inl rfl)⟩
example : ∃ W, mkWorld 3 2 chainData (fun p => build3 (fun x => x) Rat.floor 2 (chainData p)) = some W ∧
    ∃ direct, GaussLaw W (fun b => BCond.dirichlet (fun x y z => b * x + y - z)) .petsc direct 3 := by
  obtain ⟨W, e, h⟩ := C110_gauss_3d_partial chainLaunched chainValid (fun x => x) (fun x hx => ne_of_gt hx) Rat.floor floor_nat (run_star 3 3)
  obtain ⟨direct, h1, h2⟩ := solver_exists (K := ℚ) 3
  exact ⟨W, e, direct, h _ (fun _ => Or.inl rfl) (C110_dirichlet_corners_3d chainLaunched chainValid _ _ floor_nat (fun b x y z => b * x + y - z))
    direct h1 h2 _ (Or.inr rfl)⟩
example : ∃ W, mkWorld 2 1 (fun _ => stripSerial) (fun _ => build2 (fun x => x) Rat.floor 1 stripSerial) = some W ∧
    ∃ direct, GaussLaw W (fun _ => BCond.neumann) .mumps direct 4 := by
  obtain ⟨W, e, h⟩ := C110_gauss_serial_2d_partial stripValid stripLaunched.hserial (fun x => x) (fun x hx => ne_of_gt hx) Rat.floor floor_nat
  obtain ⟨direct, h1, h2⟩ := solver_exists (K := ℚ) 4
  exact ⟨W, e, direct, h _ (fun _ => Or.inr rfl) (fun _ _ _ _ => Or.inr rfl) direct h1 h2 _ (Or.inl rfl)⟩
end Verif.Props.Par
