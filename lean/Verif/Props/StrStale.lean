import Verif.Props.StrCharge
import Verif.Props.StrGauss

/-!
# C118: the first iteration of a streamer run at first order
-/
set_option linter.unusedSectionVars false
set_option linter.unusedVariables false
set_option linter.unusedSimpArgs false
namespace Verif.Props.Par
open Verif.Fvm Verif.Spec Verif.Conn Verif.Dom Verif.Geo Verif.Names Verif.MeshFile Verif.Part Verif.Comm Verif.Run Verif.HaloGhost Verif.Interp
open Verif.LinSolve (ReadsRows SolvedWith InPlace)

section
variable {dim : Nat} {nodeid : Nat → Nat → Nat} {node : Nat → ℝ × ℝ × ℝ × Nat} {cv : Nat → List ℝ} {npart0 epart : Nat → Nat}
  {nbnodes n SIZE : Nat} {data : Nat → RankData ℝ} {serial : RankData ℝ} {L : Nat → Tables ℝ} {G : Tables ℝ} {B : List Int}
  {out : Nat → Nat → Vec ℝ} {trunc : ℝ → Int}

/-- The gradients before the first `compute_cell_gradient`. -/
def zeroGrads : Grads ℝ := ⟨fun _ => 0, fun _ => 0, fun _ => 0, fun _ => 0, [], [], [], []⟩

theorem list_sum_map_sub {α : Type*} (l : List α) (f g : α → ℝ) : (l.map f).sum - (l.map g).sum = (l.map (fun x => f x - g x)).sum := by
  induction l with
  | nil => simp
  | cons a l ih => simp only [List.map_cons, List.sum_cons]; linarith

/-- The convective residual with empty halo arrays. -/
theorem conv_stale (h : NodePair dim nodeid node cv npart0 epart nbnodes n SIZE data serial L G B out trunc)
    {vL : Nat → Nat → Vec ℝ} {vG : Nat → Vec ℝ} (hv : VelMatch dim SIZE data L G vL vG) {p : Nat} (hp : p < SIZE) {a b : Nat → ℝ}
    (hm : ∀ c < (L p).nbcells, a c = b (phi (data p) c)) {c : Nat} (hc : c < (L p).nbcells) :
    conv dim (convArgs (L p) (velFields (vL p) a (fun _ => 0) [] zeroGrads) 1) c =
      conv dim (convArgs G (velFields vG b (fun _ => 0) [] zeroGrads) 1) (phi (data p) c) - interfaceInflow (data p) (L p) b (vL p) c := by
  have R := h.run.rank p hp
  obtain ⟨hal, eh⟩ : ∃ hal : List ℝ, hal = (data p).halosext.map (fun row => b (row.getD 0 0)) := ⟨_, rfl⟩
  have hk : ∀ k < (data p).halosext.length, hal.getD k 0 = b (ext0 (data p) k) := by
    intro k hk
    rw [eh, List.getD_eq_getElem?_getD, List.getElem?_map]
    unfold ext0
    rw [List.getD_eq_getElem?_getD (l := (data p).halosext), List.getElem?_eq_getElem hk]
    rfl
  rw [conv_balance R.cL _ _ h.run.hd, conv_balance R.cG _ _ h.run.hd]
  rw [← rank_balance R (FL := velFields (vL p) a (fun _ => 0) hal zeroGrads) (FG := velFields vG b (fun _ => 0) [] zeroGrads) ⟨?_, ?_, ?_, ?_⟩ 1 dim
    (by have := h.run.hd; omega) c hc]
  · unfold balance
    have e1 : sumAt (L p).halofaces (left (convArgs (L p) (velFields (vL p) a (fun _ => 0) [] zeroGrads) 1))
          (haloFlux (convArgs (L p) (velFields (vL p) a (fun _ => 0) [] zeroGrads) 1) dim) c -
        sumAt (L p).halofaces (left (convArgs (L p) (velFields (vL p) a (fun _ => 0) hal zeroGrads) 1))
          (haloFlux (convArgs (L p) (velFields (vL p) a (fun _ => 0) hal zeroGrads) 1) dim) c = interfaceInflow (data p) (L p) b (vL p) c := by
      unfold sumAt interfaceInflow
      refine (list_sum_map_sub _ _ _).trans ?_
      congr 1
      apply List.map_congr_left
      intro f hf
      have hf' := ((R.cL.halo.2 f).mp (List.mem_filter.mp hf).1)
      have hlt : (L p).halofid f < (data p).halosext.length := by
        obtain ⟨c', hc', j, hj, rfl⟩ := R.cL.fsurj f hf'.1
        rcases R.kinds hc' hj with ⟨_, _, hB, _⟩ | ⟨_, _, _, hn, _⟩ | ⟨E, _, row, _, _, _, hx, _⟩
        · rw [hf'.2] at hB; exact absurd hB R.cL.B10
        · rw [hf'.2] at hn; exact absurd hn (by decide)
        · exact (List.getElem?_eq_some_iff.mp hx).1
      unfold haloFlux cellAtFace haloAtFace
      rw [show ∀ F : Dom.Fields ℝ, (convArgs (L p) F 1).order = 1 from fun _ => rfl, extrap_one, extrap_one]
      rw [show ∀ F : Dom.Fields ℝ, (convArgs (L p) F 1).order = 1 from fun _ => rfl, extrap_one, extrap_one]
      have e1 := hk _ hlt
      show upwind (through (L p) (vL p) f) (a ((L p).cellid f 0).toNat) 0 - upwind (through (L p) (vL p) f) (a ((L p).cellid f 0).toNat)
        (hal.getD ((L p).halofid f) 0) = _
      rw [e1]
      show _ = b (ext0 (data p) ((L p).halofid f)) * _
      unfold upwind
      rw [show max (- through (L p) (vL p) f) 0 = - min (through (L p) (vL p) f) 0 by rw [← neg_zero, max_neg_neg, neg_zero]]
      ring
    show _ - sumAt (L p).halofaces _ _ c - _ = _ - sumAt (L p).halofaces _ _ c - _ - _
    rw [← e1]
    have e2 : sumAt (L p).innerfaces (left (convArgs (L p) (velFields (vL p) a (fun _ => 0) [] zeroGrads) 1))
        (innerFlux (convArgs (L p) (velFields (vL p) a (fun _ => 0) [] zeroGrads) 1) dim) c =
        sumAt (L p).innerfaces (left (convArgs (L p) (velFields (vL p) a (fun _ => 0) hal zeroGrads) 1))
        (innerFlux (convArgs (L p) (velFields (vL p) a (fun _ => 0) hal zeroGrads) 1) dim) c := rfl
    have e3 : sumAt (L p).innerfaces (right (convArgs (L p) (velFields (vL p) a (fun _ => 0) [] zeroGrads) 1))
        (innerFlux (convArgs (L p) (velFields (vL p) a (fun _ => 0) [] zeroGrads) 1) dim) c =
        sumAt (L p).innerfaces (right (convArgs (L p) (velFields (vL p) a (fun _ => 0) hal zeroGrads) 1))
        (innerFlux (convArgs (L p) (velFields (vL p) a (fun _ => 0) hal zeroGrads) 1) dim) c := rfl
    have e4 : sumAt (L p).boundaryfaces (left (convArgs (L p) (velFields (vL p) a (fun _ => 0) [] zeroGrads) 1))
        (boundaryFlux (convArgs (L p) (velFields (vL p) a (fun _ => 0) [] zeroGrads) 1) dim) c =
        sumAt (L p).boundaryfaces (left (convArgs (L p) (velFields (vL p) a (fun _ => 0) hal zeroGrads) 1))
        (boundaryFlux (convArgs (L p) (velFields (vL p) a (fun _ => 0) hal zeroGrads) 1) dim) c := rfl
    have e5 : sumAt (L p).periodicboundaryfaces (left (convArgs (L p) (velFields (vL p) a (fun _ => 0) [] zeroGrads) 1))
        (periodicFlux (convArgs (L p) (velFields (vL p) a (fun _ => 0) [] zeroGrads) 1) dim) c =
        sumAt (L p).periodicboundaryfaces (left (convArgs (L p) (velFields (vL p) a (fun _ => 0) hal zeroGrads) 1))
        (periodicFlux (convArgs (L p) (velFields (vL p) a (fun _ => 0) hal zeroGrads) 1) dim) c := rfl
    change - sumAt (L p).innerfaces _ _ c + sumAt (L p).innerfaces _ _ c - sumAt (L p).periodicboundaryfaces _ _ c - _ - sumAt (L p).boundaryfaces _ _ c =
      - sumAt (L p).innerfaces _ _ c + sumAt (L p).innerfaces _ _ c - sumAt (L p).periodicboundaryfaces _ _ c - _ - sumAt (L p).boundaryfaces _ _ c - _
    rw [e2, e3, e4, e5]
    ring
  · intro c hc
    exact ⟨hm c hc, rfl, rfl, rfl, rfl⟩
  · intro k row E hk' hE _
    have hkl : k < (data p).halosext.length := (List.getElem?_eq_some_iff.mp hk').1
    have e0 := (h.hl.ext_get hp hkl).1
    rw [hk'] at e0
    obtain rfl : ext0 (data p) k = E := by
      injection e0 with e0
      rw [e0] at hE
      simpa using hE
    exact ⟨hk k hkl, rfl, rfl, rfl, rfl⟩
  · intro c hc j hj
    exact ⟨hv p hp c hc j hj 0 (by omega), hv p hp c hc j hj 1 (by omega), hv p hp c hc j hj 2 (by omega)⟩
  · intro c hc j hj hb
    rfl

/-- The first iteration at first order on several processes and on one. -/
theorem strFirst (h : NodePair dim nodeid node cv npart0 epart nbnodes n SIZE data serial L G B out trunc) {hgL hgG : Nat → HGResult ℝ}
    (hw : dim = 3 → WedgeOk G ∧ ∀ p < SIZE, WedgeOk (L p))
    (sL : ∀ p < SIZE, ∃ rows, HGSpec dim SIZE data L p (hgL p) rows) (sG : HGSerial dim G nbnodes (hgG 0))
    (S : StrSetup) (hgrad : S.grad = false) (ho : S.order = 1) (so : StencilOk dim nodeid epart n G S.bc) (hbc : FieldCornersOk dim nodeid epart n G S.bcP)
    (direct : (Nat → Nat → ℝ) → (Nat → ℝ) → Nat → ℝ) (hdir : ReadsRows n direct) (svL svG : LinSolve.Solver)
    (s t : StrState) (hm : StrMatch dim SIZE data L G (parW dim SIZE data L hgL) (serW dim serial G hgG) S svL svG direct s t)
    (hsV : ∀ p, s.V p = ⟨(s.V p).cell, fun _ => 0, fun _ => 0, []⟩) (htV : ∀ p, t.V p = ⟨(t.V p).cell, fun _ => 0, fun _ => 0, []⟩)
    (hsg : ∀ p, s.gr p = zeroGrads) (htg : ∀ p, t.gr p = zeroGrads) :
    ∃ s' t', strStep (parW dim SIZE data L hgL) S svL direct s = some s' ∧ strStep (serW dim serial G hgG) S svG direct t = some t' ∧
      s'.time = t'.time ∧ VelMatch dim SIZE data L G s'.el (t'.el 0) ∧ VelMatch dim SIZE data L G s'.vel (t'.vel 0) ∧
      CellsAgree SIZE data s'.sys.cells (t'.sys.cells 0) ∧
      (∀ c < G.nbcells, t'.sys.cells 0 c = direct (matrixOf (serW dim serial G hgG) S.bcP)
        (fun g => boundaryOf (serW dim serial G hgG) S.bcP g + 1.8096e-8 * ((t.V 0).cell g - t.ni 0 g)) c) ∧
      (∀ p < SIZE, ∀ c < (L p).nbcells, s'.ni p c = t'.ni 0 (phi (data p) c)) ∧
      s'.time = s.time + allreduceMin 1 (fun p => strDt dim S G (t'.el p) (t'.vel p)) ∧
      (∀ p, t'.vel p = strVel G (t'.el p) (t.vel p)) ∧
      (∃ (U : Vari ℝ), U.cell = t'.sys.cells 0 ∧ ValuesG dim G S.bcP U.fields ∧
        t'.el 0 = solGrads dim G S.bcP U.fields (nodeValues dim 1 serial G (hgG 0) U.fields)) ∧
      ∀ p < SIZE, ∀ c < (L p).nbcells, (t'.V 0).cell (phi (data p) c) =
        (s'.V p).cell c + (s'.time - s.time) / (L p).volume c * interfaceInflow (data p) (L p) (t.V 0).cell (s'.vel p) c := by
  have hS := h.run.hS
  have hS1 : ¬ SIZE = 1 := by omega
  have cL : ChargeIs (parW dim SIZE data L hgL) (linEnv (parW dim SIZE data L hgL) S.bcP svL direct).loctoglob s
      (fun g => 1.8096e-8 * ((t.V 0).cell g - t.ni 0 g)) := by
    intro p hp c hc
    have e : (linEnv (parW dim SIZE data L hgL) S.bcP svL direct).loctoglob p c = phi (data p) c := by
      show (if SIZE = 1 then c else (data p).loctoglob.getD c 0) = _
      rw [if_neg hS1]; rfl
    rw [e]
    beta_reduce
    rw [hm.cell p hp c hc, hm.ni p hp c hc]
  have cG : ChargeIs (serW dim serial G hgG) (linEnv (serW dim serial G hgG) S.bcP svG direct).loctoglob t
      (fun g => 1.8096e-8 * ((t.V 0).cell g - t.ni 0 g)) := by
    intro p hp c hc
    obtain rfl : p = 0 := by have : p < 1 := hp; omega
    rfl
  obtain ⟨a, rL, ea, oa, wa, za⟩ := strSolve_ok _ S svL direct (by show 0 < SIZE; omega) (h.lin_numbering S.bcP hgL svL direct).1 s hm.sysL hm.zL _ cL
  obtain ⟨b, rG, eb, ob, wb, zb⟩ := strSolve_ok _ S svG direct (by show 0 < 1; omega) (h.lin_numbering_serial S.bcP hgG svG direct).1 t hm.sysG hm.zG _ cG
  have hP := h.lin_solve hw so.star S.bcP sL sG direct hdir svL svG _ a b wa wb
  obtain ⟨P', nL, fL, Q', nG, fG, e1, e2, _, _, _, hf⟩ := solGradient_match h hw sL sG S.bcP so.star hbc
    (fun p => { s.P p with cell := a.cells p }) (fun p => { t.P p with cell := b.cells p }) ((h.cellsAgree _ _).mp hP)
  have hv := strVel_match h.run (oL := s.vel) (oG := t.vel 0) (show VelMatch dim SIZE data L G fL (fG 0) from hf)
  obtain ⟨vL, hvL⟩ : ∃ vL : Nat → Nat → Vec ℝ, vL = fun p => strVel (L p) (fL p) (s.vel p) := ⟨_, rfl⟩
  obtain ⟨vG, hvG⟩ : ∃ vG : Nat → Nat → Vec ℝ, vG = fun p => strVel G (fG p) (t.vel p) := ⟨_, rfl⟩
  replace hv : VelMatch dim SIZE data L G vL (vG 0) := by rw [hvL, hvG]; exact hv
  have he : VelMatch dim SIZE data L G fL (fG 0) := hf
  obtain ⟨V3, k1, gL, U3, k2, gG, f1, f2, m3, cv3, cu3, _, hfg⟩ := faceGradient_match h hw sL sG S.bc so s.V t.V hm.cell
  have hdt := strDt_match h.run S he hv
  obtain ⟨dt, hdt'⟩ : ∃ dt, dt = allreduceMin SIZE (fun p => strDt dim S (L p) (fL p) (vL p)) := ⟨_, rfl⟩
  have dis : ∀ p < SIZE, ∀ c < (L p).nbcells, strDissip (L p) (fL p) (vL p) (gL p) c = strDissip G (fG 0) (vG 0) (gG 0) (phi (data p) c) := by
    intro p hp c hc
    rw [strDissip_eq, strDissip_eq]
    refine h.dissip_eq unitD hp _ _ ?_ hc
    intro c hc j hj k hk
    rw [toV_match he hp hc hj, toV_match hv hp hc hj, hfg p hp c hc j hj k hk]
  have src : ∀ p < SIZE, ∀ c < (L p).nbcells, strSource dim (L p) (s.V p).cell (fL p) (vL p) c = strSource dim G (t.V 0).cell (fG 0) (vG 0) (phi (data p) c) := by
    intro p hp c hc
    unfold strSource Streamer.source
    rw [strCell_match h.run he hp hc, strCell_match h.run hv hp hc, hm.cell p hp c hc]
    simp only [Streamer.seed]
    simp
  obtain ⟨NL, hNL⟩ : ∃ NL : Nat → (Nat → ℝ) × (Nat → ℝ), NL = fun p => Streamer.updateFlux (V3 p).cell (s.ni p)
      (conv dim (convArgs (L p) (velFields (vL p) (s.V p).cell (s.V p).ghost (s.V p).halo (s.gr p)) S.order)) (fun _ => 0)
      (strDissip (L p) (fL p) (vL p) (gL p)) (fun _ => 0) (fun i => (strSource dim (L p) (s.V p).cell (fL p) (vL p) i).1)
      (fun i => (strSource dim (L p) (s.V p).cell (fL p) (vL p) i).2) dt (L p).volume := ⟨_, rfl⟩
  obtain ⟨NG, hNG⟩ : ∃ NG : Nat → (Nat → ℝ) × (Nat → ℝ), NG = fun p => Streamer.updateFlux (U3 p).cell (t.ni p)
      (conv dim (convArgs G (velFields (vG p) (t.V p).cell (t.V p).ghost (t.V p).halo (t.gr p)) S.order)) (fun _ => 0)
      (strDissip G (fG p) (vG p) (gG p)) (fun _ => 0) (fun i => (strSource dim G (t.V p).cell (fG p) (vG p) i).1)
      (fun i => (strSource dim G (t.V p).cell (fG p) (vG p) i).2) dt G.volume := ⟨_, rfl⟩
  have new : ∀ p < SIZE, ∀ c < (L p).nbcells, (NG 0).1 (phi (data p) c) =
      (NL p).1 c + dt / (L p).volume c * interfaceInflow (data p) (L p) (t.V 0).cell (vL p) c ∧ (NL p).2 c = (NG 0).2 (phi (data p) c) := by
    intro p hp c hc
    have hcs := conv_stale h hv hp (a := (s.V p).cell) (b := (t.V 0).cell) (hm.cell p hp) hc
    have eL : velFields (vL p) (s.V p).cell (s.V p).ghost (s.V p).halo (s.gr p) = velFields (vL p) (s.V p).cell (fun _ => 0) [] zeroGrads := by
      rw [hsg, hsV p]
    have eG : velFields (vG 0) (t.V 0).cell (t.V 0).ghost (t.V 0).halo (t.gr 0) = velFields (vG 0) (t.V 0).cell (fun _ => 0) [] zeroGrads := by
      rw [htg, htV 0]
    rw [hNL, hNG]
    dsimp only [Streamer.updateFlux]
    rw [eL, eG, ho, hcs, dis p hp c hc, src p hp c hc, h.run.volume p hp c hc, m3 p hp c hc, hm.ni p hp c hc]
    exact ⟨by ring, rfl⟩
  have mvL : ∃ V' nd', (if S.saves s.iter dt then celltonode (parW dim SIZE data L hgL) S.bc (fun p => { V3 p with cell := (NL p).1 })
      else some (fun p => { V3 p with cell := (NL p).1 }, s.node)) = some (V', nd') ∧ ∀ p < SIZE, (V' p).cell = (NL p).1 := by
    by_cases hsv : S.saves s.iter dt = true
    · obtain ⟨w, hw'⟩ := h.run.glue (fun p => (NL p).1)
      obtain ⟨V4, n4, U4, k4, g1, g2, m4, c4, _⟩ := celltonode_match h sL sG S.bc so (fun p => { V3 p with cell := (NL p).1 })
        (fun p => { U3 p with cell := w }) (fun p hp c hc => hw' p hp c hc)
      exact ⟨V4, n4, by rw [if_pos hsv]; exact g1, fun p hp => c4 p⟩
    · exact ⟨_, _, by rw [if_neg hsv], fun p hp => rfl⟩
  have mvG : ∃ V' nd', (if S.saves s.iter dt then celltonode (serW dim serial G hgG) S.bc (fun p => { U3 p with cell := (NG p).1 })
      else some (fun p => { U3 p with cell := (NG p).1 }, t.node)) = some (V', nd') ∧ (V' 0).cell = (NG 0).1 := by
    by_cases hsv : S.saves s.iter dt = true
    · obtain ⟨U4, e4, c4, _⟩ := serial_update (dim := dim) serial G hgG S.bc (fun p => { U3 p with cell := (NG p).1 })
      refine ⟨U4, fun p => nodeValues dim 1 serial G (hgG p) (U4 p).fields, ?_, c4 0⟩
      rw [if_pos hsv]
      unfold celltonode
      exact congrArg (Option.map _) e4
    · exact ⟨_, _, by rw [if_neg hsv], rfl⟩
  obtain ⟨V', nd', g1, c1⟩ := mvL
  obtain ⟨U', nk', g2, c2⟩ := mvG
  obtain ⟨Q2, q1, q2, q3⟩ := serial_update (dim := dim) serial G hgG S.bcP (fun p => { t.P p with cell := b.cells p })
  have eg : solGradient (serW dim serial G hgG) S.bcP (fun p => { t.P p with cell := b.cells p }) = some (Q2, fun p => nodeValues dim 1 serial G (hgG p) (Q2 p).fields,
      fun p => solGrads dim G S.bcP (Q2 p).fields (nodeValues dim 1 serial G (hgG p) (Q2 p).fields)) := by
    unfold solGradient celltonode; rw [q1]; rfl
  rw [eg] at e2
  injection e2 with e2
  have e2' : (fun p => solGrads dim G S.bcP (Q2 p).fields (nodeValues dim 1 serial G (hgG p) (Q2 p).fields)) = fG := (Prod.mk.inj (Prod.mk.inj e2).2).2
  have e2'' : Q2 = Q' := (Prod.mk.inj e2).1
  have e2 := eg
  rw [e2', e2''] at e2
  refine ⟨{ sys := a, P := P', rhs := rL, el := fL, vel := vL, V := V', gr := s.gr, ni := fun p => (NL p).2, node := nd'
            iter := s.iter + 1, time := s.time + dt },
    { sys := b, P := Q', rhs := rG, el := fG, vel := vG, V := U', gr := t.gr, ni := fun p => (NG p).2, node := nk'
      iter := t.iter + 1, time := t.time + dt }, ?_, ?_, by rw [hm.time], he, hv, hP, fun c hc => serial_solution h hw sG hdir wb hc, fun p hp c hc => (new p hp c hc).2, ?_, ?_, ?_, ?_⟩
  · unfold strStep
    rw [ea]
    simp only [Option.bind_some]
    rw [e1]
    simp only [Option.bind_some]
    rw [show (fun p => strVel ((parW dim SIZE data L hgL).D p) (fL p) (s.vel p)) = vL from hvL.symm]
    unfold strMove
    rw [hgrad]
    simp only [Bool.false_eq_true, if_false, Option.bind_some]
    rw [f1]
    simp only [Option.bind_some]
    rw [show allreduceMin (parW dim SIZE data L hgL).SIZE (fun p => strDt (parW dim SIZE data L hgL).dim S ((parW dim SIZE data L hgL).D p) (fL p) (vL p)) = dt from hdt'.symm]
    rw [hNL] at g1 ⊢
    exact congrArg (fun o => Option.map _ (Option.map (fun o : (Nat → Vari ℝ) × (Nat → Nat → ℝ) => (o.1, s.gr, _, o.2, dt)) o)) g1
  · unfold strStep
    rw [eb]
    simp only [Option.bind_some]
    rw [e2]
    simp only [Option.bind_some]
    rw [show (fun p => strVel ((serW dim serial G hgG).D p) (fG p) (t.vel p)) = vG from hvG.symm]
    unfold strMove
    rw [hgrad]
    simp only [Bool.false_eq_true, if_false, Option.bind_some]
    rw [f2]
    simp only [Option.bind_some]
    rw [show allreduceMin (serW dim serial G hgG).SIZE (fun p => strDt (serW dim serial G hgG).dim S ((serW dim serial G hgG).D p) (fG p) (vG p)) = dt from
      (hdt'.trans hdt).symm, ← hm.iter]
    rw [hNG] at g2 ⊢
    exact congrArg (fun o => Option.map _ (Option.map (fun o : (Nat → Vari ℝ) × (Nat → Nat → ℝ) => (o.1, t.gr, _, o.2, dt)) o)) g2
  · show s.time + dt = _
    rw [hdt', hdt]
  · intro p; rw [hvG]
  · exact ⟨Q' 0, by rw [← e2'', q2 0], by rw [← e2'']; exact q3 0, by rw [← e2', e2'']⟩
  · intro p hp c hc
    dsimp only
    rw [c1 p hp, c2, (new p hp c hc).1]
    ring

theorem strStart_blank {W : World ℝ} {S : StrSetup} {sv : LinSolve.Solver} {direct : (Nat → Nat → ℝ) → (Nat → ℝ) → Nat → ℝ} {f fi g : ℝ → ℝ → ℝ → ℝ}
    {s : StrState} (e : strStart W S sv direct f fi g = some s) :
    (∀ p, s.V p = ⟨(s.V p).cell, fun _ => 0, fun _ => 0, []⟩) ∧ (∀ p, s.gr p = zeroGrads) ∧ s.time = 0 := by
  unfold strStart at e
  obtain ⟨sys, _, rfl⟩ := Option.map_eq_some_iff.mp e
  exact ⟨fun p => rfl, fun p => rfl, rfl⟩

theorem finite_min (m : Nat) (g : Nat → ℝ) (hg : ∀ c < m, 0 < g c) : ∃ x, 0 < x ∧ x ≤ 1e6 ∧ ∀ c < m, x ≤ g c := by
  induction m with
  | zero => exact ⟨1, by norm_num, by norm_num, by omega⟩
  | succ m ih =>
    obtain ⟨x, h1, h2, h3⟩ := ih (fun c hc => hg c (by omega))
    refine ⟨min x (g m), lt_min h1 (hg m (by omega)), (min_le_left _ _).trans h2, fun c hc => ?_⟩
    by_cases e : c = m
    · subst e; exact min_le_right _ _
    · exact (min_le_left _ _).trans (h3 c (by omega))

theorem foldl_add_nonneg (l : List Nat) (g : Nat → ℝ → ℝ) (hg : ∀ j ∈ l, ∀ x, 0 ≤ x → 0 ≤ g j x) (x : ℝ) (hx : 0 ≤ x) : 0 ≤ l.foldl (fun x j => g j x) x := by
  induction l generalizing x with
  | nil => exact hx
  | cons a l ih => exact ih (fun j hj => hg j (List.mem_cons_of_mem _ hj)) _ (hg a (by simp) x hx)

/-- The time step is positive. -/
theorem strDt_pos (dim : Nat) (S : StrSetup) (hcfl : 0 < S.cfl) (D : Tables ℝ) (hv : ∀ c < D.nbcells, 0 < D.volume c)
    (el vel : Nat → Vec ℝ) : 0 < strDt dim S D el vel := by
  obtain ⟨lam, hlam⟩ : ∃ lam : Nat → ℝ, lam = fun c => (Streamer.cellLamOpt (strCell dim D vel) (strCell dim D el) (toV D.normal) D.mesure D.volume D.faceid dim c).getD 1 := ⟨_, rfl⟩
  have hnn : ∀ c < D.nbcells, ∀ l, Streamer.cellLamOpt (strCell dim D vel) (strCell dim D el) (toV D.normal) D.mesure D.volume D.faceid dim c = some l → 0 ≤ l := by
    intro c hc l e
    unfold Streamer.cellLamOpt at e
    split at e
    · cases e
    · obtain rfl := Option.some.inj e
      apply foldl_add_nonneg
      · intro j _ x hx
        have hDe : 0 ≤ 0.3341e9 * (Streamer.norm3 (strCell dim D el c) / Streamer.nGas) ^ (0.54069 : ℝ) * (Streamer.norm3 (strCell dim D vel c) / Streamer.norm3 (strCell dim D el c)) := by
          have h1 : ∀ v, 0 ≤ Streamer.norm3 v := fun v => by unfold Streamer.norm3; exact Real.sqrt_nonneg _
          have h2 : 0 ≤ Streamer.nGas := by unfold Streamer.nGas; norm_num
          have := h1 (strCell dim D el c)
          have := h1 (strCell dim D vel c)
          positivity
        have := hv c hc
        have hq : ∀ u m : ℝ, 0 ≤ u → 0 ≤ u / m * m := by
          intro u m hu
          by_cases h0 : m = 0
          · simp [h0]
          · rw [div_mul_cancel₀ _ h0]; exact hu
        dsimp only
        refine add_nonneg (add_nonneg hx (hq _ _ (abs_nonneg _))) ?_
        positivity
      · exact le_rfl
  obtain ⟨x, h1, h2, h3⟩ := finite_min D.nbcells (fun c => if lam c = 0 then 1 else if lam c < 0 then 1 else S.cfl * D.volume c / lam c) (by
    intro c hc
    split_ifs with a b
    · norm_num
    · norm_num
    · have := hv c hc
      have : 0 < lam c := lt_of_le_of_ne (not_lt.mp b) (Ne.symm a)
      positivity)
  refine lt_of_lt_of_le h1 ((le_strDt dim S D el vel x).mpr ⟨h2, fun c hc l e hl => ?_⟩)
  have := h3 c hc
  have e' : lam c = l := by rw [hlam]; simp [e]
  rw [e', if_neg hl, if_neg (not_lt.mpr (hnn c hc l e))] at this
  exact this

/-- The velocity crosses a face when the field does. -/
theorem through_vel_ne (D : Tables ℝ) (el old : Nat → Vec ℝ) {f : Nat} (hf : f < D.nbfaces) (he : through D el f ≠ 0) : through D (strVel D el old) f ≠ 0 := by
  intro hz
  apply he
  have hne : toV el f ≠ 0 := by
    intro h0
    apply he
    have e0 : el f 0 = 0 := congrFun h0 ⟨0, by omega⟩
    have e1 : el f 1 = 0 := congrFun h0 ⟨1, by omega⟩
    have e2 : el f 2 = 0 := congrFun h0 ⟨2, by omega⟩
    unfold through; rw [e0, e1, e2]; ring
  unfold through at hz ⊢
  rw [strVel_apply _ _ _ hf (by omega : 0 < 3), strVel_apply _ _ _ hf (by omega : 1 < 3), strVel_apply _ _ _ hf (by omega : 2 < 3)] at hz
  unfold driftOf at hz
  simp only [if_neg hne] at hz
  have hn0 : Streamer.norm3 (toV el f) ≠ 0 := fun h0 => hne ((norm3_eq_zero _).mp h0)
  have hnn : 0 ≤ Streamer.norm3 (toV el f) := by unfold Streamer.norm3; exact Real.sqrt_nonneg _
  have hs := (C61_speed_pos (Streamer.norm3 (toV el f) / Streamer.nGas) (div_nonneg hnn (by unfold Streamer.nGas; norm_num))).ne'
  have e0 : toV el f ⟨0, by omega⟩ = el f 0 := rfl
  have e1 : toV el f ⟨1, by omega⟩ = el f 1 := rfl
  have e2 : toV el f ⟨2, by omega⟩ = el f 2 := rfl
  rw [e0, e1, e2] at hz
  generalize Streamer.driftSpeed _ = a at hz hs
  generalize Streamer.norm3 _ = b at hz hn0
  have : (- a / b) * (el f 0 * D.normal f 0 + el f 1 * D.normal f 1 + el f 2 * D.normal f 2) = 0 := by rw [← hz]; ring
  rcases mul_eq_zero.mp this with h | h
  · exact absurd h (div_ne_zero (neg_ne_zero.mpr hs) hn0)
  · exact h

/-- Some solver gives a chosen solution. -/
theorem pinned_solver (n : Nat) (A0 : Nat → Nat → ℝ) (x0 : Nat → ℝ) : ∃ direct : (Nat → Nat → ℝ) → (Nat → ℝ) → Nat → ℝ, ReadsRows n direct ∧ SolvesSystems n direct ∧
    ∀ b, (∀ i < n, b i = ∑ j ∈ Finset.range n, A0 i j * x0 j) → direct A0 b = x0 := by
  classical
  obtain ⟨d, h1, h2⟩ := solver_exists (K := ℝ) n
  refine ⟨fun A b => if (∀ i < n, b i = ∑ j ∈ Finset.range n, A0 i j * x0 j) ∧ ∀ i < n, ∀ j < n, A i j = A0 i j then x0 else d A b, ?_, ?_, ?_⟩
  · intro A A' b b' hA hb g hg
    have : ((∀ i < n, b i = ∑ j ∈ Finset.range n, A0 i j * x0 j) ∧ ∀ i < n, ∀ j < n, A i j = A0 i j) ↔
        ((∀ i < n, b' i = ∑ j ∈ Finset.range n, A0 i j * x0 j) ∧ ∀ i < n, ∀ j < n, A' i j = A0 i j) :=
      and_congr (forall_congr' fun i => forall_congr' fun hi => by rw [hb i hi])
        (forall_congr' fun i => forall_congr' fun hi => forall_congr' fun j => forall_congr' fun hj => by rw [hA i hi j hj])
    dsimp only
    by_cases hz : (∀ i < n, b i = ∑ j ∈ Finset.range n, A0 i j * x0 j) ∧ ∀ i < n, ∀ j < n, A i j = A0 i j
    · rw [if_pos hz, if_pos (this.mp hz)]
    · rw [if_neg hz, if_neg (fun x => hz (this.mpr x))]; exact h1 A A' b b' hA hb g hg
  · intro A b hs i hi
    dsimp only
    split_ifs with hz
    · rw [hz.1 i hi]
      exact Finset.sum_congr rfl fun j hj => by rw [hz.2 i hi j (Finset.mem_range.mp hj)]
    · exact h2 A b hs i hi
  · intro b hb
    dsimp only
    rw [if_pos ⟨hb, fun _ _ _ _ => rfl⟩]

end

section
variable {nodeid : Nat → Nat → Nat} {node : Nat → ℝ × ℝ × ℝ × Nat} {npart0 epart : Nat → Nat}
  {nbnodes n SIZE : Nat} {data : Nat → RankData ℝ} {serial : RankData ℝ}

/-- **C118** (2D).  The first iteration of a streamer run at order 1, where `StreamerModel` does not call `ne.compute_cell_gradient()` and so
does not fill the halo and ghost arrays of `ne` (core.py:86-100): time, potential, ions as in the serial run, but in every cell of every
process the density of the electrons misses what should enter from the cells of other processes. -/
theorem C118_first_iteration_2d (h : Launched 3 nodeid node (centvol2 node nodeid) npart0 epart nbnodes n SIZE data serial)
    (vm : ValidMesh2 nodeid node nbnodes n) (sqrt : ℝ → ℝ) (trunc : ℝ → Int) (htr : ∀ m : Nat, trunc (m : ℝ) = m) (star : StarConnected 2 nodeid n) :
    ∃ WL WG, mkWorld 2 SIZE data (fun p => build2 sqrt trunc SIZE (data p)) = some WL ∧
      mkWorld 2 1 (fun _ => serial) (fun _ => build2 sqrt trunc 1 serial) = some WG ∧
      ∀ (S : StrSetup), S.grad = false → S.order = 1 → CornersOk 2 nodeid epart n (build2 sqrt trunc 1 serial) S.bc →
        FieldCornersOk 2 nodeid epart n (build2 sqrt trunc 1 serial) S.bcP →
        ∀ (direct : (Nat → Nat → ℝ) → (Nat → ℝ) → Nat → ℝ), ReadsRows n direct →
        ∀ (svL svG : LinSolve.Solver), InPlace svL → InPlace svG → ∀ (f fi g : ℝ → ℝ → ℝ → ℝ),
        ∃ s0 t0 s t, strStart WL S svL direct f fi g = some s0 ∧ strStart WG S svG direct f fi g = some t0 ∧
          strStep WL S svL direct s0 = some s ∧ strStep WG S svG direct t0 = some t ∧ s.time = t.time ∧
          CellsAgree SIZE data s.sys.cells (t.sys.cells 0) ∧ CellsAgree SIZE data s.ni (t.ni 0) ∧
          ∀ p < SIZE, ∀ c < (WL.D p).nbcells, (t.V 0).cell ((data p).loctoglob.getD c 0) =
            (s.V p).cell c + s.time / (WL.D p).volume c * interfaceInflow (data p) (WL.D p) (t0.V 0).cell (s.vel p) c := by
  have np := h.nodePair2 vm sqrt trunc htr
  obtain ⟨hgL, hgG, w1, w2, sL, sG⟩ := np.worlds
  refine ⟨_, _, w1, w2, fun S hg ho hbc hbP direct hdir svL svG hL _ f fi g => ?_⟩
  obtain ⟨s0, t0, a1, a2, m0⟩ := strStart_match np hgL hgG S direct svL svG hL f fi g
  obtain ⟨b1, b2, b3⟩ := strStart_blank a1
  obtain ⟨c1, c2, c3⟩ := strStart_blank a2
  obtain ⟨s, t, e1, e2, h1, _, _, h2, _, h3, _, _, _, h4⟩ := strFirst np (by omega) sL sG S hg ho ⟨star, hbc⟩ hbP direct hdir svL svG s0 t0 m0 b1 c1 b2 c2
  refine ⟨s0, t0, s, t, a1, a2, e1, e2, h1, h2, (np.cellsAgree _ _).mpr h3, fun p hp c hc => ?_⟩
  have := h4 p hp c hc
  rw [b3, sub_zero] at this
  exact this

/-- **C118** (3D). -/
theorem C118_first_iteration_3d (h : Launched 4 nodeid node (centvol3 node nodeid) npart0 epart nbnodes n SIZE data serial)
    (vm : ValidMesh3 nodeid node nbnodes n) (sqrt : ℝ → ℝ) (trunc : ℝ → Int) (htr : ∀ m : Nat, trunc (m : ℝ) = m) (star : StarConnected 3 nodeid n) :
    ∃ WL WG, mkWorld 3 SIZE data (fun p => build3 sqrt trunc SIZE (data p)) = some WL ∧
      mkWorld 3 1 (fun _ => serial) (fun _ => build3 sqrt trunc 1 serial) = some WG ∧
      ∀ (S : StrSetup), S.grad = false → S.order = 1 → CornersOk 3 nodeid epart n (build3 sqrt trunc 1 serial) S.bc →
        FieldCornersOk 3 nodeid epart n (build3 sqrt trunc 1 serial) S.bcP →
        ∀ (direct : (Nat → Nat → ℝ) → (Nat → ℝ) → Nat → ℝ), ReadsRows n direct →
        ∀ (svL svG : LinSolve.Solver), InPlace svL → InPlace svG → ∀ (f fi g : ℝ → ℝ → ℝ → ℝ),
        ∃ s0 t0 s t, strStart WL S svL direct f fi g = some s0 ∧ strStart WG S svG direct f fi g = some t0 ∧
          strStep WL S svL direct s0 = some s ∧ strStep WG S svG direct t0 = some t ∧ s.time = t.time ∧
          CellsAgree SIZE data s.sys.cells (t.sys.cells 0) ∧ CellsAgree SIZE data s.ni (t.ni 0) ∧
          ∀ p < SIZE, ∀ c < (WL.D p).nbcells, (t.V 0).cell ((data p).loctoglob.getD c 0) =
            (s.V p).cell c + s.time / (WL.D p).volume c * interfaceInflow (data p) (WL.D p) (t0.V 0).cell (s.vel p) c := by
  have np := h.nodePair3 vm sqrt trunc htr
  obtain ⟨hgL, hgG, w1, w2, sL, sG⟩ := np.worlds
  refine ⟨_, _, w1, w2, fun S hg ho hbc hbP direct hdir svL svG hL _ f fi g => ?_⟩
  obtain ⟨s0, t0, a1, a2, m0⟩ := strStart_match np hgL hgG S direct svL svG hL f fi g
  obtain ⟨b1, b2, b3⟩ := strStart_blank a1
  obtain ⟨c1, c2, c3⟩ := strStart_blank a2
  obtain ⟨s, t, e1, e2, h1, _, _, h2, _, h3, _, _, _, h4⟩ := strFirst np (fun _ => ⟨wedge_build3 sqrt trunc 1 serial, fun p hp => wedge_build3 sqrt trunc SIZE (data p)⟩) sL sG S hg ho ⟨star, hbc⟩ hbP direct hdir svL svG s0 t0 m0 b1 c1 b2 c2
  refine ⟨s0, t0, s, t, a1, a2, e1, e2, h1, h2, (np.cellsAgree _ _).mpr h3, fun p hp c hc => ?_⟩
  have := h4 p hp c hc
  rw [b3, sub_zero] at this
  exact this

end

/-! ### a run that depends on the number of processes -/

theorem strip_center1 {cv : Nat → List ℝ} {data : Nat → RankData ℝ} {serial : RankData ℝ}
    (h : Launched 3 exStrip (realNode stripNode) cv exN exE 6 4 2 data serial) (sqrt : ℝ → ℝ) (trunc : ℝ → Int) {C : Nat} (hC : C < 4) :
    (build2 sqrt trunc 1 serial).center C 1 = if C % 2 = 0 then 1 / 3 else 2 / 3 := by
  rw [center_build2 sqrt trunc 1 serial (by rw [h.serial_cells.1]; exact hC), h.row2S hC]
  have hv : ∀ s < 6, vtx serial s 1 = if s % 2 = 0 then 0 else 1 := by
    intro s hs
    have := (h.serial_cells.2.2.1 s hs).1 1 (by omega)
    rw [show vtx serial s 1 = at2 0 serial.vertex s 1 from rfl, this]
    simp only [pos, realNode, stripNode]
    split <;> simp
  simp only [center2, exStrip]
  rw [hv _ (by omega), hv _ (by omega), hv _ (by omega)]
  interval_cases C <;> norm_num

/-- The side shared by cells 1 and 2 of the strip. -/
theorem strip_side {data : Nat → RankData ℝ} {serial : RankData ℝ}
    (h : Launched 3 exStrip (realNode stripNode) (centvol2 (realNode stripNode) exStrip) exN exE 6 4 2 data serial) :
    ∃ j < 3, ∃ j' < 3, (build2 Real.sqrt Int.floor 1 serial).faceid 1 j = (build2 Real.sqrt Int.floor 1 serial).faceid 2 j' ∧
      ((build2 Real.sqrt Int.floor 1 serial).fnode ((build2 Real.sqrt Int.floor 1 serial).faceid 1 j) = [2, 3] ∨
       (build2 Real.sqrt Int.floor 1 serial).fnode ((build2 Real.sqrt Int.floor 1 serial).faceid 1 j) = [3, 2]) := by
  have vm := validReal stripValid
  have np := h.nodePair2 vm Real.sqrt Int.floor floor_real
  obtain ⟨j, hj, pj⟩ := np.faceG 1 (by omega) [2, 3] (by simp) rfl (by decide)
  obtain ⟨j', hj', pj'⟩ := np.faceG 2 (by omega) [2, 3] (by simp) rfl (by decide)
  refine ⟨j, hj, j', hj', np.faceG_eq 1 (by omega) 2 (by omega) j hj j' hj' (pj.symm.trans pj'), ?_⟩
  have hl := pj.length_eq
  match hx : (build2 Real.sqrt Int.floor 1 serial).fnode ((build2 Real.sqrt Int.floor 1 serial).faceid 1 j), hl with
  | [a, b], _ =>
    rw [hx] at pj
    have ha : a ∈ [2, 3] := pj.symm.subset (by simp)
    have hb : b ∈ [2, 3] := pj.symm.subset (by simp)
    have hn : [a, b].Nodup := pj.nodup_iff.mp (by simp)
    simp at ha hb hn
    rcases ha with rfl | rfl <;> rcases hb with rfl | rfl <;> simp_all

/-- A jump of the potential across that side drives a field through it when the potential of the nodes vanishes. -/
theorem strip_jump {data : Nat → RankData ℝ} {serial : RankData ℝ}
    (h : Launched 3 exStrip (realNode stripNode) (centvol2 (realNode stripNode) exStrip) exN exE 6 4 2 data serial)
    {hgG : HGResult ℝ} (sG : HGSerial 2 (build2 Real.sqrt Int.floor 1 serial) 6 hgG) {bc : Int → BCond ℝ} (hbc : bc = fun _ => .dirichlet (fun _ _ _ => 0))
    (w : Interp.Fields ℝ) (h1 : w.c 1 = 1) (h2 : w.c 2 = 0) (nd : Nat → ℝ) {j : Nat} (hj : j < 3) {j' : Nat} (hj' : j' < 3)
    (hf : (build2 Real.sqrt Int.floor 1 serial).faceid 1 j = (build2 Real.sqrt Int.floor 1 serial).faceid 2 j')
    (hfn : (build2 Real.sqrt Int.floor 1 serial).fnode ((build2 Real.sqrt Int.floor 1 serial).faceid 1 j) = [2, 3] ∨
       (build2 Real.sqrt Int.floor 1 serial).fnode ((build2 Real.sqrt Int.floor 1 serial).faceid 1 j) = [3, 2]) :
    through (build2 Real.sqrt Int.floor 1 serial) (solGrads 2 (build2 Real.sqrt Int.floor 1 serial) bc w nd) ((build2 Real.sqrt Int.floor 1 serial).faceid 1 j) ≠ 0 := by
  have vm := validReal stripValid
  have np := h.nodePair2 vm Real.sqrt Int.floor floor_real
  have R := np.run.rank 0 (by omega)
  have c1 : 1 < (build2 Real.sqrt Int.floor 1 serial).nbcells := by rw [np.run.nG]; omega
  have c2 : 2 < (build2 Real.sqrt Int.floor 1 serial).nbcells := by rw [np.run.nG]; omega
  have hf1 := R.cG.flt 1 c1 j hj
  have oG := np.linOkG (by omega) sG
  have hnr : ∃ s : ℝ, s ≠ 0 ∧ (build2 Real.sqrt Int.floor 1 serial).normal ((build2 Real.sqrt Int.floor 1 serial).faceid 1 j) 0 = s * (((build2 Real.sqrt Int.floor 1 serial).vertex (((build2 Real.sqrt Int.floor 1 serial).fnode ((build2 Real.sqrt Int.floor 1 serial).faceid 1 j)).getD 0 0) 1 - (build2 Real.sqrt Int.floor 1 serial).vertex (((build2 Real.sqrt Int.floor 1 serial).fnode ((build2 Real.sqrt Int.floor 1 serial).faceid 1 j)).getD 1 0) 1)) ∧
      (build2 Real.sqrt Int.floor 1 serial).normal ((build2 Real.sqrt Int.floor 1 serial).faceid 1 j) 1 = s * (((build2 Real.sqrt Int.floor 1 serial).vertex (((build2 Real.sqrt Int.floor 1 serial).fnode ((build2 Real.sqrt Int.floor 1 serial).faceid 1 j)).getD 1 0) 0 - (build2 Real.sqrt Int.floor 1 serial).vertex (((build2 Real.sqrt Int.floor 1 serial).fnode ((build2 Real.sqrt Int.floor 1 serial).faceid 1 j)).getD 0 0) 0)) := by
    rw [normal_build2 Real.sqrt Int.floor 1 serial hf1, orientedNormal2_eq]
    split
    · refine ⟨-1, by norm_num, ?_, ?_⟩ <;> show -1 * rawNormal2 _ _ _ _ = _ <;> simp only [rawNormal2] <;> rfl
    · refine ⟨1, by norm_num, ?_, ?_⟩ <;> simp only [rawNormal2, one_mul] <;> rfl
  obtain ⟨σ, σ0, n0, n1⟩ := hnr
  have hv : ∀ s < 6, (build2 Real.sqrt Int.floor 1 serial).vertex s 0 = (s : ℝ) ∧ (build2 Real.sqrt Int.floor 1 serial).vertex s 1 = if s % 2 = 0 then 0 else 1 := by
    intro s hs
    rw [np.vertexG]
    have e0 := (h.serial_cells.2.2.1 s hs).1 0 (by omega)
    have e1 := (h.serial_cells.2.2.1 s hs).1 1 (by omega)
    rw [e0, e1]
    simp only [pos, realNode, stripNode]
    refine ⟨by simp, ?_⟩
    split <;> simp
  have hn : ∀ s < 6, solNode 2 (build2 Real.sqrt Int.floor 1 serial) bc nd ((build2 Real.sqrt Int.floor 1 serial).faceid 1 j) s = 0 := by
    intro s hs
    have hp : pbordNode 2 (build2 Real.sqrt Int.floor 1 serial) bc s = 0 := by
      rw [pbordNode_apply _ _ _ (by rw [np.nbG]; exact hs), hbc]
      simp [pnVal]
    have ho : (build2 Real.sqrt Int.floor 1 serial).oldname s = (stripNode s).2.2.2 := by
      rw [np.oldnameG, np.vertexG, (h.serial_cells.2.2.1 s hs).2]
      exact floor_real _
    unfold solNode nodeValue
    split
    · exact hp
    · rw [if_pos, hp]
      rw [ho, hbc]
      unfold bcDirichlet
      interval_cases s <;> decide
  have hin : (build2 Real.sqrt Int.floor 1 serial).name ((build2 Real.sqrt Int.floor 1 serial).faceid 1 j) = 0 ∧
      (((build2 Real.sqrt Int.floor 1 serial).cellid ((build2 Real.sqrt Int.floor 1 serial).faceid 1 j) 0 = ((1 : Nat) : Int) ∧
        (build2 Real.sqrt Int.floor 1 serial).cellid ((build2 Real.sqrt Int.floor 1 serial).faceid 1 j) 1 = ((2 : Nat) : Int)) ∨
       ((build2 Real.sqrt Int.floor 1 serial).cellid ((build2 Real.sqrt Int.floor 1 serial).faceid 1 j) 0 = ((2 : Nat) : Int) ∧
        (build2 Real.sqrt Int.floor 1 serial).cellid ((build2 Real.sqrt Int.floor 1 serial).faceid 1 j) 1 = ((1 : Nat) : Int))) := by
    rcases R.gkinds c1 hj with ⟨_, hb, _, e⟩ | ⟨E, _, _, hz, hi, _, hc⟩
    · rcases R.gkinds c2 hj' with ⟨_, _, _, e'⟩ | ⟨E', _, _, _, _, hb', _⟩
      · rw [← hf, e] at e'; exact absurd e' (by decide)
      · rw [← hf] at hb'; exact absurd hb hb'
    · refine ⟨hz, ?_⟩
      rcases R.gkinds c2 hj' with ⟨_, hb', hi', _⟩ | ⟨E', _, _, _, _, _, hc'⟩
      · rw [← hf] at hi'; exact absurd hi hi'
      · rw [← hf] at hc'
        rcases hc with ⟨a, b⟩ | ⟨a, b⟩ <;> rcases hc' with ⟨a', b'⟩ | ⟨a', b'⟩
        · rw [a] at a'; exact absurd a' (by decide)
        · exact Or.inl ⟨a, b'⟩
        · exact Or.inr ⟨a', b⟩
        · rw [b] at b'; exact absurd b' (by decide)
  have pts : ∀ k < 3, solGrads 2 (build2 Real.sqrt Int.floor 1 serial) bc w nd ((build2 Real.sqrt Int.floor 1 serial).faceid 1 j) k = - gradD 2 (build2 Real.sqrt Int.floor 1 serial) (solNode 2 (build2 Real.sqrt Int.floor 1 serial) bc nd ((build2 Real.sqrt Int.floor 1 serial).faceid 1 j)) ((build2 Real.sqrt Int.floor 1 serial).faceid 1 j) (sideL 2 (build2 Real.sqrt Int.floor 1 serial) w ((build2 Real.sqrt Int.floor 1 serial).faceid 1 j)) (solR 2 (build2 Real.sqrt Int.floor 1 serial) bc w ((build2 Real.sqrt Int.floor 1 serial).faceid 1 j)) k :=
    fun k hk => solGrads_pts (Or.inl rfl) R.cG np.hBe (by omega) bc w _ hf1 (oG.names _ hf1) hk
  have g2 : (gradD 2 (build2 Real.sqrt Int.floor 1 serial) (solNode 2 (build2 Real.sqrt Int.floor 1 serial) bc nd ((build2 Real.sqrt Int.floor 1 serial).faceid 1 j)) ((build2 Real.sqrt Int.floor 1 serial).faceid 1 j) (sideL 2 (build2 Real.sqrt Int.floor 1 serial) w ((build2 Real.sqrt Int.floor 1 serial).faceid 1 j)) (solR 2 (build2 Real.sqrt Int.floor 1 serial) bc w ((build2 Real.sqrt Int.floor 1 serial).faceid 1 j))) 2 = 0 := rfl
  unfold through
  rw [pts 0 (by omega), pts 1 (by omega), pts 2 (by omega), g2, n0, n1]
  have hdf : ¬ dirFace 2 (build2 Real.sqrt Int.floor 1 serial) bc ((build2 Real.sqrt Int.floor 1 serial).faceid 1 j) := fun x => by
    have := x.1; rw [hin.1] at this; exact absurd this (by decide)
  have x1 := strip_center h Real.sqrt Int.floor (C := 1) (by omega)
  have x2 := strip_center h Real.sqrt Int.floor (C := 2) (by omega)
  have y1 := strip_center1 h Real.sqrt Int.floor (C := 1) (by omega)
  have y2 := strip_center1 h Real.sqrt Int.floor (C := 2) (by omega)
  have v2 := hv 2 (by omega)
  have v3 := hv 3 (by omega)
  have s2 := hn 2 (by omega)
  have s3 := hn 3 (by omega)
  unfold solR sideL otherPt otherVal
  rw [if_neg hdf, if_pos hin.1, if_pos hin.1]
  simp only [gradD, if_true, gradPts2, cut, nodePt, show (0:Nat) < 2 by omega, show (1:Nat) < 2 by omega]
  rcases hfn with e | e <;> rcases hin.2 with ⟨q0, q1⟩ | ⟨q0, q1⟩ <;> rw [q0, q1, e] <;>
    simp only [List.getD_cons_zero, List.getD_cons_succ, idx_cast, s2, s3, v2.1, v2.2, v3.1, v3.2, x1, x2, y1, y2, h1, h2] <;> norm_num <;> exact σ0

/-- Electrons should enter cell `c` from another process when the velocity points inwards at a shared side. -/
theorem inflow_pos {dim : Nat} {nodeid : Nat → Nat → Nat} {node : Nat → ℝ × ℝ × ℝ × Nat} {cv : Nat → List ℝ} {npart0 epart : Nat → Nat}
    {nbnodes n SIZE : Nat} {data : Nat → RankData ℝ} {serial : RankData ℝ} {L : Nat → Tables ℝ} {G : Tables ℝ} {B : List Int}
    {out : Nat → Nat → Vec ℝ} {trunc : ℝ → Int}
    (h : NodePair dim nodeid node cv npart0 epart nbnodes n SIZE data serial L G B out trunc)
    {vL : Nat → Nat → Vec ℝ} {vG : Nat → Vec ℝ} (hv : VelMatch dim SIZE data L G vL vG) {p : Nat} (hp : p < SIZE) {u : Nat → ℝ} (hu : ∀ g, u g = 1)
    {c : Nat} (hc : c < (L p).nbcells) {j : Nat} (hj : j < dim + 1) {E : Nat} (hE : E < G.nbcells) (hm : epart E ≠ p)
    (hEu : Uses G.faceid (dim + 1) E (G.faceid (phi (data p) c) j))
    (hin : vG (G.faceid (phi (data p) c) j) 0 * out (phi (data p) c) j 0 + vG (G.faceid (phi (data p) c) j) 1 * out (phi (data p) c) j 1 +
      vG (G.faceid (phi (data p) c) j) 2 * out (phi (data p) c) j 2 < 0) :
    0 < interfaceInflow (data p) (L p) u (vL p) c := by
  have R := h.run.rank p hp
  have h10 := ((R.nameL c hc j hj).1 ⟨E, hE, hm, hEu⟩).1
  have hcell : (L p).cellid ((L p).faceid c j) 0 = (c : Int) := by
    rcases R.kinds hc hj with ⟨_, _, hB, _⟩ | ⟨_, _, _, hn, _⟩ | ⟨_, _, _, _, _, _, _, _, e, _⟩
    · rw [h10] at hB; exact absurd hB R.cL.B10
    · rw [h10] at hn; exact absurd hn (by decide)
    · exact e
  have hmem : (L p).faceid c j ∈ (L p).halofaces := (R.cL.halo.2 _).mpr ⟨R.cL.flt c hc j hj, h10⟩
  have hth : through (L p) (vL p) ((L p).faceid c j) < 0 := by
    unfold through
    rw [hv p hp c hc j hj 0 (by omega), hv p hp c hc j hj 1 (by omega), hv p hp c hc j hj 2 (by omega),
      R.normalL c hc j hj hcell 0 (by omega), R.normalL c hc j hj hcell 1 (by omega), R.normalL c hc j hj hcell 2 (by omega)]
    exact hin
  unfold interfaceInflow
  apply lt_of_lt_of_le (b := u (((data p).halosext.getD ((L p).halofid ((L p).faceid c j)) []).getD 0 0) * max (- through (L p) (vL p) ((L p).faceid c j)) 0)
  · rw [hu]; simpa using hth
  · refine List.single_le_sum ?_ _ (List.mem_map.mpr ⟨(L p).faceid c j, List.mem_filter.mpr ⟨hmem, by rw [hcell]; simp⟩, rfl⟩)
    intro x hx
    obtain ⟨f, _, rfl⟩ := List.mem_map.mp hx
    rw [hu]; simp

/-- Insulated electrons, potential zero on all sides, first order. -/
noncomputable def staleSetup : StrSetup := ⟨fun _ => BCond.neumann, fun _ => BCond.dirichlet (fun _ _ _ => 0), 1, 1, 1, false, fun _ _ => true⟩

set_option maxHeartbeats 1000000 in
/-- **C118**, a run at the default order that depends on the number of processes: four triangles, two processes, electron density 1
everywhere, ions chosen such that the potential is 1 in the cells of process 0 and 0 in those of process 1, a solver that is right on every
solvable system.  After the first iteration time, potential and ions are those of the serial run, the electrons are not. -/
theorem C118_depends_on_processes : ∃ (data : Nat → RankData ℝ) (serial : RankData ℝ),
    Launched 3 exStrip (realNode stripNode) (centvol2 (realNode stripNode) exStrip) exN exE 6 4 2 data serial ∧
    ∃ WL WG, mkWorld 2 2 data (fun p => build2 Real.sqrt Int.floor 2 (data p)) = some WL ∧
      mkWorld 2 1 (fun _ => serial) (fun _ => build2 Real.sqrt Int.floor 1 serial) = some WG ∧
      ∃ direct, ReadsRows 4 direct ∧ SolvesSystems 4 direct ∧ ∃ fi s0 t0 s t,
        strStart WL staleSetup .mumps direct (fun _ _ _ => 1) fi (fun _ _ _ => 0) = some s0 ∧
        strStart WG staleSetup .mumps direct (fun _ _ _ => 1) fi (fun _ _ _ => 0) = some t0 ∧
        strLoop WL staleSetup .mumps direct s0 1 = some s ∧ strLoop WG staleSetup .mumps direct t0 1 = some t ∧
        s.time = t.time ∧ CellsAgree 2 data s.sys.cells (t.sys.cells 0) ∧ CellsAgree 2 data s.ni (t.ni 0) ∧
        ¬ CellsAgree 2 data (fun p => (s.V p).cell) (t.V 0).cell := by
  obtain ⟨data, serial, h⟩ := realStripLaunched
  have vm := validReal stripValid
  have np := h.nodePair2 vm Real.sqrt Int.floor floor_real
  obtain ⟨hgL, hgG, w1, w2, sL, sG⟩ := np.worlds
  obtain ⟨Q, hQ⟩ : ∃ Q : Nat → ℝ, Q = fun c => if c < 2 then 1 else 0 := ⟨_, rfl⟩
  obtain ⟨W, hW⟩ : ∃ W, W = serW 2 serial (build2 Real.sqrt Int.floor 1 serial) hgG := ⟨_, rfl⟩
  obtain ⟨direct, h1, h2, h3⟩ := pinned_solver 4 (matrixOf W staleSetup.bcP) Q
  obtain ⟨r, hr⟩ : ∃ r : Nat → ℝ, r = fun g => ∑ j ∈ Finset.range 4, matrixOf W staleSetup.bcP g j * Q j - boundaryOf W staleSetup.bcP g := ⟨_, rfl⟩
  obtain ⟨fi, hfi⟩ : ∃ fi : ℝ → ℝ → ℝ → ℝ, fi = fun x _ _ => 1 - r (⌊x⌋.toNat - 1) / 1.8096e-8 := ⟨_, rfl⟩
  obtain ⟨s0, t0, a1, a2, m0⟩ := strStart_match np hgL hgG staleSetup direct .mumps .mumps (.inl rfl) (fun _ _ _ => 1) fi (fun _ _ _ => 0)
  obtain ⟨b1, b2, b3⟩ := strStart_blank a1
  obtain ⟨c1, c2, c3⟩ := strStart_blank a2
  obtain ⟨s, t, e1, e2, k1, k2, k3, k4, k5, k6, k7, k8, ⟨U, k9, k10, k11⟩, k12⟩ := strFirst np (by omega) sL sG staleSetup rfl rfl ⟨run_star 2 4, fun _ _ _ _ _ => Or.inl rfl⟩
    (C99_dirichlet_corners_2d h vm Real.sqrt Int.floor floor_real _) direct h1 .mumps .mumps s0 t0 m0 b1 c1 b2 c2
  obtain ⟨t1, et, _, _, _, _, _, hV, hni, _⟩ := strStart_eq (serW 2 serial (build2 Real.sqrt Int.floor 1 serial) hgG) staleSetup .mumps direct (fun _ _ _ => 1) fi (fun _ _ _ => 0) (.inl rfl)
  obtain rfl := Option.some.inj (et.symm.trans a2)
  have hu : ∀ g, (t1.V 0).cell g = 1 := fun g => by rw [hV 0]
  have hsys : ∀ c < 4, t.sys.cells 0 c = Q c := by
    intro c hc
    rw [k5 c (by rw [np.run.nG]; exact hc), ← hW, h3]
    intro i hi
    rw [hu, hni]
    show _ + 1.8096e-8 * (1 - fi ((build2 Real.sqrt Int.floor 1 serial).center i 0) _ _) = _
    rw [strip_center h Real.sqrt Int.floor hi, hfi]
    dsimp only
    have hfl : ⌊(i : ℝ) + 1⌋ = ((i + 1 : Nat) : Int) := by rw [← Nat.cast_succ, Int.floor_natCast]
    rw [hfl, Int.toNat_natCast, Nat.add_sub_cancel, hr]
    ring
  obtain ⟨j, hj, j', hj', hF, hfn⟩ := strip_side h
  have hE : through (build2 Real.sqrt Int.floor 1 serial) (t.el 0) ((build2 Real.sqrt Int.floor 1 serial).faceid 1 j) ≠ 0 := by
    rw [k11]
    refine strip_jump h sG rfl U.fields ?_ ?_ _ hj hj' hF hfn
    · show U.cell 1 = 1
      rw [k9, hsys 1 (by omega), hQ]; simp
    · show U.cell 2 = 0
      rw [k9, hsys 2 (by omega), hQ]; simp
  have R0 := np.run.rank 0 (by omega)
  have R1 := np.run.rank 1 (by omega)
  have d1 : 1 < (build2 Real.sqrt Int.floor 1 serial).nbcells := by rw [np.run.nG]; omega
  have d2 : 2 < (build2 Real.sqrt Int.floor 1 serial).nbcells := by rw [np.run.nG]; omega
  have hf1 := R0.cG.flt 1 d1 j hj
  have hvel : through (build2 Real.sqrt Int.floor 1 serial) (t.vel 0) ((build2 Real.sqrt Int.floor 1 serial).faceid 1 j) ≠ 0 := by
    rw [k8 0]; exact through_vel_ne _ _ _ hf1 hE
  have hdt : 0 < s.time := by
    rw [k7, b3, zero_add]
    unfold allreduceMin
    simp only [List.range_one, List.foldl_cons, List.foldl_nil, min_self]
    exact strDt_pos 2 staleSetup (by unfold staleSetup; norm_num) _ (h.solid2 vm Real.sqrt (fun x hx => (Real.sqrt_pos.mpr hx).ne') Int.floor floor_real).vpos _ _
  have fin : ∀ p < 2, ∀ c < (build2 Real.sqrt Int.floor 2 (data p)).nbcells, 0 < interfaceInflow (data p) (build2 Real.sqrt Int.floor 2 (data p)) (t1.V 0).cell (s.vel p) c →
      ¬ CellsAgree 2 data (fun p => (s.V p).cell) (t.V 0).cell := by
    intro p hp c hc hpos hag
    have e := k12 p hp c hc
    have := (np.cellsAgree (fun p => (s.V p).cell) (t.V 0).cell).mp hag p hp c hc
    rw [b3, sub_zero] at e
    have hvol : 0 < (build2 Real.sqrt Int.floor 2 (data p)).volume c := by
      rw [np.run.volume p hp c hc]
      exact (h.solid2 vm Real.sqrt (fun x hx => (Real.sqrt_pos.mpr hx).ne') Int.floor floor_real).vpos _ ((np.run.rank p hp).sub.lt c hc).1
    have : 0 < s.time / (build2 Real.sqrt Int.floor 2 (data p)).volume c * interfaceInflow (data p) (build2 Real.sqrt Int.floor 2 (data p)) (t1.V 0).cell (s.vel p) c := by
      positivity
    linarith
  refine ⟨data, serial, h, _, _, w1, w2, direct, h1, h2, fi, s0, t1, s, t, a1, a2, ?_, ?_, k1, k4, (np.cellsAgree _ _).mpr k6, ?_⟩
  · simp only [strLoop, Option.bind_some]
    rw [b3, if_pos (by unfold staleSetup; norm_num)]; exact e1
  · simp only [strLoop, Option.bind_some]
    rw [c3, if_pos (by unfold staleSetup; norm_num)]; exact e2
  obtain ⟨p0, hp0, q0⟩ := R0.sub.surj 1 d1 rfl
  obtain ⟨p1, hp1, q1⟩ := R1.sub.surj 2 d2 rfl
  have hopp := R0.opp 1 d1 2 d2 (by omega) j hj j' hj' hF
  obtain ⟨x, hx⟩ : ∃ x, x = t.vel 0 ((build2 Real.sqrt Int.floor 1 serial).faceid 1 j) 0 * out2 serial 1 j 0 + t.vel 0 ((build2 Real.sqrt Int.floor 1 serial).faceid 1 j) 1 * out2 serial 1 j 1 +
    t.vel 0 ((build2 Real.sqrt Int.floor 1 serial).faceid 1 j) 2 * out2 serial 1 j 2 := ⟨_, rfl⟩
  have hx0 : x ≠ 0 := by
    intro hz
    apply hvel
    unfold through
    obtain ⟨ε, _, hn⟩ := R0.normalG_pm d1 hj
    rw [hn 0 (by omega), hn 1 (by omega), hn 2 (by omega)]; rw [hx] at hz; linear_combination ε * hz
  rcases lt_or_gt_of_ne hx0 with hneg | hpos
  · refine fin 0 (by omega) p0 hp0 (inflow_pos np k3 (by omega) hu hp0 hj d2 (by decide) ?_ ?_)
    · rw [q0, hF]; exact ⟨j', hj', rfl⟩
    · rw [q0, ← hx]; exact hneg
  · refine fin 1 (by omega) p1 hp1 (inflow_pos np k3 (by omega) hu hp1 hj' d1 (by decide) ?_ ?_)
    · rw [q1, ← hF]; exact ⟨j, hj, rfl⟩
    · rw [q1, ← hF]
      have o0 := hopp 0 (by omega)
      have o1 := hopp 1 (by omega)
      have o2 := hopp 2 (by omega)
      have : x = - (t.vel 0 ((build2 Real.sqrt Int.floor 1 serial).faceid 1 j) 0 * out2 serial 2 j' 0 + t.vel 0 ((build2 Real.sqrt Int.floor 1 serial).faceid 1 j) 1 * out2 serial 2 j' 1 +
          t.vel 0 ((build2 Real.sqrt Int.floor 1 serial).faceid 1 j) 2 * out2 serial 2 j' 2) := by
        rw [hx, o0, o1, o2]; ring
      linarith

/-! The hypotheses of `C118_first_iteration` are met. -/
example : ∃ (data : Nat → RankData ℝ) (serial : RankData ℝ) (WL WG : World ℝ), mkWorld 2 2 data (fun p => build2 Real.sqrt Int.floor 2 (data p)) = some WL ∧
    mkWorld 2 1 (fun _ => serial) (fun _ => build2 Real.sqrt Int.floor 1 serial) = some WG ∧ ∀ f fi g : ℝ → ℝ → ℝ → ℝ,
      ∃ s0 t0 s t, strStart WL staleSetup .mumps (fun _ b => b) f fi g = some s0 ∧ strStart WG staleSetup .petsc (fun _ b => b) f fi g = some t0 ∧
          strStep WL staleSetup .mumps (fun _ b => b) s0 = some s ∧ strStep WG staleSetup .petsc (fun _ b => b) t0 = some t ∧ s.time = t.time := by
  obtain ⟨data, serial, h⟩ := realStripLaunched
  obtain ⟨WL, WG, e1, e2, H⟩ := C118_first_iteration_2d h (validReal stripValid) Real.sqrt Int.floor floor_real (run_star 2 4)
  refine ⟨data, serial, WL, WG, e1, e2, fun f fi g => ?_⟩
  obtain ⟨s0, t0, s, t, a, b, c, d, e, _⟩ := H staleSetup rfl rfl (fun _ _ _ _ _ => Or.inl rfl)
    (C99_dirichlet_corners_2d h (validReal stripValid) Real.sqrt Int.floor floor_real _)
    (fun _ b => b) (fun _ _ _ _ _ hb => hb) .mumps .petsc (.inl rfl) (.inr rfl) f fi g
  exact ⟨s0, t0, s, t, a, b, c, d, e⟩

example : ∃ (data : Nat → RankData ℝ) (serial : RankData ℝ) (WL WG : World ℝ), mkWorld 3 2 data (fun p => build3 Real.sqrt Int.floor 2 (data p)) = some WL ∧
    mkWorld 3 1 (fun _ => serial) (fun _ => build3 Real.sqrt Int.floor 1 serial) = some WG ∧ ∀ f fi g : ℝ → ℝ → ℝ → ℝ,
      ∃ s0 t0 s t, strStart WL staleSetup .mumps (fun _ b => b) f fi g = some s0 ∧ strStart WG staleSetup .petsc (fun _ b => b) f fi g = some t0 ∧
          strStep WL staleSetup .mumps (fun _ b => b) s0 = some s ∧ strStep WG staleSetup .petsc (fun _ b => b) t0 = some t ∧ s.time = t.time := by
  obtain ⟨data, serial, h⟩ := realChainLaunched
  obtain ⟨WL, WG, e1, e2, H⟩ := C118_first_iteration_3d h (validReal3 chainValid) Real.sqrt Int.floor floor_real (run_star 3 3)
  refine ⟨data, serial, WL, WG, e1, e2, fun f fi g => ?_⟩
  obtain ⟨s0, t0, s, t, a, b, c, d, e, _⟩ := H staleSetup rfl rfl (fun _ _ _ _ _ => Or.inl rfl)
    (C99_dirichlet_corners_3d h (validReal3 chainValid) Real.sqrt Int.floor floor_real _)
    (fun _ b => b) (fun _ _ _ _ _ hb => hb) .mumps .petsc (.inl rfl) (.inr rfl) f fi g
  exact ⟨s0, t0, s, t, a, b, c, d, e⟩

end Verif.Props.Par
