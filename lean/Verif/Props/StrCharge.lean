import Verif.Props.RunStreamer
import Verif.Props.DarcyConst
import Verif.Spec.StreamerRun

/-!
# C114: the charge in streamer runs
-/
set_option linter.unusedSectionVars false
set_option linter.unusedVariables false
set_option linter.unusedSimpArgs false
namespace Verif.Props.Par
open Verif.Fvm Verif.Spec Verif.Conn Verif.Dom Verif.Geo Verif.Names Verif.MeshFile Verif.Part Verif.Comm Verif.Run Verif.HaloGhost Verif.Interp
open Verif.LinSolve (ReadsRows SolvedWith InPlace)

section
variable {dim : Nat} {nodeid : Nat → Nat → Nat} {node : Nat → ℝ × ℝ × ℝ × Nat} {cv : Nat → List ℝ} {npart0 epart : Nat → Nat}
  {nbnodes n SIZE : Nat} {data : Nat → RankData ℝ} {serial : RankData ℝ} {L : Nat → Tables ℝ} {G : Tables ℝ} {B : List Int}
  {out : Nat → Nat → Vec ℝ} {trunc : ℝ → Int}

/-- Moving electrons and ions on one process. -/
theorem strMove_serial (serial : RankData ℝ) (G : Tables ℝ) (hgG : Nat → HGResult ℝ) (S : StrSetup) (hgrad : S.grad = true) (el vel : Nat → Nat → Vec ℝ)
    (V : Nat → Vari ℝ) (gr0 : Nat → Grads ℝ) (ni nd0 : Nat → Nat → ℝ) (it : Nat) :
    ∃ (V' : Nat → Vari ℝ) (g' : Nat → Grads ℝ) (ni' nd : Nat → Nat → ℝ) (gr : Grads ℝ) (u w : Vari ℝ) (E : Nat → Vec ℝ),
      strMove (serW dim serial G hgG) S el vel V gr0 ni nd0 it = some (V', g', ni', nd, strDt dim S G (el 0) (vel 0)) ∧
      u.cell = (V 0).cell ∧ w.cell = (V 0).cell ∧ ValuesG dim G S.bc u.fields ∧ ValuesG dim G S.bc w.fields ∧
      (E = faceGrads dim G S.bc w.fields (nodeValues dim 1 serial G (hgG 0) w.fields)) ∧
      ((V' 0).cell, ni' 0) = Streamer.updateFlux (V 0).cell (ni 0) (conv dim (convArgs G (velFields (vel 0) (V 0).cell u.ghost u.halo gr) S.order)) (fun _ => 0)
        (strDissip G (el 0) (vel 0) E) (fun _ => 0) (fun i => (strSource dim G (V 0).cell (el 0) (vel 0) i).1)
        (fun i => (strSource dim G (V 0).cell (el 0) (vel 0) i).2) (strDt dim S G (el 0) (vel 0)) G.volume := by
  obtain ⟨U2, e2, c2, v2⟩ := serial_update (dim := dim) serial G hgG S.bc V
  obtain ⟨g, eg⟩ : ∃ g : Nat → Nat → ℝ × ℝ × ℝ, g = fun p => cellGrads dim 1 serial G (hgG p) (U2 p).fields := ⟨_, rfl⟩
  obtain ⟨gr, egr⟩ : ∃ gr : Nat → Grads ℝ, gr = fun p => ⟨fun c => (g p c).1, fun c => (g p c).2.1, fun c => (g p c).2.2,
      limiter dim (limEps dim) G (U2 p).fields (g p), [[]].getD p [], [[]].getD p [], [[]].getD p [], [[]].getD p []⟩ := ⟨_, rfl⟩
  have hcg : cellGradient (serW dim serial G hgG) S.bc V = some (U2, gr) := by
    unfold cellGradient
    rw [e2, egr]
    subst eg
    simp only [Option.bind_some, exchange_serial, Option.map_some]
  have hdt : allreduceMin 1 (fun p => strDt dim S G (el p) (vel p)) = strDt dim S G (el 0) (vel 0) := by unfold allreduceMin; simp
  obtain ⟨U3, e3, c3, v3⟩ := serial_update (dim := dim) serial G hgG S.bc U2
  have hfg : faceGradient (serW dim serial G hgG) S.bc U2 = some (U3, fun p => nodeValues dim 1 serial G (hgG p) (U3 p).fields,
      fun p => faceGrads dim G S.bc (U3 p).fields (nodeValues dim 1 serial G (hgG p) (U3 p).fields)) := by
    unfold faceGradient celltonode
    rw [e3]; rfl
  obtain ⟨N, eN⟩ : ∃ N : Nat → (Nat → ℝ) × (Nat → ℝ), N = fun p => Streamer.updateFlux (U3 p).cell (ni p)
      (conv dim (convArgs G (velFields (vel p) (U2 p).cell (U2 p).ghost (U2 p).halo (gr p)) S.order)) (fun _ => 0)
      (strDissip G (el p) (vel p) (faceGrads dim G S.bc (U3 p).fields (nodeValues dim 1 serial G (hgG p) (U3 p).fields))) (fun _ => 0)
      (fun i => (strSource dim G (V p).cell (el p) (vel p) i).1)
      (fun i => (strSource dim G (V p).cell (el p) (vel p) i).2) (allreduceMin 1 (fun p => strDt dim S G (el p) (vel p))) G.volume := ⟨_, rfl⟩
  obtain ⟨U4, e4, c4, _⟩ := serial_update (dim := dim) serial G hgG S.bc (fun p => { U3 p with cell := (N p).1 })
  have e4' : celltonode (serW dim serial G hgG) S.bc (fun p => { U3 p with cell := (N p).1 }) = some (U4, fun p => nodeValues dim 1 serial G (hgG p) (U4 p).fields) := by
    unfold celltonode
    exact congrArg (Option.map _) e4
  obtain ⟨o, ho⟩ : ∃ o : (Nat → Vari ℝ) × (Nat → Nat → ℝ), o = if S.saves it (allreduceMin 1 (fun p => strDt dim S G (el p) (vel p))) then
      (U4, fun p => nodeValues dim 1 serial G (hgG p) (U4 p).fields) else (fun p => { U3 p with cell := (N p).1 }, nd0) := ⟨_, rfl⟩
  have hoc : (o.1 0).cell = (N 0).1 := by
    rw [ho]; split
    · exact c4 0
    · rfl
  refine ⟨o.1, gr, fun p => (N p).2, o.2, gr 0, U2 0, U3 0, _, ?_, c2 0, by rw [c3, c2], v2 0, v3 0, rfl, ?_⟩
  · unfold strMove
    rw [hgrad, if_pos rfl, hcg]
    simp only [Option.bind_some]
    rw [hfg]
    simp only [Option.bind_some]
    have : (if S.saves it (allreduceMin 1 (fun p => strDt dim S G (el p) (vel p))) then
        celltonode (serW dim serial G hgG) S.bc (fun p => { U3 p with cell := (N p).1 }) else some (fun p => { U3 p with cell := (N p).1 }, nd0)) = some o := by
      rw [e4', ho]; split <;> rfl
    rw [eN] at this ⊢
    refine (congrArg (Option.map (fun o : (Nat → Vari ℝ) × (Nat → Nat → ℝ) => (o.1, gr, _, o.2, _))) this).trans ?_
    rw [← hdt]
    rfl
  · rw [hoc, eN]
    dsimp only
    rw [hdt, c3, c2]

/-- One iteration changes the charge by what the scheme carries through the boundary. -/
theorem strStep_charge (h : NodePair dim nodeid node cv npart0 epart nbnodes n SIZE data serial L G B out trunc) (hs : Solid G dim out)
    (hw : dim = 3 → WedgeOk G) (hgn : GhostNormal dim G) {hgG : Nat → HGResult ℝ} (S : StrSetup) (hgrad : S.grad = true)
    (hb : ∀ f ∈ G.boundaryfaces, S.bc (G.name f) = .neumann)
    {direct : (Nat → Nat → ℝ) → (Nat → ℝ) → Nat → ℝ} {sv : LinSolve.Solver} {t t' : StrState}
    (e : strStep (serW dim serial G hgG) S sv direct t = some t') :
    ∃ (u : Vari ℝ) (gr : Grads ℝ), ValuesG dim G S.bc u.fields ∧ u.cell = (t.V 0).cell ∧
      totalCharge (serW dim serial G hgG) t' = totalCharge (serW dim serial G hgG) t + (t'.time - t.time) *
        (G.boundaryfaces.map (boundaryFlux (convArgs G (velFields (t'.vel 0) (t.V 0).cell u.ghost u.halo gr) S.order) dim)).sum := by
  have h0 : 0 < SIZE := by have := h.run.hS; omega
  have R := h.run.rank 0 h0
  unfold strStep at e
  cases hsol : strSolve (serW dim serial G hgG) S sv direct t with
  | none => rw [hsol] at e; cases e
  | some b =>
  rw [hsol] at e
  simp only [Option.bind_some] at e
  cases hg : solGradient (serW dim serial G hgG) S.bcP (fun p => { t.P p with cell := b.1.cells p }) with
  | none => rw [hg] at e; cases e
  | some g =>
  rw [hg] at e
  simp only [Option.bind_some] at e
  obtain ⟨vel, hvel⟩ : ∃ vel : Nat → Nat → Vec ℝ, vel = fun p => strVel G (g.2.2 p) (t.vel p) := ⟨_, rfl⟩
  obtain ⟨V', g', ni', nd, gr, u, w, E, e1, cu, cw, vu, vw, hE, hnew⟩ := strMove_serial (dim := dim) serial G hgG S hgrad g.2.2 vel t.V t.gr t.ni t.node t.iter
  rw [show (fun p => strVel ((serW dim serial G hgG).D p) (g.2.2 p) (t.vel p)) = vel from hvel.symm, e1] at e
  simp only [Option.map_some] at e
  obtain rfl := Option.some.inj e
  refine ⟨u, gr, vu, cu, ?_⟩
  dsimp only
  obtain ⟨F, hF⟩ : ∃ F, F = velFields (vel 0) (t.V 0).cell u.ghost u.halo gr := ⟨_, rfl⟩
  obtain ⟨dt, hdt⟩ : ∃ dt, dt = strDt dim S G (g.2.2 0) (vel 0) := ⟨_, rfl⟩
  rw [← hF, ← hdt]
  rw [← hF, ← hdt] at hnew
  have hsum := sum_balance (convArgs G F S.order) dim G.nbcells (R.facesOK _ _ _)
  rw [show (convArgs G F S.order).periodicboundaryfaces = [] from R.cG.per, show (convArgs G F S.order).halofaces = [] from R.halo_nil] at hsum
  rw [show (convArgs G F S.order).boundaryfaces = G.boundaryfaces from rfl] at hsum
  simp only [List.map_nil, List.sum_nil, zero_add] at hsum
  have hdis : ∑ C ∈ Finset.range G.nbcells, strDissip G (g.2.2 0) (vel 0) E C = 0 := by
    rw [strDissip_eq]
    unfold Run.dissip
    rw [C04_dissipative_conservative]
    · apply List.sum_eq_zero
      intro x hx
      obtain ⟨f, hf, rfl⟩ := List.mem_map.mp hx
      rw [List.mem_filter, List.mem_range] at hf
      have hfb : f ∈ G.boundaryfaces := by
        rw [R.cG.bnd.2]
        exact ⟨hf.1, (h.nameG_cases hf.1).resolve_left (by simpa using hf.2)⟩
      have := insul_flux R.cG h.run.hd h.hBe hw hgn { unitD with bc := S.bc } (fun f _ => ⟨1, rfl, rfl, rfl⟩) w.fields (nodeValues dim 1 serial G (hgG 0) w.fields) hfb ?_
      · unfold diffFlux at this ⊢
        rw [hE]
        simp only [unitD, one_mul] at this ⊢
        linear_combination Streamer.faceDe (toV (vel 0) f) (toV (g.2.2 0) f) * this
      · obtain ⟨g0, e0⟩ := vw.ghost
        rw [e0, updateGhosts_apply _ _ _ _ _ hf.1 (h.run.hB _ ((R.cG.bnd.2 f).mp hfb).2), hb f hfb]
        rfl
    · intro f hf
      obtain ⟨C, hC, j, hj, rfl⟩ := R.cG.fsurj f hf
      rcases R.gkinds hC hj with ⟨_, _, _, e⟩ | ⟨E, hE, _, _, _, _, ⟨e, _⟩ | ⟨e, _⟩⟩ <;> rw [e] <;> exact ⟨by omega, by exact_mod_cast (by assumption)⟩
    · intro f hf hn
      obtain ⟨C, hC, j, hj, rfl⟩ := R.cG.fsurj f hf
      rcases R.gkinds hC hj with ⟨hB, _, _, e⟩ | ⟨E, hE, _, _, _, _, ⟨_, e⟩ | ⟨_, e⟩⟩
      · rw [hn] at hB; exact absurd hB R.cG.B0
      · rw [e]; exact ⟨by omega, by exact_mod_cast hE⟩
      · rw [e]; exact ⟨by omega, by exact_mod_cast hC⟩
  have tot : ∀ s : StrState, totalCharge (serW dim serial G hgG) s = ∑ C ∈ Finset.range G.nbcells, G.volume C * (s.ni 0 C - (s.V 0).cell C) := by
    intro s; unfold totalCharge; simp [serW]
  rw [tot, tot]
  dsimp only
  have e2 : ∀ C ∈ Finset.range G.nbcells, G.volume C * (ni' 0 C - (V' 0).cell C) = G.volume C * (t.ni 0 C - (t.V 0).cell C) -
      dt * (balance (convArgs G F S.order) dim C + strDissip G (g.2.2 0) (vel 0) E C) := by
    intro C hC
    have hv := (hs.vpos C (Finset.mem_range.mp hC)).ne'
    have n1 : (V' 0).cell C = _ := congrFun (congrArg Prod.fst hnew) C
    have n2 : ni' 0 C = _ := congrFun (congrArg Prod.snd hnew) C
    rw [n1, n2]
    dsimp only [Streamer.updateFlux, strSource, Streamer.source]
    rw [conv_balance R.cG _ _ h.run.hd]
    field_simp
    ring
  rw [Finset.sum_congr rfl e2, Finset.sum_sub_distrib, ← Finset.mul_sum, Finset.sum_add_distrib, hsum, hdis]
  ring

/-- First order: the drift carries the density of the cell. -/
theorem strStep_outflow (h : NodePair dim nodeid node cv npart0 epart nbnodes n SIZE data serial L G B out trunc) (hs : Solid G dim out)
    (hw : dim = 3 → WedgeOk G) (hgn : GhostNormal dim G) {hgG : Nat → HGResult ℝ} (S : StrSetup) (hgrad : S.grad = true) (ho : S.order = 1)
    (hb : ∀ f ∈ G.boundaryfaces, S.bc (G.name f) = .neumann)
    {direct : (Nat → Nat → ℝ) → (Nat → ℝ) → Nat → ℝ} {sv : LinSolve.Solver} {t t' : StrState}
    (e : strStep (serW dim serial G hgG) S sv direct t = some t') :
    totalCharge (serW dim serial G hgG) t' = totalCharge (serW dim serial G hgG) t + (t'.time - t.time) * electronOutflow (serW dim serial G hgG) t t' := by
  have h0 : 0 < SIZE := by have := h.run.hS; omega
  have R := h.run.rank 0 h0
  obtain ⟨u, gr, vu, cu, et⟩ := strStep_charge h hs hw hgn S hgrad hb e
  rw [et]
  congr 2
  unfold electronOutflow
  show _ = ∑ p ∈ Finset.range 1, _
  rw [Finset.sum_range_one]
  show _ = (G.boundaryfaces.map _).sum
  congr 1
  apply List.map_congr_left
  intro f hf
  have hfb := (R.cG.bnd.2 f).mp hf
  obtain ⟨F, hF⟩ : ∃ F, F = velFields (t'.vel 0) (t.V 0).cell u.ghost u.halo gr := ⟨_, rfl⟩
  rw [← hF]
  unfold boundaryFlux cellAtFace
  rw [show (convArgs G F S.order).order = 1 from ho, extrap_one]
  have ev : vn (convArgs G F S.order) f = through G (t'.vel 0) f := by rw [hF]; rfl
  have eg : (convArgs G F S.order).w_ghost f = (t.V 0).cell (G.cellid f 0).toNat := by
    rw [hF]
    show u.fields.ghost f = _
    obtain ⟨g0, e0⟩ := vu.ghost
    rw [e0, updateGhosts_apply _ _ _ _ _ hfb.1 (h.run.hB _ hfb.2), hb f hf]
    have ec : u.fields.c = (t.V 0).cell := cu
    rw [ec]
    rfl
  have ec : (convArgs G F S.order).w_c (left (convArgs G F S.order) f) = (t.V 0).cell (G.cellid f 0).toNat := by rw [hF]; rfl
  rw [ev, eg, ec, upwind_same]

/-- The velocity is parallel to the field. -/
theorem through_vel (D : Tables ℝ) (el old : Nat → Vec ℝ) {f : Nat} (hf : f < D.nbfaces) (he : through D el f = 0) : through D (strVel D el old) f = 0 := by
  unfold through at he ⊢
  rw [strVel_apply _ _ _ hf (by omega : 0 < 3), strVel_apply _ _ _ hf (by omega : 1 < 3), strVel_apply _ _ _ hf (by omega : 2 < 3)]
  unfold driftOf
  by_cases hz : toV el f = 0
  · simp [hz]
  · simp only [if_neg hz]
    have e0 : toV el f ⟨0, by omega⟩ = el f 0 := rfl
    have e1 : toV el f ⟨1, by omega⟩ = el f 1 := rfl
    have e2 : toV el f ⟨2, by omega⟩ = el f 2 := rfl
    rw [e0, e1, e2]
    generalize Streamer.driftSpeed _ = a
    linear_combination (- a / Streamer.norm3 (toV el f)) * he

/-- No field through an insulated side. -/
theorem field_insul (h : NodePair dim nodeid node cv npart0 epart nbnodes n SIZE data serial L G B out trunc)
    (hw : dim = 3 → WedgeOk G ∧ ∀ p < SIZE, WedgeOk (L p)) (hgn : GhostNormal dim G) {bc : Int → BCond ℝ} {hgG : HGResult ℝ} (sG : HGSerial dim G nbnodes hgG)
    {w : Interp.Fields ℝ} (v : ValuesG dim G bc w) (nd : Nat → ℝ) {f : Nat} (hf : f ∈ G.boundaryfaces) (hN : bc (G.name f) = .neumann) :
    through G (solGrads dim G bc w nd) f = 0 := by
  have h0 : 0 < SIZE := by have := h.run.hS; omega
  have R := h.run.rank 0 h0
  have oG := h.linOkG hw sG
  obtain ⟨hf1, hBm⟩ := (R.cG.bnd.2 f).mp hf
  have n0 : G.name f ≠ 0 := fun x => R.cG.B0 (x ▸ hBm)
  have n10 : G.name f ≠ 10 := fun x => R.cG.B10 (x ▸ hBm)
  have hdf : ¬ dirFace dim G bc f := fun x => by have := x.2; rw [hN] at this; cases this
  have pts : ∀ k < 3, solGrads dim G bc w nd f k = - gradD dim G (solNode dim G bc nd f) f (sideL dim G w f) (solR dim G bc w f) k :=
    fun k hk => solGrads_pts h.run.hd R.cG h.hBe (fun e => (hw e).1) bc w _ hf1 (oG.names f hf1) hk
  obtain ⟨t, ht⟩ := hgn _ hf
  obtain ⟨g0, hg0⟩ := v.ghost
  unfold through
  rw [pts 0 (by omega), pts 1 (by omega), pts 2 (by omega)]
  have := gradD_insul (D := G) h.run.hd (solNode dim G bc nd f) f (sideL dim G w f) (solR dim G bc w f) ?_ t ?_
  · linear_combination - this
  · unfold solR sideL cut
    rw [if_neg hdf]
    unfold otherVal
    rw [if_neg n0, if_neg n10, hg0, updateGhosts_apply _ _ _ _ _ hf1 (h.run.hB _ hBm), hN]
    rfl
  · intro k hk
    have e2 := ht k hk
    unfold solR sideL cut otherPt
    rw [if_neg n0, if_neg n10]
    simp only [if_pos hk]
    exact e2

theorem strStep_insul (h : NodePair dim nodeid node cv npart0 epart nbnodes n SIZE data serial L G B out trunc) (hs : Solid G dim out)
    (hw : dim = 3 → WedgeOk G ∧ ∀ p < SIZE, WedgeOk (L p)) (hgn : GhostNormal dim G) {hgG : Nat → HGResult ℝ} (sG : HGSerial dim G nbnodes (hgG 0))
    (S : StrSetup) (hgrad : S.grad = true)
    (hb : ∀ f ∈ G.boundaryfaces, S.bc (G.name f) = .neumann) (hbP : ∀ f ∈ G.boundaryfaces, S.bcP (G.name f) = .neumann)
    {direct : (Nat → Nat → ℝ) → (Nat → ℝ) → Nat → ℝ} {sv : LinSolve.Solver} {t t' : StrState}
    (e : strStep (serW dim serial G hgG) S sv direct t = some t') :
    totalCharge (serW dim serial G hgG) t' = totalCharge (serW dim serial G hgG) t := by
  have h0 : 0 < SIZE := by have := h.run.hS; omega
  have R := h.run.rank 0 h0
  obtain ⟨u, gr, vu, cu, et⟩ := strStep_charge h hs (fun x => (hw x).1) hgn S hgrad hb e
  have hv : ∀ f ∈ G.boundaryfaces, through G (t'.vel 0) f = 0 := by
    intro f hf
    unfold strStep at e
    cases hsol : strSolve (serW dim serial G hgG) S sv direct t with
    | none => rw [hsol] at e; cases e
    | some b =>
    rw [hsol] at e
    simp only [Option.bind_some] at e
    obtain ⟨U', e1, e2, e3⟩ := serial_update (dim := dim) serial G hgG S.bcP (fun p => { t.P p with cell := b.1.cells p })
    have eg : solGradient (serW dim serial G hgG) S.bcP (fun p => { t.P p with cell := b.1.cells p }) = some (U', fun p => nodeValues dim 1 serial G (hgG p) (U' p).fields,
        fun p => solGrads dim G S.bcP (U' p).fields (nodeValues dim 1 serial G (hgG p) (U' p).fields)) := by
      unfold solGradient celltonode; rw [e1]; rfl
    rw [eg] at e
    simp only [Option.bind_some] at e
    obtain ⟨m, _, e⟩ := Option.map_eq_some_iff.mp e
    rw [← e]
    exact through_vel G _ _ ((R.cG.bnd.2 f).mp hf).1 (field_insul h hw hgn sG (e3 0) _ hf (hbP f hf))
  have hz : (G.boundaryfaces.map (boundaryFlux (convArgs G (velFields (t'.vel 0) (t.V 0).cell u.ghost u.halo gr) S.order) dim)).sum = 0 := by
    apply List.sum_eq_zero
    intro x hx
    obtain ⟨f, hf, rfl⟩ := List.mem_map.mp hx
    unfold boundaryFlux
    have : Spec.vn (convArgs G (velFields (t'.vel 0) (t.V 0).cell u.ghost u.halo gr) S.order) f = through G (t'.vel 0) f := rfl
    rw [this, hv f hf]; simp [upwind]
  rw [et, hz]; ring

/-- The serial run never stops with an exception. -/
theorem strStep_serial (h : NodePair dim nodeid node cv npart0 epart nbnodes n SIZE data serial L G B out trunc) {hgG : Nat → HGResult ℝ}
    (S : StrSetup) (hgrad : S.grad = true) (direct : (Nat → Nat → ℝ) → (Nat → ℝ) → Nat → ℝ) (sv : LinSolve.Solver) (t : StrState)
    (ht : SysOk (linEnv (serW dim serial G hgG) S.bcP sv direct) (linBnd (serW dim serial G hgG) S.bcP sv) t.sys ∧
      (sv ≠ .petsc → RhsZero (serW dim serial G hgG) (linEnv (serW dim serial G hgG) S.bcP sv direct).loctoglob t.rhs)) :
    ∃ t', strStep (serW dim serial G hgG) S sv direct t = some t' ∧
      SysOk (linEnv (serW dim serial G hgG) S.bcP sv direct) (linBnd (serW dim serial G hgG) S.bcP sv) t'.sys ∧
      (sv ≠ .petsc → RhsZero (serW dim serial G hgG) (linEnv (serW dim serial G hgG) S.bcP sv direct).loctoglob t'.rhs) := by
  have cG : ChargeIs (serW dim serial G hgG) (linEnv (serW dim serial G hgG) S.bcP sv direct).loctoglob t
      (fun g => 1.8096e-8 * ((t.V 0).cell g - t.ni 0 g)) := by
    intro p hp c hc
    obtain rfl : p = 0 := by have : p < 1 := hp; omega
    rfl
  obtain ⟨b, rG, eb, ob, wb, zb⟩ := strSolve_ok _ S sv direct (by show 0 < 1; omega) (h.lin_numbering_serial S.bcP hgG sv direct).1 t ht.1 ht.2 _ cG
  obtain ⟨U', e1, e2, e3⟩ := serial_update (dim := dim) serial G hgG S.bcP (fun p => { t.P p with cell := b.cells p })
  have eg : solGradient (serW dim serial G hgG) S.bcP (fun p => { t.P p with cell := b.cells p }) = some (U', fun p => nodeValues dim 1 serial G (hgG p) (U' p).fields,
      fun p => solGrads dim G S.bcP (U' p).fields (nodeValues dim 1 serial G (hgG p) (U' p).fields)) := by
    unfold solGradient celltonode; rw [e1]; rfl
  obtain ⟨fG, hfG⟩ : ∃ fG : Nat → Nat → Vec ℝ, fG = fun p => solGrads dim G S.bcP (U' p).fields (nodeValues dim 1 serial G (hgG p) (U' p).fields) := ⟨_, rfl⟩
  rw [← hfG] at eg
  obtain ⟨V', g', ni', nd, gr, u, w, E, e1, _⟩ := strMove_serial (dim := dim) serial G hgG S hgrad fG (fun p => strVel G (fG p) (t.vel p)) t.V t.gr t.ni t.node t.iter
  refine ⟨{ sys := b, P := U', rhs := rG, el := fG, vel := fun p => strVel G (fG p) (t.vel p), V := V', gr := g', ni := ni', node := nd
            iter := t.iter + 1, time := t.time + strDt dim S G (fG 0) (strVel G (fG 0) (t.vel 0)) }, ?_, ob, zb⟩
  unfold strStep
  rw [eb]
  simp only [Option.bind_some]
  rw [eg]
  simp only [Option.bind_some]
  exact congrArg (Option.map _) e1

theorem strLoop_inv (W : World ℝ) (S : StrSetup) (sv : LinSolve.Solver) (direct : (Nat → Nat → ℝ) → (Nat → ℝ) → Nat → ℝ) (I : StrState → Prop)
    (hI : ∀ s, I s → ∃ s', strStep W S sv direct s = some s' ∧ I s') (s : StrState) (hs : I s) (N : Nat) :
    ∃ s', strLoop W S sv direct s N = some s' ∧ I s' := by
  induction N with
  | zero => exact ⟨s, rfl, hs⟩
  | succ N ih =>
    obtain ⟨s', e, h⟩ := ih
    simp only [strLoop, e, Option.bind_some]
    by_cases ht : s'.time < S.tfinal
    · simp only [if_pos ht]; exact hI s' h
    · simp only [if_neg ht]; exact ⟨s', rfl, h⟩

/-- What is known of the serial run after any number of iterations. -/
theorem strLoop_serial (h : NodePair dim nodeid node cv npart0 epart nbnodes n SIZE data serial L G B out trunc) {hgG : Nat → HGResult ℝ}
    (S : StrSetup) (hgrad : S.grad = true) (direct : (Nat → Nat → ℝ) → (Nat → ℝ) → Nat → ℝ) (sv : LinSolve.Solver) (f fi g : ℝ → ℝ → ℝ → ℝ)
    (J : StrState → Prop) (hJ0 : ∀ t, strStart (serW dim serial G hgG) S sv direct f fi g = some t → J t)
    (hJ : ∀ t t', strStep (serW dim serial G hgG) S sv direct t = some t' → J t → J t') (N : Nat) :
    ∃ t0 t, strStart (serW dim serial G hgG) S sv direct f fi g = some t0 ∧ strLoop (serW dim serial G hgG) S sv direct t0 N = some t ∧ J t ∧
      SysOk (linEnv (serW dim serial G hgG) S.bcP sv direct) (linBnd (serW dim serial G hgG) S.bcP sv) t.sys ∧
      (sv ≠ .petsc → RhsZero (serW dim serial G hgG) (linEnv (serW dim serial G hgG) S.bcP sv direct).loctoglob t.rhs) := by
  obtain ⟨t0, e0, t1, _, t3, _⟩ := strStart_eq (serW dim serial G hgG) S sv direct f fi g (.inl rfl)
  obtain ⟨t, e, h1, h2⟩ := strLoop_inv (serW dim serial G hgG) S sv direct (fun t => J t ∧
      SysOk (linEnv (serW dim serial G hgG) S.bcP sv direct) (linBnd (serW dim serial G hgG) S.bcP sv) t.sys ∧
      (sv ≠ .petsc → RhsZero (serW dim serial G hgG) (linEnv (serW dim serial G hgG) S.bcP sv direct).loctoglob t.rhs))
    (fun t ht => by
      obtain ⟨t', e, i⟩ := strStep_serial h S hgrad direct sv t ht.2
      exact ⟨t', e, hJ t t' e ht.1, i⟩) t0 ⟨hJ0 t0 e0, t1, fun _ p _ g' _ => by rw [t3]⟩ N
  exact ⟨t0, t, e0, e, h1, h2⟩

theorem charge_match (h : NodePair dim nodeid node cv npart0 epart nbnodes n SIZE data serial L G B out trunc) {hgL hgG : Nat → HGResult ℝ} {S : StrSetup}
    {svL svG : LinSolve.Solver} {direct : (Nat → Nat → ℝ) → (Nat → ℝ) → Nat → ℝ} {s t : StrState}
    (m : StrMatch dim SIZE data L G (parW dim SIZE data L hgL) (serW dim serial G hgG) S svL svG direct s t) :
    totalCharge (parW dim SIZE data L hgL) s = totalCharge (serW dim serial G hgG) t := by
  have e3 : totalCharge (serW dim serial G hgG) t = ∑ C ∈ Finset.range n, G.volume C * (t.ni 0 C - (t.V 0).cell C) := by
    unfold totalCharge; simp [serW, h.run.nG]
  rw [e3, ← h.run.sum_cells]
  unfold totalCharge
  refine Finset.sum_congr rfl fun p hp => Finset.sum_congr rfl fun c hc => ?_
  have hp := Finset.mem_range.mp hp
  have hc : c < (L p).nbcells := Finset.mem_range.mp hc
  show (L p).volume c * _ = _
  rw [m.cell p hp c hc, m.ni p hp c hc, h.run.volume p hp c hc]

theorem outflow_match (h : NodePair dim nodeid node cv npart0 epart nbnodes n SIZE data serial L G B out trunc) {hgL hgG : Nat → HGResult ℝ} {S : StrSetup}
    {svL svG : LinSolve.Solver} {direct : (Nat → Nat → ℝ) → (Nat → ℝ) → Nat → ℝ} {s t s' t' : StrState}
    (hm : StrMatch dim SIZE data L G (parW dim SIZE data L hgL) (serW dim serial G hgG) S svL svG direct s t)
    (m : StrMatch dim SIZE data L G (parW dim SIZE data L hgL) (serW dim serial G hgG) S svL svG direct s' t') :
    electronOutflow (parW dim SIZE data L hgL) s s' = electronOutflow (serW dim serial G hgG) t t' := by
  have e3 : electronOutflow (serW dim serial G hgG) t t' = (G.boundaryfaces.map (fun f => (t.V 0).cell (G.cellid f 0).toNat * through G (t'.vel 0) f)).sum := by
    unfold electronOutflow
    show ∑ p ∈ Finset.range 1, _ = _
    rw [Finset.sum_range_one]
  rw [e3]
  refine h.run.sum_boundary (fun p f => (s.V p).cell ((L p).cellid f 0).toNat * through (L p) (s'.vel p) f) _ ?_
  intro p hp c hc j hj b1 b2 b3 b4
  have R := h.run.rank p hp
  have ht : through (L p) (s'.vel p) ((L p).faceid c j) = through G (t'.vel 0) (G.faceid (phi (data p) c) j) := by
    unfold through
    rw [m.vel p hp c hc j hj 0 (by omega), m.vel p hp c hc j hj 1 (by omega), m.vel p hp c hc j hj 2 (by omega)]
    have hn : ∀ k < 3, (L p).normal ((L p).faceid c j) k = G.normal (G.faceid (phi (data p) c) j) k := fun k hk => by
      rw [R.normalL c hc j hj b2 k hk, R.normalG _ (R.sub.lt c hc).1 j hj b3 k hk]
    rw [hn 0 (by omega), hn 1 (by omega), hn 2 (by omega)]
  have ec : (s.V p).cell ((L p).cellid ((L p).faceid c j) 0).toNat = (t.V 0).cell (G.cellid (G.faceid (phi (data p) c) j) 0).toNat := by
    rw [b2, b3]
    simpa using hm.cell p hp c hc
  rw [ht, ec]

theorem charge_balance_serial (h : NodePair dim nodeid node cv npart0 epart nbnodes n SIZE data serial L G B out trunc) (hs : Solid G dim out)
    (hw : dim = 3 → WedgeOk G) (hgn : GhostNormal dim G) {hgG : Nat → HGResult ℝ} (S : StrSetup) (hgrad : S.grad = true) (ho : S.order = 1)
    (hb : ∀ loc, S.bc loc = .neumann) (direct : (Nat → Nat → ℝ) → (Nat → ℝ) → Nat → ℝ) (sv : LinSolve.Solver) (f fi g : ℝ → ℝ → ℝ → ℝ) (N : Nat) :
    ∃ s0 s s', strStart (serW dim serial G hgG) S sv direct f fi g = some s0 ∧ strLoop (serW dim serial G hgG) S sv direct s0 N = some s ∧
      strStep (serW dim serial G hgG) S sv direct s = some s' ∧
      totalCharge (serW dim serial G hgG) s' = totalCharge (serW dim serial G hgG) s + (s'.time - s.time) * electronOutflow (serW dim serial G hgG) s s' := by
  obtain ⟨s0, s, e0, e1, _, i1, i2⟩ := strLoop_serial h S hgrad direct sv f fi g (fun _ => True) (fun _ _ => trivial) (fun _ _ _ _ => trivial) N
  obtain ⟨s', e2, _⟩ := strStep_serial h S hgrad direct sv s ⟨i1, i2⟩
  exact ⟨s0, s, s', e0, e1, e2, strStep_outflow h hs hw hgn S hgrad ho (fun f _ => hb _) e2⟩

theorem charge_balance_par (h : NodePair dim nodeid node cv npart0 epart nbnodes n SIZE data serial L G B out trunc) (hs : Solid G dim out)
    (hw : dim = 3 → WedgeOk G ∧ ∀ p < SIZE, WedgeOk (L p)) (hgn : GhostNormal dim G) {hgL hgG : Nat → HGResult ℝ}
    (sL : ∀ p < SIZE, ∃ rows, HGSpec dim SIZE data L p (hgL p) rows) (sG : HGSerial dim G nbnodes (hgG 0)) (star : StarConnected dim nodeid n)
    (S : StrSetup) (hgrad : S.grad = true) (ho : S.order = 1) (hb : ∀ loc, S.bc loc = .neumann) (hbc : FieldCornersOk dim nodeid epart n G S.bcP)
    (direct : (Nat → Nat → ℝ) → (Nat → ℝ) → Nat → ℝ) (hdir : ReadsRows n direct) (sv : LinSolve.Solver) (hip : InPlace sv) (f fi g : ℝ → ℝ → ℝ → ℝ) (N : Nat) :
    ∃ s0 s s', strStart (parW dim SIZE data L hgL) S sv direct f fi g = some s0 ∧ strLoop (parW dim SIZE data L hgL) S sv direct s0 N = some s ∧
      strStep (parW dim SIZE data L hgL) S sv direct s = some s' ∧
      totalCharge (parW dim SIZE data L hgL) s' = totalCharge (parW dim SIZE data L hgL) s + (s'.time - s.time) * electronOutflow (parW dim SIZE data L hgL) s s' := by
  have so : StencilOk dim nodeid epart n G S.bc := ⟨star, fun F _ s _ _ => Or.inl (by rw [hb])⟩
  obtain ⟨s0, t0, a1, a2, m0⟩ := strStart_match h hgL hgG S direct sv .mumps hip f fi g
  obtain ⟨s, t, e1, e2, m⟩ := strLoop_match h hw sL sG S hgrad so hbc direct hdir sv .mumps s0 t0 m0 N
  obtain ⟨s', t', f1, f2, m'⟩ := strStep_match h hw sL sG S hgrad so hbc direct hdir sv .mumps s t m
  refine ⟨s0, s, s', a1, e1, f1, ?_⟩
  rw [charge_match h m', charge_match h m, outflow_match h m m', m'.time, m.time]
  exact strStep_outflow h hs (fun e => (hw e).1) hgn S hgrad ho (fun f _ => hb _) f2

theorem charge_const_serial (h : NodePair dim nodeid node cv npart0 epart nbnodes n SIZE data serial L G B out trunc) (hs : Solid G dim out)
    (hw : dim = 3 → WedgeOk G ∧ ∀ p < SIZE, WedgeOk (L p)) (hgn : GhostNormal dim G) {hgG : Nat → HGResult ℝ} (sG : HGSerial dim G nbnodes (hgG 0))
    (S : StrSetup) (hgrad : S.grad = true) (hb : ∀ loc, S.bc loc = .neumann) (hbP : ∀ loc, S.bcP loc = .neumann)
    (direct : (Nat → Nat → ℝ) → (Nat → ℝ) → Nat → ℝ) (sv : LinSolve.Solver) (f fi g : ℝ → ℝ → ℝ → ℝ) (N : Nat) :
    ∃ s0 s, strStart (serW dim serial G hgG) S sv direct f fi g = some s0 ∧ strLoop (serW dim serial G hgG) S sv direct s0 N = some s ∧
      totalCharge (serW dim serial G hgG) s = totalCharge (serW dim serial G hgG) s0 := by
  obtain ⟨t0, e0, _⟩ := strStart_eq (serW dim serial G hgG) S sv direct f fi g (.inl rfl)
  obtain ⟨s0, s, e1, e2, J, _⟩ := strLoop_serial h S hgrad direct sv f fi g (fun t => totalCharge (serW dim serial G hgG) t = totalCharge (serW dim serial G hgG) t0)
    (fun t e => by rw [e0] at e; rw [Option.some.inj e])
    (fun t t' e i => by rw [strStep_insul h hs hw hgn sG S hgrad (fun _ _ => hb _) (fun _ _ => hbP _) e]; exact i) N
  rw [e0] at e1
  obtain rfl := Option.some.inj e1
  exact ⟨t0, s, e0, e2, J⟩

theorem charge_const_par (h : NodePair dim nodeid node cv npart0 epart nbnodes n SIZE data serial L G B out trunc) (hs : Solid G dim out)
    (hw : dim = 3 → WedgeOk G ∧ ∀ p < SIZE, WedgeOk (L p)) (hgn : GhostNormal dim G) {hgL hgG : Nat → HGResult ℝ}
    (sL : ∀ p < SIZE, ∃ rows, HGSpec dim SIZE data L p (hgL p) rows) (sG : HGSerial dim G nbnodes (hgG 0)) (star : StarConnected dim nodeid n)
    (S : StrSetup) (hgrad : S.grad = true) (hb : ∀ loc, S.bc loc = .neumann) (hbP : ∀ loc, S.bcP loc = .neumann)
    (direct : (Nat → Nat → ℝ) → (Nat → ℝ) → Nat → ℝ) (hdir : ReadsRows n direct) (sv : LinSolve.Solver) (hip : InPlace sv) (f fi g : ℝ → ℝ → ℝ → ℝ) (N : Nat) :
    ∃ s0 s, strStart (parW dim SIZE data L hgL) S sv direct f fi g = some s0 ∧ strLoop (parW dim SIZE data L hgL) S sv direct s0 N = some s ∧
      totalCharge (parW dim SIZE data L hgL) s = totalCharge (parW dim SIZE data L hgL) s0 := by
  have so : StencilOk dim nodeid epart n G S.bc := ⟨star, fun F _ s _ _ => Or.inl (by rw [hb])⟩
  have hbc : FieldCornersOk dim nodeid epart n G S.bcP := fun F _ s _ _ => Or.inr (hbP _)
  obtain ⟨s0, t0, a1, a2, m0⟩ := strStart_match h hgL hgG S direct sv .mumps hip f fi g
  obtain ⟨s, t, e1, e2, m⟩ := strLoop_match h hw sL sG S hgrad so hbc direct hdir sv .mumps s0 t0 m0 N
  refine ⟨s0, s, a1, e1, ?_⟩
  obtain ⟨t0', t', g1, g2, hc⟩ := charge_const_serial h hs hw hgn sG S hgrad hb hbP direct .mumps f fi g N
  rw [a2] at g1
  obtain rfl := Option.some.inj g1
  rw [e2] at g2
  obtain rfl := Option.some.inj g2
  rw [charge_match h m, charge_match h m0, hc]
end

section
variable {nodeid : Nat → Nat → Nat} {node : Nat → ℝ × ℝ × ℝ × Nat} {npart0 epart : Nat → Nat}
  {nbnodes n SIZE : Nat} {data : Nat → RankData ℝ} {serial : RankData ℝ}

/-- **C114** (2D, one process): at first order, electrons with Neumann conditions (the default of `Variable`), any conditions for the
potential: after any number of iterations the next one changes the total charge by `dt` times the electrons the drift carries out. -/
theorem C114_charge_balance_serial_2d_partial (vm : ValidMesh2 nodeid node nbnodes n)
    (hr : readMeshFile 1 0 (writeSerial (serialWrite nodeid node nbnodes n 3)) [] = some serial)
    (sqrt : ℝ → ℝ) (hs : ∀ x, 0 < x → sqrt x ≠ 0) (trunc : ℝ → Int) (htr : ∀ m : Nat, trunc (m : ℝ) = m) :
    ∃ W, mkWorld 2 1 (fun _ => serial) (fun _ => build2 sqrt trunc 1 serial) = some W ∧
      ∀ (S : StrSetup), S.grad = true → S.order = 1 → (∀ loc, S.bc loc = .neumann) →
        ∀ (direct : (Nat → Nat → ℝ) → (Nat → ℝ) → Nat → ℝ) (sv : LinSolve.Solver), InPlace sv → ∀ (f fi g : ℝ → ℝ → ℝ → ℝ) (N : Nat),
        ∃ s0 s s', strStart W S sv direct f fi g = some s0 ∧ strLoop W S sv direct s0 N = some s ∧ strStep W S sv direct s = some s' ∧
          totalCharge W s' = totalCharge W s + (s'.time - s.time) * electronOutflow W s s' := by
  obtain ⟨data, h⟩ := launched_of_serial (centvol2 node nodeid) (by omega) vm.nodes vm.used hr
  have np := h.nodePair2 vm sqrt trunc htr
  obtain ⟨hgL, hgG, w1, w2, sL, sG⟩ := np.worlds
  exact ⟨_, w2, fun S hg ho hb direct sv _ f fi g N => charge_balance_serial np (h.solid2 vm sqrt hs trunc htr) (by omega) (ghostNormal_build2 h vm sqrt hs trunc htr) S hg ho hb direct sv f fi g N⟩

/-- **C114** (2D, any number of processes, any partition). -/
theorem C114_charge_balance_2d_partial (h : Launched 3 nodeid node (centvol2 node nodeid) npart0 epart nbnodes n SIZE data serial)
    (vm : ValidMesh2 nodeid node nbnodes n) (sqrt : ℝ → ℝ) (hs : ∀ x, 0 < x → sqrt x ≠ 0) (trunc : ℝ → Int) (htr : ∀ m : Nat, trunc (m : ℝ) = m)
    (star : StarConnected 2 nodeid n) :
    ∃ W, mkWorld 2 SIZE data (fun p => build2 sqrt trunc SIZE (data p)) = some W ∧
      ∀ (S : StrSetup), S.grad = true → S.order = 1 → (∀ loc, S.bc loc = .neumann) →
        FieldCornersOk 2 nodeid epart n (build2 sqrt trunc 1 serial) S.bcP →
        ∀ direct, ReadsRows n direct → ∀ (sv : LinSolve.Solver), InPlace sv → ∀ (f fi g : ℝ → ℝ → ℝ → ℝ) (N : Nat),
        ∃ s0 s s', strStart W S sv direct f fi g = some s0 ∧ strLoop W S sv direct s0 N = some s ∧ strStep W S sv direct s = some s' ∧
          totalCharge W s' = totalCharge W s + (s'.time - s.time) * electronOutflow W s s' := by
  have np := h.nodePair2 vm sqrt trunc htr
  obtain ⟨hgL, hgG, w1, w2, sL, sG⟩ := np.worlds
  exact ⟨_, w1, fun S hg ho hb hbP direct h1 sv hip f fi g N => charge_balance_par np (h.solid2 vm sqrt hs trunc htr) (by omega) (ghostNormal_build2 h vm sqrt hs trunc htr) sL sG star S hg ho hb hbP
    direct h1 sv hip f fi g N⟩

/-- **C114** (2D, one process): in an insulated domain (Neumann conditions for the electrons and the potential) the total charge after any
number of iterations is the initial one, at any order, whatever the solver answers. -/
theorem C114_charge_conserved_serial_2d_partial (vm : ValidMesh2 nodeid node nbnodes n)
    (hr : readMeshFile 1 0 (writeSerial (serialWrite nodeid node nbnodes n 3)) [] = some serial)
    (sqrt : ℝ → ℝ) (hs : ∀ x, 0 < x → sqrt x ≠ 0) (trunc : ℝ → Int) (htr : ∀ m : Nat, trunc (m : ℝ) = m) :
    ∃ W, mkWorld 2 1 (fun _ => serial) (fun _ => build2 sqrt trunc 1 serial) = some W ∧
      ∀ (S : StrSetup), S.grad = true → (∀ loc, S.bc loc = .neumann) → (∀ loc, S.bcP loc = .neumann) →
        ∀ (direct : (Nat → Nat → ℝ) → (Nat → ℝ) → Nat → ℝ) (sv : LinSolve.Solver), InPlace sv → ∀ (f fi g : ℝ → ℝ → ℝ → ℝ) (N : Nat),
        ∃ s0 s, strStart W S sv direct f fi g = some s0 ∧ strLoop W S sv direct s0 N = some s ∧ totalCharge W s = totalCharge W s0 := by
  obtain ⟨data, h⟩ := launched_of_serial (centvol2 node nodeid) (by omega) vm.nodes vm.used hr
  have np := h.nodePair2 vm sqrt trunc htr
  obtain ⟨hgL, hgG, w1, w2, sL, sG⟩ := np.worlds
  exact ⟨_, w2, fun S hg hb hbP direct sv _ f fi g N => charge_const_serial np (h.solid2 vm sqrt hs trunc htr) (by omega) (ghostNormal_build2 h vm sqrt hs trunc htr) sG S hg hb hbP direct sv f fi g N⟩

/-- **C114** (2D, any number of processes, any partition). -/
theorem C114_charge_conserved_2d_partial (h : Launched 3 nodeid node (centvol2 node nodeid) npart0 epart nbnodes n SIZE data serial)
    (vm : ValidMesh2 nodeid node nbnodes n) (sqrt : ℝ → ℝ) (hs : ∀ x, 0 < x → sqrt x ≠ 0) (trunc : ℝ → Int) (htr : ∀ m : Nat, trunc (m : ℝ) = m)
    (star : StarConnected 2 nodeid n) :
    ∃ W, mkWorld 2 SIZE data (fun p => build2 sqrt trunc SIZE (data p)) = some W ∧
      ∀ (S : StrSetup), S.grad = true → (∀ loc, S.bc loc = .neumann) → (∀ loc, S.bcP loc = .neumann) →
        ∀ direct, ReadsRows n direct → ∀ (sv : LinSolve.Solver), InPlace sv → ∀ (f fi g : ℝ → ℝ → ℝ → ℝ) (N : Nat),
        ∃ s0 s, strStart W S sv direct f fi g = some s0 ∧ strLoop W S sv direct s0 N = some s ∧ totalCharge W s = totalCharge W s0 := by
  have np := h.nodePair2 vm sqrt trunc htr
  obtain ⟨hgL, hgG, w1, w2, sL, sG⟩ := np.worlds
  exact ⟨_, w1, fun S hg hb hbP direct h1 sv hip f fi g N => charge_const_par np (h.solid2 vm sqrt hs trunc htr) (by omega) (ghostNormal_build2 h vm sqrt hs trunc htr) sL sG star S hg hb hbP
    direct h1 sv hip f fi g N⟩

/-- **C114** (3D, one process): at first order, electrons with Neumann conditions (the default of `Variable`), any conditions for the
potential: after any number of iterations the next one changes the total charge by `dt` times the electrons the drift carries out. -/
theorem C114_charge_balance_serial_3d_partial (vm : ValidMesh3 nodeid node nbnodes n)
    (hr : readMeshFile 1 0 (writeSerial (serialWrite nodeid node nbnodes n 4)) [] = some serial)
    (sqrt : ℝ → ℝ) (hs : ∀ x, 0 < x → sqrt x ≠ 0) (trunc : ℝ → Int) (htr : ∀ m : Nat, trunc (m : ℝ) = m) :
    ∃ W, mkWorld 3 1 (fun _ => serial) (fun _ => build3 sqrt trunc 1 serial) = some W ∧
      ∀ (S : StrSetup), S.grad = true → S.order = 1 → (∀ loc, S.bc loc = .neumann) →
        ∀ (direct : (Nat → Nat → ℝ) → (Nat → ℝ) → Nat → ℝ) (sv : LinSolve.Solver), InPlace sv → ∀ (f fi g : ℝ → ℝ → ℝ → ℝ) (N : Nat),
        ∃ s0 s s', strStart W S sv direct f fi g = some s0 ∧ strLoop W S sv direct s0 N = some s ∧ strStep W S sv direct s = some s' ∧
          totalCharge W s' = totalCharge W s + (s'.time - s.time) * electronOutflow W s s' := by
  obtain ⟨data, h⟩ := launched_of_serial (centvol3 node nodeid) (by omega) vm.nodes vm.used hr
  have np := h.nodePair3 vm sqrt trunc htr
  obtain ⟨hgL, hgG, w1, w2, sL, sG⟩ := np.worlds
  exact ⟨_, w2, fun S hg ho hb direct sv _ f fi g N => charge_balance_serial np (h.solid3 vm sqrt hs trunc htr) (fun _ => wedge_build3 sqrt trunc 1 serial) (ghostNormal3 _) S hg ho hb direct sv f fi g N⟩

/-- **C114** (3D, any number of processes, any partition). -/
theorem C114_charge_balance_3d_partial (h : Launched 4 nodeid node (centvol3 node nodeid) npart0 epart nbnodes n SIZE data serial)
    (vm : ValidMesh3 nodeid node nbnodes n) (sqrt : ℝ → ℝ) (hs : ∀ x, 0 < x → sqrt x ≠ 0) (trunc : ℝ → Int) (htr : ∀ m : Nat, trunc (m : ℝ) = m)
    (star : StarConnected 3 nodeid n) :
    ∃ W, mkWorld 3 SIZE data (fun p => build3 sqrt trunc SIZE (data p)) = some W ∧
      ∀ (S : StrSetup), S.grad = true → S.order = 1 → (∀ loc, S.bc loc = .neumann) →
        FieldCornersOk 3 nodeid epart n (build3 sqrt trunc 1 serial) S.bcP →
        ∀ direct, ReadsRows n direct → ∀ (sv : LinSolve.Solver), InPlace sv → ∀ (f fi g : ℝ → ℝ → ℝ → ℝ) (N : Nat),
        ∃ s0 s s', strStart W S sv direct f fi g = some s0 ∧ strLoop W S sv direct s0 N = some s ∧ strStep W S sv direct s = some s' ∧
          totalCharge W s' = totalCharge W s + (s'.time - s.time) * electronOutflow W s s' := by
  have np := h.nodePair3 vm sqrt trunc htr
  obtain ⟨hgL, hgG, w1, w2, sL, sG⟩ := np.worlds
  exact ⟨_, w1, fun S hg ho hb hbP direct h1 sv hip f fi g N => charge_balance_par np (h.solid3 vm sqrt hs trunc htr) (fun _ => ⟨wedge_build3 sqrt trunc 1 serial, fun p hp => wedge_build3 sqrt trunc SIZE (data p)⟩) (ghostNormal3 _) sL sG star S hg ho hb hbP
    direct h1 sv hip f fi g N⟩

/-- **C114** (3D, one process): in an insulated domain (Neumann conditions for the electrons and the potential) the total charge after any
number of iterations is the initial one, at any order, whatever the solver answers. -/
theorem C114_charge_conserved_serial_3d_partial (vm : ValidMesh3 nodeid node nbnodes n)
    (hr : readMeshFile 1 0 (writeSerial (serialWrite nodeid node nbnodes n 4)) [] = some serial)
    (sqrt : ℝ → ℝ) (hs : ∀ x, 0 < x → sqrt x ≠ 0) (trunc : ℝ → Int) (htr : ∀ m : Nat, trunc (m : ℝ) = m) :
    ∃ W, mkWorld 3 1 (fun _ => serial) (fun _ => build3 sqrt trunc 1 serial) = some W ∧
      ∀ (S : StrSetup), S.grad = true → (∀ loc, S.bc loc = .neumann) → (∀ loc, S.bcP loc = .neumann) →
        ∀ (direct : (Nat → Nat → ℝ) → (Nat → ℝ) → Nat → ℝ) (sv : LinSolve.Solver), InPlace sv → ∀ (f fi g : ℝ → ℝ → ℝ → ℝ) (N : Nat),
        ∃ s0 s, strStart W S sv direct f fi g = some s0 ∧ strLoop W S sv direct s0 N = some s ∧ totalCharge W s = totalCharge W s0 := by
  obtain ⟨data, h⟩ := launched_of_serial (centvol3 node nodeid) (by omega) vm.nodes vm.used hr
  have np := h.nodePair3 vm sqrt trunc htr
  obtain ⟨hgL, hgG, w1, w2, sL, sG⟩ := np.worlds
  exact ⟨_, w2, fun S hg hb hbP direct sv _ f fi g N => charge_const_serial np (h.solid3 vm sqrt hs trunc htr) (fun _ => ⟨wedge_build3 sqrt trunc 1 serial, fun p _ => wedge_build3 sqrt trunc 2 (data p)⟩) (ghostNormal3 _) sG S hg hb hbP direct sv f fi g N⟩

/-- **C114** (3D, any number of processes, any partition). -/
theorem C114_charge_conserved_3d_partial (h : Launched 4 nodeid node (centvol3 node nodeid) npart0 epart nbnodes n SIZE data serial)
    (vm : ValidMesh3 nodeid node nbnodes n) (sqrt : ℝ → ℝ) (hs : ∀ x, 0 < x → sqrt x ≠ 0) (trunc : ℝ → Int) (htr : ∀ m : Nat, trunc (m : ℝ) = m)
    (star : StarConnected 3 nodeid n) :
    ∃ W, mkWorld 3 SIZE data (fun p => build3 sqrt trunc SIZE (data p)) = some W ∧
      ∀ (S : StrSetup), S.grad = true → (∀ loc, S.bc loc = .neumann) → (∀ loc, S.bcP loc = .neumann) →
        ∀ direct, ReadsRows n direct → ∀ (sv : LinSolve.Solver), InPlace sv → ∀ (f fi g : ℝ → ℝ → ℝ → ℝ) (N : Nat),
        ∃ s0 s, strStart W S sv direct f fi g = some s0 ∧ strLoop W S sv direct s0 N = some s ∧ totalCharge W s = totalCharge W s0 := by
  have np := h.nodePair3 vm sqrt trunc htr
  obtain ⟨hgL, hgG, w1, w2, sL, sG⟩ := np.worlds
  exact ⟨_, w1, fun S hg hb hbP direct h1 sv hip f fi g N => charge_const_par np (h.solid3 vm sqrt hs trunc htr) (fun _ => ⟨wedge_build3 sqrt trunc 1 serial, fun p hp => wedge_build3 sqrt trunc SIZE (data p)⟩) (ghostNormal3 _) sL sG star S hg hb hbP
    direct h1 sv hip f fi g N⟩

end

/-! The hypotheses are met: the strip and the chain, one process or cut in two. -/
example : ∃ (data : Nat → RankData ℝ) (serial : RankData ℝ) (W : World ℝ), mkWorld 2 2 data (fun p => build2 Real.sqrt Int.floor 2 (data p)) = some W ∧
    ∀ (f fi g : ℝ → ℝ → ℝ → ℝ) (N : Nat), ∃ s0 s s', strStart W { strSetup with order := 1 } .mumps (fun _ b => b) f fi g = some s0 ∧
      strLoop W { strSetup with order := 1 } .mumps (fun _ b => b) s0 N = some s ∧ strStep W { strSetup with order := 1 } .mumps (fun _ b => b) s = some s' ∧
      totalCharge W s' = totalCharge W s + (s'.time - s.time) * electronOutflow W s s' := by
  obtain ⟨data, serial, h⟩ := realStripLaunched
  obtain ⟨W, e, H⟩ := C114_charge_balance_2d_partial h (validReal stripValid) Real.sqrt (fun x hx => (Real.sqrt_pos.mpr hx).ne') Int.floor floor_real (run_star 2 4)
  exact ⟨data, serial, W, e, fun f fi g N => H { strSetup with order := 1 } rfl rfl (fun _ => rfl)
    (C99_dirichlet_corners_2d h (validReal stripValid) Real.sqrt Int.floor floor_real _) (fun _ b => b) (fun _ _ _ _ _ hb => hb) .mumps (.inl rfl) f fi g N⟩

example : ∃ (data : Nat → RankData ℝ) (serial : RankData ℝ) (W : World ℝ), mkWorld 3 2 data (fun p => build3 Real.sqrt Int.floor 2 (data p)) = some W ∧
    ∀ (f fi g : ℝ → ℝ → ℝ → ℝ) (N : Nat), ∃ s0 s, strStart W { strSetup with bcP := fun _ => BCond.neumann } .mumps (fun _ b => b) f fi g = some s0 ∧
      strLoop W { strSetup with bcP := fun _ => BCond.neumann } .mumps (fun _ b => b) s0 N = some s ∧ totalCharge W s = totalCharge W s0 := by
  obtain ⟨data, serial, h⟩ := realChainLaunched
  obtain ⟨W, e, H⟩ := C114_charge_conserved_3d_partial h (validReal3 chainValid) Real.sqrt (fun x hx => (Real.sqrt_pos.mpr hx).ne') Int.floor floor_real (run_star 3 3)
  exact ⟨data, serial, W, e, fun f fi g N => H { strSetup with bcP := fun _ => BCond.neumann } rfl (fun _ => rfl) (fun _ => rfl)
    (fun _ b => b) (fun _ _ _ _ _ hb => hb) .mumps (.inl rfl) f fi g N⟩

example : ∃ (serial : RankData ℝ) (W : World ℝ), mkWorld 2 1 (fun _ => serial) (fun _ => build2 Real.sqrt Int.floor 1 serial) = some W ∧
    ∀ (f fi g : ℝ → ℝ → ℝ → ℝ) (N : Nat), ∃ s0 s, strStart W { strSetup with bcP := fun _ => BCond.neumann } .petsc (fun _ b => b) f fi g = some s0 ∧
      strLoop W { strSetup with bcP := fun _ => BCond.neumann } .petsc (fun _ b => b) s0 N = some s ∧ totalCharge W s = totalCharge W s0 := by
  obtain ⟨data, serial, h⟩ := realStripLaunched
  obtain ⟨W, e, H⟩ := C114_charge_conserved_serial_2d_partial (validReal stripValid) h.hserial Real.sqrt (fun x hx => (Real.sqrt_pos.mpr hx).ne') Int.floor floor_real
  exact ⟨serial, W, e, fun f fi g N => H { strSetup with bcP := fun _ => BCond.neumann } rfl (fun _ => rfl) (fun _ => rfl) (fun _ b => b) .petsc (.inr rfl) f fi g N⟩

end Verif.Props.Par
