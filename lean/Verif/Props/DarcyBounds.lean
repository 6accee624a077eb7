import Verif.Props.DarcyConst
import Verif.Props.RunFlow
import Verif.Props.StrStale
import Verif.Props.Rebind

/-!
# C119: the concentration of a Darcy run stays within its bounds

At first order, without face gradients (what `test_darcy_2d.py` does), every iteration in which no cell receives more fluid than it holds
keeps the concentration between the bounds of the initial and boundary data, because the computed velocity has no divergence (C110).  The time
step of the driver does not guarantee this: it uses the velocity averaged over the faces of a cell (`C119_overshoot`).
-/
set_option linter.unusedSectionVars false
set_option linter.unusedVariables false
set_option linter.unusedSimpArgs false
namespace Verif.Props.Par
open Verif.Fvm Verif.Spec Verif.Conn Verif.Dom Verif.Geo Verif.Names Verif.MeshFile Verif.Part Verif.Comm Verif.Run Verif.HaloGhost Verif.Interp
open Verif.LinSolve (ReadsRows SolvedWith InPlace)

section
variable {K : Type*} [Field K] [LinearOrder K] [IsStrictOrderedRing K]
variable {dim : Nat} {nodeid : Nat → Nat → Nat} {node : Nat → K × K × K × Nat} {cv : Nat → List K} {npart0 epart : Nat → Nat}
  {nbnodes n SIZE : Nat} {data : Nat → RankData K} {serial : RankData K} {L : Nat → Tables K} {G : Tables K} {B : List Int}
  {out : Nat → Nat → Vec K} {trunc : K → Int}

/-- The rate of inflow, side by side. -/
theorem RankOf.inflow {L G : Tables K} {d1 : Nat} {φ : Nat → Nat} {mine : Nat → Prop} {ext : List (List Nat)} {B : List Int}
    {out : Nat → Nat → Vec K} (h : RankOf L G d1 φ mine ext B out) (F : Dom.Fields K) (o : Int) {C : Nat} (hC : C < G.nbcells) (E : Nat → Vec K)
    (hE : ∀ f, vn (convArgs G F o) f = through G E f) : Spec.inflow (convArgs G F o) C = fluxIn G d1 E C := by
  obtain ⟨V, hV⟩ : ∃ V : Nat → K, V = fun f => if G.cellid f 0 = (C : Int) then max (- through G E f) 0 else - max (through G E f) 0 := ⟨_, rfl⟩
  have e0 := h.outSum F o hC V (fun j => max (- if G.cellid (G.faceid C j) 0 = (C : Int) then through G E (G.faceid C j) else - through G E (G.faceid C j)) 0)
    (fun j hj e => by rw [hV]; simp only [if_pos e]) (fun j hj e => by rw [hV]; simp only [if_neg e, neg_neg])
  unfold fluxIn
  rw [← e0]
  have fO := h.facesOK F o 2
  have hl : ∀ f, InRange ((convArgs G F o).cellidf f 0) G.nbcells → left (convArgs G F o) f = C → V f = max (- vn (convArgs G F o) f) 0 := by
    intro f hr hl
    have : G.cellid f 0 = (C : Int) := by
      have h1 : (G.cellid f 0).toNat = C := hl
      have h2 : 0 ≤ G.cellid f 0 := hr.1
      omega
    rw [hV]; simp only [if_pos this, hE]
  unfold Spec.inflow Spec.outSum
  rw [show (convArgs G F o).periodicboundaryfaces = [] from h.cG.per, show (convArgs G F o).halofaces = [] from h.halo_nil]
  have z : ∀ (l : Nat → Nat) (V : Nat → K), sumAt [] l V C = 0 := fun _ _ => rfl
  rw [sumAt_congr _ _ V _ C (fun i hi hs => hl i (fO.inner_l i hi) hs)]
  rw [sumAt_congr (convArgs G F o).boundaryfaces (left (convArgs G F o)) V _ C (fun i hi hs => hl i (fO.bnd_l i hi) hs)]
  rw [sumAt_congr (convArgs G F o).innerfaces (right (convArgs G F o)) V (fun i => - max (vn (convArgs G F o) i) 0) C ?_]
  · simp only [z]
    have : sumAt (convArgs G F o).innerfaces (right (convArgs G F o)) (fun i => - max (vn (convArgs G F o) i) 0) C =
        - sumAt (convArgs G F o).innerfaces (right (convArgs G F o)) (fun i => max (vn (convArgs G F o) i) 0) C := by
      unfold sumAt
      generalize List.filter _ (convArgs G F o).innerfaces = l
      induction l with
      | nil => simp
      | cons x l ih => simp only [List.map_cons, List.sum_cons, ih]; ring
    rw [this]; ring
  · intro f hf hr
    have hne : G.cellid f 0 ≠ (C : Int) := by
      intro hl
      obtain ⟨hf1, hn⟩ := (h.cG.inner.2 f).mp hf
      obtain ⟨a, ha, e, j, hj, hfe⟩ := users_first (h.cG.users_ne hf1)
      rw [h.cG.cell0 f hf1, e] at hl
      obtain rfl : a = C := by exact_mod_cast hl
      have hr : (G.cellid f 1).toNat = a := hr
      rcases h.gkinds ha hj with ⟨_, b1, b2, b3⟩ | ⟨E, hE, hne, hn, b1, b2, ⟨c0, c1⟩ | ⟨c0, c1⟩⟩
      · rw [hfe] at b2; exact absurd hf b2
      · rw [hfe] at c1; rw [c1] at hr; exact hne (by simpa using hr)
      · rw [hfe] at c0; rw [h.cG.cell0 f hf1, e] at c0; exact absurd (by exact_mod_cast c0.symm) hne
    rw [hV]; simp only [if_neg hne, hE]

/-- The time step is not negative. -/
theorem darcyDt_nonneg (hs : Solid G dim out) (S : DSetup K) (hc : 0 ≤ S.cfl) (hD : 0 ≤ S.Dxx + S.Dyy + S.Dzz) (vel : Nat → Vec K) :
    0 ≤ darcyDt dim S G vel := by
  unfold darcyDt
  rcases C06_timestep_attained G.nbcells (toCells dim G (fun f => vel f 0)) (toCells dim G (fun f => vel f 1)) (toCells dim G (fun f => vel f 2))
    S.cfl G.normal G.mesure G.volume G.faceid dim S.Dxx S.Dyy S.Dzz hs.mes with h | ⟨i, hi, h⟩
  · rw [h]; norm_num
  · rw [h]
    refine div_nonneg (mul_nonneg hc (hs.vpos i hi).le) ?_
    unfold cflRate
    refine Finset.sum_nonneg fun j _ => add_nonneg (abs_nonneg _) (div_nonneg (mul_nonneg hD (by positivity)) (hs.vpos i hi).le)

/-- Bounds are kept in a velocity field without divergence. -/
theorem move_bounds (h : NodePair dim nodeid node cv npart0 epart nbnodes n SIZE data serial L G B out trunc) (hs : Solid G dim out)
    (hgG : Nat → HGResult K) (S : DSetup K) (ho : S.order = 1) (hdf : S.diff = false)
    (hc : 0 ≤ S.cfl) (hD : 0 ≤ S.Dxx + S.Dyy + S.Dzz) (m M : K)
    (hb : ∀ loc, BcIn m M (S.bc loc)) (vel : Nat → Nat → Vec K)
    (hdiv : ∀ C < G.nbcells, fieldOut G (dim + 1) (vel 0) C = 0) (V : Nat → Vari K)
    (hfit : ∀ C < G.nbcells, darcyDt dim S G (vel 0) * fluxIn G (dim + 1) (vel 0) C ≤ G.volume C)
    (hin : ∀ C < G.nbcells, m ≤ (V 0).cell C ∧ (V 0).cell C ≤ M) :
    ∃ V' nd, darcyMove (serW dim serial G hgG) S vel V = some (V', nd, darcyDt dim S G (vel 0)) ∧ ∀ C < G.nbcells, m ≤ (V' 0).cell C ∧ (V' 0).cell C ≤ M := by
  obtain ⟨V', nd, gr, u, w, E, e, cu, cw, vu, vw, hgr, hE, hnew⟩ := darcyMove_serial (dim := dim) serial G hgG S vel V
  refine ⟨V', nd, e, fun C hC => ?_⟩
  have h0 : 0 < SIZE := by have := h.run.hS; omega
  have R := h.run.rank 0 h0
  have hdis : Run.dissip G S.coeffs E C = 0 := by
    rw [R.cG.dissip S.coeffs _ hC, hE, hdf]
    apply Finset.sum_eq_zero
    intro j hj
    unfold diffTerm diffFlux
    simp
  obtain ⟨F, hF⟩ : ∃ F, F = velFields (vel 0) (V 0).cell u.ghost u.halo gr := ⟨_, rfl⟩
  have hvn : ∀ f, vn (convArgs G F S.order) f = through G (vel 0) f := fun f => by rw [hF]; rfl
  have hdv : DivFree (convArgs G F S.order) C := by
    unfold DivFree
    rw [R.outSum F S.order hC _ (fun j => if G.cellid (G.faceid C j) 0 = (C : Int) then through G (vel 0) (G.faceid C j) else - through G (vel 0) (G.faceid C j))
      (fun j hj e0 => by simp only [if_pos e0, hvn]) (fun j hj e0 => by simp only [if_neg e0, neg_neg, hvn])]
    exact hdiv C hC
  have huu : ∀ C < G.nbcells, m ≤ u.fields.c C ∧ u.fields.c C ≤ M := fun C hC => by
    show m ≤ u.cell C ∧ u.cell C ≤ M
    rw [cu]; exact hin C hC
  have hdata : DataIn (convArgs G F S.order) G.nbcells m M := by
    refine ⟨fun C hC => by rw [hF]; exact hin C hC, fun f hf => ?_, ?_⟩
    · have : (convArgs G F S.order).w_ghost f = u.fields.ghost f := by rw [hF]; rfl
      rw [this]
      obtain ⟨g0, e0⟩ := vu.ghost
      have hfb := (R.cG.bnd.2 f).mp hf
      rw [e0, updateGhosts_apply _ _ _ _ _ hfb.1 (h.run.hB _ hfb.2)]
      obtain ⟨c, hc, ec⟩ := R.first_lt hfb.1
      exact ghostVal_in G _ f (S.bc (G.name f)) m M (hb _) (by rw [ec]; exact huu c hc)
    · intro f hf
      rw [show (convArgs G F S.order).halofaces = [] from R.halo_nil] at hf; simp at hf
  obtain ⟨b1, b2⟩ := balance_bounds (convArgs G F S.order) dim G.nbcells (R.facesOK _ _ _)
    (by intro f hf; rw [show (convArgs G F S.order).periodicboundaryfaces = [] from R.cG.per] at hf; simp at hf) ho m M hdata _ hdv
  rw [R.inflow F S.order hC (vel 0) hvn] at b1 b2
  have ew : (convArgs G F S.order).w_c C = (V 0).cell C := by rw [hF]; rfl
  rw [ew] at b1 b2
  have := update_bounds ((V 0).cell C) _ _ (G.volume C) _ m M (darcyDt_nonneg hs S hc hD (vel 0)) (hs.vpos _ hC) (hfit C hC) (hin C hC).1 (hin C hC).2 b1 b2
  rw [hnew, ← hF]
  unfold updateNewValue
  rw [conv_balance R.cG _ _ h.run.hd, hdis]
  exact this

theorem darcyStep_bounds (h : NodePair dim nodeid node cv npart0 epart nbnodes n SIZE data serial L G B out trunc) (hs : Solid G dim out)
    (hw : dim = 3 → WedgeOk G ∧ ∀ p < SIZE, WedgeOk (L p)) (hgn : GhostNormal dim G) {hgG : Nat → HGResult K} (sG : HGSerial dim G nbnodes (hgG 0))
    (S : DSetup K) (ho : S.order = 1) (hdf : S.diff = false) (hc : 0 ≤ S.cfl) (hD : 0 ≤ S.Dxx + S.Dyy + S.Dzz)
    (hcm : CornersMatch dim G S.bcP) (hdn : DirichletOrNeumann S.bcP)
    {direct : (Nat → Nat → K) → (Nat → K) → Nat → K} (hdir : ReadsRows n direct) (hsol : SolvesSystems n direct) (sv : LinSolve.Solver)
    (hsv : Solvable n (matrixOf (serW dim serial G hgG) S.bcP) (boundaryOf (serW dim serial G hgG) S.bcP)) (m M : K)
    (hb : ∀ loc, BcIn m M (S.bc loc)) (t : DState K)
    (ht : SysOk (linEnv (serW dim serial G hgG) S.bcP sv direct) (linBnd (serW dim serial G hgG) S.bcP sv) t.sys)
    (hin : ∀ C < G.nbcells, m ≤ (t.V 0).cell C ∧ (t.V 0).cell C ≤ M) :
    ∃ t', darcyStep (serW dim serial G hgG) S sv direct t = some t' ∧
      SysOk (linEnv (serW dim serial G hgG) S.bcP sv direct) (linBnd (serW dim serial G hgG) S.bcP sv) t'.sys ∧
      (StepFits (serW dim serial G hgG) t t' → ∀ C < G.nbcells, m ≤ (t'.V 0).cell C ∧ (t'.V 0).cell C ≤ M) := by
  obtain ⟨b, eb, ob, wb⟩ := ht.solve (by show 0 < 1; omega) (h.lin_numbering_serial S.bcP hgG sv direct).1
  obtain ⟨P', nd, E, e1, hE⟩ := gauss_serial h hs hw hgn hcm hdn sG hdir hsol sv (fun _ => 0) b (by simpa using hsv) wb
    (fun p => { t.P p with cell := b.cells p }) (fun _ _ => rfl)
  have hdiv : ∀ C < G.nbcells, fieldOut G (dim + 1) (E 0) C = 0 := fun C hC => by
    have := hE 0 (by show 0 < 1; omega) C hC; rw [mul_zero, neg_zero] at this; exact this
  obtain ⟨V', mG, gr, u, w, E', g1, _⟩ := darcyMove_serial (dim := dim) serial G hgG S E t.V
  refine ⟨{ sys := b, P := P', vel := E, V := V', node := mG, time := t.time + darcyDt dim S G (E 0) }, ?_, ob, ?_⟩
  · unfold darcyStep
    rw [eb]
    simp only [Except.toOption, Option.bind_some]
    rw [e1]
    simp only [Option.bind_some]
    rw [g1]; rfl
  · intro hf
    obtain ⟨V2, nd2, e2, hV⟩ := move_bounds h hs hgG S ho hdf hc hD m M hb E hdiv t.V (fun C hC => by
      have := hf 0 (by show 0 < 1; omega) C hC
      dsimp only at this
      rw [add_sub_cancel_left] at this
      exact this) hin
    rw [g1] at e2
    have := Option.some.inj e2
    obtain rfl : V' = V2 := congrArg (·.1) this
    exact hV

theorem darcy_bounds_serial (h : NodePair dim nodeid node cv npart0 epart nbnodes n SIZE data serial L G B out trunc) (hs : Solid G dim out)
    (hw : dim = 3 → WedgeOk G ∧ ∀ p < SIZE, WedgeOk (L p)) (hgn : GhostNormal dim G) {hgG : Nat → HGResult K} (sG : HGSerial dim G nbnodes (hgG 0))
    (S : DSetup K) (ho : S.order = 1) (hdf : S.diff = false) (hc : 0 ≤ S.cfl) (hD : 0 ≤ S.Dxx + S.Dyy + S.Dzz)
    (hcm : CornersMatch dim G S.bcP) (hdn : DirichletOrNeumann S.bcP)
    {direct : (Nat → Nat → K) → (Nat → K) → Nat → K} (hdir : ReadsRows n direct) (hsol : SolvesSystems n direct) (sv : LinSolve.Solver)
    (hsv : Solvable n (matrixOf (serW dim serial G hgG) S.bcP) (boundaryOf (serW dim serial G hgG) S.bcP)) (m M : K)
    (hb : ∀ loc, BcIn m M (S.bc loc)) (f g : K → K → K → K) (hf : ∀ x y z, m ≤ f x y z ∧ f x y z ≤ M) (N : Nat) :
    ∃ t0 t, darcyStart (serW dim serial G hgG) S sv direct f g = some t0 ∧ darcyLoop (serW dim serial G hgG) S sv direct t0 N = some t ∧
      ((∀ k < N, ∀ a b, darcyLoop (serW dim serial G hgG) S sv direct t0 k = some a → darcyStep (serW dim serial G hgG) S sv direct a = some b →
        StepFits (serW dim serial G hgG) a b) → ∀ C < G.nbcells, m ≤ (t.V 0).cell C ∧ (t.V 0).cell C ≤ M) := by
  obtain ⟨t0, e0, s0, c0⟩ := darcyStart_serial (dim := dim) serial G hgG S direct sv f g
  have hprog : ∀ t : DState K, SysOk (linEnv (serW dim serial G hgG) S.bcP sv direct) (linBnd (serW dim serial G hgG) S.bcP sv) t.sys →
      ∃ t', darcyStep (serW dim serial G hgG) S sv direct t = some t' ∧
        SysOk (linEnv (serW dim serial G hgG) S.bcP sv direct) (linBnd (serW dim serial G hgG) S.bcP sv) t'.sys := by
    intro t ht
    obtain ⟨b, eb, ob, wb⟩ := ht.solve (by show 0 < 1; omega) (h.lin_numbering_serial S.bcP hgG sv direct).1
    obtain ⟨P', nd, E, e1, hE⟩ := gauss_serial h hs hw hgn hcm hdn sG hdir hsol sv (fun _ => 0) b (by simpa using hsv) wb
      (fun p => { t.P p with cell := b.cells p }) (fun _ _ => rfl)
    obtain ⟨V', mG, gr, u, w, E', g1, _⟩ := darcyMove_serial (dim := dim) serial G hgG S E t.V
    refine ⟨{ sys := b, P := P', vel := E, V := V', node := mG, time := t.time + darcyDt dim S G (E 0) }, ?_, ob⟩
    unfold darcyStep
    rw [eb]
    simp only [Except.toOption, Option.bind_some]
    rw [e1]
    simp only [Option.bind_some]
    rw [g1]; rfl
  refine ⟨t0, ?_⟩
  induction N with
  | zero => exact ⟨t0, e0, rfl, fun _ C hC => by rw [c0]; exact hf _ _ _⟩
  | succ N ih =>
    obtain ⟨t, _, e1, hI⟩ := ih
    obtain ⟨t', e1', o1⟩ := darcyLoop_inv (serW dim serial G hgG) S sv direct _ hprog t0 s0 N
    rw [e1] at e1'
    obtain rfl := Option.some.inj e1'
    by_cases ht : t.time < S.tfinal
    · obtain ⟨t', e2, o2⟩ := hprog t o1
      refine ⟨t', e0, by simp only [darcyLoop, e1, Option.bind_some, if_pos ht, e2], fun hk => ?_⟩
      obtain ⟨t2, e3, _, hbd⟩ := darcyStep_bounds h hs hw hgn sG S ho hdf hc hD hcm hdn hdir hsol sv hsv m M hb t o1
        (hI fun k hk' => hk k (by omega))
      rw [e2] at e3
      obtain rfl := Option.some.inj e3
      exact hbd (hk N (by omega) t t' e1 e2)
    · exact ⟨t, e0, by simp only [darcyLoop, e1, Option.bind_some, if_neg ht], fun hk => hI fun k hk' => hk k (by omega)⟩

/-- The inflow of a cell of a rank is that of the cell of the mesh. -/
theorem fluxIn_match (h : NodePair dim nodeid node cv npart0 epart nbnodes n SIZE data serial L G B out trunc) {vL : Nat → Nat → Vec K} {vG : Nat → Vec K}
    (hv : VelMatch dim SIZE data L G vL vG) {p : Nat} (hp : p < SIZE) {c : Nat} (hc : c < (L p).nbcells) :
    fluxIn (L p) (dim + 1) (vL p) c = fluxIn G (dim + 1) vG (phi (data p) c) := by
  have R := h.run.rank p hp
  have hC := (R.sub.lt c hc).1
  unfold fluxIn
  refine Finset.sum_congr rfl fun j hj => ?_
  have hj := Finset.mem_range.mp hj
  congr 2
  have eL : (if (L p).cellid ((L p).faceid c j) 0 = (c : Int) then through (L p) (vL p) ((L p).faceid c j) else - through (L p) (vL p) ((L p).faceid c j)) =
      vL p ((L p).faceid c j) 0 * out (phi (data p) c) j 0 + vL p ((L p).faceid c j) 1 * out (phi (data p) c) j 1 + vL p ((L p).faceid c j) 2 * out (phi (data p) c) j 2 := by
    unfold through
    split_ifs with h0
    · rw [R.normalL c hc j hj h0 0 (by omega), R.normalL c hc j hj h0 1 (by omega), R.normalL c hc j hj h0 2 (by omega)]
    · have hf := R.cL.flt c hc j hj
      obtain ⟨e', he', h2, _⟩ := users_first (R.cL.users_ne hf)
      rw [← R.cL.cell0 _ hf] at h2
      have hne : e' ≠ c := fun x => h0 (by rw [h2, x])
      rw [R.normalL_neg hc he' hne hj h2 0 (by omega), R.normalL_neg hc he' hne hj h2 1 (by omega), R.normalL_neg hc he' hne hj h2 2 (by omega)]
      ring
  have eG : (if G.cellid (G.faceid (phi (data p) c) j) 0 = ((phi (data p) c : Nat) : Int) then through G vG (G.faceid (phi (data p) c) j) else - through G vG (G.faceid (phi (data p) c) j)) =
      vG (G.faceid (phi (data p) c) j) 0 * out (phi (data p) c) j 0 + vG (G.faceid (phi (data p) c) j) 1 * out (phi (data p) c) j 1 + vG (G.faceid (phi (data p) c) j) 2 * out (phi (data p) c) j 2 := by
    unfold through
    split_ifs with h0
    · rw [R.normalG _ hC j hj h0 0 (by omega), R.normalG _ hC j hj h0 1 (by omega), R.normalG _ hC j hj h0 2 (by omega)]
    · rw [R.normalG_other hC hj h0 0 (by omega), R.normalG_other hC hj h0 1 (by omega), R.normalG_other hC hj h0 2 (by omega)]
      ring
  rw [eL, eG, hv p hp c hc j hj 0 (by omega), hv p hp c hc j hj 1 (by omega), hv p hp c hc j hj 2 (by omega)]

theorem darcy_bounds_par (h : NodePair dim nodeid node cv npart0 epart nbnodes n SIZE data serial L G B out trunc) (hs : Solid G dim out)
    (hw : dim = 3 → WedgeOk G ∧ ∀ p < SIZE, WedgeOk (L p)) (hgn : GhostNormal dim G) {hgL hgG : Nat → HGResult K}
    (sL : ∀ p < SIZE, ∃ rows, HGSpec dim SIZE data L p (hgL p) rows) (sG : HGSerial dim G nbnodes (hgG 0))
    (S : DSetup K) (ho : S.order = 1) (hdf : S.diff = false) (hc : 0 ≤ S.cfl) (hD : 0 ≤ S.Dxx + S.Dyy + S.Dzz)
    (so : StencilOk dim nodeid epart n G S.bc) (hcm : CornersMatch dim G S.bcP) (hdn : DirichletOrNeumann S.bcP)
    {direct : (Nat → Nat → K) → (Nat → K) → Nat → K} (hdir : ReadsRows n direct) (hsol : SolvesSystems n direct) (sv : LinSolve.Solver) (hip : InPlace sv)
    (hsv : Solvable n (matrixOf (parW dim SIZE data L hgL) S.bcP) (boundaryOf (parW dim SIZE data L hgL) S.bcP)) (m M : K)
    (hb : ∀ loc, BcIn m M (S.bc loc)) (f g : K → K → K → K) (hf : ∀ x y z, m ≤ f x y z ∧ f x y z ≤ M) (N : Nat) :
    ∃ s0 s, darcyStart (parW dim SIZE data L hgL) S sv direct f g = some s0 ∧ darcyLoop (parW dim SIZE data L hgL) S sv direct s0 N = some s ∧
      ((∀ k < N, ∀ a b, darcyLoop (parW dim SIZE data L hgL) S sv direct s0 k = some a → darcyStep (parW dim SIZE data L hgL) S sv direct a = some b →
        StepFits (parW dim SIZE data L hgL) a b) → ∀ p < SIZE, ∀ c < (L p).nbcells, m ≤ (s.V p).cell c ∧ (s.V p).cell c ≤ M) := by
  have hbP : FieldCornersOk dim nodeid epart n G S.bcP := fun F hF s hs _ => hcm F hF s hs
  obtain ⟨s0, t0, e1, e2, m0⟩ := darcyStart_match h hgL hgG S direct sv .mumps hip f g
  obtain ⟨s, t, f1, f2, mm⟩ := darcyLoop_match h hw sL sG S so hbP direct hdir sv .mumps s0 t0 m0 N
  obtain ⟨t0', t', g1, g2, hbd⟩ := darcy_bounds_serial h hs hw hgn sG S ho hdf hc hD hcm hdn hdir hsol .mumps ((solvable_par h hw so.star S.bcP sL sG).mp hsv) m M hb f g hf N
  rw [e2] at g1
  obtain rfl := Option.some.inj g1
  rw [f2] at g2
  obtain rfl := Option.some.inj g2
  refine ⟨s0, s, e1, f1, fun hk p hp c hc' => ?_⟩
  rw [mm.cell p hp c hc']
  refine hbd (fun k hkN a b ea eb => ?_) _ ((h.run.rank p hp).sub.lt c hc').1
  obtain ⟨a', a2, i1, i2, ma⟩ := darcyLoop_match h hw sL sG S so hbP direct hdir sv .mumps s0 t0 m0 k
  rw [ea] at i2
  obtain rfl := Option.some.inj i2
  obtain ⟨b', b2, j1, j2, mb⟩ := darcyStep_match h hw sL sG S so hbP direct hdir sv .mumps a' a ma
  rw [eb] at j2
  obtain rfl := Option.some.inj j2
  have fit := hk k hkN a' b' i1 j1
  intro q hq C hC
  have hC' : C < G.nbcells := hC
  obtain ⟨p, hp, c, hc, rfl⟩ := h.run.owner (by rw [← h.run.nG]; exact hC')
  have := fit p hp c hc
  obtain rfl : q = 0 := by have : q < 1 := hq; omega
  show (b.time - a.time) * fluxIn G (dim + 1) (b.vel 0) (phi (data p) c) ≤ G.volume (phi (data p) c)
  rw [← mb.time, ← ma.time, ← fluxIn_match h mb.vel hp hc, ← h.run.volume p hp c hc]
  exact this

/-- **C119** (2D, one process): first order, no face gradients, concentration on all sides and in all cells in `[m, M]` at the start, a
solver that solves the systems: if in no iteration a cell receives more fluid than it holds, the concentration is in `[m, M]` after any number
of iterations. -/
theorem C119_darcy_bounds_serial_2d_partial (vm : ValidMesh2 nodeid node nbnodes n)
    (hr : readMeshFile 1 0 (writeSerial (serialWrite nodeid node nbnodes n 3)) [] = some serial)
    (sqrt : K → K) (hs : ∀ x, 0 < x → sqrt x ≠ 0) (trunc : K → Int) (htr : ∀ m : Nat, trunc (m : K) = m) :
    ∃ W, mkWorld 2 1 (fun _ => serial) (fun _ => build2 sqrt trunc 1 serial) = some W ∧
      ∀ (S : DSetup K), S.order = 1 → S.diff = false → 0 ≤ S.cfl → 0 ≤ S.Dxx + S.Dyy + S.Dzz →
        DirichletOrNeumann S.bcP → CornersMatch 2 (build2 sqrt trunc 1 serial) S.bcP →
        ∀ direct, ReadsRows n direct → SolvesSystems n direct → Solvable n (matrixOf W S.bcP) (boundaryOf W S.bcP) → ∀ sv, InPlace sv →
        ∀ m M : K, (∀ loc, BcIn m M (S.bc loc)) → ∀ (f g : K → K → K → K), (∀ x y z, m ≤ f x y z ∧ f x y z ≤ M) → ∀ N : Nat,
        ∃ s0 s, darcyStart W S sv direct f g = some s0 ∧ darcyLoop W S sv direct s0 N = some s ∧
          ((∀ k < N, ∀ a b, darcyLoop W S sv direct s0 k = some a → darcyStep W S sv direct a = some b → StepFits W a b) →
            ∀ c < n, m ≤ (s.V 0).cell c ∧ (s.V 0).cell c ≤ M) := by
  obtain ⟨data, h⟩ := launched_of_serial (centvol2 node nodeid) (by omega) vm.nodes vm.used hr
  have np := h.nodePair2 vm sqrt trunc htr
  obtain ⟨hgL, hgG, w1, w2, sL, sG⟩ := np.worlds
  refine ⟨_, w2, fun S ho hdf hc hD hdn hcm direct h1 h2 hsv sv _ m M hb f g hf N => ?_⟩
  obtain ⟨s0, s, a, b, e⟩ := darcy_bounds_serial np (h.solid2 vm sqrt hs trunc htr) (by omega)
    (ghostNormal_build2 h vm sqrt hs trunc htr) sG S ho hdf hc hD hcm hdn h1 h2 sv hsv m M hb f g hf N
  exact ⟨s0, s, a, b, fun hk c hc => e hk c (by rw [np.run.nG]; exact hc)⟩

/-- **C119** (2D, any number of processes, any partition). -/
theorem C119_darcy_bounds_2d_partial (h : Launched 3 nodeid node (centvol2 node nodeid) npart0 epart nbnodes n SIZE data serial)
    (vm : ValidMesh2 nodeid node nbnodes n) (sqrt : K → K) (hs : ∀ x, 0 < x → sqrt x ≠ 0) (trunc : K → Int) (htr : ∀ m : Nat, trunc (m : K) = m)
    (star : StarConnected 2 nodeid n) :
    ∃ W, mkWorld 2 SIZE data (fun p => build2 sqrt trunc SIZE (data p)) = some W ∧
      ∀ (S : DSetup K), S.order = 1 → S.diff = false → 0 ≤ S.cfl → 0 ≤ S.Dxx + S.Dyy + S.Dzz → CornersOk 2 nodeid epart n (build2 sqrt trunc 1 serial) S.bc →
        DirichletOrNeumann S.bcP → CornersMatch 2 (build2 sqrt trunc 1 serial) S.bcP →
        ∀ direct, ReadsRows n direct → SolvesSystems n direct → Solvable n (matrixOf W S.bcP) (boundaryOf W S.bcP) → ∀ sv, InPlace sv →
        ∀ m M : K, (∀ loc, BcIn m M (S.bc loc)) → ∀ (f g : K → K → K → K), (∀ x y z, m ≤ f x y z ∧ f x y z ≤ M) → ∀ N : Nat,
        ∃ s0 s, darcyStart W S sv direct f g = some s0 ∧ darcyLoop W S sv direct s0 N = some s ∧
          ((∀ k < N, ∀ a b, darcyLoop W S sv direct s0 k = some a → darcyStep W S sv direct a = some b → StepFits W a b) →
            ∀ p < SIZE, ∀ c < (W.D p).nbcells, m ≤ (s.V p).cell c ∧ (s.V p).cell c ≤ M) := by
  have np := h.nodePair2 vm sqrt trunc htr
  obtain ⟨hgL, hgG, w1, w2, sL, sG⟩ := np.worlds
  exact ⟨_, w1, fun S ho hdf hc hD hbc hdn hcm direct h1 h2 hsv sv hip m M hb f g hf N => darcy_bounds_par np (h.solid2 vm sqrt hs trunc htr) (by omega)
    (ghostNormal_build2 h vm sqrt hs trunc htr) sL sG S ho hdf hc hD ⟨star, hbc⟩ hcm hdn h1 h2 sv hip hsv m M hb f g hf N⟩

/-- **C119** (3D, one process): first order, no face gradients, concentration on all sides and in all cells in `[m, M]` at the start, a
solver that solves the systems: if in no iteration a cell receives more fluid than it holds, the concentration is in `[m, M]` after any number
of iterations. -/
theorem C119_darcy_bounds_serial_3d_partial (vm : ValidMesh3 nodeid node nbnodes n)
    (hr : readMeshFile 1 0 (writeSerial (serialWrite nodeid node nbnodes n 4)) [] = some serial)
    (sqrt : K → K) (hs : ∀ x, 0 < x → sqrt x ≠ 0) (trunc : K → Int) (htr : ∀ m : Nat, trunc (m : K) = m) :
    ∃ W, mkWorld 3 1 (fun _ => serial) (fun _ => build3 sqrt trunc 1 serial) = some W ∧
      ∀ (S : DSetup K), S.order = 1 → S.diff = false → 0 ≤ S.cfl → 0 ≤ S.Dxx + S.Dyy + S.Dzz →
        DirichletOrNeumann S.bcP → CornersMatch 3 (build3 sqrt trunc 1 serial) S.bcP →
        ∀ direct, ReadsRows n direct → SolvesSystems n direct → Solvable n (matrixOf W S.bcP) (boundaryOf W S.bcP) → ∀ sv, InPlace sv →
        ∀ m M : K, (∀ loc, BcIn m M (S.bc loc)) → ∀ (f g : K → K → K → K), (∀ x y z, m ≤ f x y z ∧ f x y z ≤ M) → ∀ N : Nat,
        ∃ s0 s, darcyStart W S sv direct f g = some s0 ∧ darcyLoop W S sv direct s0 N = some s ∧
          ((∀ k < N, ∀ a b, darcyLoop W S sv direct s0 k = some a → darcyStep W S sv direct a = some b → StepFits W a b) →
            ∀ c < n, m ≤ (s.V 0).cell c ∧ (s.V 0).cell c ≤ M) := by
  obtain ⟨data, h⟩ := launched_of_serial (centvol3 node nodeid) (by omega) vm.nodes vm.used hr
  have np := h.nodePair3 vm sqrt trunc htr
  obtain ⟨hgL, hgG, w1, w2, sL, sG⟩ := np.worlds
  refine ⟨_, w2, fun S ho hdf hc hD hdn hcm direct h1 h2 hsv sv _ m M hb f g hf N => ?_⟩
  obtain ⟨s0, s, a, b, e⟩ := darcy_bounds_serial np (h.solid3 vm sqrt hs trunc htr) (fun _ => ⟨wedge_build3 sqrt trunc 1 serial, fun p hp => wedge_build3 sqrt trunc 2 (data p)⟩)
    (ghostNormal3 _) sG S ho hdf hc hD hcm hdn h1 h2 sv hsv m M hb f g hf N
  exact ⟨s0, s, a, b, fun hk c hc => e hk c (by rw [np.run.nG]; exact hc)⟩

/-- **C119** (3D, any number of processes, any partition). -/
theorem C119_darcy_bounds_3d_partial (h : Launched 4 nodeid node (centvol3 node nodeid) npart0 epart nbnodes n SIZE data serial)
    (vm : ValidMesh3 nodeid node nbnodes n) (sqrt : K → K) (hs : ∀ x, 0 < x → sqrt x ≠ 0) (trunc : K → Int) (htr : ∀ m : Nat, trunc (m : K) = m)
    (star : StarConnected 3 nodeid n) :
    ∃ W, mkWorld 3 SIZE data (fun p => build3 sqrt trunc SIZE (data p)) = some W ∧
      ∀ (S : DSetup K), S.order = 1 → S.diff = false → 0 ≤ S.cfl → 0 ≤ S.Dxx + S.Dyy + S.Dzz → CornersOk 3 nodeid epart n (build3 sqrt trunc 1 serial) S.bc →
        DirichletOrNeumann S.bcP → CornersMatch 3 (build3 sqrt trunc 1 serial) S.bcP →
        ∀ direct, ReadsRows n direct → SolvesSystems n direct → Solvable n (matrixOf W S.bcP) (boundaryOf W S.bcP) → ∀ sv, InPlace sv →
        ∀ m M : K, (∀ loc, BcIn m M (S.bc loc)) → ∀ (f g : K → K → K → K), (∀ x y z, m ≤ f x y z ∧ f x y z ≤ M) → ∀ N : Nat,
        ∃ s0 s, darcyStart W S sv direct f g = some s0 ∧ darcyLoop W S sv direct s0 N = some s ∧
          ((∀ k < N, ∀ a b, darcyLoop W S sv direct s0 k = some a → darcyStep W S sv direct a = some b → StepFits W a b) →
            ∀ p < SIZE, ∀ c < (W.D p).nbcells, m ≤ (s.V p).cell c ∧ (s.V p).cell c ≤ M) := by
  have np := h.nodePair3 vm sqrt trunc htr
  obtain ⟨hgL, hgG, w1, w2, sL, sG⟩ := np.worlds
  exact ⟨_, w1, fun S ho hdf hc hD hbc hdn hcm direct h1 h2 hsv sv hip m M hb f g hf N => darcy_bounds_par np (h.solid3 vm sqrt hs trunc htr) (fun _ => ⟨wedge_build3 sqrt trunc 1 serial, fun p hp => wedge_build3 sqrt trunc SIZE (data p)⟩)
    (ghostNormal3 _) sL sG S ho hdf hc hD ⟨star, hbc⟩ hcm hdn h1 h2 sv hip hsv m M hb f g hf N⟩

end

/-! ### a run that leaves its bounds -/

/-- One triangle, all nodes on side 1. -/
def triNode (k : Nat) : ℚ × ℚ × ℚ × Nat := (if k = 1 then 2 else 0, if k = 2 then 2 else 0, 0, 1)

theorem triValid : ValidMesh2 (fun _ j => j) triNode 3 1 := by
  refine ⟨fun c hc j hj => hj, fun k hk => ⟨0, by omega, k, hk, rfl⟩, by decide +kernel, fun c hc c' hc' hne => by omega, fun c hc a b x _ _ => ?_⟩
  show SideLabels2 1 1
  decide

/-- The pressure on the sides. -/
noncomputable def pump (x y _z : ℝ) : ℝ := 5 / 2 * (x ^ 2 + y ^ 2) - 3 / 2 * (x + y) - 3 * x * y

/-- Pressure `pump` on the sides, concentration 1 outside, no diffusion, `cfl = q`. -/
noncomputable def pumpSetup (q : ℝ) : DSetup ℝ := ⟨fun _ => .dirichlet (fun _ _ _ => 1), fun _ => .dirichlet pump, q, 1, 0, 0, 0, 1, false⟩

theorem orient_at (v : Nat → Vec ℝ) (g : Vec ℝ) (p q : Nat) (t : ℝ) (ht : t = tst v g p q) : (orientedNormal2 v g p q 0, orientedNormal2 v g p q 1) =
    ((if 0 < t then -1 else 1) * rawNormal2 v p q 0, (if 0 < t then -1 else 1) * rawNormal2 v p q 1) := by
  subst ht
  rw [orientedNormal2_eq]
  by_cases h : 0 < tst v g p q
  · rw [if_pos h, if_pos h]
  · rw [if_neg h, if_neg h, one_mul, one_mul]

section
variable {q : ℝ} {data : Nat → RankData ℝ} {serial : RankData ℝ}

theorem tri_vertex (h : Launched 3 (fun _ j => j) (realNode triNode) (centvol2 (realNode triNode) (fun _ j => j)) (fun _ => 0) (fun _ => 0) 3 1 2 data serial)
    {s : Nat} (hs : s < 3) (k : Nat) (hk : k < 3) : vtx serial s k = if (s = 1 ∧ k = 0) ∨ (s = 2 ∧ k = 1) then 2 else 0 := by
  have e0 := (h.serial_cells.2.2.1 s hs).1 k hk
  rw [show vtx serial s k = at2 0 serial.vertex s k from rfl, e0]
  interval_cases s <;> interval_cases k <;> simp [pos, realNode, triNode]

/-- The face between nodes `a` and `b` of the triangle: centre `(x, y)`, outward normal, value of the pressure at the ends and in the middle, and
the velocity computed from a zero pressure in the cell. -/
theorem tri_face (h : Launched 3 (fun _ j => j) (realNode triNode) (centvol2 (realNode triNode) (fun _ j => j)) (fun _ => 0) (fun _ => 0) 3 1 2 data serial)
    {hgG : HGResult ℝ} (sG : HGSerial 2 (build2 Real.sqrt Int.floor 1 serial) 3 hgG) (w : Interp.Fields ℝ) (hw : w.c 0 = 0) (nd : Nat → ℝ)
    (a b : Nat) (ha : a < 3) (hb : b < 3) (hab : a ≠ b) :
    ∃ j < 3, [a, b].Perm ((build2 Real.sqrt Int.floor 1 serial).fnode ((build2 Real.sqrt Int.floor 1 serial).faceid 0 j)) ∧
      ∀ F, F = (build2 Real.sqrt Int.floor 1 serial).faceid 0 j →
      F ∈ (build2 Real.sqrt Int.floor 1 serial).boundaryfaces ∧ (build2 Real.sqrt Int.floor 1 serial).cellid F 0 = ((0 : Nat) : Int) ∧
      (build2 Real.sqrt Int.floor 1 serial).normal F 2 = 0 ∧ solGrads 2 (build2 Real.sqrt Int.floor 1 serial) (pumpSetup q).bcP w nd F 2 = 0 ∧
      ((build2 Real.sqrt Int.floor 1 serial).normal F 0, (build2 Real.sqrt Int.floor 1 serial).normal F 1) =
        (if a + b = 1 then (0, -2) else if a + b = 2 then (-2, 0) else (2, 2) : ℝ × ℝ) ∧
      (solGrads 2 (build2 Real.sqrt Int.floor 1 serial) (pumpSetup q).bcP w nd F 0, solGrads 2 (build2 Real.sqrt Int.floor 1 serial) (pumpSetup q).bcP w nd F 1) =
        (if a + b = 1 then (-7 / 2, 3 / 2) else if a + b = 2 then (3 / 2, -7 / 2) else (3 / 2, 3 / 2) : ℝ × ℝ) := by
  have vm := validReal triValid
  have np := h.nodePair2 vm Real.sqrt Int.floor floor_real
  have R := np.run.rank 0 (by omega)
  have c0 : 0 < (build2 Real.sqrt Int.floor 1 serial).nbcells := by rw [np.run.nG]; omega
  have oG := np.linOkG (by omega) sG
  obtain ⟨j, hj, pj⟩ := np.faceG 0 (by omega) [a, b] (by simp [hab]) rfl (by
    intro s hs
    simp at hs
    rcases hs with rfl | rfl
    · exact ⟨_, ha, rfl⟩
    · exact ⟨_, hb, rfl⟩)
  refine ⟨j, hj, pj, ?_⟩
  rintro F rfl
  have hf1 := R.cG.flt 0 c0 j hj
  obtain ⟨hB, hbd, hcell⟩ : (build2 Real.sqrt Int.floor 1 serial).name ((build2 Real.sqrt Int.floor 1 serial).faceid 0 j) ∈ ([1, 2, 3, 4] : List Int) ∧
      (build2 Real.sqrt Int.floor 1 serial).faceid 0 j ∈ (build2 Real.sqrt Int.floor 1 serial).boundaryfaces ∧
      (build2 Real.sqrt Int.floor 1 serial).cellid ((build2 Real.sqrt Int.floor 1 serial).faceid 0 j) 0 = ((0 : Nat) : Int) := by
    rcases R.gkinds c0 hj with ⟨x, hb, _, e⟩ | ⟨E, hE, hne, _⟩
    · exact ⟨by rw [np.hBe] at x; exact x, hb, e⟩
    · rw [np.run.nG] at hE; omega
  obtain ⟨F, hF⟩ : ∃ F, F = (build2 Real.sqrt Int.floor 1 serial).faceid 0 j := ⟨_, rfl⟩
  rw [← hF] at hf1 hB hbd hcell pj ⊢
  have hfn : (build2 Real.sqrt Int.floor 1 serial).fnode F = [a, b] ∨ (build2 Real.sqrt Int.floor 1 serial).fnode F = [b, a] := by
    have hl := pj.length_eq
    match hx : (build2 Real.sqrt Int.floor 1 serial).fnode F, hl with
    | [x, y], _ =>
      rw [hx] at pj
      have hxa : x ∈ [a, b] := pj.symm.subset (by simp)
      have hya : y ∈ [a, b] := pj.symm.subset (by simp)
      have hn : [x, y].Nodup := pj.nodup_iff.mp (by simp [hab])
      simp at hxa hya hn
      rcases hxa with rfl | rfl <;> rcases hya with rfl | rfl <;> simp_all
  have hcen : ∀ k < 2, (build2 Real.sqrt Int.floor 1 serial).center 0 k = 2 / 3 := by
    intro k hk
    rw [center_build2 Real.sqrt Int.floor 1 serial (by rw [h.serial_cells.1]; omega), h.row2S (by omega)]
    interval_cases k <;> simp only [center2] <;> rw [tri_vertex h (by omega) _ (by omega), tri_vertex h (by omega) _ (by omega), tri_vertex h (by omega) _ (by omega)] <;> norm_num
  have hvx : ∀ s k, (build2 Real.sqrt Int.floor 1 serial).vertex s k = vtx serial s k := fun s k => by rw [np.vertexG]; rfl
  have hdf : dirFace 2 (build2 Real.sqrt Int.floor 1 serial) (pumpSetup q).bcP F := ⟨np.run.hB _ (by rw [np.hBe]; exact hB), rfl⟩
  have hfc : ∀ k < 2, (build2 Real.sqrt Int.floor 1 serial).fcenter F k = 1 / 2 * (vtx serial (((build2 Real.sqrt Int.floor 1 serial).fnode F).getD 0 0) k + vtx serial (((build2 Real.sqrt Int.floor 1 serial).fnode F).getD 1 0) k) := by
    intro k hk; rw [fcenter_build2 Real.sqrt Int.floor 1 serial hf1]; rfl
  have hpn : ∀ s < 3, solNode 2 (build2 Real.sqrt Int.floor 1 serial) (pumpSetup q).bcP nd F s = pump (vtx serial s 0) (vtx serial s 1) 0 := by
    intro s hs
    have ho : (build2 Real.sqrt Int.floor 1 serial).oldname s = 1 := by
      rw [np.oldnameG, np.vertexG, (h.serial_cells.2.2.1 s hs).2]
      exact floor_real 1
    unfold solNode
    rw [if_pos hdf, pbordNode_apply _ _ _ (by rw [np.nbG]; exact hs), ho, if_pos (by decide)]
    show pump ((build2 Real.sqrt Int.floor 1 serial).vertex s 0) ((build2 Real.sqrt Int.floor 1 serial).vertex s 1) ((build2 Real.sqrt Int.floor 1 serial).vertex s 2) = _
    rw [hvx, hvx]; rfl
  have hpf : pbordFace 2 (build2 Real.sqrt Int.floor 1 serial) (pumpSetup q).bcP F = pump ((build2 Real.sqrt Int.floor 1 serial).fcenter F 0) ((build2 Real.sqrt Int.floor 1 serial).fcenter F 1) 0 :=
    pbordFace_apply 2 _ (pumpSetup q).bcP hf1 (np.run.hB _ (by rw [np.hBe]; exact hB)) (v := pump) rfl
  have pts : ∀ k < 3, solGrads 2 (build2 Real.sqrt Int.floor 1 serial) (pumpSetup q).bcP w nd F k = - gradD 2 (build2 Real.sqrt Int.floor 1 serial) (solNode 2 (build2 Real.sqrt Int.floor 1 serial) (pumpSetup q).bcP nd F) F (sideL 2 (build2 Real.sqrt Int.floor 1 serial) w F) (solR 2 (build2 Real.sqrt Int.floor 1 serial) (pumpSetup q).bcP w F) k :=
    fun k hk => solGrads_pts (Or.inl rfl) R.cG np.hBe (by omega) (pumpSetup q).bcP w _ hf1 (oG.names _ hf1) hk
  have hnorm := normal_build2 Real.sqrt Int.floor 1 serial hf1
  rw [hcell, idx_cast] at hnorm
  have ho : (fun k => (ghostPoint 2 (build2 Real.sqrt Int.floor 1 serial) F).getD k 0) = otherPt 2 (build2 Real.sqrt Int.floor 1 serial) F := by
    unfold otherPt
    rw [if_neg (by intro x; rw [x] at hB; exact absurd hB (by decide)), if_neg (by intro x; rw [x] at hB; exact absurd hB (by decide))]
  refine ⟨hbd, hcell, ?_, ?_, ?_, ?_⟩
  · rw [hnorm, orientedNormal2_eq]; split <;> simp [rawNormal2]
  · rw [pts 2 (by omega)]
    show - (0 : ℝ) = 0
    simp
  · have : orientedNormal2 (vtx serial) ((build2 Real.sqrt Int.floor 1 serial).center 0) (at2 0 (fac2 serial) F 0) (at2 0 (fac2 serial) F 1) =
        orientedNormal2 (vtx serial) ((build2 Real.sqrt Int.floor 1 serial).center 0) (((build2 Real.sqrt Int.floor 1 serial).fnode F).getD 0 0) (((build2 Real.sqrt Int.floor 1 serial).fnode F).getD 1 0) := rfl
    rw [hnorm, this]
    interval_cases a <;> interval_cases b <;> first | (exact absurd rfl hab) |
      (rcases hfn with e | e <;> rw [e] <;> simp only [List.getD_cons_zero, List.getD_cons_succ] <;>
        rw [orient_at _ _ _ _ _ rfl] <;>
        simp only [tst, centerf2, rawNormal2, hcen 0 (by omega), hcen 1 (by omega), tri_vertex h (show 0 < 3 by omega) 0 (by omega), tri_vertex h (show 0 < 3 by omega) 1 (by omega), tri_vertex h (show 1 < 3 by omega) 0 (by omega),
          tri_vertex h (show 1 < 3 by omega) 1 (by omega), tri_vertex h (show 2 < 3 by omega) 0 (by omega), tri_vertex h (show 2 < 3 by omega) 1 (by omega)] <;> norm_num)
  · rw [pts 0 (by omega), pts 1 (by omega)]
    unfold solR sideL
    rw [if_pos hdf, hpf, hcell, idx_cast, hw, ← ho]
    unfold ghostPoint
    rw [hcell, idx_cast]
    simp only [gradD, if_true, gradPts2, cut, nodePt, show (0:Nat) < 2 by omega, show (1:Nat) < 2 by omega, hfc 0 (by omega), hfc 1 (by omega), List.getD_cons_zero, List.getD_cons_succ, ghostcenter2, hcen 0 (by omega), hcen 1 (by omega)]
    interval_cases a <;> interval_cases b <;> first | (exact absurd rfl hab) |
      (rcases hfn with e | e <;> rw [e] <;> simp only [List.getD_cons_zero, List.getD_cons_succ] <;> simp only [hvx, hpn 0 (by omega), hpn 1 (by omega), hpn 2 (by omega),
          tri_vertex h (show 0 < 3 by omega) 0 (by omega), tri_vertex h (show 0 < 3 by omega) 1 (by omega), tri_vertex h (show 1 < 3 by omega) 0 (by omega),
          tri_vertex h (show 1 < 3 by omega) 1 (by omega), tri_vertex h (show 2 < 3 by omega) 0 (by omega), tri_vertex h (show 2 < 3 by omega) 1 (by omega), pump] <;> norm_num)

theorem sum_three (j0 j1 j2 : Nat) (h0 : j0 < 3) (h1 : j1 < 3) (h2 : j2 < 3) (a : j0 ≠ j1) (b : j0 ≠ j2) (c : j1 ≠ j2) (g : Nat → ℝ) :
    ∑ j ∈ Finset.range 3, g j = g j0 + g j1 + g j2 := by
  interval_cases j0 <;> interval_cases j1 <;> interval_cases j2 <;> first | (exact absurd rfl a) | (exact absurd rfl b) | (exact absurd rfl c) |
    (simp only [Finset.sum_range_succ, Finset.sum_range_zero]; ring)

/-- The three sides of the triangle. -/
theorem tri_sides (h : Launched 3 (fun _ j => j) (realNode triNode) (centvol2 (realNode triNode) (fun _ j => j)) (fun _ => 0) (fun _ => 0) 3 1 2 data serial)
    {hgG : HGResult ℝ} (sG : HGSerial 2 (build2 Real.sqrt Int.floor 1 serial) 3 hgG) (w : Interp.Fields ℝ) (hw : w.c 0 = 0) (nd : Nat → ℝ)
    {G : Tables ℝ} (hG : G = build2 Real.sqrt Int.floor 1 serial) {E : Nat → Vec ℝ} (hE : E = solGrads 2 G (pumpSetup q).bcP w nd) :
    ∃ F0 F1 F2, G.boundaryfaces.Perm [F0, F1, F2] ∧ (∀ g : Nat → ℝ, ∑ j ∈ Finset.range 3, g (G.faceid 0 j) = g F0 + g F1 + g F2) ∧
      (∀ F ∈ [F0, F1, F2], G.cellid F 0 = ((0 : Nat) : Int) ∧ G.normal F 2 = 0 ∧ E F 2 = 0) ∧
      (G.normal F0 0 = 0 ∧ G.normal F0 1 = -2 ∧ E F0 0 = -7 / 2 ∧ E F0 1 = 3 / 2) ∧
      (G.normal F1 0 = -2 ∧ G.normal F1 1 = 0 ∧ E F1 0 = 3 / 2 ∧ E F1 1 = -7 / 2) ∧
      (G.normal F2 0 = 2 ∧ G.normal F2 1 = 2 ∧ E F2 0 = 3 / 2 ∧ E F2 1 = 3 / 2) := by
  have vm := validReal triValid
  have np := h.nodePair2 vm Real.sqrt Int.floor floor_real
  have R := np.run.rank 0 (by omega)
  obtain ⟨j0, l0, p0, q0⟩ := tri_face h sG w hw nd 0 1 (by omega) (by omega) (by omega)
  obtain ⟨j1, l1, p1, q1⟩ := tri_face h sG w hw nd 0 2 (by omega) (by omega) (by omega)
  obtain ⟨j2, l2, p2, q2⟩ := tri_face h sG w hw nd 1 2 (by omega) (by omega) (by omega)
  have q0 := q0 _ rfl
  have q1 := q1 _ rfl
  have q2 := q2 _ rfl
  rw [← hG] at p0 p1 p2 q0 q1 q2 R
  rw [← hE] at q0 q1 q2
  have c0 : 0 < G.nbcells := by rw [hG, np.run.nG]; omega
  have n01 : j0 ≠ j1 := by rintro rfl; have := (p0.trans p1.symm).subset (show 1 ∈ [0, 1] by simp); simp at this
  have n02 : j0 ≠ j2 := by rintro rfl; have := (p0.trans p2.symm).subset (show 0 ∈ [0, 1] by simp); simp at this
  have n12 : j1 ≠ j2 := by rintro rfl; have := (p1.trans p2.symm).subset (show 0 ∈ [0, 2] by simp); simp at this
  obtain ⟨b0, e0, z0, y0, m0, v0⟩ := q0
  obtain ⟨b1, e1, z1, y1, m1, v1⟩ := q1
  obtain ⟨b2, e2, z2, y2, m2, v2⟩ := q2
  simp only [Nat.zero_add, if_true, Prod.mk.injEq] at m0 v0
  simp only [Nat.zero_add, if_true, Prod.mk.injEq, show ¬ (2 = 1) by omega, if_false] at m1 v1
  simp only [Prod.mk.injEq, show ¬ (1 + 2 = 1) by omega, show ¬ (1 + 2 = 2) by omega, if_false] at m2 v2
  refine ⟨G.faceid 0 j0, G.faceid 0 j1, G.faceid 0 j2, ?_, fun g => sum_three j0 j1 j2 l0 l1 l2 n01 n02 n12 (fun j => g (G.faceid 0 j)), ?_,
    ⟨m0.1, m0.2, v0.1, v0.2⟩, ⟨m1.1, m1.2, v1.1, v1.2⟩, ⟨m2.1, m2.2, v2.1, v2.2⟩⟩
  · have hnd : [G.faceid 0 j0, G.faceid 0 j1, G.faceid 0 j2].Nodup := by
      simp only [List.nodup_cons, List.mem_cons, List.not_mem_nil, or_false, not_or, not_false_eq_true, List.nodup_nil, and_true]
      exact ⟨⟨fun x => n01 (R.cG.inj 0 c0 _ l0 _ l1 x), fun x => n02 (R.cG.inj 0 c0 _ l0 _ l2 x)⟩, fun x => n12 (R.cG.inj 0 c0 _ l1 _ l2 x)⟩
    refine (List.perm_ext_iff_of_nodup R.cG.bnd.1 hnd).mpr fun f => ⟨fun hf => ?_, fun hf => ?_⟩
    · obtain ⟨C, hC, j, hj, rfl⟩ := R.cG.fsurj f ((R.cG.bnd.2 f).mp hf).1
      obtain rfl : C = 0 := by rw [hG, np.run.nG] at hC; omega
      have : j = j0 ∨ j = j1 ∨ j = j2 := by omega
      rcases this with rfl | rfl | rfl <;> simp
    · simp at hf
      rcases hf with rfl | rfl | rfl
      · exact b0
      · exact b1
      · exact b2
  · intro F hF
    simp at hF
    rcases hF with rfl | rfl | rfl
    · exact ⟨e0, z0, y0⟩
    · exact ⟨e1, z1, y1⟩
    · exact ⟨e2, z2, y2⟩

/-- The zero pressure solves the system. -/
theorem tri_boundary (h : Launched 3 (fun _ j => j) (realNode triNode) (centvol2 (realNode triNode) (fun _ j => j)) (fun _ => 0) (fun _ => 0) 3 1 2 data serial)
    {hgG : Nat → HGResult ℝ} (sG : HGSerial 2 (build2 Real.sqrt Int.floor 1 serial) 3 (hgG 0)) :
    boundaryOf (serW 2 serial (build2 Real.sqrt Int.floor 1 serial) hgG) (pumpSetup q).bcP 0 = 0 := by
  have vm := validReal triValid
  have np := h.nodePair2 vm Real.sqrt Int.floor floor_real
  have R := np.run.rank 0 (by omega)
  have oG := np.linOkG (by omega) sG
  have hgn := ghostNormal_build2 h vm Real.sqrt (fun x hx => (Real.sqrt_pos.mpr hx).ne') Int.floor floor_real
  have hcm : CornersMatch 2 (build2 Real.sqrt Int.floor 1 serial) (pumpSetup q).bcP := C110_dirichlet_corners_2d h vm Real.sqrt Int.floor floor_real (fun _ => pump)
  obtain ⟨G, hG⟩ : ∃ G, G = build2 Real.sqrt Int.floor 1 serial := ⟨_, rfl⟩
  have c0 : 0 < G.nbcells := by rw [hG, np.run.nG]; omega
  obtain ⟨w, hwd⟩ : ∃ w, w = linW 2 1 serial G (hgG 0) (fun _ => 0) := ⟨_, rfl⟩
  have hc0 : w.c 0 = 0 := by rw [hwd]; rfl
  obtain ⟨E, hE⟩ : ∃ E, E = solGrads 2 G (pumpSetup q).bcP w (fun _ => 0) := ⟨_, rfl⟩
  obtain ⟨F0, F1, F2, hp, hsum, hz, a0, a1, a2⟩ := tri_sides h sG w hc0 (fun _ => 0) hG hE
  have eG : (linMesh 2 1 serial G (hgG 0)).loctoglob 0 = 0 := by simp [linMesh]
  rw [← hG] at oG np R sG hgn hcm ⊢
  have r1 := oG.row (pumpSetup q).bcP (fun _ => 0) c0
  rw [eG, oG.balance_dissip (pumpSetup q).bcP _ c0, apply_matrix np (by omega) hgn hcm (fun loc => Or.inl rfl) sG (fun _ => 0) c0, ← hwd, R.cG.dissip unitD _ c0] at r1
  have hg : ∀ F ∈ [F0, F1, F2], diffTerm G unitD (linGrad 2 1 serial G (hgG 0) (pumpSetup q).bcP w) 0 F = - through G E F := by
    intro F hF
    obtain ⟨hfl, hB⟩ := (R.cG.bnd.2 F).mp (hp.symm.subset hF)
    have hn0 : G.name F ≠ 0 := fun x => by rw [x] at hB; exact R.cG.B0 hB
    have hn1 : G.name F ≠ 10 := fun x => by rw [x] at hB; exact R.cG.B10 hB
    have hdf : dirFace 2 G (pumpSetup q).bcP F := ⟨np.run.hB _ hB, rfl⟩
    have hk : ∀ k < 3, linGrad 2 1 serial G (hgG 0) (pumpSetup q).bcP w F k = - E F k := by
      intro k hk
      rw [hE, solGrads_pts (Or.inl rfl) R.cG np.hBe (by omega) (pumpSetup q).bcP w _ hfl (oG.names _ hfl) hk, neg_neg]
      unfold linGrad
      rw [if_neg (by rintro (x | x); exacts [hn0 x, hn1 x]), if_pos (show ((pumpSetup q).bcP (G.name F)).isDirichlet = true from rfl)]
      have e1 : solNode 2 G (pumpSetup q).bcP (fun _ => 0) F = pbordNode 2 G (pumpSetup q).bcP := funext fun i => by unfold solNode; rw [if_pos hdf]
      unfold solR
      rw [e1, if_pos hdf]
    unfold diffTerm
    rw [(hz F hF).1, if_pos (show (((0 : Nat) : Int)).toNat = 0 from rfl), if_neg (fun x => hn0 x.1)]
    unfold Spec.diffFlux through
    simp only [hk 0 (by omega), hk 1 (by omega), hk 2 (by omega), unitD]
    ring
  have hs : ∑ j ∈ Finset.range (2 + 1), diffTerm G unitD (linGrad 2 1 serial G (hgG 0) (pumpSetup q).bcP w) 0 (G.faceid 0 j) = 0 := by
    rw [hsum (diffTerm G unitD (linGrad 2 1 serial G (hgG 0) (pumpSetup q).bcP w) 0), hg F0 (by simp), hg F1 (by simp), hg F2 (by simp)]
    unfold through
    rw [a0.1, a0.2.1, a0.2.2.1, a0.2.2.2, a1.1, a1.2.1, a1.2.2.1, a1.2.2.2, a2.1, a2.2.1, a2.2.2.1, a2.2.2.2, (hz F0 (by simp)).2.1, (hz F1 (by simp)).2.1, (hz F2 (by simp)).2.1]
    norm_num
  rw [hs, zero_div] at r1
  rw [boundaryOf_serial]
  simp only [mul_zero, Finset.sum_const_zero, zero_sub, neg_eq_zero] at r1
  exact r1

theorem darcyStart_time {W : World ℝ} {S : DSetup ℝ} {sv : LinSolve.Solver} {direct : (Nat → Nat → ℝ) → (Nat → ℝ) → Nat → ℝ} {f g : ℝ → ℝ → ℝ → ℝ} {t : DState ℝ}
    (e : darcyStart W S sv direct f g = some t) : t.time = 0 := by
  unfold darcyStart at e
  obtain ⟨b, hb, rfl⟩ := Option.map_eq_some_iff.mp e
  rfl

/-- One iteration on the triangle: time step, inflow, concentration. -/
theorem tri_step (h : Launched 3 (fun _ j => j) (realNode triNode) (centvol2 (realNode triNode) (fun _ j => j)) (fun _ => 0) (fun _ => 0) 3 1 2 data serial)
    {hgG : Nat → HGResult ℝ} (sG : HGSerial 2 (build2 Real.sqrt Int.floor 1 serial) 3 (hgG 0)) (hq : q ≤ 1)
    {direct : (Nat → Nat → ℝ) → (Nat → ℝ) → Nat → ℝ} (h1 : ReadsRows 1 direct) (h3 : ∀ A b, (∀ i < 1, b i = 0) → ∀ j, direct A b j = 0) (t0 : DState ℝ)
    (s0 : SysOk (linEnv (serW 2 serial (build2 Real.sqrt Int.floor 1 serial) hgG) (pumpSetup q).bcP .mumps direct)
      (linBnd (serW 2 serial (build2 Real.sqrt Int.floor 1 serial) hgG) (pumpSetup q).bcP .mumps) t0.sys) :
    ∃ t, darcyStep (serW 2 serial (build2 Real.sqrt Int.floor 1 serial) hgG) (pumpSetup q) .mumps direct t0 = some t ∧
      SysOk (linEnv (serW 2 serial (build2 Real.sqrt Int.floor 1 serial) hgG) (pumpSetup q).bcP .mumps direct)
        (linBnd (serW 2 serial (build2 Real.sqrt Int.floor 1 serial) hgG) (pumpSetup q).bcP .mumps) t.sys ∧
      t.time - t0.time = 3 / 2 * q ∧ fluxIn (build2 Real.sqrt Int.floor 1 serial) 3 (t.vel 0) 0 = 6 ∧ (build2 Real.sqrt Int.floor 1 serial).volume 0 = 2 ∧
      2 * (t.V 0).cell 0 = 2 * (t0.V 0).cell 0 - 3 / 2 * q * (6 * (t0.V 0).cell 0 - 6) := by
  have vm := validReal triValid
  have np := h.nodePair2 vm Real.sqrt Int.floor floor_real
  have hs := h.solid2 vm Real.sqrt (fun x hx => (Real.sqrt_pos.mpr hx).ne') Int.floor floor_real
  have hgn := ghostNormal_build2 h vm Real.sqrt (fun x hx => (Real.sqrt_pos.mpr hx).ne') Int.floor floor_real
  have hvol : (build2 Real.sqrt Int.floor 1 serial).volume 0 = 2 := by
    rw [volume_build2 Real.sqrt Int.floor 1 serial (by rw [h.serial_cells.1]; omega), h.row2S (by omega)]
    simp only [volume2, tri_vertex h (show 0 < 3 by omega) 0 (by omega), tri_vertex h (show 0 < 3 by omega) 1 (by omega), tri_vertex h (show 1 < 3 by omega) 0 (by omega),
          tri_vertex h (show 1 < 3 by omega) 1 (by omega), tri_vertex h (show 2 < 3 by omega) 0 (by omega), tri_vertex h (show 2 < 3 by omega) 1 (by omega)]
    norm_num
  have hbz := tri_boundary (q := q) h sG
  obtain ⟨b, eb, ob, wb⟩ := s0.solve (by show 0 < 1; omega) (np.lin_numbering_serial (pumpSetup q).bcP hgG .mumps direct).1
  have hb0 : b.cells 0 0 = 0 := by
    rw [serial_solution np (by omega) sG h1 wb (by rw [np.run.nG]; omega)]
    refine h3 _ _ (fun i hi => ?_) _
    obtain rfl : i = 0 := by omega
    rw [hbz]; simp
  obtain ⟨U', e1, e2, e3⟩ := serial_update (dim := 2) serial (build2 Real.sqrt Int.floor 1 serial) hgG (pumpSetup q).bcP (fun p => { t0.P p with cell := b.cells p })
  obtain ⟨G, hG⟩ : ∃ G, G = build2 Real.sqrt Int.floor 1 serial := ⟨_, rfl⟩
  obtain ⟨vel, hvel⟩ : ∃ vel : Nat → Nat → Vec ℝ, vel = fun p => solGrads 2 G (pumpSetup q).bcP (U' p).fields (nodeValues 2 1 serial G (hgG p) (U' p).fields) := ⟨_, rfl⟩
  have hw0 : (U' 0).fields.c 0 = 0 := by
    show (U' 0).cell 0 = 0
    rw [e2]; exact hb0
  obtain ⟨F0, F1, F2, hp, hsum, hz, a0, a1, a2⟩ := tri_sides h sG (U' 0).fields hw0 _ hG (E := vel 0) (by rw [hvel])
  rw [← hG] at np hs hgn sG hbz hvol eb e1 ob ⊢
  obtain ⟨V', nd, gr, u, w, E, e4, _⟩ := darcyMove_serial (dim := 2) serial G hgG (pumpSetup q) vel t0.V
  obtain ⟨t, ht⟩ : ∃ t : DState ℝ, t = { sys := b, P := U', vel := vel, V := V', node := nd, time := t0.time + darcyDt 2 (pumpSetup q) G (vel 0) } := ⟨_, rfl⟩
  have est : darcyStep (serW 2 serial G hgG) (pumpSetup q) .mumps direct t0 = some t := by
    unfold darcyStep
    rw [eb]
    simp only [Except.toOption, Option.bind_some]
    have : solGradient (serW 2 serial G hgG) (pumpSetup q).bcP (fun p => { t0.P p with cell := b.cells p }) = some (U', fun p => nodeValues 2 1 serial G (hgG p) (U' p).fields, vel) := by
      unfold solGradient celltonode; rw [e1, hvel]; rfl
    rw [this]
    simp only [Option.bind_some]
    rw [e4, ht]; rfl
  have hn : G.nbcells = 1 := np.run.nG
  have thr : through G (vel 0) F0 = -3 ∧ through G (vel 0) F1 = -3 ∧ through G (vel 0) F2 = 6 := by
    unfold through
    rw [a0.1, a0.2.1, a0.2.2.1, a0.2.2.2, a1.1, a1.2.1, a1.2.2.1, a1.2.2.2, a2.1, a2.2.1, a2.2.2.1, a2.2.2.2, (hz F0 (by simp)).2.1, (hz F1 (by simp)).2.1, (hz F2 (by simp)).2.1]
    norm_num
  have tc : ∀ g : Nat → ℝ, toCells 2 G g 0 = (g F0 + g F1 + g F2) / 3 := by
    intro g
    rw [← hsum]
    unfold toCells Interp.facetocell
    simp only [List.range_succ, List.range_zero, List.nil_append, List.map_append, List.map_cons, List.map_nil, List.foldl_append, List.foldl_cons, List.foldl_nil,
      Finset.sum_range_succ, Finset.sum_range_zero]
    norm_num
  have hdt : darcyDt 2 (pumpSetup q) G (vel 0) = 3 / 2 * q := by
    have hrate : (pumpSetup q).cfl * G.volume 0 / cflRate (toCells 2 G (fun f => vel 0 f 0)) (toCells 2 G (fun f => vel 0 f 1)) (toCells 2 G (fun f => vel 0 f 2)) G.normal G.volume G.faceid 2
        (pumpSetup q).Dxx (pumpSetup q).Dyy (pumpSetup q).Dzz 0 = 3 / 2 * q := by
      unfold cflRate
      rw [hsum (fun f => |toCells 2 G (fun f => vel 0 f 0) 0 * G.normal f 0 + toCells 2 G (fun f => vel 0 f 1) 0 * G.normal f 1 + toCells 2 G (fun f => vel 0 f 2) 0 * G.normal f 2| +
        ((pumpSetup q).Dxx + (pumpSetup q).Dyy + (pumpSetup q).Dzz) * (G.normal f 0 ^ 2 + G.normal f 1 ^ 2 + G.normal f 2 ^ 2) / G.volume 0)]
      rw [tc, tc, tc, hvol]
      simp only [pumpSetup]
      rw [a0.1, a0.2.1, a0.2.2.1, a0.2.2.2, a1.1, a1.2.1, a1.2.2.1, a1.2.2.2, a2.1, a2.2.1, a2.2.2.1, a2.2.2.2, (hz F0 (by simp)).2.1, (hz F1 (by simp)).2.1, (hz F2 (by simp)).2.1]
      norm_num [abs_of_pos, abs_of_neg]
      ring
    have c1 := C06_timestep_cfl G.nbcells (toCells 2 G (fun f => vel 0 f 0)) (toCells 2 G (fun f => vel 0 f 1)) (toCells 2 G (fun f => vel 0 f 2))
      (pumpSetup q).cfl G.normal G.mesure G.volume G.faceid 2 (pumpSetup q).Dxx (pumpSetup q).Dyy (pumpSetup q).Dzz hs.mes 0 (by omega)
    rw [hrate] at c1
    unfold darcyDt
    rcases C06_timestep_attained G.nbcells (toCells 2 G (fun f => vel 0 f 0)) (toCells 2 G (fun f => vel 0 f 1)) (toCells 2 G (fun f => vel 0 f 2))
      (pumpSetup q).cfl G.normal G.mesure G.volume G.faceid 2 (pumpSetup q).Dxx (pumpSetup q).Dyy (pumpSetup q).Dzz hs.mes with r | ⟨i, hi, r⟩
    · rw [r] at c1; linarith
    · obtain rfl : i = 0 := by omega
      rw [r, hrate]
  have hm := darcyStep_mass_serial np hs (by omega) hgn (hgG := hgG) (pumpSetup q) rfl (by intro x; cases x) est
  have tot : ∀ s : DState ℝ, darcyTotal (serW 2 serial G hgG) s = 2 * (s.V 0).cell 0 := by
    intro s
    show ∑ p ∈ Finset.range 1, ∑ c ∈ Finset.range G.nbcells, G.volume c * (s.V p).cell c = _
    rw [hn, Finset.sum_range_one, Finset.sum_range_one, hvol]
  have out : darcyOutflow (serW 2 serial G hgG) (pumpSetup q) t0 t = 6 * (t0.V 0).cell 0 - 6 := by
    show ∑ p ∈ Finset.range 1, (G.boundaryfaces.map _).sum = _
    rw [Finset.sum_range_one, (hp.map _).sum_eq]
    simp only [List.map_cons, List.map_nil, List.sum_cons, List.sum_nil]
    rw [show t.vel = vel by rw [ht]]
    show (if 0 ≤ through G (vel 0) F0 then (t0.V 0).cell (G.cellid F0 0).toNat else 1) * through G (vel 0) F0 + ((if 0 ≤ through G (vel 0) F1 then (t0.V 0).cell (G.cellid F1 0).toNat else 1) * through G (vel 0) F1 +
      ((if 0 ≤ through G (vel 0) F2 then (t0.V 0).cell (G.cellid F2 0).toNat else 1) * through G (vel 0) F2 + 0)) = _
    rw [thr.1, thr.2.1, thr.2.2, (hz F2 (by simp)).1, Int.toNat_natCast]
    norm_num
    ring
  have tm : t.time - t0.time = 3 / 2 * q := by rw [ht, ← hdt]; ring
  refine ⟨t, est, by rw [ht]; exact ob, tm, ?_, hvol, by rw [tot, tot, out, tm] at hm; exact hm⟩
  rw [show t.vel = vel by rw [ht]]
  unfold fluxIn
  rw [hsum (fun f => max (- if G.cellid f 0 = ((0 : Nat) : Int) then through G (vel 0) f else - through G (vel 0) f) 0)]
  rw [if_pos (hz F0 (by simp)).1, if_pos (hz F1 (by simp)).1, if_pos (hz F2 (by simp)).1, thr.1, thr.2.1, thr.2.2]
  norm_num

/-- **C119**, what goes wrong: the time step of the driver does not limit what flows through the sides of a cell.  One triangle, pressure
prescribed on the sides, concentration 0 inside and 1 outside, `cfl = 1/2`, no diffusion, first order, a solver that is right on every solvable
system (this one has the zero solution): after one iteration the concentration is 9/4. -/
theorem C119_overshoot : ∃ serial W, readMeshFile 1 0 (writeSerial (serialWrite (fun _ j => j) (realNode triNode) 3 1 3)) [] = some serial ∧
    mkWorld 2 1 (fun _ => serial) (fun _ => build2 Real.sqrt Int.floor 1 serial) = some W ∧ ∃ direct, ReadsRows 1 direct ∧ SolvesSystems 1 direct ∧
      Solvable 1 (matrixOf W (pumpSetup (1 / 2)).bcP) (boundaryOf W (pumpSetup (1 / 2)).bcP) ∧
      ∃ s0 s, darcyStart W (pumpSetup (1 / 2)) .mumps direct (fun _ _ _ => 0) (fun _ _ _ => 0) = some s0 ∧ darcyLoop W (pumpSetup (1 / 2)) .mumps direct s0 1 = some s ∧
        (s0.V 0).cell 0 = 0 ∧ (s.V 0).cell 0 = 9 / 4 := by
  have vm := validReal triValid
  obtain ⟨serial, hr⟩ : ∃ serial, readMeshFile 1 0 (writeSerial (serialWrite (fun _ j => j) (realNode triNode) 3 1 3)) [] = some serial := ⟨_, C25_round_trip_serial _ _⟩
  obtain ⟨data, h⟩ := launched_of_serial (centvol2 (realNode triNode) (fun _ j => j)) (by omega) vm.nodes vm.used hr
  have np := h.nodePair2 vm Real.sqrt Int.floor floor_real
  obtain ⟨hgL, hgG, w1, w2, sL, sG⟩ := np.worlds
  obtain ⟨direct, h1, h2, h3⟩ := zero_solver (K := ℝ) 1
  refine ⟨serial, _, hr, w2, direct, h1, h2, ⟨fun _ => 0, fun i hi => ?_⟩, ?_⟩
  · obtain rfl : i = 0 := by omega
    rw [tri_boundary h sG]; simp
  obtain ⟨t0, e0, s0, v0⟩ := darcyStart_serial (dim := 2) serial (build2 Real.sqrt Int.floor 1 serial) hgG (pumpSetup (1 / 2)) direct .mumps (fun _ _ _ => 0) (fun _ _ _ => 0)
  obtain ⟨t, est, _, _, _, _, hm⟩ := tri_step h sG (by norm_num) h1 h3 t0 s0
  refine ⟨t0, t, e0, ?_, v0 0, ?_⟩
  · simp only [darcyLoop, Option.bind_some]
    rw [darcyStart_time e0, if_pos (by simp only [pumpSetup]; norm_num)]; exact est
  · rw [v0] at hm
    linarith

/-- With `cfl = 1/5` every iteration on the same triangle meets the hypothesis of the theorems, and the concentration stays between 0 and 1. -/
example (N : Nat) : ∃ serial W, readMeshFile 1 0 (writeSerial (serialWrite (fun _ j => j) (realNode triNode) 3 1 3)) [] = some serial ∧
    mkWorld 2 1 (fun _ => serial) (fun _ => build2 Real.sqrt Int.floor 1 serial) = some W ∧ ∃ direct, ∃ s0 s,
      darcyStart W (pumpSetup (1 / 5)) .mumps direct (fun _ _ _ => 0) (fun _ _ _ => 0) = some s0 ∧ darcyLoop W (pumpSetup (1 / 5)) .mumps direct s0 N = some s ∧
        (∀ k < N, ∀ a b, darcyLoop W (pumpSetup (1 / 5)) .mumps direct s0 k = some a → darcyStep W (pumpSetup (1 / 5)) .mumps direct a = some b → StepFits W a b) ∧
        0 ≤ (s.V 0).cell 0 ∧ (s.V 0).cell 0 ≤ 1 := by
  have vm := validReal triValid
  obtain ⟨serial, hr⟩ : ∃ serial, readMeshFile 1 0 (writeSerial (serialWrite (fun _ j => j) (realNode triNode) 3 1 3)) [] = some serial := ⟨_, C25_round_trip_serial _ _⟩
  obtain ⟨data, h⟩ := launched_of_serial (centvol2 (realNode triNode) (fun _ j => j)) (by omega) vm.nodes vm.used hr
  have np := h.nodePair2 vm Real.sqrt Int.floor floor_real
  obtain ⟨hgL, hgG, w1, w2, sL, sG⟩ := np.worlds
  obtain ⟨direct, h1, h2, h3⟩ := zero_solver (K := ℝ) 1
  obtain ⟨W, hW, hrun⟩ := C119_darcy_bounds_serial_2d_partial vm hr Real.sqrt (fun x hx => (Real.sqrt_pos.mpr hx).ne') Int.floor floor_real
  obtain rfl := Option.some.inj (hW.symm.trans w2)
  obtain ⟨s0, s, e0, e1, hb⟩ := hrun (pumpSetup (1 / 5)) rfl rfl (by simp only [pumpSetup]; norm_num) (by simp [pumpSetup]) (fun _ => Or.inl rfl)
    (C110_dirichlet_corners_2d h vm Real.sqrt Int.floor floor_real (fun _ => pump)) direct h1 h2
    ⟨fun _ => 0, fun i hi => by obtain rfl : i = 0 := by omega
                                rw [tri_boundary h sG]; simp⟩ .mumps (.inl rfl) 0 1 (fun _ x y z => ⟨zero_le_one, le_refl _⟩) (fun _ _ _ => 0) (fun _ _ _ => 0)
    (fun _ _ _ => ⟨le_refl _, zero_le_one⟩) N
  have fits : ∀ k < N, ∀ a b, darcyLoop (serW 2 serial (build2 Real.sqrt Int.floor 1 serial) hgG) (pumpSetup (1 / 5)) .mumps direct s0 k = some a → darcyStep (serW 2 serial (build2 Real.sqrt Int.floor 1 serial) hgG) (pumpSetup (1 / 5)) .mumps direct a = some b →
      StepFits (serW 2 serial (build2 Real.sqrt Int.floor 1 serial) hgG) a b := by
    intro k _ a b ea eb
    obtain ⟨t0, e0', so, _⟩ := darcyStart_serial (dim := 2) serial (build2 Real.sqrt Int.floor 1 serial) hgG (pumpSetup (1 / 5)) direct .mumps (fun _ _ _ => 0) (fun _ _ _ => 0)
    obtain rfl := Option.some.inj (e0.symm.trans e0')
    obtain ⟨a', ea', oa⟩ := darcyLoop_inv (serW 2 serial (build2 Real.sqrt Int.floor 1 serial) hgG) (pumpSetup (1 / 5)) .mumps direct
      (fun t => SysOk (linEnv (serW 2 serial (build2 Real.sqrt Int.floor 1 serial) hgG) (pumpSetup (1 / 5)).bcP .mumps direct) (linBnd (serW 2 serial (build2 Real.sqrt Int.floor 1 serial) hgG) (pumpSetup (1 / 5)).bcP .mumps) t.sys)
      (fun t ht => by obtain ⟨t', x1, x2, _⟩ := tri_step h sG (by norm_num) h1 h3 t ht; exact ⟨t', x1, x2⟩) s0 so k
    obtain rfl := Option.some.inj (ea.symm.trans ea')
    obtain ⟨b', x1, _, x3, x4, x5, _⟩ := tri_step h sG (by norm_num) h1 h3 a oa
    obtain rfl := Option.some.inj (eb.symm.trans x1)
    intro p hp c hc
    obtain rfl : p = 0 := by have : p < 1 := hp; omega
    obtain rfl : c = 0 := by have : c < (build2 Real.sqrt Int.floor 1 serial).nbcells := hc; rw [np.run.nG] at this; omega
    show (b.time - a.time) * fluxIn (build2 Real.sqrt Int.floor 1 serial) 3 (b.vel 0) 0 ≤ (build2 Real.sqrt Int.floor 1 serial).volume 0
    rw [x3, x4, x5]; norm_num
  exact ⟨serial, _, hr, w2, direct, s0, s, e0, e1, fits, hb fits 0 (by omega)⟩

example := C119_darcy_bounds_2d_partial stripLaunched stripValid (fun x => x) (fun x hx => ne_of_gt hx) Rat.floor floor_nat (run_star 2 4)
example := C119_darcy_bounds_serial_3d_partial chainValid chainLaunched.hserial (fun x => x) (fun x hx => ne_of_gt hx) Rat.floor floor_nat
example := C119_darcy_bounds_3d_partial chainLaunched chainValid (fun x => x) (fun x hx => ne_of_gt hx) Rat.floor floor_nat (run_star 3 3)
end
end Verif.Props.Par
