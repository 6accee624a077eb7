import Verif.Props.RunDarcy
import Verif.Props.Gauss
import Verif.Spec.DarcyRun
import Verif.Props.Diffusion

/-!
# C111, C112: properties of whole Darcy runs

C111: a uniform concentration stays uniform, because the velocity the run computes from the pressure has no divergence (C110).
C112: at first order without face gradients, what the domain gains is what enters through its boundary.
-/
set_option linter.unusedSectionVars false
set_option linter.unusedVariables false
set_option linter.unusedSimpArgs false
namespace Verif.Props.Par
open Verif.Fvm Verif.Spec Verif.Conn Verif.Dom Verif.Geo Verif.Names Verif.MeshFile Verif.Part Verif.Comm Verif.Run Verif.HaloGhost Verif.Interp
open Verif.LinSolve (ReadsRows SolvedWith InPlace)
variable {K : Type*} [Field K] [LinearOrder K] [IsStrictOrderedRing K]

/-- The residual of constant data in any velocity field. -/
theorem balance_constant (a : ConvArgs K) (dim n : Nat) (hd : dim = 2 ∨ dim = 3) (h : FacesOK a dim n) (q : K)
    (hcell : ∀ c < n, a.w_c c = q) (hghost : ∀ i ∈ a.boundaryfaces, a.w_ghost i = q) (hh : a.halofaces = []) (hp : a.periodicboundaryfaces = [])
    (hgrad : ∀ c < n, a.w_x c = 0 ∧ a.w_y c = 0 ∧ a.w_z c = 0) (c : Nat) : balance a dim c = - (q * outSum a (vn a) c) := by
  have cf : ∀ k < n, ∀ i, cellAtFace a dim k i = q := by
    intro k hk i
    unfold cellAtFace
    rw [extrap_const dim hd _ _ _ _ _ (cellGrad_zero a k (hgrad k hk)), hcell k hk]
  have e1 : ∀ i ∈ a.innerfaces, innerFlux a dim i = q * vn a i := by
    intro i hi
    unfold innerFlux
    rw [cf (left a i) (idx_lt (h.inner_l i hi)), cf (right a i) (idx_lt (h.inner_r i hi)), upwind_same]
  have e4 : ∀ i ∈ a.boundaryfaces, boundaryFlux a dim i = q * vn a i := by
    intro i hi
    unfold boundaryFlux
    rw [cf (left a i) (idx_lt (h.bnd_l i hi)), hghost i hi, upwind_same]
  unfold balance outSum
  rw [hh, hp, sumAt_congr _ _ _ _ c (fun i hi _ => e1 i hi), sumAt_congr _ (right a) _ _ c (fun i hi _ => e1 i hi),
    sumAt_congr _ _ _ _ c (fun i hi _ => e4 i hi)]
  have z : ∀ (l : Nat → Nat) (V : Nat → K), sumAt [] l V c = 0 := fun _ _ => rfl
  simp only [sumAt_mul, z]
  ring

section
variable {dim : Nat} {nodeid : Nat → Nat → Nat} {node : Nat → K × K × K × Nat} {cv : Nat → List K} {npart0 epart : Nat → Nat}
  {nbnodes n SIZE : Nat} {data : Nat → RankData K} {serial : RankData K} {L : Nat → Tables K} {G : Tables K} {B : List Int}
  {out : Nat → Nat → Vec K} {trunc : K → Int}

/-- Moving the convected variable on one process. -/
theorem darcyMove_serial (serial : RankData K) (G : Tables K) (hgG : Nat → HGResult K) (S : DSetup K) (vel : Nat → Nat → Vec K) (V : Nat → Vari K) :
    ∃ (V' : Nat → Vari K) (nd : Nat → Nat → K) (gr : Grads K) (u w : Vari K) (E : Nat → Vec K),
      darcyMove (serW dim serial G hgG) S vel V = some (V', nd, darcyDt dim S G (vel 0)) ∧
      u.cell = (V 0).cell ∧ w.cell = (V 0).cell ∧ ValuesG dim G S.bc u.fields ∧ ValuesG dim G S.bc w.fields ∧
      (∀ c, (gr.wx c, gr.wy c, gr.wz c) = cellGrads dim 1 serial G (hgG 0) u.fields c) ∧
      (E = if S.diff then faceGrads dim G S.bc w.fields (nodeValues dim 1 serial G (hgG 0) w.fields) else fun _ _ => 0) ∧
      (V' 0).cell = updateNewValue (V 0).cell (conv dim (convArgs G (velFields (vel 0) (V 0).cell u.ghost u.halo gr) S.order))
        (Run.dissip G S.coeffs E) (fun _ => 0) (darcyDt dim S G (vel 0)) G.volume := by
  obtain ⟨U1, e1, c1, _⟩ := serial_update (dim := dim) serial G hgG S.bc V
  obtain ⟨U2, e2, c2, v2⟩ := serial_update (dim := dim) serial G hgG S.bc U1
  obtain ⟨g, eg⟩ : ∃ g : Nat → Nat → K × K × K, g = fun p => cellGrads dim 1 serial G (hgG p) (U2 p).fields := ⟨_, rfl⟩
  obtain ⟨gr, egr⟩ : ∃ gr : Nat → Grads K, gr = fun p => ⟨fun c => (g p c).1, fun c => (g p c).2.1, fun c => (g p c).2.2,
      limiter dim (limEps dim) G (U2 p).fields (g p), [[]].getD p [], [[]].getD p [], [[]].getD p [], [[]].getD p []⟩ := ⟨_, rfl⟩
  have hcg : cellGradient (serW dim serial G hgG) S.bc U1 = some (U2, gr) := by
    unfold cellGradient
    rw [e2, egr]
    subst eg
    simp only [Option.bind_some, exchange_serial, Option.map_some]
  have hdt : allreduceMin 1 (fun p => darcyDt dim S G (vel p)) = darcyDt dim S G (vel 0) := by unfold allreduceMin; simp
  have hgr : ∀ c, ((gr 0).wx c, (gr 0).wy c, (gr 0).wz c) = cellGrads dim 1 serial G (hgG 0) (U2 0).fields c := by
    intro c; rw [egr, eg]
  cases hdiff : S.diff with
  | false =>
    obtain ⟨N, eN⟩ : ∃ N : Nat → Vari K, N = fun p => { U2 p with cell := (updateNewValue (U2 p).cell (conv dim (convArgs G (velFields (vel p) (U2 p).cell (U2 p).ghost (U2 p).halo (gr p)) S.order))
        (Run.dissip G S.coeffs (fun _ _ => 0)) (fun _ => 0) (allreduceMin 1 (fun p => darcyDt dim S G (vel p))) G.volume) } := ⟨_, rfl⟩
    obtain ⟨U4, e4, c4, _⟩ := serial_update (dim := dim) serial G hgG S.bc N
    refine ⟨U4, fun p => nodeValues dim 1 serial G (hgG p) (U4 p).fields, gr 0, U2 0, U2 0, fun _ _ => 0, ?_, by rw [c2, c1], by rw [c2, c1], v2 0, v2 0, hgr, by simp, ?_⟩
    · unfold darcyMove
      rw [e1]
      simp only [Option.bind_some]
      rw [hcg]
      simp only [Option.bind_some, hdiff, Bool.false_eq_true, if_false]
      rw [show celltonode (serW dim serial G hgG) S.bc _ = some (U4, fun p => nodeValues dim 1 serial G (hgG p) (U4 p).fields) from by
        unfold celltonode
        rw [eN] at e4
        exact congrArg (Option.map _) e4]
      simp only [Option.map_some]
      rw [← hdt]
    · rw [c4, eN]
      dsimp only
      rw [hdt, c2, c1]
  | true =>
    obtain ⟨U3, e3, c3, v3⟩ := serial_update (dim := dim) serial G hgG S.bc U2
    obtain ⟨N, eN⟩ : ∃ N : Nat → Vari K, N = fun p => { U3 p with cell := (updateNewValue (U3 p).cell (conv dim (convArgs G (velFields (vel p) (U2 p).cell (U2 p).ghost (U2 p).halo (gr p)) S.order))
        (Run.dissip G S.coeffs (faceGrads dim G S.bc (U3 p).fields (nodeValues dim 1 serial G (hgG p) (U3 p).fields))) (fun _ => 0)
        (allreduceMin 1 (fun p => darcyDt dim S G (vel p))) G.volume) } := ⟨_, rfl⟩
    obtain ⟨U4, e4, c4, _⟩ := serial_update (dim := dim) serial G hgG S.bc N
    have hfg : faceGradient (serW dim serial G hgG) S.bc U2 = some (U3, fun p => nodeValues dim 1 serial G (hgG p) (U3 p).fields,
        fun p => faceGrads dim G S.bc (U3 p).fields (nodeValues dim 1 serial G (hgG p) (U3 p).fields)) := by
      unfold faceGradient celltonode
      rw [e3]; rfl
    refine ⟨U4, fun p => nodeValues dim 1 serial G (hgG p) (U4 p).fields, gr 0, U2 0, U3 0, _, ?_, by rw [c2, c1], by rw [c3, c2, c1], v2 0, v3 0, hgr, by rw [if_pos rfl], ?_⟩
    · unfold darcyMove
      rw [e1]
      simp only [Option.bind_some]
      rw [hcg]
      simp only [Option.bind_some, hdiff, if_true]
      rw [hfg]
      simp only [Option.map_some, Option.bind_some]
      rw [show celltonode (serW dim serial G hgG) S.bc _ = some (U4, fun p => nodeValues dim 1 serial G (hgG p) (U4 p).fields) from by
        unfold celltonode
        rw [eN] at e4
        exact congrArg (Option.map _) e4]
      simp only [Option.map_some]
      rw [← hdt]
    · rw [c4, eN]
      dsimp only
      rw [hdt, c3, c2, c1]

/-- A constant stays a constant in a velocity field without divergence. -/
theorem move_const (h : NodePair dim nodeid node cv npart0 epart nbnodes n SIZE data serial L G B out trunc)
    {hgG : Nat → HGResult K} (sG : HGSerial dim G nbnodes (hgG 0)) (hw : dim = 3 → WedgeOk G) (S : DSetup K) (q : K)
    (hb : ∀ loc, BcIn q q (S.bc loc)) (hsur : S.diff = true → ∀ s < nbnodes, Surrounded dim nodeid n G s) (vel : Nat → Nat → Vec K)
    (hdiv : ∀ C < G.nbcells, fieldOut G (dim + 1) (vel 0) C = 0) (V : Nat → Vari K) (hin : ∀ C < G.nbcells, (V 0).cell C = q) :
    ∃ V' nd dt, darcyMove (serW dim serial G hgG) S vel V = some (V', nd, dt) ∧ ∀ C < G.nbcells, (V' 0).cell C = q := by
  obtain ⟨V', nd, gr, u, w, E, e, cu, cw, vu, vw, hgr, hE, hnew⟩ := darcyMove_serial (dim := dim) serial G hgG S vel V
  refine ⟨V', nd, _, e, fun C hC => ?_⟩
  have h0 : 0 < SIZE := by have := h.run.hS; omega
  have R := h.run.rank 0 h0
  rw [hnew]
  unfold updateNewValue
  have hww : ∀ C < G.nbcells, w.fields.c C = q := fun C hC => by show w.cell C = q; rw [cw]; exact hin C hC
  have huu : ∀ C < G.nbcells, u.fields.c C = q := fun C hC => by show u.cell C = q; rw [cu]; exact hin C hC
  have hdis : Run.dissip G S.coeffs E C = 0 := by
    rw [R.cG.dissip S.coeffs _ hC]
    apply Finset.sum_eq_zero
    intro j hj
    have hz : ∀ k < 3, E (G.faceid C j) k = 0 := by
      intro k hk
      rw [hE]
      split
      · rename_i hd
        exact faceGrads_const h hw vw q hww hb _ (fun s hs => node_const h sG vw q hww hb hs (hsur hd s hs))
          (R.cG.flt C hC j (Finset.mem_range.mp hj)) (k := k) hk
      · rfl
    unfold diffTerm diffFlux
    simp only [hz 0 (by omega), hz 1 (by omega), hz 2 (by omega)]
    simp
  obtain ⟨F, hF⟩ : ∃ F, F = velFields (vel 0) (V 0).cell u.ghost u.halo gr := ⟨_, rfl⟩
  rw [← hF]
  have h1 : conv dim (convArgs G F S.order) C = 0 := by
    rw [conv_balance R.cG _ _ h.run.hd, balance_constant _ dim G.nbcells h.run.hd (R.facesOK _ _ _) q ?_ ?_ R.halo_nil R.cG.per ?_]
    · have : outSum (convArgs G F S.order) (vn (convArgs G F S.order)) C = fieldOut G (dim + 1) (vel 0) C := by
        unfold fieldOut
        refine R.outSum F S.order hC _ _ ?_ ?_
        · intro j hj e0
          rw [if_pos e0, hF]; rfl
        · intro j hj e0
          rw [if_neg e0, neg_neg, hF]; rfl
      rw [this, hdiv C hC]; ring
    · intro C hC; rw [hF]; exact hin C hC
    · intro f hf
      have : (convArgs G F S.order).w_ghost f = u.fields.ghost f := by rw [hF]; rfl
      rw [this]
      obtain ⟨g0, e0⟩ := vu.ghost
      have hfb := (R.cG.bnd.2 f).mp hf
      rw [e0, updateGhosts_apply _ _ _ _ _ hfb.1 (h.run.hB _ hfb.2)]
      exact h.ghost_const u.fields.c q huu hb hf
    · intro C hC
      have hz := serial_grad_const h sG vu q huu hb hC
      rw [← hgr C] at hz
      have hz' : gr.wx C = 0 ∧ gr.wy C = 0 ∧ gr.wz C = 0 := by simpa using hz
      rw [hF]
      exact hz'
  rw [h1, hdis, hin C hC]; simp

theorem darcyLoop_inv (W : World K) (S : DSetup K) (sv : LinSolve.Solver) (direct : (Nat → Nat → K) → (Nat → K) → Nat → K) (I : DState K → Prop)
    (hstep : ∀ s, I s → ∃ s', darcyStep W S sv direct s = some s' ∧ I s') (s : DState K) (hs : I s) (N : Nat) :
    ∃ s', darcyLoop W S sv direct s N = some s' ∧ I s' := by
  induction N with
  | zero => exact ⟨s, rfl, hs⟩
  | succ N ih =>
    obtain ⟨s1, e1, i1⟩ := ih
    simp only [darcyLoop, e1, Option.bind_some]
    by_cases ht : s1.time < S.tfinal
    · simp only [if_pos ht]; exact hstep s1 i1
    · simp only [if_neg ht]; exact ⟨s1, rfl, i1⟩

/-- The velocity of the Darcy run has no divergence (Gauss's law without source). -/
theorem darcyStep_const (h : NodePair dim nodeid node cv npart0 epart nbnodes n SIZE data serial L G B out trunc) (hs : Solid G dim out)
    (hw : dim = 3 → WedgeOk G ∧ ∀ p < SIZE, WedgeOk (L p)) (hgn : GhostNormal dim G) {hgG : Nat → HGResult K} (sG : HGSerial dim G nbnodes (hgG 0))
    (S : DSetup K) (hcm : CornersMatch dim G S.bcP) (hdn : DirichletOrNeumann S.bcP)
    {direct : (Nat → Nat → K) → (Nat → K) → Nat → K} (hdir : ReadsRows n direct) (hsol : SolvesSystems n direct) (sv : LinSolve.Solver)
    (hsv : Solvable n (matrixOf (serW dim serial G hgG) S.bcP) (boundaryOf (serW dim serial G hgG) S.bcP)) (q : K)
    (hb : ∀ loc, BcIn q q (S.bc loc)) (hsur : S.diff = true → ∀ s < nbnodes, Surrounded dim nodeid n G s) (t : DState K)
    (ht : SysOk (linEnv (serW dim serial G hgG) S.bcP sv direct) (linBnd (serW dim serial G hgG) S.bcP sv) t.sys ∧ ∀ C < G.nbcells, (t.V 0).cell C = q) :
    ∃ t', darcyStep (serW dim serial G hgG) S sv direct t = some t' ∧
      SysOk (linEnv (serW dim serial G hgG) S.bcP sv direct) (linBnd (serW dim serial G hgG) S.bcP sv) t'.sys ∧ ∀ C < G.nbcells, (t'.V 0).cell C = q := by
  obtain ⟨b, eb, ob, wb⟩ := ht.1.solve (by show 0 < 1; omega) (h.lin_numbering_serial S.bcP hgG sv direct).1
  obtain ⟨P', nd, E, e1, hE⟩ := gauss_serial h hs hw hgn hcm hdn sG hdir hsol sv (fun _ => 0) b (by simpa using hsv) wb
    (fun p => { t.P p with cell := b.cells p }) (fun _ _ => rfl)
  obtain ⟨V', mG, dt, g1, hc⟩ := move_const h sG (fun e => (hw e).1) S q hb hsur E
    (fun C hC => by have := hE 0 (by show 0 < 1; omega) C hC; rw [mul_zero, neg_zero] at this; exact this) t.V ht.2
  refine ⟨{ sys := b, P := P', vel := E, V := V', node := mG, time := t.time + dt }, ?_, ob, hc⟩
  unfold darcyStep
  rw [eb]
  simp only [Except.toOption, Option.bind_some]
  rw [e1]
  simp only [Option.bind_some]
  rw [g1]; rfl

theorem darcyStart_serial (serial : RankData K) (G : Tables K) (hgG : Nat → HGResult K)
    (S : DSetup K) (direct : (Nat → Nat → K) → (Nat → K) → Nat → K) (sv : LinSolve.Solver) (f g : K → K → K → K) :
    ∃ t, darcyStart (serW dim serial G hgG) S sv direct f g = some t ∧
      SysOk (linEnv (serW dim serial G hgG) S.bcP sv direct) (linBnd (serW dim serial G hgG) S.bcP sv) t.sys ∧
      ∀ C, (t.V 0).cell C = f (G.center C 0) (G.center C 1) (G.center C 2) := by
  obtain ⟨b, eb, cb⟩ := mkSystem_start (linEnv (serW dim serial G hgG) S.bcP sv direct) (linBnd (serW dim serial G hgG) S.bcP sv)
    (fun _ c => g (G.center c 0) (G.center c 1) (G.center c 2)) (.inl rfl)
  refine ⟨{
    sys := b
    P := fun _ => ⟨fun c => g (G.center c 0) (G.center c 1) (G.center c 2), fun _ => 0, fun _ => 0, []⟩
    vel := fun _ _ _ => 0
    V := fun _ => ⟨fun c => f (G.center c 0) (G.center c 1) (G.center c 2), fun _ => 0, fun _ => 0, []⟩
    node := fun _ _ => 0
    time := 0 }, ?_,
    ⟨_, b, [], eb, by simp, rfl⟩, fun C => rfl⟩
  unfold darcyStart
  show Option.map _ (LinSolve.mkSystem _ _ _ (fun _ c => g (G.center c 0) (G.center c 1) (G.center c 2))).toOption = _
  rw [eb]; rfl

theorem darcy_const_serial (h : NodePair dim nodeid node cv npart0 epart nbnodes n SIZE data serial L G B out trunc) (hs : Solid G dim out)
    (hw : dim = 3 → WedgeOk G ∧ ∀ p < SIZE, WedgeOk (L p)) (hgn : GhostNormal dim G) {hgG : Nat → HGResult K} (sG : HGSerial dim G nbnodes (hgG 0))
    (S : DSetup K) (hcm : CornersMatch dim G S.bcP) (hdn : DirichletOrNeumann S.bcP)
    {direct : (Nat → Nat → K) → (Nat → K) → Nat → K} (hdir : ReadsRows n direct) (hsol : SolvesSystems n direct) (sv : LinSolve.Solver)
    (hsv : Solvable n (matrixOf (serW dim serial G hgG) S.bcP) (boundaryOf (serW dim serial G hgG) S.bcP)) (q : K)
    (hb : ∀ loc, BcIn q q (S.bc loc)) (hsur : S.diff = true → ∀ s < nbnodes, Surrounded dim nodeid n G s) (g : K → K → K → K) (N : Nat) :
    ∃ t0 t, darcyStart (serW dim serial G hgG) S sv direct (fun _ _ _ => q) g = some t0 ∧ darcyLoop (serW dim serial G hgG) S sv direct t0 N = some t ∧
      ∀ C < G.nbcells, (t.V 0).cell C = q := by
  obtain ⟨t0, e0, s0, c0⟩ := darcyStart_serial (dim := dim) serial G hgG S direct sv (fun _ _ _ => q) g
  obtain ⟨t, e, _, c⟩ := darcyLoop_inv (serW dim serial G hgG) S sv direct _
    (fun t ht => darcyStep_const h hs hw hgn sG S hcm hdn hdir hsol sv hsv q hb hsur t ht) t0 ⟨s0, fun C _ => c0 C⟩ N
  exact ⟨t0, t, e0, e, c⟩

theorem solvable_par (h : NodePair dim nodeid node cv npart0 epart nbnodes n SIZE data serial L G B out trunc)
    (hw : dim = 3 → WedgeOk G ∧ ∀ p < SIZE, WedgeOk (L p)) (star : StarConnected dim nodeid n) (bc : Int → BCond K) {hgL : Nat → HGResult K}
    (sL : ∀ p < SIZE, ∃ rows, HGSpec dim SIZE data L p (hgL p) rows) {hgG : Nat → HGResult K} (sG : HGSerial dim G nbnodes (hgG 0))
    : Solvable n (matrixOf (parW dim SIZE data L hgL) bc) (boundaryOf (parW dim SIZE data L hgL) bc) ↔
    Solvable n (matrixOf (serW dim serial G hgG) bc) (boundaryOf (serW dim serial G hgG) bc) := by
  obtain ⟨a1, a2, _⟩ := h.lin_agree hw star bc sL sG
  have b1 : boundaryOf (parW dim SIZE data L hgL) bc = boundaryOf (serW dim serial G hgG) bc := by
    funext i
    refine (a2 i).trans ?_
    rw [boundaryOf_serial]; rfl
  have b2 : matrixOf (parW dim SIZE data L hgL) bc = matrixOf (serW dim serial G hgG) bc := by
    funext i j
    rw [matrixOf_serial]
    exact a1 i j
  rw [b1, b2]

theorem darcy_const_par (h : NodePair dim nodeid node cv npart0 epart nbnodes n SIZE data serial L G B out trunc) (hs : Solid G dim out)
    (hw : dim = 3 → WedgeOk G ∧ ∀ p < SIZE, WedgeOk (L p)) (hgn : GhostNormal dim G) {hgL hgG : Nat → HGResult K}
    (sL : ∀ p < SIZE, ∃ rows, HGSpec dim SIZE data L p (hgL p) rows) (sG : HGSerial dim G nbnodes (hgG 0))
    (S : DSetup K) (so : StencilOk dim nodeid epart n G S.bc) (hcm : CornersMatch dim G S.bcP) (hdn : DirichletOrNeumann S.bcP)
    {direct : (Nat → Nat → K) → (Nat → K) → Nat → K} (hdir : ReadsRows n direct) (hsol : SolvesSystems n direct) (sv : LinSolve.Solver) (hip : InPlace sv)
    (hsv : Solvable n (matrixOf (parW dim SIZE data L hgL) S.bcP) (boundaryOf (parW dim SIZE data L hgL) S.bcP)) (q : K)
    (hb : ∀ loc, BcIn q q (S.bc loc)) (hsur : S.diff = true → ∀ s < nbnodes, Surrounded dim nodeid n G s) (g : K → K → K → K) (N : Nat) :
    ∃ s0 s, darcyStart (parW dim SIZE data L hgL) S sv direct (fun _ _ _ => q) g = some s0 ∧ darcyLoop (parW dim SIZE data L hgL) S sv direct s0 N = some s ∧
      ∀ p < SIZE, ∀ c < (L p).nbcells, (s.V p).cell c = q := by
  obtain ⟨s0, t0, e1, e2, m0⟩ := darcyStart_match h hgL hgG S direct sv .mumps hip (fun _ _ _ => q) g
  obtain ⟨s, t, f1, f2, m⟩ := darcyLoop_match h hw sL sG S so (fun F hF s hs _ => hcm F hF s hs) direct hdir sv .mumps s0 t0 m0 N
  obtain ⟨t0', t', g1, g2, hc⟩ := darcy_const_serial h hs hw hgn sG S hcm hdn hdir hsol .mumps ((solvable_par h hw so.star S.bcP sL sG).mp hsv) q hb hsur g N
  rw [e2] at g1
  obtain rfl := Option.some.inj g1
  rw [f2] at g2
  obtain rfl := Option.some.inj g2
  refine ⟨s0, s, e1, f1, fun p hp c hc' => ?_⟩
  rw [m.cell p hp c hc']
  exact hc _ ((h.run.rank p hp).sub.lt c hc').1

/-! ### mass balance -/

theorem darcyStep_mass_serial (h : NodePair dim nodeid node cv npart0 epart nbnodes n SIZE data serial L G B out trunc) (hs : Solid G dim out)
    (hw : dim = 3 → WedgeOk G) (hgn : GhostNormal dim G)
    {hgG : Nat → HGResult K} (S : DSetup K) (ho : S.order = 1) (hd : S.diff = true → (∀ loc, S.bc loc = .neumann) ∧ NormalDiffusion G S.coeffs)
    {direct : (Nat → Nat → K) → (Nat → K) → Nat → K} {sv : LinSolve.Solver} {t t' : DState K}
    (e : darcyStep (serW dim serial G hgG) S sv direct t = some t') :
    darcyTotal (serW dim serial G hgG) t' = darcyTotal (serW dim serial G hgG) t - (t'.time - t.time) * darcyOutflow (serW dim serial G hgG) S t t' := by
  have h0 : 0 < SIZE := by have := h.run.hS; omega
  have R := h.run.rank 0 h0
  unfold darcyStep at e
  cases hsol : (LinSolve.solve (linEnv (serW dim serial G hgG) S.bcP sv direct) t.sys (fun _ => none)).toOption with
  | none => rw [hsol] at e; cases e
  | some b =>
  rw [hsol] at e
  simp only [Option.bind_some] at e
  cases hg : solGradient (serW dim serial G hgG) S.bcP (fun p => { t.P p with cell := b.cells p }) with
  | none => rw [hg] at e; cases e
  | some g =>
  rw [hg] at e
  simp only [Option.bind_some] at e
  obtain ⟨V', nd, gr, u, w, E, e1, cu, cw, vu, vw, hgr, hE, hnew⟩ := darcyMove_serial (dim := dim) serial G hgG S g.2.2 t.V
  rw [e1] at e
  simp only [Option.map_some] at e
  obtain rfl := Option.some.inj e
  obtain ⟨F, hF⟩ : ∃ F, F = velFields (g.2.2 0) (t.V 0).cell u.ghost u.halo gr := ⟨_, rfl⟩
  obtain ⟨dt, hdt⟩ : ∃ dt, dt = darcyDt dim S G (g.2.2 0) := ⟨_, rfl⟩
  have cellEq : ∀ C < G.nbcells, (V' 0).cell C = (t.V 0).cell C + dt * (balance (convArgs G F S.order) dim C / G.volume C + Run.dissip G S.coeffs E C / G.volume C) := by
    intro C hC
    rw [hnew, ← hF, ← hdt]
    unfold updateNewValue
    rw [conv_balance R.cG _ _ h.run.hd]
    ring
  have hdis : ∑ C ∈ Finset.range G.nbcells, Run.dissip G S.coeffs E C = 0 := by
    unfold Run.dissip
    rw [C04_dissipative_conservative]
    · apply List.sum_eq_zero
      intro x hx
      obtain ⟨f, hf, rfl⟩ := List.mem_map.mp hx
      rw [List.mem_filter, List.mem_range] at hf
      have hfb : f ∈ G.boundaryfaces := by
        rw [R.cG.bnd.2]
        exact ⟨hf.1, (h.nameG_cases hf.1).resolve_left (by simpa using hf.2)⟩
      cases hdf : S.diff
      · rw [hE, hdf]; simp [diffFlux]
      · obtain ⟨hN, hND⟩ := hd hdf
        have := insul_flux R.cG h.run.hd h.hBe hw hgn S.coeffs hND w.fields (nodeValues dim 1 serial G (hgG 0) w.fields) hfb ?_
        · rw [hE, hdf]; exact this
        · obtain ⟨g0, e0⟩ := vw.ghost
          rw [e0, updateGhosts_apply _ _ _ _ _ hf.1 (h.run.hB _ ((R.cG.bnd.2 f).mp hfb).2), hN]
          rfl
    · intro f hf
      obtain ⟨C, hC, j, hj, rfl⟩ := R.cG.fsurj f hf
      rcases R.gkinds hC hj with ⟨_, _, _, e⟩ | ⟨E, hE, _, _, _, _, ⟨e, _⟩ | ⟨e, _⟩⟩ <;> rw [e] <;> exact ⟨by omega, by exact_mod_cast (by assumption)⟩
    · intro f hf hn
      obtain ⟨C, hC, j, hj, rfl⟩ := R.cG.fsurj f hf
      rcases R.gkinds hC hj with ⟨hB, _, _, e⟩ | ⟨E, hE, _, _, _, _, ⟨_, e⟩ | ⟨_, e⟩⟩
      · rw [hn] at hB; exact absurd hB R.cG.B0
      · rw [e]; exact ⟨by omega, by exact_mod_cast hE⟩
      · rw [e]; exact ⟨by omega, by exact_mod_cast hC⟩
  have tot : ∀ s : DState K, darcyTotal (serW dim serial G hgG) s = ∑ C ∈ Finset.range G.nbcells, G.volume C * (s.V 0).cell C := by
    intro s; unfold darcyTotal; simp [serW]
  rw [tot, tot]
  have hb := sum_balance (convArgs G F S.order) dim G.nbcells (R.facesOK _ _ _)
  rw [show (convArgs G F S.order).periodicboundaryfaces = [] from R.cG.per, show (convArgs G F S.order).halofaces = [] from R.halo_nil,
    show (convArgs G F S.order).boundaryfaces = G.boundaryfaces from rfl] at hb
  simp only [List.map_nil, List.sum_nil, zero_add] at hb
  have hout : darcyOutflow (serW dim serial G hgG) S t { sys := b, P := g.1, vel := g.2.2, V := V', node := nd, time := t.time + darcyDt dim S G (g.2.2 0) } =
      (G.boundaryfaces.map (boundaryFlux (convArgs G F S.order) dim)).sum := by
    unfold darcyOutflow
    show ∑ p ∈ Finset.range 1, _ = _
    rw [Finset.sum_range_one]
    show (G.boundaryfaces.map _).sum = _
    congr 1
    apply List.map_congr_left
    intro f hf
    have hfb := (R.cG.bnd.2 f).mp hf
    unfold boundaryFlux cellAtFace
    rw [show (convArgs G F S.order).order = 1 from ho, extrap_one]
    have ev : vn (convArgs G F S.order) f = through G (g.2.2 0) f := by rw [hF]; rfl
    have eg : (convArgs G F S.order).w_ghost f = darcyOutside G S.bc (t.V 0).cell f := by
      rw [hF]
      show u.fields.ghost f = _
      obtain ⟨g0, e0⟩ := vu.ghost
      rw [e0, updateGhosts_apply _ _ _ _ _ hfb.1 (h.run.hB _ hfb.2)]
      have ec : u.fields.c = (t.V 0).cell := cu
      rw [ec]
      unfold darcyOutside
      cases S.bc (G.name f) <;> simp [ghostVal, idx]
    have ec : (convArgs G F S.order).w_c (left (convArgs G F S.order) f) = (t.V 0).cell (G.cellid f 0).toNat := by rw [hF]; rfl
    rw [ev, eg, ec]
    show (if 0 ≤ through G (g.2.2 0) f then (t.V 0).cell (G.cellid f 0).toNat else darcyOutside G S.bc (t.V 0).cell f) * through G (g.2.2 0) f = _
    unfold upwind
    by_cases hv : 0 ≤ through G (g.2.2 0) f
    · rw [if_pos hv, max_eq_left hv, min_eq_right hv]; ring
    · rw [if_neg hv, max_eq_right (le_of_not_ge hv), min_eq_left (le_of_not_ge hv)]; ring
  rw [hout]
  dsimp only
  have e2 : ∀ C ∈ Finset.range G.nbcells, G.volume C * (V' 0).cell C = G.volume C * (t.V 0).cell C +
      dt * (balance (convArgs G F S.order) dim C + Run.dissip G S.coeffs E C) := by
    intro C hC
    have hC := Finset.mem_range.mp hC
    rw [cellEq C hC]
    have hv := (hs.vpos C hC).ne'
    field_simp
  rw [Finset.sum_congr rfl e2, Finset.sum_add_distrib, ← Finset.mul_sum, Finset.sum_add_distrib, hb, hdis, ← hdt]
  ring

theorem darcyStep_mass_par (h : NodePair dim nodeid node cv npart0 epart nbnodes n SIZE data serial L G B out trunc) (hs : Solid G dim out)
    (hw : dim = 3 → WedgeOk G ∧ ∀ p < SIZE, WedgeOk (L p)) (hgn : GhostNormal dim G) {hgL hgG : Nat → HGResult K}
    (sL : ∀ p < SIZE, ∃ rows, HGSpec dim SIZE data L p (hgL p) rows) (sG : HGSerial dim G nbnodes (hgG 0))
    (S : DSetup K) (ho : S.order = 1) (hd : S.diff = true → (∀ loc, S.bc loc = .neumann) ∧ NormalDiffusion G S.coeffs) (so : StencilOk dim nodeid epart n G S.bc) (hbc : FieldCornersOk dim nodeid epart n G S.bcP)
    {direct : (Nat → Nat → K) → (Nat → K) → Nat → K} (hdir : ReadsRows n direct) {svL svG : LinSolve.Solver} {s t : DState K}
    (hm : DMatch dim SIZE data L G (parW dim SIZE data L hgL) (serW dim serial G hgG) S svL svG direct s t) :
    ∃ s', darcyStep (parW dim SIZE data L hgL) S svL direct s = some s' ∧
      darcyTotal (parW dim SIZE data L hgL) s' = darcyTotal (parW dim SIZE data L hgL) s -
        (s'.time - s.time) * darcyOutflow (parW dim SIZE data L hgL) S s s' := by
  obtain ⟨s', t', e1, e2, m⟩ := darcyStep_match h hw sL sG S so hbc direct hdir svL svG s t hm
  refine ⟨s', e1, ?_⟩
  have ms := darcyStep_mass_serial h hs (fun d => (hw d).1) hgn S ho hd e2
  have tot : ∀ s t : DState K, VMatch SIZE data L s.V t.V → darcyTotal (parW dim SIZE data L hgL) s = darcyTotal (serW dim serial G hgG) t := by
    intro s t hv
    have e3 : darcyTotal (serW dim serial G hgG) t = ∑ C ∈ Finset.range n, G.volume C * (t.V 0).cell C := by
      unfold darcyTotal; simp [serW, h.run.nG]
    rw [e3, ← h.run.sum_cells]
    unfold darcyTotal
    refine Finset.sum_congr rfl fun p hp => Finset.sum_congr rfl fun c hc => ?_
    have hp := Finset.mem_range.mp hp
    have hc : c < (L p).nbcells := Finset.mem_range.mp hc
    show (L p).volume c * _ = _
    rw [hv p hp c hc, h.run.volume p hp c hc]
  have hout : darcyOutflow (parW dim SIZE data L hgL) S s s' = darcyOutflow (serW dim serial G hgG) S t t' := by
    have e3 : darcyOutflow (serW dim serial G hgG) S t t' = (G.boundaryfaces.map (fun f => (if 0 ≤ through G (t'.vel 0) f then
        (t.V 0).cell (G.cellid f 0).toNat else darcyOutside G S.bc (t.V 0).cell f) * through G (t'.vel 0) f)).sum := by
      unfold darcyOutflow
      show ∑ p ∈ Finset.range 1, _ = _
      rw [Finset.sum_range_one]
    rw [e3]
    refine h.run.sum_boundary (fun p f => (if 0 ≤ through (L p) (s'.vel p) f then (s.V p).cell ((L p).cellid f 0).toNat else
      darcyOutside (L p) S.bc (s.V p).cell f) * through (L p) (s'.vel p) f) _ ?_
    intro p hp c hc j hj b1 b2 b3 b4
    have R := h.run.rank p hp
    have ht : through (L p) (s'.vel p) ((L p).faceid c j) = through G (t'.vel 0) (G.faceid (phi (data p) c) j) := by
      unfold through
      rw [m.vel p hp c hc j hj 0 (by omega), m.vel p hp c hc j hj 1 (by omega), m.vel p hp c hc j hj 2 (by omega)]
      have hn : ∀ k < 3, (L p).normal ((L p).faceid c j) k = G.normal (G.faceid (phi (data p) c) j) k := fun k hk => by
        rw [R.normalL c hc j hj b2 k hk, R.normalG _ (R.sub.lt c hc).1 j hj b3 k hk]
      rw [hn 0 (by omega), hn 1 (by omega), hn 2 (by omega)]
    have ec : (s.V p).cell ((L p).cellid ((L p).faceid c j) 0).toNat = (t.V 0).cell (G.cellid (G.faceid (phi (data p) c) j) 0).toNat := by
      rw [b2, b3]
      simpa using hm.cell p hp c hc
    have eo : darcyOutside (L p) S.bc (s.V p).cell ((L p).faceid c j) = darcyOutside G S.bc (t.V 0).cell (G.faceid (phi (data p) c) j) := by
      unfold darcyOutside
      rw [← (R.boundary hc hj b1).1, ec, R.fcenter c hc j hj 0 (by omega), R.fcenter c hc j hj 1 (by omega), R.fcenter c hc j hj 2 (by omega)]
    rw [ht, ec, eo]
  rw [tot s' t' m.cell, tot s t hm.cell, ms, hout, m.time, hm.time]
/-! ### a solvable system -/

theorem gradD_const (hd : dim = 2 ∨ dim = 3) (D : Tables K) (nd : Nat → K) (f : Nat) (l r : Vec K × K) (q : K) (hl : l.2 = q) (hr : r.2 = q)
    (hn : ∀ j < dim, nd ((D.fnode f).getD j 0) = q) {k : Nat} (hk : k < 3) : gradD dim D nd f l r k = 0 := by
  rcases hd with rfl | rfl
  · unfold gradD
    rw [if_pos rfl]
    have n0 : (cut 2 (nodePt D nd f 0)).2 = q := hn 0 (by omega)
    have n1 : (cut 2 (nodePt D nd f 1)).2 = q := hn 1 (by omega)
    unfold gradPts2
    match k with
    | 0 => simp only [hl, hr, n0, n1]; simp
    | 1 => simp only [hl, hr, n0, n1]; simp
    | k + 2 => rfl
  · unfold gradD
    rw [if_neg (by decide)]
    have n0 : (cut 3 (nodePt D nd f 0)).2 = q := hn 0 (by omega)
    have n1 : (cut 3 (nodePt D nd f 1)).2 = q := hn 1 (by omega)
    have n2 : (cut 3 (nodePt D nd f 2)).2 = q := hn 2 (by omega)
    unfold gradPts3
    simp only [hl, hr, n0, n1, n2, sub_self, mul_zero, add_zero]
    interval_cases k <;> simp [wedge]

/-- With one value on every Dirichlet side the constant potential solves the system. -/
theorem const_solves (h : NodePair dim nodeid node cv npart0 epart nbnodes n SIZE data serial L G B out trunc)
    (hw : dim = 3 → WedgeOk G ∧ ∀ p < SIZE, WedgeOk (L p)) (hgn : GhostNormal dim G) {bc : Int → BCond K} (hcm : CornersMatch dim G bc)
    (hdn : DirichletOrNeumann bc) {hgG : Nat → HGResult K} (sG : HGSerial dim G nbnodes (hgG 0)) (q : K)
    (hb : ∀ loc, BcIn q q (bc loc)) (hsur : ∀ s < nbnodes, Surrounded dim nodeid n G s) :
    ∀ i < n, ∑ j ∈ Finset.range n, matrixOf (serW dim serial G hgG) bc i j * q = boundaryOf (serW dim serial G hgG) bc i := by
  intro i hi
  have h0 : 0 < SIZE := by have := h.run.hS; omega
  have R := h.run.rank 0 h0
  have hc : i < G.nbcells := by rw [h.run.nG]; exact hi
  have oG := h.linOkG hw sG
  have eG : (linMesh dim 1 serial G (hgG 0)).loctoglob i = i := by simp [linMesh]
  have r1 := oG.row bc (fun _ => q) hc
  rw [eG, oG.balance_dissip bc _ hc, apply_matrix h hw hgn hcm hdn sG (fun _ => q) hc] at r1
  simp only [matrixOf_serial, boundaryOf_serial]
  rw [← sub_eq_zero, r1]
  have vG := (h.linVals (fun _ => q) h0 (hgG 0) (hgG 0)).2
  obtain ⟨w, hwd⟩ : ∃ w, w = linW dim 1 serial G (hgG 0) (fun _ => q) := ⟨_, rfl⟩
  rw [← hwd] at vG ⊢
  have hcw : ∀ C, w.c C = q := fun C => by rw [hwd]; simp [linW]
  have hbn : ∀ loc : Int, BcIn q q ((fun _ => .neumann : Int → BCond K) loc) := fun _ => trivial
  have dirN : ∀ s < G.nbnodes, G.oldname s ∈ bcDirichlet dim bc → pbordNode dim G bc s = q := by
    intro s hs hm
    obtain ⟨m1, m2⟩ := List.mem_filter.mp hm
    rw [pbordNode_apply _ _ _ hs, if_pos m1]
    have hbb := hb (G.oldname s)
    cases hv : bc (G.oldname s) with
    | dirichlet v => rw [hv] at hbb; exact le_antisymm (hbb _ _ _).2 (hbb _ _ _).1
    | neumann => rw [hv] at m2; cases m2
    | nonslip => rw [hv] at m2; cases m2
  have hz : ∀ f < G.nbfaces, ∀ k < 3, linGrad dim 1 serial G (hgG 0) bc w f k = 0 := by
    intro f hf k hk
    unfold linGrad
    split_ifs with a1 a2
    · refine gradD_const h.run.hd _ _ _ _ _ q (hcw _) ?_ ?_ hk
      · show otherVal G w f = q
        unfold otherVal
        rcases a1 with a1 | a1
        · rw [if_pos a1]; exact hcw _
        · rcases h.nameG_cases hf with e | e
          · rw [a1] at e; cases e
          · rw [a1] at e; exact absurd e R.cG.B10
      · intro j hj
        have hm := (oG.fnode_lt hf hj).2
        unfold vertD
        split_ifs with hd
        · exact dirN _ hm hd
        · exact node_const h sG vG q (fun C _ => hcw C) hbn (by rw [← h.nbG]; exact hm) (hsur _ (by rw [← h.nbG]; exact hm))
    · have e : G.name f ∈ B := (h.nameG_cases hf).resolve_left (fun x => a1 (Or.inl x))
      have hfb := (R.cG.bnd.2 f).mpr ⟨hf, e⟩
      refine gradD_const h.run.hd _ _ _ _ _ q (hcw _) ?_ ?_ hk
      · show 2 * pbordFace dim G bc f - w.c _ = q
        have hbb := hb (G.name f)
        cases hv : bc (G.name f) with
        | dirichlet v =>
          rw [hv] at hbb
          rw [pbordFace_apply dim G bc hf (h.run.hB _ e) hv, hcw, le_antisymm (hbb _ _ _).2 (hbb _ _ _).1]; ring
        | neumann => rw [hv] at a2; cases a2
        | nonslip => rw [hv] at a2; cases a2
      · intro j hj
        obtain ⟨hm1, hm⟩ := oG.fnode_lt hf hj
        refine dirN _ hm ?_
        rcases hcm f hfb _ hm1 with ⟨x1, x2⟩ | x
        · exact List.mem_filter.mpr ⟨x1, x2⟩
        · rw [x] at a2; cases a2
    · rfl
  have : Run.dissip G unitD (linGrad dim 1 serial G (hgG 0) bc w) i = 0 := by
    rw [R.cG.dissip unitD _ hc]
    apply Finset.sum_eq_zero
    intro j hj
    have hf := R.cG.flt i hc j (Finset.mem_range.mp hj)
    unfold diffTerm diffFlux
    simp only [hz _ hf 0 (by omega), hz _ hf 1 (by omega), hz _ hf 2 (by omega)]
    simp
  rw [this, zero_div]

theorem solvable_const (h : NodePair dim nodeid node cv npart0 epart nbnodes n SIZE data serial L G B out trunc)
    (hw : dim = 3 → WedgeOk G ∧ ∀ p < SIZE, WedgeOk (L p)) (hgn : GhostNormal dim G) {bc : Int → BCond K} (hcm : CornersMatch dim G bc)
    (hdn : DirichletOrNeumann bc) {hgG : Nat → HGResult K} (sG : HGSerial dim G nbnodes (hgG 0)) (q : K)
    (hb : ∀ loc, BcIn q q (bc loc)) (hsur : ∀ s < nbnodes, Surrounded dim nodeid n G s) :
    Solvable n (matrixOf (serW dim serial G hgG) bc) (boundaryOf (serW dim serial G hgG) bc) :=
  ⟨fun _ => q, const_solves h hw hgn hcm hdn sG q hb hsur⟩

/-- One iteration after another on one process. -/
theorem darcy_mass_serial (h : NodePair dim nodeid node cv npart0 epart nbnodes n SIZE data serial L G B out trunc) (hs : Solid G dim out)
    (hw : dim = 3 → WedgeOk G) (hgn : GhostNormal dim G) {hgG : Nat → HGResult K} (sG : HGSerial dim G nbnodes (hgG 0))
    (S : DSetup K) (ho : S.order = 1) (hd : S.diff = true → (∀ loc, S.bc loc = .neumann) ∧ NormalDiffusion G S.coeffs)
    {direct : (Nat → Nat → K) → (Nat → K) → Nat → K} (sv : LinSolve.Solver) (f g : K → K → K → K) (N : Nat) :
    ∃ s0 s, darcyStart (serW dim serial G hgG) S sv direct f g = some s0 ∧ darcyLoop (serW dim serial G hgG) S sv direct s0 N = some s ∧
      ∃ s', darcyStep (serW dim serial G hgG) S sv direct s = some s' ∧
        darcyTotal (serW dim serial G hgG) s' = darcyTotal (serW dim serial G hgG) s -
          (s'.time - s.time) * darcyOutflow (serW dim serial G hgG) S s s' := by
  have prog : ∀ t : DState K, SysOk (linEnv (serW dim serial G hgG) S.bcP sv direct) (linBnd (serW dim serial G hgG) S.bcP sv) t.sys →
      ∃ t', darcyStep (serW dim serial G hgG) S sv direct t = some t' ∧
        SysOk (linEnv (serW dim serial G hgG) S.bcP sv direct) (linBnd (serW dim serial G hgG) S.bcP sv) t'.sys := by
    intro t ht
    obtain ⟨b, eb, ob, wb⟩ := ht.solve (by show 0 < 1; omega) (h.lin_numbering_serial S.bcP hgG sv direct).1
    obtain ⟨U', e1, e2, e3⟩ := serial_update (dim := dim) serial G hgG S.bcP (fun p => { t.P p with cell := b.cells p })
    obtain ⟨V', nd, gr, u, w, E, e4, _⟩ := darcyMove_serial (dim := dim) serial G hgG S
      (fun p => solGrads dim G S.bcP (U' p).fields (nodeValues dim 1 serial G (hgG p) (U' p).fields)) t.V
    obtain ⟨vel, hvel⟩ : ∃ vel : Nat → Nat → Vec K, vel = fun p => solGrads dim G S.bcP (U' p).fields (nodeValues dim 1 serial G (hgG p) (U' p).fields) := ⟨_, rfl⟩
    rw [← hvel] at e4
    refine ⟨{ sys := b, P := U', vel := vel, V := V', node := nd, time := t.time + darcyDt dim S G (vel 0) }, ?_, ob⟩
    unfold darcyStep
    rw [eb]
    simp only [Except.toOption, Option.bind_some]
    rw [show solGradient (serW dim serial G hgG) S.bcP (fun p => { t.P p with cell := b.cells p }) =
      some (U', fun p => nodeValues dim 1 serial G (hgG p) (U' p).fields,
        fun p => solGrads dim G S.bcP (U' p).fields (nodeValues dim 1 serial G (hgG p) (U' p).fields)) from by
      unfold solGradient celltonode; rw [e1]; rfl]
    simp only [Option.bind_some]
    rw [← hvel, e4, hvel]; rfl
  obtain ⟨s0, e0, o0, _⟩ := darcyStart_serial (dim := dim) serial G hgG S direct sv f g
  obtain ⟨s, e, o⟩ := darcyLoop_inv (serW dim serial G hgG) S sv direct _ prog s0 o0 N
  obtain ⟨s', e', _⟩ := prog s o
  exact ⟨s0, s, e0, e, s', e', darcyStep_mass_serial h hs hw hgn S ho hd e'⟩

theorem darcy_mass_par (h : NodePair dim nodeid node cv npart0 epart nbnodes n SIZE data serial L G B out trunc) (hs : Solid G dim out)
    (hw : dim = 3 → WedgeOk G ∧ ∀ p < SIZE, WedgeOk (L p)) (hgn : GhostNormal dim G) {hgL hgG : Nat → HGResult K}
    (sL : ∀ p < SIZE, ∃ rows, HGSpec dim SIZE data L p (hgL p) rows) (sG : HGSerial dim G nbnodes (hgG 0))
    (S : DSetup K) (ho : S.order = 1) (hd : S.diff = true → (∀ loc, S.bc loc = .neumann) ∧ NormalDiffusion G S.coeffs) (so : StencilOk dim nodeid epart n G S.bc) (hbc : FieldCornersOk dim nodeid epart n G S.bcP)
    {direct : (Nat → Nat → K) → (Nat → K) → Nat → K} (hdir : ReadsRows n direct) (sv : LinSolve.Solver) (hip : InPlace sv) (f g : K → K → K → K) (N : Nat) :
    ∃ s0 s, darcyStart (parW dim SIZE data L hgL) S sv direct f g = some s0 ∧ darcyLoop (parW dim SIZE data L hgL) S sv direct s0 N = some s ∧
      ∃ s', darcyStep (parW dim SIZE data L hgL) S sv direct s = some s' ∧
        darcyTotal (parW dim SIZE data L hgL) s' = darcyTotal (parW dim SIZE data L hgL) s -
          (s'.time - s.time) * darcyOutflow (parW dim SIZE data L hgL) S s s' := by
  obtain ⟨s0, t0, e1, e2, m0⟩ := darcyStart_match h hgL hgG S direct sv sv hip f g
  obtain ⟨s, t, f1, f2, m⟩ := darcyLoop_match h hw sL sG S so hbc direct hdir sv sv s0 t0 m0 N
  exact ⟨s0, s, e1, f1, darcyStep_mass_par h hs hw hgn sL sG S ho hd so hbc hdir m⟩

/-- **C111** (2D, one process): with the pressure computed by a solver that solves the systems, a uniform concentration `q` (also on the
Dirichlet sides of the concentration) is the same after any number of iterations, first or second order, with or without diffusion. -/
theorem C111_darcy_constant_serial_2d_partial (vm : ValidMesh2 nodeid node nbnodes n)
    (hr : readMeshFile 1 0 (writeSerial (serialWrite nodeid node nbnodes n 3)) [] = some serial)
    (sqrt : K → K) (hs : ∀ x, 0 < x → sqrt x ≠ 0) (trunc : K → Int) (htr : ∀ m : Nat, trunc (m : K) = m) :
    ∃ W, mkWorld 2 1 (fun _ => serial) (fun _ => build2 sqrt trunc 1 serial) = some W ∧
      ∀ (S : DSetup K), (S.diff = true → ∀ s < nbnodes, Spread2 nodeid node n s) →
        DirichletOrNeumann S.bcP → CornersMatch 2 (build2 sqrt trunc 1 serial) S.bcP →
        ∀ direct, ReadsRows n direct → SolvesSystems n direct → Solvable n (matrixOf W S.bcP) (boundaryOf W S.bcP) → ∀ sv, InPlace sv →
        ∀ q : K, (∀ loc, BcIn q q (S.bc loc)) → ∀ (g : K → K → K → K) (N : Nat),
        ∃ s0 s, darcyStart W S sv direct (fun _ _ _ => q) g = some s0 ∧ darcyLoop W S sv direct s0 N = some s ∧ ∀ c < n, (s.V 0).cell c = q := by
  obtain ⟨data, h⟩ := launched_of_serial (centvol2 node nodeid) (by omega) vm.nodes vm.used hr
  have np := h.nodePair2 vm sqrt trunc htr
  obtain ⟨hgL, hgG, w1, w2, sL, sG⟩ := np.worlds
  refine ⟨_, w2, fun S hsp hdn hcm direct h1 h2 hsv sv _ q hb g N => ?_⟩
  obtain ⟨s0, s, a, b, e⟩ := darcy_const_serial np (h.solid2 vm sqrt hs trunc htr) (by omega)
    (ghostNormal_build2 h vm sqrt hs trunc htr) sG S hcm hdn h1 h2 sv hsv q hb (fun hd s hn => surrounded2 h vm sqrt trunc htr (hsp hd s hn)) g N
  exact ⟨s0, s, a, b, fun c hc => e c (by rw [np.run.nG]; exact hc)⟩

/-- **C111** (2D, any number of processes, any partition). -/
theorem C111_darcy_constant_2d_partial (h : Launched 3 nodeid node (centvol2 node nodeid) npart0 epart nbnodes n SIZE data serial)
    (vm : ValidMesh2 nodeid node nbnodes n) (sqrt : K → K) (hs : ∀ x, 0 < x → sqrt x ≠ 0) (trunc : K → Int) (htr : ∀ m : Nat, trunc (m : K) = m)
    (star : StarConnected 2 nodeid n) :
    ∃ W, mkWorld 2 SIZE data (fun p => build2 sqrt trunc SIZE (data p)) = some W ∧
      ∀ (S : DSetup K), (S.diff = true → ∀ s < nbnodes, Spread2 nodeid node n s) → CornersOk 2 nodeid epart n (build2 sqrt trunc 1 serial) S.bc →
        DirichletOrNeumann S.bcP → CornersMatch 2 (build2 sqrt trunc 1 serial) S.bcP →
        ∀ direct, ReadsRows n direct → SolvesSystems n direct → Solvable n (matrixOf W S.bcP) (boundaryOf W S.bcP) → ∀ sv, InPlace sv →
        ∀ q : K, (∀ loc, BcIn q q (S.bc loc)) → ∀ (g : K → K → K → K) (N : Nat),
        ∃ s0 s, darcyStart W S sv direct (fun _ _ _ => q) g = some s0 ∧ darcyLoop W S sv direct s0 N = some s ∧
          ∀ p < SIZE, ∀ c < (W.D p).nbcells, (s.V p).cell c = q := by
  have np := h.nodePair2 vm sqrt trunc htr
  obtain ⟨hgL, hgG, w1, w2, sL, sG⟩ := np.worlds
  exact ⟨_, w1, fun S hsp hbc hdn hcm direct h1 h2 hsv sv hip q hb g N => darcy_const_par np (h.solid2 vm sqrt hs trunc htr) (by omega)
    (ghostNormal_build2 h vm sqrt hs trunc htr) sL sG S ⟨star, hbc⟩ hcm hdn h1 h2 sv hip hsv q hb (fun hd s hn => surrounded2 h vm sqrt trunc htr (hsp hd s hn)) g N⟩

/-- C111: the system of the pressure has a solution when all Dirichlet sides carry one value. -/
theorem C111_solvable_2d (h : Launched 3 nodeid node (centvol2 node nodeid) npart0 epart nbnodes n SIZE data serial)
    (vm : ValidMesh2 nodeid node nbnodes n) (sqrt : K → K) (hs : ∀ x, 0 < x → sqrt x ≠ 0) (trunc : K → Int) (htr : ∀ m : Nat, trunc (m : K) = m)
    (star : StarConnected 2 nodeid n) (hsp : ∀ s < nbnodes, Spread2 nodeid node n s) (bc : Int → BCond K) (hdn : DirichletOrNeumann bc)
    (hcm : CornersMatch 2 (build2 sqrt trunc 1 serial) bc) (q : K) (hb : ∀ loc, BcIn q q (bc loc)) :
    ∀ W, (mkWorld 2 SIZE data (fun p => build2 sqrt trunc SIZE (data p)) = some W ∨
        mkWorld 2 1 (fun _ => serial) (fun _ => build2 sqrt trunc 1 serial) = some W) →
      Solvable n (matrixOf W bc) (boundaryOf W bc) := by
  have np := h.nodePair2 vm sqrt trunc htr
  obtain ⟨hgL, hgG, w1, w2, sL, sG⟩ := np.worlds
  have key := solvable_const np (by omega) (ghostNormal_build2 h vm sqrt hs trunc htr) hcm hdn sG q hb (fun s hn => surrounded2 h vm sqrt trunc htr (hsp s hn))
  rintro W (e | e)
  · rw [w1] at e
    obtain rfl := Option.some.inj e
    exact (solvable_par np (by omega) star bc sL sG).mpr key
  · rw [w2] at e
    obtain rfl := Option.some.inj e
    exact key

/-- **C112** (2D, one process): at first order, without face gradients or with Neumann conditions for the concentration and a diffusion
tensor that maps normals of the sides to normals, after any number of iterations the next one changes the integral of the concentration by
`dt` times what the flow carries in through the boundary. -/
theorem C112_darcy_mass_serial_2d_partial (vm : ValidMesh2 nodeid node nbnodes n)
    (hr : readMeshFile 1 0 (writeSerial (serialWrite nodeid node nbnodes n 3)) [] = some serial)
    (sqrt : K → K) (hs : ∀ x, 0 < x → sqrt x ≠ 0) (trunc : K → Int) (htr : ∀ m : Nat, trunc (m : K) = m) :
    ∃ W, mkWorld 2 1 (fun _ => serial) (fun _ => build2 sqrt trunc 1 serial) = some W ∧
      ∀ (S : DSetup K), S.order = 1 → (S.diff = true → (∀ loc, S.bc loc = .neumann) ∧ NormalDiffusion (build2 sqrt trunc 1 serial) S.coeffs) → ∀ (direct : (Nat → Nat → K) → (Nat → K) → Nat → K) (sv : LinSolve.Solver), InPlace sv → ∀ (f g : K → K → K → K) (N : Nat),
        ∃ s0 s, darcyStart W S sv direct f g = some s0 ∧ darcyLoop W S sv direct s0 N = some s ∧
          ∃ s', darcyStep W S sv direct s = some s' ∧ darcyTotal W s' = darcyTotal W s - (s'.time - s.time) * darcyOutflow W S s s' := by
  obtain ⟨data, h⟩ := launched_of_serial (centvol2 node nodeid) (by omega) vm.nodes vm.used hr
  have np := h.nodePair2 vm sqrt trunc htr
  obtain ⟨hgL, hgG, w1, w2, sL, sG⟩ := np.worlds
  exact ⟨_, w2, fun S ho hd direct sv _ f g N => darcy_mass_serial np (h.solid2 vm sqrt hs trunc htr) (by omega) (ghostNormal_build2 h vm sqrt hs trunc htr) sG S ho hd sv f g N⟩

/-- **C112** (2D, any number of processes, any partition). -/
theorem C112_darcy_mass_2d_partial (h : Launched 3 nodeid node (centvol2 node nodeid) npart0 epart nbnodes n SIZE data serial)
    (vm : ValidMesh2 nodeid node nbnodes n) (sqrt : K → K) (hs : ∀ x, 0 < x → sqrt x ≠ 0) (trunc : K → Int) (htr : ∀ m : Nat, trunc (m : K) = m)
    (star : StarConnected 2 nodeid n) :
    ∃ W, mkWorld 2 SIZE data (fun p => build2 sqrt trunc SIZE (data p)) = some W ∧
      ∀ (S : DSetup K), S.order = 1 → (S.diff = true → (∀ loc, S.bc loc = .neumann) ∧ NormalDiffusion (build2 sqrt trunc 1 serial) S.coeffs) → CornersOk 2 nodeid epart n (build2 sqrt trunc 1 serial) S.bc →
        FieldCornersOk 2 nodeid epart n (build2 sqrt trunc 1 serial) S.bcP →
        ∀ direct, ReadsRows n direct → ∀ (sv : LinSolve.Solver), InPlace sv → ∀ (f g : K → K → K → K) (N : Nat),
        ∃ s0 s, darcyStart W S sv direct f g = some s0 ∧ darcyLoop W S sv direct s0 N = some s ∧
          ∃ s', darcyStep W S sv direct s = some s' ∧ darcyTotal W s' = darcyTotal W s - (s'.time - s.time) * darcyOutflow W S s s' := by
  have np := h.nodePair2 vm sqrt trunc htr
  obtain ⟨hgL, hgG, w1, w2, sL, sG⟩ := np.worlds
  exact ⟨_, w1, fun S ho hd hbc hbP direct h1 sv hip f g N => darcy_mass_par np (h.solid2 vm sqrt hs trunc htr) (by omega) (ghostNormal_build2 h vm sqrt hs trunc htr) sL sG S ho hd ⟨star, hbc⟩ hbP
    h1 sv hip f g N⟩

/-- **C111** (3D, one process): with the pressure computed by a solver that solves the systems, a uniform concentration `q` (also on the
Dirichlet sides of the concentration) is the same after any number of iterations, first or second order, with or without diffusion. -/
theorem C111_darcy_constant_serial_3d_partial (vm : ValidMesh3 nodeid node nbnodes n)
    (hr : readMeshFile 1 0 (writeSerial (serialWrite nodeid node nbnodes n 4)) [] = some serial)
    (sqrt : K → K) (hs : ∀ x, 0 < x → sqrt x ≠ 0) (trunc : K → Int) (htr : ∀ m : Nat, trunc (m : K) = m) :
    ∃ W, mkWorld 3 1 (fun _ => serial) (fun _ => build3 sqrt trunc 1 serial) = some W ∧
      ∀ (S : DSetup K), (S.diff = true → ∀ s < nbnodes, Spread3 nodeid node n s) →
        DirichletOrNeumann S.bcP → CornersMatch 3 (build3 sqrt trunc 1 serial) S.bcP →
        ∀ direct, ReadsRows n direct → SolvesSystems n direct → Solvable n (matrixOf W S.bcP) (boundaryOf W S.bcP) → ∀ sv, InPlace sv →
        ∀ q : K, (∀ loc, BcIn q q (S.bc loc)) → ∀ (g : K → K → K → K) (N : Nat),
        ∃ s0 s, darcyStart W S sv direct (fun _ _ _ => q) g = some s0 ∧ darcyLoop W S sv direct s0 N = some s ∧ ∀ c < n, (s.V 0).cell c = q := by
  obtain ⟨data, h⟩ := launched_of_serial (centvol3 node nodeid) (by omega) vm.nodes vm.used hr
  have np := h.nodePair3 vm sqrt trunc htr
  obtain ⟨hgL, hgG, w1, w2, sL, sG⟩ := np.worlds
  refine ⟨_, w2, fun S hsp hdn hcm direct h1 h2 hsv sv _ q hb g N => ?_⟩
  obtain ⟨s0, s, a, b, e⟩ := darcy_const_serial np (h.solid3 vm sqrt hs trunc htr) (fun _ => ⟨wedge_build3 sqrt trunc 1 serial, fun p _ => wedge_build3 sqrt trunc 2 (data p)⟩)
    (ghostNormal3 _) sG S hcm hdn h1 h2 sv hsv q hb (fun hd s hn => surrounded3 h vm sqrt hs trunc htr (hsp hd s hn)) g N
  exact ⟨s0, s, a, b, fun c hc => e c (by rw [np.run.nG]; exact hc)⟩

/-- **C111** (3D, any number of processes, any partition). -/
theorem C111_darcy_constant_3d_partial (h : Launched 4 nodeid node (centvol3 node nodeid) npart0 epart nbnodes n SIZE data serial)
    (vm : ValidMesh3 nodeid node nbnodes n) (sqrt : K → K) (hs : ∀ x, 0 < x → sqrt x ≠ 0) (trunc : K → Int) (htr : ∀ m : Nat, trunc (m : K) = m)
    (star : StarConnected 3 nodeid n) :
    ∃ W, mkWorld 3 SIZE data (fun p => build3 sqrt trunc SIZE (data p)) = some W ∧
      ∀ (S : DSetup K), (S.diff = true → ∀ s < nbnodes, Spread3 nodeid node n s) → CornersOk 3 nodeid epart n (build3 sqrt trunc 1 serial) S.bc →
        DirichletOrNeumann S.bcP → CornersMatch 3 (build3 sqrt trunc 1 serial) S.bcP →
        ∀ direct, ReadsRows n direct → SolvesSystems n direct → Solvable n (matrixOf W S.bcP) (boundaryOf W S.bcP) → ∀ sv, InPlace sv →
        ∀ q : K, (∀ loc, BcIn q q (S.bc loc)) → ∀ (g : K → K → K → K) (N : Nat),
        ∃ s0 s, darcyStart W S sv direct (fun _ _ _ => q) g = some s0 ∧ darcyLoop W S sv direct s0 N = some s ∧
          ∀ p < SIZE, ∀ c < (W.D p).nbcells, (s.V p).cell c = q := by
  have np := h.nodePair3 vm sqrt trunc htr
  obtain ⟨hgL, hgG, w1, w2, sL, sG⟩ := np.worlds
  exact ⟨_, w1, fun S hsp hbc hdn hcm direct h1 h2 hsv sv hip q hb g N => darcy_const_par np (h.solid3 vm sqrt hs trunc htr) (fun _ => ⟨wedge_build3 sqrt trunc 1 serial, fun p _ => wedge_build3 sqrt trunc SIZE (data p)⟩)
    (ghostNormal3 _) sL sG S ⟨star, hbc⟩ hcm hdn h1 h2 sv hip hsv q hb (fun hd s hn => surrounded3 h vm sqrt hs trunc htr (hsp hd s hn)) g N⟩

/-- C111: the system of the pressure has a solution when all Dirichlet sides carry one value. -/
theorem C111_solvable_3d (h : Launched 4 nodeid node (centvol3 node nodeid) npart0 epart nbnodes n SIZE data serial)
    (vm : ValidMesh3 nodeid node nbnodes n) (sqrt : K → K) (hs : ∀ x, 0 < x → sqrt x ≠ 0) (trunc : K → Int) (htr : ∀ m : Nat, trunc (m : K) = m)
    (star : StarConnected 3 nodeid n) (hsp : ∀ s < nbnodes, Spread3 nodeid node n s) (bc : Int → BCond K) (hdn : DirichletOrNeumann bc)
    (hcm : CornersMatch 3 (build3 sqrt trunc 1 serial) bc) (q : K) (hb : ∀ loc, BcIn q q (bc loc)) :
    ∀ W, (mkWorld 3 SIZE data (fun p => build3 sqrt trunc SIZE (data p)) = some W ∨
        mkWorld 3 1 (fun _ => serial) (fun _ => build3 sqrt trunc 1 serial) = some W) →
      Solvable n (matrixOf W bc) (boundaryOf W bc) := by
  have np := h.nodePair3 vm sqrt trunc htr
  obtain ⟨hgL, hgG, w1, w2, sL, sG⟩ := np.worlds
  have key := solvable_const np (fun _ => ⟨wedge_build3 sqrt trunc 1 serial, fun p _ => wedge_build3 sqrt trunc SIZE (data p)⟩) (ghostNormal3 _) hcm hdn sG q hb (fun s hn => surrounded3 h vm sqrt hs trunc htr (hsp s hn))
  rintro W (e | e)
  · rw [w1] at e
    obtain rfl := Option.some.inj e
    exact (solvable_par np (fun _ => ⟨wedge_build3 sqrt trunc 1 serial, fun p _ => wedge_build3 sqrt trunc SIZE (data p)⟩) star bc sL sG).mpr key
  · rw [w2] at e
    obtain rfl := Option.some.inj e
    exact key

/-- **C112** (3D, one process): at first order, without face gradients or with Neumann conditions for the concentration and a diffusion
tensor that maps normals of the sides to normals, after any number of iterations the next one changes the integral of the concentration by
`dt` times what the flow carries in through the boundary. -/
theorem C112_darcy_mass_serial_3d_partial (vm : ValidMesh3 nodeid node nbnodes n)
    (hr : readMeshFile 1 0 (writeSerial (serialWrite nodeid node nbnodes n 4)) [] = some serial)
    (sqrt : K → K) (hs : ∀ x, 0 < x → sqrt x ≠ 0) (trunc : K → Int) (htr : ∀ m : Nat, trunc (m : K) = m) :
    ∃ W, mkWorld 3 1 (fun _ => serial) (fun _ => build3 sqrt trunc 1 serial) = some W ∧
      ∀ (S : DSetup K), S.order = 1 → (S.diff = true → (∀ loc, S.bc loc = .neumann) ∧ NormalDiffusion (build3 sqrt trunc 1 serial) S.coeffs) → ∀ (direct : (Nat → Nat → K) → (Nat → K) → Nat → K) (sv : LinSolve.Solver), InPlace sv → ∀ (f g : K → K → K → K) (N : Nat),
        ∃ s0 s, darcyStart W S sv direct f g = some s0 ∧ darcyLoop W S sv direct s0 N = some s ∧
          ∃ s', darcyStep W S sv direct s = some s' ∧ darcyTotal W s' = darcyTotal W s - (s'.time - s.time) * darcyOutflow W S s s' := by
  obtain ⟨data, h⟩ := launched_of_serial (centvol3 node nodeid) (by omega) vm.nodes vm.used hr
  have np := h.nodePair3 vm sqrt trunc htr
  obtain ⟨hgL, hgG, w1, w2, sL, sG⟩ := np.worlds
  exact ⟨_, w2, fun S ho hd direct sv _ f g N => darcy_mass_serial np (h.solid3 vm sqrt hs trunc htr) (fun _ => wedge_build3 sqrt trunc 1 serial) (ghostNormal3 _) sG S ho hd sv f g N⟩

/-- **C112** (3D, any number of processes, any partition). -/
theorem C112_darcy_mass_3d_partial (h : Launched 4 nodeid node (centvol3 node nodeid) npart0 epart nbnodes n SIZE data serial)
    (vm : ValidMesh3 nodeid node nbnodes n) (sqrt : K → K) (hs : ∀ x, 0 < x → sqrt x ≠ 0) (trunc : K → Int) (htr : ∀ m : Nat, trunc (m : K) = m)
    (star : StarConnected 3 nodeid n) :
    ∃ W, mkWorld 3 SIZE data (fun p => build3 sqrt trunc SIZE (data p)) = some W ∧
      ∀ (S : DSetup K), S.order = 1 → (S.diff = true → (∀ loc, S.bc loc = .neumann) ∧ NormalDiffusion (build3 sqrt trunc 1 serial) S.coeffs) → CornersOk 3 nodeid epart n (build3 sqrt trunc 1 serial) S.bc →
        FieldCornersOk 3 nodeid epart n (build3 sqrt trunc 1 serial) S.bcP →
        ∀ direct, ReadsRows n direct → ∀ (sv : LinSolve.Solver), InPlace sv → ∀ (f g : K → K → K → K) (N : Nat),
        ∃ s0 s, darcyStart W S sv direct f g = some s0 ∧ darcyLoop W S sv direct s0 N = some s ∧
          ∃ s', darcyStep W S sv direct s = some s' ∧ darcyTotal W s' = darcyTotal W s - (s'.time - s.time) * darcyOutflow W S s s' := by
  have np := h.nodePair3 vm sqrt trunc htr
  obtain ⟨hgL, hgG, w1, w2, sL, sG⟩ := np.worlds
  exact ⟨_, w1, fun S ho hd hbc hbP direct h1 sv hip f g N => darcy_mass_par np (h.solid3 vm sqrt hs trunc htr) (fun _ => ⟨wedge_build3 sqrt trunc 1 serial, fun p _ => wedge_build3 sqrt trunc SIZE (data p)⟩) (ghostNormal3 _) sL sG S ho hd ⟨star, hbc⟩ hbP
    h1 sv hip f g N⟩

end

/-! ### the hypotheses can be met -/

/-- The potential `7` on the whole boundary, concentration `5` prescribed, diffusion, second order. -/
def uniSetup : DSetup ℚ := ⟨fun _ => BCond.dirichlet (fun _ _ _ => 5), fun _ => BCond.dirichlet (fun _ _ _ => 7), 1, 1, 1, 2, 3, 2, true⟩

example (g : ℚ → ℚ → ℚ → ℚ) (N : Nat) : ∃ W, mkWorld 2 1 (fun _ => stripSerial) (fun _ => build2 (fun x => x) Rat.floor 1 stripSerial) = some W ∧
    ∃ direct s0 s, darcyStart W uniSetup .mumps direct (fun _ _ _ => 5) g = some s0 ∧ darcyLoop W uniSetup .mumps direct s0 N = some s ∧
      ∀ c < 4, (s.V 0).cell c = 5 := by
  obtain ⟨W, e, h⟩ := C111_darcy_constant_serial_2d_partial stripValid stripLaunched.hserial (fun x => x) (fun x hx => ne_of_gt hx) Rat.floor floor_nat
  obtain ⟨direct, h1, h2⟩ := solver_exists (K := ℚ) 4
  have hcm := C110_dirichlet_corners_2d stripLaunched stripValid (fun x => x) Rat.floor floor_nat (fun _ _ _ _ => 7)
  refine ⟨W, e, direct, h uniSetup (fun _ => stripSpread) (fun _ => Or.inl rfl) hcm direct h1 h2 ?_ _ (Or.inl rfl) 5 (fun _ _ _ _ => ⟨le_refl _, le_refl _⟩) g N⟩
  exact C111_solvable_2d stripLaunched stripValid (fun x => x) (fun x hx => ne_of_gt hx) Rat.floor floor_nat (run_star 2 4) stripSpread _ (fun _ => Or.inl rfl) hcm 7
    (fun _ _ _ _ => ⟨le_refl _, le_refl _⟩) W (Or.inr e)

example (g : ℚ → ℚ → ℚ → ℚ) (N : Nat) : ∃ W, mkWorld 2 2 stripData (fun p => build2 (fun x => x) Rat.floor 2 (stripData p)) = some W ∧
    ∃ direct s0 s, darcyStart W { uniSetup with bc := fun _ => .neumann } .petsc direct (fun _ _ _ => 5) g = some s0 ∧
      darcyLoop W { uniSetup with bc := fun _ => .neumann } .petsc direct s0 N = some s ∧ ∀ p < 2, ∀ c < (W.D p).nbcells, (s.V p).cell c = 5 := by
  obtain ⟨W, e, h⟩ := C111_darcy_constant_2d_partial stripLaunched stripValid (fun x => x) (fun x hx => ne_of_gt hx) Rat.floor floor_nat (run_star 2 4)
  obtain ⟨direct, h1, h2⟩ := solver_exists (K := ℚ) 4
  have hcm := C110_dirichlet_corners_2d stripLaunched stripValid (fun x => x) Rat.floor floor_nat (fun _ _ _ _ => 7)
  refine ⟨W, e, direct, h { uniSetup with bc := fun _ => .neumann } (fun _ => stripSpread) (neumann_corners _) (fun _ => Or.inl rfl) hcm direct h1 h2 ?_ _
    (Or.inr rfl) 5 (fun _ => trivial) g N⟩
  exact C111_solvable_2d stripLaunched stripValid (fun x => x) (fun x hx => ne_of_gt hx) Rat.floor floor_nat (run_star 2 4) stripSpread _ (fun _ => Or.inl rfl) hcm 7
    (fun _ _ _ _ => ⟨le_refl _, le_refl _⟩) W (Or.inl e)

example (g : ℚ → ℚ → ℚ → ℚ) (N : Nat) : ∃ W, mkWorld 3 2 chainData (fun p => build3 (fun x => x) Rat.floor 2 (chainData p)) = some W ∧
    ∃ direct s0 s, darcyStart W { uniSetup with bc := fun _ => .neumann } .petsc direct (fun _ _ _ => 5) g = some s0 ∧
      darcyLoop W { uniSetup with bc := fun _ => .neumann } .petsc direct s0 N = some s ∧ ∀ p < 2, ∀ c < (W.D p).nbcells, (s.V p).cell c = 5 := by
  obtain ⟨W, e, h⟩ := C111_darcy_constant_3d_partial chainLaunched chainValid (fun x => x) (fun x hx => ne_of_gt hx) Rat.floor floor_nat (run_star 3 3)
  obtain ⟨direct, h1, h2⟩ := solver_exists (K := ℚ) 3
  have hcm := C110_dirichlet_corners_3d chainLaunched chainValid (fun x => x) Rat.floor floor_nat (fun _ _ _ _ => 7)
  refine ⟨W, e, direct, h { uniSetup with bc := fun _ => .neumann } (fun _ => chainSpread) (neumann_corners _) (fun _ => Or.inl rfl) hcm direct h1 h2 ?_ _
    (Or.inr rfl) 5 (fun _ => trivial) g N⟩
  exact C111_solvable_3d chainLaunched chainValid (fun x => x) (fun x hx => ne_of_gt hx) Rat.floor floor_nat (run_star 3 3) chainSpread _ (fun _ => Or.inl rfl) hcm 7
    (fun _ _ _ _ => ⟨le_refl _, le_refl _⟩) W (Or.inl e)

example (f g : ℚ → ℚ → ℚ → ℚ) (N : Nat) : ∃ W, mkWorld 2 2 stripData (fun p => build2 (fun x => x) Rat.floor 2 (stripData p)) = some W ∧
    ∃ s0 s, darcyStart W { darcySetup with order := 1, diff := false } .mumps (fun _ b => b) f g = some s0 ∧
      darcyLoop W { darcySetup with order := 1, diff := false } .mumps (fun _ b => b) s0 N = some s ∧
      ∃ s', darcyStep W { darcySetup with order := 1, diff := false } .mumps (fun _ b => b) s = some s' ∧
        darcyTotal W s' = darcyTotal W s - (s'.time - s.time) * darcyOutflow W { darcySetup with order := 1, diff := false } s s' := by
  obtain ⟨W, e, h⟩ := C112_darcy_mass_2d_partial stripLaunched stripValid (fun x => x) (fun x hx => ne_of_gt hx) Rat.floor floor_nat (run_star 2 4)
  exact ⟨W, e, h { darcySetup with order := 1, diff := false } rfl (fun h => by cases h) (neumann_corners _)
    (C99_dirichlet_corners_2d stripLaunched stripValid (fun x => x) Rat.floor floor_nat _) (fun _ b => b) (fun _ _ _ _ _ hb => hb) .mumps (.inl rfl) f g N⟩

example (f g : ℚ → ℚ → ℚ → ℚ) (N : Nat) : ∃ W, mkWorld 2 2 stripData (fun p => build2 (fun x => x) Rat.floor 2 (stripData p)) = some W ∧
    ∃ s0 s, darcyStart W { darcySetup with order := 1, diff := true, Dxx := 2, Dyy := 2, Dzz := 2 } .mumps (fun _ b => b) f g = some s0 ∧
      darcyLoop W { darcySetup with order := 1, diff := true, Dxx := 2, Dyy := 2, Dzz := 2 } .mumps (fun _ b => b) s0 N = some s ∧
      ∃ s', darcyStep W { darcySetup with order := 1, diff := true, Dxx := 2, Dyy := 2, Dzz := 2 } .mumps (fun _ b => b) s = some s' ∧
        darcyTotal W s' = darcyTotal W s - (s'.time - s.time) * darcyOutflow W { darcySetup with order := 1, diff := true, Dxx := 2, Dyy := 2, Dzz := 2 } s s' := by
  obtain ⟨W, e, h⟩ := C112_darcy_mass_2d_partial stripLaunched stripValid (fun x => x) (fun x hx => ne_of_gt hx) Rat.floor floor_nat (run_star 2 4)
  exact ⟨W, e, h { darcySetup with order := 1, diff := true, Dxx := 2, Dyy := 2, Dzz := 2 } rfl (fun _ => ⟨fun _ => rfl, fun _ _ => ⟨2, rfl, rfl, rfl⟩⟩) (neumann_corners _)
    (C99_dirichlet_corners_2d stripLaunched stripValid (fun x => x) Rat.floor floor_nat _) (fun _ b => b) (fun _ _ _ _ _ hb => hb) .mumps (.inl rfl) f g N⟩
end Verif.Props.Par
