import Verif.Props.ParSolGrad
import Verif.Props.Diffusion
import Verif.Model.RunDarcy

/-!
C109: a Darcy computation on several processes computes what the serial one does.
-/
set_option linter.unusedSectionVars false
set_option linter.unusedVariables false
set_option linter.unusedSimpArgs false
namespace Verif.Props.Par
open Verif.Fvm Verif.Spec Verif.Conn Verif.Dom Verif.Geo Verif.Names Verif.MeshFile Verif.Part Verif.Comm Verif.Run Verif.HaloGhost Verif.Interp
open Verif.LinSolve (ReadsRows SolvedWith InPlace)
variable {K : Type*} [Field K] [LinearOrder K] [IsStrictOrderedRing K]

section
variable {dim : Nat} {nodeid : Nat → Nat → Nat} {node : Nat → K × K × K × Nat} {cv : Nat → List K} {npart0 epart : Nat → Nat}
  {nbnodes n SIZE : Nat} {data : Nat → RankData K} {serial : RankData K} {L : Nat → Tables K} {G : Tables K} {B : List Int}
  {out : Nat → Nat → Vec K} {trunc : K → Int}

/-- The face velocities of the ranks against those of the serial run. -/
def VelMatch (dim SIZE : Nat) (data : Nat → RankData K) (L : Nat → Tables K) (G : Tables K) (vL : Nat → Nat → Vec K) (vG : Nat → Vec K) : Prop :=
  ∀ p < SIZE, ∀ c < (L p).nbcells, ∀ j < dim + 1, ∀ k < 3, vL p ((L p).faceid c j) k = vG (G.faceid (phi (data p) c) j) k

theorem toCells_vel (h : RunPair dim SIZE n epart data L G B out) {vL : Nat → Nat → Vec K} {vG : Nat → Vec K}
    (hv : VelMatch dim SIZE data L G vL vG) {p : Nat} (hp : p < SIZE) {k : Nat} (hk : k < 3) {c : Nat} (hc : c < (L p).nbcells) :
    toCells dim (L p) (fun f => vL p f k) c = toCells dim G (fun f => vG f k) (phi (data p) c) := by
  unfold toCells Interp.facetocell
  congr 1
  rw [List.foldl_map, List.foldl_map]
  apply List.foldl_ext
  intro s j hj
  exact congrArg (s + ·) (hv p hp c hc j (List.mem_range.mp hj) k hk)

theorem le_darcyDt (dim : Nat) (S : DSetup K) (D : Tables K) (vel : Nat → Vec K) (x : K) :
    x ≤ darcyDt dim S D vel ↔ x ≤ 1000000 ∧ ∀ c < D.nbcells, x ≤ S.cfl * D.volume c /
      cellLam (toCells dim D (fun f => vel f 0)) (toCells dim D (fun f => vel f 1)) (toCells dim D (fun f => vel f 2)) D.normal D.mesure D.volume
        D.faceid dim S.Dxx S.Dyy S.Dzz c := by
  unfold darcyDt timeStep timeStepOver
  rw [le_foldl_min]; simp

/-- The global time step is the serial one. -/
theorem darcyDt_match (h : RunPair dim SIZE n epart data L G B out) (S : DSetup K) {vL : Nat → Nat → Vec K} {vG : Nat → Nat → Vec K}
    (hv : VelMatch dim SIZE data L G vL (vG 0)) :
    allreduceMin SIZE (fun p => darcyDt dim S (L p) (vL p)) = allreduceMin 1 (fun p => darcyDt dim S G (vG p)) := by
  have key : ∀ x, x ≤ allreduceMin SIZE (fun p => darcyDt dim S (L p) (vL p)) ↔ x ≤ darcyDt dim S G (vG 0) := by
    intro x
    unfold allreduceMin
    rw [le_foldl_min, le_darcyDt dim S G]
    have hS := h.hS
    constructor
    · rintro ⟨h0, h1⟩
      refine ⟨((le_darcyDt _ _ _ _ _).mp h0).1, fun C hC => ?_⟩
      rw [h.nG] at hC
      have hp := h.he C hC
      obtain ⟨c, hc, e⟩ := (h.rank _ hp).sub.surj C (by rw [h.nG]; exact hC) rfl
      have := ((le_darcyDt _ _ _ _ _).mp (h1 _ (List.mem_range.mpr hp))).2 c hc
      rw [h.volume _ hp c hc, cellLam_match h hp _ _ _ _ _ _ _ _ _ hc (toCells_vel h hv hp (by omega) hc) (toCells_vel h hv hp (by omega) hc)
        (toCells_vel h hv hp (by omega) hc), e] at this
      exact this
    · rintro ⟨h0, h1⟩
      have hall : ∀ p < SIZE, x ≤ darcyDt dim S (L p) (vL p) := by
        intro p hp
        refine (le_darcyDt _ _ _ _ _).mpr ⟨h0, fun c hc => ?_⟩
        rw [h.volume _ hp c hc, cellLam_match h hp _ _ _ _ _ _ _ _ _ hc (toCells_vel h hv hp (by omega) hc) (toCells_vel h hv hp (by omega) hc)
          (toCells_vel h hv hp (by omega) hc)]
        exact h1 _ ((h.rank p hp).sub.lt c hc).1
      exact ⟨hall 0 (by omega), fun p hp => hall p (List.mem_range.mp hp)⟩
  have e1 : allreduceMin 1 (fun p => darcyDt dim S G (vG p)) = darcyDt dim S G (vG 0) := by
    unfold allreduceMin; simp
  rw [e1]
  exact le_antisymm ((key _).mp le_rfl) ((key _).mpr le_rfl)

theorem conv_vel (h : NodePair dim nodeid node cv npart0 epart nbnodes n SIZE data serial L G B out trunc) (bc : Int → BCond K) (order : Int)
    {vL : Nat → Nat → Vec K} {vG : Nat → Vec K} (hv : VelMatch dim SIZE data L G vL vG)
    {p : Nat} (hp : p < SIZE) {hg : HGResult K} {v u : Vari K} (vL' : ValuesOk dim SIZE data L G u.fields.c bc p hg v.fields)
    (vG' : ValuesG dim G bc u.fields) {gL gG : Grads K} (hgm : GradMatch (data p) (L p).nbcells gL gG) {c : Nat} (hc : c < (L p).nbcells) :
    conv dim (convArgs (L p) (velFields (vL p) v.cell v.ghost v.halo gL) order) c =
      conv dim (convArgs G (velFields vG u.cell u.ghost u.halo gG) order) (phi (data p) c) := by
  have R := h.run.rank p hp
  rw [conv_balance R.cL _ _ h.run.hd, conv_balance R.cG _ _ h.run.hd]
  refine rank_balance R ⟨?_, ?_, ?_, ?_⟩ order dim (by have := h.run.hd; omega) c hc
  · intro c hc
    obtain ⟨a1, a2, a3, a4⟩ := hgm.cell c hc
    exact ⟨vL'.cell c hc, a4, a1, a2, a3⟩
  · intro k row E hk hE _
    have hkl : k < (data p).halosext.length := (List.getElem?_eq_some_iff.mp hk).1
    have e0 := (h.hl.ext_get hp hkl).1
    rw [hk] at e0
    obtain rfl : ext0 (data p) k = E := by
      injection e0 with e0
      rw [e0] at hE
      simpa using hE
    obtain ⟨a1, a2, a3, a4⟩ := hgm.halo k hkl
    exact ⟨vL'.halo k hkl, a4, a1, a2, a3⟩
  · intro c hc j hj
    exact ⟨hv p hp c hc j hj 0 (by omega), hv p hp c hc j hj 1 (by omega), hv p hp c hc j hj 2 (by omega)⟩
  · intro c hc j hj hb
    obtain ⟨e1, e2, _, _⟩ := R.boundary hc hj hb
    obtain ⟨g1, eg1⟩ := vL'.ghost
    obtain ⟨g2, eg2⟩ := vG'.ghost
    show v.fields.ghost _ = u.fields.ghost _
    rw [eg1, eg2, updateGhosts_apply _ _ _ _ _ (R.cL.flt c hc j hj) (h.run.hB _ e2),
      updateGhosts_apply _ _ _ _ _ (R.cG.flt _ (R.sub.lt c hc).1 j hj) (h.run.hB _ (e1 ▸ e2)), ← e1]
    exact ghostVal_match h.run hp _ _ vL'.cell hc hj hb _

/-- Moving the convected variable with matching velocities. -/
theorem darcyMove_match (h : NodePair dim nodeid node cv npart0 epart nbnodes n SIZE data serial L G B out trunc) {hgL hgG : Nat → HGResult K}
    (hw : dim = 3 → WedgeOk G ∧ ∀ p < SIZE, WedgeOk (L p))
    (sL : ∀ p < SIZE, ∃ rows, HGSpec dim SIZE data L p (hgL p) rows) (sG : HGSerial dim G nbnodes (hgG 0))
    (S : DSetup K) (so : StencilOk dim nodeid epart n G S.bc) {vL vG : Nat → Nat → Vec K} (hv : VelMatch dim SIZE data L G vL (vG 0))
    (V U : Nat → Vari K) (hm : VMatch SIZE data L V U) :
    ∃ V' nL U' nG dt, darcyMove (parW dim SIZE data L hgL) S vL V = some (V', nL, dt) ∧ darcyMove (serW dim serial G hgG) S vG U = some (U', nG, dt) ∧
      VMatch SIZE data L V' U' ∧ ∀ p < SIZE, ∀ i < (L p).nbnodes, nL p i = nG 0 (gOf (data p) i) := by
  obtain ⟨V1, U1, u1, u2, m1, _, _, _, _⟩ := update_match h hgL hgG S.bc V U hm
  obtain ⟨V2, gL, U2, gG, c1, c2, m2, _, _, wL, wG, hgm⟩ := cellGradient_match h sL sG S.bc so V1 U1 m1
  have hdt := darcyDt_match h.run S hv
  have rez : ∀ p < SIZE, ∀ c < (L p).nbcells,
      conv dim (convArgs (L p) (velFields (vL p) (V2 p).cell (V2 p).ghost (V2 p).halo (gL p)) S.order) c =
      conv dim (convArgs G (velFields (vG 0) (U2 0).cell (U2 0).ghost (U2 0).halo (gG 0)) S.order) (phi (data p) c) := by
    intro p hp c hc
    exact conv_vel h S.bc S.order hv hp (wL p hp) wG (hgm p hp) hc
  have fin : ∀ (fL fG : Nat → Nat → Vec K) (V3 U3 : Nat → Vari K), VMatch SIZE data L V3 U3 →
      (∀ p < SIZE, ∀ c < (L p).nbcells, ∀ j < dim + 1, ∀ k < 3, fL p ((L p).faceid c j) k = fG 0 (G.faceid (phi (data p) c) j) k) →
      ∃ V4 nL U4 nG, celltonode (parW dim SIZE data L hgL) S.bc
        (fun p => { V3 p with cell := (updateNewValue (V3 p).cell (conv dim (convArgs (L p) (velFields (vL p) (V2 p).cell (V2 p).ghost (V2 p).halo (gL p)) S.order))
          (Run.dissip (L p) S.coeffs (fL p)) (fun _ => 0) (allreduceMin SIZE (fun p => darcyDt dim S (L p) (vL p))) (L p).volume) }) = some (V4, nL) ∧
        celltonode (serW dim serial G hgG) S.bc
        (fun p => { U3 p with cell := (updateNewValue (U3 p).cell (conv dim (convArgs G (velFields (vG p) (U2 p).cell (U2 p).ghost (U2 p).halo (gG p)) S.order))
          (Run.dissip G S.coeffs (fG p)) (fun _ => 0) (allreduceMin 1 (fun p => darcyDt dim S G (vG p))) G.volume) }) = some (U4, nG) ∧
        VMatch SIZE data L V4 U4 ∧ ∀ p < SIZE, ∀ i < (L p).nbnodes, nL p i = nG 0 (gOf (data p) i) := by
    intro fL fG V3 U3 m3 hfg
    obtain ⟨V4, n4, U4, k4, g1, g2, m4, _, _, _, _, hN4⟩ := celltonode_match h sL sG S.bc so
      (fun p => { V3 p with cell := (updateNewValue (V3 p).cell (conv dim (convArgs (L p) (velFields (vL p) (V2 p).cell (V2 p).ghost (V2 p).halo (gL p)) S.order))
        (Run.dissip (L p) S.coeffs (fL p)) (fun _ => 0) (allreduceMin SIZE (fun p => darcyDt dim S (L p) (vL p))) (L p).volume) })
      (fun p => { U3 p with cell := (updateNewValue (U3 p).cell (conv dim (convArgs G (velFields (vG p) (U2 p).cell (U2 p).ghost (U2 p).halo (gG p)) S.order))
        (Run.dissip G S.coeffs (fG p)) (fun _ => 0) (allreduceMin 1 (fun p => darcyDt dim S G (vG p))) G.volume) }) (by
        intro p hp c hc
        dsimp only [updateNewValue]
        rw [hdt, rez p hp c hc, h.run.volume p hp c hc, m3 p hp c hc, h.dissip_eq S.coeffs hp (fL p) (fG 0) (hfg p hp) hc])
    exact ⟨V4, n4, U4, k4, g1, g2, m4, hN4⟩
  unfold darcyMove
  rw [u1, u2]
  simp only [Option.bind_some]
  rw [c1, c2]
  simp only [Option.bind_some]
  cases hdiff : S.diff with
  | false =>
    obtain ⟨V4, nL, U4, nG, e1, e2, m, hN⟩ := fin (fun _ _ _ => 0) (fun _ _ _ => 0) V2 U2 m2 (fun _ _ _ _ _ _ _ _ => rfl)
    refine ⟨V4, nL, U4, nG, allreduceMin SIZE (fun p => darcyDt dim S (L p) (vL p)), ?_, ?_, m, hN⟩
    · simp only [Bool.false_eq_true, if_false, Option.bind_some]
      exact congrArg (Option.map _) e1
    · rw [hdt]
      simp only [Bool.false_eq_true, if_false, Option.bind_some]
      exact congrArg (Option.map (fun o => (o.1, o.2, allreduceMin 1 (fun p => darcyDt dim S G (vG p))))) e2
  | true =>
    obtain ⟨V3, k1, fL, U3, k2, fG, f1, f2, m3, _, _, _, hfg⟩ := faceGradient_match h hw sL sG S.bc so V2 U2 m2
    obtain ⟨V4, nL, U4, nG, e1, e2, m, hN⟩ := fin fL fG V3 U3 m3 hfg
    refine ⟨V4, nL, U4, nG, allreduceMin SIZE (fun p => darcyDt dim S (L p) (vL p)), ?_, ?_, m, hN⟩
    · rw [if_pos rfl, f1]
      exact congrArg (Option.map _) e1
    · rw [hdt, if_pos rfl, f2]
      exact congrArg (Option.map (fun o => (o.1, o.2, allreduceMin 1 (fun p => darcyDt dim S G (vG p))))) e2

/-- A system that was built and then only solved. -/
def SysOk (E : LinSolve.Env K) (bnd : Nat → Nat → K) (s : LinSolve.St K) : Prop :=
  ∃ (cell0 : Nat → Nat → K) (s0 : LinSolve.St K) (ops : List (LinSolve.Op K)),
    LinSolve.mkSystem E bnd (fun _ => none) cell0 = .ok s0 ∧ (∀ o ∈ ops, o.Legal E) ∧ LinSolve.run E s0 ops = .ok s

theorem SysOk.solve {E : LinSolve.Env K} {bnd : Nat → Nat → K} {s : LinSolve.St K} (hs : SysOk E bnd s) (hpos : 0 < E.SIZE)
    (hE : LinSolve.NumberingOk E) : ∃ s', LinSolve.solve E s (fun _ => none) = .ok s' ∧ SysOk E bnd s' ∧ SolvedWith E bnd (fun _ => 0) s' := by
  obtain ⟨cell0, s0, ops, h0, hl, hr⟩ := hs
  obtain ⟨s', e⟩ := C52_progress E hpos hE bnd _ cell0 s0 s h0 ops hl hr (fun _ => none) (fun _ _ _ => rfl)
  refine ⟨s', e, ⟨cell0, s0, ops ++ [.solve (fun _ => none)], h0, ?_, ?_⟩, cell0, s0, s, ops, fun _ => none, h0, hl, hr, ?_, ?_, e⟩
  · intro o ho
    rcases List.mem_append.mp ho with ho | ho
    · exact hl o ho
    · rw [List.mem_singleton.mp ho]; trivial
  · unfold LinSolve.run at hr ⊢
    rw [List.foldlM_append, hr]
    show (List.foldlM _ s _) = _
    rw [List.foldlM_cons, show LinSolve.step E s (.solve fun _ => none) = .ok s' from e]
    rfl
  · intro p _ a ha; cases ha
  · unfold LinSolve.SourceIs
    cases E.solver
    all_goals dsimp only; intros; rfl

/-- The state of a parallel Darcy run against the state of the serial run. -/
structure DMatch (dim SIZE : Nat) (data : Nat → RankData K) (L : Nat → Tables K) (G : Tables K) (WL WG : World K) (S : DSetup K)
    (svL svG : LinSolve.Solver) (direct : (Nat → Nat → K) → (Nat → K) → Nat → K) (s t : DState K) : Prop where
  sysL : SysOk (linEnv WL S.bcP svL direct) (linBnd WL S.bcP svL) s.sys
  sysG : SysOk (linEnv WG S.bcP svG direct) (linBnd WG S.bcP svG) t.sys
  pot : CellsAgree SIZE data s.sys.cells (t.sys.cells 0)
  vel : VelMatch dim SIZE data L G s.vel (t.vel 0)
  cell : VMatch SIZE data L s.V t.V
  node : ∀ p < SIZE, ∀ i < (L p).nbnodes, s.node p i = t.node 0 (gOf (data p) i)
  time : s.time = t.time

theorem darcyStep_match (h : NodePair dim nodeid node cv npart0 epart nbnodes n SIZE data serial L G B out trunc) {hgL hgG : Nat → HGResult K}
    (hw : dim = 3 → WedgeOk G ∧ ∀ p < SIZE, WedgeOk (L p))
    (sL : ∀ p < SIZE, ∃ rows, HGSpec dim SIZE data L p (hgL p) rows) (sG : HGSerial dim G nbnodes (hgG 0))
    (S : DSetup K) (so : StencilOk dim nodeid epart n G S.bc) (hbc : FieldCornersOk dim nodeid epart n G S.bcP)
    (direct : (Nat → Nat → K) → (Nat → K) → Nat → K) (hdir : ReadsRows n direct) (svL svG : LinSolve.Solver)
    (s t : DState K) (hm : DMatch dim SIZE data L G (parW dim SIZE data L hgL) (serW dim serial G hgG) S svL svG direct s t) :
    ∃ s' t', darcyStep (parW dim SIZE data L hgL) S svL direct s = some s' ∧ darcyStep (serW dim serial G hgG) S svG direct t = some t' ∧
      DMatch dim SIZE data L G (parW dim SIZE data L hgL) (serW dim serial G hgG) S svL svG direct s' t' := by
  have hS := h.run.hS
  obtain ⟨a, ea, oa, wa⟩ := hm.sysL.solve (by show 0 < SIZE; omega) (h.lin_numbering S.bcP hgL svL direct).1
  obtain ⟨b, eb, ob, wb⟩ := hm.sysG.solve (by show 0 < 1; omega) (h.lin_numbering_serial S.bcP hgG svG direct).1
  have hP := h.lin_solve hw so.star S.bcP sL sG direct hdir svL svG _ a b wa wb
  obtain ⟨P', nL, fL, Q', nG, fG, e1, e2, _, _, _, hf⟩ := solGradient_match h hw sL sG S.bcP so.star hbc
    (fun p => { s.P p with cell := a.cells p }) (fun p => { t.P p with cell := b.cells p }) ((h.cellsAgree _ _).mp hP)
  obtain ⟨V', mL, U', mG, dt, g1, g2, m', hN⟩ := darcyMove_match h hw sL sG S so (vL := fL) (vG := fG) hf s.V t.V hm.cell
  refine ⟨{ sys := a, P := P', vel := fL, V := V', node := mL, time := s.time + dt }, { sys := b, P := Q', vel := fG, V := U', node := mG, time := t.time + dt }, ?_, ?_,
    ⟨oa, ob, hP, hf, m', hN, by rw [hm.time]⟩⟩
  · unfold darcyStep
    rw [ea]
    simp only [Except.toOption, Option.bind_some]
    rw [e1]
    simp only [Option.bind_some]
    rw [g1]; rfl
  · unfold darcyStep
    rw [eb]
    simp only [Except.toOption, Option.bind_some]
    rw [e2]
    simp only [Option.bind_some]
    rw [g2]; rfl

theorem darcyLoop_match (h : NodePair dim nodeid node cv npart0 epart nbnodes n SIZE data serial L G B out trunc) {hgL hgG : Nat → HGResult K}
    (hw : dim = 3 → WedgeOk G ∧ ∀ p < SIZE, WedgeOk (L p))
    (sL : ∀ p < SIZE, ∃ rows, HGSpec dim SIZE data L p (hgL p) rows) (sG : HGSerial dim G nbnodes (hgG 0))
    (S : DSetup K) (so : StencilOk dim nodeid epart n G S.bc) (hbc : FieldCornersOk dim nodeid epart n G S.bcP)
    (direct : (Nat → Nat → K) → (Nat → K) → Nat → K) (hdir : ReadsRows n direct) (svL svG : LinSolve.Solver)
    (s t : DState K) (hm : DMatch dim SIZE data L G (parW dim SIZE data L hgL) (serW dim serial G hgG) S svL svG direct s t) (N : Nat) :
    ∃ s' t', darcyLoop (parW dim SIZE data L hgL) S svL direct s N = some s' ∧ darcyLoop (serW dim serial G hgG) S svG direct t N = some t' ∧
      DMatch dim SIZE data L G (parW dim SIZE data L hgL) (serW dim serial G hgG) S svL svG direct s' t' := by
  induction N with
  | zero => exact ⟨s, t, rfl, rfl, hm⟩
  | succ N ih =>
    obtain ⟨s1, t1, e1, e2, m1⟩ := ih
    simp only [darcyLoop, e1, e2, Option.bind_some]
    rw [m1.time]
    by_cases ht : t1.time < S.tfinal
    · simp only [if_pos ht]; exact darcyStep_match h hw sL sG S so hbc direct hdir svL svG s1 t1 m1
    · simp only [if_neg ht]; exact ⟨s1, t1, rfl, rfl, m1⟩

theorem mkSystem_start (E : LinSolve.Env K) (bnd : Nat → Nat → K) (cell0 : Nat → Nat → K)
    (hsv : E.SIZE = 1 ∨ E.solver = .mumps ∨ E.solver = .petsc) :
    ∃ s0, LinSolve.mkSystem E bnd (fun _ => none) cell0 = .ok s0 ∧ ∀ p, s0.cells p = cell0 p := by
  obtain ⟨s0, e⟩ := mkSystem_exists E bnd hsv
  unfold LinSolve.mkSystem at e ⊢
  cases hl : (List.range E.SIZE).mapM (LinSolve.initRhs0 E bnd (fun _ => none)) with
  | error x => rw [hl] at e; cases e
  | ok l =>
    refine ⟨_, rfl, fun p => ?_⟩
    show (if E.SIZE + p < E.SIZE then _ else cell0 (E.SIZE + p - E.SIZE)) = cell0 p
    rw [if_neg (by omega), Nat.add_sub_cancel_left]

theorem darcyStart_match (h : NodePair dim nodeid node cv npart0 epart nbnodes n SIZE data serial L G B out trunc) (hgL hgG : Nat → HGResult K)
    (S : DSetup K) (direct : (Nat → Nat → K) → (Nat → K) → Nat → K) (svL svG : LinSolve.Solver) (hL : InPlace svL) (f g : K → K → K → K) :
    ∃ s t, darcyStart (parW dim SIZE data L hgL) S svL direct f g = some s ∧ darcyStart (serW dim serial G hgG) S svG direct f g = some t ∧
      DMatch dim SIZE data L G (parW dim SIZE data L hgL) (serW dim serial G hgG) S svL svG direct s t := by
  have cm : ∀ (f : K → K → K → K), ∀ p < SIZE, ∀ c < (L p).nbcells, f ((L p).center c 0) ((L p).center c 1) ((L p).center c 2) =
      f (G.center (phi (data p) c) 0) (G.center (phi (data p) c) 1) (G.center (phi (data p) c) 2) := by
    intro f p hp c hc
    have := (h.run.rank p hp).center c hc
    rw [this 0 (by omega), this 1 (by omega), this 2 (by omega)]
  obtain ⟨a, ea, ca⟩ := mkSystem_start (linEnv (parW dim SIZE data L hgL) S.bcP svL direct) (linBnd (parW dim SIZE data L hgL) S.bcP svL)
    (fun p c => g ((L p).center c 0) ((L p).center c 1) ((L p).center c 2)) (.inr hL)
  obtain ⟨b, eb, cb⟩ := mkSystem_start (linEnv (serW dim serial G hgG) S.bcP svG direct) (linBnd (serW dim serial G hgG) S.bcP svG)
    (fun _ c => g (G.center c 0) (G.center c 1) (G.center c 2)) (.inl rfl)
  have key : ∀ (W : World K) (sv : LinSolve.Solver) (a : LinSolve.St K), LinSolve.mkSystem (linEnv W S.bcP sv direct) (linBnd W S.bcP sv) (fun _ => none)
      (fun p c => g ((W.D p).center c 0) ((W.D p).center c 1) ((W.D p).center c 2)) = .ok a → ∃ s, darcyStart W S sv direct f g = some s ∧ s.sys = a ∧
        s.vel = (fun _ _ _ => 0) ∧ (∀ p, (s.V p).cell = fun c => f ((W.D p).center c 0) ((W.D p).center c 1) ((W.D p).center c 2)) ∧
        s.node = (fun _ _ => 0) ∧ s.time = 0 := by
    intro W sv a e
    refine ⟨{ sys := a, P := fun p => ⟨fun c => g ((W.D p).center c 0) ((W.D p).center c 1) ((W.D p).center c 2), fun _ => 0, fun _ => 0, []⟩
              vel := fun _ _ _ => 0
              V := fun p => ⟨fun c => f ((W.D p).center c 0) ((W.D p).center c 1) ((W.D p).center c 2), fun _ => 0, fun _ => 0, []⟩
              node := fun _ _ => 0, time := 0 }, ?_, rfl, rfl, fun _ => rfl, rfl, rfl⟩
    unfold darcyStart
    dsimp only
    rw [e]; rfl
  obtain ⟨s, es, s1, s2, s3, s4, s5⟩ := key _ _ _ ea
  obtain ⟨t, et, t1, t2, t3, t4, t5⟩ := key _ _ _ eb
  refine ⟨s, t, es, et, ?_⟩
  refine ⟨⟨_, _, [], ea, by simp, by rw [s1]; rfl⟩, ⟨_, _, [], eb, by simp, by rw [t1]; rfl⟩, ?_, ?_, ?_, ?_, by rw [s5, t5]⟩
  · refine (h.cellsAgree _ _).mpr fun p hp c hc => ?_
    rw [s1, t1, ca, cb]
    exact cm g p hp c hc
  · intro p hp c hc j hj k hk; rw [s2, t2]
  · intro p hp c hc; rw [s3, t3]; exact cm f p hp c hc
  · intro p hp i hi; rw [s4, t4]

end

section
variable {nodeid : Nat → Nat → Nat} {node : Nat → K × K × K × Nat} {npart0 epart : Nat → Nat}
  {nbnodes n SIZE : Nat} {data : Nat → RankData K} {serial : RankData K}

/-- C109 (2D): after any number of iterations of a Darcy computation (velocity = gradient of the solution of the linear system, solved at
every iteration with MUMPS or PETSc) the potential, the velocities on the faces, the convected variable in the cells and at the nodes, and
the time are those of the serial run. -/
theorem C109_darcy_run_2d_partial (h : Launched 3 nodeid node (centvol2 node nodeid) npart0 epart nbnodes n SIZE data serial)
    (vm : ValidMesh2 nodeid node nbnodes n) (sqrt : K → K) (trunc : K → Int) (htr : ∀ m : Nat, trunc (m : K) = m)
    (star : StarConnected 2 nodeid n) :
    ∃ WL WG, mkWorld 2 SIZE data (fun p => build2 sqrt trunc SIZE (data p)) = some WL ∧
      mkWorld 2 1 (fun _ => serial) (fun _ => build2 sqrt trunc 1 serial) = some WG ∧
      ∀ (S : DSetup K), CornersOk 2 nodeid epart n (build2 sqrt trunc 1 serial) S.bc →
        FieldCornersOk 2 nodeid epart n (build2 sqrt trunc 1 serial) S.bcP →
        ∀ (direct : (Nat → Nat → K) → (Nat → K) → Nat → K), ReadsRows n direct →
        ∀ (svL svG : LinSolve.Solver), InPlace svL → InPlace svG → ∀ (f g : K → K → K → K) (N : Nat),
        ∃ s0 t0 s t, darcyStart WL S svL direct f g = some s0 ∧ darcyStart WG S svG direct f g = some t0 ∧
          darcyLoop WL S svL direct s0 N = some s ∧ darcyLoop WG S svG direct t0 N = some t ∧ s.time = t.time ∧
          CellsAgree SIZE data (fun p => (s.V p).cell) (t.V 0).cell ∧ NodesAgree SIZE data s.node (t.node 0) ∧
          CellsAgree SIZE data s.sys.cells (t.sys.cells 0) ∧
          ∀ k < 3, FacesAgree SIZE data (fun p => build2 sqrt trunc SIZE (data p)) (build2 sqrt trunc 1 serial)
            (fun p f => s.vel p f k) (fun F => t.vel 0 F k) := by
  have np := h.nodePair2 vm sqrt trunc htr
  obtain ⟨hgL, hgG, w1, w2, sL, sG⟩ := np.worlds
  refine ⟨_, _, w1, w2, fun S hbc hbP direct hdir svL svG hL _ f g N => ?_⟩
  obtain ⟨s0, t0, a1, a2, m0⟩ := darcyStart_match np hgL hgG S direct svL svG hL f g
  obtain ⟨s, t, e1, e2, m⟩ := darcyLoop_match np (by omega) sL sG S ⟨star, hbc⟩ hbP direct hdir svL svG s0 t0 m0 N
  exact ⟨s0, t0, s, t, a1, a2, e1, e2, m.time, (np.cellsAgree _ _).mpr m.cell, np.nodesAgree _ _ m.node, m.pot,
    fun k hk => np.facesAgree _ _ fun p hp c hc j hj => m.vel p hp c hc j hj k hk⟩

/-- C109 (3D): after any number of iterations of a Darcy computation (velocity = gradient of the solution of the linear system, solved at
every iteration with MUMPS or PETSc) the potential, the velocities on the faces, the convected variable in the cells and at the nodes, and
the time are those of the serial run. -/
theorem C109_darcy_run_3d_partial (h : Launched 4 nodeid node (centvol3 node nodeid) npart0 epart nbnodes n SIZE data serial)
    (vm : ValidMesh3 nodeid node nbnodes n) (sqrt : K → K) (trunc : K → Int) (htr : ∀ m : Nat, trunc (m : K) = m)
    (star : StarConnected 3 nodeid n) :
    ∃ WL WG, mkWorld 3 SIZE data (fun p => build3 sqrt trunc SIZE (data p)) = some WL ∧
      mkWorld 3 1 (fun _ => serial) (fun _ => build3 sqrt trunc 1 serial) = some WG ∧
      ∀ (S : DSetup K), CornersOk 3 nodeid epart n (build3 sqrt trunc 1 serial) S.bc →
        FieldCornersOk 3 nodeid epart n (build3 sqrt trunc 1 serial) S.bcP →
        ∀ (direct : (Nat → Nat → K) → (Nat → K) → Nat → K), ReadsRows n direct →
        ∀ (svL svG : LinSolve.Solver), InPlace svL → InPlace svG → ∀ (f g : K → K → K → K) (N : Nat),
        ∃ s0 t0 s t, darcyStart WL S svL direct f g = some s0 ∧ darcyStart WG S svG direct f g = some t0 ∧
          darcyLoop WL S svL direct s0 N = some s ∧ darcyLoop WG S svG direct t0 N = some t ∧ s.time = t.time ∧
          CellsAgree SIZE data (fun p => (s.V p).cell) (t.V 0).cell ∧ NodesAgree SIZE data s.node (t.node 0) ∧
          CellsAgree SIZE data s.sys.cells (t.sys.cells 0) ∧
          ∀ k < 3, FacesAgree SIZE data (fun p => build3 sqrt trunc SIZE (data p)) (build3 sqrt trunc 1 serial)
            (fun p f => s.vel p f k) (fun F => t.vel 0 F k) := by
  have np := h.nodePair3 vm sqrt trunc htr
  obtain ⟨hgL, hgG, w1, w2, sL, sG⟩ := np.worlds
  refine ⟨_, _, w1, w2, fun S hbc hbP direct hdir svL svG hL _ f g N => ?_⟩
  obtain ⟨s0, t0, a1, a2, m0⟩ := darcyStart_match np hgL hgG S direct svL svG hL f g
  obtain ⟨s, t, e1, e2, m⟩ := darcyLoop_match np (fun _ => ⟨wedge_build3 sqrt trunc 1 serial, fun p hp => wedge_build3 sqrt trunc SIZE (data p)⟩) sL sG S ⟨star, hbc⟩ hbP direct hdir svL svG s0 t0 m0 N
  exact ⟨s0, t0, s, t, a1, a2, e1, e2, m.time, (np.cellsAgree _ _).mpr m.cell, np.nodesAgree _ _ m.node, m.pot,
    fun k hk => np.facesAgree _ _ fun p hp c hc j hj => m.vel p hp c hc j hj k hk⟩

end

/-- A Darcy computation with prescribed potential `1 - x` on the boundary. -/
def darcySetup : DSetup ℚ := ⟨fun _ => BCond.neumann, fun _ => BCond.dirichlet (fun x _ _ => 1 - x), 1, 1, 0, 0, 0, 2, true⟩

/-! The hypotheses are met: the strip and the chain cut in two, potential prescribed on the whole boundary, insulated variable. -/
example (f g : ℚ → ℚ → ℚ → ℚ) (N : Nat) : ∃ WL WG, mkWorld 2 2 stripData (fun p => build2 (fun x => x) Rat.floor 2 (stripData p)) = some WL ∧
    mkWorld 2 1 (fun _ => stripSerial) (fun _ => build2 (fun x => x) Rat.floor 1 stripSerial) = some WG ∧
    ∃ s0 t0 s t, darcyStart WL darcySetup .mumps (fun _ b => b) f g = some s0 ∧ darcyStart WG darcySetup .petsc (fun _ b => b) f g = some t0 ∧
      darcyLoop WL darcySetup .mumps (fun _ b => b) s0 N = some s ∧ darcyLoop WG darcySetup .petsc (fun _ b => b) t0 N = some t ∧ s.time = t.time := by
  obtain ⟨WL, WG, e1, e2, h⟩ := C109_darcy_run_2d_partial stripLaunched stripValid (fun x => x) Rat.floor floor_nat (run_star 2 4)
  obtain ⟨s0, t0, s, t, a, b, c, d, e, _⟩ := h darcySetup (neumann_corners _) (C99_dirichlet_corners_2d stripLaunched stripValid (fun x => x) Rat.floor floor_nat _)
    (fun _ b => b) (fun _ _ _ _ _ hb => hb) .mumps .petsc (.inl rfl) (.inr rfl) f g N
  exact ⟨WL, WG, e1, e2, s0, t0, s, t, a, b, c, d, e⟩

example := C109_darcy_run_3d_partial chainLaunched chainValid (fun x => x) Rat.floor floor_nat (run_star 3 3)

end Verif.Props.Par
