import Verif.Props.StrCharge

/-!
# C115: Gauss's law in streamer runs
-/
set_option linter.unusedSectionVars false
set_option linter.unusedVariables false
set_option linter.unusedSimpArgs false
namespace Verif.Props.Par
open Verif.Fvm Verif.Spec Verif.Conn Verif.Dom Verif.Geo Verif.Names Verif.MeshFile Verif.Part Verif.Comm Verif.Run Verif.HaloGhost Verif.Interp
open Verif.LinSolve (ReadsRows SolvedWith InPlace)

/-- The field an iteration puts on the faces obeys Gauss's law, cell by cell. -/
theorem strStep_gauss (W : World ℝ) (S : StrSetup) (sv : LinSolve.Solver) (direct : (Nat → Nat → ℝ) → (Nat → ℝ) → Nat → ℝ) (n : Nat)
    (hpos : 0 < W.SIZE) (hE : LinSolve.NumberingOk (linEnv W S.bcP sv direct)) (hG : GaussLaw W S.bcP sv direct n) (s s' : StrState)
    (hs : SysOk (linEnv W S.bcP sv direct) (linBnd W S.bcP sv) s.sys) (hz : sv ≠ .petsc → RhsZero W (linEnv W S.bcP sv direct).loctoglob s.rhs)
    (r : Nat → ℝ) (hr : SourceOf W s r) (hsv : Solvable n (matrixOf W S.bcP) (fun g => boundaryOf W S.bcP g + r g))
    (e : strStep W S sv direct s = some s') :
    ∀ p < W.SIZE, ∀ c < (W.D p).nbcells, fieldOut (W.D p) (W.dim + 1) (s'.el p) c = 1.8096e-8 * ((W.D p).volume c * (s.ni p c - (s.V p).cell c)) := by
  obtain ⟨t, rhs, e1, _, hw, _⟩ := strSolve_ok W S sv direct hpos hE s hs hz r hr
  obtain ⟨V', nd, E, e2, hf⟩ := hG r t hsv hw (fun p => { s.P p with cell := t.cells p }) (fun _ _ => rfl)
  unfold strStep at e
  rw [e1] at e
  simp only [Option.bind_some] at e
  rw [e2] at e
  simp only [Option.bind_some] at e
  obtain ⟨m, _, rfl⟩ := Option.map_eq_some_iff.mp e
  intro p hp c hc
  show fieldOut (W.D p) (W.dim + 1) (E p) c = _
  rw [hf p hp c hc, show (linEnv W S.bcP sv direct).loctoglob p c = (if W.SIZE = 1 then c else (W.data p).loctoglob.getD c 0) from rfl, hr p hp c hc]
  ring

section
variable {dim : Nat} {nodeid : Nat → Nat → Nat} {node : Nat → ℝ × ℝ × ℝ × Nat} {cv : Nat → List ℝ} {npart0 epart : Nat → Nat}
  {nbnodes n SIZE : Nat} {data : Nat → RankData ℝ} {serial : RankData ℝ} {L : Nat → Tables ℝ} {G : Tables ℝ} {B : List Int}
  {out : Nat → Nat → Vec ℝ} {trunc : ℝ → Int}

/-- The fluxes out of the cells add up to the flux out of the domain. -/
theorem sum_fieldOut (h : NodePair dim nodeid node cv npart0 epart nbnodes n SIZE data serial L G B out trunc) (E : Nat → Vec ℝ) :
    ∑ C ∈ Finset.range G.nbcells, fieldOut G (dim + 1) E C = (G.boundaryfaces.map (through G E)).sum := by
  have h0 : 0 < SIZE := by have := h.run.hS; omega
  have R := h.run.rank 0 h0
  rw [Finset.sum_congr rfl (fun C hC => fieldOut_global R E (Finset.mem_range.mp hC))]
  unfold Run.dissip
  rw [C04_dissipative_conservative]
  · have hp : ((List.range G.nbfaces).filter (fun f => decide (G.name f ≠ 0))).Perm G.boundaryfaces := by
      rw [List.perm_ext_iff_of_nodup (List.nodup_range.filter _) R.cG.bnd.1]
      intro f
      rw [R.cG.bnd.2 f, List.mem_filter, List.mem_range]
      constructor
      · rintro ⟨a, b⟩; exact ⟨a, (h.nameG_cases a).resolve_left (by simpa using b)⟩
      · rintro ⟨a, b⟩; exact ⟨a, by have : G.name f ≠ 0 := fun x => R.cG.B0 (x ▸ b); simpa using this⟩
    rw [(hp.map _).sum_eq]
    congr 1
    apply List.map_congr_left
    intro f _
    simp only [diffFlux, unitD, through, one_mul]
  · intro f hf
    obtain ⟨C, hC, j, hj, rfl⟩ := R.cG.fsurj f hf
    rcases R.gkinds hC hj with ⟨_, _, _, e⟩ | ⟨E, hE, _, _, _, _, ⟨e, _⟩ | ⟨e, _⟩⟩ <;> rw [e] <;> exact ⟨by omega, by exact_mod_cast (by assumption)⟩
  · intro f hf hn
    obtain ⟨C, hC, j, hj, rfl⟩ := R.cG.fsurj f hf
    rcases R.gkinds hC hj with ⟨hB, _, _, e⟩ | ⟨E, hE, _, _, _, _, ⟨_, e⟩ | ⟨_, e⟩⟩
    · rw [hn] at hB; exact absurd hB R.cG.B0
    · rw [e]; exact ⟨by omega, by exact_mod_cast hE⟩
    · rw [e]; exact ⟨by omega, by exact_mod_cast hC⟩

theorem gaussStep_serial (h : NodePair dim nodeid node cv npart0 epart nbnodes n SIZE data serial L G B out trunc) (hs : Solid G dim out)
    (hw : dim = 3 → WedgeOk G ∧ ∀ p < SIZE, WedgeOk (L p)) (hgn : GhostNormal dim G) {hgG : Nat → HGResult ℝ} (sG : HGSerial dim G nbnodes (hgG 0))
    (S : StrSetup) (hcm : CornersMatch dim G S.bcP) (hdn : DirichletOrNeumann S.bcP)
    {direct : (Nat → Nat → ℝ) → (Nat → ℝ) → Nat → ℝ} (hdir : ReadsRows n direct) (hsol : SolvesSystems n direct) (sv : LinSolve.Solver) (t t' : StrState)
    (ht : SysOk (linEnv (serW dim serial G hgG) S.bcP sv direct) (linBnd (serW dim serial G hgG) S.bcP sv) t.sys)
    (hz : sv ≠ .petsc → RhsZero (serW dim serial G hgG) (linEnv (serW dim serial G hgG) S.bcP sv direct).loctoglob t.rhs)
    (e : strStep (serW dim serial G hgG) S sv direct t = some t') (r : Nat → ℝ) (hr : SourceOf (serW dim serial G hgG) t r)
    (hsv : Solvable n (matrixOf (serW dim serial G hgG) S.bcP) (fun g => boundaryOf (serW dim serial G hgG) S.bcP g + r g)) :
    GaussStep (serW dim serial G hgG) t t' := by
  have key := strStep_gauss _ S sv direct n (by show 0 < 1; omega) (h.lin_numbering_serial S.bcP hgG sv direct).1
    (gauss_serial h hs hw hgn hcm hdn sG hdir hsol sv) t t' ht hz r hr hsv e
  refine ⟨key, ?_⟩
  have e1 : fieldOutflow (serW dim serial G hgG) t' = (G.boundaryfaces.map (through G (t'.el 0))).sum := by
    unfold fieldOutflow
    show ∑ p ∈ Finset.range 1, _ = _
    rw [Finset.sum_range_one]
  have e2 : totalCharge (serW dim serial G hgG) t = ∑ C ∈ Finset.range G.nbcells, G.volume C * (t.ni 0 C - (t.V 0).cell C) := by
    unfold totalCharge; simp [serW]
  rw [e1, e2, ← sum_fieldOut h, Finset.mul_sum]
  refine Finset.sum_congr rfl fun C hC => ?_
  exact key 0 (by show 0 < 1; omega) C (Finset.mem_range.mp hC)

theorem gaussStep_par (h : NodePair dim nodeid node cv npart0 epart nbnodes n SIZE data serial L G B out trunc) (hs : Solid G dim out)
    (hw : dim = 3 → WedgeOk G ∧ ∀ p < SIZE, WedgeOk (L p)) (hgn : GhostNormal dim G) {hgL hgG : Nat → HGResult ℝ}
    (sL : ∀ p < SIZE, ∃ rows, HGSpec dim SIZE data L p (hgL p) rows) (sG : HGSerial dim G nbnodes (hgG 0)) (star : StarConnected dim nodeid n)
    (S : StrSetup) (hcm : CornersMatch dim G S.bcP) (hdn : DirichletOrNeumann S.bcP)
    {direct : (Nat → Nat → ℝ) → (Nat → ℝ) → Nat → ℝ} (hdir : ReadsRows n direct) (hsol : SolvesSystems n direct) (svL svG : LinSolve.Solver) (s s' t t' : StrState)
    (m : StrMatch dim SIZE data L G (parW dim SIZE data L hgL) (serW dim serial G hgG) S svL svG direct s t)
    (m' : StrMatch dim SIZE data L G (parW dim SIZE data L hgL) (serW dim serial G hgG) S svL svG direct s' t')
    (e : strStep (parW dim SIZE data L hgL) S svL direct s = some s') (e' : strStep (serW dim serial G hgG) S svG direct t = some t')
    (r : Nat → ℝ) (hr : SourceOf (parW dim SIZE data L hgL) s r)
    (hsv : Solvable n (matrixOf (parW dim SIZE data L hgL) S.bcP) (fun g => boundaryOf (parW dim SIZE data L hgL) S.bcP g + r g)) :
    GaussStep (parW dim SIZE data L hgL) s s' := by
  have hS := h.run.hS
  have key := strStep_gauss _ S svL direct n (by show 0 < SIZE; omega) (h.lin_numbering S.bcP hgL svL direct).1
    (gauss_par h hs hw hgn star hcm hdn sL sG hdir hsol svL) s s' m.sysL m.zL r hr hsv e
  refine ⟨key, ?_⟩
  have e1 : fieldOutflow (parW dim SIZE data L hgL) s' = (G.boundaryfaces.map (through G (t'.el 0))).sum := by
    unfold fieldOutflow
    refine h.run.sum_boundary (fun p f => through (L p) (s'.el p) f) _ ?_
    intro p hp c hc j hj b1 b2 b3 b4
    have R := h.run.rank p hp
    unfold through
    rw [m'.el p hp c hc j hj 0 (by omega), m'.el p hp c hc j hj 1 (by omega), m'.el p hp c hc j hj 2 (by omega)]
    have hn : ∀ k < 3, (L p).normal ((L p).faceid c j) k = G.normal (G.faceid (phi (data p) c) j) k := fun k hk => by
      rw [R.normalL c hc j hj b2 k hk, R.normalG _ (R.sub.lt c hc).1 j hj b3 k hk]
    rw [hn 0 (by omega), hn 1 (by omega), hn 2 (by omega)]
  have e2 : ∀ p < SIZE, ∀ c < (L p).nbcells, fieldOut (L p) (dim + 1) (s'.el p) c = fieldOut G (dim + 1) (t'.el 0) (phi (data p) c) := by
    intro p hp c hc
    have R := h.run.rank p hp
    rw [fieldOut_local R _ hc, fieldOut_global R _ (R.sub.lt c hc).1]
    exact h.dissip_eq unitD hp _ _ (m'.el p hp) hc
  rw [e1, ← sum_fieldOut h, h.run.nG, ← h.run.sum_cells]
  unfold totalCharge
  rw [Finset.mul_sum]
  refine Finset.sum_congr rfl fun p hp => ?_
  rw [Finset.mul_sum]
  refine Finset.sum_congr rfl fun c hc => ?_
  have hp := Finset.mem_range.mp hp
  have hc := Finset.mem_range.mp hc
  rw [← e2 p hp c hc]
  exact key p hp c hc
end

section
variable {nodeid : Nat → Nat → Nat} {node : Nat → ℝ × ℝ × ℝ × Nat} {npart0 epart : Nat → Nat}
  {nbnodes n SIZE : Nat} {data : Nat → RankData ℝ} {serial : RankData ℝ}

/-- **C115** (2D, one process): in every iteration of a streamer run in which the system of the potential has a solution, the field obeys
Gauss's law for the charges at the start of the iteration. -/
theorem C115_gauss_serial_2d_partial (vm : ValidMesh2 nodeid node nbnodes n)
    (hr : readMeshFile 1 0 (writeSerial (serialWrite nodeid node nbnodes n 3)) [] = some serial)
    (sqrt : ℝ → ℝ) (hs : ∀ x, 0 < x → sqrt x ≠ 0) (trunc : ℝ → Int) (htr : ∀ m : Nat, trunc (m : ℝ) = m) :
    ∃ W, mkWorld 2 1 (fun _ => serial) (fun _ => build2 sqrt trunc 1 serial) = some W ∧
      ∀ (S : StrSetup), S.grad = true → DirichletOrNeumann S.bcP → CornersMatch 2 (build2 sqrt trunc 1 serial) S.bcP →
        ∀ direct, ReadsRows n direct → SolvesSystems n direct → ∀ (sv : LinSolve.Solver), InPlace sv → ∀ (f fi g : ℝ → ℝ → ℝ → ℝ) (N : Nat),
        ∃ s0 s s', strStart W S sv direct f fi g = some s0 ∧ strLoop W S sv direct s0 N = some s ∧ strStep W S sv direct s = some s' ∧
          ∀ r, SourceOf W s r → Solvable n (matrixOf W S.bcP) (fun g => boundaryOf W S.bcP g + r g) → GaussStep W s s' := by
  obtain ⟨data, h⟩ := launched_of_serial (centvol2 node nodeid) (by omega) vm.nodes vm.used hr
  have np := h.nodePair2 vm sqrt trunc htr
  obtain ⟨hgL, hgG, w1, w2, sL, sG⟩ := np.worlds
  refine ⟨_, w2, fun S hg hdn hcm direct h1 h2 sv _ f fi g N => ?_⟩
  obtain ⟨s0, s, e0, e1, _, i1, i2⟩ := strLoop_serial np S hg direct sv f fi g (fun _ => True) (fun _ _ => trivial) (fun _ _ _ _ => trivial) N
  obtain ⟨s', e2, _⟩ := strStep_serial np S hg direct sv s ⟨i1, i2⟩
  exact ⟨s0, s, s', e0, e1, e2, fun r hr hsv => gaussStep_serial np (h.solid2 vm sqrt hs trunc htr) (by omega) (ghostNormal_build2 h vm sqrt hs trunc htr) sG S hcm hdn h1 h2 sv s s' i1 i2 e2 r hr hsv⟩

/-- **C115** (2D, any number of processes, any partition). -/
theorem C115_gauss_2d_partial (h : Launched 3 nodeid node (centvol2 node nodeid) npart0 epart nbnodes n SIZE data serial)
    (vm : ValidMesh2 nodeid node nbnodes n) (sqrt : ℝ → ℝ) (hs : ∀ x, 0 < x → sqrt x ≠ 0) (trunc : ℝ → Int) (htr : ∀ m : Nat, trunc (m : ℝ) = m)
    (star : StarConnected 2 nodeid n) :
    ∃ W, mkWorld 2 SIZE data (fun p => build2 sqrt trunc SIZE (data p)) = some W ∧
      ∀ (S : StrSetup), S.grad = true → CornersOk 2 nodeid epart n (build2 sqrt trunc 1 serial) S.bc →
        DirichletOrNeumann S.bcP → CornersMatch 2 (build2 sqrt trunc 1 serial) S.bcP →
        ∀ direct, ReadsRows n direct → SolvesSystems n direct → ∀ (sv : LinSolve.Solver), InPlace sv → ∀ (f fi g : ℝ → ℝ → ℝ → ℝ) (N : Nat),
        ∃ s0 s s', strStart W S sv direct f fi g = some s0 ∧ strLoop W S sv direct s0 N = some s ∧ strStep W S sv direct s = some s' ∧
          ∀ r, SourceOf W s r → Solvable n (matrixOf W S.bcP) (fun g => boundaryOf W S.bcP g + r g) → GaussStep W s s' := by
  have np := h.nodePair2 vm sqrt trunc htr
  obtain ⟨hgL, hgG, w1, w2, sL, sG⟩ := np.worlds
  refine ⟨_, w1, fun S hg hbc hdn hcm direct h1 h2 sv hip f fi g N => ?_⟩
  have hbP : FieldCornersOk 2 nodeid epart n (build2 sqrt trunc 1 serial) S.bcP := fun F hF s hs _ => hcm F hF s hs
  obtain ⟨s0, t0, a1, a2, m0⟩ := strStart_match np hgL hgG S direct sv .mumps hip f fi g
  obtain ⟨s, t, e1, e2, m⟩ := strLoop_match np (by omega) sL sG S hg ⟨star, hbc⟩ hbP direct h1 sv .mumps s0 t0 m0 N
  obtain ⟨s', t', f1, f2, m'⟩ := strStep_match np (by omega) sL sG S hg ⟨star, hbc⟩ hbP direct h1 sv .mumps s t m
  exact ⟨s0, s, s', a1, e1, f1, fun r hr hsv => gaussStep_par np (h.solid2 vm sqrt hs trunc htr) (by omega) (ghostNormal_build2 h vm sqrt hs trunc htr) sL sG star S hcm hdn h1 h2 sv .mumps s s' t t' m m' f1 f2 r hr hsv⟩

/-- **C115** (3D, one process): in every iteration of a streamer run in which the system of the potential has a solution, the field obeys
Gauss's law for the charges at the start of the iteration. -/
theorem C115_gauss_serial_3d_partial (vm : ValidMesh3 nodeid node nbnodes n)
    (hr : readMeshFile 1 0 (writeSerial (serialWrite nodeid node nbnodes n 4)) [] = some serial)
    (sqrt : ℝ → ℝ) (hs : ∀ x, 0 < x → sqrt x ≠ 0) (trunc : ℝ → Int) (htr : ∀ m : Nat, trunc (m : ℝ) = m) :
    ∃ W, mkWorld 3 1 (fun _ => serial) (fun _ => build3 sqrt trunc 1 serial) = some W ∧
      ∀ (S : StrSetup), S.grad = true → DirichletOrNeumann S.bcP → CornersMatch 3 (build3 sqrt trunc 1 serial) S.bcP →
        ∀ direct, ReadsRows n direct → SolvesSystems n direct → ∀ (sv : LinSolve.Solver), InPlace sv → ∀ (f fi g : ℝ → ℝ → ℝ → ℝ) (N : Nat),
        ∃ s0 s s', strStart W S sv direct f fi g = some s0 ∧ strLoop W S sv direct s0 N = some s ∧ strStep W S sv direct s = some s' ∧
          ∀ r, SourceOf W s r → Solvable n (matrixOf W S.bcP) (fun g => boundaryOf W S.bcP g + r g) → GaussStep W s s' := by
  obtain ⟨data, h⟩ := launched_of_serial (centvol3 node nodeid) (by omega) vm.nodes vm.used hr
  have np := h.nodePair3 vm sqrt trunc htr
  obtain ⟨hgL, hgG, w1, w2, sL, sG⟩ := np.worlds
  refine ⟨_, w2, fun S hg hdn hcm direct h1 h2 sv _ f fi g N => ?_⟩
  obtain ⟨s0, s, e0, e1, _, i1, i2⟩ := strLoop_serial np S hg direct sv f fi g (fun _ => True) (fun _ _ => trivial) (fun _ _ _ _ => trivial) N
  obtain ⟨s', e2, _⟩ := strStep_serial np S hg direct sv s ⟨i1, i2⟩
  exact ⟨s0, s, s', e0, e1, e2, fun r hr hsv => gaussStep_serial np (h.solid3 vm sqrt hs trunc htr) (fun _ => ⟨wedge_build3 sqrt trunc 1 serial, fun p _ => wedge_build3 sqrt trunc 2 (data p)⟩) (ghostNormal3 _) sG S hcm hdn h1 h2 sv s s' i1 i2 e2 r hr hsv⟩

/-- **C115** (3D, any number of processes, any partition). -/
theorem C115_gauss_3d_partial (h : Launched 4 nodeid node (centvol3 node nodeid) npart0 epart nbnodes n SIZE data serial)
    (vm : ValidMesh3 nodeid node nbnodes n) (sqrt : ℝ → ℝ) (hs : ∀ x, 0 < x → sqrt x ≠ 0) (trunc : ℝ → Int) (htr : ∀ m : Nat, trunc (m : ℝ) = m)
    (star : StarConnected 3 nodeid n) :
    ∃ W, mkWorld 3 SIZE data (fun p => build3 sqrt trunc SIZE (data p)) = some W ∧
      ∀ (S : StrSetup), S.grad = true → CornersOk 3 nodeid epart n (build3 sqrt trunc 1 serial) S.bc →
        DirichletOrNeumann S.bcP → CornersMatch 3 (build3 sqrt trunc 1 serial) S.bcP →
        ∀ direct, ReadsRows n direct → SolvesSystems n direct → ∀ (sv : LinSolve.Solver), InPlace sv → ∀ (f fi g : ℝ → ℝ → ℝ → ℝ) (N : Nat),
        ∃ s0 s s', strStart W S sv direct f fi g = some s0 ∧ strLoop W S sv direct s0 N = some s ∧ strStep W S sv direct s = some s' ∧
          ∀ r, SourceOf W s r → Solvable n (matrixOf W S.bcP) (fun g => boundaryOf W S.bcP g + r g) → GaussStep W s s' := by
  have np := h.nodePair3 vm sqrt trunc htr
  obtain ⟨hgL, hgG, w1, w2, sL, sG⟩ := np.worlds
  refine ⟨_, w1, fun S hg hbc hdn hcm direct h1 h2 sv hip f fi g N => ?_⟩
  have hbP : FieldCornersOk 3 nodeid epart n (build3 sqrt trunc 1 serial) S.bcP := fun F hF s hs _ => hcm F hF s hs
  obtain ⟨s0, t0, a1, a2, m0⟩ := strStart_match np hgL hgG S direct sv .mumps hip f fi g
  obtain ⟨s, t, e1, e2, m⟩ := strLoop_match np (fun _ => ⟨wedge_build3 sqrt trunc 1 serial, fun p hp => wedge_build3 sqrt trunc SIZE (data p)⟩) sL sG S hg ⟨star, hbc⟩ hbP direct h1 sv .mumps s0 t0 m0 N
  obtain ⟨s', t', f1, f2, m'⟩ := strStep_match np (fun _ => ⟨wedge_build3 sqrt trunc 1 serial, fun p hp => wedge_build3 sqrt trunc SIZE (data p)⟩) sL sG S hg ⟨star, hbc⟩ hbP direct h1 sv .mumps s t m
  exact ⟨s0, s, s', a1, e1, f1, fun r hr hsv => gaussStep_par np (h.solid3 vm sqrt hs trunc htr) (fun _ => ⟨wedge_build3 sqrt trunc 1 serial, fun p hp => wedge_build3 sqrt trunc SIZE (data p)⟩) (ghostNormal3 _) sL sG star S hcm hdn h1 h2 sv .mumps s s' t t' m m' f1 f2 r hr hsv⟩

end
/-! ### the hypotheses are met -/

/-- The centre of cell `C` of the strip has abscissa `C + 1`. -/
theorem strip_center {cv : Nat → List ℝ} {data : Nat → RankData ℝ} {serial : RankData ℝ}
    (h : Launched 3 exStrip (realNode stripNode) cv exN exE 6 4 2 data serial) (sqrt : ℝ → ℝ) (trunc : ℝ → Int) {C : Nat} (hC : C < 4) :
    (build2 sqrt trunc 1 serial).center C 0 = (C : ℝ) + 1 := by
  rw [center_build2 sqrt trunc 1 serial (by rw [h.serial_cells.1]; exact hC), h.row2S hC]
  have hv : ∀ s < 6, vtx serial s 0 = (s : ℝ) := by
    intro s hs
    have := (h.serial_cells.2.2.1 s hs).1 0 (by omega)
    rw [show vtx serial s 0 = at2 0 serial.vertex s 0 from rfl, this]
    simp [pos, realNode, stripNode]
  simp only [center2, exStrip]
  rw [hv _ (by omega), hv _ (by omega), hv _ (by omega)]
  push_cast
  ring

/-- Charges that produce the potential `Q` on the strip: the system of the potential has a solution, and the field of the first iteration
obeys Gauss's law. -/
example (Q : Nat → ℝ) : ∃ (data : Nat → RankData ℝ) (serial : RankData ℝ) (W : World ℝ), mkWorld 2 2 data (fun p => build2 Real.sqrt Int.floor 2 (data p)) = some W ∧
    ∃ direct f s0 s', strStart W strSetup .mumps direct f (fun _ _ _ => 0) (fun _ _ _ => 0) = some s0 ∧ strStep W strSetup .mumps direct s0 = some s' ∧
      (∀ p < 2, ∀ c < (W.D p).nbcells, 1.8096e-8 * (s0.V p).cell c = ∑ j ∈ Finset.range 4, matrixOf W strSetup.bcP ((data p).loctoglob.getD c 0) j * Q j
        - boundaryOf W strSetup.bcP ((data p).loctoglob.getD c 0)) ∧ GaussStep W s0 s' := by
  obtain ⟨data, serial, h⟩ := realStripLaunched
  have vm := validReal stripValid
  have np := h.nodePair2 vm Real.sqrt Int.floor floor_real
  obtain ⟨W, e, H⟩ := C115_gauss_2d_partial h vm Real.sqrt (fun x hx => (Real.sqrt_pos.mpr hx).ne') Int.floor floor_real (run_star 2 4)
  obtain ⟨direct, h1, h2⟩ := solver_exists (K := ℝ) 4
  obtain ⟨r, hr⟩ : ∃ r : Nat → ℝ, r = fun g => ∑ j ∈ Finset.range 4, matrixOf W strSetup.bcP g j * Q j - boundaryOf W strSetup.bcP g := ⟨_, rfl⟩
  obtain ⟨f, hf⟩ : ∃ f : ℝ → ℝ → ℝ → ℝ, f = fun x _ _ => r (⌊x⌋.toNat - 1) / 1.8096e-8 := ⟨_, rfl⟩
  obtain ⟨hgL, hgG, w1, w2, sL, sG⟩ := np.worlds
  obtain rfl : parW 2 2 data (fun p => build2 Real.sqrt Int.floor 2 (data p)) hgL = W := Option.some.inj (w1.symm.trans e)
  obtain ⟨s0, s, s', e0, e1, e2, hG⟩ := H strSetup rfl
    (fun _ _ _ _ _ => Or.inl rfl) (fun _ => Or.inl rfl) (C110_dirichlet_corners_2d h vm Real.sqrt Int.floor floor_real _) direct h1 h2 .mumps (.inl rfl) f (fun _ _ _ => 0) (fun _ _ _ => 0) 0
  obtain rfl : s0 = s := Option.some.inj e1
  obtain ⟨s1, es, _, _, _, _, _, hV, hni, _⟩ := strStart_eq (parW 2 2 data (fun p => build2 Real.sqrt Int.floor 2 (data p)) hgL) strSetup .mumps direct f (fun _ _ _ => 0) (fun _ _ _ => 0) (.inr (.inl rfl))
  obtain rfl := Option.some.inj (es.symm.trans e0)
  have hcell : ∀ p < 2, ∀ c < (build2 Real.sqrt Int.floor 2 (data p)).nbcells, 1.8096e-8 * (s1.V p).cell c = r ((data p).loctoglob.getD c 0) := by
    intro p hp c hc
    have R := np.run.rank p hp
    have hlt : phi (data p) c < 4 := by have := (R.sub.lt c hc).1; rwa [np.run.nG] at this
    rw [hV p]
    show 1.8096e-8 * f ((build2 Real.sqrt Int.floor 2 (data p)).center c 0) _ _ = _
    have hcen : (build2 Real.sqrt Int.floor 2 (data p)).center c 0 = ((phi (data p) c + 1 : Nat) : ℝ) := by
      rw [R.center c hc 0 (by omega), strip_center h Real.sqrt Int.floor hlt]; push_cast; rfl
    rw [hcen, hf]
    dsimp only
    rw [Int.floor_natCast, Int.toNat_natCast, Nat.add_sub_cancel, show phi (data p) c = (data p).loctoglob.getD c 0 from rfl]
    ring
  refine ⟨data, serial, _, e, direct, f, s1, s', e0, e2, ?_, ?_⟩
  · intro p hp c hc; rw [hcell p hp c hc, hr]
  · refine hG r ?_ ⟨Q, fun i _ => by rw [hr]; ring⟩
    intro p hp c hc
    show r (if (2 : Nat) = 1 then c else (data p).loctoglob.getD c 0) = _
    rw [if_neg (by omega), hni, ← hcell p hp c hc]
    ring

/-- The centre of cell `C` of the chain has abscissa `C + 3/2`. -/
theorem chain_center {cv : Nat → List ℝ} {data : Nat → RankData ℝ} {serial : RankData ℝ}
    (h : Launched 4 chainCell (realNode chainNode) cv chainNodePart chainPart 6 3 2 data serial) (sqrt : ℝ → ℝ) (trunc : ℝ → Int) {C : Nat} (hC : C < 3) :
    (build3 sqrt trunc 1 serial).center C 0 = (C : ℝ) + 3 / 2 := by
  rw [center_build3 sqrt trunc 1 serial (by rw [h.serial_cells.1]; exact hC), h.row3S hC]
  have hv : ∀ s < 6, vtx serial s 0 = (s : ℝ) := by
    intro s hs
    have := (h.serial_cells.2.2.1 s hs).1 0 (by omega)
    rw [show vtx serial s 0 = at2 0 serial.vertex s 0 from rfl, this]
    simp [pos, realNode, chainNode]
  simp only [center3, chainCell]
  rw [hv _ (by omega), hv _ (by omega), hv _ (by omega), hv _ (by omega)]
  push_cast
  ring

/-- Charges that produce the potential `Q` on the chain: the system of the potential has a solution, and the field of the first iteration
obeys Gauss's law. -/
example (Q : Nat → ℝ) : ∃ (data : Nat → RankData ℝ) (serial : RankData ℝ) (W : World ℝ), mkWorld 3 2 data (fun p => build3 Real.sqrt Int.floor 2 (data p)) = some W ∧
    ∃ direct f s0 s', strStart W strSetup .mumps direct f (fun _ _ _ => 0) (fun _ _ _ => 0) = some s0 ∧ strStep W strSetup .mumps direct s0 = some s' ∧
      (∀ p < 2, ∀ c < (W.D p).nbcells, 1.8096e-8 * (s0.V p).cell c = ∑ j ∈ Finset.range 3, matrixOf W strSetup.bcP ((data p).loctoglob.getD c 0) j * Q j
        - boundaryOf W strSetup.bcP ((data p).loctoglob.getD c 0)) ∧ GaussStep W s0 s' := by
  obtain ⟨data, serial, h⟩ := realChainLaunched
  have vm := validReal3 chainValid
  have np := h.nodePair3 vm Real.sqrt Int.floor floor_real
  obtain ⟨W, e, H⟩ := C115_gauss_3d_partial h vm Real.sqrt (fun x hx => (Real.sqrt_pos.mpr hx).ne') Int.floor floor_real (run_star 3 3)
  obtain ⟨direct, h1, h2⟩ := solver_exists (K := ℝ) 3
  obtain ⟨r, hr⟩ : ∃ r : Nat → ℝ, r = fun g => ∑ j ∈ Finset.range 3, matrixOf W strSetup.bcP g j * Q j - boundaryOf W strSetup.bcP g := ⟨_, rfl⟩
  obtain ⟨f, hf⟩ : ∃ f : ℝ → ℝ → ℝ → ℝ, f = fun x _ _ => r (⌊x⌋.toNat - 1) / 1.8096e-8 := ⟨_, rfl⟩
  obtain ⟨hgL, hgG, w1, w2, sL, sG⟩ := np.worlds
  obtain rfl : parW 3 2 data (fun p => build3 Real.sqrt Int.floor 2 (data p)) hgL = W := Option.some.inj (w1.symm.trans e)
  obtain ⟨s0, s, s', e0, e1, e2, hG⟩ := H strSetup rfl
    (fun _ _ _ _ _ => Or.inl rfl) (fun _ => Or.inl rfl) (C110_dirichlet_corners_3d h vm Real.sqrt Int.floor floor_real _) direct h1 h2 .mumps (.inl rfl) f (fun _ _ _ => 0) (fun _ _ _ => 0) 0
  obtain rfl : s0 = s := Option.some.inj e1
  obtain ⟨s1, es, _, _, _, _, _, hV, hni, _⟩ := strStart_eq (parW 3 2 data (fun p => build3 Real.sqrt Int.floor 2 (data p)) hgL) strSetup .mumps direct f (fun _ _ _ => 0) (fun _ _ _ => 0) (.inr (.inl rfl))
  obtain rfl := Option.some.inj (es.symm.trans e0)
  have hcell : ∀ p < 2, ∀ c < (build3 Real.sqrt Int.floor 2 (data p)).nbcells, 1.8096e-8 * (s1.V p).cell c = r ((data p).loctoglob.getD c 0) := by
    intro p hp c hc
    have R := np.run.rank p hp
    have hlt : phi (data p) c < 3 := by have := (R.sub.lt c hc).1; rwa [np.run.nG] at this
    rw [hV p]
    show 1.8096e-8 * f ((build3 Real.sqrt Int.floor 2 (data p)).center c 0) _ _ = _
    have hcen : (build3 Real.sqrt Int.floor 2 (data p)).center c 0 = (phi (data p) c : ℝ) + 3 / 2 := by
      rw [R.center c hc 0 (by omega), chain_center h Real.sqrt Int.floor hlt]
    rw [hcen, hf]
    dsimp only
    have hfl : ⌊(phi (data p) c : ℝ) + 3 / 2⌋ = ((phi (data p) c + 1 : Nat) : Int) := by
      rw [Int.floor_eq_iff]; push_cast; constructor <;> linarith
    rw [hfl, Int.toNat_natCast, Nat.add_sub_cancel, show phi (data p) c = (data p).loctoglob.getD c 0 from rfl]
    ring
  refine ⟨data, serial, _, e, direct, f, s1, s', e0, e2, ?_, ?_⟩
  · intro p hp c hc; rw [hcell p hp c hc, hr]
  · refine hG r ?_ ⟨Q, fun i _ => by rw [hr]; ring⟩
    intro p hp c hc
    show r (if (2 : Nat) = 1 then c else (data p).loctoglob.getD c 0) = _
    rw [if_neg (by omega), hni, ← hcell p hp c hc]
    ring

/-- One process. -/
example (Q : Nat → ℝ) : ∃ (serial : RankData ℝ) (W : World ℝ), mkWorld 2 1 (fun _ => serial) (fun _ => build2 Real.sqrt Int.floor 1 serial) = some W ∧
    ∃ direct f s0 s', strStart W strSetup .petsc direct f (fun _ _ _ => 0) (fun _ _ _ => 0) = some s0 ∧ strStep W strSetup .petsc direct s0 = some s' ∧
      (∀ c < 4, 1.8096e-8 * (s0.V 0).cell c = ∑ j ∈ Finset.range 4, matrixOf W strSetup.bcP c j * Q j - boundaryOf W strSetup.bcP c) ∧ GaussStep W s0 s' := by
  obtain ⟨data, serial, h⟩ := realStripLaunched
  have vm := validReal stripValid
  have np := h.nodePair2 vm Real.sqrt Int.floor floor_real
  obtain ⟨W, e, H⟩ := C115_gauss_serial_2d_partial vm h.hserial Real.sqrt (fun x hx => (Real.sqrt_pos.mpr hx).ne') Int.floor floor_real
  obtain ⟨direct, h1, h2⟩ := solver_exists (K := ℝ) 4
  obtain ⟨r, hr⟩ : ∃ r : Nat → ℝ, r = fun g => ∑ j ∈ Finset.range 4, matrixOf W strSetup.bcP g j * Q j - boundaryOf W strSetup.bcP g := ⟨_, rfl⟩
  obtain ⟨f, hf⟩ : ∃ f : ℝ → ℝ → ℝ → ℝ, f = fun x _ _ => r (⌊x⌋.toNat - 1) / 1.8096e-8 := ⟨_, rfl⟩
  obtain ⟨hgL, hgG, w1, w2, sL, sG⟩ := np.worlds
  obtain rfl : serW 2 serial (build2 Real.sqrt Int.floor 1 serial) hgG = W := Option.some.inj (w2.symm.trans e)
  obtain ⟨s0, s, s', e0, e1, e2, hG⟩ := H strSetup rfl (fun _ => Or.inl rfl)
    (C110_dirichlet_corners_2d h vm Real.sqrt Int.floor floor_real _) direct h1 h2 .petsc (.inr rfl) f (fun _ _ _ => 0) (fun _ _ _ => 0) 0
  obtain rfl : s0 = s := Option.some.inj e1
  obtain ⟨s1, es, _, _, _, _, _, hV, hni, _⟩ := strStart_eq (serW 2 serial (build2 Real.sqrt Int.floor 1 serial) hgG) strSetup .petsc direct f (fun _ _ _ => 0) (fun _ _ _ => 0) (.inl rfl)
  obtain rfl := Option.some.inj (es.symm.trans e0)
  have hcell : ∀ c < 4, 1.8096e-8 * (s1.V 0).cell c = r c := by
    intro c hc
    rw [hV 0]
    show 1.8096e-8 * f ((build2 Real.sqrt Int.floor 1 serial).center c 0) _ _ = _
    have hcen : (build2 Real.sqrt Int.floor 1 serial).center c 0 = ((c + 1 : Nat) : ℝ) := by
      rw [strip_center h Real.sqrt Int.floor hc]; push_cast; rfl
    rw [hcen, hf]
    dsimp only
    rw [Int.floor_natCast, Int.toNat_natCast, Nat.add_sub_cancel]
    ring
  refine ⟨serial, _, e, direct, f, s1, s', e0, e2, ?_, ?_⟩
  · intro c hc; rw [hcell c hc, hr]
  · refine hG r ?_ ⟨Q, fun i _ => by rw [hr]; ring⟩
    intro p hp c hc
    have hp0 : p = 0 := by have : p < 1 := hp; omega
    subst hp0
    show r (if (1 : Nat) = 1 then c else _) = _
    have hc' : c < 4 := by have := hc; rw [show ((serW 2 serial (build2 Real.sqrt Int.floor 1 serial) hgG).D 0).nbcells = (build2 Real.sqrt Int.floor 1 serial).nbcells from rfl, np.run.nG] at this; exact this
    rw [if_pos rfl, hni, ← hcell c hc']
    ring

end Verif.Props.Par
