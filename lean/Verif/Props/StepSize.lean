import Verif.Spec.StepSize
import Verif.Props.RunEnd
import Verif.Props.SWTracer
import Verif.Props.StrStale
import Verif.Props.DarcyBounds

/-!
# C123: every iteration takes the largest time step that the CFL limits of all cells of all processes allow
-/
set_option linter.unusedSectionVars false
set_option linter.unusedSimpArgs false
set_option linter.unusedVariables false
namespace Verif.Props.Par
open Verif Verif.Dom Verif.Fvm Verif.MeshFile Verif.Run Verif.Spec Verif.Geo Verif.Comm Verif.Conn Verif.HaloGhost Verif.LinSys
open scoped BigOperators
variable {K : Type*} [Field K] [LinearOrder K] [IsStrictOrderedRing K]

/-- All faces of all cells have a size. -/
def SizedFaces (W : World K) : Prop := ∀ p < W.SIZE, ∀ c < (W.D p).nbcells, ∀ j < W.dim + 1, (W.D p).mesure ((W.D p).faceid c j) ≠ 0

theorem stepOf_allreduce {W : World K} (hS : 0 < W.SIZE) {q : Nat → Nat → Prop} {lim : Nat → Nat → K} {dt : Nat → K}
    (h : ∀ p < W.SIZE, ∀ x, x ≤ dt p ↔ x ≤ 1000000 ∧ ∀ c < (W.D p).nbcells, q p c → x ≤ lim p c) :
    StepOf W q lim (allreduceMin W.SIZE dt) := by
  have key : ∀ x, x ≤ allreduceMin W.SIZE dt ↔ x ≤ 1000000 ∧ ∀ p < W.SIZE, ∀ c < (W.D p).nbcells, q p c → x ≤ lim p c := by
    intro x
    unfold allreduceMin
    rw [le_foldl_min]
    constructor
    · rintro ⟨h0, h1⟩
      exact ⟨((h 0 hS x).mp h0).1, fun p hp => ((h p hp x).mp (h1 p (List.mem_range.mpr hp))).2⟩
    · rintro ⟨h0, h1⟩
      exact ⟨(h 0 hS x).mpr ⟨h0, h1 0 hS⟩, fun p hp => (h p (List.mem_range.mp hp) x).mpr ⟨h0, h1 p (List.mem_range.mp hp)⟩⟩
  exact ⟨(key _).mp le_rfl, fun x hx => (key x).mpr hx⟩

theorem toCells_mean (dim : Nat) (D : Tables K) (x : Nat → K) : toCells dim D x = faceMean dim D x := by
  funext c
  unfold toCells faceMean
  rw [Interp.facetocell_eq, List.map_map]
  congr 1

theorem le_cfl {dim : Nat} {D : Tables K} (hm : ∀ c < D.nbcells, ∀ j < dim + 1, D.mesure (D.faceid c j) ≠ 0) (vel : Nat → Vec K) (cfl Dxx Dyy Dzz x : K) :
    x ≤ timeStep D.nbcells (toCells dim D (fun f => vel f 0)) (toCells dim D (fun f => vel f 1)) (toCells dim D (fun f => vel f 2))
        cfl D.normal D.mesure D.volume D.faceid dim Dxx Dyy Dzz ↔
      x ≤ 1000000 ∧ ∀ c < D.nbcells, True → x ≤ cflLimit dim D vel cfl Dxx Dyy Dzz c := by
  unfold timeStep timeStepOver
  rw [le_foldl_min]
  refine and_congr_right fun _ => forall_congr' fun c => ?_
  rw [List.mem_range]
  refine ⟨fun h hc _ => ?_, fun h hc => ?_⟩
  · have := h hc
    rw [cellLam_eq _ _ _ _ _ _ _ _ _ _ _ c (hm c hc)] at this
    simp only [toCells_mean] at this
    exact this
  · rw [cellLam_eq _ _ _ _ _ _ _ _ _ _ _ c (hm c hc)]
    simp only [toCells_mean]
    exact h hc trivial

theorem tstep_parts_time {W : World K} {S : Setup K} {order : Int} {diff : Bool} {s s' : TState K} (h : tstep W S order diff s = some s') :
    s'.time - s.time = allreduceMin W.SIZE (fun p => localStep W.dim S (W.D p) s.iter) := by
  unfold tstep at h
  obtain ⟨V1, e1, h⟩ := Option.bind_eq_some_iff.mp h
  obtain ⟨r, e3, h⟩ := Option.bind_eq_some_iff.mp h
  dsimp only at h
  split at h
  · obtain ⟨q, e4, h⟩ := Option.bind_eq_some_iff.mp h
    obtain ⟨o, e5, h⟩ := Option.map_eq_some_iff.mp h
    rw [← h]; simp
  · rw [← Option.some.inj h]; simp

theorem darcyMove_dt {W : World K} {S : DSetup K} {vel : Nat → Nat → Vec K} {V : Nat → Vari K} {m : (Nat → Vari K) × (Nat → Nat → K) × K}
    (h : darcyMove W S vel V = some m) : m.2.2 = allreduceMin W.SIZE (fun p => darcyDt W.dim S (W.D p) (vel p)) := by
  unfold darcyMove at h
  obtain ⟨V1, e1, h⟩ := Option.bind_eq_some_iff.mp h
  obtain ⟨r, e3, h⟩ := Option.bind_eq_some_iff.mp h
  obtain ⟨q, e4, h⟩ := Option.bind_eq_some_iff.mp h
  obtain ⟨o, e5, h⟩ := Option.map_eq_some_iff.mp h
  rw [← h]

theorem darcyStep_dt {W : World K} {S : DSetup K} {sv : LinSolve.Solver} {direct : (Nat → Nat → K) → (Nat → K) → Nat → K} {s s' : DState K}
    (h : darcyStep W S sv direct s = some s') : s'.time - s.time = allreduceMin W.SIZE (fun p => darcyDt W.dim S (W.D p) (s'.vel p)) := by
  unfold darcyStep at h
  obtain ⟨V1, e1, h⟩ := Option.bind_eq_some_iff.mp h
  obtain ⟨g, e3, h⟩ := Option.bind_eq_some_iff.mp h
  obtain ⟨m, e5, h⟩ := Option.map_eq_some_iff.mp h
  rw [← h]
  dsimp only
  rw [darcyMove_dt e5]; ring

theorem strMove_dt {W : World ℝ} {S : StrSetup} {el vel : Nat → Nat → Vec ℝ} {V : Nat → Vari ℝ} {gr : Nat → Grads ℝ} {ni node : Nat → Nat → ℝ} {iter : Nat}
    {m : (Nat → Vari ℝ) × (Nat → Grads ℝ) × (Nat → Nat → ℝ) × (Nat → Nat → ℝ) × ℝ}
    (h : strMove W S el vel V gr ni node iter = some m) : m.2.2.2.2 = allreduceMin W.SIZE (fun p => strDt W.dim S (W.D p) (el p) (vel p)) := by
  unfold strMove at h
  obtain ⟨V1, e1, h⟩ := Option.bind_eq_some_iff.mp h
  obtain ⟨r, e3, h⟩ := Option.bind_eq_some_iff.mp h
  obtain ⟨o, e5, h⟩ := Option.map_eq_some_iff.mp h
  rw [← h]

theorem strStep_dt {W : World ℝ} {S : StrSetup} {sv : LinSolve.Solver} {direct : (Nat → Nat → ℝ) → (Nat → ℝ) → Nat → ℝ} {s s' : StrState}
    (h : strStep W S sv direct s = some s') : s'.time - s.time = allreduceMin W.SIZE (fun p => strDt W.dim S (W.D p) (s'.el p) (s'.vel p)) := by
  unfold strStep at h
  obtain ⟨V1, e1, h⟩ := Option.bind_eq_some_iff.mp h
  obtain ⟨g, e3, h⟩ := Option.bind_eq_some_iff.mp h
  obtain ⟨m, e5, h⟩ := Option.map_eq_some_iff.mp h
  rw [← h]
  dsimp only
  rw [strMove_dt e5]; ring

theorem transport_stepOf {W : World K} (hS : 0 < W.SIZE) (hm : SizedFaces W) {S : Setup K} {order : Int} {diff : Bool} {s s' : TState K}
    (h : tstep W S order diff s = some s') :
    StepOf W (fun _ _ => True) (fun p => cflLimit W.dim (W.D p) (givenVel (W.D p) S s.iter) S.cfl S.Dxx S.Dyy S.Dzz) (s'.time - s.time) := by
  rw [tstep_parts_time h]
  exact stepOf_allreduce hS fun p hp x => le_cfl (hm p hp) (givenVel (W.D p) S s.iter) S.cfl S.Dxx S.Dyy S.Dzz x

theorem darcy_stepOf {W : World K} (hS : 0 < W.SIZE) (hm : SizedFaces W) {S : DSetup K} {sv : LinSolve.Solver}
    {direct : (Nat → Nat → K) → (Nat → K) → Nat → K} {s s' : DState K} (h : darcyStep W S sv direct s = some s') :
    StepOf W (fun _ _ => True) (fun p => cflLimit W.dim (W.D p) (s'.vel p) S.cfl S.Dxx S.Dyy S.Dzz) (s'.time - s.time) := by
  rw [darcyStep_dt h]
  exact stepOf_allreduce hS fun p hp x => le_cfl (hm p hp) (s'.vel p) S.cfl S.Dxx S.Dyy S.Dzz x

theorem strCell_mean (dim : Nat) (D : Tables ℝ) (x : Nat → Vec ℝ) : strCell dim D x = meanVec dim D x := by
  funext c k
  unfold strCell meanVec faceMean Streamer.faceAverage
  dsimp only
  congr 1
  have key : ∀ (l : List Nat) (a : Fin 3 → ℝ), l.foldl (fun s j => s + toV x (D.faceid c j)) a k = a k + (l.map (fun j => x (D.faceid c j) k)).sum := by
    intro l
    induction l with
    | nil => simp
    | cons j l ih => intro a; rw [List.foldl_cons, ih]; simp [toV, add_assoc]
  rw [key]
  simp
  rfl

theorem streamer_stepOf {W : World ℝ} (hS : 0 < W.SIZE) (hm : SizedFaces W) {S : StrSetup} {sv : LinSolve.Solver}
    {direct : (Nat → Nat → ℝ) → (Nat → ℝ) → Nat → ℝ} {s s' : StrState} (h : strStep W S sv direct s = some s') :
    StepOf W (fun p c => meanVec W.dim (W.D p) (s'.el p) c ≠ 0 ∧ Streamer.rate (meanVec W.dim (W.D p) (s'.vel p)) (meanVec W.dim (W.D p) (s'.el p))
        (fun f k => (W.D p).normal f k) (W.D p).volume (W.D p).faceid W.dim c ≠ 0)
      (fun p => strLimit W.dim (W.D p) S (s'.el p) (s'.vel p)) (s'.time - s.time) := by
  rw [strStep_dt h]
  refine stepOf_allreduce hS fun p hp x => ?_
  unfold strDt
  rw [streamerTimeStep_fold _ _ _ _ _ _ _ _ _ (fun c hc j hj => hm p hp c hc j (by omega)) x, strCell_mean, strCell_mean]
  have e : (1e6 : ℝ) = 1000000 := by norm_num
  rw [e]
  refine and_congr_right fun _ => forall_congr' fun c => forall_congr' fun hc => ?_
  exact ⟨fun H h => H h.1 h.2, fun H a b => H ⟨a, b⟩⟩

theorem swTimeStep_stepOf {W : World ℝ} (hS : 0 < W.SIZE) (hd : W.dim = 2) (hm : SizedFaces W) (S : SSetup) (w : Nat → Nat → SW.W5) :
    StepOf W (fun _ _ => True) (fun p => swLimit (W.D p) (w p) S) (swTimeStep W S w) := by
  refine stepOf_allreduce hS fun p hp x => ?_
  obtain ⟨h1, h2⟩ := SW.C60_time_step (W.D p).nbcells (w p) S.cfl (W.D p).normal (W.D p).mesure (W.D p).volume (W.D p).faceid S.Dx S.Dy
    (fun c hc j hj => hm p hp c hc j (by omega))
  have e : (1e6 : ℝ) = 1000000 := by norm_num
  rw [e] at h1 h2
  constructor
  · exact fun hx => ⟨hx.trans h1.1, fun c hc _ => hx.trans (h1.2 c hc)⟩
  · exact fun hx => h2 ⟨hx.1, fun c hc => hx.2 c hc trivial⟩

theorem sw_stepOf {W : World ℝ} (hS : 0 < W.SIZE) (hd : W.dim = 2) (hm : SizedFaces W) {S : SSetup} {s s' : SState} (h : swStep W S s = some s') :
    s'.time - s.time = s.dt ∧ StepOf W (fun _ _ => True) (fun p => swLimit (W.D p) (fun c k => (s'.V k p).cell c) S) s'.dt := by
  obtain ⟨V1, V2, r, q, o, _, _, _, _, e5, rfl⟩ := swStep_parts h
  refine ⟨by simp, ?_⟩
  have hc := celltonode_cell e5
  dsimp only
  have e : ∀ p c, swLimit (W.D p) (fun c k => ((![o.1, setCells ![r.1 0, r.1 1, r.1 2, q.1, r.1 4] (swNews W S s.dt r.1 r.2.1 r.2.2 q.2.2) 1,
               setCells ![r.1 0, r.1 1, r.1 2, q.1, r.1 4] (swNews W S s.dt r.1 r.2.1 r.2.2 q.2.2) 2,
               setCells ![r.1 0, r.1 1, r.1 2, q.1, r.1 4] (swNews W S s.dt r.1 r.2.1 r.2.2 q.2.2) 3,
               setCells ![r.1 0, r.1 1, r.1 2, q.1, r.1 4] (swNews W S s.dt r.1 r.2.1 r.2.2 q.2.2) 4] : Fin 5 → Nat → Vari ℝ) k p).cell c) S c =
      swLimit (W.D p) (swNews W S s.dt r.1 r.2.1 r.2.2 q.2.2 p) S c := by
    intro p c
    congr 1
    funext c k
    fin_cases k
    · exact congrFun (hc p) c
    all_goals rfl
  have := swTimeStep_stepOf hS hd hm S (swNews W S s.dt r.1 r.2.1 r.2.2 q.2.2)
  unfold StepOf at this ⊢
  simp only [e]
  exact this

theorem sw_start_stepOf {W : World ℝ} (hS : 0 < W.SIZE) (hd : W.dim = 2) (hm : SizedFaces W) (S : SSetup) (f : Fin 5 → ℝ → ℝ → ℝ → ℝ) :
    StepOf W (fun _ _ => True) (fun p => swLimit (W.D p) (fun c k => ((swStart W S f).V k p).cell c) S) (swStart W S f).dt :=
  swTimeStep_stepOf hS hd hm S _

section
variable {dim : Nat} {nodeid : Nat → Nat → Nat} {node : Nat → K × K × K × Nat} {cv : Nat → List K} {npart0 epart : Nat → Nat}
  {nbnodes n SIZE : Nat} {data : Nat → RankData K} {serial : RankData K} {L : Nat → Tables K} {G : Tables K} {B : List Int}
  {out : Nat → Nat → Vec K} {trunc : K → Int}

theorem sized_par (h : RunPair dim SIZE n epart data L G B out) (hs : Solid G dim out) (hg : Nat → HGResult K) :
    SizedFaces (parW dim SIZE data L hg) := by
  intro p hp c hc j hj
  show (L p).mesure ((L p).faceid c j) ≠ 0
  rw [h.mesure p hp c hc j hj]
  exact hs.mes _ ((h.rank p hp).sub.lt c hc).1 j hj

theorem sized_ser (hs : Solid G dim out) (hg : Nat → HGResult K) : SizedFaces (serW dim serial G hg) :=
  fun p hp c hc j hj => hs.mes c hc j hj

end

section
variable {nodeid : Nat → Nat → Nat} {node : Nat → K × K × K × Nat} {npart0 epart : Nat → Nat}
  {nbnodes n SIZE : Nat} {data : Nat → RankData K} {serial : RankData K}

/-- **C123** (2D, any number of processes, any partition). -/
theorem C123_transport_darcy_2d (h : Launched 3 nodeid node (centvol2 node nodeid) npart0 epart nbnodes n SIZE data serial)
    (vm : ValidMesh2 nodeid node nbnodes n)
    (sqrt : K → K) (hs : ∀ x, 0 < x → sqrt x ≠ 0) (trunc : K → Int) (htr : ∀ m : Nat, trunc (m : K) = m) :
    ∃ W, mkWorld 2 SIZE data (fun p => build2 sqrt trunc SIZE (data p)) = some W ∧ TransportSteps W ∧ DarcySteps W := by
  have np := h.nodePair2 vm sqrt trunc htr
  obtain ⟨hgL, hgG, w1, w2, sL, sG⟩ := np.worlds
  have hm := sized_par np.run (h.solid2 vm sqrt hs trunc htr) hgL
  have hS := Nat.lt_trans Nat.one_pos np.run.hS
  exact ⟨_, w1, fun _ _ _ _ _ h => transport_stepOf hS hm h, fun _ _ _ _ _ h => darcy_stepOf hS hm h⟩

/-- **C123** (2D, one process). -/
theorem C123_transport_darcy_serial_2d (vm : ValidMesh2 nodeid node nbnodes n)
    (hr : readMeshFile 1 0 (writeSerial (serialWrite nodeid node nbnodes n 3)) [] = some serial)
    (sqrt : K → K) (hs : ∀ x, 0 < x → sqrt x ≠ 0) (trunc : K → Int) (htr : ∀ m : Nat, trunc (m : K) = m) :
    ∃ W, mkWorld 2 1 (fun _ => serial) (fun _ => build2 sqrt trunc 1 serial) = some W ∧ TransportSteps W ∧ DarcySteps W := by
  obtain ⟨data, h⟩ := launched_of_serial (centvol2 node nodeid) (by omega) vm.nodes vm.used hr
  have np := h.nodePair2 vm sqrt trunc htr
  obtain ⟨hgL, hgG, w1, w2, sL, sG⟩ := np.worlds
  have hm := sized_ser (serial := serial) (h.solid2 vm sqrt hs trunc htr) hgG
  have hS := Nat.one_pos
  exact ⟨_, w2, fun _ _ _ _ _ h => transport_stepOf hS hm h, fun _ _ _ _ _ h => darcy_stepOf hS hm h⟩

/-- **C123** (3D, any number of processes, any partition). -/
theorem C123_transport_darcy_3d (h : Launched 4 nodeid node (centvol3 node nodeid) npart0 epart nbnodes n SIZE data serial)
    (vm : ValidMesh3 nodeid node nbnodes n)
    (sqrt : K → K) (hs : ∀ x, 0 < x → sqrt x ≠ 0) (trunc : K → Int) (htr : ∀ m : Nat, trunc (m : K) = m) :
    ∃ W, mkWorld 3 SIZE data (fun p => build3 sqrt trunc SIZE (data p)) = some W ∧ TransportSteps W ∧ DarcySteps W := by
  have np := h.nodePair3 vm sqrt trunc htr
  obtain ⟨hgL, hgG, w1, w2, sL, sG⟩ := np.worlds
  have hm := sized_par np.run (h.solid3 vm sqrt hs trunc htr) hgL
  have hS := Nat.lt_trans Nat.one_pos np.run.hS
  exact ⟨_, w1, fun _ _ _ _ _ h => transport_stepOf hS hm h, fun _ _ _ _ _ h => darcy_stepOf hS hm h⟩

/-- **C123** (3D, one process). -/
theorem C123_transport_darcy_serial_3d (vm : ValidMesh3 nodeid node nbnodes n)
    (hr : readMeshFile 1 0 (writeSerial (serialWrite nodeid node nbnodes n 4)) [] = some serial)
    (sqrt : K → K) (hs : ∀ x, 0 < x → sqrt x ≠ 0) (trunc : K → Int) (htr : ∀ m : Nat, trunc (m : K) = m) :
    ∃ W, mkWorld 3 1 (fun _ => serial) (fun _ => build3 sqrt trunc 1 serial) = some W ∧ TransportSteps W ∧ DarcySteps W := by
  obtain ⟨data, h⟩ := launched_of_serial (centvol3 node nodeid) (by omega) vm.nodes vm.used hr
  have np := h.nodePair3 vm sqrt trunc htr
  obtain ⟨hgL, hgG, w1, w2, sL, sG⟩ := np.worlds
  have hm := sized_ser (serial := serial) (h.solid3 vm sqrt hs trunc htr) hgG
  have hS := Nat.one_pos
  exact ⟨_, w2, fun _ _ _ _ _ h => transport_stepOf hS hm h, fun _ _ _ _ _ h => darcy_stepOf hS hm h⟩

end

section
variable {nodeid : Nat → Nat → Nat} {node : Nat → ℝ × ℝ × ℝ × Nat} {npart0 epart : Nat → Nat}
  {nbnodes n SIZE : Nat} {data : Nat → RankData ℝ} {serial : RankData ℝ}

/-- **C123** (2D, any number of processes, any partition). -/
theorem C123_shallow_streamer_2d_partial (h : Launched 3 nodeid node (centvol2 node nodeid) npart0 epart nbnodes n SIZE data serial)
    (vm : ValidMesh2 nodeid node nbnodes n)
    (sqrt : ℝ → ℝ) (hs : ∀ x, 0 < x → sqrt x ≠ 0) (trunc : ℝ → Int) (htr : ∀ m : Nat, trunc (m : ℝ) = m) :
    ∃ W, mkWorld 2 SIZE data (fun p => build2 sqrt trunc SIZE (data p)) = some W ∧ ShallowSteps W ∧ StreamerSteps W := by
  have np := h.nodePair2 vm sqrt trunc htr
  obtain ⟨hgL, hgG, w1, w2, sL, sG⟩ := np.worlds
  have hm := sized_par np.run (h.solid2 vm sqrt hs trunc htr) hgL
  have hS := Nat.lt_trans Nat.one_pos np.run.hS
  exact ⟨_, w1, fun S => ⟨fun f => sw_start_stepOf hS rfl hm S f, fun _ _ h => sw_stepOf hS rfl hm h⟩, fun _ _ _ _ _ h => streamer_stepOf hS hm h⟩

/-- **C123** (2D, one process). -/
theorem C123_shallow_streamer_serial_2d_partial (vm : ValidMesh2 nodeid node nbnodes n)
    (hr : readMeshFile 1 0 (writeSerial (serialWrite nodeid node nbnodes n 3)) [] = some serial)
    (sqrt : ℝ → ℝ) (hs : ∀ x, 0 < x → sqrt x ≠ 0) (trunc : ℝ → Int) (htr : ∀ m : Nat, trunc (m : ℝ) = m) :
    ∃ W, mkWorld 2 1 (fun _ => serial) (fun _ => build2 sqrt trunc 1 serial) = some W ∧ ShallowSteps W ∧ StreamerSteps W := by
  obtain ⟨data, h⟩ := launched_of_serial (centvol2 node nodeid) (by omega) vm.nodes vm.used hr
  have np := h.nodePair2 vm sqrt trunc htr
  obtain ⟨hgL, hgG, w1, w2, sL, sG⟩ := np.worlds
  have hm := sized_ser (serial := serial) (h.solid2 vm sqrt hs trunc htr) hgG
  have hS := Nat.one_pos
  exact ⟨_, w2, fun S => ⟨fun f => sw_start_stepOf hS rfl hm S f, fun _ _ h => sw_stepOf hS rfl hm h⟩, fun _ _ _ _ _ h => streamer_stepOf hS hm h⟩

/-- **C123** (3D, any number of processes, any partition). -/
theorem C123_streamer_3d_partial (h : Launched 4 nodeid node (centvol3 node nodeid) npart0 epart nbnodes n SIZE data serial)
    (vm : ValidMesh3 nodeid node nbnodes n)
    (sqrt : ℝ → ℝ) (hs : ∀ x, 0 < x → sqrt x ≠ 0) (trunc : ℝ → Int) (htr : ∀ m : Nat, trunc (m : ℝ) = m) :
    ∃ W, mkWorld 3 SIZE data (fun p => build3 sqrt trunc SIZE (data p)) = some W ∧ StreamerSteps W := by
  have np := h.nodePair3 vm sqrt trunc htr
  obtain ⟨hgL, hgG, w1, w2, sL, sG⟩ := np.worlds
  have hm := sized_par np.run (h.solid3 vm sqrt hs trunc htr) hgL
  have hS := Nat.lt_trans Nat.one_pos np.run.hS
  exact ⟨_, w1, fun _ _ _ _ _ h => streamer_stepOf hS hm h⟩

/-- **C123** (3D, one process). -/
theorem C123_streamer_serial_3d_partial (vm : ValidMesh3 nodeid node nbnodes n)
    (hr : readMeshFile 1 0 (writeSerial (serialWrite nodeid node nbnodes n 4)) [] = some serial)
    (sqrt : ℝ → ℝ) (hs : ∀ x, 0 < x → sqrt x ≠ 0) (trunc : ℝ → Int) (htr : ∀ m : Nat, trunc (m : ℝ) = m) :
    ∃ W, mkWorld 3 1 (fun _ => serial) (fun _ => build3 sqrt trunc 1 serial) = some W ∧ StreamerSteps W := by
  obtain ⟨data, h⟩ := launched_of_serial (centvol3 node nodeid) (by omega) vm.nodes vm.used hr
  have np := h.nodePair3 vm sqrt trunc htr
  obtain ⟨hgL, hgG, w1, w2, sL, sG⟩ := np.worlds
  have hm := sized_ser (serial := serial) (h.solid3 vm sqrt hs trunc htr) hgG
  have hS := Nat.one_pos
  exact ⟨_, w2, fun _ _ _ _ _ h => streamer_stepOf hS hm h⟩

end

/-- Steps as in the theorems are made: every iteration of a diffusive second-order transport run on two processes, and of a shallow-water run. -/
example : ∃ data W, mkWorld 2 2 data (fun p => build2 (fun x : ℚ => x) Int.floor 2 (data p)) = some W ∧ ∀ s, ∃ s', tstep W flowSetup 2 true s = some s' ∧
    StepOf W (fun _ _ => True) (fun p => cflLimit 2 (W.D p) (givenVel (W.D p) flowSetup s.iter) flowSetup.cfl flowSetup.Dxx flowSetup.Dyy flowSetup.Dzz)
      (s'.time - s.time) := by
  have h := stripLaunched
  have np := h.nodePair2 stripValid (fun x : ℚ => x) Int.floor floor_nat
  obtain ⟨hgL, hgG, w1, w2, sL, sG⟩ := np.worlds
  refine ⟨stripData, _, w1, fun s => ?_⟩
  obtain ⟨s', e, _, _⟩ := tstep_time np hgL flowSetup 2 true s
  exact ⟨s', e, transport_stepOf (Nat.lt_trans Nat.one_pos np.run.hS)
    (sized_par np.run (h.solid2 stripValid (fun x : ℚ => x) (fun x hx => ne_of_gt hx) Int.floor floor_nat) hgL) e⟩

example : ∃ data W, mkWorld 2 2 data (fun p => build2 Real.sqrt Int.floor 2 (data p)) = some W ∧ ∃ s s', swStep W basin s = some s' ∧ s'.time - s.time = s.dt ∧
    StepOf W (fun _ _ => True) (fun p => swLimit (W.D p) (fun c k => (s'.V k p).cell c) basin) s'.dt := by
  obtain ⟨data, serial, h⟩ := realStripLaunched
  obtain ⟨W, e, hW⟩ := C107_closed_basin h (validReal stripValid) Real.sqrt (fun x hx => (Real.sqrt_pos.mpr hx).ne') Int.floor floor_real
  obtain ⟨W', e', hS, _⟩ := C123_shallow_streamer_2d_partial h (validReal stripValid) Real.sqrt (fun x hx => (Real.sqrt_pos.mpr hx).ne') Int.floor floor_real
  obtain rfl : W = W' := Option.some.inj (e.symm.trans e')
  obtain ⟨s0, hs0⟩ : ∃ s0, s0 = swStart W basin ![fun x y _ => 1 + x * y, fun x _ _ => x, fun _ y _ => - y, fun _ _ _ => 2, fun x _ _ => x] := ⟨_, rfl⟩
  obtain ⟨s, e1, _, _⟩ := hW basin rfl basin_closed s0 1
  have e2 : swStep W basin s0 = some s := by
    simp only [swLoop, Option.bind_some] at e1
    have ht : s0.time < basin.tfinal := by rw [hs0]; show (0 : ℝ) < basin.tfinal; norm_num [basin]
    rw [if_pos ht] at e1
    exact e1
  exact ⟨data, W, e, s0, s, e2, (hS basin).2 _ _ e2⟩

end Verif.Props.Par
