import Verif.Props.RunDarcy
import Verif.Props.SWRun
import Verif.Props.Streamer
import Verif.Model.RunStreamer

/-!
C113: a streamer computation on several processes computes what the serial one does.
-/
set_option linter.unusedSectionVars false
set_option linter.unusedVariables false
set_option linter.unusedSimpArgs false
namespace Verif.Props.Par
open Verif.Fvm Verif.Spec Verif.Conn Verif.Dom Verif.Geo Verif.Names Verif.MeshFile Verif.Part Verif.Comm Verif.Run Verif.HaloGhost Verif.Interp
open Verif.LinSolve (ReadsRows SolvedWith InPlace)

/-! ### the source of the linear system -/

theorem rhsLoc_apply (n : Nat) (ne ni rhs : Nat → ℝ) (i : Nat) (hi : i < n) : rhsLoc n ne ni rhs i = 1.8096e-8 * (ne i - ni i) := by
  unfold rhsLoc
  induction n with
  | zero => omega
  | succ n ih =>
    rw [List.range_succ, List.foldl_append, List.foldl_cons, List.foldl_nil]
    by_cases e : i = n
    · subst e; rw [setAt_same]
    · rw [setAt_ne _ _ e]; exact ih (by omega)

/-- The unwritten entries of the global arrays are zero. -/
def RhsZero (W : World ℝ) (l2g : Nat → Nat → Nat) (rhs : Nat → Nat → ℝ) : Prop :=
  ∀ p < W.SIZE, ∀ g, (∀ c < (W.D p).nbcells, l2g p c ≠ g) → rhs p g = 0

theorem alloc_fold (a : Nat → Nat → ℝ) (s : LinSolve.St ℝ) (m : Nat) :
    ((List.range m).foldl (fun (st : LinSolve.St ℝ) p => (st.alloc (a p)).1) s).next = s.next + m ∧
    ∀ p < m, ((List.range m).foldl (fun (st : LinSolve.St ℝ) p => (st.alloc (a p)).1) s).heap (s.next + p) = a p := by
  induction m with
  | zero => simp
  | succ m ih =>
    rw [List.range_succ, List.foldl_append, List.foldl_cons, List.foldl_nil]
    obtain ⟨e1, e2⟩ := ih
    refine ⟨?_, fun p hp => ?_⟩
    · show _ + 1 = _
      rw [e1]; omega
    · show setAt _ _ _ _ = _
      rw [e1]
      by_cases e : p = m
      · subst e; rw [setAt_same]
      · rw [setAt_ne _ _ (by omega)]; exact e2 p (by omega)

theorem run_append {E : LinSolve.Env ℝ} {s0 s s' : LinSolve.St ℝ} {ops : List (LinSolve.Op ℝ)} (hr : LinSolve.run E s0 ops = .ok s) (o : LinSolve.Op ℝ)
    (e : LinSolve.step E s o = .ok s') : LinSolve.run E s0 (ops ++ [o]) = .ok s' := by
  unfold LinSolve.run at hr ⊢
  rw [List.foldlM_append, hr]
  show (List.foldlM _ s _) = _
  rw [List.foldlM_cons, e]
  rfl

theorem sysOk_alloc {E : LinSolve.Env ℝ} {bnd : Nat → Nat → ℝ} {s : LinSolve.St ℝ} (hs : SysOk E bnd s) (a : Nat → ℝ) : SysOk E bnd (s.alloc a).1 := by
  obtain ⟨cell0, s0, ops, h0, hl, hr⟩ := hs
  refine ⟨cell0, s0, ops ++ [.alloc a], h0, ?_, run_append hr _ rfl⟩
  intro o ho
  rcases List.mem_append.mp ho with ho | ho
  · exact hl o ho
  · rw [List.mem_singleton.mp ho]; trivial

theorem sysOk_allocs {E : LinSolve.Env ℝ} {bnd : Nat → Nat → ℝ} {s : LinSolve.St ℝ} (hs : SysOk E bnd s) (a : Nat → Nat → ℝ) (m : Nat) :
    SysOk E bnd ((List.range m).foldl (fun (st : LinSolve.St ℝ) p => (st.alloc (a p)).1) s) := by
  induction m with
  | zero => simpa using hs
  | succ m ih =>
    rw [List.range_succ, List.foldl_append, List.foldl_cons, List.foldl_nil]
    exact sysOk_alloc ih _

/-- A solve with a source. -/
theorem sysOk_solve {E : LinSolve.Env ℝ} {bnd : Nat → Nat → ℝ} {s : LinSolve.St ℝ} (hs : SysOk E bnd s) (hpos : 0 < E.SIZE)
    (hE : LinSolve.NumberingOk E) (args : Nat → Option Nat) (hargs : E.solver = .mumps → ∀ p, 0 < p → args p = none)
    (hlt : ∀ p < E.SIZE, ∀ a, args p = some a → a < s.next) (r : Nat → ℝ) (hr : LinSolve.SourceIs E s args r) :
    ∃ s', LinSolve.solve E s args = .ok s' ∧ SysOk E bnd s' ∧ SolvedWith E bnd r s' := by
  obtain ⟨cell0, s0, ops, h0, hl, hrun⟩ := hs
  obtain ⟨s', e⟩ := C52_progress E hpos hE bnd _ cell0 s0 s h0 ops hl hrun args hargs
  refine ⟨s', e, ⟨cell0, s0, ops ++ [.solve args], h0, ?_, run_append hrun (.solve args) e⟩, cell0, s0, s, ops, args, h0, hl, hrun, hlt, hr, e⟩
  intro o ho
  rcases List.mem_append.mp ho with ho | ho
  · exact hl o ho
  · rw [List.mem_singleton.mp ho]; trivial

/-- The charge of the cells, by global number. -/
def ChargeIs (W : World ℝ) (l2g : Nat → Nat → Nat) (s : StrState) (r : Nat → ℝ) : Prop :=
  ∀ p < W.SIZE, ∀ c < (W.D p).nbcells, r (l2g p c) = 1.8096e-8 * ((s.V p).cell c - s.ni p c)

theorem global_owner {E : LinSolve.Env ℝ} (hE : LinSolve.NumberingOk E) {g : Nat} (hg : g < E.globalsize) :
    ∃ p < E.SIZE, ∃ c < E.localsize p, E.loctoglob p c = g := by
  have hm : g ∈ E.tc := hE.perm.mem_iff.mpr (List.mem_range.mpr hg)
  rw [hE.tc] at hm
  simp only [List.mem_flatMap, List.mem_map, List.mem_range] at hm
  obtain ⟨p, hp, c, hc, e⟩ := hm
  exact ⟨p, hp, c, hc, e⟩

theorem strSolve_ok (W : World ℝ) (S : StrSetup) (sv : LinSolve.Solver) (direct : (Nat → Nat → ℝ) → (Nat → ℝ) → Nat → ℝ)
    (hpos : 0 < W.SIZE) (hE : LinSolve.NumberingOk (linEnv W S.bcP sv direct)) (s : StrState)
    (hs : SysOk (linEnv W S.bcP sv direct) (linBnd W S.bcP sv) s.sys) (hz : sv ≠ .petsc → RhsZero W (linEnv W S.bcP sv direct).loctoglob s.rhs)
    (r : Nat → ℝ) (hr : ChargeIs W (linEnv W S.bcP sv direct).loctoglob s r) :
    ∃ t rhs, strSolve W S sv direct s = some (t, rhs) ∧ SysOk (linEnv W S.bcP sv direct) (linBnd W S.bcP sv) t ∧
      SolvedWith (linEnv W S.bcP sv direct) (linBnd W S.bcP sv) r t ∧ (sv ≠ .petsc → RhsZero W (linEnv W S.bcP sv direct).loctoglob rhs) := by
  have glob : sv ≠ .petsc → ∀ rhs : Nat → Nat → ℝ, rhs = (fun p => Streamer.rhsGlob (W.D p).nbcells (s.V p).cell (s.ni p) ((linEnv W S.bcP sv direct).loctoglob p) (s.rhs p)) →
      ∃ t, LinSolve.solve (linEnv W S.bcP sv direct) (s.sys.alloc (fun g => ∑ p ∈ Finset.range W.SIZE, rhs p g)).1
          (fun p => if p = 0 then some s.sys.next else none) = .ok t ∧ SysOk (linEnv W S.bcP sv direct) (linBnd W S.bcP sv) t ∧
        SolvedWith (linEnv W S.bcP sv direct) (linBnd W S.bcP sv) r t ∧ RhsZero W (linEnv W S.bcP sv direct).loctoglob rhs := by
    intro hsv rhs hrhs
    have hz := hz hsv
    have inj : ∀ p < W.SIZE, ∀ q < W.SIZE, ∀ i < (W.D p).nbcells, ∀ j < (W.D q).nbcells, (linEnv W S.bcP sv direct).loctoglob p i =
        (linEnv W S.bcP sv direct).loctoglob q j → p = q ∧ i = j := fun p hp q hq i hi j hj e =>
      nodup_loctoglob _ hE p q i j hp hq hi hj e
    obtain ⟨t, e1, e2, e3⟩ := sysOk_solve (sysOk_alloc hs (fun g => ∑ p ∈ Finset.range W.SIZE, rhs p g)) hpos hE
      (fun p => if p = 0 then some s.sys.next else none) (fun _ p hp => by rw [if_neg (by omega)])
      (by
        intro p _ a ha
        by_cases h0 : p = 0
        · rw [if_pos h0] at ha
          obtain rfl := Option.some.inj ha
          exact Nat.lt_succ_self _
        · rw [if_neg h0] at ha; cases ha) r (by
        have key : ∀ g < (linEnv W S.bcP sv direct).globalsize, r g = LinSolve.optVal ((some s.sys.next).map (s.sys.alloc (fun g => ∑ p ∈ Finset.range W.SIZE, rhs p g)).1.heap) g := by
          intro g hg
          obtain ⟨q, hq, c, hc, rfl⟩ := global_owner hE hg
          show _ = setAt s.sys.heap s.sys.next (fun g => ∑ p ∈ Finset.range W.SIZE, rhs p g) s.sys.next _
          rw [setAt_same, hr q hq c hc]
          rw [Finset.sum_eq_single q]
          · rw [hrhs]
            exact (rhsGlob_own _ _ _ _ _ c hc (fun a ha b hb e => (inj q hq q hq a ha b hb e).2)).symm
          · intro p hp hne
            have hp := Finset.mem_range.1 hp
            have ho : ∀ j < (W.D p).nbcells, (linEnv W S.bcP sv direct).loctoglob p j ≠ (linEnv W S.bcP sv direct).loctoglob q c := fun j hj e => hne (inj p hp q hq j hj c hc e).1
            rw [hrhs]
            dsimp only
            rw [rhsGlob_other _ _ _ _ _ _ ho, hz p hp _ ho]
          · intro h; exact absurd (Finset.mem_range.2 hq) h
        unfold LinSolve.SourceIs
        have hsv' : (linEnv W S.bcP sv direct).solver = sv := rfl
        rw [hsv']
        cases sv with
        | petsc => exact absurd rfl hsv
        | spsolve => exact key
        | umfpack => exact key
        | mumps => exact key)
    refine ⟨t, e1, e2, e3, fun p hp g hg => ?_⟩
    rw [hrhs]
    dsimp only
    rw [rhsGlob_other _ _ _ _ _ _ hg]
    exact hz p hp g hg
  cases sv with
  | petsc =>
    obtain ⟨rhs, hrhs⟩ : ∃ rhs : Nat → Nat → ℝ, rhs = fun p => rhsLoc (W.D p).nbcells (s.V p).cell (s.ni p) (s.rhs p) := ⟨_, rfl⟩
    obtain ⟨a1, a2⟩ := alloc_fold rhs s.sys W.SIZE
    obtain ⟨t, e1, e2, e3⟩ := sysOk_solve (sysOk_allocs hs rhs W.SIZE) hpos hE (fun p => if p < W.SIZE then some (s.sys.next + p) else none)
      (fun h => by cases h) (by
        intro p hp a ha
        have hp : p < W.SIZE := hp
        rw [if_pos hp] at ha
        obtain rfl := Option.some.inj ha
        rw [a1]
        have : p < W.SIZE := hp
        omega) r (by
        intro p hp c hc
        have hp' : p < W.SIZE := hp
        rw [hr p hp' c hc]
        beta_reduce
        rw [if_pos hp']
        show _ = ((List.range W.SIZE).foldl _ s.sys).heap (s.sys.next + p) c
        rw [a2 p hp', hrhs]
        exact (rhsLoc_apply _ _ _ _ c hc).symm)
    refine ⟨t, rhs, ?_, e2, e3, fun h => absurd rfl h⟩
    unfold strSolve
    rw [← hrhs]
    dsimp only
    rw [e1]; rfl
  | spsolve =>
    obtain ⟨t, e1, e2, e3, e4⟩ := glob (by intro h; cases h) _ rfl
    refine ⟨t, _, ?_, e2, e3, fun _ => e4⟩
    unfold strSolve
    dsimp only
    exact congrArg (fun x => Option.map (fun t => (t, _)) (Except.toOption x)) e1
  | umfpack =>
    obtain ⟨t, e1, e2, e3, e4⟩ := glob (by intro h; cases h) _ rfl
    refine ⟨t, _, ?_, e2, e3, fun _ => e4⟩
    unfold strSolve
    dsimp only
    exact congrArg (fun x => Option.map (fun t => (t, _)) (Except.toOption x)) e1
  | mumps =>
    obtain ⟨t, e1, e2, e3, e4⟩ := glob (by intro h; cases h) _ rfl
    refine ⟨t, _, ?_, e2, e3, fun _ => e4⟩
    unfold strSolve
    dsimp only
    exact congrArg (fun x => Option.map (fun t => (t, _)) (Except.toOption x)) e1

/-! ### the terms of the scheme -/

/-- The dissipative residual of the streamer model is the general one with the coefficient put into the gradient. -/
theorem strDissip_eq (D : Tables ℝ) (el vel grad : Nat → Vec ℝ) :
    strDissip D el vel grad = Run.dissip D unitD (fun f k => Streamer.faceDe (toV vel f) (toV el f) * grad f k) := by
  unfold strDissip Streamer.dissipative Run.dissip explicitschemeDissipative
  congr 1
  funext d f
  unfold Streamer.dissipStep Fvm.dissipStep
  have e : Streamer.faceDe (toV vel f) (toV el f) * (toV grad f 0 * toV D.normal f 0 + toV grad f 1 * toV D.normal f 1 + toV grad f 2 * toV D.normal f 2) =
      unitD.Dxx * (Streamer.faceDe (toV vel f) (toV el f) * grad f 0) * D.normal f 0 + unitD.Dyy * (Streamer.faceDe (toV vel f) (toV el f) * grad f 1) * D.normal f 1 +
        unitD.Dzz * (Streamer.faceDe (toV vel f) (toV el f) * grad f 2) * D.normal f 2 := by
    unfold unitD toV
    dsimp only
    simp only [Fin.val_zero, Fin.val_one, Fin.val_two]
    ring
  dsimp only
  rw [e]

/-- The drift velocity of a field. -/
noncomputable def driftOf (e : Fin 3 → ℝ) (k : Fin 3) : ℝ :=
  if e = 0 then 0 else - Streamer.driftSpeed (Streamer.norm3 e / Streamer.nGas) * (e k / Streamer.norm3 e)

theorem strVel_apply (D : Tables ℝ) (el old : Nat → Vec ℝ) {f : Nat} (hf : f < D.nbfaces) {k : Nat} (hk : k < 3) :
    strVel D el old f k = driftOf (toV el f) ⟨k, hk⟩ := by
  unfold strVel ofV
  rw [dif_pos hk]
  exact C61_compute_velocity _ _ _ _ hf _

section
variable {dim : Nat} {nodeid : Nat → Nat → Nat} {node : Nat → ℝ × ℝ × ℝ × Nat} {cv : Nat → List ℝ} {npart0 epart : Nat → Nat}
  {nbnodes n SIZE : Nat} {data : Nat → RankData ℝ} {serial : RankData ℝ} {L : Nat → Tables ℝ} {G : Tables ℝ} {B : List Int}
  {out : Nat → Nat → Vec ℝ} {trunc : ℝ → Int}

theorem toV_match {xL : Nat → Nat → Vec ℝ} {xG : Nat → Vec ℝ} (hv : VelMatch dim SIZE data L G xL xG) {p : Nat} (hp : p < SIZE) {c : Nat} (hc : c < (L p).nbcells)
    {j : Nat} (hj : j < dim + 1) : toV (xL p) ((L p).faceid c j) = toV xG (G.faceid (phi (data p) c) j) := by
  funext k
  exact hv p hp c hc j hj k.val k.isLt

theorem strVel_match (h : RunPair dim SIZE n epart data L G B out) {eL oL : Nat → Nat → Vec ℝ} {eG oG : Nat → Vec ℝ} (hv : VelMatch dim SIZE data L G eL eG) :
    VelMatch dim SIZE data L G (fun p => strVel (L p) (eL p) (oL p)) (strVel G eG oG) := by
  intro p hp c hc j hj k hk
  have R := h.rank p hp
  beta_reduce
  rw [strVel_apply _ _ _ (R.cL.flt c hc j hj) hk, strVel_apply _ _ _ (R.cG.flt _ (R.sub.lt c hc).1 j hj) hk, toV_match hv hp hc hj]

theorem strCell_match (h : RunPair dim SIZE n epart data L G B out) {xL : Nat → Nat → Vec ℝ} {xG : Nat → Vec ℝ} (hv : VelMatch dim SIZE data L G xL xG)
    {p : Nat} (hp : p < SIZE) {c : Nat} (hc : c < (L p).nbcells) : strCell dim (L p) (xL p) c = strCell dim G xG (phi (data p) c) := by
  unfold strCell Streamer.faceAverage
  funext k
  congr 1
  refine congrFun ?_ k
  apply List.foldl_ext
  intro s j hj
  rw [toV_match hv hp hc (List.mem_range.mp hj)]

theorem lam_sign {ε : ℝ} (hε : ε = 1 ∨ ε = -1) (u v w a b c m De vol s : ℝ) :
    s + |u * (ε * a) + v * (ε * b) + w * (ε * c)| / m * m + De * Real.sqrt (ε * a * (ε * a) + ε * b * (ε * b) + ε * c * (ε * c)) ^ 2 / vol =
      s + |u * a + v * b + w * c| / m * m + De * Real.sqrt (a * a + b * b + c * c) ^ 2 / vol := by
  rcases hε with rfl | rfl
  · simp only [one_mul]
  · rw [show u * (-1 * a) + v * (-1 * b) + w * (-1 * c) = -(u * a + v * b + w * c) by ring, abs_neg,
      show -1 * a * (-1 * a) + -1 * b * (-1 * b) + -1 * c * (-1 * c) = a * a + b * b + c * c by ring]

theorem strLam_match (h : RunPair dim SIZE n epart data L G B out) {eL vL : Nat → Nat → Vec ℝ} {eG vG : Nat → Vec ℝ} (he : VelMatch dim SIZE data L G eL eG)
    (hv : VelMatch dim SIZE data L G vL vG) {p : Nat} (hp : p < SIZE) {c : Nat} (hc : c < (L p).nbcells) :
    Streamer.cellLamOpt (strCell dim (L p) (vL p)) (strCell dim (L p) (eL p)) (toV (L p).normal) (L p).mesure (L p).volume (L p).faceid dim c =
      Streamer.cellLamOpt (strCell dim G vG) (strCell dim G eG) (toV G.normal) G.mesure G.volume G.faceid dim (phi (data p) c) := by
  unfold Streamer.cellLamOpt
  rw [strCell_match h he hp hc, strCell_match h hv hp hc, h.volume p hp c hc]
  split
  · rfl
  dsimp only
  congr 1
  apply List.foldl_ext
  intro s j hj
  have hj := List.mem_range.mp hj
  obtain ⟨ε, hε, hnn⟩ := (h.rank p hp).normal_pm hc hj
  have a0 : toV (L p).normal ((L p).faceid c j) 0 = ε * toV G.normal (G.faceid (phi (data p) c) j) 0 := hnn 0 (by omega)
  have a1 : toV (L p).normal ((L p).faceid c j) 1 = ε * toV G.normal (G.faceid (phi (data p) c) j) 1 := hnn 1 (by omega)
  have a2 : toV (L p).normal ((L p).faceid c j) 2 = ε * toV G.normal (G.faceid (phi (data p) c) j) 2 := hnn 2 (by omega)
  rw [h.mesure p hp c hc j hj, a0, a1, a2]
  exact lam_sign hε _ _ _ _ _ _ _ _ _ _

theorem le_strDt (dim : Nat) (S : StrSetup) (D : Tables ℝ) (el vel : Nat → Vec ℝ) (x : ℝ) :
    x ≤ strDt dim S D el vel ↔ x ≤ 1e6 ∧ ∀ c < D.nbcells, ∀ lam,
      Streamer.cellLamOpt (strCell dim D vel) (strCell dim D el) (toV D.normal) D.mesure D.volume D.faceid dim c = some lam → lam ≠ 0 →
        x ≤ S.cfl * D.volume c / lam := by
  unfold strDt Streamer.timeStep
  generalize D.nbcells = m
  induction m with
  | zero => simp
  | succ m ih =>
    rw [List.range_succ, List.foldl_append, List.foldl_cons, List.foldl_nil]
    cases hl : Streamer.cellLamOpt (strCell dim D vel) (strCell dim D el) (toV D.normal) D.mesure D.volume D.faceid dim m with
    | none =>
      dsimp only
      rw [ih]
      refine and_congr_right fun _ => ⟨fun H c hc lam e => ?_, fun H c hc => H c (by omega)⟩
      by_cases hcm : c = m
      · subst hcm; rw [hl] at e; cases e
      · exact H c (by omega) lam e
    | some lam =>
      dsimp only
      split
      · rename_i h0
        rw [ih]
        refine and_congr_right fun _ => ⟨fun H c hc lam' e hne => ?_, fun H c hc => H c (by omega)⟩
        by_cases hcm : c = m
        · subst hcm; rw [hl] at e; obtain rfl := Option.some.inj e; exact absurd h0 hne
        · exact H c (by omega) lam' e hne
      · rename_i h0
        rw [le_min_iff, ih]
        constructor
        · rintro ⟨⟨a, H⟩, b⟩
          refine ⟨a, fun c hc lam' e hne => ?_⟩
          by_cases hcm : c = m
          · subst hcm; rw [hl] at e; obtain rfl := Option.some.inj e; exact b
          · exact H c (by omega) lam' e hne
        · rintro ⟨a, H⟩
          exact ⟨⟨a, fun c hc => H c (by omega)⟩, H m (by omega) lam hl h0⟩

theorem strDt_match (h : RunPair dim SIZE n epart data L G B out) (S : StrSetup) {eL vL eG vG : Nat → Nat → Vec ℝ}
    (he : VelMatch dim SIZE data L G eL (eG 0)) (hv : VelMatch dim SIZE data L G vL (vG 0)) :
    allreduceMin SIZE (fun p => strDt dim S (L p) (eL p) (vL p)) = allreduceMin 1 (fun p => strDt dim S G (eG p) (vG p)) := by
  have key : ∀ x, x ≤ allreduceMin SIZE (fun p => strDt dim S (L p) (eL p) (vL p)) ↔ x ≤ strDt dim S G (eG 0) (vG 0) := by
    intro x
    unfold allreduceMin
    rw [le_foldl_min, le_strDt dim S G]
    have hS := h.hS
    constructor
    · rintro ⟨h0, h1⟩
      refine ⟨((le_strDt _ _ _ _ _ _).mp h0).1, fun C hC lam e hne => ?_⟩
      rw [h.nG] at hC
      have hp := h.he C hC
      obtain ⟨c, hc, e'⟩ := (h.rank _ hp).sub.surj C (by rw [h.nG]; exact hC) rfl
      have := ((le_strDt _ _ _ _ _ _).mp (h1 _ (List.mem_range.mpr hp))).2 c hc lam
      rw [h.volume _ hp c hc, strLam_match h he hv hp hc, e'] at this
      exact this e hne
    · rintro ⟨h0, h1⟩
      have hall : ∀ p < SIZE, x ≤ strDt dim S (L p) (eL p) (vL p) := by
        intro p hp
        refine (le_strDt _ _ _ _ _ _).mpr ⟨h0, fun c hc lam e hne => ?_⟩
        rw [strLam_match h he hv hp hc] at e
        rw [h.volume _ hp c hc]
        exact h1 _ ((h.rank p hp).sub.lt c hc).1 lam e hne
      exact ⟨hall 0 (by omega), fun p hp => hall p (List.mem_range.mp hp)⟩
  have e1 : allreduceMin 1 (fun p => strDt dim S G (eG p) (vG p)) = strDt dim S G (eG 0) (vG 0) := by
    unfold allreduceMin; simp
  rw [e1]
  exact le_antisymm ((key _).mp le_rfl) ((key _).mpr le_rfl)

/-- Moving electrons and ions with matching fields. -/
theorem strMove_match (h : NodePair dim nodeid node cv npart0 epart nbnodes n SIZE data serial L G B out trunc) {hgL hgG : Nat → HGResult ℝ}
    (hw : dim = 3 → WedgeOk G ∧ ∀ p < SIZE, WedgeOk (L p))
    (sL : ∀ p < SIZE, ∃ rows, HGSpec dim SIZE data L p (hgL p) rows) (sG : HGSerial dim G nbnodes (hgG 0))
    (S : StrSetup) (hgrad : S.grad = true) (so : StencilOk dim nodeid epart n G S.bc) {eL vL eG vG : Nat → Nat → Vec ℝ}
    (he : VelMatch dim SIZE data L G eL (eG 0)) (hv : VelMatch dim SIZE data L G vL (vG 0))
    (V U : Nat → Vari ℝ) (hm : VMatch SIZE data L V U) (gL gG : Nat → Grads ℝ) (niL niG : Nat → Nat → ℝ)
    (hni : ∀ p < SIZE, ∀ c < (L p).nbcells, niL p c = niG 0 (phi (data p) c)) (ndL ndG : Nat → Nat → ℝ)
    (hnd : ∀ p < SIZE, ∀ i < (L p).nbnodes, ndL p i = ndG 0 (gOf (data p) i)) (it : Nat) :
    ∃ V' gL' niL' nL U' gG' niG' nG dt, strMove (parW dim SIZE data L hgL) S eL vL V gL niL ndL it = some (V', gL', niL', nL, dt) ∧
      strMove (serW dim serial G hgG) S eG vG U gG niG ndG it = some (U', gG', niG', nG, dt) ∧
      VMatch SIZE data L V' U' ∧ (∀ p < SIZE, ∀ c < (L p).nbcells, niL' p c = niG' 0 (phi (data p) c)) ∧
      ∀ p < SIZE, ∀ i < (L p).nbnodes, nL p i = nG 0 (gOf (data p) i) := by
  obtain ⟨V2, gL', U2, gG', c1, c2, m2, cv2, cu2, wL, wG, hgm⟩ := cellGradient_match h sL sG S.bc so V U hm
  obtain ⟨V3, k1, fL, U3, k2, fG, f1, f2, m3, cv3, cu3, _, hfg⟩ := faceGradient_match h hw sL sG S.bc so V2 U2 m2
  have hdt := strDt_match h.run S he hv
  obtain ⟨dt, hdt'⟩ : ∃ dt, dt = allreduceMin SIZE (fun p => strDt dim S (L p) (eL p) (vL p)) := ⟨_, rfl⟩
  have rez : ∀ p < SIZE, ∀ c < (L p).nbcells,
      conv dim (convArgs (L p) (velFields (vL p) (V2 p).cell (V2 p).ghost (V2 p).halo (gL' p)) S.order) c =
      conv dim (convArgs G (velFields (vG 0) (U2 0).cell (U2 0).ghost (U2 0).halo (gG' 0)) S.order) (phi (data p) c) := by
    intro p hp c hc
    exact conv_vel h S.bc S.order hv hp (wL p hp) wG (hgm p hp) hc
  have dis : ∀ p < SIZE, ∀ c < (L p).nbcells, strDissip (L p) (eL p) (vL p) (fL p) c = strDissip G (eG 0) (vG 0) (fG 0) (phi (data p) c) := by
    intro p hp c hc
    rw [strDissip_eq, strDissip_eq]
    refine h.dissip_eq unitD hp _ _ ?_ hc
    intro c hc j hj k hk
    rw [toV_match he hp hc hj, toV_match hv hp hc hj, hfg p hp c hc j hj k hk]
  have src : ∀ p < SIZE, ∀ c < (L p).nbcells, strSource dim (L p) (V p).cell (eL p) (vL p) c = strSource dim G (U 0).cell (eG 0) (vG 0) (phi (data p) c) := by
    intro p hp c hc
    unfold strSource Streamer.source
    rw [strCell_match h.run he hp hc, strCell_match h.run hv hp hc, hm p hp c hc]
    simp only [Streamer.seed]
    simp
  obtain ⟨NL, hNL⟩ : ∃ NL : Nat → (Nat → ℝ) × (Nat → ℝ), NL = fun p => Streamer.updateFlux (V3 p).cell (niL p)
      (conv dim (convArgs (L p) (velFields (vL p) (V2 p).cell (V2 p).ghost (V2 p).halo (gL' p)) S.order)) (fun _ => 0)
      (strDissip (L p) (eL p) (vL p) (fL p)) (fun _ => 0) (fun i => (strSource dim (L p) (V p).cell (eL p) (vL p) i).1)
      (fun i => (strSource dim (L p) (V p).cell (eL p) (vL p) i).2) dt (L p).volume := ⟨_, rfl⟩
  obtain ⟨NG, hNG⟩ : ∃ NG : Nat → (Nat → ℝ) × (Nat → ℝ), NG = fun p => Streamer.updateFlux (U3 p).cell (niG p)
      (conv dim (convArgs G (velFields (vG p) (U2 p).cell (U2 p).ghost (U2 p).halo (gG' p)) S.order)) (fun _ => 0)
      (strDissip G (eG p) (vG p) (fG p)) (fun _ => 0) (fun i => (strSource dim G (U p).cell (eG p) (vG p) i).1)
      (fun i => (strSource dim G (U p).cell (eG p) (vG p) i).2) dt G.volume := ⟨_, rfl⟩
  have new : ∀ p < SIZE, ∀ c < (L p).nbcells, (NL p).1 c = (NG 0).1 (phi (data p) c) ∧ (NL p).2 c = (NG 0).2 (phi (data p) c) := by
    intro p hp c hc
    rw [hNL, hNG]
    dsimp only [Streamer.updateFlux]
    rw [rez p hp c hc, dis p hp c hc, src p hp c hc, h.run.volume p hp c hc, m3 p hp c hc, hni p hp c hc]
    exact ⟨rfl, rfl⟩
  have mN : VMatch SIZE data L (fun p => { V3 p with cell := (NL p).1 }) (fun p => { U3 p with cell := (NG p).1 }) := fun p hp c hc => (new p hp c hc).1
  cases hsv : S.saves it dt with
  | false =>
    refine ⟨_, gL', fun p => (NL p).2, ndL, _, gG', fun p => (NG p).2, ndG, dt, ?_, ?_, mN, fun p hp c hc => (new p hp c hc).2, hnd⟩
    · unfold strMove
      rw [hgrad, if_pos rfl, c1]
      simp only [Option.bind_some]
      rw [f1]
      simp only [Option.bind_some]
      rw [← hdt', hsv, hNL]
      simp only [Bool.false_eq_true, if_false, Option.map_some]
    · unfold strMove
      rw [hgrad, if_pos rfl, c2]
      simp only [Option.bind_some]
      rw [f2]
      simp only [Option.bind_some]
      rw [← hdt, ← hdt', hsv, hNG]
      simp only [Bool.false_eq_true, if_false, Option.map_some]
  | true =>
    obtain ⟨V4, n4, U4, k4, g1, g2, m4, _, _, _, _, hN4⟩ := celltonode_match h sL sG S.bc so _ _ mN
    refine ⟨V4, gL', fun p => (NL p).2, n4, U4, gG', fun p => (NG p).2, k4, dt, ?_, ?_, m4, fun p hp c hc => (new p hp c hc).2, hN4⟩
    · unfold strMove
      rw [hgrad, if_pos rfl, c1]
      simp only [Option.bind_some]
      rw [f1]
      simp only [Option.bind_some]
      rw [← hdt', hsv, if_pos rfl]
      rw [hNL] at g1 ⊢
      exact congrArg (Option.map (fun o => (o.1, gL', _, o.2, _))) g1
    · unfold strMove
      rw [hgrad, if_pos rfl, c2]
      simp only [Option.bind_some]
      rw [f2]
      simp only [Option.bind_some]
      rw [← hdt, ← hdt', hsv, if_pos rfl]
      rw [hNG] at g2 ⊢
      exact congrArg (Option.map (fun o => (o.1, gG', _, o.2, _))) g2

/-- Matching states of the parallel and the serial run. -/
structure StrMatch (dim SIZE : Nat) (data : Nat → RankData ℝ) (L : Nat → Tables ℝ) (G : Tables ℝ) (WL WG : World ℝ) (S : StrSetup)
    (svL svG : LinSolve.Solver) (direct : (Nat → Nat → ℝ) → (Nat → ℝ) → Nat → ℝ) (s t : StrState) : Prop where
  sysL : SysOk (linEnv WL S.bcP svL direct) (linBnd WL S.bcP svL) s.sys
  sysG : SysOk (linEnv WG S.bcP svG direct) (linBnd WG S.bcP svG) t.sys
  zL : svL ≠ .petsc → RhsZero WL (linEnv WL S.bcP svL direct).loctoglob s.rhs
  zG : svG ≠ .petsc → RhsZero WG (linEnv WG S.bcP svG direct).loctoglob t.rhs
  pot : CellsAgree SIZE data s.sys.cells (t.sys.cells 0)
  el : VelMatch dim SIZE data L G s.el (t.el 0)
  vel : VelMatch dim SIZE data L G s.vel (t.vel 0)
  cell : VMatch SIZE data L s.V t.V
  ni : ∀ p < SIZE, ∀ c < (L p).nbcells, s.ni p c = t.ni 0 (phi (data p) c)
  node : ∀ p < SIZE, ∀ i < (L p).nbnodes, s.node p i = t.node 0 (gOf (data p) i)
  iter : s.iter = t.iter
  time : s.time = t.time

theorem strStep_match (h : NodePair dim nodeid node cv npart0 epart nbnodes n SIZE data serial L G B out trunc) {hgL hgG : Nat → HGResult ℝ}
    (hw : dim = 3 → WedgeOk G ∧ ∀ p < SIZE, WedgeOk (L p))
    (sL : ∀ p < SIZE, ∃ rows, HGSpec dim SIZE data L p (hgL p) rows) (sG : HGSerial dim G nbnodes (hgG 0))
    (S : StrSetup) (hgrad : S.grad = true) (so : StencilOk dim nodeid epart n G S.bc) (hbc : FieldCornersOk dim nodeid epart n G S.bcP)
    (direct : (Nat → Nat → ℝ) → (Nat → ℝ) → Nat → ℝ) (hdir : ReadsRows n direct) (svL svG : LinSolve.Solver)
    (s t : StrState) (hm : StrMatch dim SIZE data L G (parW dim SIZE data L hgL) (serW dim serial G hgG) S svL svG direct s t) :
    ∃ s' t', strStep (parW dim SIZE data L hgL) S svL direct s = some s' ∧ strStep (serW dim serial G hgG) S svG direct t = some t' ∧
      StrMatch dim SIZE data L G (parW dim SIZE data L hgL) (serW dim serial G hgG) S svL svG direct s' t' := by
  have hS := h.run.hS
  have hS1 : ¬ SIZE = 1 := by omega
  have cL : ChargeIs (parW dim SIZE data L hgL) (linEnv (parW dim SIZE data L hgL) S.bcP svL direct).loctoglob s
      (fun g => 1.8096e-8 * ((t.V 0).cell g - t.ni 0 g)) := by
    intro p hp c hc
    have e : (linEnv (parW dim SIZE data L hgL) S.bcP svL direct).loctoglob p c = phi (data p) c := by
      show (if SIZE = 1 then c else (data p).loctoglob.getD c 0) = _
      rw [if_neg hS1]; rfl
    rw [e]
    beta_reduce
    rw [hm.cell p hp c hc, hm.ni p hp c hc]
  have cG : ChargeIs (serW dim serial G hgG) (linEnv (serW dim serial G hgG) S.bcP svG direct).loctoglob t
      (fun g => 1.8096e-8 * ((t.V 0).cell g - t.ni 0 g)) := by
    intro p hp c hc
    obtain rfl : p = 0 := by have : p < 1 := hp; omega
    rfl
  obtain ⟨a, rL, ea, oa, wa, za⟩ := strSolve_ok _ S svL direct (by show 0 < SIZE; omega) (h.lin_numbering S.bcP hgL svL direct).1 s hm.sysL hm.zL _ cL
  obtain ⟨b, rG, eb, ob, wb, zb⟩ := strSolve_ok _ S svG direct (by show 0 < 1; omega) (h.lin_numbering_serial S.bcP hgG svG direct).1 t hm.sysG hm.zG _ cG
  have hP := h.lin_solve hw so.star S.bcP sL sG direct hdir svL svG _ a b wa wb
  obtain ⟨P', nL, fL, Q', nG, fG, e1, e2, _, _, _, hf⟩ := solGradient_match h hw sL sG S.bcP so.star hbc
    (fun p => { s.P p with cell := a.cells p }) (fun p => { t.P p with cell := b.cells p }) ((h.cellsAgree _ _).mp hP)
  have hv := strVel_match h.run (oL := s.vel) (oG := t.vel 0) (show VelMatch dim SIZE data L G fL (fG 0) from hf)
  obtain ⟨V', gL', niL', mL, U', gG', niG', mG, dt, g1, g2, m', hni', hN⟩ := strMove_match h hw sL sG S hgrad so (eL := fL) (eG := fG)
    (vL := fun p => strVel (L p) (fL p) (s.vel p)) (vG := fun p => strVel G (fG p) (t.vel p)) hf hv s.V t.V hm.cell s.gr t.gr s.ni t.ni hm.ni
    s.node t.node hm.node s.iter
  refine ⟨{ sys := a, P := P', rhs := rL, el := fL, vel := fun p => strVel (L p) (fL p) (s.vel p), V := V', gr := gL', ni := niL', node := mL
            iter := s.iter + 1, time := s.time + dt },
    { sys := b, P := Q', rhs := rG, el := fG, vel := fun p => strVel G (fG p) (t.vel p), V := U', gr := gG', ni := niG', node := mG
      iter := t.iter + 1, time := t.time + dt }, ?_, ?_,
    ⟨oa, ob, za, zb, hP, hf, hv, m', hni', hN, by rw [hm.iter], by rw [hm.time]⟩⟩
  · unfold strStep
    rw [ea]
    simp only [Option.bind_some]
    rw [e1]
    simp only [Option.bind_some]
    exact congrArg (Option.map _) g1
  · unfold strStep
    rw [eb]
    simp only [Option.bind_some]
    rw [e2]
    simp only [Option.bind_some]
    rw [← hm.iter]
    exact congrArg (Option.map _) g2

theorem strLoop_match (h : NodePair dim nodeid node cv npart0 epart nbnodes n SIZE data serial L G B out trunc) {hgL hgG : Nat → HGResult ℝ}
    (hw : dim = 3 → WedgeOk G ∧ ∀ p < SIZE, WedgeOk (L p))
    (sL : ∀ p < SIZE, ∃ rows, HGSpec dim SIZE data L p (hgL p) rows) (sG : HGSerial dim G nbnodes (hgG 0))
    (S : StrSetup) (hgrad : S.grad = true) (so : StencilOk dim nodeid epart n G S.bc) (hbc : FieldCornersOk dim nodeid epart n G S.bcP)
    (direct : (Nat → Nat → ℝ) → (Nat → ℝ) → Nat → ℝ) (hdir : ReadsRows n direct) (svL svG : LinSolve.Solver)
    (s t : StrState) (hm : StrMatch dim SIZE data L G (parW dim SIZE data L hgL) (serW dim serial G hgG) S svL svG direct s t) (N : Nat) :
    ∃ s' t', strLoop (parW dim SIZE data L hgL) S svL direct s N = some s' ∧ strLoop (serW dim serial G hgG) S svG direct t N = some t' ∧
      StrMatch dim SIZE data L G (parW dim SIZE data L hgL) (serW dim serial G hgG) S svL svG direct s' t' := by
  induction N with
  | zero => exact ⟨s, t, rfl, rfl, hm⟩
  | succ N ih =>
    obtain ⟨s1, t1, e1, e2, m1⟩ := ih
    simp only [strLoop, e1, e2, Option.bind_some]
    rw [m1.time]
    by_cases ht : t1.time < S.tfinal
    · simp only [if_pos ht]; exact strStep_match h hw sL sG S hgrad so hbc direct hdir svL svG s1 t1 m1
    · simp only [if_neg ht]; exact ⟨s1, t1, rfl, rfl, m1⟩

theorem strStart_eq (W : World ℝ) (S : StrSetup) (sv : LinSolve.Solver) (direct : (Nat → Nat → ℝ) → (Nat → ℝ) → Nat → ℝ) (f fi g : ℝ → ℝ → ℝ → ℝ)
    (hsv : W.SIZE = 1 ∨ InPlace sv) :
    ∃ s, strStart W S sv direct f fi g = some s ∧ SysOk (linEnv W S.bcP sv direct) (linBnd W S.bcP sv) s.sys ∧
      (∀ p, s.sys.cells p = fun c => g ((W.D p).center c 0) ((W.D p).center c 1) ((W.D p).center c 2)) ∧ s.rhs = (fun _ _ => 0) ∧ s.el = (fun _ _ _ => 0) ∧
      s.vel = (fun _ _ _ => 0) ∧ (∀ p, (s.V p).cell = fun c => f ((W.D p).center c 0) ((W.D p).center c 1) ((W.D p).center c 2)) ∧
      (s.ni = fun p c => fi ((W.D p).center c 0) ((W.D p).center c 1) ((W.D p).center c 2)) ∧ s.node = (fun _ _ => 0) ∧ s.iter = 1 ∧ s.time = 0 := by
  obtain ⟨a, e, ca⟩ := mkSystem_start (linEnv W S.bcP sv direct) (linBnd W S.bcP sv)
    (fun p c => g ((W.D p).center c 0) ((W.D p).center c 1) ((W.D p).center c 2)) hsv
  refine ⟨{ sys := a, P := fun p => ⟨fun c => g ((W.D p).center c 0) ((W.D p).center c 1) ((W.D p).center c 2), fun _ => 0, fun _ => 0, []⟩
            rhs := fun _ _ => 0, el := fun _ _ _ => 0, vel := fun _ _ _ => 0
            V := fun p => ⟨fun c => f ((W.D p).center c 0) ((W.D p).center c 1) ((W.D p).center c 2), fun _ => 0, fun _ => 0, []⟩
            gr := fun _ => ⟨fun _ => 0, fun _ => 0, fun _ => 0, fun _ => 0, [], [], [], []⟩
            ni := fun p c => fi ((W.D p).center c 0) ((W.D p).center c 1) ((W.D p).center c 2)
            node := fun _ _ => 0, iter := 1, time := 0 }, ?_, ⟨_, _, [], e, by simp, rfl⟩, ca, rfl, rfl, rfl, fun _ => rfl, rfl, rfl, rfl, rfl⟩
  unfold strStart
  dsimp only
  rw [e]; rfl

theorem strStart_match (h : NodePair dim nodeid node cv npart0 epart nbnodes n SIZE data serial L G B out trunc) (hgL hgG : Nat → HGResult ℝ)
    (S : StrSetup) (direct : (Nat → Nat → ℝ) → (Nat → ℝ) → Nat → ℝ) (svL svG : LinSolve.Solver) (hL : InPlace svL) (f fi g : ℝ → ℝ → ℝ → ℝ) :
    ∃ s t, strStart (parW dim SIZE data L hgL) S svL direct f fi g = some s ∧ strStart (serW dim serial G hgG) S svG direct f fi g = some t ∧
      StrMatch dim SIZE data L G (parW dim SIZE data L hgL) (serW dim serial G hgG) S svL svG direct s t := by
  have cm : ∀ (f : ℝ → ℝ → ℝ → ℝ), ∀ p < SIZE, ∀ c < (L p).nbcells, f ((L p).center c 0) ((L p).center c 1) ((L p).center c 2) =
      f (G.center (phi (data p) c) 0) (G.center (phi (data p) c) 1) (G.center (phi (data p) c) 2) := by
    intro f p hp c hc
    have := (h.run.rank p hp).center c hc
    rw [this 0 (by omega), this 1 (by omega), this 2 (by omega)]
  obtain ⟨s, es, s1, s2, s3, s4, s5, s6, s7, s8, s9, s10⟩ := strStart_eq (parW dim SIZE data L hgL) S svL direct f fi g (.inr hL)
  obtain ⟨t, et, t1, t2, t3, t4, t5, t6, t7, t8, t9, t10⟩ := strStart_eq (serW dim serial G hgG) S svG direct f fi g (.inl rfl)
  refine ⟨s, t, es, et, s1, t1, ?_, ?_, ?_, ?_, ?_, ?_, ?_, ?_, by rw [s9, t9], by rw [s10, t10]⟩
  · intro _ p _ g' _; rw [s3]
  · intro _ p _ g' _; rw [t3]
  · refine (h.cellsAgree _ _).mpr fun p hp c hc => ?_
    rw [s2, t2]
    exact cm g p hp c hc
  · intro p hp c hc j hj k hk; rw [s4, t4]
  · intro p hp c hc j hj k hk; rw [s5, t5]
  · intro p hp c hc; rw [s6, t6]; exact cm f p hp c hc
  · intro p hp c hc; rw [s7, t7]; exact cm fi p hp c hc
  · intro p hp i hi; rw [s8, t8]

end

section
variable {nodeid : Nat → Nat → Nat} {node : Nat → ℝ × ℝ × ℝ × Nat} {npart0 epart : Nat → Nat}
  {nbnodes n SIZE : Nat} {data : Nat → RankData ℝ} {serial : RankData ℝ}

/-- C113 (2D): after any number of iterations of a streamer computation the potential, the field and the drift velocities on the faces,
the electrons and the ions in the cells, the electrons at the nodes, the number of iterations and the time are those of the serial run. -/
theorem C113_streamer_run_2d_partial (h : Launched 3 nodeid node (centvol2 node nodeid) npart0 epart nbnodes n SIZE data serial)
    (vm : ValidMesh2 nodeid node nbnodes n) (sqrt : ℝ → ℝ) (trunc : ℝ → Int) (htr : ∀ m : Nat, trunc (m : ℝ) = m)
    (star : StarConnected 2 nodeid n) :
    ∃ WL WG, mkWorld 2 SIZE data (fun p => build2 sqrt trunc SIZE (data p)) = some WL ∧
      mkWorld 2 1 (fun _ => serial) (fun _ => build2 sqrt trunc 1 serial) = some WG ∧
      ∀ (S : StrSetup), S.grad = true → CornersOk 2 nodeid epart n (build2 sqrt trunc 1 serial) S.bc →
        FieldCornersOk 2 nodeid epart n (build2 sqrt trunc 1 serial) S.bcP →
        ∀ (direct : (Nat → Nat → ℝ) → (Nat → ℝ) → Nat → ℝ), ReadsRows n direct →
        ∀ (svL svG : LinSolve.Solver), InPlace svL → InPlace svG → ∀ (f fi g : ℝ → ℝ → ℝ → ℝ) (N : Nat),
        ∃ s0 t0 s t, strStart WL S svL direct f fi g = some s0 ∧ strStart WG S svG direct f fi g = some t0 ∧
          strLoop WL S svL direct s0 N = some s ∧ strLoop WG S svG direct t0 N = some t ∧ s.time = t.time ∧ s.iter = t.iter ∧
          CellsAgree SIZE data (fun p => (s.V p).cell) (t.V 0).cell ∧ CellsAgree SIZE data s.ni (t.ni 0) ∧
          NodesAgree SIZE data s.node (t.node 0) ∧ CellsAgree SIZE data s.sys.cells (t.sys.cells 0) ∧
          ∀ k < 3, FacesAgree SIZE data (fun p => build2 sqrt trunc SIZE (data p)) (build2 sqrt trunc 1 serial)
              (fun p f => s.el p f k) (fun F => t.el 0 F k) ∧
            FacesAgree SIZE data (fun p => build2 sqrt trunc SIZE (data p)) (build2 sqrt trunc 1 serial)
              (fun p f => s.vel p f k) (fun F => t.vel 0 F k) := by
  have np := h.nodePair2 vm sqrt trunc htr
  obtain ⟨hgL, hgG, w1, w2, sL, sG⟩ := np.worlds
  refine ⟨_, _, w1, w2, fun S hg hbc hbP direct hdir svL svG hL _ f fi g N => ?_⟩
  obtain ⟨s0, t0, a1, a2, m0⟩ := strStart_match np hgL hgG S direct svL svG hL f fi g
  obtain ⟨s, t, e1, e2, m⟩ := strLoop_match np (by omega) sL sG S hg ⟨star, hbc⟩ hbP direct hdir svL svG s0 t0 m0 N
  exact ⟨s0, t0, s, t, a1, a2, e1, e2, m.time, m.iter, (np.cellsAgree _ _).mpr m.cell, (np.cellsAgree _ _).mpr m.ni, np.nodesAgree _ _ m.node, m.pot,
    fun k hk => ⟨np.facesAgree _ _ fun p hp c hc j hj => m.el p hp c hc j hj k hk, np.facesAgree _ _ fun p hp c hc j hj => m.vel p hp c hc j hj k hk⟩⟩

/-- C113 (3D): after any number of iterations of a streamer computation the potential, the field and the drift velocities on the faces,
the electrons and the ions in the cells, the electrons at the nodes, the number of iterations and the time are those of the serial run. -/
theorem C113_streamer_run_3d_partial (h : Launched 4 nodeid node (centvol3 node nodeid) npart0 epart nbnodes n SIZE data serial)
    (vm : ValidMesh3 nodeid node nbnodes n) (sqrt : ℝ → ℝ) (trunc : ℝ → Int) (htr : ∀ m : Nat, trunc (m : ℝ) = m)
    (star : StarConnected 3 nodeid n) :
    ∃ WL WG, mkWorld 3 SIZE data (fun p => build3 sqrt trunc SIZE (data p)) = some WL ∧
      mkWorld 3 1 (fun _ => serial) (fun _ => build3 sqrt trunc 1 serial) = some WG ∧
      ∀ (S : StrSetup), S.grad = true → CornersOk 3 nodeid epart n (build3 sqrt trunc 1 serial) S.bc →
        FieldCornersOk 3 nodeid epart n (build3 sqrt trunc 1 serial) S.bcP →
        ∀ (direct : (Nat → Nat → ℝ) → (Nat → ℝ) → Nat → ℝ), ReadsRows n direct →
        ∀ (svL svG : LinSolve.Solver), InPlace svL → InPlace svG → ∀ (f fi g : ℝ → ℝ → ℝ → ℝ) (N : Nat),
        ∃ s0 t0 s t, strStart WL S svL direct f fi g = some s0 ∧ strStart WG S svG direct f fi g = some t0 ∧
          strLoop WL S svL direct s0 N = some s ∧ strLoop WG S svG direct t0 N = some t ∧ s.time = t.time ∧ s.iter = t.iter ∧
          CellsAgree SIZE data (fun p => (s.V p).cell) (t.V 0).cell ∧ CellsAgree SIZE data s.ni (t.ni 0) ∧
          NodesAgree SIZE data s.node (t.node 0) ∧ CellsAgree SIZE data s.sys.cells (t.sys.cells 0) ∧
          ∀ k < 3, FacesAgree SIZE data (fun p => build3 sqrt trunc SIZE (data p)) (build3 sqrt trunc 1 serial)
              (fun p f => s.el p f k) (fun F => t.el 0 F k) ∧
            FacesAgree SIZE data (fun p => build3 sqrt trunc SIZE (data p)) (build3 sqrt trunc 1 serial)
              (fun p f => s.vel p f k) (fun F => t.vel 0 F k) := by
  have np := h.nodePair3 vm sqrt trunc htr
  obtain ⟨hgL, hgG, w1, w2, sL, sG⟩ := np.worlds
  refine ⟨_, _, w1, w2, fun S hg hbc hbP direct hdir svL svG hL _ f fi g N => ?_⟩
  obtain ⟨s0, t0, a1, a2, m0⟩ := strStart_match np hgL hgG S direct svL svG hL f fi g
  obtain ⟨s, t, e1, e2, m⟩ := strLoop_match np (fun _ => ⟨wedge_build3 sqrt trunc 1 serial, fun p hp => wedge_build3 sqrt trunc SIZE (data p)⟩) sL sG S hg ⟨star, hbc⟩ hbP direct hdir svL svG s0 t0 m0 N
  exact ⟨s0, t0, s, t, a1, a2, e1, e2, m.time, m.iter, (np.cellsAgree _ _).mpr m.cell, (np.cellsAgree _ _).mpr m.ni, np.nodesAgree _ _ m.node, m.pot,
    fun k hk => ⟨np.facesAgree _ _ fun p hp c hc j hj => m.el p hp c hc j hj k hk, np.facesAgree _ _ fun p hp c hc j hj => m.vel p hp c hc j hj k hk⟩⟩

end

/-- A streamer computation: potential `1 - x` on the boundary, electrons insulated, second order. -/
noncomputable def strSetup : StrSetup := ⟨fun _ => BCond.neumann, fun _ => BCond.dirichlet (fun x _ _ => 1 - x), 1, 1, 2, true, fun _ _ => true⟩

theorem signedVol_real (node : Nat → ℚ × ℚ × ℚ × Nat) (a b c d : Nat) :
    signedVol (pos (realNode node) a) (pos (realNode node) b) (pos (realNode node) c) (pos (realNode node) d) =
      ((signedVol (pos node a) (pos node b) (pos node c) (pos node d) : ℚ) : ℝ) := by
  simp only [signedVol, det3, pos, realNode]; push_cast; rfl

theorem validReal3 {nodeid : Nat → Nat → Nat} {node : Nat → ℚ × ℚ × ℚ × Nat} {nbnodes n : Nat} (h : ValidMesh3 nodeid node nbnodes n) :
    ValidMesh3 nodeid (realNode node) nbnodes n := by
  refine ⟨h.nodes, h.used, ?_, ?_, h.label⟩
  · intro c hc; rw [signedVol_real]; exact_mod_cast h.volume c hc
  · intro c hc c' hc' hne a b d x y h1 h2
    rw [signedVol_real, signedVol_real]
    exact_mod_cast h.opposite c hc c' hc' hne a b d x y h1 h2

theorem realChainLaunched : ∃ data serial, Launched 4 chainCell (realNode chainNode) (centvol3 (realNode chainNode) chainCell) chainNodePart chainPart 6 3 2 data serial := by
  refine ⟨fun p => expected 2 p (rankWrite chainCell (realNode chainNode) (centvol3 (realNode chainNode) chainCell) (partition chainCell chainNodePart chainPart 6 3 4)
    (halos (partition chainCell chainNodePart chainPart 6 3 4).cpart (partition chainCell chainNodePart chainPart 6 3 4).haloCell 2) 6 2 4 p),
    expected 1 0 (serialWrite chainCell (realNode chainNode) 6 3 4), chainLaunched.hd, chainLaunched.hS, chainLaunched.he, chainLaunched.hok, chainLaunched.hused, chainLaunched.hnode, ?_, ?_⟩
  · exact fun p hp => C25_round_trip_parallel (K := ℝ) 2 p (by decide) _
  · exact C25_round_trip_serial (K := ℝ) _ _

/-! The hypotheses are met: the strip and the chain cut in two, potential prescribed on the whole boundary, electrons insulated. -/
example : ∃ (data : Nat → RankData ℝ) (serial : RankData ℝ),
    Launched 3 exStrip (realNode stripNode) (centvol2 (realNode stripNode) exStrip) exN exE 6 4 2 data serial ∧
    ∃ WL WG, mkWorld 2 2 data (fun p => build2 Real.sqrt Int.floor 2 (data p)) = some WL ∧
    mkWorld 2 1 (fun _ => serial) (fun _ => build2 Real.sqrt Int.floor 1 serial) = some WG ∧ ∀ (f fi g : ℝ → ℝ → ℝ → ℝ) (N : Nat),
    ∃ s0 t0 s t, strStart WL strSetup .mumps (fun _ b => b) f fi g = some s0 ∧ strStart WG strSetup .petsc (fun _ b => b) f fi g = some t0 ∧
      strLoop WL strSetup .mumps (fun _ b => b) s0 N = some s ∧ strLoop WG strSetup .petsc (fun _ b => b) t0 N = some t ∧ s.time = t.time := by
  obtain ⟨data, serial, h⟩ := realStripLaunched
  obtain ⟨WL, WG, e1, e2, H⟩ := C113_streamer_run_2d_partial h (validReal stripValid) Real.sqrt Int.floor floor_real (run_star 2 4)
  refine ⟨data, serial, h, WL, WG, e1, e2, fun f fi g N => ?_⟩
  obtain ⟨s0, t0, s, t, a, b, c, d, e, _⟩ := H strSetup rfl (fun _ _ _ _ _ => Or.inl rfl)
    (C99_dirichlet_corners_2d h (validReal stripValid) Real.sqrt Int.floor floor_real _)
    (fun _ b => b) (fun _ _ _ _ _ hb => hb) .mumps .petsc (.inl rfl) (.inr rfl) f fi g N
  exact ⟨s0, t0, s, t, a, b, c, d, e⟩

example : ∃ (data : Nat → RankData ℝ) (serial : RankData ℝ), ∃ WL WG, mkWorld 3 2 data (fun p => build3 Real.sqrt Int.floor 2 (data p)) = some WL ∧
    mkWorld 3 1 (fun _ => serial) (fun _ => build3 Real.sqrt Int.floor 1 serial) = some WG ∧ ∀ (f fi g : ℝ → ℝ → ℝ → ℝ) (N : Nat),
    ∃ s0 t0 s t, strStart WL strSetup .petsc (fun _ b => b) f fi g = some s0 ∧ strStart WG strSetup .mumps (fun _ b => b) f fi g = some t0 ∧
      strLoop WL strSetup .petsc (fun _ b => b) s0 N = some s ∧ strLoop WG strSetup .mumps (fun _ b => b) t0 N = some t ∧ s.time = t.time := by
  obtain ⟨data, serial, h⟩ := realChainLaunched
  obtain ⟨WL, WG, e1, e2, H⟩ := C113_streamer_run_3d_partial h (validReal3 chainValid) Real.sqrt Int.floor floor_real (run_star 3 3)
  refine ⟨data, serial, WL, WG, e1, e2, fun f fi g N => ?_⟩
  obtain ⟨s0, t0, s, t, a, b, c, d, e, _⟩ := H strSetup rfl (fun _ _ _ _ _ => Or.inl rfl)
    (C99_dirichlet_corners_3d h (validReal3 chainValid) Real.sqrt Int.floor floor_real _)
    (fun _ b => b) (fun _ _ _ _ _ hb => hb) .petsc .mumps (.inr rfl) (.inl rfl) f fi g N
  exact ⟨s0, t0, s, t, a, b, c, d, e⟩

end Verif.Props.Par
