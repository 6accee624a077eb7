import Verif.Props.Job
import Verif.Spec.Schedule
import Verif.Props.RunEnd

/-!
# C96: the transport run does not depend on the order in which the processes advance
-/
set_option linter.unusedSectionVars false
set_option linter.unusedVariables false
set_option linter.unusedSimpArgs false
namespace Verif.Props.Par
open Verif Verif.Dom Verif.Fvm Verif.MeshFile Verif.Comm Verif.HaloGhost Verif.Proc Verif.Run Verif.Job Verif.Spec Verif.Part
variable {K : Type} [Field K] [LinearOrder K] [IsStrictOrderedRing K]

theorem Locks.every {M α : Type} [Inhabited M] {SIZE : Nat} {P : Nat → Prog M α} {a : Nat → α} (h : Locks SIZE P a) : EverySchedule SIZE P a := by
  obtain ⟨n, h⟩ := h
  refine ⟨2 * n * SIZE, fun sync hs sch c he => ?_⟩
  obtain ⟨h1, h2, h3, h4⟩ := lock_sched h hs he
  exact ⟨h4, h1, h2, h3⟩

section
variable {d1 : Nat} {nodeid : Nat → Nat → Nat} {node : Nat → K × K × K × Nat} {cv : Nat → List K} {npart0 epart : Nat → Nat}
  {nbnodes n SIZE : Nat} {data : Nat → RankData K} {serial : RankData K}

theorem Launched.commOk (hl : Launched d1 nodeid node cv npart0 epart nbnodes n SIZE data serial) : CommOk SIZE data := by
  obtain ⟨P, hP⟩ : ∃ P, P = partition nodeid npart0 epart nbnodes n d1 := ⟨_, rfl⟩
  obtain ⟨h, hh⟩ : ∃ h, h = halos P.cpart P.haloCell SIZE := ⟨_, rfl⟩
  have hS := hl.hS
  have hS1 : ¬ SIZE = 1 := by omega
  have hdat : ∀ q < SIZE, data q = expected SIZE q (rankWrite nodeid node cv P h nbnodes SIZE d1 q) := by
    intro q hq
    rw [hh, hP]; exact hl.data_eq hq
  have hnb : ∀ q, Lists (P.neighsub q) (fun r => r ≠ q ∧
      ∃ k < nbnodes, NodeIn nodeid npart0 epart n d1 q k ∧ NodeIn nodeid npart0 epart n d1 r k) := by
    intro q; rw [hP]; exact C22_neighbours nodeid npart0 epart nbnodes n d1 q
  have hsym : ∀ q r, r ∈ P.neighsub q ↔ q ∈ P.neighsub r := by
    intro q r; rw [hP]; exact (C22_symmetric nodeid npart0 epart nbnodes n d1 q r).1
  have hlt : ∀ q, ∀ r ∈ P.neighsub q, r < SIZE := by
    intro q r hr
    obtain ⟨_, k, hk, _, hrk⟩ := ((hnb q).2 r).mp hr
    rcases hrk with hrk | ⟨i, hi, hei, _⟩
    · obtain ⟨i, hi, j, hj, rfl⟩ := hl.hused k hk
      obtain ⟨i', hi', hei, _⟩ := hl.hok i hi j hj
      rw [← hrk, ← hei]; exact hl.he i' hi'
    · rw [← hei]; exact hl.he i hi
  have hneigh : ∀ q < SIZE, (data q).neigh = [P.neighsub q, (P.neighsub q).map (fun r => (h.1 q r).length)] := by
    intro q hq; rw [hdat q hq]; simp [expected, hS1, rankWrite]
  have hneigh0 : ∀ q < SIZE, (data q).neigh.getD 0 [] = P.neighsub q := by
    intro q hq; rw [hneigh q hq]; rfl
  refine ⟨fun _ p hp q hq => ?_, fun _ p hp => ?_, fun _ p hp => ?_⟩
  · rw [hneigh0 p hp] at hq
    have hqS := hlt p q hq
    exact ⟨hqS, by rw [hneigh0 q hqS]; exact (hsym p q).mp hq⟩
  · rw [hneigh p hp]
    have e : scountArr [P.neighsub p, (P.neighsub p).map (fun r => (h.1 p r).length)] =
        fun r => if r ∈ P.neighsub p then (h.1 p r).length else 0 := by
      funext r
      exact scountArr_eq _ _ ((hnb p).1.imp (fun h => Nat.ne_of_lt h)) r
    rw [e, positive_eq SIZE _ _ (hnb p).1 (hlt p) (fun q hq => ?_)]
    · simp
    · have := C24_keys_present nodeid npart0 epart nbnodes n d1 SIZE p q hl.hd hp (hlt p q hq) hl.hok hl.hused
      simp only [← hP, ← hh] at this
      exact List.length_pos_iff.mpr (this hq).1
  · obtain ⟨halo, hx, _⟩ := C26_halo_exchange nodeid node cv npart0 epart nbnodes n d1 SIZE hl.hd hl.hS hl.he hl.hok hl.hused
      (fun p => writeRank p (rankWrite nodeid node cv (partition nodeid npart0 epart nbnodes n d1)
        (halos (partition nodeid npart0 epart nbnodes n d1).cpart (partition nodeid npart0 epart nbnodes n d1).haloCell SIZE) nbnodes SIZE d1 p))
      (writeMaster ((List.range nbnodes).map (partition nodeid npart0 epart nbnodes n d1).npart)) ⟨fun _ _ => rfl, rfl⟩ data hl.hdata (fun _ _ => 0) p hp
    unfold updateHalo at hx
    simp only [bind, Option.bind_eq_some_iff] at hx
    obtain ⟨send, hs, _⟩ := hx
    obtain ⟨b, hb, _⟩ := mapM_range_ok hs p hp
    rw [Option.map_eq_some_iff] at hb
    obtain ⟨l, e, _⟩ := hb
    exact ⟨l, e⟩

end

/-- From any moment of any run the processes can reach the end. -/
theorem EverySchedule.ends {M α : Type} [Inhabited M] {SIZE : Nat} {P : Nat → Prog M α} {a : Nat → α} (h : EverySchedule SIZE P a)
    {sync : Cfg M α → Nat → Nat → Nat → Prop} (hs : Fair SIZE sync) {sch : List Nat} {c : Cfg M α} (he : Exec sync SIZE (Cfg.init P) sch c) :
    ∃ sch' c', Exec sync SIZE (Cfg.init P) (sch ++ sch') c' ∧ ∀ p < SIZE, c'.st p = .ret (a p) := by
  obtain ⟨bound, h⟩ := h
  obtain ⟨m, hm⟩ : ∃ m, m = bound - sch.length := ⟨_, rfl⟩
  induction m generalizing sch c with
  | zero =>
    obtain ⟨h1, _, _, h4⟩ := h sync hs sch c he
    rcases h4 with h4 | ⟨p, hp, c', hc⟩
    · exact ⟨[], c, by simpa using he, h4⟩
    · have := (h sync hs _ _ (.step _ _ _ _ p he hp hc)).1
      simp at this
      omega
  | succ m ih =>
    obtain ⟨h1, _, _, h4⟩ := h sync hs sch c he
    rcases h4 with h4 | ⟨p, hp, c', hc⟩
    · exact ⟨[], c, by simpa using he, h4⟩
    · obtain ⟨sch', c'', e1, e2⟩ := ih (.step _ _ _ _ p he hp hc) (by rw [List.length_append, List.length_singleton]; omega)
      exact ⟨p :: sch', c'', by simpa using e1, e2⟩

section
variable {dim : Nat} {nodeid : Nat → Nat → Nat} {node : Nat → K × K × K × Nat} {cv : Nat → List K} {npart0 epart : Nat → Nat}
  {nbnodes n SIZE : Nat} {data : Nat → RankData K} {serial : RankData K} {L : Nat → Tables K} {G : Tables K} {B : List Int}
  {out : Nat → Nat → Geo.Vec K} {trunc : K → Int}

/-- The run on `SIZE` processes: the lock-step run exists and every schedule gives its result. -/
theorem NodePair.every (np : NodePair dim nodeid node cv npart0 epart nbnodes n SIZE data serial L G B out trunc) {hgL : Nat → HGResult K}
    (w1 : mkWorld dim SIZE data L = some (parW dim SIZE data L hgL)) (S : Setup K) (order : Int) (diff : Bool) (init : K → K → K → K) (N : Nat)
    {s : TState K} (e : tloop (parW dim SIZE data L hgL) S order diff (tstart (parW dim SIZE data L hgL) init) N = some s) :
    EverySchedule SIZE (fun p => job dim SIZE p (data p) (L p) S order diff init N) (rankState s) :=
  (job_lock np.hl.commOk (by have := np.hl.hS; omega) w1 S order diff init N e).every

theorem NodePair.run_exists (np : NodePair dim nodeid node cv npart0 epart nbnodes n SIZE data serial L G B out trunc) (hgL : Nat → HGResult K)
    (S : Setup K) (order : Int) (diff : Bool) (init : K → K → K → K) (N : Nat) :
    ∃ s, tloop (parW dim SIZE data L hgL) S order diff (tstart (parW dim SIZE data L hgL) init) N = some s := by
  obtain ⟨s, e, _⟩ := tloop_inv (parW dim SIZE data L hgL) S order diff (fun _ => True)
    (fun s _ => by obtain ⟨s', e, _⟩ := tstep_time np hgL S order diff s; exact ⟨s', e, trivial⟩) _ trivial N
  exact ⟨s, e⟩

/-- The same program on one process. -/
theorem NodePair.serial_every (np : NodePair dim nodeid node cv npart0 epart nbnodes n SIZE data serial L G B out trunc) {hgG : Nat → HGResult K}
    (w2 : mkWorld dim 1 (fun _ => serial) (fun _ => G) = some (serW dim serial G hgG)) (S : Setup K) (order : Int) (diff : Bool)
    (init : K → K → K → K) (N : Nat) {t : TState K}
    (e : tloop (serW dim serial G hgG) S order diff (tstart (serW dim serial G hgG) init) N = some t) :
    EverySchedule 1 (fun p => job dim 1 p serial G S order diff init N) (rankState t) :=
  (job_lock ⟨fun h => absurd h (by omega), fun h => absurd h (by omega), fun h => absurd h (by omega)⟩ (by omega) w2 S order diff init N e).every

end

section
variable {nodeid : Nat → Nat → Nat} {node : Nat → K × K × K × Nat} {npart0 epart : Nat → Nat} {nbnodes n SIZE : Nat}
  {data : Nat → RankData K} {serial : RankData K}

/-- **C96** (2D): the transport run of any mesh, partition, order, with or without diffusion: whatever the order in which the processes
advance, it neither deadlocks nor fails, and every process ends with the state of the run in lock step. -/
theorem C96_every_schedule_2d (h : Launched 3 nodeid node (centvol2 node nodeid) npart0 epart nbnodes n SIZE data serial)
    (vm : ValidMesh2 nodeid node nbnodes n) (sqrt : K → K) (trunc : K → Int) (htr : ∀ m : Nat, trunc (m : K) = m) :
    ∃ WL, mkWorld 2 SIZE data (fun p => build2 sqrt trunc SIZE (data p)) = some WL ∧
      ∀ (S : Setup K) (order : Int) (diff : Bool) (init : K → K → K → K) (N : Nat), ∃ s, tloop WL S order diff (tstart WL init) N = some s ∧
        EverySchedule SIZE (fun p => job 2 SIZE p (data p) (build2 sqrt trunc SIZE (data p)) S order diff init N)
          (fun p => ⟨s.V p, s.node p, s.time, s.iter⟩) := by
  have np := h.nodePair2 vm sqrt trunc htr
  obtain ⟨hgL, hgG, w1, w2, sL, sG⟩ := np.worlds
  refine ⟨_, w1, fun S order diff init N => ?_⟩
  obtain ⟨s, e⟩ := np.run_exists hgL S order diff init N
  exact ⟨s, e, np.every w1 S order diff init N e⟩

/-- **C90** (2D): the same program run on one process and on `SIZE` processes, in any order: the time, the number of iterations, the cell values
and the node values are the same.  Hypotheses of C90 on the mesh and the boundary conditions. -/
theorem C90_any_schedule_2d_partial (h : Launched 3 nodeid node (centvol2 node nodeid) npart0 epart nbnodes n SIZE data serial)
    (vm : ValidMesh2 nodeid node nbnodes n) (sqrt : K → K) (trunc : K → Int) (htr : ∀ m : Nat, trunc (m : K) = m)
    (star : StarConnected 2 nodeid n) (S : Setup K) (hbc : CornersOk 2 nodeid epart n (build2 sqrt trunc 1 serial) S.bc)
    (order : Int) (diff : Bool) (init : K → K → K → K) (N : Nat) :
    ∃ (a : Nat → RState K) (b : RState K),
      EverySchedule SIZE (fun p => job 2 SIZE p (data p) (build2 sqrt trunc SIZE (data p)) S order diff init N) a ∧
      EverySchedule 1 (fun p => job 2 1 p serial (build2 sqrt trunc 1 serial) S order diff init N) (fun _ => b) ∧
      (∀ p < SIZE, (a p).time = b.time ∧ (a p).iter = b.iter) ∧ CellsAgree SIZE data (fun p => (a p).v.cell) b.v.cell ∧
      NodesAgree SIZE data (fun p => (a p).node) b.node := by
  have np := h.nodePair2 vm sqrt trunc htr
  obtain ⟨hgL, hgG, w1, w2, sL, sG⟩ := np.worlds
  obtain ⟨s, t, e1, e2, m⟩ := tloop_match np (by omega) sL sG S ⟨star, hbc⟩ order diff _ _
    (tstart_match np hgL hgG init) N
  refine ⟨rankState s, rankState t 0, np.every w1 S order diff init N e1, ?_, fun p _ => ⟨m.time, m.iter⟩, (np.cellsAgree _ _).mpr m.cell,
    np.nodesAgree _ _ m.node⟩
  obtain ⟨bound, hb⟩ := np.serial_every w2 S order diff init N e2
  refine ⟨bound, fun sync hs sch c he => ?_⟩
  obtain ⟨h1, h2, h3, h4⟩ := hb sync hs sch c he
  refine ⟨h1, h2, fun p hp x hx => ?_, ?_⟩
  · have : p = 0 := by omega
    subst this
    exact h3 0 hp x hx
  · rcases h4 with h4 | h4
    · exact Or.inl (fun p hp => by
        have : p = 0 := by omega
        subst this
        exact h4 0 hp)
    · exact Or.inr h4

/-- **C96** (3D): the transport run of any mesh, partition, order, with or without diffusion: whatever the order in which the processes
advance, it neither deadlocks nor fails, and every process ends with the state of the run in lock step. -/
theorem C96_every_schedule_3d (h : Launched 4 nodeid node (centvol3 node nodeid) npart0 epart nbnodes n SIZE data serial)
    (vm : ValidMesh3 nodeid node nbnodes n) (sqrt : K → K) (trunc : K → Int) (htr : ∀ m : Nat, trunc (m : K) = m) :
    ∃ WL, mkWorld 3 SIZE data (fun p => build3 sqrt trunc SIZE (data p)) = some WL ∧
      ∀ (S : Setup K) (order : Int) (diff : Bool) (init : K → K → K → K) (N : Nat), ∃ s, tloop WL S order diff (tstart WL init) N = some s ∧
        EverySchedule SIZE (fun p => job 3 SIZE p (data p) (build3 sqrt trunc SIZE (data p)) S order diff init N)
          (fun p => ⟨s.V p, s.node p, s.time, s.iter⟩) := by
  have np := h.nodePair3 vm sqrt trunc htr
  obtain ⟨hgL, hgG, w1, w2, sL, sG⟩ := np.worlds
  refine ⟨_, w1, fun S order diff init N => ?_⟩
  obtain ⟨s, e⟩ := np.run_exists hgL S order diff init N
  exact ⟨s, e, np.every w1 S order diff init N e⟩

/-- **C90** (3D): the same program run on one process and on `SIZE` processes, in any order: the time, the number of iterations, the cell values
and the node values are the same.  Hypotheses of C90 on the mesh and the boundary conditions. -/
theorem C90_any_schedule_3d_partial (h : Launched 4 nodeid node (centvol3 node nodeid) npart0 epart nbnodes n SIZE data serial)
    (vm : ValidMesh3 nodeid node nbnodes n) (sqrt : K → K) (trunc : K → Int) (htr : ∀ m : Nat, trunc (m : K) = m)
    (star : StarConnected 3 nodeid n) (S : Setup K) (hbc : CornersOk 3 nodeid epart n (build3 sqrt trunc 1 serial) S.bc)
    (order : Int) (diff : Bool) (init : K → K → K → K) (N : Nat) :
    ∃ (a : Nat → RState K) (b : RState K),
      EverySchedule SIZE (fun p => job 3 SIZE p (data p) (build3 sqrt trunc SIZE (data p)) S order diff init N) a ∧
      EverySchedule 1 (fun p => job 3 1 p serial (build3 sqrt trunc 1 serial) S order diff init N) (fun _ => b) ∧
      (∀ p < SIZE, (a p).time = b.time ∧ (a p).iter = b.iter) ∧ CellsAgree SIZE data (fun p => (a p).v.cell) b.v.cell ∧
      NodesAgree SIZE data (fun p => (a p).node) b.node := by
  have np := h.nodePair3 vm sqrt trunc htr
  obtain ⟨hgL, hgG, w1, w2, sL, sG⟩ := np.worlds
  obtain ⟨s, t, e1, e2, m⟩ := tloop_match np (fun _ => ⟨wedge_build3 sqrt trunc 1 serial, fun p hp => wedge_build3 sqrt trunc SIZE (data p)⟩) sL sG S ⟨star, hbc⟩ order diff _ _
    (tstart_match np hgL hgG init) N
  refine ⟨rankState s, rankState t 0, np.every w1 S order diff init N e1, ?_, fun p _ => ⟨m.time, m.iter⟩, (np.cellsAgree _ _).mpr m.cell,
    np.nodesAgree _ _ m.node⟩
  obtain ⟨bound, hb⟩ := np.serial_every w2 S order diff init N e2
  refine ⟨bound, fun sync hs sch c he => ?_⟩
  obtain ⟨h1, h2, h3, h4⟩ := hb sync hs sch c he
  refine ⟨h1, h2, fun p hp x hx => ?_, ?_⟩
  · have : p = 0 := by omega
    subst this
    exact h3 0 hp x hx
  · rcases h4 with h4 | h4
    · exact Or.inl (fun p hp => by
        have : p = 0 := by omega
        subst this
        exact h4 0 hp)
    · exact Or.inr h4

end

/-! ### an exception on one process -/

theorem Exec.never {M α : Type} [Inhabited M] {SIZE : Nat} {P : Nat → Prog M α} {p q comm : Nat} {nb : List Nat} {out : List M}
    {k : List M → Prog M α} (hp : P p = .fail) (hq : P q = .coll comm nb out k) (hpq : p ∈ nb) : NeverEnds SIZE P q := by
  intro sync sch c he
  have hne : p ≠ q := by intro e; rw [e, hq] at hp; simp at hp
  have key : c.st p = .fail ∧ c.st q = .coll comm nb out k ∧ (∀ κ, c.posted p κ = []) ∧ (c.waiting q = true → 0 < (c.posted q comm).length) := by
    generalize hc0 : Cfg.init P = c0 at he
    induction he with
    | nil => subst hc0; exact ⟨hp, hq, fun _ => rfl, fun h => by simp [Cfg.init] at h⟩
    | step c c' sch r _ hr hs ih =>
      obtain ⟨i1, i2, i3, i4⟩ := ih
      cases hs with
      | enter κ b o f h1 h2 =>
        have hrp : p ≠ r := by intro e; rw [← e, i1] at h1; simp at h1
        refine ⟨i1, i2, fun κ' => by simp only [put, if_neg hrp]; exact i3 κ', fun hw => ?_⟩
        by_cases e : q = r
        · subst e
          rw [i2, Prog.coll.injEq] at h1
          simp [put, h1.1]
        · simp only [put, if_neg e] at hw ⊢
          exact i4 hw
      | leave κ b o f h1 h2 h3 h4 =>
        have hrp : p ≠ r := by intro e; rw [← e, i1] at h1; simp at h1
        have hrq : q ≠ r := by
          intro e
          subst e
          rw [i2, Prog.coll.injEq] at h1
          obtain ⟨e1, e2, _, _⟩ := h1
          subst e1 e2
          have := (h3 p hpq).1
          rw [i3, List.length_nil] at this
          have h5 := i4 h2
          omega
        refine ⟨by simp only [put, if_neg hrp]; exact i1, by simp only [put, if_neg hrq]; exact i2, i3, fun hw => ?_⟩
        simp only [put, if_neg hrq] at hw
        exact i4 hw
  intro x
  rw [key.2.1]
  simp

/-- **C97**: of two processes one cannot read its mesh file (`read_mesh_file` raises) and the other one can: the latter never ends, whatever the
order in which the processes advance. -/
theorem C97_unread_file_blocks (dim SIZE : Nat) (hS : 1 < SIZE) (build : RankData K → Tables K) (file : Nat → List (Line K)) (master : List (Line K))
    (S : Setup K) (order : Int) (diff : Bool) (init : K → K → K → K) (N p q : Nat) (hp : p < SIZE) (hq : q < SIZE)
    (bad : readMeshFile SIZE p (file p) master = none) (d : RankData K) (good : readMeshFile SIZE q (file q) master = some d) :
    NeverEnds SIZE (fun r => jobFile dim SIZE r (file r) master build S order diff init N) q := by
  refine Exec.never (p := p) (comm := 0) (nb := List.range SIZE) (out := (List.range SIZE).map (fun r => .count (scountArr d.neigh r))) (k := ?_) ?_ ?_
    (by simpa using hp)
  rotate_left
  · show Prog.bind (Proc.lift (readMeshFile SIZE p (file p) master)) _ = _
    rw [bad]; rfl
  · show Prog.bind (Proc.lift (readMeshFile SIZE q (file q) master)) _ = _
    rw [good]
    show Prog.bind (prepareComm SIZE d) _ = _
    unfold prepareComm
    rw [if_pos hS]
    rfl

/-- **C97**: if no process can read its file, all of them stop at once. -/
theorem C97_all_stop_partial (dim SIZE : Nat) (build : RankData K → Tables K) (file : Nat → List (Line K)) (master : List (Line K))
    (S : Setup K) (order : Int) (diff : Bool) (init : K → K → K → K) (N : Nat) (bad : ∀ p < SIZE, readMeshFile SIZE p (file p) master = none)
    (sync : Cfg (Wire K) (RState K) → Nat → Nat → Nat → Prop) (sch : List Nat) (c : Cfg (Wire K) (RState K))
    (he : Exec sync SIZE (Cfg.init (fun r => jobFile dim SIZE r (file r) master build S order diff init N)) sch c) :
    sch = [] ∧ ∀ p < SIZE, c.st p = .fail := by
  have hf : ∀ p < SIZE, jobFile dim SIZE p (file p) master build S order diff init N = .fail := by
    intro p hp
    show Prog.bind (Proc.lift (readMeshFile SIZE p (file p) master)) _ = _
    rw [bad p hp]; rfl
  generalize hc0 : Cfg.init (fun r => jobFile dim SIZE r (file r) master build S order diff init N) = c0 at he
  induction he with
  | nil => subst hc0; exact ⟨rfl, hf⟩
  | step c c' sch r _ hr hs ih =>
    have h1 := ih.2 r hr
    cases hs with
    | enter κ b o f h2 _ => rw [h1] at h2; simp at h2
    | leave κ b o f h2 _ _ _ => rw [h1] at h2; simp at h2

/-- The mesh files of the strip, that of process 0 damaged. -/
def damaged (r : Nat) : List (Line ℚ) :=
  if r = 0 then [[.word "damaged"]] else writeRank r (rankWrite exStrip stripNode (centvol2 stripNode exStrip) (partition exStrip exN exE 6 4 3)
    (halos (partition exStrip exN exE 6 4 3).cpart (partition exStrip exN exE 6 4 3).haloCell 2) 6 2 3 r)

/-- Process 1 waits for ever. -/
example (S : Setup ℚ) (N : Nat) : NeverEnds 2 (fun r => jobFile 2 2 r (damaged r) (writeMaster ((List.range 6).map (partition exStrip exN exE 6 4 3).npart))
    (build2 (fun x => x) Rat.floor 2) S 1 false (fun x _ _ => x) N) 1 :=
  C97_unread_file_blocks 2 2 (by omega) _ damaged _ S 1 false _ N 0 1 (by omega) (by omega) (by decide +kernel) (stripData 1)
    (by have := stripLaunched.hdata 1 (by omega); simpa [damaged] using this)

/-- All files damaged. -/
example := C97_all_stop_partial 2 2 (build2 (fun x => x) Rat.floor 2) (fun _ => [[.word "damaged"]]) [] flowSetup 1 false (fun x _ _ => x) 3
  (by decide +kernel)

/-! ### the hypotheses are met -/

example := C96_every_schedule_2d stripLaunched stripValid (fun x => x) Rat.floor floor_nat
example (order : Int) (diff : Bool) (init : ℚ → ℚ → ℚ → ℚ) (N : Nat) :=
  C90_any_schedule_2d_partial stripLaunched stripValid (fun x => x) Rat.floor floor_nat (run_star 2 4)
    { flowSetup with bc := fun _ => BCond.neumann } (neumann_corners _) order diff init N
example (order : Int) (diff : Bool) (init : ℚ → ℚ → ℚ → ℚ) (N : Nat) :=
  C90_any_schedule_3d_partial chainLaunched chainValid (fun x => x) Rat.floor floor_nat (run_star 3 3)
    { flowSetup with bc := fun _ => BCond.neumann } (neumann_corners _) order diff init N
example := C96_every_schedule_3d chainLaunched chainValid (fun x => x) Rat.floor floor_nat

/-- There are runs: in some order the two processes of the strip come to the end of 7 iterations of the second-order diffusive run. -/
example : ∃ sch c, Exec noSync 2 (Cfg.init (fun p => job 2 2 p (stripData p) (build2 (fun x => x) Rat.floor 2 (stripData p)) flowSetup 2 true
    (fun x _ _ => x) 7)) sch c ∧ ∀ p < 2, ∃ x, c.st p = .ret x := by
  obtain ⟨WL, _, hW⟩ := C96_every_schedule_2d stripLaunched stripValid (fun x => x) Rat.floor floor_nat
  obtain ⟨s, _, hs⟩ := hW flowSetup 2 true (fun x _ _ => x) 7
  obtain ⟨sch, c, e, h⟩ := EverySchedule.ends hs (sync := noSync) (fun _ _ _ _ _ => trivial) (Exec.nil _)
  exact ⟨sch, c, by simpa using e, fun p hp => ⟨_, h p hp⟩⟩

end Verif.Props.Par
