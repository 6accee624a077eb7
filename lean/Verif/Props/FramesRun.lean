import Verif.Props.Frames
import Verif.Props.RunEnd
import Verif.Props.RenumVar
import Verif.Props.SWRun
import Verif.Props.StepSize
import Verif.Spec.FramesRun

/-!
C125: the result files of a transport computation.
C126: the values at the end of the computation are not always among them.
C127: the shallow-water and the second streamer driver stop with a division by zero when the computation is short.
-/
set_option linter.unusedSectionVars false
set_option linter.unusedVariables false
set_option linter.unusedSimpArgs false
namespace Verif.Props.Par
open Verif.Fvm Verif.Spec Verif.Conn Verif.Dom Verif.Geo Verif.Names Verif.MeshFile Verif.Part Verif.Comm Verif.Run Verif.HaloGhost Verif.Frames

section
variable {K : Type*} [Field K] [LinearOrder K] [IsStrictOrderedRing K]

theorem ser_tstep_time {dim : Nat} (d : RankData K) (G : Tables K) (hg : Nat → HGResult K) (S : Setup K) (order : Int) (diff : Bool) (s : TState K) :
    ∃ s', tstep (serW dim d G hg) S order diff s = some s' ∧ s'.time = s.time + localStep dim S G s.iter ∧ s'.iter = s.iter + 1 := by
  have ar : ∀ x : K, allreduceMin 1 (fun _ => x) = x := fun x => by unfold allreduceMin; simp
  obtain ⟨V1, u1, _, _⟩ := serial_update (dim := dim) d G hg S.bc s.V
  obtain ⟨V2, gL, c1, _, _, _⟩ := ser_cellGradient (dim := dim) d G hg S.bc V1
  unfold tstep
  rw [u1]
  simp only [Option.bind_some]
  rw [c1]
  simp only [Option.bind_some]
  cases diff with
  | false => exact ⟨_, rfl, by show s.time + _ = _; rw [ar], rfl⟩
  | true =>
    obtain ⟨V3, nL, fL, f1, _⟩ := ser_faceGradient (dim := dim) d G hg S.bc V2
    rw [if_pos rfl, f1]
    simp only [Option.bind_some]
    obtain ⟨V4, n4, g1, _⟩ := ser_celltonode (dim := dim) d G hg S.bc
      (fun p => { V3 p with cell := (updateNewValue (V3 p).cell (conv dim (convArgs G (fieldsOf S G s.iter (V2 p).cell (V2 p).ghost (V2 p).halo (gL p)) order))
        (Run.dissip G S (fL p)) (fun _ => 0) (allreduceMin 1 (fun _ => localStep dim S G s.iter)) G.volume) })
    rw [g1]
    exact ⟨_, rfl, by show s.time + _ = _; rw [ar], rfl⟩

theorem tloop_of_loop {W : World K} {S : Setup K} {order : Int} {diff : Bool} {tot : TState K → TState K → Int} {s0 : TState K} (N : Nat) (r : RunSt (TState K))
    (h : Frames.loop (transportDriver W S order diff) tot (begin_ s0) N = .ok r) : tloop W S order diff s0 N = some r.state := by
  induction N generalizing r with
  | zero => simp only [Frames.loop, Except.ok.injEq] at h; subst h; rfl
  | succ N ih =>
    unfold Frames.loop at h
    cases h1 : Frames.loop (transportDriver W S order diff) tot (begin_ s0) N with
    | error e => rw [h1] at h; simp at h
    | ok q =>
      rw [h1] at h
      unfold tloop
      rw [ih q h1]
      simp only [Option.bind_some]
      by_cases ht : q.state.time < S.tfinal
      · rw [if_pos ht]
        simp only at h
        rw [if_pos (show (transportDriver W S order diff).time q.state < (transportDriver W S order diff).tfinal from ht)] at h
        unfold iterate at h
        cases hs : tstep W S order diff q.state with
        | none => rw [show (transportDriver W S order diff).step q.state = none from hs] at h; simp at h
        | some s' =>
          rw [show (transportDriver W S order diff).step q.state = some s' from hs] at h
          simp only at h
          cases hd : due q.niter (tot q.state s') with
          | error e => rw [hd] at h; simp at h
          | ok b => rw [hd] at h; simp only [Except.ok.injEq] at h; subst h; rfl
      · rw [if_neg ht]
        simp only at h
        rw [if_neg (show ¬ (transportDriver W S order diff).time q.state < (transportDriver W S order diff).tfinal from ht)] at h
        simp only [Except.ok.injEq] at h
        subst h; rfl

theorem step_steady {dim : Nat} {S : Setup K} (hs : Steady S) (G : Tables K) (it : Nat) : localStep dim S G it = localStep dim S G 0 := by
  unfold localStep
  obtain ⟨h1, h2, h3⟩ := hs it
  rw [h1, h2, h3]

/-- From the length of the steps to the files. -/
theorem transport_files [Archimedean K] {W : World K} {G : Tables K}
    (hstep : ∀ (S : Setup K) (order : Int) (diff : Bool) (s : TState K), ∃ s', tstep W S order diff s = some s' ∧
      s'.time = s.time + localStep W.dim S G s.iter ∧ s'.iter = s.iter + 1)
    (hlow : ∀ S : Setup K, Moving W.dim S → ∃ δ, 0 < δ ∧ ∀ it, δ ≤ localStep W.dim S G it) : TransportFiles W := by
  intro S hS order diff init trunc htr
  obtain ⟨δ, hδ, hl⟩ := hlow S hS
  have h1 : ∀ s, ∃ s', (transportDriver W S order diff).step s = some s' ∧ (transportDriver W S order diff).time s + δ ≤ (transportDriver W S order diff).time s' := by
    intro s
    obtain ⟨s', e, t, _⟩ := hstep S order diff s
    refine ⟨s', e, ?_⟩
    show s.time + δ ≤ s'.time
    rw [t]; linarith [hl s.iter]
  obtain ⟨n, s, hend⟩ := ends_of_lower (s0 := tstart W init) hδ h1
  have htime : ∀ {i s}, Reaches (transportDriver W S order diff) (tstart W init) i s → 0 ≤ s.time := by
    intro i s h
    induction h with
    | zero => exact le_rfl
    | succ a _ e ih =>
      obtain ⟨s', e', t⟩ := h1 _
      rw [e] at e'; cases e'
      exact ih.trans (le_trans (le_add_of_nonneg_right hδ.le) t)
  obtain ⟨r, k1, k2, k3⟩ := loop_of_ends (tot := transportTot trunc S) hend (fun s => (h1 s).imp fun _ h => h.1) (by
    intro i s s' _ hr ht e
    obtain ⟨t', e', h⟩ := h1 s
    rw [e] at e'; cases e'
    have h : s.time + δ ≤ s'.time := h
    have ht : s.time < S.tfinal := ht
    have := totPlus_pos htr (T := S.tfinal) (dt := s'.time - s.time) (by linarith [htime hr]) (by linarith)
    unfold transportTot
    omega)
  refine ⟨n, r, k1, tloop_of_loop n r (k1 n le_rfl), by rw [k2]; exact hend, k3, fun hst => ?_⟩
  exact count_const (D := transportDriver W S order diff) htr (lt_of_lt_of_le hδ (hl 0)) (fun i s s' _ _ e => by
    obtain ⟨t', e', h, _⟩ := hstep S order diff s
    have e : tstep W S order diff s = some s' := e
    rw [e] at e'; cases e'
    show s'.time = s.time + _
    rw [h, step_steady hst]) rfl n r (k1 n le_rfl)

theorem moving_withEnd {dim : Nat} {S : Setup K} (h : Moving dim S) (T : K) : Moving dim (withEnd S T) := ⟨h.cfl, h.bounded, h.diffusion, h.moving⟩

theorem last_missed_run {W : World K} {G : Tables K}
    (hstep : ∀ (S : Setup K) (order : Int) (diff : Bool) (s : TState K), ∃ s', tstep W S order diff s = some s' ∧
      s'.time = s.time + localStep W.dim S G s.iter ∧ s'.iter = s.iter + 1)
    (hlow : ∀ S : Setup K, Moving W.dim S → ∃ δ, 0 < δ ∧ ∀ it, δ ≤ localStep W.dim S G it) : LastMissed W := by
  intro S hS hst
  obtain ⟨δ, hδ, hl⟩ := hlow S hS
  have hp : 0 < localStep W.dim S G 0 := lt_of_lt_of_le hδ (hl 0)
  refine ⟨201 / 2 * localStep W.dim S G 0, by positivity, fun order diff init trunc htr => ?_⟩
  obtain ⟨r, h1, h2, h3⟩ := last_missed (D := transportDriver W (withEnd S (201 / 2 * localStep W.dim S G 0)) order diff) (s0 := tstart W init) htr hp (fun s => by
    obtain ⟨s', e, t, _⟩ := hstep (withEnd S (201 / 2 * localStep W.dim S G 0)) order diff s
    refine ⟨s', e, ?_⟩
    show s'.time = s.time + _
    rw [t]
    congr 1
    exact step_steady hst G s.iter) rfl rfl
  exact ⟨101, r, h1, h2, fun e he => by have := h3 e he; omega⟩

variable {nodeid : Nat → Nat → Nat} {node : Nat → K × K × K × Nat} {npart0 epart : Nat → Nat}
  {nbnodes n SIZE : Nat} {data : Nat → RankData K} {serial : RankData K}

theorem files_low {dim : Nat} {L : Nat → Tables K} {G : Tables K} {B : List Int} {out : Nat → Nat → Vec K}
    (h : RunPair dim SIZE n epart data L G B out) (hs : Solid G dim out) (S : Setup K) (m : Moving dim S) : ∃ δ, 0 < δ ∧ ∀ it, δ ≤ localStep dim S G it := by
  obtain ⟨U, hU⟩ := m.bounded
  exact step_lower h hs S m.cfl U hU m.diffusion m.moving

/-- **C125** (2D): on any number of processes, with any partition, the transport driver ends and leaves the files described by
`TransportFiles`; see `C125_index` for the index files. -/
theorem C125_files_2d [Archimedean K] (h : Launched 3 nodeid node (centvol2 node nodeid) npart0 epart nbnodes n SIZE data serial)
    (vm : ValidMesh2 nodeid node nbnodes n) (sqrt : K → K) (hs : ∀ x, 0 < x → sqrt x ≠ 0) (trunc : K → Int) (htr : ∀ m : Nat, trunc (m : K) = m) :
    ∃ W, mkWorld 2 SIZE data (fun p => build2 sqrt trunc SIZE (data p)) = some W ∧ TransportFiles W := by
  have np := h.nodePair2 vm sqrt trunc htr
  obtain ⟨hgL, hgG, w1, w2, sL, sG⟩ := np.worlds
  exact ⟨_, w1, transport_files (tstep_time np hgL) (files_low np.run (h.solid2 vm sqrt hs trunc htr))⟩

/-- **C125** (3D). -/
theorem C125_files_3d [Archimedean K] (h : Launched 4 nodeid node (centvol3 node nodeid) npart0 epart nbnodes n SIZE data serial)
    (vm : ValidMesh3 nodeid node nbnodes n) (sqrt : K → K) (hs : ∀ x, 0 < x → sqrt x ≠ 0) (trunc : K → Int) (htr : ∀ m : Nat, trunc (m : K) = m) :
    ∃ W, mkWorld 3 SIZE data (fun p => build3 sqrt trunc SIZE (data p)) = some W ∧ TransportFiles W := by
  have np := h.nodePair3 vm sqrt trunc htr
  obtain ⟨hgL, hgG, w1, w2, sL, sG⟩ := np.worlds
  exact ⟨_, w1, transport_files (tstep_time np hgL) (files_low np.run (h.solid3 vm sqrt hs trunc htr))⟩

/-- **C125** (2D, one process). -/
theorem C125_files_serial_2d [Archimedean K] (vm : ValidMesh2 nodeid node nbnodes n)
    (hr : readMeshFile 1 0 (writeSerial (serialWrite nodeid node nbnodes n 3)) [] = some serial)
    (sqrt : K → K) (hs : ∀ x, 0 < x → sqrt x ≠ 0) (trunc : K → Int) (htr : ∀ m : Nat, trunc (m : K) = m) :
    ∃ W, mkWorld 2 1 (fun _ => serial) (fun _ => build2 sqrt trunc 1 serial) = some W ∧ TransportFiles W := by
  obtain ⟨data, h⟩ := launched_of_serial (centvol2 node nodeid) (by omega) vm.nodes vm.used hr
  have np := h.nodePair2 vm sqrt trunc htr
  obtain ⟨hgL, hgG, w1, w2, sL, sG⟩ := np.worlds
  exact ⟨_, w2, transport_files (ser_tstep_time serial _ hgG) (files_low np.run (h.solid2 vm sqrt hs trunc htr))⟩

/-- **C125** (3D, one process). -/
theorem C125_files_serial_3d [Archimedean K] (vm : ValidMesh3 nodeid node nbnodes n)
    (hr : readMeshFile 1 0 (writeSerial (serialWrite nodeid node nbnodes n 4)) [] = some serial)
    (sqrt : K → K) (hs : ∀ x, 0 < x → sqrt x ≠ 0) (trunc : K → Int) (htr : ∀ m : Nat, trunc (m : K) = m) :
    ∃ W, mkWorld 3 1 (fun _ => serial) (fun _ => build3 sqrt trunc 1 serial) = some W ∧ TransportFiles W := by
  obtain ⟨data, h⟩ := launched_of_serial (centvol3 node nodeid) (by omega) vm.nodes vm.used hr
  have np := h.nodePair3 vm sqrt trunc htr
  obtain ⟨hgL, hgG, w1, w2, sL, sG⟩ := np.worlds
  exact ⟨_, w2, transport_files (ser_tstep_time serial _ hgG) (files_low np.run (h.solid3 vm sqrt hs trunc htr))⟩

/-- **C126** is false of the transport drivers (2D): on every valid mesh, partition and steady setup, for some final time the run ends and no file
holds the values it ended with. -/
theorem C126_last_missed_2d (h : Launched 3 nodeid node (centvol2 node nodeid) npart0 epart nbnodes n SIZE data serial)
    (vm : ValidMesh2 nodeid node nbnodes n) (sqrt : K → K) (hs : ∀ x, 0 < x → sqrt x ≠ 0) (trunc : K → Int) (htr : ∀ m : Nat, trunc (m : K) = m) :
    ∃ W, mkWorld 2 SIZE data (fun p => build2 sqrt trunc SIZE (data p)) = some W ∧ LastMissed W := by
  have np := h.nodePair2 vm sqrt trunc htr
  obtain ⟨hgL, hgG, w1, w2, sL, sG⟩ := np.worlds
  exact ⟨_, w1, last_missed_run (tstep_time np hgL) (files_low np.run (h.solid2 vm sqrt hs trunc htr))⟩

/-- **C126** is false (3D). -/
theorem C126_last_missed_3d (h : Launched 4 nodeid node (centvol3 node nodeid) npart0 epart nbnodes n SIZE data serial)
    (vm : ValidMesh3 nodeid node nbnodes n) (sqrt : K → K) (hs : ∀ x, 0 < x → sqrt x ≠ 0) (trunc : K → Int) (htr : ∀ m : Nat, trunc (m : K) = m) :
    ∃ W, mkWorld 3 SIZE data (fun p => build3 sqrt trunc SIZE (data p)) = some W ∧ LastMissed W := by
  have np := h.nodePair3 vm sqrt trunc htr
  obtain ⟨hgL, hgG, w1, w2, sL, sG⟩ := np.worlds
  exact ⟨_, w1, last_missed_run (tstep_time np hgL) (files_low np.run (h.solid3 vm sqrt hs trunc htr))⟩

end

section
variable {σ K : Type*} [Field K] [LinearOrder K] {D : Driver σ K} {tot : σ → σ → Int} {s0 : σ}

/-- **C126** (any driver, partial: exactly when): in a run that ended after `n ≥ 1` iterations, going from `s` to `s'` in the last one, the final
values are in a file written in the loop iff `n = 1` or the `tot` of the last iteration divides `n`. -/
theorem C126_last_saved_iff_partial {n : Nat} {s s' : σ} {files : List (Saved σ)} (hf : FilesOf D tot s0 (n + 1) files)
    (hs : Reaches D s0 n s) (he : EndsAt D s0 (n + 1) s') :
    (∃ e ∈ files, e.niter = n + 1 ∧ e.state = s') ↔ n = 0 ∨ tot s s' ∣ ((n + 1 : Nat) : Int) := by
  rw [← hf.when_ n s s' (Nat.lt_succ_self n) hs he.1]
  constructor
  · rintro ⟨e, h1, h2, _⟩; exact ⟨e, h1, h2⟩
  · rintro ⟨e, h1, h2⟩
    refine ⟨e, h1, h2, ?_⟩
    have := (hf.content e h1).2.2
    rw [h2] at this
    exact reaches_det this he.1

/-- **C126** (the drivers that save once more after the loop — shallow water, first streamer driver; partial): the last file holds the final values. -/
theorem C126_final_save_partial (N : Nat) (r : RunSt σ) (h : Frames.loop D tot (begin_ s0) N = .ok r) (ht : D.tfinal ≤ D.time r.state) :
    ∃ n, EndsAt D s0 n r.state ∧ (finish r).getLast? = some ⟨r.saved.length, n + 1, r.state⟩ ∧
      ∀ (m : Nat) (e : Saved σ), (finish r)[m]? = some e → e.miter = m := by
  obtain ⟨n, h1, h2, h3, h4, h5⟩ := loop_inv N r h
  refine ⟨n, ⟨h1, ht⟩, ?_, ?_⟩
  · unfold finish; simp [h2, h3]
  · intro m e he
    unfold finish at he
    rcases Nat.lt_trichotomy m r.saved.length with hl | hl | hl
    · rw [List.getElem?_append_left hl] at he; exact h5.numbered m e he
    · rw [List.getElem?_append_right (by omega)] at he
      subst hl
      simp only [Nat.sub_self, List.getElem?_cons_zero, Option.some.injEq] at he
      subst he; exact h3
    · rw [List.getElem?_eq_none (by simp; omega)] at he; cases he

/-- **C125** (index files): a run on several processes, started with no index files, leaves exactly one document in the index file of every
saved number — naming the files of all processes with this number — and no other index file. -/
theorem C125_index {SIZE n : Nat} (hS : 1 < SIZE) {files : List (Saved σ)} (hf : FilesOf D tot s0 n files) (m : Nat) :
    (files.map (fun e => Output.FOp.save e.miter)).foldl (Output.fexec SIZE) (fun _ => []) m =
      if m < files.length then [Output.pieces SIZE m] else [] := by
  have hr : files.map (fun e => Output.FOp.save e.miter) = (List.range files.length).map Output.FOp.save := by
    apply List.ext_getElem? 
    intro i
    rw [List.getElem?_map, List.getElem?_map]
    by_cases hi : i < files.length
    · rw [List.getElem?_range hi, List.getElem?_eq_getElem hi]
      simp only [Option.map_some]
      rw [hf.numbered i _ (List.getElem?_eq_getElem hi)]
    · rw [List.getElem?_eq_none (by omega), List.getElem?_eq_none (by simp; omega)]; rfl
  rw [hr]
  generalize files.length = L
  induction L with
  | zero => simp
  | succ L ih =>
    rw [List.range_succ, List.map_append, List.foldl_append]
    simp only [List.map_cons, List.map_nil, List.foldl_cons, List.foldl_nil]
    generalize hF : ((List.range L).map Output.FOp.save).foldl (Output.fexec SIZE) (fun _ => []) = F at ih ⊢
    unfold Output.fexec
    simp only [gt_iff_lt, hS, if_true]
    by_cases hm : m = L
    · subst hm
      have : F m = [] := by rw [ih]; simp
      simp [setAt, this]
    · have : (setAt F L (F L ++ [Output.pieces SIZE L])) m = F m := by simp [setAt, hm]
      rw [this, ih]
      by_cases h : m < L
      · rw [if_pos h, if_pos (by omega)]
      · rw [if_neg h, if_neg (by omega)]

end

/-! ### the drivers without `+1` -/
section

theorem swLoop_of_loop {W : World ℝ} {S : SSetup} {tot : SState → SState → Int} {s0 : SState} (N : Nat) (r : RunSt SState)
    (h : Frames.loop (swDriver W S) tot (begin_ s0) N = .ok r) : swLoop W S s0 N = some r.state := by
  induction N generalizing r with
  | zero => simp only [Frames.loop, Except.ok.injEq] at h; subst h; rfl
  | succ N ih =>
    unfold Frames.loop at h
    cases h1 : Frames.loop (swDriver W S) tot (begin_ s0) N with
    | error e => rw [h1] at h; simp at h
    | ok q =>
      rw [h1] at h
      unfold swLoop
      rw [ih q h1]
      simp only [Option.bind_some]
      by_cases ht : q.state.time < S.tfinal
      · rw [if_pos ht]
        simp only at h
        rw [if_pos (show (swDriver W S).time q.state < (swDriver W S).tfinal from ht)] at h
        unfold iterate at h
        cases hs : swStep W S q.state with
        | none => rw [show (swDriver W S).step q.state = none from hs] at h; simp at h
        | some s' =>
          rw [show (swDriver W S).step q.state = some s' from hs] at h
          simp only at h
          cases hd : due q.niter (tot q.state s') with
          | error e => rw [hd] at h; simp at h
          | ok b => rw [hd] at h; simp only [Except.ok.injEq] at h; subst h; rfl
      · rw [if_neg ht]
        simp only at h
        rw [if_neg (show ¬ (swDriver W S).time q.state < (swDriver W S).tfinal from ht)] at h
        simp only [Except.ok.injEq] at h
        subst h; rfl

theorem totOf_zero_iff {trunc : ℝ → Int} (htr : Truncates trunc) {T dt : ℝ} (hT : 0 ≤ T) (hd : 0 < dt) : totOf trunc T dt = 0 ↔ T < 50 * dt := by
  unfold totOf
  rw [trunc_eq_iff htr (by positivity) 0]
  constructor
  · rintro ⟨_, h⟩
    rw [Int.cast_zero, zero_add, div_lt_iff₀ (by norm_num), div_lt_iff₀ hd] at h
    linarith
  · intro h
    refine ⟨by push_cast; positivity, ?_⟩
    rw [Int.cast_zero, zero_add, div_lt_iff₀ (by norm_num), div_lt_iff₀ hd]
    linarith

/-- In an iteration after the first whose `tot` is 0 the driver stops. -/
theorem loop_zeroDivision {σ : Type*} {D : Driver σ ℝ} {tot : σ → σ → Int} {s0 : σ} {i : Nat} {s s' : σ} (hi : 1 ≤ i) (hr : Reaches D s0 i s)
    (ht : D.time s < D.tfinal) (hs : D.step s = some s') (h0 : tot s s' = 0)
    (hb : ∃ r, Frames.loop D tot (begin_ s0) i = .ok r) : ∀ N ≥ i + 1, Frames.loop D tot (begin_ s0) N = .error .zeroDivision := by
  intro N hN
  refine loop_error ?_ hN
  obtain ⟨r, h1⟩ := hb
  obtain ⟨n, a, b, _, c, _⟩ := loop_inv i r h1
  have hn : n = i := by
    rcases c with c | ⟨c1, c2⟩
    · exact c
    · obtain ⟨t, x, y⟩ := reaches_before hr c1
      rw [reaches_det x a] at y
      exact absurd c2 (not_le.mpr y)
  subst hn
  obtain rfl := reaches_det a hr
  unfold Frames.loop
  rw [h1]
  simp only
  rw [if_pos ht]
  unfold iterate
  rw [hs]
  simp only
  unfold due
  rw [if_neg (show ¬ r.niter = 1 by omega), if_pos h0]

theorem shallow_completes {W : World ℝ} (hstep : ∀ (S : SSetup) (s : SState), ∃ s', swStep W S s = some s' ∧ s'.time = s.time + s.dt) :
    ShallowCompletes W := by
  intro S f trunc htr hdt
  obtain ⟨s0, hs0⟩ : ∃ s0, s0 = swStart W S f := ⟨_, rfl⟩
  have ht0 : s0.time = 0 := by rw [hs0]; rfl
  rw [← hs0] at hdt ⊢
  have first : ∀ {i s}, 1 ≤ i → Reaches (swDriver W S) s0 i s → s.time < S.tfinal → s0.dt < S.tfinal := by
    intro i s hi hr ht
    obtain ⟨t, h1, h2⟩ : ∃ t, Reaches (swDriver W S) s0 1 t ∧ t.time < S.tfinal := by
      rcases Nat.lt_or_eq_of_le hi with h | h
      · exact reaches_before hr h
      · subst h; exact ⟨s, hr, ht⟩
    cases h1 with
    | succ a _ e =>
      cases a
      obtain ⟨s', e', t⟩ := hstep S s0
      have e : swStep W S s0 = some _ := e
      rw [e] at e'; cases e'
      rw [t, ht0, zero_add] at h2
      exact h2
  have abort : s0.dt < S.tfinal → S.tfinal < 50 * s0.dt →
      ∀ N ≥ 2, Frames.loop (swDriver W S) (swTot trunc S s0) (begin_ s0) N = .error .zeroDivision := by
    intro h1 h2
    obtain ⟨s1, e1, t1⟩ := hstep S s0
    have r1 : Reaches (swDriver W S) s0 1 s1 := .succ .zero (show s0.time < S.tfinal by rw [ht0]; linarith) e1
    obtain ⟨s2, e2, t2⟩ := hstep S s1
    refine loop_zeroDivision le_rfl r1 (show s1.time < S.tfinal by rw [t1, ht0, zero_add]; exact h1) e2 ?_ ?_
    · unfold swTot; rw [totOf_zero_iff htr (by linarith) hdt]; exact h2
    · refine ⟨⟨s1, 2, 1, [⟨0, 1, s1⟩]⟩, ?_⟩
      unfold Frames.loop Frames.loop
      simp only
      rw [if_pos (show (swDriver W S).time (begin_ s0).state < (swDriver W S).tfinal from (show s0.time < S.tfinal by rw [ht0]; linarith))]
      unfold iterate
      rw [show (swDriver W S).step (begin_ s0).state = some s1 from e1]
      rfl
  refine ⟨⟨?_, ?_⟩, abort⟩
  · rintro h ⟨h1, h2⟩
    obtain ⟨r, hr, _⟩ := h 2
    rw [abort h1 h2 2 le_rfl] at hr
    cases hr
  · intro h N
    obtain ⟨r, hr⟩ := loop_ok (D := swDriver W S) (tot := swTot trunc S s0) (s0 := s0) (fun i s _ _ => (hstep S s).imp fun _ h => h.1) (by
      intro i s s' hi hr ht e h0
      have hf := first hi hr ht
      refine h ⟨hf, ?_⟩
      unfold swTot at h0
      exact (totOf_zero_iff htr (by linarith) hdt).mp h0) N
    exact ⟨r, hr, swLoop_of_loop N r hr⟩

variable {nodeid : Nat → Nat → Nat} {node : Nat → ℝ × ℝ × ℝ × Nat} {npart0 epart : Nat → Nat}
  {nbnodes n SIZE : Nat} {data : Nat → RankData ℝ} {serial : RankData ℝ}

/-- **C127** (shallow water, any number of processes, any partition; partial: the driver completes only as stated by `ShallowCompletes`). -/
theorem C127_shallow_partial (h : Launched 3 nodeid node (centvol2 node nodeid) npart0 epart nbnodes n SIZE data serial)
    (vm : ValidMesh2 nodeid node nbnodes n) (sqrt : ℝ → ℝ) (trunc : ℝ → Int) (htr : ∀ m : Nat, trunc (m : ℝ) = m) :
    ∃ W, mkWorld 2 SIZE data (fun p => build2 sqrt trunc SIZE (data p)) = some W ∧ ShallowCompletes W := by
  have np := h.nodePair2 vm sqrt trunc htr
  obtain ⟨hgL, hgG, w1, w2, sL, sG⟩ := np.worlds
  refine ⟨_, w1, shallow_completes fun S s => ?_⟩
  obtain ⟨w, hw⟩ := glueCells np.run s
  obtain ⟨s', _, e, _, t, _⟩ := swStep_glue np (h.outward vm sqrt trunc) (h.vertex1 vm sqrt trunc) hgL S s w hw
  exact ⟨s', e, t⟩

/-- **C127** (shallow water, one process; partial). -/
theorem C127_shallow_serial_partial (vm : ValidMesh2 nodeid node nbnodes n)
    (hr : readMeshFile 1 0 (writeSerial (serialWrite nodeid node nbnodes n 3)) [] = some serial)
    (sqrt : ℝ → ℝ) (trunc : ℝ → Int) (htr : ∀ m : Nat, trunc (m : ℝ) = m) :
    ∃ W, mkWorld 2 1 (fun _ => serial) (fun _ => build2 sqrt trunc 1 serial) = some W ∧ ShallowCompletes W := by
  obtain ⟨data, h⟩ := launched_of_serial (centvol2 node nodeid) (by omega) vm.nodes vm.used hr
  have np := h.nodePair2 vm sqrt trunc htr
  obtain ⟨hgL, hgG, w1, w2, sL, sG⟩ := np.worlds
  refine ⟨_, w2, shallow_completes fun S s => ?_⟩
  obtain ⟨s', e, _, t, _⟩ := swStep_serial np hgG S s
  exact ⟨s', e, t⟩

/-- **C127** (the positive first step asked for by `ShallowCompletes`; one process): it is positive whenever the depth is positive everywhere at the
start, the CFL number positive and the dispersion not negative; so with a final time of two such steps the driver stops with a division by
zero. -/
theorem C127_wet_start (vm : ValidMesh2 nodeid node nbnodes n)
    (hr : readMeshFile 1 0 (writeSerial (serialWrite nodeid node nbnodes n 3)) [] = some serial) (trunc : ℝ → Int) (htr : ∀ m : Nat, trunc (m : ℝ) = m) :
    ∃ W, mkWorld 2 1 (fun _ => serial) (fun _ => build2 Real.sqrt trunc 1 serial) = some W ∧
      ∀ (S : SSetup) (f : Fin 5 → ℝ → ℝ → ℝ → ℝ), 0 < S.cfl → 0 ≤ S.Dx + S.Dy → (∀ x y z, 0 < f 0 x y z) → 0 < (swStart W S f).dt ∧
        ∀ tr : ℝ → Int, Truncates tr → S.tfinal = 2 * (swStart W S f).dt →
          ∀ N ≥ 2, Frames.loop (swDriver W S) (swTot tr S (swStart W S f)) (begin_ (swStart W S f)) N = .error .zeroDivision := by
  obtain ⟨data, h⟩ := launched_of_serial (centvol2 node nodeid) (by omega) vm.nodes vm.used hr
  have np := h.nodePair2 vm Real.sqrt trunc htr
  obtain ⟨hgL, hgG, w1, w2, sL, sG⟩ := np.worlds
  have sol := h.solid2 vm Real.sqrt (fun x hx => (Real.sqrt_pos.mpr hx).ne') trunc htr
  have comp : ShallowCompletes (serW 2 serial (build2 Real.sqrt trunc 1 serial) hgG) := shallow_completes fun S s => by
    obtain ⟨s', e, _, t, _⟩ := swStep_serial np hgG S s
    exact ⟨s', e, t⟩
  refine ⟨_, w2, fun S f hc hD hf => ?_⟩
  have hpos : 0 < (swStart (serW 2 serial (build2 Real.sqrt trunc 1 serial) hgG) S f).dt := by
    have hm := sized_ser (serial := serial) sol hgG
    have st := sw_start_stepOf (W := serW 2 serial (build2 Real.sqrt trunc 1 serial) hgG) Nat.one_pos rfl hm S f
    obtain ⟨lim, hlim⟩ : ∃ lim : Nat → ℝ, lim = swLimit (build2 Real.sqrt trunc 1 serial)
      (fun c k => ((swStart (serW 2 serial (build2 Real.sqrt trunc 1 serial) hgG) S f).V k 0).cell c) S := ⟨_, rfl⟩
    have lp : ∀ c < (build2 Real.sqrt trunc 1 serial).nbcells, 0 < lim c := by
      intro c hcc
      rw [hlim]
      unfold swLimit
      refine div_pos (mul_pos hc (sol.vpos c hcc)) ?_
      unfold SW.cellRate
      refine Finset.sum_pos (fun j hj => ?_) ⟨0, by simp⟩
      have hj := Finset.mem_range.mp hj
      have hv := sol.vpos c hcc
      have m1 : 0 < (build2 Real.sqrt trunc 1 serial).mesure ((build2 Real.sqrt trunc 1 serial).faceid c j) := by
        refine lt_of_le_of_ne ?_ (sol.mes c hcc j hj).symm
        rw [mesure_build2 _ _ _ _ (face_perm2 Real.sqrt trunc 1 serial hcc hj).1]
        exact Real.sqrt_nonneg _
      have m2 : 0 < Real.sqrt (9.81 * ((swStart (serW 2 serial (build2 Real.sqrt trunc 1 serial) hgG) S f).V 0 0).cell c) := by
        apply Real.sqrt_pos.mpr
        have := hf ((build2 Real.sqrt trunc 1 serial).center c 0) ((build2 Real.sqrt trunc 1 serial).center c 1) ((build2 Real.sqrt trunc 1 serial).center c 2)
        exact mul_pos (by norm_num) this
      have := mul_pos m2 m1
      have a := abs_nonneg (((swStart (serW 2 serial (build2 Real.sqrt trunc 1 serial) hgG) S f).V 1 0).cell c /
        ((swStart (serW 2 serial (build2 Real.sqrt trunc 1 serial) hgG) S f).V 0 0).cell c *
          (build2 Real.sqrt trunc 1 serial).normal ((build2 Real.sqrt trunc 1 serial).faceid c j) 0 +
        ((swStart (serW 2 serial (build2 Real.sqrt trunc 1 serial) hgG) S f).V 2 0).cell c /
        ((swStart (serW 2 serial (build2 Real.sqrt trunc 1 serial) hgG) S f).V 0 0).cell c *
          (build2 Real.sqrt trunc 1 serial).normal ((build2 Real.sqrt trunc 1 serial).faceid c j) 1)
      have b : 0 ≤ (S.Dx + S.Dy) * ((build2 Real.sqrt trunc 1 serial).normal ((build2 Real.sqrt trunc 1 serial).faceid c j) 0 ^ 2 +
        (build2 Real.sqrt trunc 1 serial).normal ((build2 Real.sqrt trunc 1 serial).faceid c j) 1 ^ 2) / (build2 Real.sqrt trunc 1 serial).volume c := by
        positivity
      exact add_pos_of_pos_of_nonneg (add_pos_of_nonneg_of_pos a this) b
    -- a positive number below all limits
    have ex : ∀ m ≤ (build2 Real.sqrt trunc 1 serial).nbcells, ∃ t : ℝ, 0 < t ∧ t ≤ 1000000 ∧ ∀ c < m, t ≤ lim c := by
      intro m
      induction m with
      | zero => intro _; exact ⟨1, one_pos, by norm_num, fun c hc => absurd hc (Nat.not_lt_zero c)⟩
      | succ m ih =>
        intro hm
        obtain ⟨t, t1, t2, t3⟩ := ih (by omega)
        refine ⟨min t (lim m), lt_min t1 (lp m hm), (min_le_left _ _).trans t2, fun c hc => ?_⟩
        rcases Nat.lt_succ_iff_lt_or_eq.mp hc with h | rfl
        · exact (min_le_left _ _).trans (t3 c h)
        · exact min_le_right _ _
    obtain ⟨t, t1, t2, t3⟩ := ex _ le_rfl
    refine lt_of_lt_of_le t1 (st.2 ⟨t2, fun p hp c hcc _ => ?_⟩)
    obtain rfl : p = 0 := Nat.lt_one_iff.mp hp
    have := t3 c hcc
    rw [hlim] at this
    exact this
  refine ⟨hpos, fun tr htr hT => ?_⟩
  exact (comp S f tr htr hpos).2 (by rw [hT]; linarith) (by rw [hT]; linarith)

/-- **C127** (second streamer driver): an iteration after the first whose time step exceeds a fiftieth of the final time does not complete, and
nothing after it is computed. -/
theorem C127_streamer_aborts (W : World ℝ) (S : StrSetup) (sv : LinSolve.Solver) (direct : (Nat → Nat → ℝ) → (Nat → ℝ) → Nat → ℝ)
    (s0 s s' : StrState) (i : Nat) (trunc : ℝ → Int) (htr : Truncates trunc) (hi : 1 ≤ i)
    (hr : Reaches (streamerDriver W S sv direct) s0 i s) (ht : s.time < S.tfinal) (hs : strStep W S sv direct s = some s')
    (hT : 0 ≤ S.tfinal) (hd : 0 < s'.time - s.time) (hlong : S.tfinal < 50 * (s'.time - s.time)) :
    ∀ N > i, ∃ e, Frames.loop (streamerDriver W S sv direct) (streamerTot trunc S) (begin_ s0) N = .error e := by
  intro N hN
  cases hb : Frames.loop (streamerDriver W S sv direct) (streamerTot trunc S) (begin_ s0) i with
  | error e => exact ⟨e, loop_error hb hN.le⟩
  | ok r => exact ⟨_, loop_zeroDivision hi hr ht hs ((totOf_zero_iff htr hT hd).mpr hlong) ⟨r, hb⟩ N hN⟩

end

/-! ### meshes and setups meeting the hypotheses -/

theorem floor_truncates : Truncates (Rat.floor : ℚ → Int) := by
  intro x _
  exact ⟨by exact_mod_cast Int.floor_le x, by exact_mod_cast Int.lt_floor_add_one x⟩

/-- The setup of C93 is `Moving` and `Steady`. -/
theorem flowSetup_moving (dim : Nat) : Moving dim flowSetup ∧ Steady flowSetup := by
  obtain ⟨a, b, c, d, e', f⟩ := flowSetup_ok dim
  exact ⟨⟨d, ⟨1, by intro it x y z; simp [flowSetup]⟩, c, Or.inr ⟨a, b⟩⟩, fun it => ⟨rfl, rfl, rfl⟩⟩

example : ∃ W, mkWorld 2 2 stripData (fun p => build2 (fun x => x) Rat.floor 2 (stripData p)) = some W ∧ ∃ n r,
    Frames.loop (transportDriver W flowSetup 2 true) (transportTot Rat.floor flowSetup) (begin_ (tstart W (fun x _ _ => x))) n = .ok r ∧ r.saved.length ≤ 51 := by
  obtain ⟨W, e, hW⟩ := C125_files_2d stripLaunched stripValid (fun x => x) (fun x hx => hx.ne') Rat.floor floor_nat
  have hd : W.dim = 2 := by unfold mkWorld at e; rw [Option.map_eq_some_iff] at e; obtain ⟨_, _, rfl⟩ := e; rfl
  obtain ⟨n, r, h1, _, _, _, h5⟩ := hW flowSetup (flowSetup_moving _).1 2 true (fun x _ _ => x) Rat.floor floor_truncates
  exact ⟨W, e, n, r, h1 n le_rfl, h5 (flowSetup_moving 2).2⟩
example := C125_files_3d chainLaunched chainValid (fun x => x) (fun x hx => hx.ne') Rat.floor floor_nat
example := C126_last_missed_2d stripLaunched stripValid (fun x => x) (fun x hx => hx.ne') Rat.floor floor_nat
example := C126_last_missed_3d chainLaunched chainValid (fun x => x) (fun x hx => hx.ne') Rat.floor floor_nat
example := C127_wet_start (validReal stripValid) (C25_round_trip_serial (K := ℝ) _ _) Int.floor floor_real
example : ∃ data : Nat → RankData ℝ, ∃ W, mkWorld 2 2 data (fun p => build2 Real.sqrt Int.floor 2 (data p)) = some W ∧ ShallowCompletes W := by
  obtain ⟨data, serial, h⟩ := realStripLaunched
  obtain ⟨W, a, b⟩ := C127_shallow_partial h (validReal stripValid) Real.sqrt Int.floor floor_real
  exact ⟨data, W, a, b⟩

/-- A driver that advances the time by 1 with `tfinal = 3` and the `tot` of `streamerTot`: it stops in its second iteration. -/
example : ∀ N ≥ 2, Frames.loop (⟨fun t => some (t + 1), id, 3⟩ : Driver ℝ ℝ) (fun t t' => totOf Int.floor 3 (t' - t)) (begin_ 0) N = .error .zeroDivision := by
  have htr : Truncates (Int.floor : ℝ → Int) := fun x _ => ⟨Int.floor_le x, Int.lt_floor_add_one x⟩
  have r1 : Reaches (⟨fun t => some (t + 1), id, 3⟩ : Driver ℝ ℝ) 0 1 1 := by
    have := Reaches.succ (Reaches.zero (D := (⟨fun t => some (t + 1), id, 3⟩ : Driver ℝ ℝ)) (s0 := 0)) (show (0 : ℝ) < 3 by norm_num) rfl
    rwa [zero_add, zero_add] at this
  refine loop_zeroDivision le_rfl r1 (show (1 : ℝ) < 3 by norm_num) rfl ((totOf_zero_iff htr (by norm_num) (by norm_num)).mpr (by norm_num)) ?_
  refine ⟨⟨0 + 1, 2, 1, [⟨0, 1, 0 + 1⟩]⟩, ?_⟩
  unfold Frames.loop Frames.loop
  simp only
  rw [if_pos (show (⟨fun t => some (t + 1), id, 3⟩ : Driver ℝ ℝ).time (begin_ (0 : ℝ)).state < 3 from (show (0 : ℝ) < 3 by norm_num))]
  rfl

end Verif.Props.Par
