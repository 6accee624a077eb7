import Verif.Props.SWLake
import Verif.Props.SWFirst
import Verif.Props.ParallelVar
import Verif.Props.Diffusion

/-!
# Whole shallow-water runs: any number of processes, water and tracer in a closed basin, lake at rest (C106-C108)
-/
set_option linter.unusedSectionVars false
set_option linter.unusedSimpArgs false
set_option linter.unusedVariables false
namespace Verif.Props.Par
open Verif Verif.Dom Verif.Fvm Verif.Geo Verif.MeshFile Verif.HaloGhost Verif.Run Verif.Spec Verif.Conn Verif.Part

section
variable {nodeid : Nat → Nat → Nat} {node : Nat → ℝ × ℝ × ℝ × Nat} {npart0 epart : Nat → Nat}
  {nbnodes n SIZE : Nat} {data : Nat → RankData ℝ} {serial : RankData ℝ}

theorem Launched.outward (h : Launched 3 nodeid node (centvol2 node nodeid) npart0 epart nbnodes n SIZE data serial) (vm : ValidMesh2 nodeid node nbnodes n)
    (sqrt : ℝ → ℝ) (trunc : ℝ → Int) : Outward (build2 sqrt trunc 1 serial) (out2 serial) :=
  outward2 sqrt trunc 1 serial (fun c hc => h.nonFlatS vm (by rw [h.serial_cells.1] at hc; exact hc))

/-! ### C106: any number of processes -/

/-- **C106**: the shallow-water computation (order 1 or 2, friction, bottom, Coriolis, tracer with dispersion) on any number of processes and
any partition gives, after any number of iterations, the time, the time step, the cells and the node values of the computation on one process.
Partial: the cells around a node must be connected through faces and the corner conditions of C88 must hold for `h` and `hc` (without them the
node values differ). -/
theorem C106_run_partial (h : Launched 3 nodeid node (centvol2 node nodeid) npart0 epart nbnodes n SIZE data serial)
    (vm : ValidMesh2 nodeid node nbnodes n) (sqrt : ℝ → ℝ) (trunc : ℝ → Int) (htr : ∀ m : Nat, trunc (m : ℝ) = m)
    (star : StarConnected 2 nodeid n) :
    ∃ WL WG, mkWorld 2 SIZE data (fun p => build2 sqrt trunc SIZE (data p)) = some WL ∧
      mkWorld 2 1 (fun _ => serial) (fun _ => build2 sqrt trunc 1 serial) = some WG ∧
      ∀ (S : SSetup), CornersOk 2 nodeid epart n (build2 sqrt trunc 1 serial) (S.bc 0) → CornersOk 2 nodeid epart n (build2 sqrt trunc 1 serial) (S.bc 3) →
        ∀ (init : Fin 5 → ℝ → ℝ → ℝ → ℝ) (N : Nat),
        ∃ s t, swLoop WL S (swStart WL S init) N = some s ∧ swLoop WG S (swStart WG S init) N = some t ∧
          s.time = t.time ∧ s.dt = t.dt ∧ (∀ k, CellsAgree SIZE data (fun p => (s.V k p).cell) (t.V k 0).cell) ∧
          NodesAgree SIZE data s.node (t.node 0) := by
  have np := h.nodePair2 vm sqrt trunc htr
  obtain ⟨hgL, hgG, w1, w2, sL, sG⟩ := np.worlds
  refine ⟨_, _, w1, w2, fun S h0 h3 init N => ?_⟩
  obtain ⟨s, t, e1, e2, m⟩ := swLoop_match np (h.outward vm sqrt trunc) (h.vertex1 vm sqrt trunc) sL sG S ⟨star, h0⟩ ⟨star, h3⟩ _ _
    (swStart_match np hgL hgG S init) N
  exact ⟨s, t, e1, e2, m.time, m.dt, fun k => (np.cellsAgree _ _).mpr (m.cell k), np.nodesAgree _ _ m.node⟩

/-- **C106** (order 1 without dispersion): time, time step and cells of all five variables are those of the computation on one process, for every
valid mesh, every partition and all boundary conditions. -/
theorem C106_first_order (h : Launched 3 nodeid node (centvol2 node nodeid) npart0 epart nbnodes n SIZE data serial)
    (vm : ValidMesh2 nodeid node nbnodes n) (sqrt : ℝ → ℝ) (trunc : ℝ → Int) (htr : ∀ m : Nat, trunc (m : ℝ) = m) :
    ∃ WL WG, mkWorld 2 SIZE data (fun p => build2 sqrt trunc SIZE (data p)) = some WL ∧
      mkWorld 2 1 (fun _ => serial) (fun _ => build2 sqrt trunc 1 serial) = some WG ∧
      ∀ (S : SSetup), S.order = 1 → S.Dx = 0 → S.Dy = 0 → ∀ (init : Fin 5 → ℝ → ℝ → ℝ → ℝ) (N : Nat),
        ∃ s t, swLoop WL S (swStart WL S init) N = some s ∧ swLoop WG S (swStart WG S init) N = some t ∧
          s.time = t.time ∧ s.dt = t.dt ∧ ∀ k, CellsAgree SIZE data (fun p => (s.V k p).cell) (t.V k 0).cell := by
  have np := h.nodePair2 vm sqrt trunc htr
  obtain ⟨hgL, hgG, w1, w2, sL, sG⟩ := np.worlds
  refine ⟨_, _, w1, w2, fun S h1 hx hy init N => ?_⟩
  have m0 := swStart_match np hgL hgG S init
  obtain ⟨s, t, e1, e2, m⟩ := swLoop_first np (h.outward vm sqrt trunc) (h.vertex1 vm sqrt trunc) hgL hgG S h1 hx hy _ _
    ⟨fun p hp c hc => funext fun k => m0.cell k p hp c hc, m0.dt, m0.time⟩ N
  exact ⟨s, t, e1, e2, m.time, m.dt, fun k => (np.cellsAgree _ _).mpr (fun p hp c hc => congrFun (m.cell p hp c hc) k)⟩

/-! ### C107: water and tracer in a closed basin -/

theorem totalOf_glue {L : Nat → Tables ℝ} {G : Tables ℝ} {B : List Int} {out : Nat → Nat → Vec ℝ} (h : RunPair 2 SIZE n epart data L G B out)
    (hgL : Nat → HGResult ℝ) (s : SState) (w : Nat → SW.W5)
    (hw : ∀ p < SIZE, ∀ c < (L p).nbcells, cellsOf (fun k => s.V k p) c = w (phi (data p) c)) (k : Fin 5) :
    totalOf (parW 2 SIZE data L hgL) s k = ∑ C ∈ Finset.range G.nbcells, G.volume C * w C k := by
  rw [h.nG, ← h.sum_cells]
  unfold totalOf
  apply Finset.sum_congr rfl
  intro p hp
  have hp := Finset.mem_range.mp hp
  apply Finset.sum_congr rfl
  intro c hc
  have hc := Finset.mem_range.mp hc
  show (L p).volume c * (s.V k p).cell c = _
  rw [h.volume p hp c hc, ← hw p hp c hc]; rfl

/-- The cells of all ranks, put together. -/
theorem glueCells {L : Nat → Tables ℝ} {G : Tables ℝ} {B : List Int} {out : Nat → Nat → Vec ℝ} (h : RunPair 2 SIZE n epart data L G B out) (s : SState) :
    ∃ w : Nat → SW.W5, ∀ p < SIZE, ∀ c < (L p).nbcells, cellsOf (fun k => s.V k p) c = w (phi (data p) c) := by
  have := fun k : Fin 5 => h.glue (fun p => (s.V k p).cell)
  choose A hA using this
  exact ⟨fun C k => A k C, fun p hp c hc => funext fun k => hA k p hp c hc⟩

/-- **C107** (water, any number of processes, any partition): in a closed basin (reversed discharge, depth and bottom continued on every side),
at order 1, the volume of water, added up over the ranks, is the one at the start after any number of iterations, from any state, with
friction, bottom source and Coriolis force; and so is the amount of tracer if there is no dispersion. -/
theorem C107_closed_basin (h : Launched 3 nodeid node (centvol2 node nodeid) npart0 epart nbnodes n SIZE data serial)
    (vm : ValidMesh2 nodeid node nbnodes n) (sqrt : ℝ → ℝ) (hs : ∀ x, 0 < x → sqrt x ≠ 0) (trunc : ℝ → Int) (htr : ∀ m : Nat, trunc (m : ℝ) = m) :
    ∃ W, mkWorld 2 SIZE data (fun p => build2 sqrt trunc SIZE (data p)) = some W ∧
      ∀ (S : SSetup), S.order = 1 → ClosedBasin S.bc → ∀ (s0 : SState) (N : Nat),
        ∃ s, swLoop W S s0 N = some s ∧ totalOf W s 0 = totalOf W s0 0 ∧ (S.Dx = 0 → S.Dy = 0 → totalOf W s 3 = totalOf W s0 3) := by
  have np := h.nodePair2 vm sqrt trunc htr
  obtain ⟨hgL, hgG, w1, w2, sL, sG⟩ := np.worlds
  refine ⟨_, w1, fun S h1 hq s0 N => ?_⟩
  have h0 : 0 < SIZE := by have := np.run.hS; omega
  have R := np.run.rank 0 h0
  obtain ⟨w, hw⟩ := glueCells np.run s0
  obtain ⟨s, new, e, hP, hn⟩ := swLoop_inv np (h.outward vm sqrt trunc) (h.vertex1 vm sqrt trunc) hgL S
    (fun v => ∀ k : Fin 5, (k = 0 ∨ (k = 3 ∧ S.Dx = 0 ∧ S.Dy = 0)) →
      ∑ C ∈ Finset.range (build2 sqrt trunc 1 serial).nbcells, (build2 sqrt trunc 1 serial).volume C * v C k =
      ∑ C ∈ Finset.range (build2 sqrt trunc 1 serial).nbcells, (build2 sqrt trunc 1 serial).volume C * w C k)
    (fun dt v new hst ih k hk => (swStep_closed R (h.outward vm sqrt trunc) (h.solid2 vm sqrt hs trunc htr) (fun _ _ _ _ => out2_third _ _ _)
      h1 hq hst k hk).trans (ih k hk)) s0 w hw (fun _ _ => rfl) N
  refine ⟨s, e, ?_, fun hx hy => ?_⟩
  · rw [totalOf_glue np.run hgL s new hn 0, totalOf_glue np.run hgL s0 w hw 0, hP 0 (.inl rfl)]
  · rw [totalOf_glue np.run hgL s new hn 3, totalOf_glue np.run hgL s0 w hw 3, hP 3 (.inr ⟨rfl, hx, hy⟩)]

theorem totalOf_serial (G : Tables ℝ) (hgG : Nat → HGResult ℝ) (s : SState) (k : Fin 5) :
    totalOf (serW 2 serial G hgG) s k = ∑ C ∈ Finset.range G.nbcells, G.volume C * cellsOf (fun k => s.V k 0) C k := by
  unfold totalOf
  show ∑ p ∈ Finset.range 1, _ = _
  rw [Finset.sum_range_one]
  rfl

/-- C107 (one process, every valid mesh). -/
theorem C107_closed_basin_serial (vm : ValidMesh2 nodeid node nbnodes n)
    (hr : readMeshFile 1 0 (writeSerial (serialWrite nodeid node nbnodes n 3)) [] = some serial)
    (sqrt : ℝ → ℝ) (hs : ∀ x, 0 < x → sqrt x ≠ 0) (trunc : ℝ → Int) (htr : ∀ m : Nat, trunc (m : ℝ) = m) :
    ∃ W, mkWorld 2 1 (fun _ => serial) (fun _ => build2 sqrt trunc 1 serial) = some W ∧
      ∀ (S : SSetup), S.order = 1 → ClosedBasin S.bc → ∀ (s0 : SState) (N : Nat),
        ∃ s, swLoop W S s0 N = some s ∧ totalOf W s 0 = totalOf W s0 0 ∧ (S.Dx = 0 → S.Dy = 0 → totalOf W s 3 = totalOf W s0 3) := by
  obtain ⟨data, h⟩ := launched_of_serial (centvol2 node nodeid) (by omega) vm.nodes vm.used hr
  have np := h.nodePair2 vm sqrt trunc htr
  obtain ⟨hgL, hgG, w1, w2, sL, sG⟩ := np.worlds
  refine ⟨_, w2, fun S h1 hq s0 N => ?_⟩
  have R := np.run.rank 0 (by have := np.run.hS; omega)
  obtain ⟨s, e, hP⟩ := swLoop_serial_inv np hgG S
    (fun v => ∀ k : Fin 5, (k = 0 ∨ (k = 3 ∧ S.Dx = 0 ∧ S.Dy = 0)) →
      ∑ C ∈ Finset.range (build2 sqrt trunc 1 serial).nbcells, (build2 sqrt trunc 1 serial).volume C * v C k =
      ∑ C ∈ Finset.range (build2 sqrt trunc 1 serial).nbcells, (build2 sqrt trunc 1 serial).volume C * cellsOf (fun k => s0.V k 0) C k)
    (fun dt v new hst ih k hk => (swStep_closed R (h.outward vm sqrt trunc) (h.solid2 vm sqrt hs trunc htr) (fun _ _ _ _ => out2_third _ _ _)
      h1 hq hst k hk).trans (ih k hk)) s0 (fun _ _ => rfl) N
  refine ⟨s, e, ?_, fun hx hy => ?_⟩
  · rw [totalOf_serial, totalOf_serial, hP 0 (.inl rfl)]
  · rw [totalOf_serial, totalOf_serial, hP 3 (.inr ⟨rfl, hx, hy⟩)]

/-! ### C108: bottom and lake at rest -/

/-- **C108** (bottom): the bottom of every cell of every rank is the one at the start after any number of iterations, at any order, from any
state, for any boundary conditions. -/
theorem C108_bottom_fixed (h : Launched 3 nodeid node (centvol2 node nodeid) npart0 epart nbnodes n SIZE data serial)
    (vm : ValidMesh2 nodeid node nbnodes n) (sqrt : ℝ → ℝ) (trunc : ℝ → Int) (htr : ∀ m : Nat, trunc (m : ℝ) = m) :
    ∃ W, mkWorld 2 SIZE data (fun p => build2 sqrt trunc SIZE (data p)) = some W ∧
      ∀ (S : SSetup) (s0 : SState) (N : Nat), ∃ s, swLoop W S s0 N = some s ∧
        ∀ p < SIZE, ∀ c < (W.D p).nbcells, (s.V 4 p).cell c = (s0.V 4 p).cell c := by
  have np := h.nodePair2 vm sqrt trunc htr
  obtain ⟨hgL, hgG, w1, w2, sL, sG⟩ := np.worlds
  refine ⟨_, w1, fun S s0 N => ?_⟩
  obtain ⟨w, hw⟩ := glueCells np.run s0
  obtain ⟨s, new, e, hP, hn⟩ := swLoop_inv np (h.outward vm sqrt trunc) (h.vertex1 vm sqrt trunc) hgL S
    (fun v => ∀ C < (build2 sqrt trunc 1 serial).nbcells, v C 4 = w C 4)
    (fun dt v new hst ih C hC => (swStep_bottom hst hC).trans (ih C hC)) s0 w hw (fun _ _ => rfl) N
  refine ⟨s, e, fun p hp c hc => ?_⟩
  have hC := ((np.run.rank p hp).sub.lt c hc).1
  exact (congrFun (hn p hp c hc) 4).trans ((hP _ hC).trans (congrFun (hw p hp c hc) 4).symm)

/-- **C108** (lake at rest, any number of processes, any partition): at order 1, over any bottom, with sides that do not disturb it, water at rest
stays at rest: after any number of iterations depth, discharges and bottom of every cell of every rank are those at the start, whatever
the Manning number, the Coriolis number, the tracer, its boundary conditions and its dispersion. -/
theorem C108_lake_at_rest (h : Launched 3 nodeid node (centvol2 node nodeid) npart0 epart nbnodes n SIZE data serial)
    (vm : ValidMesh2 nodeid node nbnodes n) (sqrt : ℝ → ℝ) (hs : ∀ x, 0 < x → sqrt x ≠ 0) (trunc : ℝ → Int) (htr : ∀ m : Nat, trunc (m : ℝ) = m) :
    ∃ W, mkWorld 2 SIZE data (fun p => build2 sqrt trunc SIZE (data p)) = some W ∧
      ∀ (S : SSetup), S.order = 1 → QuietSides S.bc → ∀ (s0 : SState) (H : ℝ), AtRest W s0 H → ∀ N, ∃ s, swLoop W S s0 N = some s ∧
        ∀ p < SIZE, ∀ c < (W.D p).nbcells, ∀ k, k ≠ 3 → (s.V k p).cell c = (s0.V k p).cell c := by
  have np := h.nodePair2 vm sqrt trunc htr
  obtain ⟨hgL, hgG, w1, w2, sL, sG⟩ := np.worlds
  refine ⟨_, w1, fun S h1 hq s0 H hr N => ?_⟩
  have R := np.run.rank 0 (by have := np.run.hS; omega)
  obtain ⟨w, hw⟩ := glueCells np.run s0
  have hrest : ∀ C < (build2 sqrt trunc 1 serial).nbcells, SW.Rest H (w C) := by
    intro C hC
    obtain ⟨p, hp, c, hc, rfl⟩ := np.run.owner (np.run.nG ▸ hC)
    rw [← hw p hp c hc]
    exact hr p hp c hc
  obtain ⟨s, new, e, hP, hn⟩ := swLoop_inv np (h.outward vm sqrt trunc) (h.vertex1 vm sqrt trunc) hgL S
    (fun v => ∀ C < (build2 sqrt trunc 1 serial).nbcells, ∀ k, k ≠ 3 → v C k = w C k)
    (fun dt v new hst ih C hC k hk => by
      have hv : ∀ C < (build2 sqrt trunc 1 serial).nbcells, SW.Rest H (v C) := by
        intro C hC
        obtain ⟨a, b, c, d⟩ := hrest C hC
        refine ⟨?_, ?_, ?_, ?_⟩
        · rw [ih C hC 0 (by decide)]; exact a
        · rw [ih C hC 1 (by decide)]; exact b
        · rw [ih C hC 2 (by decide)]; exact c
        · rw [ih C hC 0 (by decide), ih C hC 4 (by decide)]; exact d
      exact (swStep_lake R (h.outward vm sqrt trunc) (h.solid2 vm sqrt hs trunc htr) (fun _ _ _ _ => out2_third _ _ _) h1 hq hst hv hC k hk).trans
        (ih C hC k hk)) s0 w hw (fun _ _ _ _ => rfl) N
  refine ⟨s, e, fun p hp c hc k hk => ?_⟩
  have hC := ((np.run.rank p hp).sub.lt c hc).1
  exact (congrFun (hn p hp c hc) k).trans ((hP _ hC k hk).trans (congrFun (hw p hp c hc) k).symm)

/-- C108 (lake at rest, one process, every valid mesh). -/
theorem C108_lake_at_rest_serial (vm : ValidMesh2 nodeid node nbnodes n)
    (hr : readMeshFile 1 0 (writeSerial (serialWrite nodeid node nbnodes n 3)) [] = some serial)
    (sqrt : ℝ → ℝ) (hs : ∀ x, 0 < x → sqrt x ≠ 0) (trunc : ℝ → Int) (htr : ∀ m : Nat, trunc (m : ℝ) = m) :
    ∃ W, mkWorld 2 1 (fun _ => serial) (fun _ => build2 sqrt trunc 1 serial) = some W ∧
      ∀ (S : SSetup), S.order = 1 → QuietSides S.bc → ∀ (s0 : SState) (H : ℝ), AtRest W s0 H → ∀ N, ∃ s, swLoop W S s0 N = some s ∧
        ∀ c < (W.D 0).nbcells, ∀ k, k ≠ 3 → (s.V k 0).cell c = (s0.V k 0).cell c := by
  obtain ⟨data, h⟩ := launched_of_serial (centvol2 node nodeid) (by omega) vm.nodes vm.used hr
  have np := h.nodePair2 vm sqrt trunc htr
  obtain ⟨hgL, hgG, w1, w2, sL, sG⟩ := np.worlds
  refine ⟨_, w2, fun S h1 hq s0 H hr N => ?_⟩
  have R := np.run.rank 0 (by have := np.run.hS; omega)
  have hrest : ∀ C < (build2 sqrt trunc 1 serial).nbcells, SW.Rest H (cellsOf (fun k => s0.V k 0) C) := fun C hC => hr 0 (by show 0 < 1; omega) C hC
  obtain ⟨s, e, hP⟩ := swLoop_serial_inv np hgG S
    (fun v => ∀ C < (build2 sqrt trunc 1 serial).nbcells, ∀ k, k ≠ 3 → v C k = cellsOf (fun k => s0.V k 0) C k)
    (fun dt v new hst ih C hC k hk => by
      have hv : ∀ C < (build2 sqrt trunc 1 serial).nbcells, SW.Rest H (v C) := by
        intro C hC
        obtain ⟨a, b, c, d⟩ := hrest C hC
        refine ⟨?_, ?_, ?_, ?_⟩
        · rw [ih C hC 0 (by decide)]; exact a
        · rw [ih C hC 1 (by decide)]; exact b
        · rw [ih C hC 2 (by decide)]; exact c
        · rw [ih C hC 0 (by decide), ih C hC 4 (by decide)]; exact d
      exact (swStep_lake R (h.outward vm sqrt trunc) (h.solid2 vm sqrt hs trunc htr) (fun _ _ _ _ => out2_third _ _ _) h1 hq hst hv hC k hk).trans
        (ih C hC k hk)) s0 (fun _ _ _ _ => rfl) N
  exact ⟨s, e, fun c hc k hk => hP c hc k hk⟩

end

/-- C107 (refutation at order 2, the order of the driver): at a wall the depth of the cell is reconstructed and the one outside is not.  Where the
reconstructed depth `F` differs from the depth `h` of the cell, still water crosses the wall of a closed basin. -/
theorem C107_order2_wall_leaks (a : SW.Args) (i : Nat) (F : ℝ) (ho : a.order = 2)
    (hm : a.mesuref i ≠ 0) (hmes : a.mesuref i ^ 2 = a.normalf i 0 ^ 2 + a.normalf i 1 ^ 2)
    (h0 : a.ghost i 0 = a.c (a.cell0 i) 0) (h1 : a.ghost i 1 = - a.c (a.cell0 i) 1) (h2 : a.ghost i 2 = - a.c (a.cell0 i) 2)
    (h4 : a.ghost i 4 = a.c (a.cell0 i) 4) (s1 : a.c (a.cell0 i) 1 = 0) (s2 : a.c (a.cell0 i) 2 = 0) (hd : 1 ≤ a.c (a.cell0 i) 0)
    (hF : F = a.c (a.cell0 i) 0 + a.psi (a.cell0 i) * (a.h_x (a.cell0 i) * (a.centerf i 0 - a.centerc (a.cell0 i) 0)
      + a.h_y (a.cell0 i) * (a.centerf i 1 - a.centerc (a.cell0 i) 1))) (hF1 : 1 ≤ F) :
    SW.boundaryFlux a i 0 = 1 / 2 * Real.sqrt (SW.g0 * ((F + a.c (a.cell0 i) 0) / 2)) * (F - a.c (a.cell0 i) 0) * a.mesuref i ∧
      (F ≠ a.c (a.cell0 i) 0 → SW.boundaryFlux a i 0 ≠ 0) := by
  have L0 : a.fromCell (a.cell0 i) i 0 = F := by
    simp only [SW.Args.fromCell, SW.Args.recon, ho]; simp; rw [hF]; ring
  have L1 : a.fromCell (a.cell0 i) i 1 = 0 := s1
  have L2 : a.fromCell (a.cell0 i) i 2 = 0 := s2
  have L4 : a.fromCell (a.cell0 i) i 4 = a.c (a.cell0 i) 4 := rfl
  have hsq : (1 : ℝ) ≤ Real.sqrt (SW.g0 * ((F + a.c (a.cell0 i) 0) / 2)) := by
    rw [show (1 : ℝ) = Real.sqrt 1 by simp]
    apply Real.sqrt_le_sqrt
    simp only [SW.g0]; linarith
  have e := SW.srnh_still_mass (a.fromCell (a.cell0 i) i) (a.ghost i) (a.normalf i) (a.mesuref i) SW.g0 (by norm_num [SW.g0]) hm hmes
    (by rw [L0]; linarith) (by rw [h0]; linarith) L1 L2 (by rw [h1, s1, neg_zero]) (by rw [h2, s2, neg_zero])
    (by rw [L0, h0]; linarith)
  have e' : SW.boundaryFlux a i 0 = 1 / 2 * Real.sqrt (SW.g0 * ((F + a.c (a.cell0 i) 0) / 2)) * (F - a.c (a.cell0 i) 0) * a.mesuref i := by
    unfold SW.boundaryFlux
    rw [e, L0, h0, L4, h4]; ring
  refine ⟨e', fun hne => ?_⟩
  rw [e']
  exact mul_ne_zero (mul_ne_zero (mul_ne_zero (by norm_num) (by linarith)) (sub_ne_zero.mpr hne)) hm

/-- A closed basin of two triangles with still water, flat bottom and a slope of the surface in the first triangle, at order 2. -/
noncomputable def leakArgs : SW.Args :=
  { SW.exArgs with
    c := fun _ => ![3, 0, 0, 0, 0]
    ghost := fun _ => ![3, 0, 0, 0, 0]
    h_x := fun c => if c = 0 then 1 else 0
    h_y := fun c => if c = 0 then -1 / 2 else 0
    order := 2 }

/-- C107 (refutation at order 2, concrete): the residuals of the two cells of this closed basin do not add up to zero, so the volume of water changes. -/
theorem C107_order2_counterexample : leakArgs.convective 0 0 + leakArgs.convective 1 0 ≠ 0 := by
  have hc : SW.CellsOK leakArgs 2 := ⟨SW.exMesh.cells.inner0, SW.exMesh.cells.inner1, SW.exMesh.cells.halo0, SW.exMesh.cells.bnd0⟩
  have hsum := congrFun (SW.C55_residual_conservative leakArgs 2 hc) 0
  rw [Finset.sum_apply, Finset.sum_range_succ, Finset.sum_range_one] at hsum
  rw [hsum]
  have hh : leakArgs.halofaces = [] := rfl
  have hb : leakArgs.boundaryfaces = [0, 1, 3, 4] := rfl
  simp only [Pi.neg_apply, Pi.add_apply, SW.sum_apply, hh, hb, List.map_cons, List.map_nil, List.sum_cons, List.sum_nil]
  have f : ∀ i F, leakArgs.mesuref i = 1 → 1 = leakArgs.normalf i 0 ^ 2 + leakArgs.normalf i 1 ^ 2 →
      F = (3 : ℝ) + (leakArgs.h_x (leakArgs.cell0 i) * (leakArgs.centerf i 0 - leakArgs.centerc (leakArgs.cell0 i) 0)
        + leakArgs.h_y (leakArgs.cell0 i) * (leakArgs.centerf i 1 - leakArgs.centerc (leakArgs.cell0 i) 1)) → 1 ≤ F →
      SW.boundaryFlux leakArgs i 0 = 1 / 2 * Real.sqrt (SW.g0 * ((F + 3) / 2)) * (F - 3) := by
    intro i F hm hn hF h1
    have := (C107_order2_wall_leaks leakArgs i F rfl (by rw [hm]; norm_num) (by rw [hm]; linarith) rfl (by simp [leakArgs]) (by simp [leakArgs]) rfl rfl rfl
      (by simp [leakArgs]) (by rw [hF]; simp [leakArgs, SW.exArgs]) h1).1
    rw [this, hm, mul_one]
    simp [leakArgs]
  rw [f 0 3 (by simp [leakArgs, SW.exArgs]) (by simp [leakArgs, SW.exArgs]) (by simp [leakArgs, SW.exArgs]; norm_num) (by norm_num),
    f 1 (13 / 4) (by simp [leakArgs, SW.exArgs]) (by simp [leakArgs, SW.exArgs]) (by simp [leakArgs, SW.exArgs]; norm_num) (by norm_num),
    f 3 3 (by simp [leakArgs, SW.exArgs]) (by simp [leakArgs, SW.exArgs]) (by simp [leakArgs, SW.exArgs]) (by norm_num),
    f 4 3 (by simp [leakArgs, SW.exArgs]) (by simp [leakArgs, SW.exArgs]) (by simp [leakArgs, SW.exArgs]) (by norm_num)]
  have : 0 < Real.sqrt (SW.g0 * ((13 / 4 + 3) / 2)) := Real.sqrt_pos.mpr (by norm_num [SW.g0])
  simp only [sub_self, mul_zero, zero_add, add_zero, Pi.zero_apply]
  intro h
  generalize Real.sqrt (SW.g0 * ((13 / 4 + 3) / 2)) = q at *
  have e : ((13 : ℝ) / 4 - 3) = 1 / 4 := by norm_num
  rw [e] at h
  linarith

/-! ### a mesh meeting the hypotheses: the strip of four triangles on two ranks, with real coordinates -/

/-- Node coordinates as real numbers. -/
noncomputable def realNode (node : Nat → ℚ × ℚ × ℚ × Nat) (k : Nat) : ℝ × ℝ × ℝ × Nat := (((node k).1 : ℝ), ((node k).2.1 : ℝ), ((node k).2.2.1 : ℝ), (node k).2.2.2)

theorem signedArea_real (node : Nat → ℚ × ℚ × ℚ × Nat) (a b c : Nat) :
    signedArea (pos (realNode node) a) (pos (realNode node) b) (pos (realNode node) c) = ((signedArea (pos node a) (pos node b) (pos node c) : ℚ) : ℝ) := by
  simp only [signedArea, pos, realNode]; push_cast; rfl

theorem validReal {nodeid : Nat → Nat → Nat} {node : Nat → ℚ × ℚ × ℚ × Nat} {nbnodes n : Nat} (h : ValidMesh2 nodeid node nbnodes n) :
    ValidMesh2 nodeid (realNode node) nbnodes n := by
  refine ⟨h.nodes, h.used, ?_, ?_, h.label⟩
  · intro c hc; rw [signedArea_real]; exact_mod_cast h.area c hc
  · intro c hc c' hc' hne a b x y h1 h2
    rw [signedArea_real, signedArea_real]
    exact_mod_cast h.opposite c hc c' hc' hne a b x y h1 h2

theorem realStripLaunched : ∃ data serial, Launched 3 exStrip (realNode stripNode) (centvol2 (realNode stripNode) exStrip) exN exE 6 4 2 data serial := by
  refine ⟨fun p => expected 2 p (rankWrite exStrip (realNode stripNode) (centvol2 (realNode stripNode) exStrip) (partition exStrip exN exE 6 4 3)
    (halos (partition exStrip exN exE 6 4 3).cpart (partition exStrip exN exE 6 4 3).haloCell 2) 6 2 3 p),
    expected 1 0 (serialWrite exStrip (realNode stripNode) 6 4 3), stripLaunched.hd, stripLaunched.hS, stripLaunched.he, stripLaunched.hok, stripLaunched.hused, stripLaunched.hnode, ?_, ?_⟩
  · exact fun p hp => C25_round_trip_parallel (K := ℝ) 2 p (by decide) _
  · exact C25_round_trip_serial (K := ℝ) _ _

theorem floor_real (m : Nat) : Int.floor (m : ℝ) = m := Int.floor_natCast m

/-- A closed basin with friction, Coriolis force and a tracer fixed on the sides. -/
noncomputable def basin : SSetup :=
  ⟨![fun _ => .neumann, fun _ => .nonslip, fun _ => .nonslip, fun _ => .dirichlet (fun x y _ => x + y), fun _ => .neumann], 1 / 2, 10, 0, 0, 1 / 50, 1 / 10, 1⟩

theorem basin_closed : ClosedBasin basin.bc := ⟨fun _ => rfl, fun _ => rfl, fun _ => rfl, fun _ => rfl⟩

theorem basin_quiet : QuietSides basin.bc := by
  refine ⟨fun _ => rfl, fun k hk loc => ?_, fun _ => rfl⟩
  simp only [List.mem_cons, List.not_mem_nil, or_false] at hk
  rcases hk with rfl | rfl <;> exact .inr (.inl rfl)

/-- C107 and C108 are about something: two ranks, a bottom that varies, water at the level 5 (C108), or moving (C107). -/
example : ∃ data W, mkWorld 2 2 data (fun p => build2 Real.sqrt Int.floor 2 (data p)) = some W ∧ ∀ N, ∃ s, swLoop W basin
    (swStart W basin ![fun x y _ => 1 + x * y, fun x _ _ => x, fun _ y _ => - y, fun _ _ _ => 2, fun x _ _ => x]) N = some s ∧
    totalOf W s 0 = totalOf W (swStart W basin ![fun x y _ => 1 + x * y, fun x _ _ => x, fun _ y _ => - y, fun _ _ _ => 2, fun x _ _ => x]) 0 := by
  obtain ⟨data, serial, h⟩ := realStripLaunched
  obtain ⟨W, e, hW⟩ := C107_closed_basin h (validReal stripValid) Real.sqrt (fun x hx => (Real.sqrt_pos.mpr hx).ne') Int.floor floor_real
  refine ⟨data, W, e, fun N => ?_⟩
  obtain ⟨s, e1, e2, _⟩ := hW basin rfl basin_closed _ N
  exact ⟨s, e1, e2⟩

theorem C108_start_at_rest (W : World ℝ) (S : SSetup) (z : ℝ → ℝ → ℝ → ℝ) (H : ℝ) (hz : ∀ x y t, z x y t < H) :
    AtRest W (swStart W S ![fun x y t => H - z x y t, fun _ _ _ => 0, fun _ _ _ => 0, fun _ _ _ => 2, z]) H := by
  intro p hp c hc
  refine ⟨?_, rfl, rfl, ?_⟩
  · show 0 < H - z _ _ _; have := hz ((W.D p).center c 0) ((W.D p).center c 1) ((W.D p).center c 2); linarith
  · show H - z _ _ _ + z _ _ _ = H; ring

example : ∃ data W, mkWorld 2 2 data (fun p => build2 Real.sqrt Int.floor 2 (data p)) = some W ∧ ∀ N, ∃ s, swLoop W basin
    (swStart W basin ![fun x _ _ => 5 - 1 / (1 + x ^ 2), fun _ _ _ => 0, fun _ _ _ => 0, fun _ _ _ => 2, fun x _ _ => 1 / (1 + x ^ 2)]) N = some s ∧
    ∀ p < 2, ∀ c < (W.D p).nbcells, (s.V 1 p).cell c = 0 := by
  obtain ⟨data, serial, h⟩ := realStripLaunched
  obtain ⟨W, e, hW⟩ := C108_lake_at_rest h (validReal stripValid) Real.sqrt (fun x hx => (Real.sqrt_pos.mpr hx).ne') Int.floor floor_real
  refine ⟨data, W, e, fun N => ?_⟩
  obtain ⟨s, e1, e2⟩ := hW basin rfl basin_quiet _ 5 (C108_start_at_rest W basin (fun x _ _ => 1 / (1 + x ^ 2)) 5 (fun x _ _ => by
    have : 1 / (1 + x ^ 2) ≤ 1 := by rw [div_le_one (by positivity)]; nlinarith [sq_nonneg x]
    linarith)) N
  exact ⟨s, e1, fun p hp c hc => e2 p hp c hc 1 (by decide)⟩

/-- C106 (order 1) on the strip. -/
example : ∃ data serial WL WG, mkWorld 2 2 data (fun p => build2 Real.sqrt Int.floor 2 (data p)) = some WL ∧
    mkWorld 2 1 (fun _ => serial) (fun _ => build2 Real.sqrt Int.floor 1 serial) = some WG ∧
    ∀ init N, ∃ s t, swLoop WL basin (swStart WL basin init) N = some s ∧ swLoop WG basin (swStart WG basin init) N = some t ∧ s.time = t.time := by
  obtain ⟨data, serial, h⟩ := realStripLaunched
  obtain ⟨WL, WG, e1, e2, hW⟩ := C106_first_order h (validReal stripValid) Real.sqrt Int.floor floor_real
  refine ⟨data, serial, WL, WG, e1, e2, fun init N => ?_⟩
  obtain ⟨s, t, a, b, c, _⟩ := hW basin rfl rfl rfl init N
  exact ⟨s, t, a, b, c⟩

/-- The hypotheses of C106 are met by the strip, with Neumann conditions on `h` and `hc`. -/
example : ∃ data serial, Launched 3 exStrip (realNode stripNode) (centvol2 (realNode stripNode) exStrip) exN exE 6 4 2 data serial ∧
    ValidMesh2 exStrip (realNode stripNode) 6 4 ∧ StarConnected 2 exStrip 4 ∧
    CornersOk 2 exStrip exE 4 (build2 Real.sqrt Int.floor 1 serial) (fun _ => BCond.neumann) := by
  obtain ⟨data, serial, h⟩ := realStripLaunched
  exact ⟨data, serial, h, validReal stripValid, run_star 2 4, fun _ _ _ _ _ => Or.inl rfl⟩

end Verif.Props.Par
