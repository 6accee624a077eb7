import Verif.Props.SWLake

/-! Helper lemmas: the first-order shallow-water iteration without dispersion depends on the cells only (towards C106). -/
set_option linter.unusedSectionVars false
set_option linter.unusedSimpArgs false
set_option linter.unusedVariables false
namespace Verif.Props.Par
open Verif Verif.Dom Verif.Fvm Verif.Geo Verif.MeshFile Verif.HaloGhost Verif.Run Verif.Spec Verif.Conn

section
variable {L G : Tables ℝ} {φ : Nat → Nat} {mine : Nat → Prop} {ext : List (List Nat)} {B : List Int} {out : Nat → Nat → Vec ℝ}

/-- The whole mesh as its own part. -/
theorem RankOf.self {d1 : Nat} (h : RankOf L G d1 φ mine ext B out) : RankOf G G d1 id (fun _ => True) [] B out where
  sub := ⟨fun c hc => ⟨hc, trivial⟩, fun c c' h _ => h, fun C hC _ => ⟨C, hC, rfl⟩, fun _ _ _ _ _ _ _ _ => Iff.rfl, h.sub.two⟩
  cL := h.cG
  cG := h.cG
  center := fun _ _ _ _ => rfl
  fcenter := fun _ _ _ _ _ _ => rfl
  normalL := h.normalG
  normalG := h.normalG
  opp := h.opp
  nameG := h.nameG
  nameL := fun c hc j hj => ⟨fun ⟨_, _, hE, _⟩ => absurd trivial hE, fun _ => ⟨(h.nameG _ (h.cG.flt c hc j hj)).1, fun _ => rfl⟩⟩
  centvol := fun k row E h => by simp at h

/-- At order 1 the gradients are not read. -/
theorem conv_order1 (D : Tables ℝ) (V : Fin 5 → Vari ℝ) (gh gc gh' gc' : Grads ℝ) : (swArgs D V gh gc 1).convective = (swArgs D V gh' gc' 1).convective := by
  have e : ∀ (a : SW.Args), a.order = 1 → ∀ w hx hy hcx hcy psi x i, a.recon w hx hy hcx hcy psi x i = w := by
    intro a ho w hx hy hcx hcy psi x i
    funext k
    unfold SW.Args.recon
    rw [ho]
    fin_cases k <;> simp
  have e1 : (swArgs D V gh gc 1).fromCell = (swArgs D V gh' gc' 1).fromCell := by
    funext c i
    exact (e _ rfl _ _ _ _ _ _ _ _).trans (e _ rfl _ _ _ _ _ _ _ _).symm
  have e2 : (swArgs D V gh gc 1).fromHalo = (swArgs D V gh' gc' 1).fromHalo := by
    funext c i
    exact (e _ rfl _ _ _ _ _ _ _ _).trans (e _ rfl _ _ _ _ _ _ _ _).symm
  have i1 : SW.innerFlux (swArgs D V gh gc 1) = SW.innerFlux (swArgs D V gh' gc' 1) := by
    funext i; unfold SW.innerFlux; rw [e1]; rfl
  have i2 : SW.haloFlux (swArgs D V gh gc 1) = SW.haloFlux (swArgs D V gh' gc' 1) := by
    funext i; unfold SW.haloFlux; rw [e1, e2]; rfl
  have i3 : SW.boundaryFlux (swArgs D V gh gc 1) = SW.boundaryFlux (swArgs D V gh' gc' 1) := by
    funext i; unfold SW.boundaryFlux; rw [e1]; rfl
  funext c
  rw [SW.convective_eq, SW.convective_eq, i1, i2, i3]
  rfl

/-- One iteration at order 1 without dispersion is a function of the cells and the time step. -/
theorem swStep_unique (R : RankOf L G 3 φ mine ext B out) (ho : Outward G out) {S : SSetup} (h1 : S.order = 1) (hx : S.Dx = 0) (hy : S.Dy = 0) {dt : ℝ}
    {w new w' new' : Nat → SW.W5} (h : SwStepOf G S dt w new) (h' : SwStepOf G S dt w' new') (hw : ∀ C < G.nbcells, w C = w' C) {C : Nat}
    (hC : C < G.nbcells) : new C = new' C := by
  obtain ⟨U, hG, cG, dis, u1, u2, u3, u4⟩ := h
  obtain ⟨U', hG', cG', dis', u1', u2', u3', u4'⟩ := h'
  have hcell : ∀ c < G.nbcells, ∀ i, (U i).cell c = (U' i).cell c := by
    intro c hc i
    have : cellsOf U c = cellsOf U' c := by rw [u1 c hc, u1' c hc, hw c hc]
    exact congrFun this i
  have m : SMatch G G 3 id [] U U' zeroGrads zeroGrads zeroGrads zeroGrads := by
    refine ⟨hcell, fun k row E h => by simp at h, fun _ _ => ⟨rfl, rfl, rfl, rfl, rfl⟩, fun k row E h => by simp at h, ?_, fun _ _ _ _ => rfl⟩
    intro c hc j hj hb i
    show (U i).ghost (G.faceid c j) = (U' i).ghost (G.faceid c j)
    obtain ⟨a, ha, e⟩ := R.first_lt ((R.cG.bnd.2 _).mp hb).1
    have hi0 : (U i).cell (idx (G.cellid (G.faceid c j) 0)) = (U' i).cell (idx (G.cellid (G.faceid c j) 0)) := by
      rw [e]; simpa [idx] using hcell a ha i
    rw [u2 _ hb i, u2' _ hb i]
    cases S.bc i (G.name (G.faceid c j)) with
    | neumann => exact hi0
    | nonslip => show -1 * _ = -1 * _; rw [hi0]
    | dirichlet v => rfl
  have ec : (swArgs G U hG cG 1).convective C = (swArgs G U' hG' cG' 1).convective C := by
    rw [conv_order1 G U hG cG zeroGrads zeroGrads, conv_order1 G U' hG' cG' zeroGrads zeroGrads]
    exact m.conv R.self 1 hC
  have es := m.source R.self ho (fun _ _ _ _ => rfl) 1 hC
  have e : (swArgs G U hG cG 1).c C = (swArgs G U' hG' cG' 1).c C := funext fun i => hcell C hC i
  rw [u4 C hC, u4' C hC]
  unfold swNew
  rw [h1, ec, u3 hx hy C hC, u3' hx hy C hC, e]
  exact congrArg (fun x => SW.updateCell ((swArgs G U' hG' cG' 1).c C) ((swArgs G U' hG' cG' 1).convective C) x 0
    (SW.coriolis ((swArgs G U' hG' cG' 1).c C) S.fc) (0, 0) dt (G.volume C)) es

end
section
variable {nodeid : Nat → Nat → Nat} {node : Nat → ℝ × ℝ × ℝ × Nat} {cv : Nat → List ℝ} {npart0 epart : Nat → Nat}
  {nbnodes n SIZE : Nat} {data : Nat → RankData ℝ} {serial : RankData ℝ} {L : Nat → Tables ℝ} {G : Tables ℝ} {B : List Int}
  {out : Nat → Nat → Vec ℝ} {trunc : ℝ → Int}

/-- Cells, time and time step of both runs agree. -/
structure SwCells (SIZE : Nat) (data : Nat → RankData ℝ) (L : Nat → Tables ℝ) (s t : SState) : Prop where
  cell : ∀ p < SIZE, ∀ c < (L p).nbcells, cellsOf (fun k => s.V k p) c = cellsOf (fun k => t.V k 0) (phi (data p) c)
  dt : s.dt = t.dt
  time : s.time = t.time

theorem timeStep_cells (D : Tables ℝ) (w w' : Nat → SW.W5) (cfl Dx Dy : ℝ) (h : ∀ C < D.nbcells, w C = w' C) :
    SW.timeStep D.nbcells w cfl D.normal D.mesure D.volume D.faceid Dx Dy = SW.timeStep D.nbcells w' cfl D.normal D.mesure D.volume D.faceid Dx Dy := by
  have : ∀ C < D.nbcells, SW.cellLam w D.normal D.mesure D.volume D.faceid Dx Dy C = SW.cellLam w' D.normal D.mesure D.volume D.faceid Dx Dy C := by
    intro C hC
    unfold SW.cellLam
    rw [h C hC]
  apply le_antisymm
  · rw [le_swTimeStep]
    have := (le_swTimeStep D w cfl Dx Dy _).mp le_rfl
    exact ⟨this.1, fun c hc => by rename_i a; rw [← a c hc]; exact this.2 c hc⟩
  · rw [le_swTimeStep]
    have := (le_swTimeStep D w' cfl Dx Dy _).mp le_rfl
    exact ⟨this.1, fun c hc => by rename_i a; rw [a c hc]; exact this.2 c hc⟩

theorem swStep_first (h : NodePair 2 nodeid node cv npart0 epart nbnodes n SIZE data serial L G B out trunc) (ho : Outward G out)
    (hv : Vertex1 SIZE data L G) (hgL hgG : Nat → HGResult ℝ) (S : SSetup) (h1 : S.order = 1) (hx : S.Dx = 0) (hy : S.Dy = 0) (s t : SState)
    (hm : SwCells SIZE data L s t) :
    ∃ s' t', swStep (parW 2 SIZE data L hgL) S s = some s' ∧ swStep (serW 2 serial G hgG) S t = some t' ∧ SwCells SIZE data L s' t' := by
  have R := h.run.rank 0 (by have := h.run.hS; omega)
  obtain ⟨s', new, e1, q1, t1, c1, d1⟩ := swStep_glue h ho hv hgL S s _ hm.cell
  obtain ⟨t', e2, q2, t2, d2⟩ := swStep_serial h hgG S t
  rw [hm.dt] at q1
  have hnew : ∀ C < G.nbcells, new C = cellsOf (fun k => t'.V k 0) C := fun C hC => swStep_unique R ho h1 hx hy q1 q2 (fun _ _ => rfl) hC
  refine ⟨s', t', e1, e2, fun p hp c hc => ?_, ?_, ?_⟩
  · rw [c1 p hp c hc]; exact hnew _ ((h.run.rank p hp).sub.lt c hc).1
  · rw [d1, d2]; exact timeStep_cells G _ _ _ _ _ hnew
  · rw [t1, t2, hm.time, hm.dt]

theorem swLoop_first (h : NodePair 2 nodeid node cv npart0 epart nbnodes n SIZE data serial L G B out trunc) (ho : Outward G out)
    (hv : Vertex1 SIZE data L G) (hgL hgG : Nat → HGResult ℝ) (S : SSetup) (h1 : S.order = 1) (hx : S.Dx = 0) (hy : S.Dy = 0) (s t : SState)
    (hm : SwCells SIZE data L s t) (N : Nat) :
    ∃ s' t', swLoop (parW 2 SIZE data L hgL) S s N = some s' ∧ swLoop (serW 2 serial G hgG) S t N = some t' ∧ SwCells SIZE data L s' t' := by
  induction N with
  | zero => exact ⟨s, t, rfl, rfl, hm⟩
  | succ N ih =>
    obtain ⟨s1, t1, e1, e2, m1⟩ := ih
    simp only [swLoop, e1, e2, Option.bind_some]
    rw [m1.time]
    by_cases ht : t1.time < S.tfinal
    · simp only [if_pos ht]; exact swStep_first h ho hv hgL hgG S h1 hx hy s1 t1 m1
    · simp only [if_neg ht]; exact ⟨s1, t1, rfl, rfl, m1⟩

end
end Verif.Props.Par
