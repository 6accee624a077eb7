import Verif.Props.ParSWRun
import Verif.Props.ParInsul
import Verif.Props.RunFlow

/-! Helper lemmas for the shallow-water runs: an iteration on all ranks is one update of the whole mesh, whatever the gradients are. -/
set_option linter.unusedSectionVars false
set_option linter.unusedVariables false
set_option linter.unusedSimpArgs false
namespace Verif.Props.Par
open Verif.Fvm Verif.Spec Verif.Conn Verif.Dom Verif.Geo Verif.Names Verif.MeshFile Verif.Part Verif.Comm Verif.Run Verif.HaloGhost

theorem updateValues_cell {W : World ℝ} {bc : Int → BCond ℝ} {V V' : Nat → Vari ℝ} (h : updateValues W bc V = some V') (p : Nat) :
    (V' p).cell = (V p).cell := by
  unfold updateValues updateHaloValue at h
  rw [Option.map_map, Option.map_eq_some_iff] at h
  obtain ⟨H, _, rfl⟩ := h
  rfl

theorem updateAll_cell {W : World ℝ} {bc : Fin 5 → Int → BCond ℝ} {V V' : Fin 5 → Nat → Vari ℝ} (h : updateAll W bc V = some V') (k : Fin 5) (p : Nat) :
    (V' k p).cell = (V k p).cell := by
  unfold updateAll at h
  simp only [Option.bind_eq_some_iff, Option.map_eq_some_iff] at h
  obtain ⟨a, ha, b, hb, c, hc, d, hd, e, he, rfl⟩ := h
  fin_cases k
  exacts [updateValues_cell ha p, updateValues_cell hb p, updateValues_cell hc p, updateValues_cell hd p, updateValues_cell he p]

theorem frictionAll_cell {W : World ℝ} {S : SSetup} {dt : ℝ} {V V' : Fin 5 → Nat → Vari ℝ} (h : frictionAll W S dt V = some V') (k : Fin 5) (p i : Nat) :
    (V' k p).cell i = SW.friction (cellsOf (fun k => V k p) i) SW.g0 S.mann dt k := by
  unfold frictionAll at h
  simp only [Option.bind_eq_some_iff, Option.map_eq_some_iff] at h
  obtain ⟨a, ha, b, hb, rfl⟩ := h
  fin_cases k
  · rfl
  · exact congrFun (updateValues_cell ha p) i
  · exact congrFun (updateValues_cell hb p) i
  · rfl
  · rfl

/-- `new` is the result of one iteration on the mesh `G` from the cells `w`. -/
def SwStepOf (G : Tables ℝ) (S : SSetup) (dt : ℝ) (w new : Nat → SW.W5) : Prop :=
  ∃ (U : Fin 5 → Vari ℝ) (hG cG : Grads ℝ) (dis : Nat → ℝ),
    (∀ C < G.nbcells, cellsOf U C = SW.friction (w C) SW.g0 S.mann dt) ∧
    (∀ f ∈ G.boundaryfaces, ∀ k, (U k).ghost f = ghostVal G (U k).cell f (S.bc k (G.name f))) ∧
    (S.Dx = 0 → S.Dy = 0 → ∀ C < G.nbcells, dis C = 0) ∧
    ∀ C < G.nbcells, new C = swNew G S dt U hG cG dis C

theorem dissip_zero (D : Tables ℝ) (S : Setup ℝ) (g : Nat → Vec ℝ) (hx : S.Dxx = 0) (hy : S.Dyy = 0) (hz : S.Dzz = 0) (c : Nat) : dissip D S g c = 0 := by
  unfold dissip explicitschemeDissipative
  have : ∀ (l : List Nat) (z : Nat → ℝ), z c = 0 →
      l.foldl (dissipStep (fun f => g f 0) (fun f => g f 1) (fun f => g f 2) D.cellid D.normal D.name S.Dxx S.Dyy S.Dzz) z c = 0 := by
    intro l
    induction l with
    | nil => intro z hz; exact hz
    | cons x l ih =>
      intro z h0
      rw [List.foldl_cons]
      apply ih
      unfold dissipStep
      simp only [hx, hy, hz, zero_mul, add_zero]
      split <;> (simp only [addAt, subAt, add_zero, sub_zero, ite_self]; exact h0)
  exact this _ _ rfl

/-- The cells after the update. -/
noncomputable def swNews (W : World ℝ) (S : SSetup) (dt : ℝ) (V3 : Fin 5 → Nat → Vari ℝ) (hL cL : Nat → Grads ℝ) (fL : Nat → Nat → Vec ℝ) : Nat → Nat → SW.W5 :=
  fun p => swNew (W.D p) S dt (fun k => V3 k p) (hL p) (cL p) (dissip (W.D p) (swDiff S) (fL p))

theorem swStep_of {W : World ℝ} {S : SSetup} {s : SState} {V1 V2 V3 : Fin 5 → Nat → Vari ℝ} {hL cL : Nat → Grads ℝ} {V4 : Nat → Vari ℝ}
    {n4 : Nat → Nat → ℝ} {fL : Nat → Nat → Vec ℝ} {V5 : Nat → Vari ℝ} {n5 : Nat → Nat → ℝ} (e1 : updateAll W S.bc s.V = some V1)
    (e2 : frictionAll W S s.dt V1 = some V2) (e3 : gradsAll W S V2 = some (V3, hL, cL)) (e4 : faceGradient W (S.bc 3) (V3 3) = some (V4, n4, fL))
    (e5 : celltonode W (S.bc 0) (setCells ![V3 0, V3 1, V3 2, V4, V3 4] (swNews W S s.dt V3 hL cL fL) 0) = some (V5, n5)) :
    swStep W S s = some
      { V := ![V5, setCells ![V3 0, V3 1, V3 2, V4, V3 4] (swNews W S s.dt V3 hL cL fL) 1,
          setCells ![V3 0, V3 1, V3 2, V4, V3 4] (swNews W S s.dt V3 hL cL fL) 2, setCells ![V3 0, V3 1, V3 2, V4, V3 4] (swNews W S s.dt V3 hL cL fL) 3,
          setCells ![V3 0, V3 1, V3 2, V4, V3 4] (swNews W S s.dt V3 hL cL fL) 4]
        node := n5, dt := swTimeStep W S (swNews W S s.dt V3 hL cL fL), time := s.time + s.dt } := by
  unfold swStep
  rw [e1]
  simp only [Option.bind_some]
  rw [e2]
  simp only [Option.bind_some]
  rw [e3]
  simp only [Option.bind_some]
  rw [e4]
  simp only [Option.bind_some]
  exact congrArg _ e5

theorem celltonode_cell {W : World ℝ} {bc : Int → BCond ℝ} {V V' : Nat → Vari ℝ} {o : Nat → Nat → ℝ} (h : celltonode W bc V = some (V', o)) (p : Nat) :
    (V' p).cell = (V p).cell := by
  unfold celltonode at h
  rw [Option.map_eq_some_iff] at h
  obtain ⟨V1, h1, e⟩ := h
  have := updateValues_cell h1 p
  injection e with e1 e2
  rw [← e1]; exact this

theorem swStep_cells {V5 : Nat → Vari ℝ} {V : Fin 5 → Nat → Vari ℝ} {w : Nat → Nat → SW.W5} (h : ∀ p, (V5 p).cell = (setCells V w 0 p).cell) (p c : Nat) :
    cellsOf (fun k => (![V5, setCells V w 1, setCells V w 2, setCells V w 3, setCells V w 4] : Fin 5 → Nat → Vari ℝ) k p) c = w p c := by
  funext k
  fin_cases k
  · exact congrFun (h p) c
  · rfl
  · rfl
  · rfl
  · rfl

section
variable {nodeid : Nat → Nat → Nat} {node : Nat → ℝ × ℝ × ℝ × Nat} {cv : Nat → List ℝ} {npart0 epart : Nat → Nat}
  {nbnodes n SIZE : Nat} {data : Nat → RankData ℝ} {serial : RankData ℝ} {L : Nat → Tables ℝ} {G : Tables ℝ} {B : List Int}
  {out : Nat → Nat → Vec ℝ} {trunc : ℝ → Int}

/-- Some result of the ghost exchange: not used. -/
def noHG : Nat → HGResult ℝ := fun _ => ⟨fun _ => [], fun _ => [], fun _ => [], fun _ => [], 0⟩

theorem update_some (h : NodePair 2 nodeid node cv npart0 epart nbnodes n SIZE data serial L G B out trunc) (hgL : Nat → HGResult ℝ) (bc : Int → BCond ℝ)
    (V : Nat → Vari ℝ) : ∃ V', updateValues (parW 2 SIZE data L hgL) bc V = some V' := by
  obtain ⟨A, hA⟩ := h.run.glue (fun p => (V p).cell)
  obtain ⟨V', _, e, _⟩ := update_match h hgL noHG bc V (fun _ => ⟨A, fun _ => 0, fun _ => 0, []⟩) hA
  exact ⟨V', e⟩

theorem kok_ghost (h : NodePair 2 nodeid node cv npart0 epart nbnodes n SIZE data serial L G B out trunc) {hgL : Nat → HGResult ℝ} {bc : Int → BCond ℝ}
    {V U : Nat → Vari ℝ} (k : KOk 2 SIZE data L G hgL bc V U) : ∀ f ∈ G.boundaryfaces, (U 0).ghost f = ghostVal G (U 0).cell f (bc (G.name f)) := by
  intro f hf
  obtain ⟨g2, eg2⟩ := k.vG.ghost
  have h0 : 0 < SIZE := by have := h.run.hS; omega
  have R := h.run.rank 0 h0
  obtain ⟨f1, f2⟩ := (R.cG.bnd.2 f).mp hf
  show (U 0).fields.ghost f = _
  rw [eg2, updateGhosts_apply _ _ _ _ _ f1 (h.run.hB _ f2)]; rfl

theorem gradsAll_glue (h : NodePair 2 nodeid node cv npart0 epart nbnodes n SIZE data serial L G B out trunc) (hgL : Nat → HGResult ℝ)
    (S : SSetup) {V U : Fin 5 → Nat → Vari ℝ} (hm : ∀ k, KOk 2 SIZE data L G hgL (S.bc k) (V k) (U k)) :
    ∃ (V' : Fin 5 → Nat → Vari ℝ) (hL cL : Nat → Grads ℝ) (U' : Fin 5 → Nat → Vari ℝ) (hG cG : Grads ℝ),
      gradsAll (parW 2 SIZE data L hgL) S V = some (V', hL, cL) ∧ (∀ k, KOk 2 SIZE data L G hgL (S.bc k) (V' k) (U' k)) ∧ (∀ k p, (U' k p).cell = (U k p).cell) ∧
      (∀ p < SIZE, GradMatch (data p) (L p).nbcells (hL p) hG) ∧ ∀ p < SIZE, GradMatch (data p) (L p).nbcells (cL p) cG := by
  by_cases ho : S.order = 2
  · obtain ⟨V0, hL, U0, hG, e0, m0, _, d0, vL0, vG0, g0, _⟩ := cellGradient_glue h hgL noHG (S.bc 0) (V 0) (U 0) (hm 0).m
    obtain ⟨V3, cL, U3, cG, e3, m3, _, d3, vL3, vG3, g3, _⟩ := cellGradient_glue h hgL noHG (S.bc 3) (V 3) (U 3) (hm 3).m
    refine ⟨![V0, V 1, V 2, V3, V 4], hL, cL, ![U0, U 1, U 2, U3, U 4], hG, cG, ?_, ?_, ?_, g0, g3⟩
    · unfold gradsAll; rw [if_pos ho, e0, e3]; rfl
    · intro k
      fin_cases k
      exacts [⟨m0, vL0, vG0⟩, hm 1, hm 2, ⟨m3, vL3, vG3⟩, hm 4]
    · intro k p
      fin_cases k
      exacts [d0 p, rfl, rfl, d3 p, rfl]
  · refine ⟨V, fun _ => zeroGrads, fun _ => zeroGrads, U, zeroGrads, zeroGrads, ?_, hm, fun _ _ => rfl, ?_, ?_⟩
    · unfold gradsAll; rw [if_neg ho]
    · intro p hp; exact ⟨fun c hc => ⟨rfl, rfl, rfl, rfl⟩, fun k hk => ⟨rfl, rfl, rfl, rfl⟩⟩
    · intro p hp; exact ⟨fun c hc => ⟨rfl, rfl, rfl, rfl⟩, fun k hk => ⟨rfl, rfl, rfl, rfl⟩⟩

set_option maxHeartbeats 1000000 in
/-- One iteration on several processes: one update of the whole mesh. -/
theorem swStep_glue (h : NodePair 2 nodeid node cv npart0 epart nbnodes n SIZE data serial L G B out trunc) (ho : Outward G out)
    (hv : Vertex1 SIZE data L G) (hgL : Nat → HGResult ℝ) (S : SSetup) (s : SState) (w : Nat → SW.W5)
    (hw : ∀ p < SIZE, ∀ c < (L p).nbcells, cellsOf (fun k => s.V k p) c = w (phi (data p) c)) :
    ∃ s' new, swStep (parW 2 SIZE data L hgL) S s = some s' ∧ SwStepOf G S s.dt w new ∧ s'.time = s.time + s.dt ∧
      (∀ p < SIZE, ∀ c < (L p).nbcells, cellsOf (fun k => s'.V k p) c = new (phi (data p) c)) ∧
      s'.dt = SW.timeStep G.nbcells new S.cfl G.normal G.mesure G.volume G.faceid S.Dx S.Dy := by
  obtain ⟨V1, U1, e1, f1, k1⟩ := updateAll_match h hgL noHG S.bc (V := s.V) (U := fun k _ => ⟨fun i => w i k, fun _ => 0, fun _ => 0, []⟩)
    (fun k p hp c hc => congrFun (hw p hp c hc) k)
  obtain ⟨V2, U2, e2, f2, k2⟩ := frictionAll_match h hgL noHG S s.dt k1
  obtain ⟨V3, hL, cL, U3, hG, cG, e3, k3, d3, g1, g2⟩ := gradsAll_glue h hgL S k2
  obtain ⟨V4, e4⟩ := update_some h hgL (S.bc 3) (V3 3)
  obtain ⟨fL, hfL⟩ : ∃ fL : Nat → Nat → Vec ℝ, fL = fun p => faceGrads 2 (L p) (S.bc 3) (V4 p).fields
    (nodeValues 2 SIZE (data p) (L p) (hgL p) (V4 p).fields) := ⟨_, rfl⟩
  have e4' : faceGradient (parW 2 SIZE data L hgL) (S.bc 3) (V3 3) =
      some (V4, fun p => nodeValues 2 SIZE (data p) (L p) (hgL p) (V4 p).fields, fL) := by
    unfold faceGradient celltonode; rw [e4, hfL]; rfl
  obtain ⟨dG, hdG⟩ := h.run.glue (fun p => dissip (L p) (swDiff S) (fL p))
  have hcell : ∀ C k, (U3 k 0).cell C = SW.friction (w C) SW.g0 S.mann s.dt k := by
    intro C k
    rw [d3 k 0, frictionAll_cell f2 k 0 C]
    congr 1
    funext k
    exact congrFun (updateAll_cell f1 k 0) C
  have hnew : ∀ p < SIZE, ∀ c < (L p).nbcells, swNews (parW 2 SIZE data L hgL) S s.dt V3 hL cL fL p c =
      swNew G S s.dt (fun k => U3 k 0) hG cG dG (phi (data p) c) := fun p hp c hc =>
    swNew_match h ho hv S s.dt hp (smatch_of h S.bc k3 hp (g1 p hp) (g2 p hp)) _ _ (fun c hc => hdG p hp c hc) hc
  obtain ⟨V5, e5⟩ := update_some h hgL (S.bc 0) (setCells (![V3 0, V3 1, V3 2, V4, V3 4] : Fin 5 → Nat → Vari ℝ)
    (swNews (parW 2 SIZE data L hgL) S s.dt V3 hL cL fL) 0)
  have e5' : celltonode (parW 2 SIZE data L hgL) (S.bc 0) (setCells (![V3 0, V3 1, V3 2, V4, V3 4] : Fin 5 → Nat → Vari ℝ)
      (swNews (parW 2 SIZE data L hgL) S s.dt V3 hL cL fL) 0) =
      some (V5, fun p => nodeValues 2 SIZE (data p) (L p) (hgL p) (V5 p).fields) := by
    unfold celltonode; rw [e5]; rfl
  refine ⟨_, swNew G S s.dt (fun k => U3 k 0) hG cG dG, swStep_of e1 e2 e3 e4' e5',
    ⟨fun k => U3 k 0, hG, cG, dG, ?_, ?_, ?_, fun _ _ => rfl⟩, rfl, ?_, ?_⟩
  · intro C hC; funext k; exact hcell C k
  · intro f hf k; exact kok_ghost h (k3 k) f hf
  · intro hx hy C hC
    obtain ⟨p, hp, c, hc, rfl⟩ := h.run.owner (h.run.nG ▸ hC)
    rw [← hdG p hp c hc]
    exact dissip_zero _ _ _ hx hy rfl _
  · intro p hp c hc
    rw [swStep_cells (celltonode_cell e5') p c]
    exact hnew p hp c hc
  · refine (swdt_match h.run _ (swNew G S s.dt (fun k => U3 k 0) hG cG dG) S.cfl S.Dx S.Dy hnew).trans ?_
    unfold allreduceMin; simp

/-! ### one process -/

theorem serial_updateAll (serial : RankData ℝ) (G : Tables ℝ) (hgG : Nat → HGResult ℝ) (bc : Fin 5 → Int → BCond ℝ) (U : Fin 5 → Nat → Vari ℝ) :
    ∃ U', updateAll (serW 2 serial G hgG) bc U = some U' ∧ (∀ k p, (U' k p).cell = (U k p).cell) ∧ ∀ k p, ValuesG 2 G (bc k) (U' k p).fields := by
  obtain ⟨a, ea, ca, va⟩ := serial_update serial G hgG (bc 0) (U 0)
  obtain ⟨b, eb, cb, vb⟩ := serial_update serial G hgG (bc 1) (U 1)
  obtain ⟨c, ec, cc, vc⟩ := serial_update serial G hgG (bc 2) (U 2)
  obtain ⟨d, ed, cd, vd⟩ := serial_update serial G hgG (bc 3) (U 3)
  obtain ⟨e, ee, ce, ve⟩ := serial_update serial G hgG (bc 4) (U 4)
  refine ⟨![a, b, c, d, e], ?_, ?_, ?_⟩
  · unfold updateAll; rw [ea, eb, ec, ed, ee]; rfl
  · intro k p; fin_cases k; exacts [ca p, cb p, cc p, cd p, ce p]
  · intro k p; fin_cases k; exacts [va p, vb p, vc p, vd p, ve p]

theorem serial_frictionAll (serial : RankData ℝ) (G : Tables ℝ) (hgG : Nat → HGResult ℝ) (S : SSetup) (dt : ℝ) {U : Fin 5 → Nat → Vari ℝ}
    (hU : ∀ k p, ValuesG 2 G (S.bc k) (U k p).fields) :
    ∃ U', frictionAll (serW 2 serial G hgG) S dt U = some U' ∧ ∀ k p, ValuesG 2 G (S.bc k) (U' k p).fields := by
  have hc : ∀ p i, (SW.friction (cellsOf (fun k => U k p) i) SW.g0 S.mann dt) 0 = (U 0 p).cell i ∧
      (SW.friction (cellsOf (fun k => U k p) i) SW.g0 S.mann dt) 3 = (U 3 p).cell i ∧
      (SW.friction (cellsOf (fun k => U k p) i) SW.g0 S.mann dt) 4 = (U 4 p).cell i := fun p i => ⟨rfl, rfl, rfl⟩
  obtain ⟨b, eb, cb, vb⟩ := serial_update serial G hgG (S.bc 1) (setCells U (fun p i => SW.friction (cellsOf (fun k => U k p) i) SW.g0 S.mann dt) 1)
  obtain ⟨c, ec, cc, vc⟩ := serial_update serial G hgG (S.bc 2) (setCells U (fun p i => SW.friction (cellsOf (fun k => U k p) i) SW.g0 S.mann dt) 2)
  refine ⟨_, by unfold frictionAll; dsimp only; rw [eb, ec]; rfl, ?_⟩
  intro k p
  fin_cases k
  exacts [hU 0 p, vb p, vc p, hU 3 p, hU 4 p]

theorem serial_cellGradient (serial : RankData ℝ) (G : Tables ℝ) (hgG : Nat → HGResult ℝ) (bc : Int → BCond ℝ) (U : Nat → Vari ℝ) :
    ∃ U' g, cellGradient (serW 2 serial G hgG) bc U = some (U', g) ∧ (∀ p, (U' p).cell = (U p).cell) ∧ ∀ p, ValuesG 2 G bc (U' p).fields := by
  obtain ⟨a, ea, ca, va⟩ := serial_update serial G hgG bc U
  have : ∃ g, cellGradient (serW 2 serial G hgG) bc U = some (a, g) := by
    unfold cellGradient
    rw [ea]
    simp only [Option.bind_some]
    rw [exchange_serial, exchange_serial, exchange_serial, exchange_serial]
    exact ⟨_, rfl⟩
  obtain ⟨g, eg⟩ := this
  exact ⟨a, g, eg, ca, va⟩

theorem serial_gradsAll (serial : RankData ℝ) (G : Tables ℝ) (hgG : Nat → HGResult ℝ) (S : SSetup) {U : Fin 5 → Nat → Vari ℝ}
    (hU : ∀ k p, ValuesG 2 G (S.bc k) (U k p).fields) :
    ∃ (U' : Fin 5 → Nat → Vari ℝ) (hG cG : Nat → Grads ℝ), gradsAll (serW 2 serial G hgG) S U = some (U', hG, cG) ∧
      (∀ k p, (U' k p).cell = (U k p).cell) ∧ ∀ k p, ValuesG 2 G (S.bc k) (U' k p).fields := by
  by_cases ho : S.order = 2
  · obtain ⟨a, ga, ea, ca, va⟩ := serial_cellGradient serial G hgG (S.bc 0) (U 0)
    obtain ⟨d, gd, ed, cd, vd⟩ := serial_cellGradient serial G hgG (S.bc 3) (U 3)
    refine ⟨![a, U 1, U 2, d, U 4], ga, gd, ?_, ?_, ?_⟩
    · unfold gradsAll; rw [if_pos ho, ea, ed]; rfl
    · intro k p; fin_cases k; exacts [ca p, rfl, rfl, cd p, rfl]
    · intro k p; fin_cases k; exacts [va p, hU 1 p, hU 2 p, vd p, hU 4 p]
  · refine ⟨U, fun _ => zeroGrads, fun _ => zeroGrads, ?_, fun _ _ => rfl, hU⟩
    unfold gradsAll; rw [if_neg ho]

set_option maxHeartbeats 1000000 in
/-- One iteration on one process. -/
theorem swStep_serial (h : NodePair 2 nodeid node cv npart0 epart nbnodes n SIZE data serial L G B out trunc) (hgG : Nat → HGResult ℝ)
    (S : SSetup) (t : SState) :
    ∃ t', swStep (serW 2 serial G hgG) S t = some t' ∧
      SwStepOf G S t.dt (cellsOf (fun k => t.V k 0)) (cellsOf (fun k => t'.V k 0)) ∧ t'.time = t.time + t.dt ∧
      t'.dt = SW.timeStep G.nbcells (cellsOf (fun k => t'.V k 0)) S.cfl G.normal G.mesure G.volume G.faceid S.Dx S.Dy := by
  obtain ⟨U1, e1, c1, v1⟩ := serial_updateAll serial G hgG S.bc t.V
  obtain ⟨U2, e2, v2⟩ := serial_frictionAll serial G hgG S t.dt v1
  obtain ⟨U3, hG, cG, e3, d3, v3⟩ := serial_gradsAll serial G hgG S v2
  obtain ⟨U4, e4, _, _⟩ := serial_update serial G hgG (S.bc 3) (U3 3)
  obtain ⟨fG, hfG⟩ : ∃ fG : Nat → Nat → Vec ℝ, fG = fun p => faceGrads 2 G (S.bc 3) (U4 p).fields
    (nodeValues 2 1 serial G (hgG p) (U4 p).fields) := ⟨_, rfl⟩
  have e4' : faceGradient (serW 2 serial G hgG) (S.bc 3) (U3 3) =
      some (U4, fun p => nodeValues 2 1 serial G (hgG p) (U4 p).fields, fG) := by
    unfold faceGradient celltonode; rw [e4, hfG]; rfl
  obtain ⟨U5, e5, _, _⟩ := serial_update serial G hgG (S.bc 0) (setCells (![U3 0, U3 1, U3 2, U4, U3 4] : Fin 5 → Nat → Vari ℝ)
    (swNews (serW 2 serial G hgG) S t.dt U3 hG cG fG) 0)
  have e5' : celltonode (serW 2 serial G hgG) (S.bc 0) (setCells (![U3 0, U3 1, U3 2, U4, U3 4] : Fin 5 → Nat → Vari ℝ)
      (swNews (serW 2 serial G hgG) S t.dt U3 hG cG fG) 0) =
      some (U5, fun p => nodeValues 2 1 serial G (hgG p) (U5 p).fields) := by
    unfold celltonode; rw [e5]; rfl
  have hc : ∀ C, cellsOf (fun k => (![U5, setCells (![U3 0, U3 1, U3 2, U4, U3 4] : Fin 5 → Nat → Vari ℝ)
    (swNews (serW 2 serial G hgG) S t.dt U3 hG cG fG) 1, setCells (![U3 0, U3 1, U3 2, U4, U3 4] : Fin 5 → Nat → Vari ℝ)
    (swNews (serW 2 serial G hgG) S t.dt U3 hG cG fG) 2, setCells (![U3 0, U3 1, U3 2, U4, U3 4] : Fin 5 → Nat → Vari ℝ)
    (swNews (serW 2 serial G hgG) S t.dt U3 hG cG fG) 3, setCells (![U3 0, U3 1, U3 2, U4, U3 4] : Fin 5 → Nat → Vari ℝ)
    (swNews (serW 2 serial G hgG) S t.dt U3 hG cG fG) 4] : Fin 5 → Nat → Vari ℝ) k 0) C = swNews (serW 2 serial G hgG) S t.dt U3 hG cG fG 0 C :=
    fun C => swStep_cells (celltonode_cell e5') 0 C
  refine ⟨_, swStep_of e1 e2 e3 e4' e5', ⟨fun k => U3 k 0, hG 0, cG 0, dissip G (swDiff S) (fG 0), ?_, ?_, ?_, ?_⟩, rfl, ?_⟩
  · intro C hC
    funext k
    show (U3 k 0).cell C = _
    rw [d3 k 0, frictionAll_cell e2 k 0 C]
    congr 1
    funext k
    exact congrFun (c1 k 0) C
  · intro f hf k
    obtain ⟨g2, eg2⟩ := (v3 k 0).ghost
    have h0 : 0 < SIZE := by have := h.run.hS; omega
    have R := h.run.rank 0 h0
    obtain ⟨f1, f2⟩ := (R.cG.bnd.2 f).mp hf
    show (U3 k 0).fields.ghost f = _
    rw [eg2, updateGhosts_apply _ _ _ _ _ f1 (h.run.hB _ f2)]; rfl
  · intro hx hy C hC
    exact dissip_zero _ _ _ hx hy rfl _
  · intro C hC
    exact hc C
  · show swTimeStep (serW 2 serial G hgG) S _ = _
    have : (cellsOf fun k => (![U5, setCells (![U3 0, U3 1, U3 2, U4, U3 4] : Fin 5 → Nat → Vari ℝ)
    (swNews (serW 2 serial G hgG) S t.dt U3 hG cG fG) 1, setCells (![U3 0, U3 1, U3 2, U4, U3 4] : Fin 5 → Nat → Vari ℝ)
    (swNews (serW 2 serial G hgG) S t.dt U3 hG cG fG) 2, setCells (![U3 0, U3 1, U3 2, U4, U3 4] : Fin 5 → Nat → Vari ℝ)
    (swNews (serW 2 serial G hgG) S t.dt U3 hG cG fG) 3, setCells (![U3 0, U3 1, U3 2, U4, U3 4] : Fin 5 → Nat → Vari ℝ)
    (swNews (serW 2 serial G hgG) S t.dt U3 hG cG fG) 4] : Fin 5 → Nat → Vari ℝ) k 0) = swNews (serW 2 serial G hgG) S t.dt U3 hG cG fG 0 := funext hc
    rw [this]
    unfold swTimeStep allreduceMin
    simp [serW]

/-! ### whole runs -/

/-- What one iteration of the loop of the whole mesh preserves, the loop on several processes preserves. -/
theorem swLoop_inv (h : NodePair 2 nodeid node cv npart0 epart nbnodes n SIZE data serial L G B out trunc) (ho : Outward G out)
    (hv : Vertex1 SIZE data L G) (hgL : Nat → HGResult ℝ) (S : SSetup) (P : (Nat → SW.W5) → Prop)
    (hP : ∀ dt w new, SwStepOf G S dt w new → P w → P new) (s : SState) (w : Nat → SW.W5)
    (hw : ∀ p < SIZE, ∀ c < (L p).nbcells, cellsOf (fun k => s.V k p) c = w (phi (data p) c)) (h0 : P w) (N : Nat) :
    ∃ s' new, swLoop (parW 2 SIZE data L hgL) S s N = some s' ∧ P new ∧
      ∀ p < SIZE, ∀ c < (L p).nbcells, cellsOf (fun k => s'.V k p) c = new (phi (data p) c) := by
  induction N with
  | zero => exact ⟨s, w, rfl, h0, hw⟩
  | succ N ih =>
    obtain ⟨s1, w1, e1, p1, m1⟩ := ih
    simp only [swLoop, e1, Option.bind_some]
    by_cases ht : s1.time < S.tfinal
    · obtain ⟨s2, w2, e2, q2, _, m2, _⟩ := swStep_glue h ho hv hgL S s1 w1 m1
      exact ⟨s2, w2, by rw [if_pos ht, e2], hP _ _ _ q2 p1, m2⟩
    · exact ⟨s1, w1, by rw [if_neg ht], p1, m1⟩

theorem swLoop_serial_inv (h : NodePair 2 nodeid node cv npart0 epart nbnodes n SIZE data serial L G B out trunc)
    (hgG : Nat → HGResult ℝ) (S : SSetup) (P : (Nat → SW.W5) → Prop) (hP : ∀ dt w new, SwStepOf G S dt w new → P w → P new) (t : SState)
    (h0 : P (cellsOf (fun k => t.V k 0))) (N : Nat) :
    ∃ t', swLoop (serW 2 serial G hgG) S t N = some t' ∧ P (cellsOf (fun k => t'.V k 0)) := by
  induction N with
  | zero => exact ⟨t, rfl, h0⟩
  | succ N ih =>
    obtain ⟨t1, e1, p1⟩ := ih
    simp only [swLoop, e1, Option.bind_some]
    by_cases ht : t1.time < S.tfinal
    · obtain ⟨t2, e2, q2, _, _⟩ := swStep_serial h hgG S t1
      exact ⟨t2, by rw [if_pos ht, e2], hP _ _ _ q2 p1⟩
    · exact ⟨t1, by rw [if_neg ht], p1⟩

end
end Verif.Props.Par
