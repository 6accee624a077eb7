import Verif.Props.ParSW
import Verif.Props.ParNodePair2

/-! Helper lemmas: a shallow-water run on several processes against the serial run. -/
set_option linter.unusedSectionVars false
set_option linter.unusedVariables false
set_option linter.unusedSimpArgs false
namespace Verif.Props.Par
open Verif.Fvm Verif.Spec Verif.Conn Verif.Dom Verif.Geo Verif.Names Verif.MeshFile Verif.Part Verif.Comm Verif.Run Verif.HaloGhost

/-! ### geometry -/

theorem outward2 (sqrt : ℝ → ℝ) (trunc : ℝ → Int) (size : Nat) (d : RankData ℝ) (hne : ∀ c < d.nodeid.length, NonFlat d c) :
    Outward (build2 sqrt trunc size d) (out2 d) := by
  refine ⟨fun C hC j hj => ?_⟩
  have hC' : C < d.nodeid.length := hC
  have ht := tst_side_ne d hC' (hne C hC') hj
  rw [fcenter_side2 sqrt trunc size d hC' hj, center_build2 sqrt trunc size d hC']
  unfold out2
  rw [orientedNormal2_eq]
  set g := center2 (vtx d) (row2 d C).1 (row2 d C).2.1 (row2 d C).2.2 with hg
  unfold tst at ht ⊢
  have z : rawNormal2 (vtx d) (sA d C j) (sB d C j) 2 = 0 := rfl
  split
  · rename_i hpos
    dsimp only
    rw [z]; linarith
  · rename_i hneg
    rw [z]
    rcases lt_or_eq_of_le (not_lt.mp hneg) with h | h
    · linarith
    · exact absurd h ht

section
variable {nodeid : Nat → Nat → Nat} {node : Nat → ℝ × ℝ × ℝ × Nat} {cv : Nat → List ℝ} {npart0 epart : Nat → Nat}
  {nbnodes n SIZE : Nat} {data : Nat → RankData ℝ} {serial : RankData ℝ} {L : Nat → Tables ℝ} {G : Tables ℝ} {B : List Int}
  {out : Nat → Nat → Vec ℝ} {trunc : ℝ → Int}

/-- Second vertices of the cells. -/
def Vertex1 (SIZE : Nat) (data : Nat → RankData ℝ) (L : Nat → Tables ℝ) (G : Tables ℝ) : Prop :=
  ∀ p < SIZE, ∀ c < (L p).nbcells, ∀ k < 2, (L p).vertex ((L p).cnode c 1) k = G.vertex (G.cnode (phi (data p) c) 1) k

/-! ### one step -/

/-- Variable `V` of the parallel run is variable `U` of the serial run, halo and ghosts up to date. -/
structure KOk (dim SIZE : Nat) (data : Nat → RankData ℝ) (L : Nat → Tables ℝ) (G : Tables ℝ) (hgL : Nat → HGResult ℝ) (bc : Int → BCond ℝ) (V U : Nat → Vari ℝ) :
    Prop where
  m : VMatch SIZE data L V U
  vL : ∀ p < SIZE, ValuesOk dim SIZE data L G (U 0).fields.c bc p (hgL p) (V p).fields
  vG : ValuesG dim G bc (U 0).fields

variable {hgL hgG : Nat → HGResult ℝ}

theorem kok_update (h : NodePair 2 nodeid node cv npart0 epart nbnodes n SIZE data serial L G B out trunc) (hgL hgG : Nat → HGResult ℝ)
    (bc : Int → BCond ℝ) {V U : Nat → Vari ℝ} (hm : VMatch SIZE data L V U) :
    ∃ V' U', updateValues (parW 2 SIZE data L hgL) bc V = some V' ∧ updateValues (serW 2 serial G hgG) bc U = some U' ∧
      KOk 2 SIZE data L G hgL bc V' U' := by
  obtain ⟨V', U', e1, e2, m, _, _, vL, vG⟩ := update_match h hgL hgG bc V U hm
  exact ⟨V', U', e1, e2, m, vL, vG⟩

theorem updateAll_match (h : NodePair 2 nodeid node cv npart0 epart nbnodes n SIZE data serial L G B out trunc) (hgL hgG : Nat → HGResult ℝ)
    (bc : Fin 5 → Int → BCond ℝ) {V U : Fin 5 → Nat → Vari ℝ} (hm : ∀ k, VMatch SIZE data L (V k) (U k)) :
    ∃ V' U', updateAll (parW 2 SIZE data L hgL) bc V = some V' ∧ updateAll (serW 2 serial G hgG) bc U = some U' ∧
      ∀ k, KOk 2 SIZE data L G hgL (bc k) (V' k) (U' k) := by
  obtain ⟨a, a', e0, f0, k0⟩ := kok_update h hgL hgG (bc 0) (hm 0)
  obtain ⟨b, b', e1, f1, k1⟩ := kok_update h hgL hgG (bc 1) (hm 1)
  obtain ⟨c, c', e2, f2, k2⟩ := kok_update h hgL hgG (bc 2) (hm 2)
  obtain ⟨d, d', e3, f3, k3⟩ := kok_update h hgL hgG (bc 3) (hm 3)
  obtain ⟨e, e', e4, f4, k4⟩ := kok_update h hgL hgG (bc 4) (hm 4)
  refine ⟨![a, b, c, d, e], ![a', b', c', d', e'], ?_, ?_, ?_⟩
  · unfold updateAll; rw [e0, e1, e2, e3, e4]; rfl
  · unfold updateAll; rw [f0, f1, f2, f3, f4]; rfl
  · intro k
    fin_cases k
    exacts [k0, k1, k2, k3, k4]

/-- `hu`, `hv` are the only components changed by the friction. -/
theorem friction_other (c : SW.W5) (g eta dt : ℝ) : SW.friction c g eta dt 0 = c 0 ∧ SW.friction c g eta dt 3 = c 3 ∧ SW.friction c g eta dt 4 = c 4 := by
  refine ⟨?_, ?_, ?_⟩ <;> rfl

theorem cellsOf_match {V U : Fin 5 → Nat → Vari ℝ} (hm : ∀ k, VMatch SIZE data L (V k) (U k)) {p : Nat} (hp : p < SIZE) {c : Nat} (hc : c < (L p).nbcells) :
    cellsOf (fun k => V k p) c = cellsOf (fun k => U k 0) (phi (data p) c) := by
  funext k; exact hm k p hp c hc

theorem frictionAll_match (h : NodePair 2 nodeid node cv npart0 epart nbnodes n SIZE data serial L G B out trunc) (hgL hgG : Nat → HGResult ℝ)
    (S : SSetup) (dt : ℝ) {V U : Fin 5 → Nat → Vari ℝ} (hm : ∀ k, KOk 2 SIZE data L G hgL (S.bc k) (V k) (U k)) :
    ∃ V' U', frictionAll (parW 2 SIZE data L hgL) S dt V = some V' ∧ frictionAll (serW 2 serial G hgG) S dt U = some U' ∧
      ∀ k, KOk 2 SIZE data L G hgL (S.bc k) (V' k) (U' k) := by
  have hc := fun p hp c hc => cellsOf_match (fun k => (hm k).m) (p := p) hp (c := c) hc
  have fm : ∀ k, VMatch SIZE data L (setCells V (fun p i => SW.friction (cellsOf (fun k => V k p) i) SW.g0 S.mann dt) k)
      (setCells U (fun p i => SW.friction (cellsOf (fun k => U k p) i) SW.g0 S.mann dt) k) := by
    intro k p hp c hc'
    show SW.friction _ _ _ _ k = SW.friction _ _ _ _ k
    rw [hc p hp c hc']
  have hid : ∀ (V : Fin 5 → Nat → Vari ℝ) k, (k = 0 ∨ k = 3 ∨ k = 4) →
      setCells V (fun p i => SW.friction (cellsOf (fun k => V k p) i) SW.g0 S.mann dt) k = V k := by
    intro V k hk
    funext p
    unfold setCells
    have : ∀ i, SW.friction (cellsOf (fun k => V k p) i) SW.g0 S.mann dt k = (V k p).cell i := by
      intro i
      obtain ⟨a, b, c⟩ := friction_other (cellsOf (fun k => V k p) i) SW.g0 S.mann dt
      rcases hk with rfl | rfl | rfl
      · exact a
      · exact b
      · exact c
    simp only [this]
  obtain ⟨b, b', e1, f1, k1⟩ := kok_update h hgL hgG (S.bc 1) (fm 1)
  obtain ⟨c, c', e2, f2, k2⟩ := kok_update h hgL hgG (S.bc 2) (fm 2)
  refine ⟨![V 0, b, c, V 3, V 4], ![U 0, b', c', U 3, U 4], ?_, ?_, ?_⟩
  · unfold frictionAll; dsimp only; rw [e1, e2, hid V 0 (by simp), hid V 3 (by simp), hid V 4 (by simp)]; rfl
  · unfold frictionAll; dsimp only; rw [f1, f2, hid U 0 (by simp), hid U 3 (by simp), hid U 4 (by simp)]; rfl
  · intro k
    fin_cases k
    exacts [hm 0, k1, k2, hm 3, hm 4]

theorem gradsAll_match (h : NodePair 2 nodeid node cv npart0 epart nbnodes n SIZE data serial L G B out trunc)
    (sL : ∀ p < SIZE, ∃ rows, HGSpec 2 SIZE data L p (hgL p) rows) (sG : HGSerial 2 G nbnodes (hgG 0))
    (S : SSetup) (so : S.order = 2 → StencilOk 2 nodeid epart n G (S.bc 0) ∧ StencilOk 2 nodeid epart n G (S.bc 3))
    {V U : Fin 5 → Nat → Vari ℝ} (hm : ∀ k, KOk 2 SIZE data L G hgL (S.bc k) (V k) (U k)) :
    ∃ V' hL cL U' hG cG, gradsAll (parW 2 SIZE data L hgL) S V = some (V', hL, cL) ∧ gradsAll (serW 2 serial G hgG) S U = some (U', hG, cG) ∧
      (∀ k, KOk 2 SIZE data L G hgL (S.bc k) (V' k) (U' k)) ∧
      (∀ p < SIZE, GradMatch (data p) (L p).nbcells (hL p) (hG 0)) ∧ ∀ p < SIZE, GradMatch (data p) (L p).nbcells (cL p) (cG 0) := by
  by_cases ho : S.order = 2
  · obtain ⟨s0, s3⟩ := so ho
    obtain ⟨V0, hL, U0, hG, e0, f0, m0, _, _, vL0, vG0, g0⟩ := cellGradient_match h sL sG (S.bc 0) s0 (V 0) (U 0) (hm 0).m
    obtain ⟨V3, cL, U3, cG, e3, f3, m3, _, _, vL3, vG3, g3⟩ := cellGradient_match h sL sG (S.bc 3) s3 (V 3) (U 3) (hm 3).m
    refine ⟨![V0, V 1, V 2, V3, V 4], hL, cL, ![U0, U 1, U 2, U3, U 4], hG, cG, ?_, ?_, ?_, g0, g3⟩
    · unfold gradsAll; rw [if_pos ho, e0, e3]; rfl
    · unfold gradsAll; rw [if_pos ho, f0, f3]; rfl
    · intro k
      fin_cases k
      exacts [⟨m0, vL0, vG0⟩, hm 1, hm 2, ⟨m3, vL3, vG3⟩, hm 4]
  · refine ⟨V, fun _ => zeroGrads, fun _ => zeroGrads, U, fun _ => zeroGrads, fun _ => zeroGrads, ?_, ?_, hm, ?_, ?_⟩
    · unfold gradsAll; rw [if_neg ho]
    · unfold gradsAll; rw [if_neg ho]
    · intro p hp; exact ⟨fun c hc => ⟨rfl, rfl, rfl, rfl⟩, fun k hk => ⟨rfl, rfl, rfl, rfl⟩⟩
    · intro p hp; exact ⟨fun c hc => ⟨rfl, rfl, rfl, rfl⟩, fun k hk => ⟨rfl, rfl, rfl, rfl⟩⟩

theorem smatch_of (h : NodePair 2 nodeid node cv npart0 epart nbnodes n SIZE data serial L G B out trunc) (bc : Fin 5 → Int → BCond ℝ)
    {V U : Fin 5 → Nat → Vari ℝ} (hm : ∀ k, KOk 2 SIZE data L G hgL (bc k) (V k) (U k)) {p : Nat} (hp : p < SIZE) {hL cL hG cG : Grads ℝ}
    (g1 : GradMatch (data p) (L p).nbcells hL hG) (g2 : GradMatch (data p) (L p).nbcells cL cG) :
    SMatch (L p) G 3 (phi (data p)) (data p).halosext (fun k => V k p) (fun k => U k 0) hL cL hG cG := by
  have R := h.run.rank p hp
  have hext : ∀ (k : Nat) row E, (data p).halosext[k]? = some row → row.head? = some E → k < (data p).halosext.length ∧ ext0 (data p) k = E := by
    intro k row E hk hE
    have hkl : k < (data p).halosext.length := (List.getElem?_eq_some_iff.mp hk).1
    have e0 := (h.hl.ext_get hp hkl).1
    rw [hk] at e0
    refine ⟨hkl, ?_⟩
    injection e0 with e0
    rw [e0] at hE
    simpa using hE
  refine ⟨fun c hc i => (hm i).m p hp c hc, ?_, ?_, ?_, ?_, ?_⟩
  · intro k row E hk hE _ i
    obtain ⟨hkl, rfl⟩ := hext k row E hk hE
    exact ((hm i).vL p hp).halo k hkl
  · intro c hc
    obtain ⟨a1, a2, _, _⟩ := g1.cell c hc
    obtain ⟨b1, b2, _, b4⟩ := g2.cell c hc
    exact ⟨a1, a2, b1, b2, b4⟩
  · intro k row E hk hE _
    obtain ⟨hkl, rfl⟩ := hext k row E hk hE
    obtain ⟨a1, a2, _, _⟩ := g1.halo k hkl
    obtain ⟨b1, b2, _, b4⟩ := g2.halo k hkl
    exact ⟨a1, a2, b1, b2, b4⟩
  · intro c hc j hj hb i
    obtain ⟨e1, e2, _, _⟩ := R.boundary hc hj hb
    obtain ⟨g1, eg1⟩ := ((hm i).vL p hp).ghost
    obtain ⟨g2, eg2⟩ := (hm i).vG.ghost
    show (V i p).fields.ghost _ = (U i 0).fields.ghost _
    rw [eg1, eg2, updateGhosts_apply _ _ _ _ _ (R.cL.flt c hc j hj) (h.run.hB _ e2),
      updateGhosts_apply _ _ _ _ _ (R.cG.flt _ (R.sub.lt c hc).1 j hj) (h.run.hB _ (e1 ▸ e2)), ← e1]
    exact ghostVal_match h.run hp _ _ ((hm i).vL p hp).cell hc hj hb _
  · intro c hc j hj
    exact h.run.mesure p hp c hc j hj

theorem swNew_match (h : NodePair 2 nodeid node cv npart0 epart nbnodes n SIZE data serial L G B out trunc) (ho : Outward G out)
    (hv : Vertex1 SIZE data L G) (S : SSetup) (dt : ℝ) {p : Nat} (hp : p < SIZE) {VL VG : Fin 5 → Vari ℝ} {hL cL hG cG : Grads ℝ}
    (m : SMatch (L p) G 3 (phi (data p)) (data p).halosext VL VG hL cL hG cG) (dL dG : Nat → ℝ)
    (hd : ∀ c < (L p).nbcells, dL c = dG (phi (data p) c)) {c : Nat} (hc : c < (L p).nbcells) :
    swNew (L p) S dt VL hL cL dL c = swNew G S dt VG hG cG dG (phi (data p) c) := by
  have R := h.run.rank p hp
  unfold swNew
  rw [m.conv R S.order hc, m.source R ho (hv p hp) S.order hc, hd c hc, h.run.volume p hp c hc]
  have e : (swArgs (L p) VL hL cL S.order).c c = (swArgs G VG hG cG S.order).c (phi (data p) c) := by funext i; exact m.cell c hc i
  rw [e]

/-- The state of a parallel shallow-water run against the state of the serial run. -/
structure SwMatch (SIZE : Nat) (data : Nat → RankData ℝ) (L : Nat → Tables ℝ) (s t : SState) : Prop where
  cell : ∀ k, VMatch SIZE data L (s.V k) (t.V k)
  node : ∀ p < SIZE, ∀ i < (L p).nbnodes, s.node p i = t.node 0 (gOf (data p) i)
  dt : s.dt = t.dt
  time : s.time = t.time

theorem swTimeStep_match (h : NodePair 2 nodeid node cv npart0 epart nbnodes n SIZE data serial L G B out trunc) (hgL hgG : Nat → HGResult ℝ) (S : SSetup)
    (w W : Nat → Nat → SW.W5) (hw : ∀ p < SIZE, ∀ c < (L p).nbcells, w p c = W 0 (phi (data p) c)) :
    swTimeStep (parW 2 SIZE data L hgL) S w = swTimeStep (serW 2 serial G hgG) S W := by
  refine (swdt_match h.run w (W 0) S.cfl S.Dx S.Dy hw).trans ?_
  unfold swTimeStep
  rfl

set_option maxHeartbeats 1000000 in
theorem swStep_match (h : NodePair 2 nodeid node cv npart0 epart nbnodes n SIZE data serial L G B out trunc) (ho : Outward G out)
    (hv : Vertex1 SIZE data L G) (sL : ∀ p < SIZE, ∃ rows, HGSpec 2 SIZE data L p (hgL p) rows) (sG : HGSerial 2 G nbnodes (hgG 0))
    (S : SSetup) (s0 : StencilOk 2 nodeid epart n G (S.bc 0)) (s3 : StencilOk 2 nodeid epart n G (S.bc 3)) (s t : SState)
    (hm : SwMatch SIZE data L s t) :
    ∃ s' t', swStep (parW 2 SIZE data L hgL) S s = some s' ∧ swStep (serW 2 serial G hgG) S t = some t' ∧ SwMatch SIZE data L s' t' := by
  obtain ⟨V1, U1, e1, f1, k1⟩ := updateAll_match h hgL hgG S.bc hm.cell
  obtain ⟨V2, U2, e2, f2, k2⟩ := frictionAll_match h hgL hgG S t.dt k1
  obtain ⟨V3, hL, cL, U3, hG, cG, e3, f3, k3, g1, g2⟩ := gradsAll_match h sL sG S (fun _ => ⟨s0, s3⟩) k2
  obtain ⟨V4, nL, U4, nG, e4, f4, m4, _, _, vL4, vG4, hN⟩ := celltonode_match h sL sG (S.bc 3) s3 (V3 3) (U3 3) (k3 3).m
  have e4' : faceGradient (parW 2 SIZE data L hgL) (S.bc 3) (V3 3) =
      some (V4, nL, fun p => faceGrads 2 (L p) (S.bc 3) (V4 p).fields (nL p)) := by unfold faceGradient; rw [e4]; rfl
  have f4' : faceGradient (serW 2 serial G hgG) (S.bc 3) (U3 3) =
      some (U4, nG, fun p => faceGrads 2 G (S.bc 3) (U4 p).fields (nG p)) := by unfold faceGradient; rw [f4]; rfl
  have hnew : ∀ p < SIZE, ∀ c < (L p).nbcells,
      swNew (L p) S t.dt (fun k => V3 k p) (hL p) (cL p)
        (dissip (L p) (swDiff S) (faceGrads 2 (L p) (S.bc 3) (V4 p).fields (nL p))) c =
      swNew G S t.dt (fun k => U3 k 0) (hG 0) (cG 0)
        (dissip G (swDiff S) (faceGrads 2 G (S.bc 3) (U4 0).fields (nG 0))) (phi (data p) c) := by
    intro p hp c hc
    refine swNew_match h ho hv S t.dt hp (smatch_of h S.bc k3 hp (g1 p hp) (g2 p hp)) _ _ (fun c hc => ?_) hc
    refine h.dissip_eq (swDiff S) hp _ _ (fun c hc j hj k hk => ?_) hc
    exact h.faceGrads_eq (fun e => absurd e (by decide)) (S.bc 3) hp (vL4 p hp) vG4 _ _ (hN p hp) hc hj hk
  set wL : Nat → Nat → SW.W5 := fun p => swNew (L p) S t.dt (fun k => V3 k p) (hL p) (cL p)
        (dissip (L p) (swDiff S) (faceGrads 2 (L p) (S.bc 3) (V4 p).fields (nL p))) with hwL
  set wG : Nat → Nat → SW.W5 := fun p => swNew G S t.dt (fun k => U3 k p) (hG p) (cG p)
        (dissip G (swDiff S) (faceGrads 2 G (S.bc 3) (U4 p).fields (nG p))) with hwG
  have hset : ∀ k, VMatch SIZE data L (setCells (![V3 0, V3 1, V3 2, V4, V3 4] : Fin 5 → Nat → Vari ℝ) wL k)
      (setCells (![U3 0, U3 1, U3 2, U4, U3 4] : Fin 5 → Nat → Vari ℝ) wG k) := by
    intro k p hp c hc
    exact congrFun (hnew p hp c hc) k
  obtain ⟨V5, n5, U5, o5, e5, f5, m5, _, _, _, _, hN5⟩ := celltonode_match h sL sG (S.bc 0) s0 _ _ (hset 0)
  unfold swStep
  rw [hm.dt, e1, f1]
  simp only [Option.bind_some]
  rw [e2, f2]
  simp only [Option.bind_some]
  rw [e3, f3]
  simp only [Option.bind_some]
  rw [e4', f4']
  simp only [Option.bind_some]
  refine ⟨_, _, congrArg _ e5, congrArg _ f5, ⟨?_, hN5, ?_, ?_⟩⟩
  · intro k
    fin_cases k
    exacts [m5, hset 1, hset 2, hset 3, hset 4]
  · exact swTimeStep_match h hgL hgG S wL wG hnew
  · show s.time + t.dt = t.time + t.dt
    rw [hm.time]

theorem swLoop_match (h : NodePair 2 nodeid node cv npart0 epart nbnodes n SIZE data serial L G B out trunc) (ho : Outward G out)
    (hv : Vertex1 SIZE data L G) (sL : ∀ p < SIZE, ∃ rows, HGSpec 2 SIZE data L p (hgL p) rows) (sG : HGSerial 2 G nbnodes (hgG 0))
    (S : SSetup) (s0 : StencilOk 2 nodeid epart n G (S.bc 0)) (s3 : StencilOk 2 nodeid epart n G (S.bc 3)) (s t : SState)
    (hm : SwMatch SIZE data L s t) (N : Nat) :
    ∃ s' t', swLoop (parW 2 SIZE data L hgL) S s N = some s' ∧ swLoop (serW 2 serial G hgG) S t N = some t' ∧ SwMatch SIZE data L s' t' := by
  induction N with
  | zero => exact ⟨s, t, rfl, rfl, hm⟩
  | succ N ih =>
    obtain ⟨s1, t1, e1, e2, m1⟩ := ih
    simp only [swLoop, e1, e2, Option.bind_some]
    rw [m1.time]
    by_cases ht : t1.time < S.tfinal
    · simp only [if_pos ht]; exact swStep_match h ho hv sL sG S s0 s3 s1 t1 m1
    · simp only [if_neg ht]; exact ⟨s1, t1, rfl, rfl, m1⟩

theorem swStart_match (h : NodePair 2 nodeid node cv npart0 epart nbnodes n SIZE data serial L G B out trunc) (hgL hgG : Nat → HGResult ℝ) (S : SSetup)
    (f : Fin 5 → ℝ → ℝ → ℝ → ℝ) : SwMatch SIZE data L (swStart (parW 2 SIZE data L hgL) S f) (swStart (serW 2 serial G hgG) S f) := by
  have hc : ∀ p < SIZE, ∀ c < (L p).nbcells, ∀ k, f k ((L p).center c 0) ((L p).center c 1) ((L p).center c 2) =
      f k (G.center (phi (data p) c) 0) (G.center (phi (data p) c) 1) (G.center (phi (data p) c) 2) := by
    intro p hp c hc k
    have := (h.run.rank p hp).center c hc
    rw [this 0 (by omega), this 1 (by omega), this 2 (by omega)]
  refine ⟨fun k p hp c hc' => hc p hp c hc' k, fun p hp i hi => rfl, ?_, rfl⟩
  exact swTimeStep_match h hgL hgG S (fun p i k => f k ((L p).center i 0) ((L p).center i 1) ((L p).center i 2))
    (fun _ i k => f k (G.center i 0) (G.center i 1) (G.center i 2)) (fun p hp c hc' => funext fun k => hc p hp c hc' k)

theorem Launched.vertex1 (h : Launched 3 nodeid node cv npart0 epart nbnodes n SIZE data serial) (vm : ValidMesh2 nodeid node nbnodes n)
    (sqrt : ℝ → ℝ) (trunc : ℝ → Int) : Vertex1 SIZE data (fun p => build2 sqrt trunc SIZE (data p)) (build2 sqrt trunc 1 serial) := by
  intro p hp c hc k hk
  have hc' : c < (data p).nodeid.length := hc
  have sc := h.sameCell2 hp hc'
  show vtx (data p) (orow2 (data p) c).2.1 k = vtx serial (orow2 serial (phi (data p) c)).2.1 k
  rw [sc.orow]
  refine sc.vert _ ?_ k (by omega)
  exact (orow2_perm (data p) hc').subset (by simp)

end
end Verif.Props.Par
