import Verif.Props.RenumNode
import Verif.Props.RenumRun
import Verif.Props.ParallelVar

/-! C124: transport runs with gradients, limiter, diffusion and node values in two numberings of one mesh. -/
set_option linter.unusedSectionVars false
set_option linter.unusedVariables false
set_option linter.unusedSimpArgs false
namespace Verif.Props.Par
open Verif.Fvm Verif.Spec Verif.Conn Verif.Dom Verif.Geo Verif.Names Verif.MeshFile Verif.Part Verif.Comm Verif.Run Verif.HaloGhost Verif.Interp
variable {K : Type*} [Field K] [LinearOrder K] [IsStrictOrderedRing K]

section
variable {dim : Nat}

theorem ser_celltonode (d : RankData K) (D : Tables K) (hg : Nat → HGResult K) (bc : Int → BCond K) (U : Nat → Vari K) :
    ∃ U' nd, celltonode (serW dim d D hg) bc U = some (U', nd) ∧ (∀ p, (U' p).cell = (U p).cell) ∧ (∀ p, ValuesG dim D bc (U' p).fields) ∧
      ∀ p, nd p = nodeValues dim 1 d D (hg p) (U' p).fields := by
  obtain ⟨U', e, c, v⟩ := serial_update d D hg bc U
  refine ⟨U', fun p => nodeValues dim 1 d D (hg p) (U' p).fields, ?_, c, v, fun _ => rfl⟩
  unfold celltonode; rw [e]; rfl

theorem ser_faceGradient (d : RankData K) (D : Tables K) (hg : Nat → HGResult K) (bc : Int → BCond K) (U : Nat → Vari K) :
    ∃ U' nd fg, faceGradient (serW dim d D hg) bc U = some (U', nd, fg) ∧ (∀ p, (U' p).cell = (U p).cell) ∧ (∀ p, ValuesG dim D bc (U' p).fields) ∧
      (∀ p, nd p = nodeValues dim 1 d D (hg p) (U' p).fields) ∧ ∀ p, fg p = faceGrads dim D bc (U' p).fields (nd p) := by
  obtain ⟨U', nd, e, c, v, hn⟩ := ser_celltonode d D hg bc U
  refine ⟨U', nd, fun p => faceGrads dim D bc (U' p).fields (nd p), ?_, c, v, hn, fun _ => rfl⟩
  unfold faceGradient; rw [e]; rfl

theorem ser_cellGradient (d : RankData K) (D : Tables K) (hg : Nat → HGResult K) (bc : Int → BCond K) (U : Nat → Vari K) :
    ∃ (U' : Nat → Vari K) (gr : Nat → Grads K), cellGradient (serW dim d D hg) bc U = some (U', gr) ∧ (∀ p, (U' p).cell = (U p).cell) ∧
      (∀ p, ValuesG dim D bc (U' p).fields) ∧
      ∀ p c, ((gr p).wx c, (gr p).wy c, (gr p).wz c) = cellGrads dim 1 d D (hg p) (U' p).fields c ∧
        (gr p).psi c = limiter dim (limEps dim) D (U' p).fields (cellGrads dim 1 d D (hg p) (U' p).fields) c := by
  obtain ⟨U', e, c, v⟩ := serial_update d D hg bc U
  obtain ⟨gG, egG⟩ : ∃ gG : Nat → Nat → K × K × K, gG = fun p => cellGrads dim 1 d D (hg p) (U' p).fields := ⟨_, rfl⟩
  refine ⟨U', fun p => ⟨fun c => (gG p c).1, fun c => (gG p c).2.1, fun c => (gG p c).2.2,
      limiter dim (limEps dim) D (U' p).fields (gG p), [[]].getD p [], [[]].getD p [], [[]].getD p [], [[]].getD p []⟩, ?_, c, v, ?_⟩
  · unfold cellGradient
    rw [e]
    subst egG
    simp only [Option.bind_some, exchange_serial, Option.map_some]
  · subst egG
    intro p c; exact ⟨rfl, rfl⟩

end

section
variable {dim n nbnodes : Nat} {t t' : Nat → Nat → Nat} {L G : Tables K} {σ g : Nat → Nat} {B : List Int} {outL outG : Nat → Nat → Vec K}

/-- The states of the two runs. -/
structure RMatch (n nbnodes : Nat) (σ g : Nat → Nat) (s t : TState K) : Prop where
  cell : ∀ c < n, (s.V 0).cell c = (t.V 0).cell (σ c)
  node : ∀ i < nbnodes, s.node 0 i = t.node 0 (g i)
  time : s.time = t.time
  iter : s.iter = t.iter

theorem RenumN.conv_eq (h : RenumN dim n nbnodes t t' L G σ g B outL outG) (S : Setup K) (order : Int) (it : Nat) {v u : Vari K}
    (vL : ValuesG dim L S.bc v.fields) (vG : ValuesG dim G S.bc u.fields) (hW : ∀ c < n, v.cell c = u.cell (σ c)) {gL gG : Grads K}
    (hgm : ∀ c < n, gL.wx c = gG.wx (σ c) ∧ gL.wy c = gG.wy (σ c) ∧ gL.wz c = gG.wz (σ c) ∧ gL.psi c = gG.psi (σ c)) {c : Nat} (hc : c < n) :
    conv dim (convArgs L (fieldsOf S L it v.cell v.ghost v.halo gL) order) c =
      conv dim (convArgs G (fieldsOf S G it u.cell u.ghost u.halo gG) order) (σ c) := by
  rw [conv_balance h.ren.RL.cG _ _ h.hd, conv_balance h.ren.RG.cG _ _ h.hd]
  refine h.ren.balance ⟨?_, ?_, ?_⟩ order dim (by have := h.hd; omega) c (by rw [h.nL]; exact hc)
  · intro c hc
    rw [h.nL] at hc
    obtain ⟨a1, a2, a3, a4⟩ := hgm c hc
    exact ⟨hW c hc, a4, a1, a2, a3⟩
  · intro c hc j hj
    exact ⟨h.ren.atFaces _ hc hj, h.ren.atFaces _ hc hj, h.ren.atFaces _ hc hj⟩
  · intro c hc j hj hb
    obtain ⟨g1, eg1⟩ := vL.ghost
    obtain ⟨g2, eg2⟩ := vG.ghost
    show v.fields.ghost _ = u.fields.ghost _
    rw [eg1, eg2]
    exact h.ren.ghost _ _ (fun c hc => hW c (by rw [← h.nL]; exact hc)) hc hj hb h.hB S.bc _ _

theorem RenumN.tstep (h : RenumN dim n nbnodes t t' L G σ g B outL outG) (hw : dim = 3 → WedgeOk G ∧ WedgeOk L) (dL dG : RankData K)
    {hgL hgG : Nat → HGResult K} (sL : HGSerial dim L nbnodes (hgL 0)) (sG : HGSerial dim G nbnodes (hgG 0)) (S : Setup K) (order : Int) (diff : Bool)
    (s u : TState K) (hm : RMatch n nbnodes σ g s u) :
    ∃ s' u', tstep (serW dim dL L hgL) S order diff s = some s' ∧ tstep (serW dim dG G hgG) S order diff u = some u' ∧ RMatch n nbnodes σ g s' u' := by
  have ar : ∀ x : K, allreduceMin 1 (fun _ => x) = x := fun x => by unfold allreduceMin; simp
  obtain ⟨V1, u1, cu1, _⟩ := serial_update (dim := dim) dL L hgL S.bc s.V
  obtain ⟨U1, u2, cu2, _⟩ := serial_update (dim := dim) dG G hgG S.bc u.V
  obtain ⟨V2, gL, c1, cc1, vL, grL⟩ := ser_cellGradient (dim := dim) dL L hgL S.bc V1
  obtain ⟨U2, gG, c2, cc2, vG, grG⟩ := ser_cellGradient (dim := dim) dG G hgG S.bc U1
  have m2 : ∀ c < n, (V2 0).cell c = (U2 0).cell (σ c) := by
    intro c hc; rw [cc1, cu1, cc2, cu2]; exact hm.cell c hc
  have hcg : ∀ c < n, cellGrads dim 1 dL L (hgL 0) (V2 0).fields c = cellGrads dim 1 dG G (hgG 0) (U2 0).fields (σ c) :=
    fun c hc => h.cellGrad S.bc dL dG sL sG (vL 0) (vG 0) m2 hc
  have hgm : ∀ c < n, (gL 0).wx c = (gG 0).wx (σ c) ∧ (gL 0).wy c = (gG 0).wy (σ c) ∧ (gL 0).wz c = (gG 0).wz (σ c) ∧
      (gL 0).psi c = (gG 0).psi (σ c) := by
    intro c hc
    obtain ⟨a1, a2⟩ := grL 0 c
    obtain ⟨b1, b2⟩ := grG 0 (σ c)
    have e := a1.trans ((hcg c hc).trans b1.symm)
    simp only [Prod.mk.injEq] at e
    refine ⟨e.1, e.2.1, e.2.2, ?_⟩
    rw [a2, b2]
    exact h.limiter_eq S.bc (vL 0) (vG 0) m2 _ _ _ hc (hcg c hc)
  have rez : ∀ c < n, conv dim (convArgs L (fieldsOf S L s.iter (V2 0).cell (V2 0).ghost (V2 0).halo (gL 0)) order) c =
      conv dim (convArgs G (fieldsOf S G u.iter (U2 0).cell (U2 0).ghost (U2 0).halo (gG 0)) order) (σ c) := by
    intro c hc
    rw [hm.iter]
    exact h.conv_eq S order u.iter (vL 0) (vG 0) m2 hgm hc
  have hdt := h.ren.dt S u.iter
  have hvol : ∀ c < n, L.volume c = G.volume (σ c) := fun c hc => h.ren.volume c (by rw [h.nL]; exact hc)
  unfold Run.tstep
  rw [u1, u2]
  simp only [Option.bind_some]
  rw [c1, c2]
  simp only [Option.bind_some]
  cases diff with
  | false =>
    refine ⟨_, _, rfl, rfl, ⟨?_, hm.node, ?_, ?_⟩⟩
    · intro c hc
      dsimp only [serW, updateNewValue]
      rw [rez c hc, ar, ar, hm.iter, hdt, hvol c hc, m2 c hc]
    · show s.time + _ = u.time + _
      rw [ar, ar, hm.time, hm.iter, hdt]
    · show s.iter + 1 = u.iter + 1
      rw [hm.iter]
  | true =>
    obtain ⟨V3, nL, fL, f1, cf1, vL3, hnL, hfL⟩ := ser_faceGradient (dim := dim) dL L hgL S.bc V2
    obtain ⟨U3, nG, fG, f2, cf2, vG3, hnG, hfG⟩ := ser_faceGradient (dim := dim) dG G hgG S.bc U2
    have m3 : ∀ c < n, (V3 0).cell c = (U3 0).cell (σ c) := by
      intro c hc; rw [cf1, cf2]; exact m2 c hc
    have hN : ∀ i < nbnodes, nL 0 i = nG 0 (g i) := by
      intro i hi
      rw [hnL, hnG]
      exact h.nodeValue S.bc dL dG sL sG (vL3 0) (vG3 0) m3 hi
    have hfg : ∀ c < n, ∀ j < dim + 1, ∀ k < 3, fL 0 (L.faceid c j) k = fG 0 (G.faceid (σ c) j) k := by
      intro c hc j hj k hk
      rw [hfL, hfG]
      exact h.faceGrads_eq hw S.bc (vL3 0) (vG3 0) m3 _ _ hN hc hj hk
    rw [if_pos rfl, if_pos rfl, f1, f2]
    simp only [Option.bind_some]
    obtain ⟨V4, n4, g1, cg1, vL4, hn4⟩ := ser_celltonode (dim := dim) dL L hgL S.bc
      (fun p => { V3 p with cell := (updateNewValue (V3 p).cell (conv dim (convArgs L (fieldsOf S L s.iter (V2 p).cell (V2 p).ghost (V2 p).halo (gL p)) order))
        (Run.dissip L S (fL p)) (fun _ => 0) (allreduceMin 1 (fun _ => localStep dim S L s.iter)) L.volume) })
    obtain ⟨U4, k4, g2, cg2, vG4, hk4⟩ := ser_celltonode (dim := dim) dG G hgG S.bc
      (fun p => { U3 p with cell := (updateNewValue (U3 p).cell (conv dim (convArgs G (fieldsOf S G u.iter (U2 p).cell (U2 p).ghost (U2 p).halo (gG p)) order))
        (Run.dissip G S (fG p)) (fun _ => 0) (allreduceMin 1 (fun _ => localStep dim S G u.iter)) G.volume) })
    have m4 : ∀ c < n, (V4 0).cell c = (U4 0).cell (σ c) := by
      intro c hc
      rw [cg1, cg2]
      dsimp only [updateNewValue]
      rw [ar, ar, rez c hc, hvol c hc, m3 c hc, h.dissip_eq S (fL 0) (fG 0) hfg hc, hm.iter, hdt]
    rw [g1, g2]
    refine ⟨_, _, rfl, rfl, ⟨m4, ?_, ?_, ?_⟩⟩
    · intro i hi
      show n4 0 i = k4 0 (g i)
      rw [hn4, hk4]
      exact h.nodeValue S.bc dL dG sL sG (vL4 0) (vG4 0) m4 hi
    · show s.time + _ = u.time + _
      rw [ar, ar, hm.time, hm.iter, hdt]
    · show s.iter + 1 = u.iter + 1
      rw [hm.iter]

theorem RenumN.tloop (h : RenumN dim n nbnodes t t' L G σ g B outL outG) (hw : dim = 3 → WedgeOk G ∧ WedgeOk L) (dL dG : RankData K)
    {hgL hgG : Nat → HGResult K} (sL : HGSerial dim L nbnodes (hgL 0)) (sG : HGSerial dim G nbnodes (hgG 0)) (S : Setup K) (order : Int) (diff : Bool)
    (f : K → K → K → K) (N : Nat) :
    ∃ s' u', tloop (serW dim dL L hgL) S order diff (tstart (serW dim dL L hgL) f) N = some s' ∧
      tloop (serW dim dG G hgG) S order diff (tstart (serW dim dG G hgG) f) N = some u' ∧ RMatch n nbnodes σ g s' u' := by
  induction N with
  | zero =>
    refine ⟨_, _, rfl, rfl, ⟨fun c hc => ?_, fun i hi => rfl, rfl, rfl⟩⟩
    have := h.ren.center c (by rw [h.nL]; exact hc)
    show f _ _ _ = f _ _ _
    rw [this 0 (by omega), this 1 (by omega), this 2 (by omega)]
  | succ N ih =>
    obtain ⟨s1, t1, e1, e2, m1⟩ := ih
    simp only [Run.tloop, e1, e2, Option.bind_some]
    rw [m1.time]
    by_cases ht : t1.time < S.tfinal
    · simp only [if_pos ht]; exact h.tstep hw dL dG sL sG S order diff s1 t1 m1
    · simp only [if_neg ht]; exact ⟨s1, t1, rfl, rfl, m1⟩

end

/-! ### the tables of two numberings -/
section
variable {nodeid nodeid' : Nat → Nat → Nat} {node node' : Nat → K × K × K × Nat} {nbnodes n : Nat} {σ g : Nat → Nat}
variable {npart0 npart0' epart epart' : Nat → Nat} {SIZE SIZE' : Nat} {data data' : Nat → RankData K} {serial serial' : RankData K}

theorem renumN2 (h : Launched 3 nodeid node (centvol2 node nodeid) npart0 epart nbnodes n SIZE data serial)
    (h' : Launched 3 nodeid' node' (centvol2 node' nodeid') npart0' epart' nbnodes n SIZE' data' serial')
    (vm : ValidMesh2 nodeid node nbnodes n) (r : Renumbered 3 nodeid node nodeid' node' nbnodes n σ g)
    (sqrt : K → K) (trunc : K → Int) (htr : ∀ m : Nat, trunc (m : K) = m) :
    RenumN 2 n nbnodes nodeid nodeid' (build2 sqrt trunc 1 serial') (build2 sqrt trunc 1 serial) σ g [1, 2, 3, 4] (out2 serial') (out2 serial) := by
  have vm' := ren_valid2 r vm
  have R := renum2 h h' vm r sqrt trunc htr
  have np := h.nodePair2 vm sqrt trunc htr
  have np' := h'.nodePair2 vm' sqrt trunc htr
  have fnp : ∀ c < n, ∀ j < 3, (((build2 sqrt trunc 1 serial').fnode ((build2 sqrt trunc 1 serial').faceid c j)).map g).Perm
      ((build2 sqrt trunc 1 serial).fnode ((build2 sqrt trunc 1 serial).faceid (σ c) j)) := by
    intro c hc j hj
    have sc := ren_sameCell2 h h' r hc
    have h1 := (fnode_perm2 sqrt trunc 1 serial' sc.lt hj).map g
    have h2 := fnode_perm2 sqrt trunc 1 serial sc.Lt hj
    rw [sc.side j] at h2
    exact h1.trans h2.symm
  refine ⟨R, Or.inl rfl, rfl, by decide, h'.serial_cells.1, h.serial_cells.1, np'.cellidG, np.cellidG, np'.cnodeG, np.cnodeG, r.node_lt, r.node_inj,
    r.corner_lt, r.corner, fnp, ?_, ?_, ?_, np'.labelG, np.labelG⟩
  · intro c hc j hj
    refine ⟨(np'.fnodeG c hc j hj).2.1, fun x hx => ?_⟩
    obtain ⟨i, hi, rfl⟩ := (np'.fnodeG c hc j hj).2.2 x hx
    exact r.corner_lt c hc i hi
  · intro s hs k hk
    rw [np'.vertexG, np.vertexG]
    exact ren_vtx h h' r hs k hk
  · intro c hc j hj hb
    have sc := ren_sameCell2 h h' r hc
    rcases R.sides (show c < (build2 sqrt trunc 1 serial').nbcells by rw [show (build2 sqrt trunc 1 serial').nbcells = n from h'.serial_cells.1]; exact hc) hj with
      ⟨_, _, _, _, _, _, _, _, c0, C0, _⟩ | ⟨e, _, _, _, _, a2, _⟩
    · have nf := h.nonFlatS vm (r.cell_lt c hc)
      rw [ghostPoint_side2 sqrt trunc 1 serial' sc.lt hj (sc.nonFlat.mpr nf) c0, ghostPoint_side2 sqrt trunc 1 serial sc.Lt hj nf C0, sc.center]
      obtain ⟨v1, v2⟩ := sc.vertS hj
      simp only [ghostcenter2]
      rw [v1 0 (by omega), v1 1 (by omega), v2 0 (by omega), v2 1 (by omega)]
    · exact absurd hb a2

theorem renumN3 (h : Launched 4 nodeid node (centvol3 node nodeid) npart0 epart nbnodes n SIZE data serial)
    (h' : Launched 4 nodeid' node' (centvol3 node' nodeid') npart0' epart' nbnodes n SIZE' data' serial')
    (vm : ValidMesh3 nodeid node nbnodes n) (r : Renumbered 4 nodeid node nodeid' node' nbnodes n σ g)
    (sqrt : K → K) (trunc : K → Int) (htr : ∀ m : Nat, trunc (m : K) = m) :
    RenumN 3 n nbnodes nodeid nodeid' (build3 sqrt trunc 1 serial') (build3 sqrt trunc 1 serial) σ g [1, 2, 3, 4, 5, 6] (out3 serial') (out3 serial) := by
  have vm' := ren_valid3 r vm
  have R := renum3 h h' vm r sqrt trunc htr
  have np := h.nodePair3 vm sqrt trunc htr
  have np' := h'.nodePair3 vm' sqrt trunc htr
  have hn' : (build3 sqrt trunc 1 serial').nbcells = n := h'.serial_cells.1
  have fnp : ∀ c < n, ∀ j < 4, (((build3 sqrt trunc 1 serial').fnode ((build3 sqrt trunc 1 serial').faceid c j)).map g).Perm
      ((build3 sqrt trunc 1 serial).fnode ((build3 sqrt trunc 1 serial).faceid (σ c) j)) := by
    intro c hc j hj
    have sc := ren_sameCell3 h h' r hc
    have h1 := (fnode_perm3 sqrt trunc 1 serial' sc.lt hj).map g
    have h2 := fnode_perm3 sqrt trunc 1 serial sc.Lt hj
    rw [sc.side j] at h2
    exact h1.trans h2.symm
  refine ⟨R, Or.inr rfl, rfl, by decide, h'.serial_cells.1, h.serial_cells.1, np'.cellidG, np.cellidG, np'.cnodeG, np.cnodeG, r.node_lt, r.node_inj,
    r.corner_lt, r.corner, fnp, ?_, ?_, ?_, np'.labelG, np.labelG⟩
  · intro c hc j hj
    refine ⟨(np'.fnodeG c hc j hj).2.1, fun x hx => ?_⟩
    obtain ⟨i, hi, rfl⟩ := (np'.fnodeG c hc j hj).2.2 x hx
    exact r.corner_lt c hc i hi
  · intro s hs k hk
    rw [np'.vertexG, np.vertexG]
    exact ren_vtx h h' r hs k hk
  · intro c hc j hj hb
    have hc' : c < (build3 sqrt trunc 1 serial').nbcells := by rw [hn']; exact hc
    rcases R.sides hc' hj with ⟨_, _, _, _, _, _, _, _, c0, C0, _⟩ | ⟨e, _, _, _, _, a2, _⟩
    · obtain ⟨ε, hε, hnn⟩ := R.normal_pm hc' hj
      have hmes := R.mesure c hc' j hj
      have key := ghostcenter3_congr _ _ ((build3 sqrt trunc 1 serial).mesure ((build3 sqrt trunc 1 serial).faceid (σ c) j)) _ _ _ _ ε hε hnn
        (R.fcenter c hc' j hj) (R.center c hc')
      unfold ghostPoint
      simp only [show ¬ (3 = 2) by decide, if_false]
      rw [c0, C0, show idx ((c : Nat) : Int) = c by simp [idx], show idx ((σ c : Nat) : Int) = σ c by simp [idx], hmes,
        key 0 (by omega), key 1 (by omega), key 2 (by omega)]
    · exact absurd hb a2

/-- C124 (2D, any order, with or without diffusion): two numberings of one valid mesh, each read from its own serial mesh file.  After any
number of iterations of the transport driver — gradients, limiter, diffusion and node values included — both runs have reached the same
time, cell `c` of one holds the value of cell `σ c` of the other, and node `k` of one the value of node `g k` of the other. -/
theorem C124_run_2d (vm : ValidMesh2 nodeid node nbnodes n) (r : Renumbered 3 nodeid node nodeid' node' nbnodes n σ g)
    (hr : readMeshFile 1 0 (writeSerial (serialWrite nodeid node nbnodes n 3)) [] = some serial)
    (hr' : readMeshFile 1 0 (writeSerial (serialWrite nodeid' node' nbnodes n 3)) [] = some serial')
    (sqrt : K → K) (trunc : K → Int) (htr : ∀ m : Nat, trunc (m : K) = m)
    (S : Setup K) (order : Int) (diff : Bool) (init : K → K → K → K) :
    ∃ W' W, mkWorld 2 1 (fun _ => serial') (fun _ => build2 sqrt trunc 1 serial') = some W' ∧
      mkWorld 2 1 (fun _ => serial) (fun _ => build2 sqrt trunc 1 serial) = some W ∧
      ∀ N, ∃ s' s, tloop W' S order diff (tstart W' init) N = some s' ∧ tloop W S order diff (tstart W init) N = some s ∧
        s'.time = s.time ∧ s'.iter = s.iter ∧ (∀ c < n, (s'.V 0).cell c = (s.V 0).cell (σ c)) ∧
        ∀ k < nbnodes, s'.node 0 k = s.node 0 (g k) := by
  obtain ⟨d, h⟩ := launched_of_serial (centvol2 node nodeid) (by decide) vm.nodes vm.used hr
  have vm' := ren_valid2 r vm
  obtain ⟨d', h'⟩ := launched_of_serial (centvol2 node' nodeid') (by decide) vm'.nodes vm'.used hr'
  obtain ⟨_, hg, _, w, _, sG⟩ := (h.nodePair2 vm sqrt trunc htr).worlds
  obtain ⟨_, hg', _, w', _, sG'⟩ := (h'.nodePair2 vm' sqrt trunc htr).worlds
  refine ⟨_, _, w', w, fun N => ?_⟩
  obtain ⟨s', s, e1, e2, m⟩ := (renumN2 h h' vm r sqrt trunc htr).tloop (by omega) serial' serial sG' sG S order diff init N
  exact ⟨s', s, e1, e2, m.time, m.iter, m.cell, m.node⟩

/-- C124 (3D, any order, with or without diffusion): see `C124_run_2d`. -/
theorem C124_run_3d (vm : ValidMesh3 nodeid node nbnodes n) (r : Renumbered 4 nodeid node nodeid' node' nbnodes n σ g)
    (hr : readMeshFile 1 0 (writeSerial (serialWrite nodeid node nbnodes n 4)) [] = some serial)
    (hr' : readMeshFile 1 0 (writeSerial (serialWrite nodeid' node' nbnodes n 4)) [] = some serial')
    (sqrt : K → K) (trunc : K → Int) (htr : ∀ m : Nat, trunc (m : K) = m)
    (S : Setup K) (order : Int) (diff : Bool) (init : K → K → K → K) :
    ∃ W' W, mkWorld 3 1 (fun _ => serial') (fun _ => build3 sqrt trunc 1 serial') = some W' ∧
      mkWorld 3 1 (fun _ => serial) (fun _ => build3 sqrt trunc 1 serial) = some W ∧
      ∀ N, ∃ s' s, tloop W' S order diff (tstart W' init) N = some s' ∧ tloop W S order diff (tstart W init) N = some s ∧
        s'.time = s.time ∧ s'.iter = s.iter ∧ (∀ c < n, (s'.V 0).cell c = (s.V 0).cell (σ c)) ∧
        ∀ k < nbnodes, s'.node 0 k = s.node 0 (g k) := by
  obtain ⟨d, h⟩ := launched_of_serial (centvol3 node nodeid) (by decide) vm.nodes vm.used hr
  have vm' := ren_valid3 r vm
  obtain ⟨d', h'⟩ := launched_of_serial (centvol3 node' nodeid') (by decide) vm'.nodes vm'.used hr'
  obtain ⟨_, hg, _, w, _, sG⟩ := (h.nodePair3 vm sqrt trunc htr).worlds
  obtain ⟨_, hg', _, w', _, sG'⟩ := (h'.nodePair3 vm' sqrt trunc htr).worlds
  refine ⟨_, _, w', w, fun N => ?_⟩
  obtain ⟨s', s, e1, e2, m⟩ := (renumN3 h h' vm r sqrt trunc htr).tloop
    (fun _ => ⟨wedge_build3 sqrt trunc 1 serial, wedge_build3 sqrt trunc 1 serial'⟩) serial' serial sG' sG S order diff init N
  exact ⟨s', s, e1, e2, m.time, m.iter, m.cell, m.node⟩

/-- Cells touch each other through faces in one numbering if they do in the other. -/
theorem ren_star {dim : Nat} (r : Renumbered (dim + 1) nodeid node nodeid' node' nbnodes n σ g) (star : StarConnected dim nodeid n) :
    StarConnected dim nodeid' n := by
  intro k a ha b hb ua ub
  have hk : k < nbnodes := by obtain ⟨j, hj, rfl⟩ := ua; exact r.corner_lt a ha j hj
  have path := star (g k) (σ a) (r.cell_lt a ha) (σ b) (r.cell_lt b hb) ((ren_uses r ha hk).mpr ua) ((ren_uses r hb hk).mpr ub)
  have key : ∀ y, Relation.ReflTransGen (fun x y => x < n ∧ y < n ∧ ShareFaceAt dim nodeid (g k) x y) (σ a) y → ∃ b' < n, σ b' = y ∧
      Relation.ReflTransGen (fun x y => x < n ∧ y < n ∧ ShareFaceAt dim nodeid' k x y) a b' := by
    intro y hy
    induction hy with
    | refl => exact ⟨a, ha, rfl, Relation.ReflTransGen.refl⟩
    | tail _ st ih =>
      obtain ⟨x', hx', rfl, px⟩ := ih
      obtain ⟨_, hy, f, fl, fn, fk, fu⟩ := st
      obtain ⟨y', hy', rfl⟩ := ren_surj r hy
      refine ⟨y', hy', rfl, px.tail ⟨hx', hy', ?_⟩⟩
      have pre : ∀ x ∈ f, ∃ m < nbnodes, g m = x := by
        intro x hx
        obtain ⟨j, hj, e⟩ := (fu x hx).1
        exact ⟨_, r.corner_lt x' hx' j hj, by rw [← r.corner x' hx' j hj, e]⟩
      classical
      let q : Nat → Nat := fun x => if hx : ∃ m < nbnodes, g m = x then hx.choose else 0
      have hq : ∀ x ∈ f, q x < nbnodes ∧ g (q x) = x := by
        intro x hx
        have e := pre x hx
        simp only [q, dif_pos e]
        exact e.choose_spec
      refine ⟨f.map q, by simpa using fl, ?_, ?_, ?_⟩
      · refine List.Nodup.map_on ?_ fn
        intro x hx y hy e
        rw [← (hq x hx).2, ← (hq y hy).2, e]
      · refine List.mem_map.mpr ⟨g k, fk, ?_⟩
        exact r.node_inj _ (hq _ fk).1 _ hk (hq _ fk).2
      · intro m hm
        obtain ⟨x, hx, rfl⟩ := List.mem_map.mp hm
        obtain ⟨u1, u2⟩ := fu x hx
        rw [← (hq x hx).2] at u1 u2
        exact ⟨(ren_uses r hx' (hq x hx).1).mp u1, (ren_uses r hy' (hq x hx).1).mp u2⟩
  obtain ⟨b', hb', e, p⟩ := key _ path
  rw [r.cell_inj b' hb' b hb e] at p
  exact p

/-- C124 (2D, any order, parallel; partial, as C90: cells meet through faces and the corners on shared nodes are harmless): two numberings of one
valid mesh, each partitioned in any way.  Wherever a process of one run and a process of the other hold the same triangle, or the same node,
they hold the same value. -/
theorem C124_run_parallel_2d_partial (h : Launched 3 nodeid node (centvol2 node nodeid) npart0 epart nbnodes n SIZE data serial)
    (h' : Launched 3 nodeid' node' (centvol2 node' nodeid') npart0' epart' nbnodes n SIZE' data' serial')
    (vm : ValidMesh2 nodeid node nbnodes n) (r : Renumbered 3 nodeid node nodeid' node' nbnodes n σ g)
    (sqrt : K → K) (trunc : K → Int) (htr : ∀ m : Nat, trunc (m : K) = m) (star : StarConnected 2 nodeid n)
    (S : Setup K) (hc : CornersOk 2 nodeid epart n (build2 sqrt trunc 1 serial) S.bc)
    (hc' : CornersOk 2 nodeid' epart' n (build2 sqrt trunc 1 serial') S.bc) (order : Int) (diff : Bool) (init : K → K → K → K) :
    ∃ W' W, mkWorld 2 SIZE' data' (fun p => build2 sqrt trunc SIZE' (data' p)) = some W' ∧
      mkWorld 2 SIZE data (fun p => build2 sqrt trunc SIZE (data p)) = some W ∧
      ∀ N, ∃ s' s, tloop W' S order diff (tstart W' init) N = some s' ∧ tloop W S order diff (tstart W init) N = some s ∧
        s'.time = s.time ∧ s'.iter = s.iter ∧
        (∀ p < SIZE', ∀ q < SIZE, ∀ i j C, (data' p).loctoglob[i]? = some C → (data q).loctoglob[j]? = some (σ C) →
          (s'.V p).cell i = (s.V q).cell j) ∧
        ∀ p < SIZE', ∀ q < SIZE, ∀ i j k, (data' p).nodeloctoglob[i]? = some k → (data q).nodeloctoglob[j]? = some (g k) →
          s'.node p i = s.node q j := by
  have vm' := ren_valid2 r vm
  obtain ⟨W, WG, w, wG, run⟩ := C90_run_2d_partial h vm sqrt trunc htr star
  obtain ⟨W', WG', w', wG', run'⟩ := C90_run_2d_partial h' vm' sqrt trunc htr (ren_star r star)
  obtain ⟨X', X, x', x, both⟩ := C124_run_2d vm r h.hserial h'.hserial sqrt trunc htr S order diff init
  rw [wG] at x; cases x
  rw [wG'] at x'; cases x'
  refine ⟨W', W, w', w, fun N => ?_⟩
  obtain ⟨a, b, e1, e2, m1, m2, m3, m4⟩ := run S hc order diff init N
  obtain ⟨a', b', f1, f2, k1, k2, k3, k4⟩ := run' S hc' order diff init N
  obtain ⟨s', s, l1, l2, b1, b2, b3, b4⟩ := both N
  rw [l1] at f2; cases f2
  rw [l2] at e2; cases e2
  refine ⟨a', a, f1, e1, by rw [k1, m1, b1], by rw [k2, m2, b2], ?_, ?_⟩
  · intro p hp q hq i j C hi hj
    have hC : C < n := (((h'.cells hp).1.2 C).mp (List.mem_of_getElem? hi)).1
    exact (k3 p hp i C hi).trans ((b3 C hC).trans (m3 q hq j (σ C) hj).symm)
  · intro p hp q hq i j k hi hj
    have hk : k < nbnodes := by
      obtain ⟨C, hC, _, x, hx, rfl⟩ := ((h'.nodes hp).2.2 k).mp (List.mem_of_getElem? hi)
      exact r.corner_lt C hC x hx
    rw [k4 p hp i k hi, m4 q hq j (g k) hj, b4 k hk]

/-- C124 (3D, any order, parallel; partial): see `C124_run_parallel_2d_partial`. -/
theorem C124_run_parallel_3d_partial (h : Launched 4 nodeid node (centvol3 node nodeid) npart0 epart nbnodes n SIZE data serial)
    (h' : Launched 4 nodeid' node' (centvol3 node' nodeid') npart0' epart' nbnodes n SIZE' data' serial')
    (vm : ValidMesh3 nodeid node nbnodes n) (r : Renumbered 4 nodeid node nodeid' node' nbnodes n σ g)
    (sqrt : K → K) (trunc : K → Int) (htr : ∀ m : Nat, trunc (m : K) = m) (star : StarConnected 3 nodeid n)
    (S : Setup K) (hc : CornersOk 3 nodeid epart n (build3 sqrt trunc 1 serial) S.bc)
    (hc' : CornersOk 3 nodeid' epart' n (build3 sqrt trunc 1 serial') S.bc) (order : Int) (diff : Bool) (init : K → K → K → K) :
    ∃ W' W, mkWorld 3 SIZE' data' (fun p => build3 sqrt trunc SIZE' (data' p)) = some W' ∧
      mkWorld 3 SIZE data (fun p => build3 sqrt trunc SIZE (data p)) = some W ∧
      ∀ N, ∃ s' s, tloop W' S order diff (tstart W' init) N = some s' ∧ tloop W S order diff (tstart W init) N = some s ∧
        s'.time = s.time ∧ s'.iter = s.iter ∧
        (∀ p < SIZE', ∀ q < SIZE, ∀ i j C, (data' p).loctoglob[i]? = some C → (data q).loctoglob[j]? = some (σ C) →
          (s'.V p).cell i = (s.V q).cell j) ∧
        ∀ p < SIZE', ∀ q < SIZE, ∀ i j k, (data' p).nodeloctoglob[i]? = some k → (data q).nodeloctoglob[j]? = some (g k) →
          s'.node p i = s.node q j := by
  have vm' := ren_valid3 r vm
  obtain ⟨W, WG, w, wG, run⟩ := C90_run_3d_partial h vm sqrt trunc htr star
  obtain ⟨W', WG', w', wG', run'⟩ := C90_run_3d_partial h' vm' sqrt trunc htr (ren_star r star)
  obtain ⟨X', X, x', x, both⟩ := C124_run_3d vm r h.hserial h'.hserial sqrt trunc htr S order diff init
  rw [wG] at x; cases x
  rw [wG'] at x'; cases x'
  refine ⟨W', W, w', w, fun N => ?_⟩
  obtain ⟨a, b, e1, e2, m1, m2, m3, m4⟩ := run S hc order diff init N
  obtain ⟨a', b', f1, f2, k1, k2, k3, k4⟩ := run' S hc' order diff init N
  obtain ⟨s', s, l1, l2, b1, b2, b3, b4⟩ := both N
  rw [l1] at f2; cases f2
  rw [l2] at e2; cases e2
  refine ⟨a', a, f1, e1, by rw [k1, m1, b1], by rw [k2, m2, b2], ?_, ?_⟩
  · intro p hp q hq i j C hi hj
    have hC : C < n := (((h'.cells hp).1.2 C).mp (List.mem_of_getElem? hi)).1
    exact (k3 p hp i C hi).trans ((b3 C hC).trans (m3 q hq j (σ C) hj).symm)
  · intro p hp q hq i j k hi hj
    have hk : k < nbnodes := by
      obtain ⟨C, hC, _, x, hx, rfl⟩ := ((h'.nodes hp).2.2 k).mp (List.mem_of_getElem? hi)
      exact r.corner_lt C hC x hx
    rw [k4 p hp i k hi, m4 q hq j (g k) hj, b4 k hk]

end

/-- The hypotheses of `C124_run_2d` are met: the strip numbered backwards. -/
example (S : Setup ℚ) (order : Int) (diff : Bool) (init : ℚ → ℚ → ℚ → ℚ) :=
  C124_run_2d stripValid backStrip_ren (C25_round_trip_serial (K := ℚ) _ _) (C25_round_trip_serial (K := ℚ) _ _) (fun x => x) Rat.floor floor_nat
    S order diff init

/-- The hypotheses of `C124_run_3d` are met: the chain of tetrahedra numbered backwards. -/
example (S : Setup ℚ) (order : Int) (diff : Bool) (init : ℚ → ℚ → ℚ → ℚ) :=
  C124_run_3d chainValid backChain_ren (C25_round_trip_serial (K := ℚ) _ _) (C25_round_trip_serial (K := ℚ) _ _) (fun x => x) Rat.floor floor_nat
    S order diff init

/-- The hypotheses of the parallel theorem are met: the strip on two processes, and numbered backwards on three. -/
example (S : Setup ℚ) (hS : S.bc = fun _ => BCond.neumann) (order : Int) (diff : Bool) (init : ℚ → ℚ → ℚ → ℚ) :=
  C124_run_parallel_2d_partial stripLaunched backLaunched stripValid backStrip_ren (fun x => x) Rat.floor floor_nat (run_star 2 4) S
    (hS ▸ neumann_corners _) (hS ▸ neumann_corners _) order diff init

example (S : Setup ℚ) (hS : S.bc = fun _ => BCond.neumann) (order : Int) (diff : Bool) (init : ℚ → ℚ → ℚ → ℚ) :=
  C124_run_parallel_3d_partial (σ := id) (g := id) chainLaunched chainLaunched chainValid
    ⟨by decide, by decide, by decide, by decide, by decide, by decide, fun _ _ => rfl⟩ (fun x => x) Rat.floor floor_nat (run_star 3 3) S
    (hS ▸ neumann_corners _) (hS ▸ neumann_corners _) order diff init

end Verif.Props.Par
