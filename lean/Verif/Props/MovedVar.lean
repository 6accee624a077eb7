import Verif.Props.MovedNode
import Verif.Props.MovedOrder1

/-! C129: transport runs with gradients, limiter, diffusion and node values in two systems of coordinates. -/
set_option linter.unusedSectionVars false
set_option linter.unusedVariables false
set_option linter.unusedSimpArgs false
namespace Verif.Props.Par
open Verif.Fvm Verif.Spec Verif.Conn Verif.Dom Verif.Geo Verif.Names Verif.MeshFile Verif.Part Verif.Comm Verif.Run Verif.HaloGhost Verif.Interp
variable {K : Type*} [Field K] [LinearOrder K] [IsStrictOrderedRing K]

section
variable {M : Motion K} {dim n nbnodes : Nat} {t : Nat → Nat → Nat} {L G : Tables K} {B : List Int} {S S' : Setup K}

theorem MovedN.conv_eq (h : MovedN M dim n nbnodes t G L B) (hS : SameProblem M S S') (order : Int) (it : Nat) {v u : Vari K}
    (vL : ValuesG dim L S'.bc v.fields) (vG : ValuesG dim G S.bc u.fields) (hW : ∀ c < n, v.cell c = u.cell c) {gL gG : Grads K}
    (hpsi : ∀ c < n, gL.psi c = gG.psi c)
    (hgr : ∀ c < n, ∀ k < 3, vec3 (gL.wx c) (gL.wy c) (gL.wz c) k = M.scale⁻¹ * M.turn (vec3 (gG.wx c) (gG.wy c) (gG.wz c)) k) (c : Nat) :
    conv dim (convArgs L (fieldsOf S' L it v.cell v.ghost v.halo gL) order) c =
      M.scale * faceUnit M dim * conv dim (convArgs G (fieldsOf S G it u.cell u.ghost u.halo gG) order) c := by
  refine h.mov.conv h.hM h.hd h.cG h.hh ⟨?_, ?_, ?_, ?_, ?_⟩ order c
  · rw [h.nG]; exact hW
  · rw [h.nG]; exact hpsi
  · rw [h.nG]; exact hgr
  · intro f hf
    obtain ⟨g1, eg1⟩ := vL.ghost
    obtain ⟨g2, eg2⟩ := vG.ghost
    show v.fields.ghost _ = u.fields.ghost _
    rw [eg1, eg2]
    exact h.mov.ghost h.cG h.hB (by rw [h.nG]; exact hW) hS.bc _ _ hf
  · intro f hf k hk
    exact h.mov.vel hS it hf k hk

set_option maxHeartbeats 1000000 in
theorem MovedN.tstep (h : MovedN M dim n nbnodes t G L B) (hw : dim = 3 → WedgeOk G ∧ WedgeOk L) (dL dG : RankData K)
    {hgL hgG : Nat → HGResult K} (sL : HGSerial dim L nbnodes (hgL 0)) (sG : HGSerial dim G nbnodes (hgG 0)) (hS : SameProblem M S S') (order : Int)
    (diff : Bool) (s u : TState K) (hm : RMatch n nbnodes id id s u) :
    ∃ s' u', tstep (serW dim dL L hgL) S' order diff s = some s' ∧ tstep (serW dim dG G hgG) S order diff u = some u' ∧ RMatch n nbnodes id id s' u' := by
  have ar : ∀ x : K, allreduceMin 1 (fun _ => x) = x := fun x => by unfold allreduceMin; simp
  have hne : M.scale * faceUnit M dim ≠ 0 := (mul_pos h.hM.pos (faceUnit_pos h.hM)).ne'
  obtain ⟨V1, u1, cu1, _⟩ := serial_update (dim := dim) dL L hgL S'.bc s.V
  obtain ⟨U1, u2, cu2, _⟩ := serial_update (dim := dim) dG G hgG S.bc u.V
  obtain ⟨V2, gL, c1, cc1, vL, grL⟩ := ser_cellGradient (dim := dim) dL L hgL S'.bc V1
  obtain ⟨U2, gG, c2, cc2, vG, grG⟩ := ser_cellGradient (dim := dim) dG G hgG S.bc U1
  have m2 : ∀ c < n, (V2 0).cell c = (U2 0).cell c := by
    intro c hc; rw [cc1, cu1, cc2, cu2]; exact hm.cell c hc
  have hcg := fun c (hc : c < n) => h.cellGrad hS.bc dL dG sL sG (vL 0) (vG 0) m2 hc
  have hgr : ∀ c < n, ∀ k < 3, vec3 ((gL 0).wx c) ((gL 0).wy c) ((gL 0).wz c) k =
      M.scale⁻¹ * M.turn (vec3 ((gG 0).wx c) ((gG 0).wy c) ((gG 0).wz c)) k := by
    intro c hc k hk
    have a1 := (grL 0 c).1
    have b1 := (grG 0 c).1
    have := hcg c hc k hk
    rw [← a1, ← b1] at this
    exact this
  have hpsi : ∀ c < n, (gL 0).psi c = (gG 0).psi c := by
    intro c hc
    rw [(grL 0 c).2, (grG 0 c).2]
    exact h.limiter_eq hS.bc (vL 0) (vG 0) m2 _ _ _ hc (hcg c hc)
  have rez : ∀ c < n, conv dim (convArgs L (fieldsOf S' L s.iter (V2 0).cell (V2 0).ghost (V2 0).halo (gL 0)) order) c =
      M.scale * faceUnit M dim * conv dim (convArgs G (fieldsOf S G u.iter (U2 0).cell (U2 0).ghost (U2 0).halo (gG 0)) order) c := by
    intro c hc
    rw [hm.iter]
    exact h.conv_eq hS order u.iter (vL 0) (vG 0) m2 hpsi hgr c
  have hdt : localStep dim S' L s.iter = localStep dim S G u.iter := by rw [hm.iter]; exact h.mov.dt h.hM h.cG hS (same_trace h.hM hS) u.iter
  have hvol : ∀ c < n, L.volume c = M.scale * faceUnit M dim * G.volume c := fun c hc => h.mov.volume c (by rw [h.nG]; exact hc)
  unfold Run.tstep
  rw [u1, u2]
  simp only [Option.bind_some]
  rw [c1, c2]
  simp only [Option.bind_some]
  cases diff with
  | false =>
    refine ⟨_, _, rfl, rfl, ⟨?_, hm.node, ?_, ?_⟩⟩
    · intro c hc
      dsimp only [serW, updateNewValue, id]
      rw [ar, ar, hdt]
      exact moved_update hne (m2 c hc) (rez c hc) (by rw [mul_zero]) (hvol c hc)
    · show s.time + _ = u.time + _
      rw [ar, ar, hm.time, hdt]
    · show s.iter + 1 = u.iter + 1
      rw [hm.iter]
  | true =>
    obtain ⟨V3, nL, fL, f1, cf1, vL3, hnL, hfL⟩ := ser_faceGradient (dim := dim) dL L hgL S'.bc V2
    obtain ⟨U3, nG, fG, f2, cf2, vG3, hnG, hfG⟩ := ser_faceGradient (dim := dim) dG G hgG S.bc U2
    have m3 : ∀ c < n, (V3 0).cell c = (U3 0).cell c := by
      intro c hc; rw [cf1, cf2]; exact m2 c hc
    have hN : ∀ i < nbnodes, nL 0 i = nG 0 i := by
      intro i hi
      rw [hnL, hnG]
      exact h.nodeValue hS.bc dL dG sL sG (vL3 0) (vG3 0) m3 hi
    have hfg : ∀ f < G.nbfaces, ∀ k < 3, fL 0 f k = M.scale⁻¹ * M.turn (fG 0 f) k := by
      intro f hf k hk
      rw [hfL, hfG]
      exact h.faceGrads_eq hw hS.bc (vL3 0) (vG3 0) m3 _ _ hN hf hk
    rw [if_pos rfl, if_pos rfl, f1, f2]
    simp only [Option.bind_some]
    obtain ⟨V4, n4, g1, cg1, vL4, hn4⟩ := ser_celltonode (dim := dim) dL L hgL S'.bc
      (fun p => { V3 p with cell := (updateNewValue (V3 p).cell (conv dim (convArgs L (fieldsOf S' L s.iter (V2 p).cell (V2 p).ghost (V2 p).halo (gL p)) order))
        (Run.dissip L S' (fL p)) (fun _ => 0) (allreduceMin 1 (fun _ => localStep dim S' L s.iter)) L.volume) })
    obtain ⟨U4, k4, g2, cg2, vG4, hk4⟩ := ser_celltonode (dim := dim) dG G hgG S.bc
      (fun p => { U3 p with cell := (updateNewValue (U3 p).cell (conv dim (convArgs G (fieldsOf S G u.iter (U2 p).cell (U2 p).ghost (U2 p).halo (gG p)) order))
        (Run.dissip G S (fG p)) (fun _ => 0) (allreduceMin 1 (fun _ => localStep dim S G u.iter)) G.volume) })
    have m4 : ∀ c < n, (V4 0).cell c = (U4 0).cell c := by
      intro c hc
      rw [cg1, cg2]
      dsimp only [updateNewValue]
      rw [ar, ar, hdt]
      exact moved_update hne (m3 c hc) (rez c hc) (h.dissip_eq hS (fL 0) (fG 0) hfg hc) (hvol c hc)
    rw [g1, g2]
    refine ⟨_, _, rfl, rfl, ⟨m4, ?_, ?_, ?_⟩⟩
    · intro i hi
      show n4 0 i = k4 0 i
      rw [hn4, hk4]
      exact h.nodeValue hS.bc dL dG sL sG (vL4 0) (vG4 0) m4 hi
    · show s.time + _ = u.time + _
      rw [ar, ar, hm.time, hdt]
    · show s.iter + 1 = u.iter + 1
      rw [hm.iter]

theorem MovedN.tloop (h : MovedN M dim n nbnodes t G L B) (hw : dim = 3 → WedgeOk G ∧ WedgeOk L) (dL dG : RankData K)
    {hgL hgG : Nat → HGResult K} (sL : HGSerial dim L nbnodes (hgL 0)) (sG : HGSerial dim G nbnodes (hgG 0)) (hS : SameProblem M S S') (order : Int)
    (diff : Bool) {f f' : K → K → K → K} (hf : SameField M f f') (N : Nat) :
    ∃ s' u', tloop (serW dim dL L hgL) S' order diff (tstart (serW dim dL L hgL) f') N = some s' ∧
      tloop (serW dim dG G hgG) S order diff (tstart (serW dim dG G hgG) f) N = some u' ∧ RMatch n nbnodes id id s' u' := by
  induction N with
  | zero =>
    refine ⟨_, _, rfl, rfl, ⟨fun c hc => ?_, fun i hi => rfl, rfl, rfl⟩⟩
    have hc' : c < G.nbcells := by rw [h.nG]; exact hc
    show f' (L.center c 0) (L.center c 1) (L.center c 2) = f (G.center c 0) (G.center c 1) (G.center c 2)
    rw [h.mov.center c hc' 0 (by omega), h.mov.center c hc' 1 (by omega), h.mov.center c hc' 2 (by omega)]
    exact hf (G.center c)
  | succ N ih =>
    obtain ⟨s1, t1, e1, e2, m1⟩ := ih
    simp only [Run.tloop, e1, e2, Option.bind_some]
    rw [m1.time, hS.tfinal]
    by_cases ht : t1.time < S.tfinal
    · simp only [if_pos ht]; exact h.tstep hw dL dG sL sG hS order diff s1 t1 m1
    · simp only [if_neg ht]; exact ⟨s1, t1, rfl, rfl, m1⟩

end

/-! ### the tables of the two files -/
section
variable {nodeid : Nat → Nat → Nat} {node node' : Nat → K × K × K × Nat} {nbnodes n : Nat} {M : Motion K}
variable {npart0 npart0' epart epart' : Nat → Nat} {SIZE SIZE' : Nat} {data data' : Nat → RankData K} {serial serial' : RankData K}
variable {sqrt : K → K} {trunc : K → Int} {S S' : Setup K} {init init' : K → K → K → K}

/-- The tables of the two files are related. -/
theorem NodePair.moved {dim : Nat} {cv : Nat → List K} {Ls : Nat → Tables K} {G L : Tables K} {B : List Int} {out : Nat → Nat → Vec K}
    (np : NodePair dim nodeid node cv npart0 epart nbnodes n SIZE data serial Ls G B out trunc) (hM : M.Proper dim) (hmov : MovedT M dim G L)
    (hn : ∀ c < n, ∀ j < dim + 1, nodeid c j < nbnodes) : MovedN M dim n nbnodes nodeid G L B := by
  have R := np.run.rank 0 (by have := np.run.hS; omega)
  refine ⟨hmov, hM, np.run.hd, R.cG, ?_, np.hBe, np.run.hB, np.run.nG, np.nbG, np.cellidG, ?_, ?_, ?_, np.labelG⟩
  · have := R.halo_nil; exact this
  · intro c hc j hj
    have := (np.cnodeG c hc).subset (List.mem_map.mpr ⟨j, List.mem_range.mpr hj, rfl⟩)
    obtain ⟨i, hi, e⟩ := List.mem_map.mp this
    rw [← e]
    exact hn c hc i (List.mem_range.mp hi)
  · intro c hc j hj
    refine ⟨(np.fnodeG c hc j hj).2.1, fun x hx => ?_⟩
    obtain ⟨i, hi, rfl⟩ := (np.fnodeG c hc j hj).2.2 x hx
    exact hn c hc i hi
  · intro f hf
    have h2 := R.sub.two f
    have h1 := R.cG.users_ne hf
    have := List.length_pos_iff.mpr h1
    rcases (show (users G.faceid (dim + 1) G.nbcells f).length = 1 ∨ (users G.faceid (dim + 1) G.nbcells f).length = 2 by omega) with e | e
    · exact Or.inr ((R.nameG f hf).2 e)
    · exact Or.inl ((R.nameG f hf).1 e)

/-- C129 (2D, any order, with or without diffusion): one mesh file and the same file written in other coordinates (`Placed`: another origin,
other axes, another unit of length), the same problem in the new coordinates (`SameProblem`).  After any number of iterations of the transport
driver — gradients, limiter, diffusion and node values included — both runs have reached the same time and hold the same values in the cells
and at the nodes. -/
theorem C129_run_2d (vm : ValidMesh2 nodeid node nbnodes n) (hM : M.Proper 2) (hp : Placed M node node' nbnodes)
    (hr : readMeshFile 1 0 (writeSerial (serialWrite nodeid node nbnodes n 3)) [] = some serial)
    (hr' : readMeshFile 1 0 (writeSerial (serialWrite nodeid node' nbnodes n 3)) [] = some serial')
    (hsq : SqrtUnit sqrt M.scale) (htr : ∀ m : Nat, trunc (m : K) = m) (hS : SameProblem M S S') (hf : SameField M init init')
    (order : Int) (diff : Bool) :
    ∃ W' W, mkWorld 2 1 (fun _ => serial') (fun _ => build2 sqrt trunc 1 serial') = some W' ∧
      mkWorld 2 1 (fun _ => serial) (fun _ => build2 sqrt trunc 1 serial) = some W ∧
      ∀ N, ∃ s' s, tloop W' S' order diff (tstart W' init') N = some s' ∧ tloop W S order diff (tstart W init) N = some s ∧
        s'.time = s.time ∧ s'.iter = s.iter ∧ (∀ c < n, (s'.V 0).cell c = (s.V 0).cell c) ∧
        ∀ k < nbnodes, s'.node 0 k = s.node 0 k := by
  have vm' := placed_valid2 hM hp vm
  obtain ⟨d, h⟩ := launched_of_serial (centvol2 node nodeid) (by decide) vm.nodes vm.used hr
  obtain ⟨d', h'⟩ := launched_of_serial (centvol2 node' nodeid) (by decide) vm'.nodes vm'.used hr'
  have np := h.nodePair2 vm sqrt trunc htr
  obtain ⟨_, hg, _, w, _, sG⟩ := np.worlds
  obtain ⟨_, hg', _, w', _, sG'⟩ := (h'.nodePair2 vm' sqrt trunc htr).worlds
  have R := h.rankOf2 vm sqrt trunc htr (p := 0) (by decide)
  have hn : (build2 sqrt trunc 1 serial).nbcells = n := h.serial_cells.1
  have mt := movedT2 (sqrt := sqrt) (trunc := trunc) hM (by simpa [faceUnit] using hsq) (twin_of hp vm.nodes hr hr')
    (fun f hf => by rw [← hn]; exact R.cG.left_lt hf)
  refine ⟨_, _, w', w, fun N => ?_⟩
  obtain ⟨s', s, e1, e2, m⟩ := (np.moved hM mt vm.nodes).tloop (by omega) serial' serial sG' sG hS order diff hf N
  exact ⟨s', s, e1, e2, m.time, m.iter, m.cell, m.node⟩

/-- C129 (3D, any order, with or without diffusion): see `C129_run_2d`; in three dimensions the unit of the faces is the square of the unit of
length. -/
theorem C129_run_3d (vm : ValidMesh3 nodeid node nbnodes n) (hM : M.Proper 3) (hp : Placed M node node' nbnodes)
    (hr : readMeshFile 1 0 (writeSerial (serialWrite nodeid node nbnodes n 4)) [] = some serial)
    (hr' : readMeshFile 1 0 (writeSerial (serialWrite nodeid node' nbnodes n 4)) [] = some serial')
    (hsq : SqrtUnit sqrt (M.scale ^ 2)) (htr : ∀ m : Nat, trunc (m : K) = m) (hS : SameProblem M S S') (hf : SameField M init init')
    (order : Int) (diff : Bool) :
    ∃ W' W, mkWorld 3 1 (fun _ => serial') (fun _ => build3 sqrt trunc 1 serial') = some W' ∧
      mkWorld 3 1 (fun _ => serial) (fun _ => build3 sqrt trunc 1 serial) = some W ∧
      ∀ N, ∃ s' s, tloop W' S' order diff (tstart W' init') N = some s' ∧ tloop W S order diff (tstart W init) N = some s ∧
        s'.time = s.time ∧ s'.iter = s.iter ∧ (∀ c < n, (s'.V 0).cell c = (s.V 0).cell c) ∧
        ∀ k < nbnodes, s'.node 0 k = s.node 0 k := by
  have vm' := placed_valid3 hM hp vm
  obtain ⟨d, h⟩ := launched_of_serial (centvol3 node nodeid) (by decide) vm.nodes vm.used hr
  obtain ⟨d', h'⟩ := launched_of_serial (centvol3 node' nodeid) (by decide) vm'.nodes vm'.used hr'
  have np := h.nodePair3 vm sqrt trunc htr
  obtain ⟨_, hg, _, w, _, sG⟩ := np.worlds
  obtain ⟨_, hg', _, w', _, sG'⟩ := (h'.nodePair3 vm' sqrt trunc htr).worlds
  have R := h.rankOf3 vm sqrt trunc htr (p := 0) (by decide)
  have hn : (build3 sqrt trunc 1 serial).nbcells = n := h.serial_cells.1
  have mt := movedT3 (sqrt := sqrt) (trunc := trunc) hM (by simpa [faceUnit] using hsq) (twin_of hp vm.nodes hr hr')
    (fun f hf => by rw [← hn]; exact R.cG.left_lt hf)
  refine ⟨_, _, w', w, fun N => ?_⟩
  obtain ⟨s', s, e1, e2, m⟩ := (np.moved hM mt vm.nodes).tloop
    (fun _ => ⟨wedge_build3 sqrt trunc 1 serial, wedge_build3 sqrt trunc 1 serial'⟩) serial' serial sG' sG hS order diff hf N
  exact ⟨s', s, e1, e2, m.time, m.iter, m.cell, m.node⟩

/-- C129 (2D, any order, parallel; partial, as C90: cells meet through faces and the corners on shared nodes are harmless): the two files may be
shared between any numbers of processes in any two ways. -/
theorem C129_run_parallel_2d_partial (h : Launched 3 nodeid node (centvol2 node nodeid) npart0 epart nbnodes n SIZE data serial)
    (h' : Launched 3 nodeid node' (centvol2 node' nodeid) npart0' epart' nbnodes n SIZE' data' serial')
    (vm : ValidMesh2 nodeid node nbnodes n) (hM : M.Proper 2) (hp : Placed M node node' nbnodes) (hsq : SqrtUnit sqrt M.scale)
    (htr : ∀ m : Nat, trunc (m : K) = m) (star : StarConnected 2 nodeid n) (hS : SameProblem M S S') (hf : SameField M init init')
    (hc : CornersOk 2 nodeid epart n (build2 sqrt trunc 1 serial) S.bc)
    (hc' : CornersOk 2 nodeid epart' n (build2 sqrt trunc 1 serial') S'.bc) (order : Int) (diff : Bool) :
    ∃ W' W, mkWorld 2 SIZE' data' (fun p => build2 sqrt trunc SIZE' (data' p)) = some W' ∧
      mkWorld 2 SIZE data (fun p => build2 sqrt trunc SIZE (data p)) = some W ∧
      ∀ N, ∃ s' s, tloop W' S' order diff (tstart W' init') N = some s' ∧ tloop W S order diff (tstart W init) N = some s ∧
        s'.time = s.time ∧ s'.iter = s.iter ∧
        (∀ p < SIZE', ∀ q < SIZE, ∀ i j C, (data' p).loctoglob[i]? = some C → (data q).loctoglob[j]? = some C →
          (s'.V p).cell i = (s.V q).cell j) ∧
        ∀ p < SIZE', ∀ q < SIZE, ∀ i j k, (data' p).nodeloctoglob[i]? = some k → (data q).nodeloctoglob[j]? = some k →
          s'.node p i = s.node q j := by
  have vm' := placed_valid2 hM hp vm
  obtain ⟨W, WG, w, wG, run⟩ := C90_run_2d_partial h vm sqrt trunc htr star
  obtain ⟨W', WG', w', wG', run'⟩ := C90_run_2d_partial h' vm' sqrt trunc htr star
  obtain ⟨X', X, x', x, both⟩ := C129_run_2d vm hM hp h.hserial h'.hserial hsq htr hS hf order diff
  rw [wG] at x; cases x
  rw [wG'] at x'; cases x'
  refine ⟨W', W, w', w, fun N => ?_⟩
  obtain ⟨a, b, e1, e2, m1, m2, m3, m4⟩ := run S hc order diff init N
  obtain ⟨a', b', f1, f2, k1, k2, k3, k4⟩ := run' S' hc' order diff init' N
  obtain ⟨s', s, l1, l2, b1, b2, b3, b4⟩ := both N
  rw [l1] at f2; cases f2
  rw [l2] at e2; cases e2
  refine ⟨a', a, f1, e1, by rw [k1, m1, b1], by rw [k2, m2, b2], ?_, ?_⟩
  · intro p hp q hq i j C hi hj
    have hC : C < n := (((h'.cells hp).1.2 C).mp (List.mem_of_getElem? hi)).1
    exact (k3 p hp i C hi).trans ((b3 C hC).trans (m3 q hq j C hj).symm)
  · intro p hp q hq i j k hi hj
    have hk : k < nbnodes := by
      obtain ⟨C, hC, _, x, hx, rfl⟩ := ((h'.nodes hp).2.2 k).mp (List.mem_of_getElem? hi)
      exact vm.nodes C hC x hx
    rw [k4 p hp i k hi, m4 q hq j k hj, b4 k hk]

/-- C129 (3D, any order, parallel; partial): see `C129_run_parallel_2d_partial`. -/
theorem C129_run_parallel_3d_partial (h : Launched 4 nodeid node (centvol3 node nodeid) npart0 epart nbnodes n SIZE data serial)
    (h' : Launched 4 nodeid node' (centvol3 node' nodeid) npart0' epart' nbnodes n SIZE' data' serial')
    (vm : ValidMesh3 nodeid node nbnodes n) (hM : M.Proper 3) (hp : Placed M node node' nbnodes) (hsq : SqrtUnit sqrt (M.scale ^ 2))
    (htr : ∀ m : Nat, trunc (m : K) = m) (star : StarConnected 3 nodeid n) (hS : SameProblem M S S') (hf : SameField M init init')
    (hc : CornersOk 3 nodeid epart n (build3 sqrt trunc 1 serial) S.bc)
    (hc' : CornersOk 3 nodeid epart' n (build3 sqrt trunc 1 serial') S'.bc) (order : Int) (diff : Bool) :
    ∃ W' W, mkWorld 3 SIZE' data' (fun p => build3 sqrt trunc SIZE' (data' p)) = some W' ∧
      mkWorld 3 SIZE data (fun p => build3 sqrt trunc SIZE (data p)) = some W ∧
      ∀ N, ∃ s' s, tloop W' S' order diff (tstart W' init') N = some s' ∧ tloop W S order diff (tstart W init) N = some s ∧
        s'.time = s.time ∧ s'.iter = s.iter ∧
        (∀ p < SIZE', ∀ q < SIZE, ∀ i j C, (data' p).loctoglob[i]? = some C → (data q).loctoglob[j]? = some C →
          (s'.V p).cell i = (s.V q).cell j) ∧
        ∀ p < SIZE', ∀ q < SIZE, ∀ i j k, (data' p).nodeloctoglob[i]? = some k → (data q).nodeloctoglob[j]? = some k →
          s'.node p i = s.node q j := by
  have vm' := placed_valid3 hM hp vm
  obtain ⟨W, WG, w, wG, run⟩ := C90_run_3d_partial h vm sqrt trunc htr star
  obtain ⟨W', WG', w', wG', run'⟩ := C90_run_3d_partial h' vm' sqrt trunc htr star
  obtain ⟨X', X, x', x, both⟩ := C129_run_3d vm hM hp h.hserial h'.hserial hsq htr hS hf order diff
  rw [wG] at x; cases x
  rw [wG'] at x'; cases x'
  refine ⟨W', W, w', w, fun N => ?_⟩
  obtain ⟨a, b, e1, e2, m1, m2, m3, m4⟩ := run S hc order diff init N
  obtain ⟨a', b', f1, f2, k1, k2, k3, k4⟩ := run' S' hc' order diff init' N
  obtain ⟨s', s, l1, l2, b1, b2, b3, b4⟩ := both N
  rw [l1] at f2; cases f2
  rw [l2] at e2; cases e2
  refine ⟨a', a, f1, e1, by rw [k1, m1, b1], by rw [k2, m2, b2], ?_, ?_⟩
  · intro p hp q hq i j C hi hj
    have hC : C < n := (((h'.cells hp).1.2 C).mp (List.mem_of_getElem? hi)).1
    exact (k3 p hp i C hi).trans ((b3 C hC).trans (m3 q hq j C hj).symm)
  · intro p hp q hq i j k hi hj
    have hk : k < nbnodes := by
      obtain ⟨C, hC, _, x, hx, rfl⟩ := ((h'.nodes hp).2.2 k).mp (List.mem_of_getElem? hi)
      exact vm.nodes C hC x hx
    rw [k4 p hp i k hi, m4 q hq j k hj, b4 k hk]

end

/-- The hypotheses of `C129_run_2d` are met: the strip turned and shifted, any problem with equal diffusion coefficients. -/
example (S : Setup ℚ) (h1 : S.Dyy = S.Dxx) (h2 : S.Dzz = S.Dxx) (order : Int) (diff : Bool) (init : ℚ → ℚ → ℚ → ℚ) :=
  C129_run_2d stripValid turn345_proper (placed_moveNode turn345 stripNode 6) (C25_round_trip_serial (K := ℚ) _ _) (C25_round_trip_serial (K := ℚ) _ _)
    (sqrt_unit_one fun x => x) floor_nat (same_moveSetup turn345_proper S h1 h2) (same_moveField turn345_proper init) order diff

/-- The hypotheses of `C129_run_3d` are met: the chain in the real numbers, turned, shifted and in another unit. -/
example (S : Setup ℝ) (h1 : S.Dyy = S.Dxx) (h2 : S.Dzz = S.Dxx) (order : Int) (diff : Bool) (init : ℝ → ℝ → ℝ → ℝ) :=
  C129_run_3d (validReal3 chainValid) quarterHalf_proper (placed_moveNode quarterHalf (realNode chainNode) 6) (C25_round_trip_serial (K := ℝ) _ _)
    (C25_round_trip_serial (K := ℝ) _ _) (sqrt_unit_real (sq_nonneg _)) floor_real (same_moveSetup quarterHalf_proper S h1 h2)
    (same_moveField quarterHalf_proper init) order diff

theorem moveSetup_neumann {K : Type*} [Field K] (M : Motion K) {S : Setup K} (hS : S.bc = fun _ => BCond.neumann) :
    (moveSetup M S).bc = fun _ => BCond.neumann := by
  funext loc
  show moveBC M (S.bc loc) = _
  rw [hS]; rfl

/-- The hypotheses of the parallel theorems are met. -/
example (S : Setup ℚ) (hS : S.bc = fun _ => BCond.neumann) (h1 : S.Dyy = S.Dxx) (h2 : S.Dzz = S.Dxx) (order : Int) (diff : Bool) (init : ℚ → ℚ → ℚ → ℚ) :=
  C129_run_parallel_2d_partial stripLaunched turnedLaunched stripValid turn345_proper (placed_moveNode turn345 stripNode 6) (sqrt_unit_one fun x => x)
    floor_nat (run_star 2 4) (same_moveSetup turn345_proper S h1 h2) (same_moveField turn345_proper init)
    (hS ▸ neumann_corners _) ((moveSetup_neumann turn345 hS) ▸ neumann_corners _) order diff

example (S : Setup ℚ) (hS : S.bc = fun _ => BCond.neumann) (h1 : S.Dyy = S.Dxx) (h2 : S.Dzz = S.Dxx) (order : Int) (diff : Bool) (init : ℚ → ℚ → ℚ → ℚ) :=
  C129_run_parallel_3d_partial chainLaunched turnedChainLaunched chainValid quarter_proper (placed_moveNode quarter chainNode 6)
    (by rw [show quarter.scale ^ 2 = (1 : ℚ) from by norm_num [quarter]]; exact sqrt_unit_one fun x => x) floor_nat (run_star 3 3)
    (same_moveSetup quarter_proper S h1 h2) (same_moveField quarter_proper init)
    (hS ▸ neumann_corners _) ((moveSetup_neumann quarter hS) ▸ neumann_corners _) order diff

end Verif.Props.Par
