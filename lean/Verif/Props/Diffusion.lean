import Verif.Props.ParSpread

/-! # C104, C105: diffusion in whole runs: insulated sides keep the mass, constant states stay constant -/
set_option linter.unusedSectionVars false
set_option linter.unusedVariables false
set_option linter.unusedSimpArgs false
namespace Verif.Props.Par
open Verif.Fvm Verif.Spec Verif.Conn Verif.Dom Verif.Geo Verif.Names Verif.MeshFile Verif.Part Verif.Comm Verif.Run Verif.HaloGhost Verif.Interp
variable {K : Type*} [Field K] [LinearOrder K] [IsStrictOrderedRing K]

section
variable {nodeid : Nat → Nat → Nat} {node : Nat → K × K × K × Nat} {npart0 epart : Nat → Nat}
  {nbnodes n SIZE : Nat} {data : Nat → RankData K} {serial : RankData K}

/-- Any mesh read on one process is the serial mesh of some launch. -/
theorem launched_of_serial {d1 : Nat} (cv : Nat → List K) (hd : 0 < d1) (hn : ∀ c < n, ∀ j < d1, nodeid c j < nbnodes)
    (hu : ∀ k < nbnodes, ∃ c < n, Uses nodeid d1 c k)
    (hr : readMeshFile 1 0 (writeSerial (serialWrite nodeid node nbnodes n d1)) [] = some serial) :
    ∃ data, Launched d1 nodeid node cv (fun _ => 0) (fun _ => 0) nbnodes n 2 data serial := by
  refine ⟨fun p => expected 2 p (rankWrite nodeid node cv (partition nodeid (fun _ => 0) (fun _ => 0) nbnodes n d1)
      (halos (partition nodeid (fun _ => 0) (fun _ => 0) nbnodes n d1).cpart (partition nodeid (fun _ => 0) (fun _ => 0) nbnodes n d1).haloCell 2)
      nbnodes 2 d1 p), hd, by omega, fun _ _ => by omega, fun i hi j hj => ⟨i, hi, rfl, j, hj, rfl⟩, hu, hn, fun p hp => ?_, hr⟩
  exact C25_round_trip_parallel (K := K) 2 p (by decide) _

theorem ghostNormal_build2 (h : Launched 3 nodeid node (centvol2 node nodeid) npart0 epart nbnodes n SIZE data serial)
    (vm : ValidMesh2 nodeid node nbnodes n) (sqrt : K → K) (hs : ∀ x, 0 < x → sqrt x ≠ 0) (trunc : K → Int) (htr : ∀ m : Nat, trunc (m : K) = m) :
    GhostNormal 2 (build2 sqrt trunc 1 serial) := by
  have np := h.nodePair2 vm sqrt trunc htr
  have h0 : 0 < SIZE := by have := np.run.hS; omega
  have R := np.run.rank 0 h0
  have sd := h.solid2 vm sqrt hs trunc htr
  apply ghostNormal2
  · intro f hf
    have hf1 := ((R.cG.bnd.2 f).mp hf).1
    rw [normal_build2 sqrt trunc 1 serial hf1, orientedNormal2_eq]
    split
    · refine ⟨-1, by norm_num, ?_, ?_⟩ <;> show -1 * rawNormal2 _ _ _ _ = _ <;> simp only [rawNormal2] <;> rfl
    · refine ⟨1, by norm_num, ?_, ?_⟩ <;> simp only [rawNormal2, one_mul] <;> rfl
  · intro f hf
    have hf1 := ((R.cG.bnd.2 f).mp hf).1
    obtain ⟨C, hC, j, hj, rfl⟩ := R.cG.fsurj f hf1
    have hb := sd.big C hC j hj
    rcases R.gkinds hC hj with ⟨_, _, _, e⟩ | ⟨_, _, _, _, _, k, _⟩
    · have hn := R.normalG C hC j hj e
      rw [← hn 0 (by omega), ← hn 1 (by omega), out2_third] at hb
      by_contra hcon
      push Not at hcon
      rw [hcon.1, hcon.2] at hb
      simp at hb
    · exact absurd hf k

/-- Every boundary face of the mesh is a boundary face of some rank. -/
theorem RunPair.bnd_owner {dim : Nat} {L : Nat → Tables K} {G : Tables K} {B : List Int} {out : Nat → Nat → Vec K}
    (h : RunPair dim SIZE n epart data L G B out) {f : Nat} (hf : f ∈ G.boundaryfaces) :
    ∃ p < SIZE, ∃ c < (L p).nbcells, ∃ j < dim + 1, (L p).faceid c j ∈ (L p).boundaryfaces ∧ G.faceid (phi (data p) c) j = f ∧
      (L p).cellid ((L p).faceid c j) 0 = (c : Int) ∧ G.cellid (G.faceid (phi (data p) c) j) 0 = (phi (data p) c : Int) ∧
      (L p).name ((L p).faceid c j) = G.name f ∧ ∀ k < 3, (L p).normal ((L p).faceid c j) k = G.normal f k := by
  have h0 : 0 < SIZE := by have := h.hS; omega
  have R0 := h.rank 0 h0
  have hf1 := ((R0.cG.bnd.2 f).mp hf).1
  obtain ⟨C, hC, e1, j, hj, e2⟩ := users_first (R0.cG.users_ne hf1)
  obtain ⟨p, hp, c, hc, e3⟩ := h.owner (h.nG ▸ hC)
  have R := h.rank p hp
  have e4 : G.faceid (phi (data p) c) j = f := by rw [e3]; exact e2
  rcases R.kinds hc hj with ⟨k1, k2, k3, k4, k5, k6⟩ | ⟨e, _, _, k1, k2, _⟩ | ⟨E, _, row, _, k1, k2, _⟩
  · refine ⟨p, hp, c, hc, j, hj, k1, e4, k5, k6, ?_, fun k hk => ?_⟩
    · rw [← e4]; exact (R.boundary hc hj k1).1
    · rw [R.normalL c hc j hj k5 k hk, ← e4, R.normalG _ (R.sub.lt c hc).1 j hj k6 k hk]
  · rw [e4] at k2; exact absurd (k2 ▸ ((R.cG.bnd.2 f).mp hf).2) R.cG.B0
  · rw [e4] at k2; exact absurd (k2 ▸ ((R.cG.bnd.2 f).mp hf).2) R.cG.B0

end

section
variable {dim : Nat} {nodeid : Nat → Nat → Nat} {node : Nat → K × K × K × Nat} {cv : Nat → List K} {npart0 epart : Nat → Nat}
  {nbnodes n SIZE : Nat} {data : Nat → RankData K} {serial : RankData K} {L : Nat → Tables K} {G : Tables K} {B : List Int}
  {out : Nat → Nat → Vec K} {trunc : K → Int}

theorem insul_serial (h : NodePair dim nodeid node cv npart0 epart nbnodes n SIZE data serial L G B out trunc) (hs : Solid G dim out)
    (hgG : Nat → HGResult K) (hw : dim = 3 → WedgeOk G) (hg : GhostNormal dim G) (S : Setup K)
    (hv : ∀ it, ∀ f ∈ G.boundaryfaces, normalVel G S it f = 0) (hS : NormalDiffusion G S)
    (hb : ∀ f ∈ G.boundaryfaces, S.bc (G.name f) = .neumann) (order : Int) (t : TState K) (N : Nat) :
    ∃ t', tloop (serW dim serial G hgG) S order true t N = some t' ∧
      totalMass (serW dim serial G hgG) t' = totalMass (serW dim serial G hgG) t := by
  refine tloop_inv _ S order true (fun s => totalMass (serW dim serial G hgG) s = totalMass (serW dim serial G hgG) t) ?_ _ rfl N
  intro s hP
  obtain ⟨s', e, hm⟩ := mass_serial_diff h hs hgG hw hg S order s (hv s.iter) hS hb
  exact ⟨s', e, by rw [hm, hP]⟩

theorem insul_par (h : NodePair dim nodeid node cv npart0 epart nbnodes n SIZE data serial L G B out trunc) (hs : Solid G dim out)
    {hgL hgG : Nat → HGResult K} (hw : dim = 3 → WedgeOk G ∧ ∀ p < SIZE, WedgeOk (L p))
    (sL : ∀ p < SIZE, ∃ rows, HGSpec dim SIZE data L p (hgL p) rows) (sG : HGSerial dim G nbnodes (hgG 0))
    (hg : GhostNormal dim G) (S : Setup K) (so : StencilOk dim nodeid epart n G S.bc)
    (hv : ∀ it, ∀ p < SIZE, ∀ f ∈ (L p).boundaryfaces, normalVel (L p) S it f = 0) (hS : ∀ p < SIZE, NormalDiffusion (L p) S)
    (hb : ∀ p < SIZE, ∀ f ∈ (L p).boundaryfaces, S.bc ((L p).name f) = .neumann) (order : Int) (init : K → K → K → K) (N : Nat) :
    ∃ s, tloop (parW dim SIZE data L hgL) S order true (tstart (parW dim SIZE data L hgL) init) N = some s ∧
      totalMass (parW dim SIZE data L hgL) s = totalMass (parW dim SIZE data L hgL) (tstart (parW dim SIZE data L hgL) init) := by
  have m0 := tstart_match h hgL hgG init
  obtain ⟨s, t, e1, e2, m⟩ := tloop_match h hw sL sG S so order true _ _ m0 N
  refine ⟨s, e1, ?_⟩
  obtain ⟨t', e3, hm⟩ := insul_serial h hs hgG (fun e => (hw e).1) hg S
    (fun it f hf => by
      obtain ⟨p, hp, c, hc, j, hj, k1, k2, k3, k4, _⟩ := h.run.bnd_owner hf
      rw [← k2, ← h.run.normalVel_eq S it hp hc hj k3 k4]
      exact hv it p hp _ k1)
    (fun f hf => by
      obtain ⟨p, hp, c, hc, j, hj, k1, _, _, _, _, k5⟩ := h.run.bnd_owner hf
      have := hS p hp _ k1
      rwa [k5 0 (by omega), k5 1 (by omega), k5 2 (by omega)] at this)
    (fun f hf => by
      obtain ⟨p, hp, c, hc, j, hj, k1, _, _, _, k4, _⟩ := h.run.bnd_owner hf
      rw [← k4]; exact hb p hp _ k1)
    order (tstart (serW dim serial G hgG) init) N
  rw [e2] at e3
  obtain rfl := Option.some.inj e3
  have tm : ∀ s : TState K, totalMass (serW dim serial G hgG) s = ∑ C ∈ Finset.range G.nbcells, G.volume C * (s.V 0).cell C := by
    intro s; unfold totalMass; simp [serW]
  rw [tm, tm, h.run.nG] at hm
  rw [totalMass_glue h.run hgL s _ m.cell, totalMass_glue h.run hgL _ _ m0.cell, hm]

theorem const_serial (h : NodePair dim nodeid node cv npart0 epart nbnodes n SIZE data serial L G B out trunc) (hs : Solid G dim out)
    {hgG : Nat → HGResult K} (sG : HGSerial dim G nbnodes (hgG 0)) (hw : dim = 3 → WedgeOk G) (S : Setup K) (q : K)
    (hv : UniformVelocity S) (hb : ∀ loc, BcIn q q (S.bc loc)) (hsur : ∀ s < nbnodes, Surrounded dim nodeid n G s) (order : Int) (N : Nat) :
    ∃ t, tloop (serW dim serial G hgG) S order true (tstart (serW dim serial G hgG) (fun _ _ _ => q)) N = some t ∧
      ∀ C < G.nbcells, (t.V 0).cell C = q :=
  tloop_inv _ S order true (fun t => ∀ C < G.nbcells, (t.V 0).cell C = q)
    (fun t ht => const_serial_diff h hs sG hw S order q hv hb hsur t ht) _ (fun _ _ => rfl) N

theorem const_par (h : NodePair dim nodeid node cv npart0 epart nbnodes n SIZE data serial L G B out trunc) (hs : Solid G dim out)
    {hgL hgG : Nat → HGResult K} (hw : dim = 3 → WedgeOk G ∧ ∀ p < SIZE, WedgeOk (L p))
    (sL : ∀ p < SIZE, ∃ rows, HGSpec dim SIZE data L p (hgL p) rows) (sG : HGSerial dim G nbnodes (hgG 0)) (S : Setup K)
    (so : StencilOk dim nodeid epart n G S.bc) (q : K)
    (hv : UniformVelocity S) (hb : ∀ loc, BcIn q q (S.bc loc)) (hsur : ∀ s < nbnodes, Surrounded dim nodeid n G s) (order : Int) (N : Nat) :
    ∃ s, tloop (parW dim SIZE data L hgL) S order true (tstart (parW dim SIZE data L hgL) (fun _ _ _ => q)) N = some s ∧
      ∀ p < SIZE, ∀ c < (L p).nbcells, (s.V p).cell c = q := by
  obtain ⟨s, t, e1, e2, m⟩ := tloop_match h hw sL sG S so order true _ _ (tstart_match h hgL hgG (fun _ _ _ => q)) N
  obtain ⟨t', e3, hc⟩ := const_serial h hs sG (fun e => (hw e).1) S q hv hb hsur order N
  rw [e2] at e3
  obtain rfl := Option.some.inj e3
  refine ⟨s, e1, fun p hp c hcc => ?_⟩
  rw [m.cell p hp c hcc]
  exact hc _ ((h.run.rank p hp).sub.lt c hcc).1

end

section
variable {nodeid : Nat → Nat → Nat} {node : Nat → K × K × K × Nat} {npart0 epart : Nat → Nat}
  {nbnodes n SIZE : Nat} {data : Nat → RankData K} {serial : RankData K}

/-! ### C104: insulated sides -/

/-- **C104** (2D, one process): on every valid mesh, with Neumann conditions on all sides, no velocity through them and a diffusion tensor
that maps their normals to multiples of themselves, the transport run with diffusion (`compute_face_gradient`,
`explicitscheme_dissipative`) of any order keeps the integral of the variable, after any number of iterations. -/
theorem C104_insulated_serial_2d (vm : ValidMesh2 nodeid node nbnodes n)
    (hr : readMeshFile 1 0 (writeSerial (serialWrite nodeid node nbnodes n 3)) [] = some serial)
    (sqrt : K → K) (hs : ∀ x, 0 < x → sqrt x ≠ 0) (trunc : K → Int) (htr : ∀ m : Nat, trunc (m : K) = m) :
    ∃ W, mkWorld 2 1 (fun _ => serial) (fun _ => build2 sqrt trunc 1 serial) = some W ∧
      ∀ S : Setup K, (∀ it, ∀ f ∈ (W.D 0).boundaryfaces, normalVel (W.D 0) S it f = 0) → NormalDiffusion (W.D 0) S →
        (∀ f ∈ (W.D 0).boundaryfaces, S.bc ((W.D 0).name f) = .neumann) →
        ∀ (order : Int) (init : K → K → K → K) N, ∃ s, tloop W S order true (tstart W init) N = some s ∧
          totalMass W s = totalMass W (tstart W init) := by
  obtain ⟨data, h⟩ := launched_of_serial (centvol2 node nodeid) (by omega) vm.nodes vm.used hr
  have np := h.nodePair2 vm sqrt trunc htr
  obtain ⟨hgL, hgG, w1, w2, sL, sG⟩ := np.worlds
  exact ⟨_, w2, fun S hv hS hb order init N => insul_serial np (h.solid2 vm sqrt hs trunc htr) hgG (by omega)
    (ghostNormal_build2 h vm sqrt hs trunc htr) S hv hS hb order _ N⟩

/-- C104 (3D, one process). -/
theorem C104_insulated_serial_3d (vm : ValidMesh3 nodeid node nbnodes n)
    (hr : readMeshFile 1 0 (writeSerial (serialWrite nodeid node nbnodes n 4)) [] = some serial)
    (sqrt : K → K) (hs : ∀ x, 0 < x → sqrt x ≠ 0) (trunc : K → Int) (htr : ∀ m : Nat, trunc (m : K) = m) :
    ∃ W, mkWorld 3 1 (fun _ => serial) (fun _ => build3 sqrt trunc 1 serial) = some W ∧
      ∀ S : Setup K, (∀ it, ∀ f ∈ (W.D 0).boundaryfaces, normalVel (W.D 0) S it f = 0) → NormalDiffusion (W.D 0) S →
        (∀ f ∈ (W.D 0).boundaryfaces, S.bc ((W.D 0).name f) = .neumann) →
        ∀ (order : Int) (init : K → K → K → K) N, ∃ s, tloop W S order true (tstart W init) N = some s ∧
          totalMass W s = totalMass W (tstart W init) := by
  obtain ⟨data, h⟩ := launched_of_serial (centvol3 node nodeid) (by omega) vm.nodes vm.used hr
  have np := h.nodePair3 vm sqrt trunc htr
  obtain ⟨hgL, hgG, w1, w2, sL, sG⟩ := np.worlds
  exact ⟨_, w2, fun S hv hS hb order init N => insul_serial np (h.solid3 vm sqrt hs trunc htr) hgG (fun _ => wedge_build3 sqrt trunc 1 serial)
    (ghostNormal3 _) S hv hS hb order _ N⟩

/-- C104 (2D, any number of processes, any partition).  Partial: the cells around a node must be connected through faces (else the node
values of two ranks, and the fluxes both compute on their common face, differ: C88). -/
theorem C104_insulated_2d_partial (h : Launched 3 nodeid node (centvol2 node nodeid) npart0 epart nbnodes n SIZE data serial)
    (vm : ValidMesh2 nodeid node nbnodes n) (sqrt : K → K) (hs : ∀ x, 0 < x → sqrt x ≠ 0) (trunc : K → Int) (htr : ∀ m : Nat, trunc (m : K) = m)
    (star : StarConnected 2 nodeid n) :
    ∃ W, mkWorld 2 SIZE data (fun p => build2 sqrt trunc SIZE (data p)) = some W ∧
      ∀ S : Setup K, (∀ it, ∀ p < SIZE, ∀ f ∈ (W.D p).boundaryfaces, normalVel (W.D p) S it f = 0) → (∀ p < SIZE, NormalDiffusion (W.D p) S) →
        (∀ loc, S.bc loc = .neumann) →
        ∀ (order : Int) (init : K → K → K → K) N, ∃ s, tloop W S order true (tstart W init) N = some s ∧
          totalMass W s = totalMass W (tstart W init) := by
  have np := h.nodePair2 vm sqrt trunc htr
  obtain ⟨hgL, hgG, w1, w2, sL, sG⟩ := np.worlds
  exact ⟨_, w1, fun S hv hS hb order init N => insul_par np (h.solid2 vm sqrt hs trunc htr) (by omega) sL sG
    (ghostNormal_build2 h vm sqrt hs trunc htr) S ⟨star, fun F _ _ _ _ => Or.inl (hb _)⟩ hv hS (fun _ _ _ _ => hb _) order init N⟩

/-- C104 (3D, any number of processes, any partition). -/
theorem C104_insulated_3d_partial (h : Launched 4 nodeid node (centvol3 node nodeid) npart0 epart nbnodes n SIZE data serial)
    (vm : ValidMesh3 nodeid node nbnodes n) (sqrt : K → K) (hs : ∀ x, 0 < x → sqrt x ≠ 0) (trunc : K → Int) (htr : ∀ m : Nat, trunc (m : K) = m)
    (star : StarConnected 3 nodeid n) :
    ∃ W, mkWorld 3 SIZE data (fun p => build3 sqrt trunc SIZE (data p)) = some W ∧
      ∀ S : Setup K, (∀ it, ∀ p < SIZE, ∀ f ∈ (W.D p).boundaryfaces, normalVel (W.D p) S it f = 0) → (∀ p < SIZE, NormalDiffusion (W.D p) S) →
        (∀ loc, S.bc loc = .neumann) →
        ∀ (order : Int) (init : K → K → K → K) N, ∃ s, tloop W S order true (tstart W init) N = some s ∧
          totalMass W s = totalMass W (tstart W init) := by
  have np := h.nodePair3 vm sqrt trunc htr
  obtain ⟨hgL, hgG, w1, w2, sL, sG⟩ := np.worlds
  exact ⟨_, w1, fun S hv hS hb order init N => insul_par np (h.solid3 vm sqrt hs trunc htr)
    (fun _ => ⟨wedge_build3 sqrt trunc 1 serial, fun p _ => wedge_build3 sqrt trunc SIZE (data p)⟩) sL sG
    (ghostNormal3 _) S ⟨star, fun F _ _ _ _ => Or.inl (hb _)⟩ hv hS (fun _ _ _ _ => hb _) order init N⟩

/-- An isotropic tensor maps every normal to a multiple of it. -/
theorem C104_isotropic (D : Tables K) (S : Setup K) (h1 : S.Dxx = S.Dyy) (h2 : S.Dyy = S.Dzz) : NormalDiffusion D S :=
  fun f _ => ⟨S.Dzz, by rw [h1, h2], by rw [h2], rfl⟩

/-- So does any diagonal tensor when every boundary face is perpendicular to an axis. -/
theorem C104_axis_aligned (D : Tables K) (S : Setup K)
    (h : ∀ f ∈ D.boundaryfaces, ∃ k < 3, ∀ j < 3, j ≠ k → D.normal f j = 0) : NormalDiffusion D S := by
  intro f hf
  obtain ⟨k, hk, h0⟩ := h f hf
  interval_cases k
  · exact ⟨S.Dxx, rfl, by rw [h0 1 (by omega) (by omega)]; ring, by rw [h0 2 (by omega) (by omega)]; ring⟩
  · exact ⟨S.Dyy, by rw [h0 0 (by omega) (by omega)]; ring, rfl, by rw [h0 2 (by omega) (by omega)]; ring⟩
  · exact ⟨S.Dzz, by rw [h0 0 (by omega) (by omega)]; ring, by rw [h0 1 (by omega) (by omega)]; ring, rfl⟩

/-! ### C105: constant states with diffusion -/

/-- **C105** (2D, one process): when the triangles around every node are spread in the plane, with a uniform velocity and boundary data compatible with the constant `q`, the run with diffusion of any
order keeps `q` in every cell. -/
theorem C105_constant_serial_2d (vm : ValidMesh2 nodeid node nbnodes n)
    (hr : readMeshFile 1 0 (writeSerial (serialWrite nodeid node nbnodes n 3)) [] = some serial)
    (sqrt : K → K) (hs : ∀ x, 0 < x → sqrt x ≠ 0) (trunc : K → Int) (htr : ∀ m : Nat, trunc (m : K) = m) :
    ∃ W, mkWorld 2 1 (fun _ => serial) (fun _ => build2 sqrt trunc 1 serial) = some W ∧
      ((∀ s < nbnodes, Spread2 nodeid node n s) → ∀ (S : Setup K) (q : K), UniformVelocity S → (∀ loc, BcIn q q (S.bc loc)) →
        ∀ (order : Int) N, ∃ s, tloop W S order true (tstart W (fun _ _ _ => q)) N = some s ∧ ∀ c < (W.D 0).nbcells, (s.V 0).cell c = q) := by
  obtain ⟨data, h⟩ := launched_of_serial (centvol2 node nodeid) (by omega) vm.nodes vm.used hr
  have np := h.nodePair2 vm sqrt trunc htr
  obtain ⟨hgL, hgG, w1, w2, sL, sG⟩ := np.worlds
  exact ⟨_, w2, fun hsur S q hv hb order N => const_serial np (h.solid2 vm sqrt hs trunc htr) sG (by omega) S q hv hb (fun s hs' => surrounded2 h vm sqrt trunc htr (hsur s hs')) order N⟩

/-- C105 (3D, one process). -/
theorem C105_constant_serial_3d (vm : ValidMesh3 nodeid node nbnodes n)
    (hr : readMeshFile 1 0 (writeSerial (serialWrite nodeid node nbnodes n 4)) [] = some serial)
    (sqrt : K → K) (hs : ∀ x, 0 < x → sqrt x ≠ 0) (trunc : K → Int) (htr : ∀ m : Nat, trunc (m : K) = m) :
    ∃ W, mkWorld 3 1 (fun _ => serial) (fun _ => build3 sqrt trunc 1 serial) = some W ∧
      ((∀ s < nbnodes, Spread3 nodeid node n s) → ∀ (S : Setup K) (q : K), UniformVelocity S → (∀ loc, BcIn q q (S.bc loc)) →
        ∀ (order : Int) N, ∃ s, tloop W S order true (tstart W (fun _ _ _ => q)) N = some s ∧ ∀ c < (W.D 0).nbcells, (s.V 0).cell c = q) := by
  obtain ⟨data, h⟩ := launched_of_serial (centvol3 node nodeid) (by omega) vm.nodes vm.used hr
  have np := h.nodePair3 vm sqrt trunc htr
  obtain ⟨hgL, hgG, w1, w2, sL, sG⟩ := np.worlds
  exact ⟨_, w2, fun hsur S q hv hb order N => const_serial np (h.solid3 vm sqrt hs trunc htr) sG (fun _ => wedge_build3 sqrt trunc 1 serial)
    S q hv hb (fun s hs' => surrounded3 h vm sqrt hs trunc htr (hsur s hs')) order N⟩

/-- C105 (2D, any number of processes, any partition).  Partial: the cells around a node must be connected through faces and the conditions
must agree at the corners shared by ranks. -/
theorem C105_constant_2d_partial (h : Launched 3 nodeid node (centvol2 node nodeid) npart0 epart nbnodes n SIZE data serial)
    (vm : ValidMesh2 nodeid node nbnodes n) (sqrt : K → K) (hs : ∀ x, 0 < x → sqrt x ≠ 0) (trunc : K → Int) (htr : ∀ m : Nat, trunc (m : K) = m)
    (star : StarConnected 2 nodeid n) :
    ∃ W, mkWorld 2 SIZE data (fun p => build2 sqrt trunc SIZE (data p)) = some W ∧
      ((∀ s < nbnodes, Spread2 nodeid node n s) → ∀ (S : Setup K) (q : K), UniformVelocity S →
        (∀ loc, BcIn q q (S.bc loc)) → CornersOk 2 nodeid epart n (build2 sqrt trunc 1 serial) S.bc →
        ∀ (order : Int) N, ∃ s, tloop W S order true (tstart W (fun _ _ _ => q)) N = some s ∧
          ∀ p < SIZE, ∀ c < (W.D p).nbcells, (s.V p).cell c = q) := by
  have np := h.nodePair2 vm sqrt trunc htr
  obtain ⟨hgL, hgG, w1, w2, sL, sG⟩ := np.worlds
  exact ⟨_, w1, fun hsur S q hv hb hco order N => const_par np (h.solid2 vm sqrt hs trunc htr) (by omega) sL sG S ⟨star, hco⟩ q hv hb (fun s hs' => surrounded2 h vm sqrt trunc htr (hsur s hs')) order N⟩

/-- C105 (3D, any number of processes, any partition). -/
theorem C105_constant_3d_partial (h : Launched 4 nodeid node (centvol3 node nodeid) npart0 epart nbnodes n SIZE data serial)
    (vm : ValidMesh3 nodeid node nbnodes n) (sqrt : K → K) (hs : ∀ x, 0 < x → sqrt x ≠ 0) (trunc : K → Int) (htr : ∀ m : Nat, trunc (m : K) = m)
    (star : StarConnected 3 nodeid n) :
    ∃ W, mkWorld 3 SIZE data (fun p => build3 sqrt trunc SIZE (data p)) = some W ∧
      ((∀ s < nbnodes, Spread3 nodeid node n s) → ∀ (S : Setup K) (q : K), UniformVelocity S →
        (∀ loc, BcIn q q (S.bc loc)) → CornersOk 3 nodeid epart n (build3 sqrt trunc 1 serial) S.bc →
        ∀ (order : Int) N, ∃ s, tloop W S order true (tstart W (fun _ _ _ => q)) N = some s ∧
          ∀ p < SIZE, ∀ c < (W.D p).nbcells, (s.V p).cell c = q) := by
  have np := h.nodePair3 vm sqrt trunc htr
  obtain ⟨hgL, hgG, w1, w2, sL, sG⟩ := np.worlds
  exact ⟨_, w1, fun hsur S q hv hb hco order N => const_par np (h.solid3 vm sqrt hs trunc htr)
    (fun _ => ⟨wedge_build3 sqrt trunc 1 serial, fun p _ => wedge_build3 sqrt trunc SIZE (data p)⟩) sL sG S ⟨star, hco⟩ q hv hb (fun s hs' => surrounded3 h vm sqrt hs trunc htr (hsur s hs')) order N⟩

end

/-! ### The hypotheses hold on the strip of triangles and the chain of tetrahedra -/

theorem stripSpread : ∀ s < 6, Spread2 exStrip stripNode 4 s := by
  intro s hs u c h1 h2
  have e : ∀ C x, C < 4 → s ≠ x → Uses exStrip 3 C s → Uses exStrip 3 C x → (∀ c' < 4, c' ≠ C → ¬ (Uses exStrip 3 c' s ∧ Uses exStrip 3 c' x)) →
      u 0 * (pos stripNode s 1 - pos stripNode x 1) + u 1 * (pos stripNode x 0 - pos stripNode s 0) = 0 := fun C x a b c' d e => h2 C a x b c' d e
  interval_cases s
  · have a := e 0 1 (by decide) (by decide) (by decide) (by decide) (by decide)
    have b := e 0 2 (by decide) (by decide) (by decide) (by decide) (by decide)
    norm_num [pos, stripNode] at a b
    exact ⟨by linarith, by linarith⟩
  · have a := e 0 0 (by decide) (by decide) (by decide) (by decide) (by decide)
    have b := e 1 3 (by decide) (by decide) (by decide) (by decide) (by decide)
    norm_num [pos, stripNode] at a b
    exact ⟨by linarith, by linarith⟩
  · have a := e 0 0 (by decide) (by decide) (by decide) (by decide) (by decide)
    have b := h1 0 (by decide) (by decide)
    have b' := h1 1 (by decide) (by decide)
    norm_num [pos, stripNode, exStrip] at a b b'
    exact ⟨by linarith, by linarith⟩
  · have a := e 1 1 (by decide) (by decide) (by decide) (by decide) (by decide)
    have b := h1 1 (by decide) (by decide)
    have b' := h1 2 (by decide) (by decide)
    norm_num [pos, stripNode, exStrip] at a b b'
    exact ⟨by linarith, by linarith⟩
  · have a := e 3 5 (by decide) (by decide) (by decide) (by decide) (by decide)
    have b := e 2 2 (by decide) (by decide) (by decide) (by decide) (by decide)
    norm_num [pos, stripNode] at a b
    exact ⟨by linarith, by linarith⟩
  · have a := e 3 4 (by decide) (by decide) (by decide) (by decide) (by decide)
    have b := e 3 3 (by decide) (by decide) (by decide) (by decide) (by decide)
    norm_num [pos, stripNode] at a b
    exact ⟨by linarith, by linarith⟩

theorem chainSpread : ∀ s < 6, Spread3 chainCell chainNode 3 s := by
  intro s hs u c _ h2
  have e : ∀ C x y, C < 3 → [s, x, y].Nodup → Uses chainCell 4 C s → Uses chainCell 4 C x → Uses chainCell 4 C y →
      (∀ c' < 3, c' ≠ C → ¬ (Uses chainCell 4 c' s ∧ Uses chainCell 4 c' x ∧ Uses chainCell 4 c' y)) →
      u 0 * cross chainNode s x y 0 + u 1 * cross chainNode s x y 1 + u 2 * cross chainNode s x y 2 = 0 := fun C x y a => h2 C a x y
  interval_cases s
  · have a := e 0 1 2 (by decide) (by decide) (by decide) (by decide) (by decide) (by decide)
    have b := e 0 1 3 (by decide) (by decide) (by decide) (by decide) (by decide) (by decide)
    have d := e 0 2 3 (by decide) (by decide) (by decide) (by decide) (by decide) (by decide)
    norm_num [pos, chainNode, cross] at a b d
    exact ⟨by linarith, by linarith, by linarith⟩
  · have a := e 0 0 2 (by decide) (by decide) (by decide) (by decide) (by decide) (by decide)
    have b := e 0 0 3 (by decide) (by decide) (by decide) (by decide) (by decide) (by decide)
    have d := e 1 2 4 (by decide) (by decide) (by decide) (by decide) (by decide) (by decide)
    norm_num [pos, chainNode, cross] at a b d
    exact ⟨by linarith, by linarith, by linarith⟩
  · have a := e 0 0 1 (by decide) (by decide) (by decide) (by decide) (by decide) (by decide)
    have b := e 0 0 3 (by decide) (by decide) (by decide) (by decide) (by decide) (by decide)
    have d := e 1 1 4 (by decide) (by decide) (by decide) (by decide) (by decide) (by decide)
    norm_num [pos, chainNode, cross] at a b d
    exact ⟨by linarith, by linarith, by linarith⟩
  · have a := e 0 0 1 (by decide) (by decide) (by decide) (by decide) (by decide) (by decide)
    have b := e 0 0 2 (by decide) (by decide) (by decide) (by decide) (by decide) (by decide)
    have d := e 1 1 4 (by decide) (by decide) (by decide) (by decide) (by decide) (by decide)
    norm_num [pos, chainNode, cross] at a b d
    exact ⟨by linarith, by linarith, by linarith⟩
  · have a := e 1 1 2 (by decide) (by decide) (by decide) (by decide) (by decide) (by decide)
    have b := e 1 1 3 (by decide) (by decide) (by decide) (by decide) (by decide) (by decide)
    have d := e 2 2 5 (by decide) (by decide) (by decide) (by decide) (by decide) (by decide)
    norm_num [pos, chainNode, cross] at a b d
    exact ⟨by linarith, by linarith, by linarith⟩
  · have a := e 2 2 3 (by decide) (by decide) (by decide) (by decide) (by decide) (by decide)
    have b := e 2 2 4 (by decide) (by decide) (by decide) (by decide) (by decide) (by decide)
    have d := e 2 3 4 (by decide) (by decide) (by decide) (by decide) (by decide) (by decide)
    norm_num [pos, chainNode, cross] at a b d
    exact ⟨by linarith, by linarith, by linarith⟩

/-- Diffusion with insulated walls and no velocity. -/
def heatSetup (a : ℚ) : Setup ℚ :=
  { flowSetup with bc := fun _ => BCond.neumann, u := fun _ _ _ _ => 0, v := fun _ _ _ _ => 0, w := fun _ _ _ _ => 0, Dxx := a, Dyy := a, Dzz := a }

theorem heat_still (D : Tables ℚ) (a : ℚ) (it f : Nat) : normalVel D (heatSetup a) it f = 0 := by
  simp [normalVel, heatSetup]

example : ∃ W, mkWorld 2 1 (fun _ => stripSerial) (fun _ => build2 (fun x => x) Rat.floor 1 stripSerial) = some W ∧
    ∀ N, ∃ s, tloop W (heatSetup (1 / 7)) 2 true (tstart W (fun x _ _ => x ^ 2)) N = some s ∧
      totalMass W s = totalMass W (tstart W (fun x _ _ => x ^ 2)) := by
  obtain ⟨W, e, h⟩ := C104_insulated_serial_2d stripValid stripLaunched.hserial (fun x => x) (fun x hx => ne_of_gt hx) Rat.floor floor_nat
  exact ⟨W, e, h _ (fun it f _ => heat_still _ _ it f) (C104_isotropic _ _ rfl rfl) (fun _ _ => rfl) 2 _⟩

example : ∃ W, mkWorld 3 2 chainData (fun p => build3 (fun x => x) Rat.floor 2 (chainData p)) = some W ∧
    ∀ N, ∃ s, tloop W (heatSetup (1 / 7)) 1 true (tstart W (fun x y _ => x * y)) N = some s ∧
      totalMass W s = totalMass W (tstart W (fun x y _ => x * y)) := by
  obtain ⟨W, e, h⟩ := C104_insulated_3d_partial chainLaunched chainValid (fun x => x) (fun x hx => ne_of_gt hx) Rat.floor floor_nat (run_star 3 3)
  exact ⟨W, e, h _ (fun it p _ f _ => heat_still _ _ it f) (fun _ _ => C104_isotropic _ _ rfl rfl) (fun _ => rfl) 1 _⟩

example : ∃ W, mkWorld 2 2 stripData (fun p => build2 (fun x => x) Rat.floor 2 (stripData p)) = some W ∧
    ∀ N, ∃ s, tloop W { flowSetup with bc := fun _ => BCond.neumann } 2 true (tstart W (fun _ _ _ => 5)) N = some s ∧
      ∀ p < 2, ∀ c < (W.D p).nbcells, (s.V p).cell c = 5 := by
  obtain ⟨W, e, h⟩ := C105_constant_2d_partial stripLaunched stripValid (fun x => x) (fun x hx => ne_of_gt hx) Rat.floor floor_nat (run_star 2 4)
  exact ⟨W, e, h stripSpread { flowSetup with bc := fun _ => BCond.neumann } 5 (flowSetup_ok 2).1 (fun _ => by simp [BcIn]) (neumann_corners _) 2⟩

example : ∃ W, mkWorld 3 1 (fun _ => chainSerial) (fun _ => build3 (fun x => x) Rat.floor 1 chainSerial) = some W ∧
    ∀ N, ∃ s, tloop W { flowSetup with Dyy := 3 } 1 true (tstart W (fun _ _ _ => 1 / 2)) N = some s ∧
      ∀ c < (W.D 0).nbcells, (s.V 0).cell c = 1 / 2 := by
  obtain ⟨W, e, h⟩ := C105_constant_serial_3d chainValid chainLaunched.hserial (fun x => x) (fun x hx => ne_of_gt hx) Rat.floor floor_nat
  exact ⟨W, e, h chainSpread { flowSetup with Dyy := 3 } (1 / 2) (flowSetup_ok 3).1
    (fun loc => by by_cases h : loc = 1 <;> simp [flowSetup, h, BcIn]) 1⟩
end Verif.Props.Par
