import Verif.Props.RunFlow

/-! Helper lemmas: the diffusive flux through insulated boundary faces and the mass balance of a run with diffusion. -/
set_option linter.unusedSectionVars false
set_option linter.unusedVariables false
set_option linter.unusedSimpArgs false
namespace Verif.Props.Par
open Verif.Fvm Verif.Spec Verif.Conn Verif.Dom Verif.Geo Verif.Names Verif.MeshFile Verif.Part Verif.Comm Verif.Run Verif.HaloGhost Verif.Interp
variable {K : Type*} [Field K] [LinearOrder K] [IsStrictOrderedRing K]

/-- Around node `s` the cell centres and the ghost points of the boundary faces do not all lie on a line (2D), in a plane (3D); if they
did, the interpolation weights of the node would divide by zero. -/
def Surrounded (dim : Nat) (nodeid : Nat → Nat → Nat) (n : Nat) (D : Tables K) (s : Nat) : Prop :=
  ∀ (u : Nat → K) (c : K), (∀ C < n, Uses nodeid (dim + 1) C s → ∑ k ∈ Finset.range dim, u k * D.center C k = c) →
    (∀ f ∈ D.boundaryfaces, s ∈ D.fnode f → ∑ k ∈ Finset.range dim, u k * (ghostPoint dim D f).getD k 0 = c) → ∀ k < dim, u k = 0

/-- The ghost point of every boundary face lies on the normal through the cell centre. -/
def GhostNormal (dim : Nat) (D : Tables K) : Prop :=
  ∀ f ∈ D.boundaryfaces, ∃ t, ∀ k < dim, (ghostPoint dim D f).getD k 0 - D.center (idx (D.cellid f 0)) k = t * D.normal f k

theorem ghostNormal3 (D : Tables K) : GhostNormal 3 D := by
  intro f _
  refine ⟨2 * (ghostcenter3 (D.normal f) (D.mesure f) (D.fcenter f) (D.center (idx (D.cellid f 0)))).2 / D.mesure f, fun k hk => ?_⟩
  unfold ghostPoint
  interval_cases k <;> simp [ghostcenter3] <;> ring

theorem ghostNormal2 (D : Tables K)
    (hn : ∀ f ∈ D.boundaryfaces, ∃ s : K, s ≠ 0 ∧ D.normal f 0 = s * (D.vertex ((D.fnode f).getD 0 0) 1 - D.vertex ((D.fnode f).getD 1 0) 1) ∧
      D.normal f 1 = s * (D.vertex ((D.fnode f).getD 1 0) 0 - D.vertex ((D.fnode f).getD 0 0) 0))
    (h0 : ∀ f ∈ D.boundaryfaces, D.normal f 0 ≠ 0 ∨ D.normal f 1 ≠ 0) : GhostNormal 2 D := by
  intro f hf
  obtain ⟨s, s0, e0, e1⟩ := hn f hf
  obtain ⟨P, hP⟩ : ∃ P, P = D.vertex ((D.fnode f).getD 0 0) := ⟨_, rfl⟩
  obtain ⟨Q, hQ⟩ : ∃ Q, Q = D.vertex ((D.fnode f).getD 1 0) := ⟨_, rfl⟩
  obtain ⟨v, hv⟩ : ∃ v, v = D.center (idx (D.cellid f 0)) := ⟨_, rfl⟩
  rw [← hP, ← hQ] at e0 e1
  have hd : (Q 0 - P 0) ^ 2 + (Q 1 - P 1) ^ 2 ≠ 0 := by
    intro hz
    have a := sq_nonneg (Q 0 - P 0)
    have b := sq_nonneg (Q 1 - P 1)
    have a0 : Q 0 - P 0 = 0 := pow_eq_zero_iff (two_ne_zero) |>.mp (by linarith)
    have b0 : Q 1 - P 1 = 0 := pow_eq_zero_iff (two_ne_zero) |>.mp (by linarith)
    rcases h0 f hf with h | h
    · exact h (by rw [e0]; linear_combination -s * b0)
    · exact h (by rw [e1]; linear_combination s * a0)
  refine ⟨2 * ((v 1 - P 1) * (P 0 - Q 0) - (v 0 - P 0) * (P 1 - Q 1)) / (s * ((Q 0 - P 0) ^ 2 + (Q 1 - P 1) ^ 2)), fun k hk => ?_⟩
  unfold ghostPoint
  rw [← hP, ← hQ, ← hv, if_pos rfl]
  obtain ⟨w, hw⟩ : ∃ w, w = (Q 0 - P 0) ^ 2 + (Q 1 - P 1) ^ 2 := ⟨_, rfl⟩
  interval_cases k
  · rw [e0]
    simp only [ghostcenter2, List.getD_cons_zero]
    rw [← hw] at hd ⊢
    field_simp
    rw [hw]; ring
  · rw [e1]
    simp only [ghostcenter2, List.getD_cons_zero, List.getD_cons_succ]
    rw [← hw] at hd ⊢
    field_simp
    rw [hw]; ring

/-- No diffusive flux through a boundary face with the same value on both sides. -/
theorem insul_flux {D : Tables K} {B : List Int} {dim : Nat} (h : Consistent D (dim + 1) B) (hd : dim = 2 ∨ dim = 3)
    (hB : B = if dim = 2 then [1, 2, 3, 4] else [1, 2, 3, 4, 5, 6]) (hw : dim = 3 → WedgeOk D) (hg : GhostNormal dim D)
    (S : Setup K) (hS : NormalDiffusion D S) (w : Interp.Fields K) (node : Nat → K) {f : Nat} (hf : f ∈ D.boundaryfaces)
    (he : w.ghost f = w.c (idx (D.cellid f 0))) :
    diffFlux (fun f => faceGrads dim D S.bc w node f 0) (fun f => faceGrads dim D S.bc w node f 1) (fun f => faceGrads dim D S.bc w node f 2)
      D.normal S.Dxx S.Dyy S.Dzz f = 0 := by
  obtain ⟨hf1, hf2⟩ := (h.bnd.2 f).mp hf
  obtain ⟨lam, l0, l1, l2⟩ := hS f hf
  obtain ⟨t, ht⟩ := hg f hf
  have n0 : D.name f ≠ 0 := fun x => h.B0 (x ▸ hf2)
  have n10 : D.name f ≠ 10 := fun x => h.B10 (x ▸ hf2)
  have ev : (sideR dim D w f).2 = (sideL dim D w f).2 := by
    unfold sideR sideL cut otherVal
    simp only [if_neg n0, if_neg n10]
    exact he
  have ep : ∀ k < dim, (sideR dim D w f).1 k - (sideL dim D w f).1 k = t * D.normal f k := by
    intro k hk
    unfold sideR sideL cut otherPt
    simp only [if_neg n0, if_neg n10, if_pos hk]
    exact ht k hk
  unfold diffFlux
  rw [l0, l1, l2]
  rcases hd with rfl | rfl
  · simp only [faceGrads_pts2 h (by simpa using hB) S.bc w node hf1 (Or.inr (Or.inr hf2))]
    obtain ⟨l, hl⟩ : ∃ l, l = sideL 2 D w f := ⟨_, rfl⟩
    obtain ⟨r, hr⟩ : ∃ r, r = sideR 2 D w f := ⟨_, rfl⟩
    rw [← hl, ← hr] at ev ep ⊢
    have p0 := ep 0 (by omega)
    have p1 := ep 1 (by omega)
    simp only [gradPts2]
    rw [ev, show l.1 1 - r.1 1 = - (t * D.normal f 1) by rw [← p1]; ring, show l.1 0 - r.1 0 = - (t * D.normal f 0) by rw [← p0]; ring]
    ring
  · have hk := fun k hk => faceGrads_pts3 h (by simpa using hB) (hw rfl) S.bc w node hf1 (Or.inr (Or.inr hf2)) (k := k) hk
    show faceGrads 3 D S.bc w node f 0 * _ + faceGrads 3 D S.bc w node f 1 * _ + faceGrads 3 D S.bc w node f 2 * _ = 0
    rw [hk 0 (by omega), hk 1 (by omega), hk 2 (by omega)]
    obtain ⟨l, hl⟩ : ∃ l, l = sideL 3 D w f := ⟨_, rfl⟩
    obtain ⟨r, hr⟩ : ∃ r, r = sideR 3 D w f := ⟨_, rfl⟩
    rw [← hl, ← hr] at ev ep ⊢
    have p0 := ep 0 (by omega)
    have p1 := ep 1 (by omega)
    have p2 := ep 2 (by omega)
    unfold gradPts3
    simp only [wedge]
    rw [ev, p0, p1, p2]
    ring

section
variable {dim : Nat} {nodeid : Nat → Nat → Nat} {node : Nat → K × K × K × Nat} {cv : Nat → List K} {npart0 epart : Nat → Nat}
  {nbnodes n SIZE : Nat} {data : Nat → RankData K} {serial : RankData K} {L : Nat → Tables K} {G : Tables K} {B : List Int}
  {out : Nat → Nat → Vec K} {trunc : K → Int}

theorem serial_update (serial : RankData K) (G : Tables K) (hgG : Nat → HGResult K) (bc : Int → BCond K) (U : Nat → Vari K) :
    ∃ U', updateValues (serW dim serial G hgG) bc U = some U' ∧ (∀ p, (U' p).cell = (U p).cell) ∧ ∀ p, ValuesG dim G bc (U' p).fields := by
  refine ⟨updateGhostValue (serW dim serial G hgG) bc (fun p => { U p with halo := [[]].getD p [] }), ?_, fun p => rfl, fun p => ⟨⟨_, rfl⟩⟩⟩
  unfold updateValues updateHaloValue; rw [exchange_serial]; rfl

/-- One iteration with diffusion on one process. -/
theorem tstep_serial_diff (serial : RankData K) (G : Tables K) (hgG : Nat → HGResult K) (S : Setup K) (order : Int) (t : TState K) :
    ∃ (t' : TState K) (gr : Grads K) (u w : Vari K) (nd : Nat → K), tstep (serW dim serial G hgG) S order true t = some t' ∧
      u.cell = (t.V 0).cell ∧ w.cell = (t.V 0).cell ∧ ValuesG dim G S.bc u.fields ∧ ValuesG dim G S.bc w.fields ∧
      nd = nodeValues dim 1 serial G (hgG 0) w.fields ∧
      (∀ c, (gr.wx c, gr.wy c, gr.wz c) = cellGrads dim 1 serial G (hgG 0) u.fields c) ∧
      t'.time = t.time + localStep dim S G t.iter ∧ t'.iter = t.iter + 1 ∧
      (t'.V 0).cell = updateNewValue (t.V 0).cell (conv dim (convArgs G (fieldsOf S G t.iter (t.V 0).cell u.ghost u.halo gr) order))
        (Run.dissip G S (faceGrads dim G S.bc w.fields nd)) (fun _ => 0) (localStep dim S G t.iter) G.volume := by
  obtain ⟨U1, e1, c1, _⟩ := serial_update (dim := dim) serial G hgG S.bc t.V
  obtain ⟨U2, e2, c2, v2⟩ := serial_update (dim := dim) serial G hgG S.bc U1
  obtain ⟨U3, e3, c3, v3⟩ := serial_update (dim := dim) serial G hgG S.bc U2
  obtain ⟨g, eg⟩ : ∃ g : Nat → Nat → K × K × K, g = fun p => cellGrads dim 1 serial G (hgG p) (U2 p).fields := ⟨_, rfl⟩
  have hcg : cellGradient (serW dim serial G hgG) S.bc U1 = some (U2, fun p => ⟨fun c => (g p c).1, fun c => (g p c).2.1, fun c => (g p c).2.2,
      limiter dim (limEps dim) G (U2 p).fields (g p), [[]].getD p [], [[]].getD p [], [[]].getD p [], [[]].getD p []⟩) := by
    unfold cellGradient
    rw [e2]
    subst eg
    simp only [Option.bind_some, exchange_serial, Option.map_some]
  obtain ⟨gr, egr⟩ : ∃ gr : Nat → Grads K, gr = fun p => ⟨fun c => (g p c).1, fun c => (g p c).2.1, fun c => (g p c).2.2,
      limiter dim (limEps dim) G (U2 p).fields (g p), [[]].getD p [], [[]].getD p [], [[]].getD p [], [[]].getD p []⟩ := ⟨_, rfl⟩
  rw [← egr] at hcg
  obtain ⟨nd, end'⟩ : ∃ nd : Nat → Nat → K, nd = fun p => nodeValues dim 1 serial G (hgG p) (U3 p).fields := ⟨_, rfl⟩
  have hfg : faceGradient (serW dim serial G hgG) S.bc U2 = some (U3, nd, fun p => faceGrads dim G S.bc (U3 p).fields (nd p)) := by
    unfold faceGradient celltonode
    rw [e3, end']; rfl
  have hdt : allreduceMin 1 (fun _ => localStep dim S G t.iter) = localStep dim S G t.iter := by unfold allreduceMin; simp
  obtain ⟨N, eN⟩ : ∃ N : Nat → Vari K, N = fun p => { U3 p with cell := (updateNewValue (U3 p).cell (conv dim (convArgs G (fieldsOf S G t.iter (U2 p).cell (U2 p).ghost (U2 p).halo (gr p)) order))
        (Run.dissip G S (faceGrads dim G S.bc (U3 p).fields (nd p))) (fun _ => 0) (allreduceMin 1 (fun _ => localStep dim S G t.iter)) G.volume) } := ⟨_, rfl⟩
  obtain ⟨U4, e4, c4, _⟩ := serial_update (dim := dim) serial G hgG S.bc N
  refine ⟨{ V := U4, node := fun p => nodeValues dim 1 serial G (hgG p) (U4 p).fields, time := t.time + localStep dim S G t.iter, iter := t.iter + 1 },
    gr 0, U2 0, U3 0, nd 0, ?_, by rw [c2, c1], by rw [c3, c2, c1], v2 0, v3 0, by rw [end'], ?_, rfl, rfl, ?_⟩
  · unfold tstep
    rw [e1]
    simp only [Option.bind_some]
    rw [hcg]
    simp only [Option.bind_some, if_true]
    rw [hfg]
    simp only [Option.bind_some]
    have : celltonode (serW dim serial G hgG) S.bc N = some (U4, fun p => nodeValues dim 1 serial G (hgG p) (U4 p).fields) := by
      unfold celltonode; rw [e4]; rfl
    rw [eN] at this
    rw [this, hdt]
    rfl
  · intro c; rw [egr, eg]
  · show (U4 0).cell = _
    rw [c4, eN]
    show updateNewValue (U3 0).cell _ _ _ _ _ = _
    rw [hdt, c3, c2, c1]

/-- The mass balance of one iteration with diffusion on one process, every boundary face insulated. -/
theorem mass_serial_diff (h : NodePair dim nodeid node cv npart0 epart nbnodes n SIZE data serial L G B out trunc) (hs : Solid G dim out)
    (hgG : Nat → HGResult K) (hw : dim = 3 → WedgeOk G) (hg : GhostNormal dim G) (S : Setup K) (order : Int) (t : TState K)
    (hv : ∀ f ∈ G.boundaryfaces, normalVel G S t.iter f = 0) (hS : NormalDiffusion G S)
    (hb : ∀ f ∈ G.boundaryfaces, S.bc (G.name f) = .neumann) :
    ∃ t', tstep (serW dim serial G hgG) S order true t = some t' ∧
      totalMass (serW dim serial G hgG) t' = totalMass (serW dim serial G hgG) t := by
  obtain ⟨t', gr, u, w, nd, e, cu, cw, vu, vw, _, _, ht, hi, hnew⟩ := tstep_serial_diff (dim := dim) serial G hgG S order t
  refine ⟨t', e, ?_⟩
  have h0 : 0 < SIZE := by have := h.run.hS; omega
  have R := h.run.rank 0 h0
  have tm : ∀ s : TState K, totalMass (serW dim serial G hgG) s = ∑ C ∈ Finset.range G.nbcells, G.volume C * (s.V 0).cell C := by
    intro s; unfold totalMass; simp [serW]
  rw [tm, tm, hnew]
  obtain ⟨F, hF⟩ : ∃ F, F = fieldsOf S G t.iter (t.V 0).cell u.ghost u.halo gr := ⟨_, rfl⟩
  rw [← hF]
  have hsum := sum_balance (convArgs G F order) dim G.nbcells (R.facesOK _ _ _)
  rw [show (convArgs G F order).periodicboundaryfaces = [] from R.cG.per, show (convArgs G F order).halofaces = [] from R.halo_nil] at hsum
  rw [show (convArgs G F order).boundaryfaces = G.boundaryfaces from rfl] at hsum
  simp only [List.map_nil, List.sum_nil, zero_add] at hsum
  have hz : (G.boundaryfaces.map (boundaryFlux (convArgs G F order) dim)).sum = 0 := by
    apply List.sum_eq_zero
    intro x hx
    obtain ⟨f, hf, rfl⟩ := List.mem_map.mp hx
    unfold boundaryFlux
    have : Spec.vn (convArgs G F order) f = normalVel G S t.iter f := by rw [hF]; rfl
    rw [this, hv f hf]; simp [upwind]
  rw [hz] at hsum
  have hdis : ∑ C ∈ Finset.range G.nbcells, Run.dissip G S (faceGrads dim G S.bc w.fields nd) C = 0 := by
    unfold Run.dissip
    rw [C04_dissipative_conservative]
    · apply List.sum_eq_zero
      intro x hx
      obtain ⟨f, hf, rfl⟩ := List.mem_map.mp hx
      rw [List.mem_filter, List.mem_range] at hf
      have hfb : f ∈ G.boundaryfaces := by
        rw [R.cG.bnd.2]
        exact ⟨hf.1, (h.nameG_cases hf.1).resolve_left (by simpa using hf.2)⟩
      refine insul_flux R.cG h.run.hd h.hBe hw hg S hS w.fields nd hfb ?_
      obtain ⟨g0, e0⟩ := vw.ghost
      rw [e0, updateGhosts_apply _ _ _ _ _ hf.1 (h.run.hB _ ((R.cG.bnd.2 f).mp hfb).2), hb f hfb]
      rfl
    · intro f hf
      obtain ⟨C, hC, j, hj, rfl⟩ := R.cG.fsurj f hf
      rcases R.gkinds hC hj with ⟨_, _, _, e⟩ | ⟨E, hE, _, _, _, _, ⟨e, _⟩ | ⟨e, _⟩⟩ <;> rw [e] <;> exact ⟨by omega, by exact_mod_cast (by assumption)⟩
    · intro f hf hn
      obtain ⟨C, hC, j, hj, rfl⟩ := R.cG.fsurj f hf
      rcases R.gkinds hC hj with ⟨hB, _, _, e⟩ | ⟨E, hE, _, _, _, _, ⟨_, e⟩ | ⟨_, e⟩⟩
      · rw [hn] at hB; exact absurd hB R.cG.B0
      · rw [e]; exact ⟨by omega, by exact_mod_cast hE⟩
      · rw [e]; exact ⟨by omega, by exact_mod_cast hC⟩
  have e1 : ∀ C ∈ Finset.range G.nbcells, G.volume C * updateNewValue (t.V 0).cell (conv dim (convArgs G F order))
      (Run.dissip G S (faceGrads dim G S.bc w.fields nd)) (fun _ => 0) (localStep dim S G t.iter) G.volume C =
      G.volume C * (t.V 0).cell C + localStep dim S G t.iter * (balance (convArgs G F order) dim C + Run.dissip G S (faceGrads dim G S.bc w.fields nd) C) := by
    intro C hC
    have hv := (hs.vpos C (Finset.mem_range.mp hC)).ne'
    unfold updateNewValue
    rw [conv_balance R.cG _ _ h.run.hd]
    field_simp
    ring
  rw [Finset.sum_congr rfl e1, Finset.sum_add_distrib, ← Finset.mul_sum, Finset.sum_add_distrib, hsum, hdis]
  ring

/-- The stencil of a node in the serial run. -/
theorem NodePair.node_stencilG (h : NodePair dim nodeid node cv npart0 epart nbnodes n SIZE data serial L G B out trunc) {bc : Int → BCond K}
    {hgG : HGResult K} (sG : HGSerial dim G nbnodes hgG) {wG : Interp.Fields K} (vG : ValuesG dim G bc wG) {s : Nat} (hi : s < nbnodes) :
    (nodeStencil dim (nodeTabs dim 1 serial G hgG) wG s).map (cut dim) =
      (users nodeid (dim + 1) n s).map (EC dim G wG.c) ++ (bf G s).map (EF dim G wG.c bc) := by
  obtain ⟨g2, hg2⟩ := vG.ghost
  obtain ⟨mG, eoG⟩ := sG.own _ hi
  obtain ⟨mH, ehG⟩ := sG.other _ hi
  have hper : periodicPart dim (nodeTabs dim 1 serial G hgG) wG s = [] := by
    unfold periodicPart nodeTabs; simp
  have hown := h.own_partG bc wG.c g2 s mG
  rw [← hg2] at hown
  unfold nodeStencil
  rw [hper, List.append_nil, List.map_append, List.map_append]
  have e3 : (if (nodeTabs dim 1 serial G hgG).namen s = 10 then
      ghostPart ((nodeTabs dim 1 serial G hgG).haloghosts s) wG.haloghost ++
      ((nodeTabs dim 1 serial G hgG).haloidn s).map (fun c => ((nodeTabs dim 1 serial G hgG).centerh c, wG.halo c)) else []) = [] := by
    have a1 : (nodeTabs dim 1 serial G hgG).haloidn s = [] := by
      unfold nodeTabs haloidn; simp
    have a2 : ghostPart ((nodeTabs dim 1 serial G hgG).haloghosts s) wG.haloghost = [] := by
      show ghostPart ((hgG.haloghosts s).map rowPt) wG.haloghost = []
      rw [ehG, ghostPart_nil]
    rw [a1, a2]; simp
  rw [e3, List.map_nil, List.append_nil]
  congr 1
  · show List.map _ (List.map _ ((nodeCells G.cnode G.nbcells (dim + 1)).1 s)) = _
    rw [h.cellidG, List.map_map]
    rfl
  · show List.map _ (if firstGhost ((hgG.ghosts s).map rowPt) ≠ -1 then ghostPart ((hgG.ghosts s).map rowPt) wG.ghost else []) = _
    rw [eoG, firstGhost_pad _ _ _ (rowOf_last _ _ _)]
    exact hown

theorem NodePair.ghost_const (h : NodePair dim nodeid node cv npart0 epart nbnodes n SIZE data serial L G B out trunc) {bc : Int → BCond K}
    (W : Nat → K) (q : K) (hW : ∀ C < G.nbcells, W C = q) (hb : ∀ loc, BcIn q q (bc loc)) {f : Nat} (hf : f ∈ G.boundaryfaces) :
    ghostVal G W f (bc (G.name f)) = q := by
  have h0 : 0 < SIZE := by have := h.run.hS; omega
  have R := h.run.rank 0 h0
  obtain ⟨c, hc, e⟩ := R.first_lt ((R.cG.bnd.2 f).mp hf).1
  have := ghostVal_in G W f (bc (G.name f)) q q (hb _) (by rw [e]; show q ≤ W c ∧ W c ≤ q; rw [hW c hc]; exact ⟨le_refl _, le_refl _⟩)
  exact le_antisymm this.2 this.1

/-- The node values of a constant state. -/
theorem node_const (h : NodePair dim nodeid node cv npart0 epart nbnodes n SIZE data serial L G B out trunc) {bc : Int → BCond K}
    {hgG : HGResult K} (sG : HGSerial dim G nbnodes hgG) {wG : Interp.Fields K} (vG : ValuesG dim G bc wG) (q : K)
    (hw : ∀ C < G.nbcells, wG.c C = q) (hb : ∀ loc, BcIn q q (bc loc)) {s : Nat} (hi : s < nbnodes) (hsur : Surrounded dim nodeid n G s) :
    nodeValues dim 1 serial G hgG wG s = q := by
  have st := h.node_stencilG sG vG hi
  have vals : ∀ x ∈ nodeStencil dim (nodeTabs dim 1 serial G hgG) wG s, x.2 = q := by
    intro x hx
    have hm : cut dim x ∈ (nodeStencil dim (nodeTabs dim 1 serial G hgG) wG s).map (cut dim) := List.mem_map_of_mem hx
    rw [st, List.mem_append] at hm
    have e : x.2 = (cut dim x).2 := rfl
    rcases hm with hm | hm
    · obtain ⟨C, hC, e1⟩ := List.mem_map.mp hm
      rw [e, ← e1]
      exact hw C (by rw [h.run.nG]; exact ((mem_users _ _ _ _ _).mp hC).1)
    · obtain ⟨f, hf, e1⟩ := List.mem_map.mp hm
      rw [e, ← e1]
      exact h.ghost_const wG.c q hw hb ((mem_bf _ _ _).mp hf).2.1
  have flat : ¬ Flat dim ((nodeStencil dim (nodeTabs dim 1 serial G hgG) wG s).map Prod.fst) := by
    rintro ⟨u, c, ⟨k, hk, hu⟩, hall⟩
    have key : ∀ y ∈ (nodeStencil dim (nodeTabs dim 1 serial G hgG) wG s).map (cut dim), ∑ k ∈ Finset.range dim, u k * y.1 k = c := by
      intro y hy
      obtain ⟨x, hx, rfl⟩ := List.mem_map.mp hy
      rw [← hall x.1 (List.mem_map_of_mem hx)]
      apply Finset.sum_congr rfl
      intro k hk
      unfold cut
      simp only [if_pos (Finset.mem_range.mp hk)]
    have cutsum : ∀ (v : Vec K) (a : K), ∑ k ∈ Finset.range dim, u k * (cut dim (v, a)).1 k = ∑ k ∈ Finset.range dim, u k * v k := by
      intro v a
      apply Finset.sum_congr rfl
      intro k hk
      unfold cut
      simp only [if_pos (Finset.mem_range.mp hk)]
    rw [st] at key
    refine hu (hsur u c ?_ ?_ k hk)
    · intro C hC huse
      rw [← cutsum _ (wG.c C)]
      exact key _ (List.mem_append_left _ (List.mem_map.mpr ⟨C, (mem_users _ _ _ _ _).mpr ⟨hC, huse⟩, rfl⟩))
    · intro f hf hs'
      rw [← cutsum (fun k => (ghostPoint dim G f).getD k 0) (ghostVal G wG.c f (bc (G.name f)))]
      have h0 : 0 < SIZE := by have := h.run.hS; omega
      exact key _ (List.mem_append_right _ (List.mem_map.mpr ⟨f, (mem_bf _ _ _).mpr ⟨(((h.run.rank 0 h0).cG.bnd.2 f).mp hf).1, hf, hs'⟩, rfl⟩))
  unfold nodeValues
  rcases h.run.hd with rfl | rfl
  · rw [if_pos rfl]
    exact C38_constant _ _ _ _ flat vals
  · rw [if_neg (by decide)]
    exact C39_constant _ _ _ _ flat vals

/-- The face gradients of a constant state vanish. -/
theorem faceGrads_const (h : NodePair dim nodeid node cv npart0 epart nbnodes n SIZE data serial L G B out trunc) (hw3 : dim = 3 → WedgeOk G)
    {bc : Int → BCond K} {wG : Interp.Fields K} (vG : ValuesG dim G bc wG) (q : K)
    (hw : ∀ C < G.nbcells, wG.c C = q) (hb : ∀ loc, BcIn q q (bc loc)) (nd : Nat → K) (hnd : ∀ s < nbnodes, nd s = q)
    {f : Nat} (hf : f < G.nbfaces) {k : Nat} (hk : k < 3) : faceGrads dim G bc wG nd f k = 0 := by
  have h0 : 0 < SIZE := by have := h.run.hS; omega
  have R := h.run.rank 0 h0
  have hname : G.name f = 0 ∨ G.name f = 10 ∨ G.name f ∈ B := (h.nameG_cases hf).imp id Or.inr
  have hl : (sideL dim G wG f).2 = q := by
    obtain ⟨c, hc, e⟩ := R.first_lt hf
    show wG.c (idx (G.cellid f 0)) = q
    rw [e]; exact hw c hc
  have hr : (sideR dim G wG f).2 = q := by
    show otherVal G wG f = q
    unfold otherVal
    rcases h.nameG_cases hf with e | e
    · rw [if_pos e]
      obtain ⟨C, hC, j, hj, rfl⟩ := R.cG.fsurj f hf
      rcases R.gkinds hC hj with ⟨hB, _⟩ | ⟨E, hE, _, _, _, _, ⟨_, e2⟩ | ⟨_, e2⟩⟩
      · rw [e] at hB; exact absurd hB R.cG.B0
      · rw [e2, idx_cast]; exact hw E hE
      · rw [e2, idx_cast]; exact hw C hC
    · have hfb := (R.cG.bnd.2 f).mpr ⟨hf, e⟩
      have n0 : G.name f ≠ 0 := fun x => R.cG.B0 (x ▸ e)
      have n10 : G.name f ≠ 10 := fun x => R.cG.B10 (x ▸ e)
      rw [if_neg n0, if_neg n10]
      obtain ⟨g0, e0⟩ := vG.ghost
      rw [e0, updateGhosts_apply _ _ _ _ _ hf (h.run.hB _ e)]
      exact h.ghost_const wG.c q hw hb hfb
  have hn : ∀ j < dim, nd ((G.fnode f).getD j 0) = q := by
    intro j hj
    obtain ⟨C, hC, i, hi, rfl⟩ := R.cG.fsurj f hf
    rw [h.run.nG] at hC
    obtain ⟨f1, f2, f3⟩ := h.fnodeG _ hC i hi
    apply hnd
    have hm : (G.fnode (G.faceid C i)).getD j 0 ∈ G.fnode (G.faceid C i) := by
      rw [List.getD_eq_getElem?_getD, List.getElem?_eq_getElem (by omega)]
      exact List.getElem_mem _
    obtain ⟨i', hi', e⟩ := f3 _ hm
    rw [← e]
    exact h.hl.hnode _ hC i' hi'
  rcases h.run.hd with rfl | rfl
  · rw [faceGrads_pts2 R.cG (by simpa using h.hBe) bc wG nd hf hname]
    have n0 : (cut 2 (nodePt G nd f 0)).2 = q := hn 0 (by omega)
    have n1 : (cut 2 (nodePt G nd f 1)).2 = q := hn 1 (by omega)
    unfold gradPts2
    match k with
    | 0 => simp only [hl, hr, n0, n1]; simp
    | 1 => simp only [hl, hr, n0, n1]; simp
    | k + 2 => rfl
  · rw [faceGrads_pts3 R.cG (by simpa using h.hBe) (hw3 rfl) bc wG nd hf hname hk]
    have n0 : (cut 3 (nodePt G nd f 0)).2 = q := hn 0 (by omega)
    have n1 : (cut 3 (nodePt G nd f 1)).2 = q := hn 1 (by omega)
    have n2 : (cut 3 (nodePt G nd f 2)).2 = q := hn 2 (by omega)
    unfold gradPts3
    simp only [hl, hr, n0, n1, n2, sub_self, mul_zero, add_zero]
    interval_cases k <;> simp [wedge]

/-- A constant state on one process, one iteration with diffusion. -/
theorem const_serial_diff (h : NodePair dim nodeid node cv npart0 epart nbnodes n SIZE data serial L G B out trunc) (hs : Solid G dim out)
    {hgG : Nat → HGResult K} (sG : HGSerial dim G nbnodes (hgG 0)) (hw : dim = 3 → WedgeOk G) (S : Setup K) (order : Int) (q : K)
    (hv : UniformVelocity S) (hb : ∀ loc, BcIn q q (S.bc loc)) (hsur : ∀ s < nbnodes, Surrounded dim nodeid n G s) (t : TState K)
    (hin : ∀ C < G.nbcells, (t.V 0).cell C = q) :
    ∃ t', tstep (serW dim serial G hgG) S order true t = some t' ∧ ∀ C < G.nbcells, (t'.V 0).cell C = q := by
  obtain ⟨t', gr, u, w, nd, e, cu, cw, vu, vw, hnd, hgr, ht, hi, hnew⟩ := tstep_serial_diff (dim := dim) serial G hgG S order t
  refine ⟨t', e, fun C hC => ?_⟩
  have h0 : 0 < SIZE := by have := h.run.hS; omega
  have R := h.run.rank 0 h0
  rw [hnew]
  unfold updateNewValue
  have hww : ∀ C < G.nbcells, w.fields.c C = q := fun C hC => by show w.cell C = q; rw [cw]; exact hin C hC
  have huu : ∀ C < G.nbcells, u.fields.c C = q := fun C hC => by show u.cell C = q; rw [cu]; exact hin C hC
  have hdis : Run.dissip G S (faceGrads dim G S.bc w.fields nd) C = 0 := by
    rw [R.cG.dissip S _ hC]
    apply Finset.sum_eq_zero
    intro j hj
    have hz := fun k hk => faceGrads_const h hw vw q hww hb nd (fun s hs => by rw [hnd]; exact node_const h sG vw q hww hb hs (hsur s hs))
      (R.cG.flt C hC j (Finset.mem_range.mp hj)) (k := k) hk
    unfold diffTerm diffFlux
    simp only [hz 0 (by omega), hz 1 (by omega), hz 2 (by omega)]
    simp
  obtain ⟨F, hF⟩ : ∃ F, F = fieldsOf S G t.iter (t.V 0).cell u.ghost u.halo gr := ⟨_, rfl⟩
  rw [← hF]
  obtain ⟨a, b, d, huv⟩ := hv t.iter
  have hvel : ∀ i, (convArgs G F order).u_face i = a ∧ (convArgs G F order).v_face i = b ∧ (convArgs G F order).w_face i = d := by
    intro i; rw [hF]; exact huv _ _ _
  have hfs : FreeStream (convArgs G F order) G.nbcells q a b d := by
    refine ⟨?_, ?_, ?_, ?_, ?_, ?_, hvel⟩
    · intro C hC; rw [hF]; exact hin C hC
    · intro f hf
      have : (convArgs G F order).w_ghost f = u.fields.ghost f := by rw [hF]; rfl
      rw [this]
      obtain ⟨g0, e0⟩ := vu.ghost
      have hfb := (R.cG.bnd.2 f).mp hf
      rw [e0, updateGhosts_apply _ _ _ _ _ hfb.1 (h.run.hB _ hfb.2)]
      exact h.ghost_const u.fields.c q huu hb hf
    · intro f hf
      have : (convArgs G F order).halofaces = [] := R.halo_nil
      rw [this] at hf; simp at hf
    · intro f hf
      have : (convArgs G F order).periodicboundaryfaces = [] := R.cG.per
      rw [this] at hf; simp at hf
    · intro C hC
      have hz := serial_grad_const h sG vu q huu hb hC
      rw [← hgr C] at hz
      have hz' : gr.wx C = 0 ∧ gr.wy C = 0 ∧ gr.wz C = 0 := by simpa using hz
      rw [hF]
      exact hz'
    · intro f hf
      have : (convArgs G F order).halofaces = [] := R.halo_nil
      rw [this] at hf; simp at hf
  have hcl := R.closed rfl hs F order hC
  have h1 : conv dim (convArgs G F order) C = 0 := by
    rw [conv_balance R.cG _ _ h.run.hd, balance_freestream _ dim _ h.run.hd (R.facesOK _ _ _) q a b d hfs, outSum_lin _ _ a b d hvel,
      hcl 0 (by omega), hcl 1 (by omega), hcl 2 (by omega)]
    ring
  rw [h1, hdis, hin C hC]; simp

end
end Verif.Props.Par
