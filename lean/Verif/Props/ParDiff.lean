import Verif.Props.ParFaceGrad

/-! Helper lemmas for the parallel theorems: the dissipative residual, and an iteration of the driver with gradients. -/
set_option linter.unusedSectionVars false
set_option linter.unusedVariables false
set_option linter.unusedSimpArgs false
namespace Verif.Props.Par
open Verif.Fvm Verif.Spec Verif.Conn Verif.Dom Verif.Geo Verif.Names Verif.MeshFile Verif.Part Verif.Comm Verif.Run Verif.HaloGhost Verif.Interp Verif.Props.HG
variable {K : Type*} [Field K] [LinearOrder K] [IsStrictOrderedRing K]

theorem wedge_build3 (sqrt : K → K) (trunc : K → Int) (size : Nat) (d : RankData K) : WedgeOk (build3 sqrt trunc size d) := by
  intro f hf k hk
  exact C13_orientation_stored sqrt _ _ (at2 0 d.vertex) _ _ _ _ _ f hf k hk

/-- What side `f` of cell `c` brings to the dissipative residual. -/
def diffTerm (D : Tables K) (S : Setup K) (g : Nat → Vec K) (c f : Nat) : K :=
  (if (D.cellid f 0).toNat = c then diffFlux (fun f => g f 0) (fun f => g f 1) (fun f => g f 2) D.normal S.Dxx S.Dyy S.Dzz f else 0) -
  (if D.name f = 0 ∧ (D.cellid f 1).toNat = c then diffFlux (fun f => g f 0) (fun f => g f 1) (fun f => g f 2) D.normal S.Dxx S.Dyy S.Dzz f else 0)

theorem Consistent.dissip {D : Tables K} {d1 : Nat} {B : List Int} (h : Consistent D d1 B) (S : Setup K) (g : Nat → Vec K) {c : Nat} (hc : c < D.nbcells) :
    Run.dissip D S g c = ∑ j ∈ Finset.range d1, diffTerm D S g c (D.faceid c j) := by
  unfold Run.dissip
  rw [C04_dissipative_balance]
  have hleft : ∀ f < D.nbfaces, (D.cellid f 0).toNat = c → ∃ j < d1, D.faceid c j = f := by
    intro f hf hl
    obtain ⟨a, _, h2, j, hj, e⟩ := users_first (h.users_ne hf)
    rw [h.cell0 f hf, h2] at hl
    obtain rfl : a = c := by simpa using hl
    exact ⟨j, hj, e⟩
  rw [sumAt_sides (List.range D.nbfaces) List.nodup_range _ _ c d1 (D.faceid c) (h.inj c hc) (fun f hf hl => hleft f (List.mem_range.mp hf) hl),
    sumAt_sides _ (List.nodup_range.filter _) _ _ c d1 (D.faceid c) (h.inj c hc) ?_, ← Finset.sum_sub_distrib]
  · apply Finset.sum_congr rfl
    intro j hj
    have hf := h.flt c hc j (Finset.mem_range.mp hj)
    unfold diffTerm
    simp [hf]
  · intro f hf hr
    rw [List.mem_filter, List.mem_range] at hf
    obtain ⟨h1, h2⟩ := hf
    have h2 : D.name f = 0 := by simpa using h2
    obtain ⟨a, _, h3, j, hj, e⟩ := users_second (h.name0 f h1 h2)
    rw [h.cell1 f h1 h2, h3] at hr
    obtain rfl : a = c := by simpa using hr
    exact ⟨j, hj, e⟩

section
variable {L G : Tables K} {d1 : Nat} {φ : Nat → Nat} {mine : Nat → Prop} {ext : List (List Nat)} {B : List Int} {out : Nat → Nat → Vec K}

/-- The second cell of a face of a rank sees the normal pointing inwards. -/
theorem RankOf.normalL_neg (h : RankOf L G d1 φ mine ext B out) {c e : Nat} (hc : c < L.nbcells) (he : e < L.nbcells) (hne : e ≠ c) {j : Nat} (hj : j < d1)
    (h0 : L.cellid (L.faceid c j) 0 = (e : Int)) : ∀ k < 3, L.normal (L.faceid c j) k = - out (φ c) j k := by
  intro k hk
  have hf := h.cL.flt c hc j hj
  obtain ⟨e', he', h2, j', hj', h3⟩ := users_first (h.cL.users_ne hf)
  rw [← h.cL.cell0 _ hf, h0] at h2
  obtain rfl : e = e' := by simpa using h2
  rw [← h3] at h0 ⊢
  rw [h.normalL e he j' hj' h0 k hk]
  exact h.opp (φ e) (h.sub.lt e he).1 (φ c) (h.sub.lt c hc).1 (fun x => hne (h.sub.inj he hc x)) j' hj' j hj
    ((h.sub.same e he c hc j' hj' j hj).mp h3) k hk

theorem RankOf.normalG_neg (h : RankOf L G d1 φ mine ext B out) {C E : Nat} (hC : C < G.nbcells) (hE : E < G.nbcells) (hne : E ≠ C) {j : Nat} (hj : j < d1)
    (h0 : G.cellid (G.faceid C j) 0 = (E : Int)) : ∀ k < 3, G.normal (G.faceid C j) k = - out C j k := by
  intro k hk
  have hf := h.cG.flt C hC j hj
  obtain ⟨e', he', h2, j', hj', h3⟩ := users_first (h.cG.users_ne hf)
  rw [← h.cG.cell0 _ hf, h0] at h2
  obtain rfl : E = e' := by simpa using h2
  rw [← h3] at h0 ⊢
  rw [h.normalG E hE j' hj' h0 k hk]
  exact h.opp E hE C hC hne j' hj' j hj h3 k hk

/-- The dissipative flux through a side of a cell, with the outward normal. -/
def outFlux (S : Setup K) (g : Vec K) (o : Vec K) : K := S.Dxx * g 0 * o 0 + S.Dyy * g 1 * o 1 + S.Dzz * g 2 * o 2

theorem diffFlux_pos (D : Tables K) (S : Setup K) (g : Nat → Vec K) (f : Nat) (o : Vec K) (hn : ∀ k < 3, D.normal f k = o k) :
    diffFlux (fun f => g f 0) (fun f => g f 1) (fun f => g f 2) D.normal S.Dxx S.Dyy S.Dzz f = outFlux S (g f) o := by
  unfold diffFlux outFlux
  rw [hn 0 (by omega), hn 1 (by omega), hn 2 (by omega)]; ring

theorem diffFlux_neg (D : Tables K) (S : Setup K) (g : Nat → Vec K) (f : Nat) (o : Vec K) (hn : ∀ k < 3, D.normal f k = - o k) :
    diffFlux (fun f => g f 0) (fun f => g f 1) (fun f => g f 2) D.normal S.Dxx S.Dyy S.Dzz f = - outFlux S (g f) o := by
  unfold diffFlux outFlux
  rw [hn 0 (by omega), hn 1 (by omega), hn 2 (by omega)]; ring

/-- Both runs have the same dissipative flux through a side. -/
theorem RankOf.diffTerm (h : RankOf L G d1 φ mine ext B out) (S : Setup K) (gL gG : Nat → Vec K) {c : Nat} (hc : c < L.nbcells) {j : Nat} (hj : j < d1)
    (hg : ∀ k < 3, gL (L.faceid c j) k = gG (G.faceid (φ c) j) k) :
    diffTerm L S gL c (L.faceid c j) = diffTerm G S gG (φ c) (G.faceid (φ c) j) := by
  have hC := (h.sub.lt c hc).1
  have ho : outFlux S (gL (L.faceid c j)) (out (φ c) j) = outFlux S (gG (G.faceid (φ c) j)) (out (φ c) j) := by
    unfold outFlux; rw [hg 0 (by omega), hg 1 (by omega), hg 2 (by omega)]
  unfold Par.diffTerm
  rcases h.kinds hc hj with ⟨hbL, hbG, hB, hnm, l0, g0⟩ | ⟨e, he, hne, hLn, hGn, hk⟩ | ⟨E, hE, row, hm, hLn, hGn, hrow, hhead, l0, hk⟩
  · have n0 : L.name (L.faceid c j) ≠ 0 := fun x => h.cL.B0 (x ▸ hB)
    have m0 : G.name (G.faceid (φ c) j) ≠ 0 := by rw [hnm]; exact n0
    rw [diffFlux_pos L S gL _ _ (h.normalL c hc j hj l0), diffFlux_pos G S gG _ _ (h.normalG (φ c) hC j hj g0), ho, l0, g0]
    simp [n0, m0]
  · have hne' : φ e ≠ φ c := fun x => hne (h.sub.inj he hc x)
    rcases hk with ⟨a1, a2, a3, a4⟩ | ⟨a1, a2, a3, a4⟩
    · rw [diffFlux_pos L S gL _ _ (h.normalL c hc j hj a1), diffFlux_pos G S gG _ _ (h.normalG (φ c) hC j hj a3), ho, a1, a2, a3, a4]
      simp [hne, hne', hLn, hGn]
    · rw [diffFlux_neg L S gL _ _ (h.normalL_neg hc he hne hj a1), diffFlux_neg G S gG _ _ (h.normalG_neg hC (h.sub.lt e he).1 hne' hj a3), ho, a1, a2, a3, a4]
      simp [hne, hne', hLn, hGn]
  · have hne : E ≠ φ c := fun x => hm (x ▸ (h.sub.lt c hc).2)
    have n0 : ¬ L.name (L.faceid c j) = 0 := by rw [hLn]; decide
    rw [diffFlux_pos L S gL _ _ (h.normalL c hc j hj l0), ho, l0]
    rcases hk with ⟨a1, a2⟩ | ⟨a1, a2⟩
    · rw [diffFlux_pos G S gG _ _ (h.normalG (φ c) hC j hj a1), a1, a2]
      simp [hne, n0, hGn]
    · rw [diffFlux_neg G S gG _ _ (h.normalG_neg hC hE hne hj a1), a1, a2]
      simp [hne, n0, hGn]

end

section
variable {dim : Nat} {nodeid : Nat → Nat → Nat} {node : Nat → K × K × K × Nat} {cv : Nat → List K} {npart0 epart : Nat → Nat}
  {nbnodes n SIZE : Nat} {data : Nat → RankData K} {serial : RankData K} {L : Nat → Tables K} {G : Tables K} {B : List Int}
  {out : Nat → Nat → Vec K} {trunc : K → Int}

theorem NodePair.dissip_eq (h : NodePair dim nodeid node cv npart0 epart nbnodes n SIZE data serial L G B out trunc) (S : Setup K) {p : Nat} (hp : p < SIZE)
    (gL gG : Nat → Vec K) (hg : ∀ c < (L p).nbcells, ∀ j < dim + 1, ∀ k < 3, gL ((L p).faceid c j) k = gG (G.faceid (phi (data p) c) j) k)
    {c : Nat} (hc : c < (L p).nbcells) : Run.dissip (L p) S gL c = Run.dissip G S gG (phi (data p) c) := by
  have R := h.run.rank p hp
  rw [R.cL.dissip S gL hc, R.cG.dissip S gG (R.sub.lt c hc).1]
  apply Finset.sum_congr rfl
  intro j hj
  exact R.diffTerm S gL gG hc (Finset.mem_range.mp hj) (hg c hc j (Finset.mem_range.mp hj))

theorem faceGradient_match (h : NodePair dim nodeid node cv npart0 epart nbnodes n SIZE data serial L G B out trunc) {hgL hgG : Nat → HGResult K}
    (hw : dim = 3 → WedgeOk G ∧ ∀ p < SIZE, WedgeOk (L p))
    (sL : ∀ p < SIZE, ∃ rows, HGSpec dim SIZE data L p (hgL p) rows) (sG : HGSerial dim G nbnodes (hgG 0))
    (bc : Int → BCond K) (so : StencilOk dim nodeid epart n G bc) (V U : Nat → Vari K) (hm : VMatch SIZE data L V U) :
    ∃ V' nL fL U' nG fG, faceGradient (parW dim SIZE data L hgL) bc V = some (V', nL, fL) ∧
      faceGradient (serW dim serial G hgG) bc U = some (U', nG, fG) ∧
      VMatch SIZE data L V' U' ∧ (∀ p, (V' p).cell = (V p).cell) ∧ (∀ p, (U' p).cell = (U p).cell) ∧
      (∀ p < SIZE, ∀ i < (L p).nbnodes, nL p i = nG 0 (gOf (data p) i)) ∧
      ∀ p < SIZE, ∀ c < (L p).nbcells, ∀ j < dim + 1, ∀ k < 3, fL p ((L p).faceid c j) k = fG 0 (G.faceid (phi (data p) c) j) k := by
  obtain ⟨V', nL, U', nG, e1, e2, m, c1, c2, vL, vG, hN⟩ := celltonode_match h sL sG bc so V U hm
  refine ⟨V', nL, fun p => faceGrads dim (L p) bc (V' p).fields (nL p), U', nG, fun p => faceGrads dim G bc (U' p).fields (nG p), ?_, ?_, m, c1, c2, hN, ?_⟩
  · unfold faceGradient; rw [e1]; rfl
  · unfold faceGradient; rw [e2]; rfl
  · intro p hp c hc j hj k hk
    exact h.faceGrads_eq hw bc hp (vL p hp) vG _ _ (hN p hp) hc hj hk

/-- The state of a parallel run against the state of the serial run. -/
structure TMatch (SIZE : Nat) (data : Nat → RankData K) (L : Nat → Tables K) (s t : TState K) : Prop where
  cell : VMatch SIZE data L s.V t.V
  node : ∀ p < SIZE, ∀ i < (L p).nbnodes, s.node p i = t.node 0 (gOf (data p) i)
  time : s.time = t.time
  iter : s.iter = t.iter

theorem conv_eq (h : NodePair dim nodeid node cv npart0 epart nbnodes n SIZE data serial L G B out trunc) (S : Setup K) (order : Int) (it : Nat)
    {p : Nat} (hp : p < SIZE) {hg : HGResult K} {v u : Vari K} (vL : ValuesOk dim SIZE data L G u.fields.c S.bc p hg v.fields)
    (vG : ValuesG dim G S.bc u.fields) {gL gG : Grads K} (hgm : GradMatch (data p) (L p).nbcells gL gG) {c : Nat} (hc : c < (L p).nbcells) :
    conv dim (convArgs (L p) (fieldsOf S (L p) it v.cell v.ghost v.halo gL) order) c =
      conv dim (convArgs G (fieldsOf S G it u.cell u.ghost u.halo gG) order) (phi (data p) c) := by
  have R := h.run.rank p hp
  rw [conv_balance R.cL _ _ h.run.hd, conv_balance R.cG _ _ h.run.hd]
  refine rank_balance R ⟨?_, ?_, ?_, ?_⟩ order dim (by have := h.run.hd; omega) c hc
  · intro c hc
    obtain ⟨a1, a2, a3, a4⟩ := hgm.cell c hc
    exact ⟨vL.cell c hc, a4, a1, a2, a3⟩
  · intro k row E hk hE _
    have hkl : k < (data p).halosext.length := (List.getElem?_eq_some_iff.mp hk).1
    have e0 := (h.hl.ext_get hp hkl).1
    rw [hk] at e0
    obtain rfl : ext0 (data p) k = E := by
      injection e0 with e0
      rw [e0] at hE
      simpa using hE
    obtain ⟨a1, a2, a3, a4⟩ := hgm.halo k hkl
    exact ⟨vL.halo k hkl, a4, a1, a2, a3⟩
  · intro c hc j hj
    exact ⟨atFaces_eq h.run hp _ hc hj, atFaces_eq h.run hp _ hc hj, atFaces_eq h.run hp _ hc hj⟩
  · intro c hc j hj hb
    obtain ⟨e1, e2, _, _⟩ := R.boundary hc hj hb
    obtain ⟨g1, eg1⟩ := vL.ghost
    obtain ⟨g2, eg2⟩ := vG.ghost
    show v.fields.ghost _ = u.fields.ghost _
    rw [eg1, eg2, updateGhosts_apply _ _ _ _ _ (R.cL.flt c hc j hj) (h.run.hB _ e2),
      updateGhosts_apply _ _ _ _ _ (R.cG.flt _ (R.sub.lt c hc).1 j hj) (h.run.hB _ (e1 ▸ e2)), ← e1]
    exact ghostVal_match h.run hp _ _ vL.cell hc hj hb _

theorem tstep_match (h : NodePair dim nodeid node cv npart0 epart nbnodes n SIZE data serial L G B out trunc) {hgL hgG : Nat → HGResult K}
    (hw : dim = 3 → WedgeOk G ∧ ∀ p < SIZE, WedgeOk (L p))
    (sL : ∀ p < SIZE, ∃ rows, HGSpec dim SIZE data L p (hgL p) rows) (sG : HGSerial dim G nbnodes (hgG 0))
    (S : Setup K) (so : StencilOk dim nodeid epart n G S.bc) (order : Int) (diff : Bool) (s t : TState K) (hm : TMatch SIZE data L s t) :
    ∃ s' t', tstep (parW dim SIZE data L hgL) S order diff s = some s' ∧ tstep (serW dim serial G hgG) S order diff t = some t' ∧
      TMatch SIZE data L s' t' := by
  obtain ⟨V1, U1, u1, u2, m1, _, _, _, _⟩ := update_match h hgL hgG S.bc s.V t.V hm.cell
  obtain ⟨V2, gL, U2, gG, c1, c2, m2, _, _, vL, vG, hgm⟩ := cellGradient_match h sL sG S.bc so V1 U1 m1
  have hdt := dt_match h.run S s.iter
  have rez : ∀ p < SIZE, ∀ c < (L p).nbcells,
      conv dim (convArgs (L p) (fieldsOf S (L p) s.iter (V2 p).cell (V2 p).ghost (V2 p).halo (gL p)) order) c =
      conv dim (convArgs G (fieldsOf S G t.iter (U2 0).cell (U2 0).ghost (U2 0).halo (gG 0)) order) (phi (data p) c) := by
    intro p hp c hc
    rw [← hm.iter]
    exact conv_eq h S order s.iter hp (vL p hp) vG (hgm p hp) hc
  unfold tstep
  rw [u1, u2]
  simp only [Option.bind_some]
  rw [c1, c2]
  simp only [Option.bind_some]
  cases diff with
  | false =>
    refine ⟨_, _, rfl, rfl, ⟨?_, hm.node, ?_, ?_⟩⟩
    · intro p hp c hc
      dsimp only [parW, serW, updateNewValue]
      rw [rez p hp c hc, hdt, hm.iter, h.run.volume p hp c hc, m2 p hp c hc]
    · show s.time + _ = t.time + _
      rw [hdt, hm.time, hm.iter]
    · show s.iter + 1 = t.iter + 1
      rw [hm.iter]
  | true =>
    obtain ⟨V3, nL, fL, U3, nG, fG, f1, f2, m3, _, _, hN, hfg⟩ := faceGradient_match h hw sL sG S.bc so V2 U2 m2
    rw [if_pos rfl, if_pos rfl, f1, f2]
    simp only [Option.bind_some]
    obtain ⟨V4, n4, U4, k4, g1, g2, m4, _, _, _, _, hN4⟩ := celltonode_match h sL sG S.bc so
      (fun p => { V3 p with cell := (updateNewValue (V3 p).cell (conv dim (convArgs (L p) (fieldsOf S (L p) s.iter (V2 p).cell (V2 p).ghost (V2 p).halo (gL p)) order))
        (Run.dissip (L p) S (fL p)) (fun _ => 0) (allreduceMin SIZE (fun p => localStep dim S (L p) s.iter)) (L p).volume) })
      (fun p => { U3 p with cell := (updateNewValue (U3 p).cell (conv dim (convArgs G (fieldsOf S G t.iter (U2 p).cell (U2 p).ghost (U2 p).halo (gG p)) order))
        (Run.dissip G S (fG p)) (fun _ => 0) (allreduceMin 1 (fun _ => localStep dim S G t.iter)) G.volume) }) (by
        intro p hp c hc
        dsimp only [updateNewValue]
        rw [hdt, rez p hp c hc, h.run.volume p hp c hc, m3 p hp c hc, h.dissip_eq S hp (fL p) (fG 0) (hfg p hp) hc, hm.iter])
    rw [g1, g2]
    refine ⟨_, _, rfl, rfl, ⟨m4, hN4, ?_, ?_⟩⟩
    · show s.time + _ = t.time + _
      rw [hdt, hm.time, hm.iter]
    · show s.iter + 1 = t.iter + 1
      rw [hm.iter]

theorem tloop_match (h : NodePair dim nodeid node cv npart0 epart nbnodes n SIZE data serial L G B out trunc) {hgL hgG : Nat → HGResult K}
    (hw : dim = 3 → WedgeOk G ∧ ∀ p < SIZE, WedgeOk (L p))
    (sL : ∀ p < SIZE, ∃ rows, HGSpec dim SIZE data L p (hgL p) rows) (sG : HGSerial dim G nbnodes (hgG 0))
    (S : Setup K) (so : StencilOk dim nodeid epart n G S.bc) (order : Int) (diff : Bool) (s t : TState K) (hm : TMatch SIZE data L s t) (N : Nat) :
    ∃ s' t', tloop (parW dim SIZE data L hgL) S order diff s N = some s' ∧ tloop (serW dim serial G hgG) S order diff t N = some t' ∧
      TMatch SIZE data L s' t' := by
  induction N with
  | zero => exact ⟨s, t, rfl, rfl, hm⟩
  | succ N ih =>
    obtain ⟨s1, t1, e1, e2, m1⟩ := ih
    simp only [tloop, e1, e2, Option.bind_some]
    rw [m1.time]
    by_cases ht : t1.time < S.tfinal
    · simp only [if_pos ht]; exact tstep_match h hw sL sG S so order diff s1 t1 m1
    · simp only [if_neg ht]; exact ⟨s1, t1, rfl, rfl, m1⟩

theorem tstart_match (h : NodePair dim nodeid node cv npart0 epart nbnodes n SIZE data serial L G B out trunc) (hgL hgG : Nat → HGResult K)
    (f : K → K → K → K) : TMatch SIZE data L (tstart (parW dim SIZE data L hgL) f) (tstart (serW dim serial G hgG) f) := by
  refine ⟨fun p hp c hc => ?_, fun p hp i hi => rfl, rfl, rfl⟩
  have := (h.run.rank p hp).center c hc
  show f _ _ _ = f _ _ _
  rw [this 0 (by omega), this 1 (by omega), this 2 (by omega)]

end
end Verif.Props.Par
