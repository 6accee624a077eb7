import Verif.Props.ParGlue
import Verif.Props.ParallelVar
import Verif.Props.FvmStability
import Verif.Props.Limiter
import Verif.Props.Gradient
import Verif.Spec.RunFlow

/-! # C91–C94: constant states, mass balance and maximum principle of whole runs on several processes -/
set_option linter.unusedSectionVars false
set_option linter.unusedVariables false
set_option linter.unusedSimpArgs false
namespace Verif.Props.Par
open Verif.Fvm Verif.Spec Verif.Conn Verif.Dom Verif.Geo Verif.Names Verif.MeshFile Verif.Part Verif.Comm Verif.Run Verif.HaloGhost Verif.Interp
variable {K : Type*} [Field K] [LinearOrder K] [IsStrictOrderedRing K]

/-- A property kept by every iteration holds after any number of iterations. -/
theorem tloop_inv (W : World K) (S : Setup K) (order : Int) (diff : Bool) (P : TState K → Prop)
    (hstep : ∀ s, P s → ∃ s', tstep W S order diff s = some s' ∧ P s') (s : TState K) (h0 : P s) (N : Nat) :
    ∃ s', tloop W S order diff s N = some s' ∧ P s' := by
  induction N with
  | zero => exact ⟨s, rfl, h0⟩
  | succ N ih =>
    obtain ⟨t, e, ht⟩ := ih
    unfold tloop
    rw [e]
    simp only [Option.bind_some]
    split
    · exact hstep t ht
    · exact ⟨t, rfl, ht⟩

section
variable {dim : Nat} {nodeid : Nat → Nat → Nat} {node : Nat → K × K × K × Nat} {cv : Nat → List K} {npart0 epart : Nat → Nat}
  {nbnodes n SIZE : Nat} {data : Nat → RankData K} {serial : RankData K} {L : Nat → Tables K} {G : Tables K} {B : List Int}
  {out : Nat → Nat → Vec K} {trunc : K → Int}

theorem ghostVal_in (D : Tables K) (cell : Nat → K) (f : Nat) (b : BCond K) (m M : K) (hb : BcIn m M b)
    (hc : m ≤ cell (idx (D.cellid f 0)) ∧ cell (idx (D.cellid f 0)) ≤ M) : m ≤ ghostVal D cell f b ∧ ghostVal D cell f b ≤ M := by
  cases b with
  | neumann => exact hc
  | nonslip => simp only [ghostVal, BcIn] at *; constructor <;> linarith [hc.1, hc.2]
  | dirichlet v => exact hb _ _ _

theorem RankOf.first_lt {L G : Tables K} {d1 : Nat} {φ : Nat → Nat} {mine : Nat → Prop} {ext : List (List Nat)} {B : List Int} {out : Nat → Nat → Vec K}
    (h : RankOf L G d1 φ mine ext B out) {f : Nat} (hf : f < G.nbfaces) : ∃ c < G.nbcells, G.cellid f 0 = (c : Int) := by
  obtain ⟨a, ha, e, _⟩ := users_first (h.cG.users_ne hf)
  exact ⟨a, ha, by rw [h.cG.cell0 f hf, e]⟩

theorem toCells_const (dim : Nat) (D : Tables K) (face : Nat → K) (u : K) (h : ∀ f, face f = u) : toCells dim D face = fun _ => u := by
  funext i
  exact Verif.Interp.C45_constant face _ dim (by simp) u (fun f _ => h f)

theorem RunPair.owner (h : RunPair dim SIZE n epart data L G B out) {C : Nat} (hC : C < n) :
    ∃ p < SIZE, ∃ c < (L p).nbcells, phi (data p) c = C := by
  have hp := h.he C hC
  obtain ⟨c, hc, e⟩ := (h.rank _ hp).sub.surj C (h.nG ▸ hC) rfl
  exact ⟨_, hp, c, hc, e⟩

/-- All cells of all ranks hold values of `[m, M]`. -/
def CellsIn (SIZE : Nat) (L : Nat → Tables K) (m M : K) (s : TState K) : Prop :=
  ∀ p < SIZE, ∀ c < (L p).nbcells, m ≤ (s.V p).cell c ∧ (s.V p).cell c ≤ M

theorem Glued.cellIn {hgL : Nat → HGResult K} {S : Setup K} {s : TState K} {F : Dom.Fields K} (g : Glued dim SIZE data L G hgL S s F) (h : RunPair dim SIZE n epart data L G B out)
    {m M : K} (hin : CellsIn SIZE L m M s) : ∀ C < G.nbcells, m ≤ F.w C ∧ F.w C ≤ M := by
  intro C hC
  obtain ⟨p, hp, c, hc, e⟩ := h.owner (h.nG ▸ hC)
  rw [← e, ← g.cell p hp c hc]
  exact hin p hp c hc

theorem Glued.ghostIn {hgL : Nat → HGResult K} {S : Setup K} {s : TState K} {F : Dom.Fields K} (g : Glued dim SIZE data L G hgL S s F) (h : RunPair dim SIZE n epart data L G B out)
    {m M : K} (hin : CellsIn SIZE L m M s) (hb : ∀ loc, BcIn m M (S.bc loc)) : ∀ f ∈ G.boundaryfaces, m ≤ F.ghost f ∧ F.ghost f ≤ M := by
  intro f hf
  have h0 : 0 < SIZE := by have := h.hS; omega
  have R := h.rank 0 h0
  obtain ⟨f1, f2⟩ := (R.cG.bnd.2 f).mp hf
  obtain ⟨c, hc, e⟩ := R.first_lt f1
  rw [g.ghost f hf]
  refine ghostVal_in _ _ _ _ _ _ (hb _) ?_
  rw [e]
  exact g.cellIn h hin c hc

/-- The cell gradients of the serial run vanish when all values are the same. -/
theorem serial_grad_const (h : NodePair dim nodeid node cv npart0 epart nbnodes n SIZE data serial L G B out trunc) {hgG : HGResult K}
    (sG : HGSerial dim G nbnodes hgG) {bc : Int → BCond K} {wG : Interp.Fields K} (vG : ValuesG dim G bc wG) (q : K)
    (hw : ∀ C < G.nbcells, wG.c C = q) (hb : ∀ loc, BcIn q q (bc loc)) {C : Nat} (hC : C < G.nbcells) :
    cellGrads dim 1 serial G hgG wG C = (0, 0, 0) := by
  have h0 : 0 < SIZE := by have := h.run.hS; omega
  have R := h.run.rank 0 h0
  obtain ⟨g2, hg2⟩ := vG.ghost
  have ghG : ∀ I < nbnodes, ∀ maxname : Int, ∀ x ∈ ((if G.oldname I ≤ maxname then Interp.ghostPart ((hgG.ghosts I).map rowPt) wG.ghost else []) ++
      Interp.ghostPart ((hgG.haloghosts I).map rowPt) wG.haloghost), x.2 = q := by
    intro I hI maxname x hx
    obtain ⟨mG, eoG⟩ := sG.own I hI
    obtain ⟨mH, ehG⟩ := sG.other I hI
    have hown := h.own_partG bc wG.c g2 I mG
    rw [← hg2, ← eoG] at hown
    rw [ehG, ghostPart_nil, List.append_nil] at hx
    split_ifs at hx with ho
    · have hm : cut dim x ∈ (bf G I).map (EF dim G wG.c bc) := by rw [← hown]; exact List.mem_map_of_mem hx
      obtain ⟨f, hf, ef⟩ := List.mem_map.mp hm
      have e2 : x.2 = ghostVal G wG.c f (bc (G.name f)) := by
        have := congrArg Prod.snd ef
        exact this.symm
      rw [e2]
      have hfb := ((mem_bf _ _ _).mp hf).2.1
      obtain ⟨c, hc, e⟩ := R.first_lt ((R.cG.bnd.2 f).mp hfb).1
      have := ghostVal_in G wG.c f (bc (G.name f)) q q (hb _) (by rw [e]; show q ≤ wG.c c ∧ wG.c c ≤ q; rw [hw c hc]; exact ⟨le_refl _, le_refl _⟩)
      exact le_antisymm this.2 this.1
    · simp at hx
  have key : ∀ maxname, ∀ x ∈ cellStencil maxname (nodeTabs dim 1 serial G hgG) (cellTabs dim 1 serial G) wG [] C, x.2 = wG.c C := by
    intro maxname x hx
    rw [hw C hC]
    unfold cellStencil at hx
    have haloG : (cellTabs dim 1 serial G).halonid C = [] := by unfold cellTabs; simp
    rw [haloG] at hx
    simp only [List.append_nil, List.map_nil, List.mem_append, List.mem_map, List.mem_flatMap] at hx
    rcases hx with ⟨c, hc, rfl⟩ | ⟨I, hI, hx⟩
    · exact hw c ((mem_cellNeigh _ _ _ _ _).mp hc).1
    · refine ghG I ?_ maxname x (List.mem_append.mpr hx)
      have hm := (h.cnodeG C (h.run.nG ▸ hC)).subset hI
      obtain ⟨j, hj, rfl⟩ := List.mem_map.mp hm
      exact h.hl.hnode _ (h.run.nG ▸ hC) j (List.mem_range.mp hj)
  unfold cellGrads
  rcases h.run.hd with rfl | rfl
  · rw [if_pos rfl]
    refine C40_constant_2d _ _ _ _ ?_
    have e : cellPeriodic2 (nodeTabs 2 1 serial G hgG) (cellTabs 2 1 serial G) wG C = [] := by
      simp [cellPeriodic2, periodicPart, nodeTabs, cellTabs]
    rw [e]; exact key 4
  · rw [if_neg (by decide)]
    exact C40_constant_3d _ _ _ _ rfl (key 6)

/-- The gradients of the second-order reconstruction vanish when all values are the same. -/
theorem Glued.grad_zero (h : NodePair dim nodeid node cv npart0 epart nbnodes n SIZE data serial L G B out trunc) {hgL hgG : Nat → HGResult K}
    (sL : ∀ p < SIZE, ∃ rows, HGSpec dim SIZE data L p (hgL p) rows) (sG : HGSerial dim G nbnodes (hgG 0))
    {S : Setup K} (so : StencilOk dim nodeid epart n G S.bc) {s : TState K} {F : Dom.Fields K} (g : Glued dim SIZE data L G hgL S s F) {q : K}
    (hin : CellsIn SIZE L q q s) (hb : ∀ loc, BcIn q q (S.bc loc)) : ∀ C < G.nbcells, F.wx C = 0 ∧ F.wy C = 0 ∧ F.wz C = 0 := by
  intro C hC
  obtain ⟨p, hp, c, hc, rfl⟩ := h.run.owner (h.run.nG ▸ hC)
  obtain ⟨wG, ew, vG, hex⟩ := g.grad
  obtain ⟨wL, vL, hgr⟩ := hex p hp
  obtain ⟨rows, sp⟩ := sL p hp
  have hw : ∀ C < G.nbcells, wG.c C = q := fun C hC => by rw [ew]; exact le_antisymm (g.cellIn h.run hin C hC).2 (g.cellIn h.run hin C hC).1
  have hc0 := hgr c hc
  rw [cellGradVal_match h S.bc so hp sp sG vL vG hc] at hc0
  rw [serial_grad_const h sG vG q hw hb hC] at hc0
  simpa using hc0

/-- A constant state stays constant in one iteration in which the gradients vanish or are not used. -/
theorem freestream_core (h : NodePair dim nodeid node cv npart0 epart nbnodes n SIZE data serial L G B out trunc) (hs : Solid G dim out)
    (hgL : Nat → HGResult K) (S : Setup K) (q : K) (hv : UniformVelocity S) (hb : ∀ loc, BcIn q q (S.bc loc)) (order : Int) (s : TState K)
    (hin : CellsIn SIZE L q q s)
    (hgrad : ∀ F, Glued dim SIZE data L G hgL S s F → order = 1 ∨ ∀ C < G.nbcells, F.wx C = 0 ∧ F.wy C = 0 ∧ F.wz C = 0) :
    ∃ s', tstep (parW dim SIZE data L hgL) S order false s = some s' ∧ CellsIn SIZE L q q s' := by
  obtain ⟨s', F, e, g, _, _, hnew⟩ := tstep_glue h hgL S order s
  obtain ⟨F', eF, eb, g1, g2, g3⟩ : ∃ F' : Dom.Fields K, F'.w = F.w ∧ balance (convArgs G F order) dim = balance (convArgs G F' order) dim ∧
      (F'.ghost = F.ghost) ∧ (F'.u_face = F.u_face ∧ F'.v_face = F.v_face ∧ F'.w_face = F.w_face) ∧ ∀ C < G.nbcells, F'.wx C = 0 ∧ F'.wy C = 0 ∧ F'.wz C = 0 := by
    rcases hgrad F g with rfl | hz
    · exact ⟨noGrads F, rfl, funext fun c => balance_order1 G F dim c, rfl, ⟨rfl, rfl, rfl⟩, fun _ _ => ⟨rfl, rfl, rfl⟩⟩
    · exact ⟨F, rfl, rfl, rfl, ⟨rfl, rfl, rfl⟩, hz⟩
  refine ⟨s', e, fun p hp c hc => ?_⟩
  have R := h.run.rank p hp
  have hC := (R.sub.lt c hc).1
  obtain ⟨u, v, w, huv⟩ := hv s.iter
  have hvel : ∀ i, (convArgs G F' order).u_face i = u ∧ (convArgs G F' order).v_face i = v ∧ (convArgs G F' order).w_face i = w := by
    intro i
    refine ⟨?_, ?_, ?_⟩
    · show F'.u_face i = u; rw [g2.1, g.u]; exact (huv _ _ _).1
    · show F'.v_face i = v; rw [g2.2.1, g.v]; exact (huv _ _ _).2.1
    · show F'.w_face i = w; rw [g2.2.2, g.w]; exact (huv _ _ _).2.2
  have hfs : FreeStream (convArgs G F' order) G.nbcells q u v w := by
    refine ⟨?_, ?_, ?_, ?_, ?_, ?_, ?_⟩
    · intro C hC; show F'.w C = q; rw [eF]; exact le_antisymm (g.cellIn h.run hin C hC).2 (g.cellIn h.run hin C hC).1
    · intro f hf; show F'.ghost f = q; rw [g1]; exact le_antisymm (g.ghostIn h.run hin hb f hf).2 (g.ghostIn h.run hin hb f hf).1
    · intro f hf
      have : (convArgs G F' order).halofaces = [] := R.halo_nil
      rw [this] at hf; simp at hf
    · intro f hf
      have : (convArgs G F' order).periodicboundaryfaces = [] := R.cG.per
      rw [this] at hf; simp at hf
    · exact g3
    · intro f hf
      have : (convArgs G F' order).halofaces = [] := R.halo_nil
      rw [this] at hf; simp at hf
    · exact hvel
  have hcl := R.closed rfl hs F' order hC
  have h0 : balance (convArgs G F order) dim (phi (data p) c) = 0 := by
    rw [eb, balance_freestream _ dim _ h.run.hd (R.facesOK _ _ _) q u v w hfs, outSum_lin _ _ u v w hvel,
      hcl 0 (by omega), hcl 1 (by omega), hcl 2 (by omega)]
    ring
  rw [hnew p hp c hc, h0, zero_div, mul_zero, add_zero]
  exact hin p hp c hc

/-- Bounds are kept in one first-order iteration. -/
theorem bounds_step (h : NodePair dim nodeid node cv npart0 epart nbnodes n SIZE data serial L G B out trunc) (hs : Solid G dim out)
    (hgL : Nat → HGResult K) (S : Setup K) (m M : K) (hv : UniformVelocity S) (hr : NotAtRest dim S) (hD : 0 ≤ S.Dxx + S.Dyy + S.Dzz)
    (hc0 : 0 < S.cfl) (hc2 : S.cfl ≤ 2) (hb : ∀ loc, BcIn m M (S.bc loc)) (s : TState K)
    (hin : CellsIn SIZE L m M s) : ∃ s', tstep (parW dim SIZE data L hgL) S 1 false s = some s' ∧ CellsIn SIZE L m M s' := by
  obtain ⟨s', F, e, g, _, _, hnew⟩ := tstep_glue h hgL S 1 s
  refine ⟨s', e, fun p hp c hc => ?_⟩
  have R := h.run.rank p hp
  have hC := (R.sub.lt c hc).1
  obtain ⟨u, v, w, huv⟩ := hv s.iter
  have hvel : ∀ i, (convArgs G F 1).u_face i = u ∧ (convArgs G F 1).v_face i = v ∧ (convArgs G F 1).w_face i = w := by
    intro i
    refine ⟨?_, ?_, ?_⟩
    · show F.u_face i = u; rw [g.u]; exact (huv _ _ _).1
    · show F.v_face i = v; rw [g.v]; exact (huv _ _ _).2.1
    · show F.w_face i = w; rw [g.w]; exact (huv _ _ _).2.2
  have hcl := R.closed rfl hs F 1 hC
  have hdiv : DivFree (convArgs G F 1) (phi (data p) c) := by
    unfold DivFree
    rw [outSum_lin _ _ u v w hvel, hcl 0 (by omega), hcl 1 (by omega), hcl 2 (by omega)]; ring
  have hdata : DataIn (convArgs G F 1) G.nbcells m M := by
    refine ⟨g.cellIn h.run hin, g.ghostIn h.run hin hb, ?_⟩
    intro f hf
    have : (convArgs G F 1).halofaces = [] := R.halo_nil
    rw [this] at hf; simp at hf
  obtain ⟨b1, b2⟩ := balance_bounds (convArgs G F 1) dim G.nbcells (R.facesOK _ _ _)
    (by intro f hf; rw [show (convArgs G F 1).periodicboundaryfaces = [] from R.cG.per] at hf; simp at hf) rfl m M hdata _ hdiv
  have hpos : 0 < S.Dxx + S.Dyy + S.Dzz ∨ u ≠ 0 ∨ v ≠ 0 ∨ (dim = 3 ∧ w ≠ 0) := by
    rcases hr with hr | hr
    · exact Or.inl hr
    · have := hr s.iter 0 0 0
      rw [(huv 0 0 0).1, (huv 0 0 0).2.1, (huv 0 0 0).2.2] at this
      exact Or.inr this
  obtain ⟨t0, t1⟩ := C07_cfl_step_admissible (convArgs G F 1) dim G.nbcells u v w S.cfl G.volume G.mesure G.faceid S.Dxx S.Dyy S.Dzz hvel
    (fun C hC => R.incident F 1 hC) (fun C hC => R.closed rfl hs F 1 hC) hD hs.vpos hs.mes
    (fun C hC => R.rate_pos rfl hs u v w _ _ _ hD hpos h.run.hd hC) hc0 hc2 _ hC
  have edt : localStep dim S G s.iter
      = timeStep G.nbcells (fun _ => u) (fun _ => v) (fun _ => w) S.cfl (convArgs G F 1).normalf G.mesure G.volume G.faceid dim S.Dxx S.Dyy S.Dzz := by
    unfold localStep
    rw [toCells_const dim G (atFaces G (S.u s.iter)) u (fun f => (huv _ _ _).1), toCells_const dim G (atFaces G (S.v s.iter)) v (fun f => (huv _ _ _).2.1),
      toCells_const dim G (atFaces G (S.w s.iter)) w (fun f => (huv _ _ _).2.2)]
    rfl
  have hw := g.cellIn h.run hin _ hC
  have := update_bounds (F.w (phi (data p) c)) _ _ (G.volume (phi (data p) c)) _ m M t0 (hs.vpos _ hC) t1 hw.1 hw.2 b1 b2
  rw [← edt] at this
  rw [hnew p hp c hc, g.cell p hp c hc]
  simpa using this

/-! ### mass -/

/-- A sum over the cells of all ranks is a sum over the cells of the mesh. -/
theorem RunPair.sum_cells (h : RunPair dim SIZE n epart data L G B out) (X : Nat → K) :
    ∑ p ∈ Finset.range SIZE, ∑ c ∈ Finset.range (L p).nbcells, X (phi (data p) c) = ∑ C ∈ Finset.range n, X C := by
  rw [← Finset.sum_fiberwise_of_maps_to (s := Finset.range n) (t := Finset.range SIZE) (g := epart)
    (fun C hC => Finset.mem_range.mpr (h.he C (Finset.mem_range.mp hC)))]
  apply Finset.sum_congr rfl
  intro p hp
  have hp := Finset.mem_range.mp hp
  have R := h.rank p hp
  apply Finset.sum_nbij (phi (data p))
  · intro c hc
    have := R.sub.lt c (Finset.mem_range.mp hc)
    rw [h.nG] at this
    simp [this.1, this.2]
  · intro c hc c' hc' e
    simp only [Finset.coe_range, Set.mem_Iio] at hc hc'
    exact R.sub.inj hc hc' e
  · intro C hC
    simp only [Finset.coe_filter, Finset.mem_range, Set.mem_ofPred_eq] at hC
    obtain ⟨c, hc, e⟩ := R.sub.surj C (by rw [h.nG]; exact hC.1) hC.2
    exact ⟨c, by simpa using hc, e⟩
  · intro c _; rfl

theorem Consistent.sum_boundary {D : Tables K} {d1 : Nat} (h : Consistent D d1 B) (X : Nat → K) :
    (D.boundaryfaces.map X).sum = ∑ c ∈ Finset.range D.nbcells, ∑ j ∈ Finset.range d1,
      if D.faceid c j ∈ D.boundaryfaces ∧ (D.cellid (D.faceid c j) 0).toNat = c then X (D.faceid c j) else 0 := by
  rw [← sum_sumAt D.nbcells D.boundaryfaces (fun f => (D.cellid f 0).toNat) X]
  · apply Finset.sum_congr rfl
    intro c hc
    have hc := Finset.mem_range.mp hc
    refine sumAt_sides _ h.bnd.1 _ _ c d1 (D.faceid c) (h.inj c hc) ?_
    intro f hf e
    have hf1 := ((h.bnd.2 f).mp hf).1
    obtain ⟨a, ha, e1, j, hj, e2⟩ := users_first (h.users_ne hf1)
    rw [h.cell0 f hf1, e1] at e
    obtain rfl : a = c := by simpa using e
    exact ⟨j, hj, e2⟩
  · intro f hf
    have hf1 := ((h.bnd.2 f).mp hf).1
    obtain ⟨a, ha, e1, _⟩ := users_first (h.users_ne hf1)
    rw [h.cell0 f hf1, e1]; simpa using ha

/-- A sum over the boundary faces of all ranks is a sum over the boundary faces of the mesh. -/
theorem RunPair.sum_boundary (h : RunPair dim SIZE n epart data L G B out) (X : Nat → Nat → K) (Y : Nat → K)
    (hXY : ∀ p < SIZE, ∀ c < (L p).nbcells, ∀ j < dim + 1, (L p).faceid c j ∈ (L p).boundaryfaces →
      (L p).cellid ((L p).faceid c j) 0 = (c : Int) → G.cellid (G.faceid (phi (data p) c) j) 0 = (phi (data p) c : Int) →
      G.faceid (phi (data p) c) j ∈ G.boundaryfaces → X p ((L p).faceid c j) = Y (G.faceid (phi (data p) c) j)) :
    ∑ p ∈ Finset.range SIZE, ((L p).boundaryfaces.map (X p)).sum = (G.boundaryfaces.map Y).sum := by
  have h0 : 0 < SIZE := by have := h.hS; omega
  rw [(h.rank 0 h0).cG.sum_boundary, h.nG, ← h.sum_cells]
  apply Finset.sum_congr rfl
  intro p hp
  have hp := Finset.mem_range.mp hp
  have R := h.rank p hp
  rw [R.cL.sum_boundary]
  apply Finset.sum_congr rfl
  intro c hc
  have hc := Finset.mem_range.mp hc
  apply Finset.sum_congr rfl
  intro j hj
  have hj := Finset.mem_range.mp hj
  have hbn : ∀ {D : Tables K} (C : Consistent D (dim + 1) B) {f : Nat}, f ∈ D.boundaryfaces → D.name f ≠ 0 ∧ D.name f ≠ 10 := by
    intro D C f hf
    have := ((C.bnd.2 f).mp hf).2
    exact ⟨fun e => C.B0 (e ▸ this), fun e => C.B10 (e ▸ this)⟩
  rcases R.kinds hc hj with ⟨k1, k2, k3, k4, k5, k6⟩ | ⟨e, _, _, k1, k2, _⟩ | ⟨E, _, row, _, k1, k2, _⟩
  · rw [if_pos ⟨k1, by rw [k5]; simp⟩, if_pos ⟨k2, by rw [k6]; simp⟩]
    exact hXY p hp c hc j hj k1 k5 k6 k2
  · rw [if_neg (fun x => (hbn R.cL x.1).1 k1), if_neg (fun x => (hbn R.cG x.1).1 k2)]
  · rw [if_neg (fun x => (hbn R.cL x.1).2 k1), if_neg (fun x => (hbn R.cG x.1).1 k2)]

theorem RunPair.normalVel_eq (h : RunPair dim SIZE n epart data L G B out) (S : Setup K) (it : Nat) {p : Nat} (hp : p < SIZE) {c : Nat}
    (hc : c < (L p).nbcells) {j : Nat} (hj : j < dim + 1) (h1 : (L p).cellid ((L p).faceid c j) 0 = (c : Int))
    (h2 : G.cellid (G.faceid (phi (data p) c) j) 0 = (phi (data p) c : Int)) :
    normalVel (L p) S it ((L p).faceid c j) = normalVel G S it (G.faceid (phi (data p) c) j) := by
  have R := h.rank p hp
  have hC := (R.sub.lt c hc).1
  unfold normalVel
  rw [R.fcenter c hc j hj 0 (by omega), R.fcenter c hc j hj 1 (by omega), R.fcenter c hc j hj 2 (by omega),
    R.normalL c hc j hj h1 0 (by omega), R.normalL c hc j hj h1 1 (by omega), R.normalL c hc j hj h1 2 (by omega),
    R.normalG _ hC j hj h2 0 (by omega), R.normalG _ hC j hj h2 1 (by omega), R.normalG _ hC j hj h2 2 (by omega)]

theorem Glued.vn {hgL : Nat → HGResult K} {S : Setup K} {s : TState K} {F : Dom.Fields K} (g : Glued dim SIZE data L G hgL S s F) (o : Int) (f : Nat) :
    Spec.vn (convArgs G F o) f = normalVel G S s.iter f := by
  unfold Spec.vn normalVel
  show F.u_face f * _ + F.v_face f * _ + F.w_face f * _ = _
  rw [g.u, g.v, g.w]; rfl

theorem totalMass_glue (h : RunPair dim SIZE n epart data L G B out) (hgL : Nat → HGResult K) (s : TState K) (X : Nat → K)
    (hX : ∀ p < SIZE, ∀ c < (L p).nbcells, (s.V p).cell c = X (phi (data p) c)) :
    totalMass (parW dim SIZE data L hgL) s = ∑ C ∈ Finset.range n, G.volume C * X C := by
  rw [← h.sum_cells]
  unfold totalMass
  apply Finset.sum_congr rfl
  intro p hp
  have hp := Finset.mem_range.mp hp
  apply Finset.sum_congr rfl
  intro c hc
  have hc := Finset.mem_range.mp hc
  show (L p).volume c * _ = _
  rw [h.volume p hp c hc, hX p hp c hc]

/-- The mass lost in one iteration is what leaves through the boundary faces. -/
theorem mass_step (h : NodePair dim nodeid node cv npart0 epart nbnodes n SIZE data serial L G B out trunc) (hs : Solid G dim out)
    (hgL : Nat → HGResult K) (S : Setup K) (order : Int) (s : TState K) :
    ∃ s' F, tstep (parW dim SIZE data L hgL) S order false s = some s' ∧ Glued dim SIZE data L G hgL S s F ∧ s'.iter = s.iter + 1 ∧
      totalMass (parW dim SIZE data L hgL) s' = totalMass (parW dim SIZE data L hgL) s -
        (s'.time - s.time) * (G.boundaryfaces.map (boundaryFlux (convArgs G F order) dim)).sum := by
  obtain ⟨s', F, e, g, ht, hi, hnew⟩ := tstep_glue h hgL S order s
  refine ⟨s', F, e, g, hi, ?_⟩
  have h0 : 0 < SIZE := by have := h.run.hS; omega
  have R := h.run.rank 0 h0
  rw [totalMass_glue h.run hgL s F.w g.cell, totalMass_glue h.run hgL s' (fun C => F.w C + localStep dim S G s.iter *
    (balance (convArgs G F order) dim C / G.volume C)) (fun p hp c hc => by rw [hnew p hp c hc, g.cell p hp c hc])]
  have hb := sum_balance (convArgs G F order) dim G.nbcells (R.facesOK _ _ _)
  rw [show (convArgs G F order).periodicboundaryfaces = [] from R.cG.per, show (convArgs G F order).halofaces = [] from R.halo_nil] at hb
  rw [show (convArgs G F order).boundaryfaces = G.boundaryfaces from rfl] at hb
  simp only [List.map_nil, List.sum_nil, zero_add] at hb
  have ed : s'.time - s.time = localStep dim S G s.iter := by rw [ht]; ring
  have e1 : ∀ C ∈ Finset.range n, G.volume C * (F.w C + localStep dim S G s.iter * (balance (convArgs G F order) dim C / G.volume C)) =
      G.volume C * F.w C + localStep dim S G s.iter * balance (convArgs G F order) dim C := by
    intro C hC
    have hv := (hs.vpos C (by rw [h.run.nG]; exact Finset.mem_range.mp hC)).ne'
    field_simp
  rw [Finset.sum_congr rfl e1, Finset.sum_add_distrib, ← Finset.mul_sum, ← h.run.nG, hb, ed]
  ring

/-- First order: the outflow is the sum of the upwind fluxes of the boundary faces of all ranks. -/
theorem outflow_glue (h : NodePair dim nodeid node cv npart0 epart nbnodes n SIZE data serial L G B out trunc)
    (hgL : Nat → HGResult K) (S : Setup K) (s : TState K) (F : Dom.Fields K) (g : Glued dim SIZE data L G hgL S s F) :
    totalOutflow (parW dim SIZE data L hgL) S s = (G.boundaryfaces.map (boundaryFlux (convArgs G F 1) dim)).sum := by
  refine h.run.sum_boundary (fun p => outflow (L p) S s.iter (s.V p).cell) _ ?_
  intro p hp c hc j hj b1 b2 b3 b4
  have R := h.run.rank p hp
  obtain ⟨nm, _, _, _⟩ := R.boundary hc hj b1
  unfold outflow boundaryFlux cellAtFace
  rw [show (convArgs G F 1).order = 1 from rfl, extrap_one, h.run.normalVel_eq S s.iter hp hc hj b2 b3, g.vn]
  have e1 : left (convArgs G F 1) (G.faceid (phi (data p) c) j) = phi (data p) c := by
    show (G.cellid _ 0).toNat = _
    rw [b3]; simp
  have e2 : ((L p).cellid ((L p).faceid c j) 0).toNat = c := by rw [b2]; simp
  have e3 : outsideValue (L p) S (s.V p).cell ((L p).faceid c j) = F.ghost (G.faceid (phi (data p) c) j) := by
    rw [g.ghost _ b4, ← nm]
    unfold outsideValue
    cases S.bc ((L p).name ((L p).faceid c j)) with
    | neumann =>
      simp only [ghostVal, idx]
      rw [e2, b3, g.cell p hp c hc]; simp
    | nonslip =>
      simp only [ghostVal, idx]
      rw [e2, b3, g.cell p hp c hc]; simp
    | dirichlet v =>
      simp only [ghostVal]
      rw [R.fcenter c hc j hj 0 (by omega), R.fcenter c hc j hj 1 (by omega), R.fcenter c hc j hj 2 (by omega)]
  rw [e1, e2, e3, g.cell p hp c hc]; rfl

/-- No velocity through the boundary: the mass is unchanged. -/
theorem mass_closed_step (h : NodePair dim nodeid node cv npart0 epart nbnodes n SIZE data serial L G B out trunc) (hs : Solid G dim out)
    (hgL : Nat → HGResult K) (S : Setup K) (order : Int) (s : TState K)
    (hv : ∀ p < SIZE, ∀ f ∈ (L p).boundaryfaces, normalVel (L p) S s.iter f = 0) :
    ∃ s', tstep (parW dim SIZE data L hgL) S order false s = some s' ∧
      totalMass (parW dim SIZE data L hgL) s' = totalMass (parW dim SIZE data L hgL) s := by
  obtain ⟨s', F, e, g, hi, hm⟩ := mass_step h hs hgL S order s
  refine ⟨s', e, ?_⟩
  rw [hm]
  have : (G.boundaryfaces.map (boundaryFlux (convArgs G F order) dim)).sum = 0 := by
    apply List.sum_eq_zero
    intro x hx
    obtain ⟨f, hf, rfl⟩ := List.mem_map.mp hx
    have h0 : 0 < SIZE := by have := h.run.hS; omega
    have R0 := h.run.rank 0 h0
    have hf1 := ((R0.cG.bnd.2 f).mp hf).1
    obtain ⟨C, hC, e1, j, hj, e2⟩ := users_first (R0.cG.users_ne hf1)
    obtain ⟨p, hp, c, hc, e3⟩ := h.run.owner (h.run.nG ▸ hC)
    have R := h.run.rank p hp
    have e4 : G.faceid (phi (data p) c) j = f := by rw [e3]; exact e2
    have hz : normalVel G S s.iter f = 0 := by
      rcases R.kinds hc hj with ⟨k1, k2, k3, k4, k5, k6⟩ | ⟨e, _, _, k1, k2, _⟩ | ⟨E, _, row, _, k1, k2, _⟩
      · rw [← e4, ← h.run.normalVel_eq S s.iter hp hc hj k5 k6]
        exact hv p hp _ k1
      · rw [e4] at k2; exact absurd (k2 ▸ ((R.cG.bnd.2 f).mp hf).2) R.cG.B0
      · rw [e4] at k2; exact absurd (k2 ▸ ((R.cG.bnd.2 f).mp hf).2) R.cG.B0
    unfold boundaryFlux
    rw [g.vn, hz]; simp [upwind]
  rw [this]; ring

end

section
variable {nodeid : Nat → Nat → Nat} {node : Nat → K × K × K × Nat} {npart0 epart : Nat → Nat}
  {nbnodes n SIZE : Nat} {data : Nat → RankData K} {serial : RankData K}

/-! ### C91: constant states -/

/-- **C91** (2D, first order): if the variable is the constant `q` everywhere, the velocity is uniform and the boundary conditions are
compatible with `q`, then after any number of iterations every cell of every rank still holds `q`. -/
theorem C91_freestream_2d (h : Launched 3 nodeid node (centvol2 node nodeid) npart0 epart nbnodes n SIZE data serial)
    (vm : ValidMesh2 nodeid node nbnodes n) (sqrt : K → K) (hs : ∀ x, 0 < x → sqrt x ≠ 0) (trunc : K → Int) (htr : ∀ m : Nat, trunc (m : K) = m) :
    ∃ WL, mkWorld 2 SIZE data (fun p => build2 sqrt trunc SIZE (data p)) = some WL ∧
      ∀ (S : Setup K) (q : K), UniformVelocity S → (∀ loc, BcIn q q (S.bc loc)) → ∀ N, ∃ s,
        tloop WL S 1 false (tstart WL (fun _ _ _ => q)) N = some s ∧ ∀ p < SIZE, ∀ c < (WL.D p).nbcells, (s.V p).cell c = q := by
  have np := h.nodePair2 vm sqrt trunc htr
  obtain ⟨hgL, hgG, w1, w2, sL, sG⟩ := np.worlds
  refine ⟨_, w1, fun S q hv hb N => ?_⟩
  obtain ⟨s, e, hin⟩ := tloop_inv (parW 2 SIZE data _ hgL) S 1 false (CellsIn SIZE (fun p => build2 sqrt trunc SIZE (data p)) q q)
    (fun s hin => freestream_core np (h.solid2 vm sqrt hs trunc htr) hgL S q hv hb 1 s hin (fun _ _ => Or.inl rfl))
    (tstart (parW 2 SIZE data _ hgL) (fun _ _ _ => q)) (fun p hp c hc => ⟨le_refl _, le_refl _⟩) N
  exact ⟨s, e, fun p hp c hc => le_antisymm (hin p hp c hc).2 (hin p hp c hc).1⟩

/-- **C94** (2D, any order): the same with the limited reconstruction of any order.  Partial: the cells around a node must be connected through
faces and the boundary conditions must agree at the corners shared by ranks (without that the gradients of a constant are not 0 next to a
shared corner, see C88). -/
theorem C94_freestream_order2_2d_partial (h : Launched 3 nodeid node (centvol2 node nodeid) npart0 epart nbnodes n SIZE data serial)
    (vm : ValidMesh2 nodeid node nbnodes n) (sqrt : K → K) (hs : ∀ x, 0 < x → sqrt x ≠ 0) (trunc : K → Int) (htr : ∀ m : Nat, trunc (m : K) = m)
    (star : StarConnected 2 nodeid n) :
    ∃ WL, mkWorld 2 SIZE data (fun p => build2 sqrt trunc SIZE (data p)) = some WL ∧
      ∀ (S : Setup K) (q : K), UniformVelocity S → (∀ loc, BcIn q q (S.bc loc)) →
        CornersOk 2 nodeid epart n (build2 sqrt trunc 1 serial) S.bc → ∀ (order : Int) N, ∃ s,
        tloop WL S order false (tstart WL (fun _ _ _ => q)) N = some s ∧ ∀ p < SIZE, ∀ c < (WL.D p).nbcells, (s.V p).cell c = q := by
  have np := h.nodePair2 vm sqrt trunc htr
  obtain ⟨hgL, hgG, w1, w2, sL, sG⟩ := np.worlds
  refine ⟨_, w1, fun S q hv hb hco order N => ?_⟩
  obtain ⟨s, e, hin⟩ := tloop_inv (parW 2 SIZE data _ hgL) S order false (CellsIn SIZE (fun p => build2 sqrt trunc SIZE (data p)) q q)
    (fun s hin => freestream_core np (h.solid2 vm sqrt hs trunc htr) hgL S q hv hb order s hin
      (fun F g => Or.inr (g.grad_zero np sL sG ⟨star, hco⟩ hin hb)))
    (tstart (parW 2 SIZE data _ hgL) (fun _ _ _ => q)) (fun p hp c hc => ⟨le_refl _, le_refl _⟩) N
  exact ⟨s, e, fun p hp c hc => le_antisymm (hin p hp c hc).2 (hin p hp c hc).1⟩

/-- **C91** (3D, first order): if the variable is the constant `q` everywhere, the velocity is uniform and the boundary conditions are
compatible with `q`, then after any number of iterations every cell of every rank still holds `q`. -/
theorem C91_freestream_3d (h : Launched 4 nodeid node (centvol3 node nodeid) npart0 epart nbnodes n SIZE data serial)
    (vm : ValidMesh3 nodeid node nbnodes n) (sqrt : K → K) (hs : ∀ x, 0 < x → sqrt x ≠ 0) (trunc : K → Int) (htr : ∀ m : Nat, trunc (m : K) = m) :
    ∃ WL, mkWorld 3 SIZE data (fun p => build3 sqrt trunc SIZE (data p)) = some WL ∧
      ∀ (S : Setup K) (q : K), UniformVelocity S → (∀ loc, BcIn q q (S.bc loc)) → ∀ N, ∃ s,
        tloop WL S 1 false (tstart WL (fun _ _ _ => q)) N = some s ∧ ∀ p < SIZE, ∀ c < (WL.D p).nbcells, (s.V p).cell c = q := by
  have np := h.nodePair3 vm sqrt trunc htr
  obtain ⟨hgL, hgG, w1, w2, sL, sG⟩ := np.worlds
  refine ⟨_, w1, fun S q hv hb N => ?_⟩
  obtain ⟨s, e, hin⟩ := tloop_inv (parW 3 SIZE data _ hgL) S 1 false (CellsIn SIZE (fun p => build3 sqrt trunc SIZE (data p)) q q)
    (fun s hin => freestream_core np (h.solid3 vm sqrt hs trunc htr) hgL S q hv hb 1 s hin (fun _ _ => Or.inl rfl))
    (tstart (parW 3 SIZE data _ hgL) (fun _ _ _ => q)) (fun p hp c hc => ⟨le_refl _, le_refl _⟩) N
  exact ⟨s, e, fun p hp c hc => le_antisymm (hin p hp c hc).2 (hin p hp c hc).1⟩

/-- **C94** (3D, any order): the same with the limited reconstruction of any order.  Partial: the cells around a node must be connected through
faces and the boundary conditions must agree at the corners shared by ranks (without that the gradients of a constant are not 0 next to a
shared corner, see C88). -/
theorem C94_freestream_order2_3d_partial (h : Launched 4 nodeid node (centvol3 node nodeid) npart0 epart nbnodes n SIZE data serial)
    (vm : ValidMesh3 nodeid node nbnodes n) (sqrt : K → K) (hs : ∀ x, 0 < x → sqrt x ≠ 0) (trunc : K → Int) (htr : ∀ m : Nat, trunc (m : K) = m)
    (star : StarConnected 3 nodeid n) :
    ∃ WL, mkWorld 3 SIZE data (fun p => build3 sqrt trunc SIZE (data p)) = some WL ∧
      ∀ (S : Setup K) (q : K), UniformVelocity S → (∀ loc, BcIn q q (S.bc loc)) →
        CornersOk 3 nodeid epart n (build3 sqrt trunc 1 serial) S.bc → ∀ (order : Int) N, ∃ s,
        tloop WL S order false (tstart WL (fun _ _ _ => q)) N = some s ∧ ∀ p < SIZE, ∀ c < (WL.D p).nbcells, (s.V p).cell c = q := by
  have np := h.nodePair3 vm sqrt trunc htr
  obtain ⟨hgL, hgG, w1, w2, sL, sG⟩ := np.worlds
  refine ⟨_, w1, fun S q hv hb hco order N => ?_⟩
  obtain ⟨s, e, hin⟩ := tloop_inv (parW 3 SIZE data _ hgL) S order false (CellsIn SIZE (fun p => build3 sqrt trunc SIZE (data p)) q q)
    (fun s hin => freestream_core np (h.solid3 vm sqrt hs trunc htr) hgL S q hv hb order s hin
      (fun F g => Or.inr (g.grad_zero np sL sG ⟨star, hco⟩ hin hb)))
    (tstart (parW 3 SIZE data _ hgL) (fun _ _ _ => q)) (fun p hp c hc => ⟨le_refl _, le_refl _⟩) N
  exact ⟨s, e, fun p hp c hc => le_antisymm (hin p hp c hc).2 (hin p hp c hc).1⟩

/-! ### C92: mass balance -/

/-- **C92** (2D): from any state, one first-order iteration changes the integral of the variable over the domain (added up over the ranks)
by minus the time step times what leaves through the boundary faces of all ranks. -/
theorem C92_mass_balance_2d (h : Launched 3 nodeid node (centvol2 node nodeid) npart0 epart nbnodes n SIZE data serial)
    (vm : ValidMesh2 nodeid node nbnodes n) (sqrt : K → K) (hs : ∀ x, 0 < x → sqrt x ≠ 0) (trunc : K → Int) (htr : ∀ m : Nat, trunc (m : K) = m) :
    ∃ WL, mkWorld 2 SIZE data (fun p => build2 sqrt trunc SIZE (data p)) = some WL ∧
      ∀ (S : Setup K) (s : TState K), ∃ s', tstep WL S 1 false s = some s' ∧
        totalMass WL s' = totalMass WL s - (s'.time - s.time) * totalOutflow WL S s := by
  have np := h.nodePair2 vm sqrt trunc htr
  obtain ⟨hgL, hgG, w1, w2, sL, sG⟩ := np.worlds
  refine ⟨_, w1, fun S s => ?_⟩
  obtain ⟨s', F, e, g, _, hm⟩ := mass_step np (h.solid2 vm sqrt hs trunc htr) hgL S 1 s
  exact ⟨s', e, by rw [hm, outflow_glue np hgL S s F g]⟩

/-- C92 (2D): if the velocity has no component through the boundary faces, the integral of the variable over the domain is the initial
one after any number of iterations, with a reconstruction of any order, whatever the boundary conditions and the mesh corners. -/
theorem C92_mass_conserved_2d (h : Launched 3 nodeid node (centvol2 node nodeid) npart0 epart nbnodes n SIZE data serial)
    (vm : ValidMesh2 nodeid node nbnodes n) (sqrt : K → K) (hs : ∀ x, 0 < x → sqrt x ≠ 0) (trunc : K → Int) (htr : ∀ m : Nat, trunc (m : K) = m) :
    ∃ WL, mkWorld 2 SIZE data (fun p => build2 sqrt trunc SIZE (data p)) = some WL ∧
      ∀ (S : Setup K), (∀ it, ∀ p < SIZE, ∀ f ∈ (WL.D p).boundaryfaces, normalVel (WL.D p) S it f = 0) →
        ∀ (order : Int) (init : K → K → K → K) N, ∃ s, tloop WL S order false (tstart WL init) N = some s ∧
          totalMass WL s = totalMass WL (tstart WL init) := by
  have np := h.nodePair2 vm sqrt trunc htr
  obtain ⟨hgL, hgG, w1, w2, sL, sG⟩ := np.worlds
  refine ⟨_, w1, fun S hv order init N => ?_⟩
  refine tloop_inv (parW 2 SIZE data _ hgL) S order false
    (fun s => totalMass (parW 2 SIZE data _ hgL) s = totalMass (parW 2 SIZE data _ hgL) (tstart (parW 2 SIZE data _ hgL) init)) ?_ _ rfl N
  intro s hP
  obtain ⟨s', e, hm⟩ := mass_closed_step np (h.solid2 vm sqrt hs trunc htr) hgL S order s (hv s.iter)
  exact ⟨s', e, by rw [hm, hP]⟩

/-- **C92** (3D): from any state, one first-order iteration changes the integral of the variable over the domain (added up over the ranks)
by minus the time step times what leaves through the boundary faces of all ranks. -/
theorem C92_mass_balance_3d (h : Launched 4 nodeid node (centvol3 node nodeid) npart0 epart nbnodes n SIZE data serial)
    (vm : ValidMesh3 nodeid node nbnodes n) (sqrt : K → K) (hs : ∀ x, 0 < x → sqrt x ≠ 0) (trunc : K → Int) (htr : ∀ m : Nat, trunc (m : K) = m) :
    ∃ WL, mkWorld 3 SIZE data (fun p => build3 sqrt trunc SIZE (data p)) = some WL ∧
      ∀ (S : Setup K) (s : TState K), ∃ s', tstep WL S 1 false s = some s' ∧
        totalMass WL s' = totalMass WL s - (s'.time - s.time) * totalOutflow WL S s := by
  have np := h.nodePair3 vm sqrt trunc htr
  obtain ⟨hgL, hgG, w1, w2, sL, sG⟩ := np.worlds
  refine ⟨_, w1, fun S s => ?_⟩
  obtain ⟨s', F, e, g, _, hm⟩ := mass_step np (h.solid3 vm sqrt hs trunc htr) hgL S 1 s
  exact ⟨s', e, by rw [hm, outflow_glue np hgL S s F g]⟩

/-- C92 (3D): if the velocity has no component through the boundary faces, the integral of the variable over the domain is the initial
one after any number of iterations, with a reconstruction of any order, whatever the boundary conditions and the mesh corners. -/
theorem C92_mass_conserved_3d (h : Launched 4 nodeid node (centvol3 node nodeid) npart0 epart nbnodes n SIZE data serial)
    (vm : ValidMesh3 nodeid node nbnodes n) (sqrt : K → K) (hs : ∀ x, 0 < x → sqrt x ≠ 0) (trunc : K → Int) (htr : ∀ m : Nat, trunc (m : K) = m) :
    ∃ WL, mkWorld 3 SIZE data (fun p => build3 sqrt trunc SIZE (data p)) = some WL ∧
      ∀ (S : Setup K), (∀ it, ∀ p < SIZE, ∀ f ∈ (WL.D p).boundaryfaces, normalVel (WL.D p) S it f = 0) →
        ∀ (order : Int) (init : K → K → K → K) N, ∃ s, tloop WL S order false (tstart WL init) N = some s ∧
          totalMass WL s = totalMass WL (tstart WL init) := by
  have np := h.nodePair3 vm sqrt trunc htr
  obtain ⟨hgL, hgG, w1, w2, sL, sG⟩ := np.worlds
  refine ⟨_, w1, fun S hv order init N => ?_⟩
  refine tloop_inv (parW 3 SIZE data _ hgL) S order false
    (fun s => totalMass (parW 3 SIZE data _ hgL) s = totalMass (parW 3 SIZE data _ hgL) (tstart (parW 3 SIZE data _ hgL) init)) ?_ _ rfl N
  intro s hP
  obtain ⟨s', e, hm⟩ := mass_closed_step np (h.solid3 vm sqrt hs trunc htr) hgL S order s (hv s.iter)
  exact ⟨s', e, by rw [hm, hP]⟩

/-! ### C93: maximum principle -/

/-- **C93** (2D): with a uniform velocity, a CFL number in (0, 2] and initial and boundary data in `[m, M]`, the values of all cells of all
ranks are in `[m, M]` after any number of first-order iterations. -/
theorem C93_bounds_2d (h : Launched 3 nodeid node (centvol2 node nodeid) npart0 epart nbnodes n SIZE data serial)
    (vm : ValidMesh2 nodeid node nbnodes n) (sqrt : K → K) (hs : ∀ x, 0 < x → sqrt x ≠ 0) (trunc : K → Int) (htr : ∀ m : Nat, trunc (m : K) = m) :
    ∃ WL, mkWorld 2 SIZE data (fun p => build2 sqrt trunc SIZE (data p)) = some WL ∧
      ∀ (S : Setup K) (m M : K), UniformVelocity S → NotAtRest 2 S → 0 ≤ S.Dxx + S.Dyy + S.Dzz → 0 < S.cfl → S.cfl ≤ 2 →
        (∀ loc, BcIn m M (S.bc loc)) → ∀ (init : K → K → K → K), (∀ x y z, m ≤ init x y z ∧ init x y z ≤ M) → ∀ N, ∃ s,
        tloop WL S 1 false (tstart WL init) N = some s ∧ ∀ p < SIZE, ∀ c < (WL.D p).nbcells, m ≤ (s.V p).cell c ∧ (s.V p).cell c ≤ M := by
  have np := h.nodePair2 vm sqrt trunc htr
  obtain ⟨hgL, hgG, w1, w2, sL, sG⟩ := np.worlds
  refine ⟨_, w1, fun S m M hv hr hD hc0 hc2 hb init hinit N => ?_⟩
  exact tloop_inv (parW 2 SIZE data _ hgL) S 1 false (CellsIn SIZE (fun p => build2 sqrt trunc SIZE (data p)) m M)
    (fun s hin => bounds_step np (h.solid2 vm sqrt hs trunc htr) hgL S m M hv hr hD hc0 hc2 hb s hin)
    (tstart (parW 2 SIZE data _ hgL) init) (fun p hp c hc => hinit _ _ _) N

/-- **C93** (3D): with a uniform velocity, a CFL number in (0, 2] and initial and boundary data in `[m, M]`, the values of all cells of all
ranks are in `[m, M]` after any number of first-order iterations. -/
theorem C93_bounds_3d (h : Launched 4 nodeid node (centvol3 node nodeid) npart0 epart nbnodes n SIZE data serial)
    (vm : ValidMesh3 nodeid node nbnodes n) (sqrt : K → K) (hs : ∀ x, 0 < x → sqrt x ≠ 0) (trunc : K → Int) (htr : ∀ m : Nat, trunc (m : K) = m) :
    ∃ WL, mkWorld 3 SIZE data (fun p => build3 sqrt trunc SIZE (data p)) = some WL ∧
      ∀ (S : Setup K) (m M : K), UniformVelocity S → NotAtRest 3 S → 0 ≤ S.Dxx + S.Dyy + S.Dzz → 0 < S.cfl → S.cfl ≤ 2 →
        (∀ loc, BcIn m M (S.bc loc)) → ∀ (init : K → K → K → K), (∀ x y z, m ≤ init x y z ∧ init x y z ≤ M) → ∀ N, ∃ s,
        tloop WL S 1 false (tstart WL init) N = some s ∧ ∀ p < SIZE, ∀ c < (WL.D p).nbcells, m ≤ (s.V p).cell c ∧ (s.V p).cell c ≤ M := by
  have np := h.nodePair3 vm sqrt trunc htr
  obtain ⟨hgL, hgG, w1, w2, sL, sG⟩ := np.worlds
  refine ⟨_, w1, fun S m M hv hr hD hc0 hc2 hb init hinit N => ?_⟩
  exact tloop_inv (parW 3 SIZE data _ hgL) S 1 false (CellsIn SIZE (fun p => build3 sqrt trunc SIZE (data p)) m M)
    (fun s hin => bounds_step np (h.solid3 vm sqrt hs trunc htr) hgL S m M hv hr hD hc0 hc2 hb s hin)
    (tstart (parW 3 SIZE data _ hgL) init) (fun p hp c hc => hinit _ _ _) N

end

/-! ### the hypotheses are met -/

/-- A Setup with uniform velocity (1, 1, 1), Neumann on the first side and Dirichlet values in [0, 1] elsewhere. -/
def flowSetup : Setup ℚ :=
  { u := fun _ _ _ _ => 1, v := fun _ _ _ _ => 1, w := fun _ _ _ _ => 1, cfl := 4/5, Dxx := 0, Dyy := 0, Dzz := 0,
    bc := fun loc => if loc = 1 then .neumann else .dirichlet (fun _ _ _ => 1/2), tfinal := 1 }

theorem flowSetup_ok (dim : Nat) : UniformVelocity flowSetup ∧ NotAtRest dim flowSetup ∧ 0 ≤ flowSetup.Dxx + flowSetup.Dyy + flowSetup.Dzz ∧
    0 < flowSetup.cfl ∧ flowSetup.cfl ≤ 2 ∧ ∀ loc, BcIn 0 1 (flowSetup.bc loc) := by
  refine ⟨fun _ => ⟨1, 1, 1, fun _ _ _ => ⟨rfl, rfl, rfl⟩⟩, Or.inr fun _ _ _ _ => Or.inl (by simp [flowSetup]), by simp [flowSetup],
    by norm_num [flowSetup], by norm_num [flowSetup], fun loc => ?_⟩
  by_cases h : loc = 1
  · simp [flowSetup, h, BcIn]
  · simp [flowSetup, h, BcIn]; norm_num

example := C91_freestream_2d stripLaunched stripValid (fun x => x) (fun x hx => hx.ne') Rat.floor floor_nat
example := C91_freestream_3d chainLaunched chainValid (fun x => x) (fun x hx => hx.ne') Rat.floor floor_nat
example := C94_freestream_order2_2d_partial stripLaunched stripValid (fun x => x) (fun x hx => hx.ne') Rat.floor floor_nat (run_star 2 4)
example : ∀ loc, BcIn (1/2 : ℚ) (1/2) (flowSetup.bc loc) := by
  intro loc
  by_cases h : loc = 1 <;> simp [flowSetup, h, BcIn]
example := C92_mass_balance_2d stripLaunched stripValid (fun x => x) (fun x hx => hx.ne') Rat.floor floor_nat
example := C92_mass_conserved_3d chainLaunched chainValid (fun x => x) (fun x hx => hx.ne') Rat.floor floor_nat
/-- A velocity that vanishes on the boundary: here, everywhere but at the first iteration's interior points. -/
example (D : Tables ℚ) (it f : Nat) : normalVel D { flowSetup with u := fun _ _ _ _ => 0, v := fun _ _ _ _ => 0, w := fun _ _ _ _ => 0 } it f = 0 := by
  simp [normalVel]
example : ∃ WL, mkWorld 2 2 stripData (fun p => build2 (fun x => x) Rat.floor 2 (stripData p)) = some WL ∧
    ∀ N, ∃ s, tloop WL flowSetup 1 false (tstart WL (fun x _ _ => if x < 1 then 0 else 1)) N = some s ∧
      ∀ p < 2, ∀ c < (WL.D p).nbcells, 0 ≤ (s.V p).cell c ∧ (s.V p).cell c ≤ 1 := by
  obtain ⟨WL, e, hW⟩ := C93_bounds_2d stripLaunched stripValid (fun x => x) (fun x hx => hx.ne') Rat.floor floor_nat
  obtain ⟨a, b, c, d, e', f⟩ := flowSetup_ok 2
  refine ⟨WL, e, hW flowSetup 0 1 a b c d e' f _ ?_⟩
  intro x y z; split <;> norm_num
example := C93_bounds_3d chainLaunched chainValid (fun x => x) (fun x hx => hx.ne') Rat.floor floor_nat

end Verif.Props.Par
