import Verif.Props.ParSides

/-! Helper lemmas for the parallel theorems: the update methods of a variable on all ranks against the serial run. -/
set_option linter.unusedSectionVars false
set_option linter.unusedVariables false
set_option linter.unusedSimpArgs false
namespace Verif.Props.Par
open Verif.Fvm Verif.Spec Verif.Conn Verif.Dom Verif.Geo Verif.Names Verif.MeshFile Verif.Part Verif.Comm Verif.Run Verif.HaloGhost Verif.Interp Verif.Props.HG
variable {K : Type*} [Field K] [LinearOrder K] [IsStrictOrderedRing K]

section
variable {dim : Nat} {nodeid : Nat → Nat → Nat} {node : Nat → K × K × K × Nat} {cv : Nat → List K} {npart0 epart : Nat → Nat}
  {nbnodes n SIZE : Nat} {data : Nat → RankData K} {serial : RankData K} {L : Nat → Tables K} {G : Tables K} {B : List Int}
  {out : Nat → Nat → Vec K} {trunc : K → Int}

/-- The parallel world. -/
abbrev parW (dim SIZE : Nat) (data : Nat → RankData K) (L : Nat → Tables K) (hgL : Nat → HGResult K) : World K := ⟨dim, SIZE, data, L, hgL⟩
/-- The serial world. -/
abbrev serW (dim : Nat) (serial : RankData K) (G : Tables K) (hgG : Nat → HGResult K) : World K := ⟨dim, 1, fun _ => serial, fun _ => G, hgG⟩

theorem NodePair.worlds (h : NodePair dim nodeid node cv npart0 epart nbnodes n SIZE data serial L G B out trunc) :
    ∃ hgL hgG, mkWorld dim SIZE data L = some (parW dim SIZE data L hgL) ∧
      mkWorld dim 1 (fun _ => serial) (fun _ => G) = some (serW dim serial G hgG) ∧
      (∀ p < SIZE, ∃ rows, HGSpec dim SIZE data L p (hgL p) rows) ∧ HGSerial dim G nbnodes (hgG 0) := by
  obtain ⟨l, h1, h2, h3⟩ := mapM_range_some SIZE (haloGhosts dim SIZE data L)
    (fun p hp => by obtain ⟨hg, rows, e, _⟩ := h.haloGhosts_ok hp; exact ⟨hg, e⟩)
  obtain ⟨hgG, e, s1, s2⟩ := h.haloGhosts_serial
  refine ⟨fun p => l.getD p ⟨fun _ => [], fun _ => [], fun _ => [], fun _ => [], 0⟩,
    fun p => [hgG].getD p ⟨fun _ => [], fun _ => [], fun _ => [], fun _ => [], 0⟩, ?_, ?_, ?_, ?_⟩
  · unfold mkWorld; rw [h1]; rfl
  · unfold mkWorld
    rw [show (List.range 1).mapM (haloGhosts dim 1 (fun _ => serial) (fun _ => G)) = some [hgG] by simp [e]]
    rfl
  · intro p hp
    obtain ⟨hg, rows, e, s⟩ := h.haloGhosts_ok hp
    refine ⟨rows, ?_⟩
    have e' : l.getD p ⟨fun _ => [], fun _ => [], fun _ => [], fun _ => [], 0⟩ = hg := by
      rw [List.getD_eq_getElem?_getD, h3 p hp, e]; rfl
    rw [← e'] at s
    exact s
  · exact ⟨s1, s2⟩

theorem exchange_match (h : NodePair dim nodeid node cv npart0 epart nbnodes n SIZE data serial L G B out trunc) (hgL : Nat → HGResult K)
    (a : Nat → Nat → K) (A : Nat → K) (hr : ∀ p < SIZE, ∀ c < (L p).nbcells, a p c = A (phi (data p) c)) :
    ∃ H, exchangeAll (parW dim SIZE data L hgL) a = some H ∧ ∀ p < SIZE, ∀ k < (data p).halosext.length, (H p).getD k 0 = A (ext0 (data p) k) := by
  have hS1 : ¬ SIZE = 1 := by have := h.run.hS; omega
  have hr' : ∀ p < SIZE, Restricts (data p).loctoglob (a p) A := fun p hp => (restricts_iff h.run hp _ _).mpr (hr p hp)
  obtain ⟨l, h1, h2, h3⟩ := mapM_range_some SIZE (Run.exchange SIZE data a) (fun p hp => by
    obtain ⟨halo, e, _⟩ := h.run.halo a A hr' p hp
    exact ⟨halo, by unfold Run.exchange; rw [if_neg hS1]; exact e⟩)
  refine ⟨fun p => l.getD p [], ?_, ?_⟩
  · unfold exchangeAll
    show ((List.range SIZE).mapM (Run.exchange SIZE data a)).map _ = _
    rw [h1]; rfl
  · intro p hp k hk
    obtain ⟨halo, e, hh⟩ := h.run.halo a A hr' p hp
    have e1 : l.getD p [] = halo := by
      rw [List.getD_eq_getElem?_getD, h3 p hp]; unfold Run.exchange; rw [if_neg hS1, e]; rfl
    show (l.getD p []).getD k 0 = _
    rw [e1]
    exact hh k _ _ (h.hl.ext_get hp hk).1 rfl

theorem exchange_serial (serial : RankData K) (G : Tables K) (hgG : Nat → HGResult K) (b : Nat → Nat → K) :
    exchangeAll (serW dim serial G hgG) b = some (fun p => [[]].getD p []) := by
  unfold exchangeAll
  show ((List.range 1).mapM (Run.exchange 1 (fun _ => serial) b)).map _ = _
  have : (List.range 1).mapM (Run.exchange 1 (fun _ => serial) b) = some [[]] := by simp [Run.exchange]
  rw [this]; rfl

/-- The cell arrays of all ranks are the restrictions of the serial one. -/
def VMatch (SIZE : Nat) (data : Nat → RankData K) (L : Nat → Tables K) (V U : Nat → Vari K) : Prop :=
  ∀ p < SIZE, ∀ c < (L p).nbcells, (V p).cell c = (U 0).cell (phi (data p) c)

theorem update_match (h : NodePair dim nodeid node cv npart0 epart nbnodes n SIZE data serial L G B out trunc) (hgL hgG : Nat → HGResult K)
    (bc : Int → BCond K) (V U : Nat → Vari K) (hm : VMatch SIZE data L V U) :
    ∃ V' U', updateValues (parW dim SIZE data L hgL) bc V = some V' ∧ updateValues (serW dim serial G hgG) bc U = some U' ∧
      VMatch SIZE data L V' U' ∧ (∀ p, (V' p).cell = (V p).cell) ∧ (∀ p, (U' p).cell = (U p).cell) ∧
      (∀ p < SIZE, ValuesOk dim SIZE data L G (U' 0).fields.c bc p (hgL p) (V' p).fields) ∧ ValuesG dim G bc (U' 0).fields := by
  obtain ⟨H, e, hH⟩ := exchange_match h hgL (fun p => (V p).cell) (U 0).cell hm
  refine ⟨updateGhostValue (parW dim SIZE data L hgL) bc (fun p => { V p with halo := H p }),
    updateGhostValue (serW dim serial G hgG) bc (fun p => { U p with halo := [[]].getD p [] }), ?_, ?_, ?_, ?_, ?_, ?_, ?_⟩
  · unfold updateValues updateHaloValue; rw [e]; rfl
  · unfold updateValues updateHaloValue; rw [exchange_serial]; rfl
  · intro p hp c hc; exact hm p hp c hc
  · intro p; rfl
  · intro p; rfl
  · intro p hp
    refine ⟨fun c hc => hm p hp c hc, fun k hk => hH p hp k hk, ⟨_, rfl⟩, ⟨_, rfl⟩⟩
  · exact ⟨⟨_, rfl⟩⟩

/-- The hypotheses under which the node and cell stencils are those of the serial run. -/
structure StencilOk (dim : Nat) (nodeid : Nat → Nat → Nat) (epart : Nat → Nat) (n : Nat) (G : Tables K) (bc : Int → BCond K) : Prop where
  star : StarConnected dim nodeid n
  corner : ∀ F ∈ G.boundaryfaces, ∀ s ∈ G.fnode F, SharedNode dim nodeid epart n s → CornerOk dim bc (G.name F) (G.oldname s)

/-- The value of a node whose boundary conditions are compatible. -/
theorem nodeValue_match_at (h : NodePair dim nodeid node cv npart0 epart nbnodes n SIZE data serial L G B out trunc)
    (bc : Int → BCond K) (star : StarConnected dim nodeid n)
    {p : Nat} (hp : p < SIZE) {hg : HGResult K} {rows : Nat → List (GRow K)} (s : HGSpec dim SIZE data L p hg rows)
    {hgG : HGResult K} (sG : HGSerial dim G nbnodes hgG) {wL wG : Interp.Fields K} (vL : ValuesOk dim SIZE data L G wG.c bc p hg wL)
    (vG : ValuesG dim G bc wG) {i : Nat} (hi : i < (L p).nbnodes)
    (hbc : ∀ F ∈ G.boundaryfaces, gOf (data p) i ∈ G.fnode F → SharedNode dim nodeid epart n (gOf (data p) i) →
      CornerOk dim bc (G.name F) (G.oldname (gOf (data p) i))) :
    nodeValues dim SIZE (data p) (L p) hg wL i = nodeValues dim 1 serial G hgG wG (gOf (data p) i) := by
  have st := h.node_stencil star bc hp hbc s sG vL vG hi
  have hv : ∀ k < 3, (L p).vertex i k = G.vertex (gOf (data p) i) k := by
    intro k hk
    rw [h.vertexL p hp, h.vertexG]
    exact h.hl.vertex_eq hp (by rw [← h.nbL p hp]; exact hi) k (by omega)
  unfold nodeValues
  rcases h.run.hd with rfl | rfl
  · rw [if_pos rfl, if_pos rfl]
    exact node_value2 _ _ _ _ _ _ (fun k hk => hv k (by omega)) st
  · rw [if_neg (by decide), if_neg (by decide)]
    exact node_value3 _ _ _ _ _ _ (fun k hk => hv k hk) st

theorem nodeValue_match (h : NodePair dim nodeid node cv npart0 epart nbnodes n SIZE data serial L G B out trunc)
    (bc : Int → BCond K) (so : StencilOk dim nodeid epart n G bc)
    {p : Nat} (hp : p < SIZE) {hg : HGResult K} {rows : Nat → List (GRow K)} (s : HGSpec dim SIZE data L p hg rows)
    {hgG : HGResult K} (sG : HGSerial dim G nbnodes hgG) {wL wG : Interp.Fields K} (vL : ValuesOk dim SIZE data L G wG.c bc p hg wL)
    (vG : ValuesG dim G bc wG) {i : Nat} (hi : i < (L p).nbnodes) :
    nodeValues dim SIZE (data p) (L p) hg wL i = nodeValues dim 1 serial G hgG wG (gOf (data p) i) := by
  exact nodeValue_match_at h bc so.star hp s sG vL vG hi (fun F hF => so.corner F hF _)

theorem cellGradVal_match (h : NodePair dim nodeid node cv npart0 epart nbnodes n SIZE data serial L G B out trunc)
    (bc : Int → BCond K) (so : StencilOk dim nodeid epart n G bc)
    {p : Nat} (hp : p < SIZE) {hg : HGResult K} {rows : Nat → List (GRow K)} (s : HGSpec dim SIZE data L p hg rows)
    {hgG : HGResult K} (sG : HGSerial dim G nbnodes hgG) {wL wG : Interp.Fields K} (vL : ValuesOk dim SIZE data L G wG.c bc p hg wL)
    (vG : ValuesG dim G bc wG) {c : Nat} (hc : c < (L p).nbcells) :
    cellGrads dim SIZE (data p) (L p) hg wL c = cellGrads dim 1 serial G hgG wG (phi (data p) c) := by
  have hcc := (h.run.rank p hp).center c hc
  have hB := h.hBe
  unfold cellGrads
  rcases h.run.hd with rfl | rfl
  · have st := h.cell_stencil so.star bc so.corner hp s sG vL vG hc 4 (by rw [hB]; decide)
    rw [if_pos rfl, if_pos rfl]
    refine cell_grad2 _ _ _ _ _ _ _ _ (fun k hk => hcc k (by omega)) (vL.cell c hc) ?_
    have e : ∀ size d (D : Tables K) hg w c, cellPeriodic2 (nodeTabs 2 size d D hg) (cellTabs 2 size d D) w c = [] := by
      intro size d D hg w c
      simp [cellPeriodic2, periodicPart, nodeTabs, cellTabs]
    rw [e, e]; exact st
  · have st := h.cell_stencil so.star bc so.corner hp s sG vL vG hc 6 (by rw [hB]; decide)
    rw [if_neg (by decide), if_neg (by decide)]
    exact cell_grad3 _ _ _ _ _ _ _ _ (fun k hk => hcc k hk) (vL.cell c hc) rfl rfl st

/-- The gradient arrays of a rank are those of the serial run, and its halo arrays hold the values of the owners. -/
structure GradMatch (d : RankData K) (nb : Nat) (g G : Grads K) : Prop where
  cell : ∀ c < nb, g.wx c = G.wx (phi d c) ∧ g.wy c = G.wy (phi d c) ∧ g.wz c = G.wz (phi d c) ∧ g.psi c = G.psi (phi d c)
  halo : ∀ k < d.halosext.length, g.wx_halo.getD k 0 = G.wx (ext0 d k) ∧ g.wy_halo.getD k 0 = G.wy (ext0 d k) ∧
    g.wz_halo.getD k 0 = G.wz (ext0 d k) ∧ g.psi_halo.getD k 0 = G.psi (ext0 d k)

theorem celltonode_match (h : NodePair dim nodeid node cv npart0 epart nbnodes n SIZE data serial L G B out trunc) {hgL hgG : Nat → HGResult K}
    (sL : ∀ p < SIZE, ∃ rows, HGSpec dim SIZE data L p (hgL p) rows) (sG : HGSerial dim G nbnodes (hgG 0))
    (bc : Int → BCond K) (so : StencilOk dim nodeid epart n G bc) (V U : Nat → Vari K) (hm : VMatch SIZE data L V U) :
    ∃ V' nL U' nG, celltonode (parW dim SIZE data L hgL) bc V = some (V', nL) ∧ celltonode (serW dim serial G hgG) bc U = some (U', nG) ∧
      VMatch SIZE data L V' U' ∧ (∀ p, (V' p).cell = (V p).cell) ∧ (∀ p, (U' p).cell = (U p).cell) ∧
      (∀ p < SIZE, ValuesOk dim SIZE data L G (U' 0).fields.c bc p (hgL p) (V' p).fields) ∧ ValuesG dim G bc (U' 0).fields ∧
      ∀ p < SIZE, ∀ i < (L p).nbnodes, nL p i = nG 0 (gOf (data p) i) := by
  obtain ⟨V', U', e1, e2, m, c1, c2, vL, vG⟩ := update_match h hgL hgG bc V U hm
  refine ⟨V', fun p => nodeValues dim SIZE (data p) (L p) (hgL p) (V' p).fields, U',
    fun p => nodeValues dim 1 serial G (hgG p) (U' p).fields, ?_, ?_, m, c1, c2, vL, vG, ?_⟩
  · unfold celltonode; rw [e1]; rfl
  · unfold celltonode; rw [e2]; rfl
  · intro p hp i hi
    obtain ⟨rows, s⟩ := sL p hp
    exact nodeValue_match h bc so hp s sG (vL p hp) vG hi

theorem cellGradient_match (h : NodePair dim nodeid node cv npart0 epart nbnodes n SIZE data serial L G B out trunc) {hgL hgG : Nat → HGResult K}
    (sL : ∀ p < SIZE, ∃ rows, HGSpec dim SIZE data L p (hgL p) rows) (sG : HGSerial dim G nbnodes (hgG 0))
    (bc : Int → BCond K) (so : StencilOk dim nodeid epart n G bc) (V U : Nat → Vari K) (hm : VMatch SIZE data L V U) :
    ∃ V' gL U' gG, cellGradient (parW dim SIZE data L hgL) bc V = some (V', gL) ∧ cellGradient (serW dim serial G hgG) bc U = some (U', gG) ∧
      VMatch SIZE data L V' U' ∧ (∀ p, (V' p).cell = (V p).cell) ∧ (∀ p, (U' p).cell = (U p).cell) ∧
      (∀ p < SIZE, ValuesOk dim SIZE data L G (U' 0).fields.c bc p (hgL p) (V' p).fields) ∧ ValuesG dim G bc (U' 0).fields ∧
      ∀ p < SIZE, GradMatch (data p) (L p).nbcells (gL p) (gG 0) := by
  obtain ⟨V', U', e1, e2, m, c1, c2, vL, vG⟩ := update_match h hgL hgG bc V U hm
  have hgr : ∀ p < SIZE, ∀ c < (L p).nbcells, cellGrads dim SIZE (data p) (L p) (hgL p) (V' p).fields c =
      cellGrads dim 1 serial G (hgG 0) (U' 0).fields (phi (data p) c) := by
    intro p hp c hc
    obtain ⟨rows, s⟩ := sL p hp
    exact cellGradVal_match h bc so hp s sG (vL p hp) vG hc
  have hps : ∀ p < SIZE, ∀ c < (L p).nbcells, limiter dim (limEps dim) (L p) (V' p).fields (cellGrads dim SIZE (data p) (L p) (hgL p) (V' p).fields) c =
      limiter dim (limEps dim) G (U' 0).fields (cellGrads dim 1 serial G (hgG 0) (U' 0).fields) (phi (data p) c) := by
    intro p hp c hc
    exact h.limiter_eq bc hp (vL p hp) vG _ _ _ hc (hgr p hp c hc)
  obtain ⟨hx, ex, mx⟩ := exchange_match h hgL (fun p c => (cellGrads dim SIZE (data p) (L p) (hgL p) (V' p).fields c).1)
    (fun C => (cellGrads dim 1 serial G (hgG 0) (U' 0).fields C).1) (fun p hp c hc => by rw [hgr p hp c hc])
  obtain ⟨hy, ey, my⟩ := exchange_match h hgL (fun p c => (cellGrads dim SIZE (data p) (L p) (hgL p) (V' p).fields c).2.1)
    (fun C => (cellGrads dim 1 serial G (hgG 0) (U' 0).fields C).2.1) (fun p hp c hc => by rw [hgr p hp c hc])
  obtain ⟨hz, ez, mz⟩ := exchange_match h hgL (fun p c => (cellGrads dim SIZE (data p) (L p) (hgL p) (V' p).fields c).2.2)
    (fun C => (cellGrads dim 1 serial G (hgG 0) (U' 0).fields C).2.2) (fun p hp c hc => by rw [hgr p hp c hc])
  obtain ⟨hq, eq, mq⟩ := exchange_match h hgL
    (fun p => limiter dim (limEps dim) (L p) (V' p).fields (cellGrads dim SIZE (data p) (L p) (hgL p) (V' p).fields))
    (limiter dim (limEps dim) G (U' 0).fields (cellGrads dim 1 serial G (hgG 0) (U' 0).fields)) hps
  obtain ⟨gL, egL⟩ : ∃ gL : Nat → Nat → K × K × K, gL = fun p => cellGrads dim SIZE (data p) (L p) (hgL p) (V' p).fields := ⟨_, rfl⟩
  obtain ⟨gG, egG⟩ : ∃ gG : Nat → Nat → K × K × K, gG = fun p => cellGrads dim 1 serial G (hgG p) (U' p).fields := ⟨_, rfl⟩
  refine ⟨V', fun p => ⟨fun c => (gL p c).1, fun c => (gL p c).2.1, fun c => (gL p c).2.2, limiter dim (limEps dim) (L p) (V' p).fields (gL p),
      hx p, hy p, hz p, hq p⟩, U', fun p => ⟨fun c => (gG p c).1, fun c => (gG p c).2.1, fun c => (gG p c).2.2,
      limiter dim (limEps dim) G (U' p).fields (gG p), [[]].getD p [], [[]].getD p [], [[]].getD p [], [[]].getD p []⟩, ?_, ?_, m, c1, c2, vL, vG, ?_⟩
  · unfold cellGradient
    rw [e1]
    subst egL
    simp only [Option.bind_some, ex, ey, ez, eq, Option.map_some]
  · unfold cellGradient
    rw [e2]
    subst egG
    simp only [Option.bind_some, exchange_serial, Option.map_some]
  · subst egL egG
    intro p hp
    refine ⟨fun c hc => ?_, fun k hk => ?_⟩
    · have := hgr p hp c hc
      exact ⟨congrArg (·.1) this, congrArg (·.2.1) this, congrArg (·.2.2) this, hps p hp c hc⟩
    · exact ⟨mx p hp k hk, my p hp k hk, mz p hp k hk, mq p hp k hk⟩

end
end Verif.Props.Par
