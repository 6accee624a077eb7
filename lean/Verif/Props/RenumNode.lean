import Verif.Props.RenumMesh
import Verif.Props.ParDiff
import Verif.Props.ParInsul

/-! Helper lemmas for C125: node values, gradients, limiter and dissipation in two numberings of one mesh. -/
set_option linter.unusedSectionVars false
set_option linter.unusedVariables false
set_option linter.unusedSimpArgs false
namespace Verif.Props.Par
open Verif.Fvm Verif.Spec Verif.Conn Verif.Dom Verif.Geo Verif.Names Verif.MeshFile Verif.Part Verif.Comm Verif.Run Verif.HaloGhost Verif.Interp
variable {K : Type*} [Field K] [LinearOrder K] [IsStrictOrderedRing K]

/-! ### stencils of a serial run -/
section
variable {dim n nbnodes : Nat} {D : Tables K} {B : List Int} {t : Nat → Nat → Nat}

theorem ser_own (c : Consistent D (dim + 1) B) (hB : ∀ b ∈ B, b ∈ locNames dim) (bc : Int → BCond K) (W g0 : Nat → K) (i m : Nat) :
    (ghostPart (((bf D i).map (rowOf dim D) ++ List.replicate m (HaloGhost.padRow dim)).map rowPt)
      (updateGhosts dim D W bc g0)).map (cut dim) = (bf D i).map (EF dim D W bc) := by
  rw [ghostPart_pad _ _ _ (rowOf_last _ _ _), List.map_map, List.map_map]
  apply List.map_congr_left
  intro f hf
  obtain ⟨hfl, hfb, _⟩ := (mem_bf _ _ _).mp hf
  have hnB := ((c.bnd.2 _).mp hfb).2
  simp only [Function.comp_apply, rowOf, Int.toNat_natCast, EF]
  rw [updateGhosts_apply _ _ _ _ _ hfl (hB _ hnB)]

/-- The points a node value is interpolated from, in a serial run. -/
theorem ser_nodeStencil (c : Consistent D (dim + 1) B) (hB : ∀ b ∈ B, b ∈ locNames dim) (bc : Int → BCond K) (d : RankData K)
    (hcell : ∀ i, (nodeCells D.cnode D.nbcells (dim + 1)).1 i = users t (dim + 1) n i)
    {hg : HGResult K} (sG : HGSerial dim D nbnodes hg) {w : Interp.Fields K} (vG : ValuesG dim D bc w) {s : Nat} (hs : s < nbnodes) :
    (nodeStencil dim (nodeTabs dim 1 d D hg) w s).map (cut dim) =
      (users t (dim + 1) n s).map (EC dim D w.c) ++ (bf D s).map (EF dim D w.c bc) := by
  obtain ⟨g2, hg2⟩ := vG.ghost
  obtain ⟨mG, eoG⟩ := sG.own _ hs
  obtain ⟨mH, ehG⟩ := sG.other _ hs
  have hper : periodicPart dim (nodeTabs dim 1 d D hg) w s = [] := by
    unfold periodicPart nodeTabs; simp
  have hown := ser_own c hB bc w.c g2 s mG
  rw [← hg2] at hown
  unfold nodeStencil
  rw [hper, List.append_nil, List.map_append, List.map_append]
  have e3 : (if (nodeTabs dim 1 d D hg).namen s = 10 then
      ghostPart ((nodeTabs dim 1 d D hg).haloghosts s) w.haloghost ++
      ((nodeTabs dim 1 d D hg).haloidn s).map (fun c => ((nodeTabs dim 1 d D hg).centerh c, w.halo c)) else []) = [] := by
    have a1 : (nodeTabs dim 1 d D hg).haloidn s = [] := by
      unfold nodeTabs haloidn; simp
    have a2 : ghostPart ((nodeTabs dim 1 d D hg).haloghosts s) w.haloghost = [] := by
      show ghostPart ((hg.haloghosts s).map rowPt) w.haloghost = []
      rw [ehG, ghostPart_nil]
    rw [a1, a2]; simp
  rw [e3, List.map_nil, List.append_nil]
  congr 1
  · show List.map _ (List.map _ ((nodeCells D.cnode D.nbcells (dim + 1)).1 s)) = _
    rw [hcell, List.map_map]
    rfl
  · show List.map _ (if firstGhost ((hg.ghosts s).map rowPt) ≠ -1 then ghostPart ((hg.ghosts s).map rowPt) w.ghost else []) = _
    rw [eoG, firstGhost_pad _ _ _ (rowOf_last _ _ _)]
    exact hown

/-- The points a cell gradient is computed from, in a serial run. -/
theorem ser_cellStencil (c : Consistent D (dim + 1) B) (hB : ∀ b ∈ B, b ∈ locNames dim) (bc : Int → BCond K) (d : RankData K)
    (hlab : ∀ F ∈ D.boundaryfaces, ∀ s ∈ D.fnode F, D.oldname s ∈ B)
    {hg : HGResult K} (sG : HGSerial dim D nbnodes hg) {w : Interp.Fields K} (vG : ValuesG dim D bc w) {C : Nat}
    (hn : ∀ j < dim + 1, D.cnode C j < nbnodes) (maxname : Int) (hmax : ∀ b ∈ B, b ≤ maxname) :
    (cellStencil maxname (nodeTabs dim 1 d D hg) (cellTabs dim 1 d D) w [] C).map (cut dim) =
      (cellNeigh D.cnode (nodeCells D.cnode D.nbcells (dim + 1)).1 (dim + 1) C).map (EC dim D w.c) ++
      ((List.range (dim + 1)).map (D.cnode C)).flatMap (fun I => (bf D I).map (EF dim D w.c bc)) := by
  obtain ⟨g2, hg2⟩ := vG.ghost
  have ghG : ∀ I < nbnodes, ((if D.oldname I ≤ maxname then ghostPart ((hg.ghosts I).map rowPt) w.ghost else []) ++
      ghostPart ((hg.haloghosts I).map rowPt) w.haloghost).map (cut dim) = (bf D I).map (EF dim D w.c bc) := by
    intro I hI
    obtain ⟨mG, eoG⟩ := sG.own I hI
    obtain ⟨mH, ehG⟩ := sG.other I hI
    have hown := ser_own c hB bc w.c g2 I mG
    rw [← hg2, ← eoG] at hown
    rw [ehG, ghostPart_nil, List.append_nil]
    split_ifs with ho
    · exact hown
    · have hbe : bf D I = [] := by
        rw [List.eq_nil_iff_forall_not_mem]
        intro f hf
        obtain ⟨_, m2, m3⟩ := (mem_bf _ _ _).mp hf
        exact ho (hmax _ (hlab _ m2 _ m3))
      rw [hbe]; rfl
  unfold cellStencil
  simp only [List.append_nil, List.map_append]
  have haloG : (cellTabs dim 1 d D).halonid C = [] := by unfold cellTabs; simp
  have cellsG : (((cellTabs dim 1 d D).cellnid C).map (fun c => ((nodeTabs dim 1 d D hg).centerc c, w.c c))).map (cut dim) =
      (cellNeigh D.cnode (nodeCells D.cnode D.nbcells (dim + 1)).1 (dim + 1) C).map (EC dim D w.c) := by
    rw [List.map_map]; rfl
  rw [cellsG, haloG, List.map_nil, List.map_nil, List.append_nil, List.map_flatMap]
  congr 1
  apply List.flatMap_congr
  intro I hI
  obtain ⟨j, hj, rfl⟩ := List.mem_map.mp hI
  exact ghG _ (hn j (List.mem_range.mp hj))

end

/-! ### two numberings -/

/-- Two numberings of one mesh, with their nodes. -/
structure RenumN (dim n nbnodes : Nat) (t t' : Nat → Nat → Nat) (L G : Tables K) (σ g : Nat → Nat) (B : List Int)
    (outL outG : Nat → Nat → Vec K) : Prop where
  ren : Renum L G (dim + 1) σ B outL outG
  hd : dim = 2 ∨ dim = 3
  hBe : B = if dim = 2 then [1, 2, 3, 4] else [1, 2, 3, 4, 5, 6]
  hB : ∀ b ∈ B, b ∈ locNames dim
  nL : L.nbcells = n
  nG : G.nbcells = n
  cellidL : ∀ i, (nodeCells L.cnode L.nbcells (dim + 1)).1 i = users t' (dim + 1) n i
  cellidG : ∀ i, (nodeCells G.cnode G.nbcells (dim + 1)).1 i = users t (dim + 1) n i
  cnodeL : ∀ c < n, ((List.range (dim + 1)).map (L.cnode c)).Perm ((List.range (dim + 1)).map (t' c))
  cnodeG : ∀ c < n, ((List.range (dim + 1)).map (G.cnode c)).Perm ((List.range (dim + 1)).map (t c))
  glt : ∀ k < nbnodes, g k < nbnodes
  ginj : ∀ k < nbnodes, ∀ k' < nbnodes, g k = g k' → k = k'
  tlt : ∀ c < n, ∀ j < dim + 1, t' c j < nbnodes
  tren : ∀ c < n, ∀ j < dim + 1, t (σ c) j = g (t' c j)
  fnode : ∀ c < n, ∀ j < dim + 1, ((L.fnode (L.faceid c j)).map g).Perm (G.fnode (G.faceid (σ c) j))
  fnodeL : ∀ c < n, ∀ j < dim + 1, (L.fnode (L.faceid c j)).length = dim ∧ ∀ x ∈ L.fnode (L.faceid c j), x < nbnodes
  vertex : ∀ s < nbnodes, ∀ k < 4, L.vertex s k = G.vertex (g s) k
  ghostPt : ∀ c < n, ∀ j < dim + 1, L.faceid c j ∈ L.boundaryfaces → ghostPoint dim L (L.faceid c j) = ghostPoint dim G (G.faceid (σ c) j)
  labL : ∀ F ∈ L.boundaryfaces, ∀ s ∈ L.fnode F, L.oldname s ∈ B
  labG : ∀ F ∈ G.boundaryfaces, ∀ s ∈ G.fnode F, G.oldname s ∈ B

section
variable {dim n nbnodes : Nat} {t t' : Nat → Nat → Nat} {L G : Tables K} {σ g : Nat → Nat} {B : List Int} {outL outG : Nat → Nat → Vec K}

theorem RenumN.uses (h : RenumN dim n nbnodes t t' L G σ g B outL outG) {c k : Nat} (hc : c < n) (hk : k < nbnodes) :
    Uses t (dim + 1) (σ c) (g k) ↔ Uses t' (dim + 1) c k := by
  constructor
  · rintro ⟨j, hj, e⟩
    rw [h.tren c hc j hj] at e
    exact ⟨j, hj, h.ginj _ (h.tlt c hc j hj) _ hk e⟩
  · rintro ⟨j, hj, e⟩
    exact ⟨j, hj, by rw [h.tren c hc j hj, e]⟩

theorem RenumN.surj (h : RenumN dim n nbnodes t t' L G σ g B outL outG) {C : Nat} (hC : C < n) : ∃ c < n, σ c = C := by
  obtain ⟨c, hc, e⟩ := h.ren.surj (by rw [h.nG]; exact hC)
  exact ⟨c, by rw [← h.nL]; exact hc, e⟩

theorem RenumN.sigma_lt (h : RenumN dim n nbnodes t t' L G σ g B outL outG) {c : Nat} (hc : c < n) : σ c < n := by
  have := h.ren.lt c (by rw [h.nL]; exact hc)
  rwa [h.nG] at this

theorem nodup_users (t : Nat → Nat → Nat) (d n x : Nat) : (users t d n x).Nodup := by
  unfold users; exact List.nodup_range.filter _

/-- The cells around a node. -/
theorem RenumN.users_perm (h : RenumN dim n nbnodes t t' L G σ g B outL outG) {s : Nat} (hs : s < nbnodes) :
    ((users t' (dim + 1) n s).map σ).Perm (users t (dim + 1) n (g s)) := by
  rw [List.perm_ext_iff_of_nodup]
  · intro C
    simp only [List.mem_map, mem_users]
    constructor
    · rintro ⟨c, ⟨hc, hu⟩, rfl⟩
      exact ⟨h.sigma_lt hc, (h.uses hc hs).mpr hu⟩
    · rintro ⟨hC, hu⟩
      obtain ⟨c, hc, rfl⟩ := h.surj hC
      exact ⟨c, ⟨hc, (h.uses hc hs).mp hu⟩, rfl⟩
  · refine List.Nodup.map_on ?_ (nodup_users _ _ _ _)
    intro a ha b hb e
    exact h.ren.inj a (by rw [h.nL]; exact ((mem_users _ _ _ _ _).mp ha).1) b (by rw [h.nL]; exact ((mem_users _ _ _ _ _).mp hb).1) e
  · exact nodup_users _ _ _ _

/-- The face of the second numbering corresponding to a face of the first. -/
theorem RenumN.exists_gamma (h : RenumN dim n nbnodes t t' L G σ g B outL outG) :
    ∃ γ : Nat → Nat, ∀ c < n, ∀ j < dim + 1, γ (L.faceid c j) = G.faceid (σ c) j := by
  classical
  refine ⟨fun f => if hx : ∃ F, ∃ c < n, ∃ j < dim + 1, L.faceid c j = f ∧ G.faceid (σ c) j = F then hx.choose else 0, ?_⟩
  intro c hc j hj
  have hx : ∃ F, ∃ c' < n, ∃ j' < dim + 1, L.faceid c' j' = L.faceid c j ∧ G.faceid (σ c') j' = F := ⟨_, c, hc, j, hj, rfl, rfl⟩
  dsimp only
  rw [dif_pos hx]
  obtain ⟨c', hc', j', hj', e1, e2⟩ := hx.choose_spec
  rw [← e2]
  exact (h.ren.same c' (by rw [h.nL]; exact hc') c (by rw [h.nL]; exact hc) j' hj' j hj).mp e1

theorem RenumN.fsurj (h : RenumN dim n nbnodes t t' L G σ g B outL outG) {f : Nat} (hf : f < L.nbfaces) : ∃ c < n, ∃ j < dim + 1, L.faceid c j = f := by
  have := h.ren.RL.cG.fsurj f hf
  rwa [h.nL] at this

theorem RenumN.mem_fnode (h : RenumN dim n nbnodes t t' L G σ g B outL outG) {c j s : Nat} (hc : c < n) (hj : j < dim + 1) (hs : s < nbnodes) :
    g s ∈ G.fnode (G.faceid (σ c) j) ↔ s ∈ L.fnode (L.faceid c j) := by
  rw [← (h.fnode c hc j hj).mem_iff, List.mem_map]
  constructor
  · rintro ⟨x, hx, e⟩
    rw [← h.ginj x ((h.fnodeL c hc j hj).2 x hx) s hs e]; exact hx
  · intro hx; exact ⟨s, hx, rfl⟩

/-- The boundary faces at a node. -/
theorem RenumN.bf_perm (h : RenumN dim n nbnodes t t' L G σ g B outL outG) {γ : Nat → Nat}
    (hγ : ∀ c < n, ∀ j < dim + 1, γ (L.faceid c j) = G.faceid (σ c) j) {s : Nat} (hs : s < nbnodes) :
    ((bf L s).map γ).Perm (bf G (g s)) := by
  rw [List.perm_ext_iff_of_nodup]
  · intro F
    simp only [List.mem_map, mem_bf]
    constructor
    · rintro ⟨f, ⟨hf, hb, hm⟩, rfl⟩
      obtain ⟨c, hc, j, hj, rfl⟩ := h.fsurj hf
      rw [hγ c hc j hj]
      refine ⟨h.ren.RG.cG.flt _ (by rw [h.nG]; exact h.sigma_lt hc) j hj, ?_, (h.mem_fnode hc hj hs).mpr hm⟩
      rcases h.ren.sides (by rw [h.nL]; exact hc) hj with ⟨_, _, _, b1, _⟩ | ⟨e, _, _, _, _, a2, _⟩
      · exact b1
      · exact absurd hb a2
    · rintro ⟨hF, hb, hm⟩
      obtain ⟨C, hC, j, hj, rfl⟩ := h.ren.RG.cG.fsurj F hF
      rw [h.nG] at hC
      obtain ⟨c, hc, rfl⟩ := h.surj hC
      refine ⟨L.faceid c j, ⟨h.ren.RL.cG.flt _ (by rw [h.nL]; exact hc) j hj, ?_, (h.mem_fnode hc hj hs).mp hm⟩, hγ c hc j hj⟩
      rcases h.ren.sides (by rw [h.nL]; exact hc) hj with ⟨a1, _⟩ | ⟨e, _, _, _, _, _, _, _, b2, _⟩
      · exact a1
      · exact absurd hb b2
  · refine List.Nodup.map_on ?_ (nodup_bf _ _)
    intro a ha b hb e
    obtain ⟨c, hc, j, hj, rfl⟩ := h.fsurj ((mem_bf _ _ _).mp ha).1
    obtain ⟨c', hc', j', hj', rfl⟩ := h.fsurj ((mem_bf _ _ _).mp hb).1
    rw [hγ c hc j hj, hγ c' hc' j' hj'] at e
    exact (h.ren.same c (by rw [h.nL]; exact hc) c' (by rw [h.nL]; exact hc') j hj j' hj').mpr e
  · exact nodup_bf _ _

theorem RenumN.entry (h : RenumN dim n nbnodes t t' L G σ g B outL outG) {W W' : Nat → K} (hW : ∀ c < n, W c = W' (σ c)) {c : Nat} (hc : c < n) :
    EC dim L W c = EC dim G W' (σ c) := by
  unfold EC
  refine cut_eq (fun k hk => ?_) (hW c hc)
  have := h.hd
  exact h.ren.center c (by rw [h.nL]; exact hc) k (by omega)

theorem RenumN.ghostVal_eq (h : RenumN dim n nbnodes t t' L G σ g B outL outG) (bc : Int → BCond K) {W W' : Nat → K} (hW : ∀ c < n, W c = W' (σ c))
    {c j : Nat} (hc : c < n) (hj : j < dim + 1) (hb : L.faceid c j ∈ L.boundaryfaces) :
    ghostVal L W (L.faceid c j) (bc (L.name (L.faceid c j))) = ghostVal G W' (G.faceid (σ c) j) (bc (G.name (G.faceid (σ c) j))) := by
  have hcL : c < L.nbcells := by rw [h.nL]; exact hc
  rcases h.ren.sides hcL hj with ⟨a1, a2, a3, b1, b2, b3, nB, nE, c0, C0, hn⟩ | ⟨e, he, hne, hNE, a1, a2, a3, _⟩
  · have hf := h.ren.fcenter c hcL j hj
    rw [← nE]
    cases bc (L.name (L.faceid c j)) with
    | neumann => simp only [ghostVal]; rw [c0, C0]; simpa [idx] using hW c hc
    | nonslip => simp only [ghostVal]; rw [c0, C0]; simpa [idx] using hW c hc
    | dirichlet v => simp only [ghostVal]; rw [hf 0 (by omega), hf 1 (by omega), hf 2 (by omega)]
  · exact absurd hb a2

theorem RenumN.ghost_entry (h : RenumN dim n nbnodes t t' L G σ g B outL outG) {γ : Nat → Nat}
    (hγ : ∀ c < n, ∀ j < dim + 1, γ (L.faceid c j) = G.faceid (σ c) j) (bc : Int → BCond K) {W W' : Nat → K} (hW : ∀ c < n, W c = W' (σ c))
    {s f : Nat} (hf : f ∈ bf L s) : EF dim L W bc f = EF dim G W' bc (γ f) := by
  obtain ⟨hfl, hb, _⟩ := (mem_bf _ _ _).mp hf
  obtain ⟨c, hc, j, hj, rfl⟩ := h.fsurj hfl
  unfold EF
  rw [hγ c hc j hj, h.ghostPt c hc j hj hb, h.ghostVal_eq bc hW hc hj hb]

theorem RenumN.ghosts_perm (h : RenumN dim n nbnodes t t' L G σ g B outL outG) (bc : Int → BCond K) {W W' : Nat → K} (hW : ∀ c < n, W c = W' (σ c))
    {s : Nat} (hs : s < nbnodes) : ((bf L s).map (EF dim L W bc)).Perm ((bf G (g s)).map (EF dim G W' bc)) := by
  obtain ⟨γ, hγ⟩ := h.exists_gamma
  have p := (h.bf_perm hγ hs).map (EF dim G W' bc)
  rw [List.map_map] at p
  refine List.Perm.trans (List.Perm.of_eq ?_) p
  apply List.map_congr_left
  intro f hf
  exact h.ghost_entry hγ bc hW hf

/-- The value of a node. -/
theorem RenumN.nodeValue (h : RenumN dim n nbnodes t t' L G σ g B outL outG) (bc : Int → BCond K) (dL dG : RankData K) {hgL hgG : HGResult K}
    (sL : HGSerial dim L nbnodes hgL) (sG : HGSerial dim G nbnodes hgG) {wL wG : Interp.Fields K} (vL : ValuesG dim L bc wL)
    (vG : ValuesG dim G bc wG) (hW : ∀ c < n, wL.c c = wG.c (σ c)) {s : Nat} (hs : s < nbnodes) :
    nodeValues dim 1 dL L hgL wL s = nodeValues dim 1 dG G hgG wG (g s) := by
  have st : SameStencil dim (nodeStencil dim (nodeTabs dim 1 dL L hgL) wL s) (nodeStencil dim (nodeTabs dim 1 dG G hgG) wG (g s)) := by
    unfold SameStencil
    rw [ser_nodeStencil h.ren.RL.cG h.hB bc dL h.cellidL sL vL hs, ser_nodeStencil h.ren.RG.cG h.hB bc dG h.cellidG sG vG (h.glt s hs)]
    have p1 := (h.users_perm hs).map (EC dim G wG.c)
    rw [List.map_map] at p1
    refine List.Perm.append (List.Perm.trans (List.Perm.of_eq ?_) p1) (h.ghosts_perm bc hW hs)
    apply List.map_congr_left
    intro c hc
    exact h.entry hW ((mem_users _ _ _ _ _).mp hc).1
  have hv := h.vertex s hs
  unfold nodeValues
  rcases h.hd with rfl | rfl
  · rw [if_pos rfl, if_pos rfl]
    exact node_value2 _ _ _ _ _ _ (fun k hk => hv k (by omega)) st
  · rw [if_neg (by decide), if_neg (by decide)]
    exact node_value3 _ _ _ _ _ _ (fun k hk => hv k (by omega)) st

theorem RenumN.cnode_lt (h : RenumN dim n nbnodes t t' L G σ g B outL outG) {c : Nat} (hc : c < n) {x : Nat}
    (hx : x ∈ (List.range (dim + 1)).map (L.cnode c)) : x < nbnodes := by
  obtain ⟨j, hj, rfl⟩ := List.mem_map.mp ((h.cnodeL c hc).subset hx)
  exact h.tlt c hc j (List.mem_range.mp hj)

theorem RenumN.cnode_perm (h : RenumN dim n nbnodes t t' L G σ g B outL outG) {c : Nat} (hc : c < n) :
    (((List.range (dim + 1)).map (L.cnode c)).map g).Perm ((List.range (dim + 1)).map (G.cnode (σ c))) := by
  refine ((h.cnodeL c hc).map g).trans (List.Perm.trans (List.Perm.of_eq ?_) (h.cnodeG (σ c) (h.sigma_lt hc)).symm)
  rw [List.map_map]
  apply List.map_congr_left
  intro j hj
  exact (h.tren c hc j (List.mem_range.mp hj)).symm

theorem RenumN.cnode_ltG (h : RenumN dim n nbnodes t t' L G σ g B outL outG) {c : Nat} (hc : c < n) : ∀ j < dim + 1, G.cnode (σ c) j < nbnodes := by
  intro j hj
  have := (h.cnode_perm hc).symm.subset (List.mem_map.mpr ⟨j, List.mem_range.mpr hj, rfl⟩)
  obtain ⟨x, hx, e⟩ := List.mem_map.mp this
  rw [← e]
  exact h.glt x (h.cnode_lt hc hx)

theorem RenumN.neigh_perm (h : RenumN dim n nbnodes t t' L G σ g B outL outG) {c : Nat} (hc : c < n) :
    ((cellNeigh L.cnode (nodeCells L.cnode L.nbcells (dim + 1)).1 (dim + 1) c).map σ).Perm
      (cellNeigh G.cnode (nodeCells G.cnode G.nbcells (dim + 1)).1 (dim + 1) (σ c)) := by
  have useL : ∀ C < n, ∀ s, Uses L.cnode (dim + 1) C s ↔ Uses t' (dim + 1) C s := fun C hC s => uses_of_perm (h.cnodeL C hC) s
  have useG : ∀ C < n, ∀ s, Uses G.cnode (dim + 1) C s ↔ Uses t (dim + 1) C s := fun C hC s => uses_of_perm (h.cnodeG C hC) s
  have hsc := h.sigma_lt hc
  rw [List.perm_ext_iff_of_nodup]
  · intro C
    simp only [List.mem_map, mem_cellNeigh, h.nL, h.nG]
    constructor
    · rintro ⟨x, ⟨hx, hne, s, u1, u2⟩, rfl⟩
      rw [useL c hc] at u1
      rw [useL x hx] at u2
      have hs : s < nbnodes := by obtain ⟨j, hj, rfl⟩ := u1; exact h.tlt c hc j hj
      refine ⟨h.sigma_lt hx, fun e => hne (h.ren.inj x (by rw [h.nL]; exact hx) c (by rw [h.nL]; exact hc) e), g s, ?_, ?_⟩
      · rw [useG _ hsc]; exact (h.uses hc hs).mpr u1
      · rw [useG _ (h.sigma_lt hx)]; exact (h.uses hx hs).mpr u2
    · rintro ⟨hC, hne, S, u1, u2⟩
      obtain ⟨x, hx, rfl⟩ := h.surj hC
      rw [useG _ hsc] at u1
      rw [useG _ hC] at u2
      obtain ⟨j, hj, e⟩ := u1
      rw [h.tren c hc j hj] at e
      subst e
      have hs := h.tlt c hc j hj
      refine ⟨x, ⟨hx, fun e => hne (by rw [e]), t' c j, ?_, ?_⟩, rfl⟩
      · rw [useL c hc]; exact ⟨j, hj, rfl⟩
      · rw [useL x hx]; exact (h.uses hx hs).mp u2
  · refine List.Nodup.map_on ?_ (nodup_cellNeigh _ _ _ _)
    intro a ha b hb e
    exact h.ren.inj a ((mem_cellNeigh _ _ _ _ _).mp ha).1 b ((mem_cellNeigh _ _ _ _ _).mp hb).1 e
  · exact nodup_cellNeigh _ _ _ _

/-- The gradient of a cell. -/
theorem RenumN.cellGrad (h : RenumN dim n nbnodes t t' L G σ g B outL outG) (bc : Int → BCond K) (dL dG : RankData K) {hgL hgG : HGResult K}
    (sL : HGSerial dim L nbnodes hgL) (sG : HGSerial dim G nbnodes hgG) {wL wG : Interp.Fields K} (vL : ValuesG dim L bc wL)
    (vG : ValuesG dim G bc wG) (hW : ∀ c < n, wL.c c = wG.c (σ c)) {c : Nat} (hc : c < n) :
    cellGrads dim 1 dL L hgL wL c = cellGrads dim 1 dG G hgG wG (σ c) := by
  have hcc := h.ren.center c (by rw [h.nL]; exact hc)
  have st : ∀ m : Int, (∀ b ∈ B, b ≤ m) → SameStencil dim (cellStencil m (nodeTabs dim 1 dL L hgL) (cellTabs dim 1 dL L) wL [] c)
      (cellStencil m (nodeTabs dim 1 dG G hgG) (cellTabs dim 1 dG G) wG [] (σ c)) := by
    intro m hm
    unfold SameStencil
    rw [ser_cellStencil h.ren.RL.cG h.hB bc dL h.labL sL vL
        (fun j hj => h.cnode_lt hc (List.mem_map.mpr ⟨j, List.mem_range.mpr hj, rfl⟩)) m hm,
      ser_cellStencil h.ren.RG.cG h.hB bc dG h.labG sG vG (h.cnode_ltG hc) m hm]
    have p1 := (h.neigh_perm hc).map (EC dim G wG.c)
    rw [List.map_map] at p1
    refine List.Perm.append (List.Perm.trans (List.Perm.of_eq ?_) p1) ?_
    · apply List.map_congr_left
      intro x hx
      have := ((mem_cellNeigh _ _ _ _ _).mp hx).1
      rw [h.nL] at this
      exact h.entry hW this
    · refine List.Perm.trans (List.Perm.flatMap_left (g := fun i => (bf G (g i)).map (EF dim G wG.c bc)) _ ?_) ?_
      · intro i hi
        exact h.ghosts_perm bc hW (h.cnode_lt hc hi)
      · rw [← List.flatMap_map (f := g) (g := fun I => (bf G I).map (EF dim G wG.c bc))]
        exact (h.cnode_perm hc).flatMap_right _
  have hB := h.hBe
  unfold cellGrads
  rcases h.hd with rfl | rfl
  · have st := st 4 (by rw [hB]; decide)
    rw [if_pos rfl, if_pos rfl]
    refine cell_grad2 _ _ _ _ _ _ _ _ (fun k hk => hcc k (by omega)) (hW c hc) ?_
    have e : ∀ size d (D : Tables K) hg w c, cellPeriodic2 (nodeTabs 2 size d D hg) (cellTabs 2 size d D) w c = [] := by
      intro size d D hg w c
      simp [cellPeriodic2, periodicPart, nodeTabs, cellTabs]
    rw [e, e]; exact st
  · have st := st 6 (by rw [hB]; decide)
    rw [if_neg (by decide), if_neg (by decide)]
    exact cell_grad3 _ _ _ _ _ _ _ _ (fun k hk => hcc k hk) (hW c hc) rfl rfl st

/-- A face has the same two sides in the two numberings (possibly in the other order). -/
theorem RenumN.across (h : RenumN dim n nbnodes t t' L G σ g B outL outG) (bc : Int → BCond K) {wL wG : Interp.Fields K} (vL : ValuesG dim L bc wL)
    (vG : ValuesG dim G bc wG) (hW : ∀ c < n, wL.c c = wG.c (σ c)) {c j : Nat} (hc : c < n) (hj : j < dim + 1) :
    (sideL dim L wL (L.faceid c j) = sideL dim G wG (G.faceid (σ c) j) ∧ sideR dim L wL (L.faceid c j) = sideR dim G wG (G.faceid (σ c) j)) ∨
    (sideL dim L wL (L.faceid c j) = sideR dim G wG (G.faceid (σ c) j) ∧ sideR dim L wL (L.faceid c j) = sideL dim G wG (G.faceid (σ c) j)) := by
  have hcL : c < L.nbcells := by rw [h.nL]; exact hc
  have hC := h.ren.lt c hcL
  have entry : ∀ e < n, cut dim (L.center e, wL.c e) = cut dim (G.center (σ e), wG.c (σ e)) := fun e he => h.entry hW he
  rcases h.ren.sides hcL hj with ⟨a1, a2, a3, b1, b2, b3, nB, nE, c0, C0, hn⟩ | ⟨e, he, hne, hNE, a1, a2, a3, b1, b2, b3, sL, sG⟩
  · left
    have n0 : L.name (L.faceid c j) ≠ 0 := fun x => h.ren.RL.cG.B0 (x ▸ nB)
    have n10 : L.name (L.faceid c j) ≠ 10 := fun x => h.ren.RL.cG.B10 (x ▸ nB)
    unfold sideL sideR otherPt otherVal
    rw [c0, C0, ← nE, if_neg n0, if_neg n10, if_neg n0, if_neg n10, if_neg n0, if_neg n10, if_neg n0, if_neg n10, idx_cast, idx_cast]
    refine ⟨entry c hc, cut_eq (fun k hk => ?_) ?_⟩
    · rw [h.ghostPt c hc j hj a1]
    · obtain ⟨gL, eL⟩ := vL.ghost
      obtain ⟨gG, eG⟩ := vG.ghost
      rw [eL, eG]
      exact h.ren.ghost _ _ (fun c hc => hW c (by rw [← h.nL]; exact hc)) hcL hj a1 h.hB bc _ _
  · have he' : e < n := by rw [← h.nL]; exact he
    have hLn := ((h.ren.RL.cG.inner.2 _).mp a1).2
    have hGn := ((h.ren.RG.cG.inner.2 _).mp b1).2
    unfold sideL sideR otherPt otherVal
    rw [if_pos hLn, if_pos hLn, if_pos hGn, if_pos hGn]
    rcases sL with ⟨s0, s1, _⟩ | ⟨s0, s1, _⟩ <;> rcases sG with ⟨t0, t1, _⟩ | ⟨t0, t1, _⟩ <;> rw [s0, s1, t0, t1] <;> simp only [idx_cast]
    · exact Or.inl ⟨entry c hc, entry e he'⟩
    · exact Or.inr ⟨entry c hc, entry e he'⟩
    · exact Or.inr ⟨entry e he', entry c hc⟩
    · exact Or.inl ⟨entry e he', entry c hc⟩

theorem RenumN.nameL (h : RenumN dim n nbnodes t t' L G σ g B outL outG) {c j : Nat} (hc : c < n) (hj : j < dim + 1) :
    (L.name (L.faceid c j) = 0 ∨ L.name (L.faceid c j) = 10 ∨ L.name (L.faceid c j) ∈ B) ∧
    (G.name (G.faceid (σ c) j) = 0 ∨ G.name (G.faceid (σ c) j) = 10 ∨ G.name (G.faceid (σ c) j) ∈ B) := by
  rcases h.ren.sides (by rw [h.nL]; exact hc) hj with ⟨a1, a2, a3, b1, b2, b3, nB, nE, c0, C0, hn⟩ | ⟨e, he, hne, hNE, a1, a2, a3, b1, b2, b3, sL, sG⟩
  · exact ⟨Or.inr (Or.inr nB), Or.inr (Or.inr (nE ▸ nB))⟩
  · exact ⟨Or.inl ((h.ren.RL.cG.inner.2 _).mp a1).2, Or.inl ((h.ren.RG.cG.inner.2 _).mp b1).2⟩

/-- The limiter of a cell. -/
theorem RenumN.limiter_eq (h : RenumN dim n nbnodes t t' L G σ g B outL outG) (bc : Int → BCond K) {wL wG : Interp.Fields K} (vL : ValuesG dim L bc wL)
    (vG : ValuesG dim G bc wG) (hW : ∀ c < n, wL.c c = wG.c (σ c)) (eps : K) (gL gG : Nat → K × K × K)
    {c : Nat} (hc : c < n) (hgr : gL c = gG (σ c)) : limiter dim eps L wL gL c = limiter dim eps G wG gG (σ c) := by
  have hcL : c < L.nbcells := by rw [h.nL]; exact hc
  have nmL : ∀ f ∈ (List.range (dim + 1)).map (L.faceid c), L.name f = 0 ∨ L.name f = 10 ∨
      L.name f ∈ (if dim = 2 then [1, 2, 3, 4] else [1, 2, 3, 4, 5, 6] : List Int) := by
    intro f hf
    obtain ⟨j, hj, rfl⟩ := List.mem_map.mp hf
    rw [← h.hBe]
    exact (h.nameL hc (List.mem_range.mp hj)).1
  have nmG : ∀ f ∈ (List.range (dim + 1)).map (G.faceid (σ c)), G.name f = 0 ∨ G.name f = 10 ∨
      G.name f ∈ (if dim = 2 then [1, 2, 3, 4] else [1, 2, 3, 4, 5, 6] : List Int) := by
    intro f hf
    obtain ⟨j, hj, rfl⟩ := List.mem_map.mp hf
    rw [← h.hBe]
    exact (h.nameL hc (List.mem_range.mp hj)).2
  unfold limiter barthLimiter
  rw [limiterBounds_eq dim h.hd L wL _ c nmL, limiterBounds_eq dim h.hd G wG _ _ nmG, hgr, hW c hc]
  have hb : ((List.range (dim + 1)).map (L.faceid c)).foldl (fun b f => (max b.1 (max (sideL dim L wL f).2 (sideR dim L wL f).2),
        min b.2 (min (sideL dim L wL f).2 (sideR dim L wL f).2))) (wG.c (σ c), wG.c (σ c)) =
      ((List.range (dim + 1)).map (G.faceid (σ c))).foldl (fun b f => (max b.1 (max (sideL dim G wG f).2 (sideR dim G wG f).2),
        min b.2 (min (sideL dim G wG f).2 (sideR dim G wG f).2))) (wG.c (σ c), wG.c (σ c)) := by
    rw [List.foldl_map, List.foldl_map]
    apply List.foldl_ext
    intro b j hj
    rcases h.across bc vL vG hW hc (List.mem_range.mp hj) with ⟨e1, e2⟩ | ⟨e1, e2⟩
    · rw [e1, e2]
    · rw [e1, e2, max_comm (sideR dim G wG _).2, min_comm (sideR dim G wG _).2]
  rw [hb]
  generalize ((List.range (dim + 1)).map (G.faceid (σ c))).foldl (fun b f => (max b.1 (max (sideL dim G wG f).2 (sideR dim G wG f).2),
        min b.2 (min (sideL dim G wG f).2 (sideR dim G wG f).2))) (wG.c (σ c), wG.c (σ c)) = bb
  rw [List.foldl_map, List.foldl_map]
  apply List.foldl_ext
  intro b j hj
  have fc := h.ren.fcenter c hcL j (List.mem_range.mp hj)
  have cc := h.ren.center c hcL
  rw [fc 0 (by omega), fc 1 (by omega), fc 2 (by omega), cc 0 (by omega), cc 1 (by omega), cc 2 (by omega)]

/-- The gradient on a face. -/
theorem RenumN.faceGrads_eq (h : RenumN dim n nbnodes t t' L G σ g B outL outG) (hw : dim = 3 → WedgeOk G ∧ WedgeOk L)
    (bc : Int → BCond K) {wL wG : Interp.Fields K} (vL : ValuesG dim L bc wL)
    (vG : ValuesG dim G bc wG) (hW : ∀ c < n, wL.c c = wG.c (σ c)) (nL nG : Nat → K)
    (hN : ∀ i < nbnodes, nL i = nG (g i)) {c : Nat} (hc : c < n) {j : Nat} (hj : j < dim + 1) {k : Nat} (hk : k < 3) :
    faceGrads dim L bc wL nL (L.faceid c j) k = faceGrads dim G bc wG nG (G.faceid (σ c) j) k := by
  have hcL : c < L.nbcells := by rw [h.nL]; exact hc
  have hf := h.ren.RL.cG.flt c hcL j hj
  have hFF := h.ren.RG.cG.flt (σ c) (h.ren.lt c hcL) j hj
  obtain ⟨nmL, nmG⟩ := h.nameL hc hj
  have sf := h.fnode c hc j hj
  obtain ⟨hlenL, hlt⟩ := h.fnodeL c hc j hj
  have hlen : (G.fnode (G.faceid (σ c) j)).length = dim := by
    have := sf.length_eq; rw [List.length_map, hlenL] at this; exact this.symm
  have ac := h.across bc vL vG hW hc hj
  have pt : ∀ i ∈ L.fnode (L.faceid c j), cut dim (L.vertex i, nL i) = cut dim (G.vertex (g i), nG (g i)) := by
    intro i hi
    refine cut_eq (fun k hk => ?_) (hN _ (hlt i hi))
    exact h.vertex i (hlt i hi) k (by have := h.hd; omega)
  have hB := h.hBe
  have cL := h.ren.RL.cG
  have cG := h.ren.RG.cG
  rcases h.hd with rfl | rfl
  · rw [faceGrads_pts2 cL hB bc wL nL hf nmL, faceGrads_pts2 cG hB bc wG nG hFF nmG]
    have eL := list2 _ hlenL
    have eG := list2 _ hlen
    have p0 := pt (L.fnode (L.faceid c j) |>.getD 0 0) (by rw [eL]; simp)
    have p1 := pt (L.fnode (L.faceid c j) |>.getD 1 0) (by rw [eL]; simp)
    have hpm : [g (L.fnode (L.faceid c j) |>.getD 0 0), g (L.fnode (L.faceid c j) |>.getD 1 0)].Perm
        [(G.fnode (G.faceid (σ c) j)).getD 0 0, (G.fnode (G.faceid (σ c) j)).getD 1 0] := by
      rw [← eG]
      refine List.Perm.trans (List.Perm.of_eq ?_) sf
      conv_rhs => rw [eL]
      rfl
    have step : gradPts2 (cut 2 (nodePt L nL (L.faceid c j) 0)) (cut 2 (nodePt L nL (L.faceid c j) 1))
        (sideL 2 L wL (L.faceid c j)) (sideR 2 L wL (L.faceid c j)) =
        gradPts2 (cut 2 (nodePt G nG (G.faceid (σ c) j) 0)) (cut 2 (nodePt G nG (G.faceid (σ c) j) 1))
        (sideL 2 L wL (L.faceid c j)) (sideR 2 L wL (L.faceid c j)) := by
      unfold nodePt
      rw [p0, p1]
      rcases perm_two hpm with e | e
      · rw [e.1, e.2]
      · rw [e.1, e.2, gradPts2_swap]
    rw [step]
    rcases ac with ⟨a1, a2⟩ | ⟨a1, a2⟩
    · rw [a1, a2]
    · rw [a1, a2, gradPts2_sides]
  · obtain ⟨wG', wL'⟩ := hw rfl
    rw [faceGrads_pts3 cL hB wL' bc wL nL hf nmL hk, faceGrads_pts3 cG hB wG' bc wG nG hFF nmG hk]
    have eL := list3 _ hlenL
    have eG := list3 _ hlen
    have p0 := pt (L.fnode (L.faceid c j) |>.getD 0 0) (by rw [eL]; simp)
    have p1 := pt (L.fnode (L.faceid c j) |>.getD 1 0) (by rw [eL]; simp)
    have p2 := pt (L.fnode (L.faceid c j) |>.getD 2 0) (by rw [eL]; simp)
    have hpm : [g (L.fnode (L.faceid c j) |>.getD 0 0), g (L.fnode (L.faceid c j) |>.getD 1 0), g (L.fnode (L.faceid c j) |>.getD 2 0)].Perm
        [(G.fnode (G.faceid (σ c) j)).getD 0 0, (G.fnode (G.faceid (σ c) j)).getD 1 0, (G.fnode (G.faceid (σ c) j)).getD 2 0] := by
      rw [← eG]
      refine List.Perm.trans (List.Perm.of_eq ?_) sf
      conv_rhs => rw [eL]
      rfl
    have step : gradPts3 (cut 3 (nodePt L nL (L.faceid c j) 0)) (cut 3 (nodePt L nL (L.faceid c j) 1)) (cut 3 (nodePt L nL (L.faceid c j) 2))
        (sideL 3 L wL (L.faceid c j)) (sideR 3 L wL (L.faceid c j)) =
        gradPts3 (cut 3 (nodePt G nG (G.faceid (σ c) j) 0)) (cut 3 (nodePt G nG (G.faceid (σ c) j) 1)) (cut 3 (nodePt G nG (G.faceid (σ c) j) 2))
        (sideL 3 L wL (L.faceid c j)) (sideR 3 L wL (L.faceid c j)) := by
      unfold nodePt
      rw [p0, p1, p2]
      rcases perm3 hpm with e | e | e | e | e | e <;> obtain ⟨e0, e1, e2⟩ := e <;> rw [e0, e1, e2]
      all_goals first
        | rfl
        | exact gradPts3_swap _ _ _ _ _
        | exact gradPts3_cycle _ _ _ _ _
        | exact (gradPts3_cycle _ _ _ _ _).symm
        | exact (gradPts3_cycle _ _ _ _ _).trans (gradPts3_swap _ _ _ _ _)
        | exact (gradPts3_cycle _ _ _ _ _).trans (gradPts3_cycle _ _ _ _ _)
        | exact (gradPts3_swap _ _ _ _ _).trans (gradPts3_cycle _ _ _ _ _)
    rw [step]
    rcases ac with ⟨a1, a2⟩ | ⟨a1, a2⟩
    · rw [a1, a2]
    · rw [a1, a2, gradPts3_sides]

/-- The dissipative residual of a cell. -/
theorem RenumN.dissip_eq (h : RenumN dim n nbnodes t t' L G σ g B outL outG) (S : Setup K) (gL gG : Nat → Vec K)
    (hg : ∀ c < n, ∀ j < dim + 1, ∀ k < 3, gL (L.faceid c j) k = gG (G.faceid (σ c) j) k) {c : Nat} (hc : c < n) :
    Run.dissip L S gL c = Run.dissip G S gG (σ c) := by
  have hcL : c < L.nbcells := by rw [h.nL]; exact hc
  rw [h.ren.RL.cG.dissip S gL hcL, h.ren.RG.cG.dissip S gG (h.ren.lt c hcL)]
  apply Finset.sum_congr rfl
  intro j hj
  have hj := Finset.mem_range.mp hj
  have hg' := hg c hc j hj
  unfold Par.diffTerm
  rcases h.ren.sides hcL hj with ⟨a1, a2, a3, b1, b2, b3, nB, nE, c0, C0, hn⟩ | ⟨e, he, hne, hNE, a1, a2, a3, b1, b2, b3, sL, sG⟩
  · have n0 : L.name (L.faceid c j) ≠ 0 := fun x => h.ren.RL.cG.B0 (x ▸ nB)
    have m0 : G.name (G.faceid (σ c) j) ≠ 0 := by rw [← nE]; exact n0
    rw [diffFlux_pos L S gL _ _ hn, diffFlux_pos G S gG _ _ (fun k hk => rfl), c0, C0]
    have ho : outFlux S (gL (L.faceid c j)) (G.normal (G.faceid (σ c) j)) = outFlux S (gG (G.faceid (σ c) j)) (G.normal (G.faceid (σ c) j)) := by
      unfold outFlux; rw [hg' 0 (by omega), hg' 1 (by omega), hg' 2 (by omega)]
    rw [ho]
    simp [n0, m0]
  · have hLn := ((h.ren.RL.cG.inner.2 _).mp a1).2
    have hGn := ((h.ren.RG.cG.inner.2 _).mp b1).2
    have ho : outFlux S (gL (L.faceid c j)) (outL c j) = outFlux S (gG (G.faceid (σ c) j)) (outL c j) := by
      unfold outFlux; rw [hg' 0 (by omega), hg' 1 (by omega), hg' 2 (by omega)]
    rcases sL with ⟨s0, s1, s2⟩ | ⟨s0, s1, s2⟩ <;> rcases sG with ⟨t0, t1, t2⟩ | ⟨t0, t1, t2⟩
    · rw [diffFlux_pos L S gL _ _ s2, diffFlux_pos G S gG _ _ t2, ho, s0, s1, t0, t1]; simp [hne, hNE, hLn, hGn]
    · rw [diffFlux_pos L S gL _ _ s2, diffFlux_neg G S gG _ _ t2, ho, s0, s1, t0, t1]; simp [hne, hNE, hLn, hGn]
    · rw [diffFlux_neg L S gL _ _ s2, diffFlux_pos G S gG _ _ t2, ho, s0, s1, t0, t1]; simp [hne, hNE, hLn, hGn]
    · rw [diffFlux_neg L S gL _ _ s2, diffFlux_neg G S gG _ _ t2, ho, s0, s1, t0, t1]; simp [hne, hNE, hLn, hGn]

end
end Verif.Props.Par
