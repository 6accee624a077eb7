import Verif.Props.ParNodeVals

/-! Helper lemmas for the parallel theorems: the same stencils on a rank and in the serial run. -/
set_option linter.unusedSectionVars false
set_option linter.unusedVariables false
set_option linter.unusedSimpArgs false
namespace Verif.Props.Par
open Verif.Fvm Verif.Spec Verif.Conn Verif.Dom Verif.Geo Verif.Names Verif.MeshFile Verif.Part Verif.Comm Verif.Run Verif.HaloGhost Verif.Interp Verif.Props.HG
variable {K : Type*} [Field K] [LinearOrder K] [IsStrictOrderedRing K]

section
variable {dim : Nat} {nodeid : Nat → Nat → Nat} {node : Nat → K × K × K × Nat} {cv : Nat → List K} {npart0 epart : Nat → Nat}
  {nbnodes n SIZE : Nat} {data : Nat → RankData K} {serial : RankData K} {L : Nat → Tables K} {G : Tables K} {B : List Int}
  {out : Nat → Nat → Vec K} {trunc : K → Int}

/-- The ghost tables of the serial run. -/
theorem NodePair.haloGhosts_serial (h : NodePair dim nodeid node cv npart0 epart nbnodes n SIZE data serial L G B out trunc) :
    ∃ hg, haloGhosts dim 1 (fun _ => serial) (fun _ => G) 0 = some hg ∧
      (∀ i < nbnodes, ∃ m, hg.ghosts i = (bf G i).map (rowOf dim G) ++ List.replicate m (HaloGhost.padRow dim)) ∧
      ∀ i < nbnodes, ∃ m, hg.haloghosts i = List.replicate m (HaloGhost.padRow dim) := by
  obtain ⟨d, hd⟩ : ∃ d, d = domRankGhost dim serial G := ⟨_, rfl⟩
  have hnb : d.nbnodes = nbnodes := by rw [hd]; exact h.nbGs
  have hnd : d.halonodes.Nodup := by rw [hd]; exact List.nodup_range.filter _
  have hlt : ∀ i ∈ d.halonodes, i < nbnodes := by
    intro i hi
    rw [hd] at hi
    have := List.mem_range.mp (List.mem_filter.mp hi).1
    rw [h.nbGs] at this; exact this
  obtain ⟨halo, hhalo⟩ : ∃ x, x = padRows d.nbnodes (HaloGhost.padRow dim : GRow K) (List.replicate (2 * dim) (-1 : K)) (fun _ => []) (fun _ => []) := ⟨_, rfl⟩
  have hpad : ∀ i < nbnodes, halo.1 i = List.replicate (padLen d.nbnodes (fun _ => ([] : List (GRow K)))) (HaloGhost.padRow dim) := by
    intro i hi
    have := (padRows_eq d.nbnodes (HaloGhost.padRow dim : GRow K) (List.replicate (2 * dim) (-1 : K)) (fun _ => []) (fun _ => []) i (by omega)).2.1
    rw [hhalo, this]; simp
  obtain ⟨hg', c', e1, e2, rows, e3, _⟩ := numberNodes_eq (haloexttoind d) dim d.halonodes hnd (fun _ => [])
    (fun _ => padLen d.nbnodes (fun _ => ([] : List (GRow K)))) (by simp) (by simp) halo.1 0 (fun i hi => by rw [hpad i (hlt i hi)]; simp)
  refine ⟨{ ghosts := (padRows d.nbnodes (HaloGhost.padRow dim) (List.replicate (2 * dim) (-1)) d.ghosts d.info).1
            info := (padRows d.nbnodes (HaloGhost.padRow dim) (List.replicate (2 * dim) (-1)) d.ghosts d.info).2
            haloghosts := hg', haloinfo := halo.2, size := c' }, ?_, ?_, ?_⟩
  · unfold haloGhosts updateHaloGhost numberNodes
    simp only [← hd, gt_iff_lt, Nat.lt_irrefl, if_false]
    simp only [bind, Option.bind, pure]
    rw [← hhalo, e1]
  · intro i hi
    refine ⟨padLen d.nbnodes d.ghosts - (d.ghosts i).length, ?_⟩
    have := (padRows_eq d.nbnodes (HaloGhost.padRow dim : GRow K) (List.replicate (2 * dim) (-1 : K)) d.ghosts d.info i (by omega)).2.1
    dsimp only
    rw [this]
    congr 1
    rw [hd]; exact (h.domGhosts_atG i).1
  · intro i hi
    dsimp only
    by_cases hin : i ∈ d.halonodes
    · obtain ⟨a, b⟩ := e3 i hin
      rw [List.forall₂_nil_right_iff] at b
      rw [b] at a
      exact ⟨_, a⟩
    · rw [e2 i hin]; exact ⟨_, hpad i hi⟩

theorem ext0_head {d : RankData K} {d1 k : Nat} {nodeid : Nat → Nat → Nat} (h : d.halosext[k]? = some (ext0 d k :: (List.range d1).map (nodeid (ext0 d k)))) :
    ∃ row, d.halosext[k]? = some row ∧ row.head? = some (ext0 d k) := ⟨_, h, rfl⟩

theorem NodePair.cell_entry (h : NodePair dim nodeid node cv npart0 epart nbnodes n SIZE data serial L G B out trunc)
    {p : Nat} (hp : p < SIZE) (W cell : Nat → K) (hr : ∀ c < (L p).nbcells, cell c = W (phi (data p) c)) {c : Nat} (hc : c < (L p).nbcells) :
    cut dim ((L p).center c, cell c) = EC dim G W (phi (data p) c) := by
  unfold EC
  refine cut_eq (fun k hk => ?_) (hr c hc)
  have := h.run.hd
  exact (h.run.rank p hp).center c hc k (by omega)

theorem NodePair.halo_entry (h : NodePair dim nodeid node cv npart0 epart nbnodes n SIZE data serial L G B out trunc)
    {p : Nat} (hp : p < SIZE) (W whalo : Nat → K) (hw : ∀ k < (data p).halosext.length, whalo k = W (ext0 (data p) k)) {k : Nat}
    (hk : k < (data p).halosext.length) : cut dim ((L p).centvol k, whalo k) = EC dim G W (ext0 (data p) k) := by
  unfold EC
  obtain ⟨e1, e2, e3⟩ := h.hl.ext_get hp hk
  refine cut_eq (fun x hx => ?_) (hw k hk)
  have := h.run.hd
  exact (h.run.rank p hp).centvol k _ (ext0 (data p) k) e1 rfl (by rw [h.run.nG]; exact e2) x (by omega)

theorem NodePair.cellidL (h : NodePair dim nodeid node cv npart0 epart nbnodes n SIZE data serial L G B out trunc)
    {p : Nat} (hp : p < SIZE) (i : Nat) : (nodeCells (L p).cnode (L p).nbcells (dim + 1)).1 i = users (L p).cnode (dim + 1) (L p).nbcells i := by
  refine nodeCells_users _ _ _ _ (distinct_of_perm (h.cnodeL p hp) ?_)
  intro c hc j hj j' hj' e
  have hcl : c < (data p).nodeid.length := by rw [← h.nL hp]; exact hc
  have h1 := (h.hl.local_nodes hp hcl hj).1
  have h2 := (h.hl.local_nodes hp hcl hj').1
  rw [e, h2] at h1
  exact h.distinct _ (h.hl.phi_lt hp hcl).1 j hj j' hj' h1.symm

theorem NodePair.cellidG (h : NodePair dim nodeid node cv npart0 epart nbnodes n SIZE data serial L G B out trunc)
    (i : Nat) : (nodeCells G.cnode G.nbcells (dim + 1)).1 i = users nodeid (dim + 1) n i := by
  rw [← h.usersG]
  refine nodeCells_users _ _ _ _ (distinct_of_perm (t' := nodeid) (fun C hC => h.cnodeG C (by rw [← h.run.nG]; exact hC)) ?_)
  rw [h.run.nG]; exact h.distinct

/-- The arrays of a rank after the halo and ghost updates, against the serial ones. -/
structure ValuesOk (dim SIZE : Nat) (data : Nat → RankData K) (L : Nat → Tables K) (G : Tables K) (W : Nat → K) (bc : Int → BCond K) (p : Nat)
    (hg : HGResult K) (w : Interp.Fields K) : Prop where
  cell : ∀ c < (L p).nbcells, w.c c = W (phi (data p) c)
  halo : ∀ k < (data p).halosext.length, w.halo k = W (ext0 (data p) k)
  ghost : ∃ g0, w.ghost = updateGhosts dim (L p) w.c bc g0
  haloghost : ∃ g0, w.haloghost = updateHaloghosts dim (L p) hg (halonodes (L p)) w.halo bc g0

/-- The arrays of the serial run. -/
structure ValuesG (dim : Nat) (G : Tables K) (bc : Int → BCond K) (w : Interp.Fields K) : Prop where
  ghost : ∃ g0, w.ghost = updateGhosts dim G w.c bc g0

/-- The ghost tables of the serial run. -/
structure HGSerial (dim : Nat) (G : Tables K) (nbnodes : Nat) (hg : HGResult K) : Prop where
  own : ∀ i < nbnodes, ∃ m, hg.ghosts i = (bf G i).map (rowOf dim G) ++ List.replicate m (HaloGhost.padRow dim)
  other : ∀ i < nbnodes, ∃ m, hg.haloghosts i = List.replicate m (HaloGhost.padRow dim)

theorem ghostPart_nil (dim m : Nat) (val : Nat → K) : ghostPart ((List.replicate m (HaloGhost.padRow dim : GRow K)).map rowPt) val = [] := by
  have := ghostPart_pad dim ([] : List (GRow K)) m (by simp) val
  rw [List.nil_append] at this
  exact this

theorem perm_swap4 {α : Type*} (A C D E : List α) : (A ++ C ++ (D ++ E)).Perm (A ++ E ++ (C ++ D)) := by
  classical
  rw [List.perm_iff_count]
  intro x
  simp only [List.count_append]
  omega

/-- The stencil of a node on a rank is that of the node in the serial run. -/
theorem NodePair.node_stencil (h : NodePair dim nodeid node cv npart0 epart nbnodes n SIZE data serial L G B out trunc)
    (star : StarConnected dim nodeid n) (bc : Int → BCond K)
    {p : Nat} (hp : p < SIZE) {i : Nat}
    (hbc : ∀ F ∈ G.boundaryfaces, gOf (data p) i ∈ G.fnode F → SharedNode dim nodeid epart n (gOf (data p) i) →
      CornerOk dim bc (G.name F) (G.oldname (gOf (data p) i)))
    {hg : HGResult K} {rows : Nat → List (GRow K)} (s : HGSpec dim SIZE data L p hg rows)
    {hgG : HGResult K} (sG : HGSerial dim G nbnodes hgG) {wL wG : Interp.Fields K} (vL : ValuesOk dim SIZE data L G wG.c bc p hg wL)
    (vG : ValuesG dim G bc wG) (hi : i < (L p).nbnodes) :
    SameStencil dim (nodeStencil dim (nodeTabs dim SIZE (data p) (L p) hg) wL i)
      (nodeStencil dim (nodeTabs dim 1 serial G hgG) wG (gOf (data p) i)) := by
  obtain ⟨γ, hγ⟩ := h.exists_gamma
  have hiG : gOf (data p) i < nbnodes := by
    rw [h.nbL p hp] at hi; exact h.hl.gOf_lt hp hi
  obtain ⟨g0, hg0⟩ := vL.ghost
  obtain ⟨g1, hg1⟩ := vL.haloghost
  obtain ⟨g2, hg2⟩ := vG.ghost
  obtain ⟨m, eo⟩ := s.own i hi
  obtain ⟨mG, eoG⟩ := sG.own _ hiG
  obtain ⟨mH, ehG⟩ := sG.other _ hiG
  have hhc : ∀ k ∈ haloidn SIZE (data p) (L p) i, k < (data p).halosext.length := fun k hk => (((h.haloidn_eq star hp hi).2 k).mp hk).1
  have hL : (nodeStencil dim (nodeTabs dim SIZE (data p) (L p) hg) wL i).map (cut dim) =
      ((users (L p).cnode (dim + 1) (L p).nbcells i).map (phi (data p))).map (EC dim G wG.c) ++
      ((bf (L p) i).map (γ p)).map (EF dim G wG.c bc) ++
      (((remPairs SIZE data L p (gOf (data p) i)).map (fun e => γ e.1 e.2)).map (EF dim G wG.c bc) ++
       ((haloidn SIZE (data p) (L p) i).map (ext0 (data p))).map (EC dim G wG.c)) := by
    have hper : periodicPart dim (nodeTabs dim SIZE (data p) (L p) hg) wL i = [] := by
      unfold periodicPart nodeTabs; simp
    have hrem := h.remote_part star hγ hp s bc hbc wG.c wL.halo g1 vL.halo hi
    rw [← hg1] at hrem
    have hown := h.own_part hγ hp bc wG.c wL.c g0 vL.cell i m
    rw [← hg0] at hown
    unfold nodeStencil
    rw [hper, List.append_nil, List.map_append, List.map_append]
    congr 1
    · congr 1
      · show List.map _ (List.map _ ((nodeCells (L p).cnode (L p).nbcells (dim + 1)).1 i)) = _
        rw [h.cellidL hp, List.map_map, List.map_map]
        apply List.map_congr_left
        intro c hc
        exact h.cell_entry hp wG.c wL.c vL.cell ((mem_users _ _ _ _ _).mp hc).1
      · show List.map _ (if firstGhost ((hg.ghosts i).map rowPt) ≠ -1 then ghostPart ((hg.ghosts i).map rowPt) wL.ghost else []) = _
        rw [eo, firstGhost_pad _ _ _ (rowOf_last _ _ _)]
        exact hown
    · show List.map _ (if (L p).nodename i = 10 then ghostPart ((hg.haloghosts i).map rowPt) wL.haloghost ++
        (haloidn SIZE (data p) (L p) i).map (fun c => ((L p).centvol c, wL.halo c)) else []) = _
      have hhalo : ((haloidn SIZE (data p) (L p) i).map (fun c => ((L p).centvol c, wL.halo c))).map (cut dim) =
          ((haloidn SIZE (data p) (L p) i).map (ext0 (data p))).map (EC dim G wG.c) := by
        rw [List.map_map, List.map_map]
        apply List.map_congr_left
        intro k hk
        exact h.halo_entry hp wG.c wL.halo vL.halo (hhc k hk)
      by_cases hn : (L p).nodename i = 10
      · rw [if_pos hn, List.map_append, hrem, hhalo]
      · rw [if_neg hn]
        have e1 : haloidn SIZE (data p) (L p) i = [] := by unfold haloidn; simp [hn]
        have e2 : remPairs SIZE data L p (gOf (data p) i) = [] := by
          rw [List.eq_nil_iff_forall_not_mem]
          intro e he
          obtain ⟨_, ⟨E, hE, hEp, hu⟩, _⟩ := h.remote_shared hγ hp hi he
          exact hn (h.named star hp hi hE hEp hu)
        rw [e1, e2]; rfl
  have hG : (nodeStencil dim (nodeTabs dim 1 serial G hgG) wG (gOf (data p) i)).map (cut dim) =
      (users nodeid (dim + 1) n (gOf (data p) i)).map (EC dim G wG.c) ++ (bf G (gOf (data p) i)).map (EF dim G wG.c bc) := by
    have hper : periodicPart dim (nodeTabs dim 1 serial G hgG) wG (gOf (data p) i) = [] := by
      unfold periodicPart nodeTabs; simp
    have hown := h.own_partG bc wG.c g2 (gOf (data p) i) mG
    rw [← hg2] at hown
    unfold nodeStencil
    rw [hper, List.append_nil, List.map_append, List.map_append]
    have e3 : (if (nodeTabs dim 1 serial G hgG).namen (gOf (data p) i) = 10 then
        ghostPart ((nodeTabs dim 1 serial G hgG).haloghosts (gOf (data p) i)) wG.haloghost ++
        ((nodeTabs dim 1 serial G hgG).haloidn (gOf (data p) i)).map (fun c => ((nodeTabs dim 1 serial G hgG).centerh c, wG.halo c)) else []) = [] := by
      have a1 : (nodeTabs dim 1 serial G hgG).haloidn (gOf (data p) i) = [] := by
        unfold nodeTabs haloidn; simp
      have a2 : ghostPart ((nodeTabs dim 1 serial G hgG).haloghosts (gOf (data p) i)) wG.haloghost = [] := by
        show ghostPart ((hgG.haloghosts (gOf (data p) i)).map rowPt) wG.haloghost = []
        rw [ehG, ghostPart_nil]
      rw [a1, a2]; simp
    rw [e3, List.map_nil, List.append_nil]
    congr 1
    · show List.map _ (List.map _ ((nodeCells G.cnode G.nbcells (dim + 1)).1 (gOf (data p) i))) = _
      rw [h.cellidG, List.map_map]
      rfl
    · show List.map _ (if firstGhost ((hgG.ghosts (gOf (data p) i)).map rowPt) ≠ -1 then ghostPart ((hgG.ghosts (gOf (data p) i)).map rowPt) wG.ghost else []) = _
      rw [eoG, firstGhost_pad _ _ _ (rowOf_last _ _ _)]
      exact hown
  unfold SameStencil
  rw [hL, hG]
  have p1 := (h.cells_at_node star hp hi).map (EC dim G wG.c)
  have p2 := (h.ghosts_at_node star hγ hp hi).map (EF dim G wG.c bc)
  rw [List.map_append] at p1 p2
  refine List.Perm.trans ?_ (p1.append p2)
  exact perm_swap4 _ _ _ _

theorem mem_cellNeigh (t : Nat → Nat → Nat) (m d c x : Nat) :
    x ∈ cellNeigh t (nodeCells t m d).1 d c ↔ x < m ∧ x ≠ c ∧ ∃ s, Uses t d c s ∧ Uses t d x s := by
  unfold cellNeigh
  rw [(List.perm_insertionSort _ _).mem_iff, (cellNeighRaw_spec t (nodeCells t m d).1 d c).2.2 x]
  simp only [mem_nodeCells]
  constructor
  · rintro ⟨⟨j, hj, hx, hu⟩, hne⟩; exact ⟨hx, hne, _, ⟨j, hj, rfl⟩, hu⟩
  · rintro ⟨hx, hne, _, ⟨j, hj, rfl⟩, hu⟩; exact ⟨⟨j, hj, hx, hu⟩, hne⟩

theorem nodup_cellNeigh (t : Nat → Nat → Nat) (tmp : Nat → List Nat) (d c : Nat) : (cellNeigh t tmp d c).Nodup := by
  unfold cellNeigh
  rw [(List.perm_insertionSort _ _).nodup_iff]
  exact (cellNeighRaw_spec t tmp d c).1

/-- The nodes of a local cell. -/
theorem NodePair.cnode_lt (h : NodePair dim nodeid node cv npart0 epart nbnodes n SIZE data serial L G B out trunc)
    {p : Nat} (hp : p < SIZE) {c s : Nat} (hc : c < (L p).nbcells) (hu : Uses (L p).cnode (dim + 1) c s) : s < (L p).nbnodes := by
  rw [uses_of_perm (h.cnodeL p hp c hc)] at hu
  obtain ⟨j, hj, rfl⟩ := hu
  rw [h.nbL p hp]
  exact h.hl.node_lt hp (by rw [← h.nL hp]; exact hc) hj

/-- The nodes of a local cell are the nodes of its global cell. -/
theorem NodePair.cnode_perm (h : NodePair dim nodeid node cv npart0 epart nbnodes n SIZE data serial L G B out trunc)
    {p : Nat} (hp : p < SIZE) {c : Nat} (hc : c < (L p).nbcells) :
    (((List.range (dim + 1)).map ((L p).cnode c)).map (gOf (data p))).Perm ((List.range (dim + 1)).map (G.cnode (phi (data p) c))) := by
  have hcl : c < (data p).nodeid.length := by rw [← h.nL hp]; exact hc
  refine ((h.cnodeL p hp c hc).map _).trans (List.Perm.trans ?_ (h.cnodeG _ (h.hl.phi_lt hp hcl).1).symm)
  rw [List.map_map]
  apply List.Perm.of_eq
  apply List.map_congr_left
  intro j hj
  exact (h.hl.local_nodes hp hcl (List.mem_range.mp hj)).1

/-- The neighbours of a cell by a node: local ones and halo cells. -/
theorem NodePair.cells_at_cell (h : NodePair dim nodeid node cv npart0 epart nbnodes n SIZE data serial L G B out trunc)
    (star : StarConnected dim nodeid n) {p : Nat} (hp : p < SIZE) {c : Nat} (hc : c < (L p).nbcells) :
    ((cellNeigh (L p).cnode (nodeCells (L p).cnode (L p).nbcells (dim + 1)).1 (dim + 1) c).map (phi (data p)) ++
      (cellHalonid (L p).cnode (haloidn SIZE (data p) (L p)) (dim + 1) c).map (ext0 (data p))).Perm
    (cellNeigh G.cnode (nodeCells G.cnode G.nbcells (dim + 1)).1 (dim + 1) (phi (data p) c)) := by
  obtain ⟨hnd, hmem⟩ := C65_halo_cells_of_cell (L p).cnode (haloidn SIZE (data p) (L p)) (dim + 1) c
  have hcl : c < (data p).nodeid.length := by rw [← h.nL hp]; exact hc
  have hcp := h.hl.phi_lt hp hcl
  have useG : ∀ C < n, ∀ s, Uses G.cnode (dim + 1) C s ↔ Uses nodeid (dim + 1) C s := fun C hC s => uses_of_perm (h.cnodeG C hC) s
  have nodeOf : ∀ s, Uses nodeid (dim + 1) (phi (data p) c) s → ∃ i < (L p).nbnodes, gOf (data p) i = s ∧ Uses (L p).cnode (dim + 1) c i := by
    intro s hs
    obtain ⟨i, hi, e⟩ := h.hl.node_local hp hcp.1 hcp.2 hs
    have hi' : i < (L p).nbnodes := by rw [h.nbL p hp]; exact hi
    exact ⟨i, hi', e, (h.usesL hp hc hi').mpr (by rw [e]; exact hs)⟩
  rw [List.perm_ext_iff_of_nodup]
  · intro C
    simp only [List.mem_append, List.mem_map, mem_cellNeigh, hmem, h.run.nG]
    constructor
    · rintro (⟨x, ⟨hx, hne, s, u1, u2⟩, rfl⟩ | ⟨k, ⟨s, u1, hk⟩, rfl⟩)
      · have hs := h.cnode_lt hp hc u1
        have hxl : x < (data p).nodeid.length := by rw [← h.nL hp]; exact hx
        have hxp := h.hl.phi_lt hp hxl
        refine ⟨hxp.1, fun e => hne ((h.run.rank p hp).sub.inj hx hc e), gOf (data p) s, ?_, ?_⟩
        · rw [useG _ hcp.1]; exact (h.usesL hp hc hs).mp u1
        · rw [useG _ hxp.1]; exact (h.usesL hp hx hs).mp u2
      · have hs := h.cnode_lt hp hc u1
        obtain ⟨hkl, hu⟩ := ((h.haloidn_eq star hp hs).2 k).mp hk
        obtain ⟨_, e2, e3⟩ := h.hl.ext_get hp hkl
        refine ⟨e2, fun e => e3 (by rw [e]; exact hcp.2), gOf (data p) s, ?_, ?_⟩
        · rw [useG _ hcp.1]; exact (h.usesL hp hc hs).mp u1
        · rw [useG _ e2]; exact hu
    · rintro ⟨hC, hne, s, u1, u2⟩
      rw [useG _ hcp.1] at u1
      rw [useG _ hC] at u2
      obtain ⟨i, hi, e, ui⟩ := nodeOf s u1
      by_cases he : epart C = p
      · obtain ⟨x, hx, rfl⟩ := h.hl.phi_surj hp C hC he
        rw [← h.nL hp] at hx
        refine Or.inl ⟨x, ⟨hx, fun e => hne (by rw [e]), i, ui, (h.usesL hp hx hi).mpr (by rw [e]; exact u2)⟩, rfl⟩
      · have hi' := hi
        rw [h.nbL p hp] at hi'
        obtain ⟨k, hk, rfl⟩ := h.hl.ext_surj hp hC he hi' (by rw [e]; exact u2)
        exact Or.inr ⟨k, ⟨i, ui, ((h.haloidn_eq star hp hi).2 k).mpr ⟨hk, by rw [e]; exact u2⟩⟩, rfl⟩
  · rw [List.nodup_append]
    have hkl : ∀ k ∈ cellHalonid (L p).cnode (haloidn SIZE (data p) (L p)) (dim + 1) c, k < (data p).halosext.length := by
      intro k hk
      obtain ⟨s, u1, hk⟩ := (hmem k).mp hk
      exact (((h.haloidn_eq star hp (h.cnode_lt hp hc u1)).2 k).mp hk).1
    refine ⟨?_, ?_, ?_⟩
    · refine List.Nodup.map_on ?_ (nodup_cellNeigh _ _ _ _)
      intro a ha b hb e
      exact (h.run.rank p hp).sub.inj ((mem_cellNeigh _ _ _ _ _).mp ha).1 ((mem_cellNeigh _ _ _ _ _).mp hb).1 e
    · refine List.Nodup.map_on ?_ hnd
      intro a ha b hb e
      exact h.hl.ext_inj hp (hkl a ha) (hkl b hb) e
    · intro a ha b hb e
      obtain ⟨x, hx, rfl⟩ := List.mem_map.mp ha
      obtain ⟨k, hk, rfl⟩ := List.mem_map.mp hb
      have h1 := (h.hl.phi_lt hp (by rw [← h.nL hp]; exact ((mem_cellNeigh _ _ _ _ _).mp hx).1)).2
      have h2 := (h.hl.ext_get hp (hkl k hk)).2.2
      rw [e] at h1
      exact h2 h1
  · exact nodup_cellNeigh _ _ _ _

/-- The stencil of a cell on a rank is that of the cell in the serial run. -/
theorem NodePair.cell_stencil (h : NodePair dim nodeid node cv npart0 epart nbnodes n SIZE data serial L G B out trunc)
    (star : StarConnected dim nodeid n) (bc : Int → BCond K)
    (hbc : ∀ F ∈ G.boundaryfaces, ∀ s ∈ G.fnode F, SharedNode dim nodeid epart n s → CornerOk dim bc (G.name F) (G.oldname s))
    {p : Nat} (hp : p < SIZE) {hg : HGResult K} {rows : Nat → List (GRow K)} (s : HGSpec dim SIZE data L p hg rows)
    {hgG : HGResult K} (sG : HGSerial dim G nbnodes hgG) {wL wG : Interp.Fields K} (vL : ValuesOk dim SIZE data L G wG.c bc p hg wL)
    (vG : ValuesG dim G bc wG) {c : Nat} (hc : c < (L p).nbcells) (maxname : Int) (hmax : ∀ b ∈ B, b ≤ maxname) :
    SameStencil dim (cellStencil maxname (nodeTabs dim SIZE (data p) (L p) hg) (cellTabs dim SIZE (data p) (L p)) wL [] c)
      (cellStencil maxname (nodeTabs dim 1 serial G hgG) (cellTabs dim 1 serial G) wG [] (phi (data p) c)) := by
  obtain ⟨γ, hγ⟩ := h.exists_gamma
  obtain ⟨g0, hg0⟩ := vL.ghost
  obtain ⟨g1, hg1⟩ := vL.haloghost
  obtain ⟨g2, hg2⟩ := vG.ghost
  have hcl : c < (data p).nodeid.length := by rw [← h.nL hp]; exact hc
  have hcp := h.hl.phi_lt hp hcl
  -- ghosts of one node
  have ghL : ∀ i, Uses (L p).cnode (dim + 1) c i → (((if (L p).oldname i ≤ maxname then ghostPart ((hg.ghosts i).map rowPt) wL.ghost else []) ++
      ghostPart ((hg.haloghosts i).map rowPt) wL.haloghost).map (cut dim)).Perm ((bf G (gOf (data p) i)).map (EF dim G wG.c bc)) := by
    intro i hu
    have hi := h.cnode_lt hp hc hu
    obtain ⟨m, eo⟩ := s.own i hi
    have hrem := h.remote_part star hγ hp s bc (fun F hF => hbc F hF _) wG.c wL.halo g1 vL.halo hi
    rw [← hg1] at hrem
    have hown := h.own_part hγ hp bc wG.c wL.c g0 vL.cell i m
    rw [← hg0, ← eo] at hown
    have p2 := (h.ghosts_at_node star hγ hp hi).map (EF dim G wG.c bc)
    rw [List.map_append] at p2
    rw [List.map_append, hrem]
    refine List.Perm.trans (List.Perm.of_eq ?_) p2
    congr 1
    split_ifs with ho
    · exact hown
    · have hbe : bf (L p) i = [] := by
        rw [List.eq_nil_iff_forall_not_mem]
        intro f hf
        obtain ⟨_, _, _, _, _, _, hm, _⟩ := h.bf_global hγ hp hf
        obtain ⟨_, m2, m3⟩ := (mem_bf _ _ _).mp hm
        exact ho (by rw [h.oldname_eq hp hi]; exact hmax _ (h.labelG _ m2 _ m3))
      rw [hbe]; rfl
  have ghG : ∀ I < nbnodes, ((if G.oldname I ≤ maxname then ghostPart ((hgG.ghosts I).map rowPt) wG.ghost else []) ++
      ghostPart ((hgG.haloghosts I).map rowPt) wG.haloghost).map (cut dim) = (bf G I).map (EF dim G wG.c bc) := by
    intro I hI
    obtain ⟨mG, eoG⟩ := sG.own I hI
    obtain ⟨mH, ehG⟩ := sG.other I hI
    have hown := h.own_partG bc wG.c g2 I mG
    rw [← hg2, ← eoG] at hown
    rw [ehG, ghostPart_nil, List.append_nil]
    split_ifs with ho
    · exact hown
    · have hbe : bf G I = [] := by
        rw [List.eq_nil_iff_forall_not_mem]
        intro f hf
        obtain ⟨_, m2, m3⟩ := (mem_bf _ _ _).mp hf
        exact ho (hmax _ (h.labelG _ m2 _ m3))
      rw [hbe]; rfl
  unfold SameStencil cellStencil
  simp only [List.append_nil, List.map_append]
  have cellsL : (((cellTabs dim SIZE (data p) (L p)).cellnid c).map (fun c => ((nodeTabs dim SIZE (data p) (L p) hg).centerc c, wL.c c))).map (cut dim) =
      ((cellNeigh (L p).cnode (nodeCells (L p).cnode (L p).nbcells (dim + 1)).1 (dim + 1) c).map (phi (data p))).map (EC dim G wG.c) := by
    rw [List.map_map, List.map_map]
    apply List.map_congr_left
    intro x hx
    exact h.cell_entry hp wG.c wL.c vL.cell ((mem_cellNeigh _ _ _ _ _).mp hx).1
  have haloL : (((cellTabs dim SIZE (data p) (L p)).halonid c).map (fun c => ((nodeTabs dim SIZE (data p) (L p) hg).centerh c, wL.halo c))).map (cut dim) =
      ((cellHalonid (L p).cnode (haloidn SIZE (data p) (L p)) (dim + 1) c).map (ext0 (data p))).map (EC dim G wG.c) := by
    show List.map _ (List.map _ (if SIZE > 1 then cellHalonid (L p).cnode (haloidn SIZE (data p) (L p)) (dim + 1) c else [])) = _
    rw [if_pos h.hl.hS, List.map_map, List.map_map]
    apply List.map_congr_left
    intro k hk
    obtain ⟨s, u1, hk⟩ := ((C65_halo_cells_of_cell _ _ _ _).2 k).mp hk
    exact h.halo_entry hp wG.c wL.halo vL.halo (((h.haloidn_eq star hp (h.cnode_lt hp hc u1)).2 k).mp hk).1
  have cellsG : (((cellTabs dim 1 serial G).cellnid (phi (data p) c)).map (fun c => ((nodeTabs dim 1 serial G hgG).centerc c, wG.c c))).map (cut dim) =
      (cellNeigh G.cnode (nodeCells G.cnode G.nbcells (dim + 1)).1 (dim + 1) (phi (data p) c)).map (EC dim G wG.c) := by
    rw [List.map_map]; rfl
  have haloG : (cellTabs dim 1 serial G).halonid (phi (data p) c) = [] := by unfold cellTabs; simp
  rw [cellsL, haloL, cellsG, haloG, List.map_nil, List.map_nil, List.append_nil, List.map_flatMap, List.map_flatMap]
  have p1 := (h.cells_at_cell star hp hc).map (EC dim G wG.c)
  rw [List.map_append] at p1
  refine p1.append ?_
  have q1 : (((List.range (dim + 1)).map ((L p).cnode c)).flatMap (fun i => (((if (L p).oldname i ≤ maxname then ghostPart ((hg.ghosts i).map rowPt) wL.ghost else []) ++
      ghostPart ((hg.haloghosts i).map rowPt) wL.haloghost).map (cut dim)))).Perm
      (((List.range (dim + 1)).map ((L p).cnode c)).flatMap (fun i => (bf G (gOf (data p) i)).map (EF dim G wG.c bc))) := by
    refine List.Perm.flatMap_left _ ?_
    intro i hi
    obtain ⟨j, hj, rfl⟩ := List.mem_map.mp hi
    exact ghL _ ⟨j, List.mem_range.mp hj, rfl⟩
  refine q1.trans ?_
  rw [← List.flatMap_map (f := gOf (data p)) (g := fun I => (bf G I).map (EF dim G wG.c bc))]
  refine ((h.cnode_perm hp hc).flatMap_right _).trans (List.Perm.of_eq ?_)
  apply List.flatMap_congr
  intro I hI
  refine (ghG I ?_).symm
  have hm := (h.cnodeG _ hcp.1).subset hI
  obtain ⟨j, hj, rfl⟩ := List.mem_map.mp hm
  exact h.hl.hnode _ hcp.1 j (List.mem_range.mp hj)

end
end Verif.Props.Par
