import Verif.Props.PerCross
import Verif.Props.MovedNode

/-! # Node values and face gradients on facing periodic sides, triangular meshes, one process (C133) -/
set_option linter.unusedSectionVars false
set_option linter.unusedVariables false
set_option linter.unusedSimpArgs false
set_option synthInstance.maxHeartbeats 1000000
set_option synthInstance.maxSize 1000
set_option maxRecDepth 4000
namespace Verif.Props.Par
open Verif.Fvm Verif.Spec Verif.Conn Verif.Dom Verif.Geo Verif.Names Verif.MeshFile Verif.Part Verif.Comm Verif.Run Verif.Periodic Verif.Props.Per
open Verif.HaloGhost Verif.Interp Verif.Props.HG
variable {K : Type*} [Field K] [LinearOrder K] [IsStrictOrderedRing K]

/-- The ghost rows of a node belong to wall faces of the node. -/
theorem nodeGhosts_at (bnd : Int → Bool) (name : Nat → Int) (cell0 : Nat → Int) (fnodes : Nat → List Nat) (ghost info : Nat → List K) (nbfaces : Nat) :
    ∀ i, ∀ r ∈ (nodeGhosts bnd name cell0 fnodes ghost info nbfaces).1 i, ∃ f < nbfaces, bnd (name f) = true ∧ i ∈ fnodes f := by
  unfold nodeGhosts
  refine foldl_all (fun s : (Nat → List (GRow K)) × (Nat → List (List K)) => ∀ i, ∀ r ∈ s.1 i, ∃ f < nbfaces, bnd (name f) = true ∧ i ∈ fnodes f) _ _ ?_ _ (by simp)
  intro s hs f hf
  split
  · rename_i hb
    refine foldl_all (fun s : (Nat → List (GRow K)) × (Nat → List (List K)) => ∀ i, ∀ r ∈ s.1 i, ∃ f < nbfaces, bnd (name f) = true ∧ i ∈ fnodes f) _ _ ?_ _ hs
    intro s hs a ha i r hr
    dsimp only at hr
    unfold setAt at hr
    split at hr
    · rename_i hia
      exact ⟨f, List.mem_range.mp hf, hb, by rw [hia]; exact ha⟩
    · exact hs i r hr
  · exact hs

/-- A periodic row, as cells. -/
theorem listsCells_perm {row : List Int} {l : List Nat} (h : ListsCells row l) (hl : l.Nodup) (n : Nat) : (row.map (pyIndex n)).Perm l := by
  have hnn : ∀ x ∈ row, ∃ c ∈ l, x = (c : Int) ∧ pyIndex n x = c := by
    intro x hx
    obtain ⟨c, hc, rfl⟩ := (h.2 x).mp hx
    exact ⟨c, hc, rfl, by unfold pyIndex; rw [if_neg (by omega)]; simp⟩
  refine (List.perm_ext_iff_of_nodup ?_ hl).mpr ?_
  · refine List.Nodup.map_on ?_ (h.1.imp (fun hab => ne_of_lt hab))
    intro x hx y hy e
    obtain ⟨c, _, rfl, e1⟩ := hnn x hx
    obtain ⟨c', _, rfl, e2⟩ := hnn y hy
    rw [e1, e2] at e; rw [e]
  · intro a
    constructor
    · intro hm
      obtain ⟨x, hx, rfl⟩ := List.mem_map.mp hm
      obtain ⟨c, hc, _, e⟩ := hnn x hx
      rw [e]; exact hc
    · intro hm
      refine List.mem_map.mpr ⟨(a : Int), (h.2 _).mpr ⟨a, hm, rfl⟩, ?_⟩
      unfold pyIndex; rw [if_neg (by omega)]; simp

theorem nodeFit_perm (d : Nat) (v : Vec K) {l l' : List (Vec K × K)} (hp : l.Perm l') : nodeFit d v l = nodeFit d v l' := by
  have e1 : momM d v l = momM d v l' := by
    unfold momM; congr 1; funext i j; exact lsum_perm hp _
  have e2 : momV d v l (fun _ => 1) = momV d v l' (fun _ => 1) := by
    unfold momV; funext i; exact lsum_perm hp _
  unfold nodeFit
  rw [e1, e2, lsum_perm hp (fun _ => (1 : K))]
  exact lsum_perm hp _

/-- The translation by `δ` along `x`. -/
def slideX (δ : K) : Motion K := ⟨1, fun i j => if i = j then 1 else 0, fun k => if k = 0 then δ else 0⟩

theorem slideX_proper (δ : K) : (slideX δ).Proper 2 := by
  refine ⟨by simp [slideX], ?_, by simp [slideX], fun _ => by simp [slideX]⟩
  intro i hi j hj
  interval_cases i <;> interval_cases j <;> simp [slideX]

theorem slideX_place (δ : K) (p : Vec K) : ∀ k < 2, (slideX δ).place p k = p k + if k = 0 then δ else 0 := by
  intro k hk
  unfold Motion.place Motion.turn slideX
  interval_cases k <;> simp

section
variable {m : Mesh K} {serial : RankData K} {L : Nat → K} {r : K → K}

theorem wide_of_wideAt (h2 : m.dim = 2) (hw : m.WideAt 11 22) : m.Wide 11 22 := by
  intro c l x ho
  have key : ∀ a ∈ l, Uses m.nodeid (m.dim + 1) c a := fun a ha => (mem_nodesOf_uses m c a).mpr (ho.2.1.subset (by simp [ha]))
  constructor
  · rintro ⟨⟨a, ha, e⟩, _⟩; exact (hw c ho.1 a (key a ha)).1 e
  · rintro ⟨⟨a, ha, e⟩, _⟩; exact (hw c ho.1 a (key a ha)).2 e

/-- The periodic cells of a node of the side `in` are the cells of its translate, and conversely. -/
theorem world_nper (hv : m.Valid2 L r) (hr : m.Read serial) (sqrt : K → K) (hs : ∀ x, 0 < x → sqrt x ≠ 0) (trunc : K → Int)
    (htr : ∀ i : Nat, trunc (i : K) = i) {W : PWorld K} (e : mkPWorld 2 r serial (build2 sqrt trunc 1 serial) = some W) {x x' : Nat} (hx : x < m.nbnodes) (hx' : x' < m.nbnodes)
    (l1 : labelOf m.node x = 11) (l2 : labelOf m.node x' = 22) (ht : IsTranslate 0 (L 0) (pos m.node x) (pos m.node x')) :
    ListsCells (W.P.nper x) ((perMesh 2 (build2 sqrt trunc 1 serial)).ncells x') ∧ ListsCells (W.P.nper x') ((perMesh 2 (build2 sqrt trunc 1 serial)).ncells x) := by
  have h := sdom2 hv hr sqrt hs trunc htr
  have hd : m.dim = 2 := hv.two
  obtain ⟨s, es, _, _, _, q1, q2, _⟩ := Per.C68_partners_2d_partial r (perMesh 2 (build2 sqrt trunc 1 serial)) (maxc (build2 sqrt trunc 1 serial))
    (fun e => maxOver (build2 sqrt trunc 1 serial).nbnodes (fun i => (build2 sqrt trunc 1 serial).vertex i e)) (faceSides (build2 sqrt trunc 1 serial))
    (nodeSides (build2 sqrt trunc 1 serial)) (fun f => (build2 sqrt trunc 1 serial).cellid f 1) (hd ▸ h.perMesh2 hv.toValid)
  rw [world_per e] at es
  have es := Option.some.inj es
  subst es
  have hmax : maxc (build2 sqrt trunc 1 serial) 0 = L 0 :=
    h.maxcoord hv.toValid (by omega) (by simp [perSides, hd]) hv.x ⟨x, hx, Or.inl l1⟩
  rw [hmax] at q1 q2
  have m1 : x ∈ (nodeSides (build2 sqrt trunc 1 serial)).inn := h.mem_nodes.mpr ⟨hx, l1⟩
  have m2 : x' ∈ (nodeSides (build2 sqrt trunc 1 serial)).out := h.mem_nodes.mpr ⟨hx', l2⟩
  have ht' : IsTranslate 0 (L 0) ((perMesh 2 (build2 sqrt trunc 1 serial)).vertex x) ((perMesh 2 (build2 sqrt trunc 1 serial)).vertex x') :=
    isTranslate_congr ht (h.vertex x hx) (h.vertex x' hx')
  exact ⟨q1 x m1 x' m2 ht', q2 x' m2 x m1 (isTranslate_neg ht')⟩

theorem cells_users (hv : m.Valid2 L r) (hr : m.Read serial) (sqrt : K → K) (hs : ∀ x, 0 < x → sqrt x ≠ 0) (trunc : K → Int)
    (htr : ∀ i : Nat, trunc (i : K) = i) (x : Nat) : (nodeCells (build2 sqrt trunc 1 serial).cnode (build2 sqrt trunc 1 serial).nbcells 3).1 x =
      users (build2 sqrt trunc 1 serial).cnode 3 (build2 sqrt trunc 1 serial).nbcells x := by
  have h := sdom2 hv hr sqrt hs trunc htr
  have hd : m.dim = 2 := hv.two
  refine nodeCells_users _ _ _ _ ?_
  intro c hc j hj j' hj' e
  have hn := (h.cnode c (h.nb ▸ hc)).nodup_iff.mpr (h.nodup c (h.nb ▸ hc))
  rw [hd] at hn
  exact List.inj_on_of_nodup_map hn (List.mem_range.mpr hj) (List.mem_range.mpr hj') e

/-- The stencil of a node of one of the sides `in`, `out` away from the walls. -/
theorem stencil_x (hv : m.Valid2 L r) (hr : m.Read serial) (sqrt : K → K) (hs : ∀ x, 0 < x → sqrt x ≠ 0) (trunc : K → Int)
    (htr : ∀ i : Nat, trunc (i : K) = i) {W : PWorld K} {p : Nat → Nat} 
    (ok : WorldOk m L r serial (build2 sqrt trunc 1 serial) (out2 serial) W p) (v : Vari K) {x : Nat} (hx : x < m.nbnodes) {s : Nat} (hs1 : s = 11 ∨ s = 22)
    (l1 : labelOf m.node x = s) (hfree : ∀ b ∈ W.D.boundaryfaces, ∀ i < 2, x ≠ (W.D.fnode b).getD i 0) {B : List Nat} (hB : ListsCells (W.P.nper x) B) (hBn : B.Nodup) :
    (nodeStencil 2 W.nodeTabs v.fields x).Perm ((users W.D.cnode 3 W.D.nbcells x).map (fun c => (W.D.center c, v.cell c)) ++
      B.map (fun c => (shiftX (W.D.center c) (W.P.shift c), v.cell c))) := by
  have h := sdom2 hv hr sqrt hs trunc htr
  have hd : m.dim = 2 := hv.two
  have hW2 : W.dim = 2 := ok.dim.trans hd
  obtain ⟨c1, hD⟩ := ok.pd.eq
  have hold : W.nodeTabs.oldname x = (s : Int) := by
    show W.D.oldname x = _
    rw [hD]
    have : (build2 sqrt trunc 1 serial).oldname x = trunc (at2 0 serial.vertex x 3) := rfl
    rw [← l1, ← htr, ← ((read_cells hr).2.2.2.1 x hx).2]
    exact this
  have hnam : W.nodeTabs.namen x ≠ 10 := by
    show W.D.nodename x ≠ 10
    rw [hD]
    have : (build2 sqrt trunc 1 serial).nodename x = (labelOf m.node x : Int) := h.nodename x hx
    intro q
    have : (labelOf m.node x : Int) = 10 := this.symm.trans q
    rw [l1] at this
    rcases hs1 with rfl | rfl <;> exact absurd this (by decide)
  have hgh : ghostPart (W.nodeTabs.ghosts x) v.fields.ghost = [] := by
    obtain ⟨mm, eg⟩ := (ok.grad hW2).ghosts x hx
    have he : (domGhosts W.dim W.D).1 x = [] := by
      rw [List.eq_nil_iff_forall_not_mem]
      intro row hrow
      obtain ⟨f, hf, hb, hxf⟩ := nodeGhosts_at _ _ _ _ _ _ _ x row hrow
      have hbf := (ok.grad hW2).bnd f hf hb
      unfold ghostNodes at hxf
      rw [if_pos hW2] at hxf
      simp only [List.mem_cons, List.not_mem_nil, or_false] at hxf
      rcases hxf with q | q
      · exact hfree f hbf 1 (by omega) q
      · exact hfree f hbf 0 (by omega) q
    have e' : W.nodeTabs.ghosts x = (List.replicate mm (HaloGhost.padRow W.dim)).map rowPt := by
      show (W.hg.ghosts x).map rowPt = _
      rw [eg, he]; rfl
    rw [e', ghostPart_nil]
  have hper : periodicPart 2 W.nodeTabs v.fields x = ((W.P.nper x).map (pyIndex W.D.nbcells)).map (fun c => (shiftX (W.D.center c) (W.P.shift c), v.cell c)) := by
    unfold periodicPart
    rw [if_pos (by rw [hold]; rcases hs1 with rfl | rfl <;> simp)]
    rfl
  have hcells : W.nodeTabs.cellidn x = users W.D.cnode 3 W.D.nbcells x := by
    show (nodeCells W.D.cnode W.D.nbcells (W.dim + 1)).1 x = _
    rw [hW2, hD]
    exact cells_users hv hr sqrt hs trunc htr x
  unfold nodeStencil
  rw [if_neg hnam, hgh, hper, hcells]
  simp only [ite_self, List.append_nil]
  exact List.Perm.append (List.Perm.refl _) ((listsCells_perm hB hBn _).map _)


/-- Two nodes facing each other. -/
theorem node_x (hv : m.Valid2 L r) (hr : m.Read serial) (sqrt : K → K) (hs : ∀ x, 0 < x → sqrt x ≠ 0) (trunc : K → Int)
    (htr : ∀ i : Nat, trunc (i : K) = i) (hw : m.WideAt 11 22) {W : PWorld K} {p : Nat → Nat} (e : mkPWorld 2 r serial (build2 sqrt trunc 1 serial) = some W)
    (ok : WorldOk m L r serial (build2 sqrt trunc 1 serial) (out2 serial) W p) (v : Vari K) {x x' : Nat} (hx : x < m.nbnodes) (hx' : x' < m.nbnodes)
    (l1 : labelOf m.node x = 11) (l2 : labelOf m.node x' = 22) (ht : IsTranslate 0 (L 0) (pos m.node x) (pos m.node x'))
    (hf : ∀ b ∈ W.D.boundaryfaces, ∀ i < 2, x ≠ (W.D.fnode b).getD i 0) (hf' : ∀ b ∈ W.D.boundaryfaces, ∀ i < 2, x' ≠ (W.D.fnode b).getD i 0) :
    W.nodeValues v.fields x' = W.nodeValues v.fields x := by
  have h := sdom2 hv hr sqrt hs trunc htr
  have hd : m.dim = 2 := hv.two
  have hW2 : W.dim = 2 := ok.dim.trans hd
  obtain ⟨c1, hD⟩ := ok.pd.eq
  obtain ⟨q1, q2⟩ := world_nper hv hr sqrt hs trunc htr e hx hx' l1 l2 ht
  have hnc : ∀ y, (perMesh 2 (build2 sqrt trunc 1 serial)).ncells y = users W.D.cnode 3 W.D.nbcells y := by
    intro y; rw [hD]; exact cells_users hv hr sqrt hs trunc htr y
  rw [hnc] at q1 q2
  have s1 := stencil_x hv hr sqrt hs trunc htr ok v hx (Or.inl rfl) l1 hf q1 (nodup_users _ _ _ _)
  have s2 := stencil_x hv hr sqrt hs trunc htr ok v hx' (Or.inr rfl) l2 hf' q2 (nodup_users _ _ _ _)
  have hvx : ∀ y < m.nbnodes, ∀ k < 3, W.nodeTabs.vertexn y k = pos m.node y k := by
    intro y hy
    show ∀ k < 3, W.D.vertex y k = pos m.node y k
    rw [hD]; exact h.vertex y hy
  have hus : ∀ y, ∀ c ∈ users W.D.cnode 3 W.D.nbcells y, c < m.n ∧ Uses m.nodeid (m.dim + 1) c y := by
    intro y c hc
    obtain ⟨lt, j, hj, ej⟩ := (mem_users _ _ _ _ _).mp hc
    have ltn : c < m.n := by rw [hD] at lt; exact h.nb ▸ lt
    refine ⟨ltn, (h.uses ltn).mp ⟨j, by omega, ?_⟩⟩
    rw [hD] at ej; exact ej
  have hsh := fun (c : Nat) (hc : c < m.n) => h.shift_next hv.toValid hd (wide_of_wideAt hd hw) e ⟨x, hx, Or.inl l1⟩ hc
  have sA : ∀ c ∈ users W.D.cnode 3 W.D.nbcells x, W.P.shift c 0 = L 0 := by
    intro c hc
    obtain ⟨lt, hu⟩ := hus x c hc
    exact (hsh c lt).1 ((hw c lt x hu).1 l1).1
  have sB : ∀ c ∈ users W.D.cnode 3 W.D.nbcells x', W.P.shift c 0 = -L 0 := by
    intro c hc
    obtain ⟨lt, hu⟩ := hus x' c hc
    exact (hsh c lt).2 ((hw c lt x' hu).2 l2).2 ((hw c lt x' hu).2 l2).1
  unfold PWorld.nodeValues
  rw [if_pos hW2, if_pos hW2, nodeFit2, nodeFit2, nodeFit_perm _ _ s1, nodeFit_perm _ _ (s2.trans List.perm_append_comm)]
  refine nodeFit_moved (slideX_proper (L 0)) (Or.inl rfl) ?_ ?_
  · unfold MovedSt
    simp only [List.map_append, List.map_map]
    congr 1
    · apply List.map_congr_left
      intro c hc
      refine movPt_cut (slideX_proper (L 0)) (Or.inl rfl) ?_ rfl
      intro k hk
      rw [slideX_place _ _ k hk]
      unfold shiftX
      interval_cases k
      · simp [sA c hc]
      · simp
    · apply List.map_congr_left
      intro c hc
      refine movPt_cut (slideX_proper (L 0)) (Or.inl rfl) ?_ rfl
      intro k hk
      rw [slideX_place _ _ k hk]
      unfold shiftX
      interval_cases k
      · simp [sB c hc]
      · simp
  · intro k hk
    rw [slideX_place _ _ k hk, hvx x hx k (by omega), hvx x' hx' k (by omega)]
    exact ht k (by omega)

/-- **C133** (nodes, 2D): on a triangular mesh periodic in `x`, several cells wide and high, the value a variable interpolates at a node of the
side `in` equals the one at the facing node of the side `out`, when neither is on a wall. -/
theorem C133_partner_nodes_2d_partial (hv : m.Valid2 L r) (hr : m.Read serial) (sqrt : K → K) (hs : ∀ x, 0 < x → sqrt x ≠ 0) (trunc : K → Int)
    (htr : ∀ i : Nat, trunc (i : K) = i) (hw : m.WideAt 11 22) : ∃ W, mkPWorld 2 r serial (build2 sqrt trunc 1 serial) = some W ∧
      ∀ x < m.nbnodes, ∀ x' < m.nbnodes, labelOf m.node x = 11 → labelOf m.node x' = 22 → IsTranslate 0 (L 0) (pos m.node x) (pos m.node x') →
        (∀ b ∈ W.D.boundaryfaces, ∀ i < 2, x ≠ (W.D.fnode b).getD i 0 ∧ x' ≠ (W.D.fnode b).getD i 0) →
        ∀ v : Vari K, W.nodeValues v.fields x' = W.nodeValues v.fields x := by
  have h := sdom2 hv hr sqrt hs trunc htr
  have hd : m.dim = 2 := hv.two
  obtain ⟨W, p, e, ok⟩ := h.world hv.toValid (read_cells hr).2.1
  rw [hd] at e
  exact ⟨W, e, fun x hx x' hx' l1 l2 ht hb v => node_x hv hr sqrt hs trunc htr hw e ok v hx hx' l1 l2 ht (fun b h i hi => (hb b h i hi).1) (fun b h i hi => (hb b h i hi).2)⟩

/-- **C133** (faces, 2D): the face gradients of partner faces of the sides `in` and `out` are equal when no end is on a wall, so that what
diffuses out of the domain through one comes in through the other. -/
theorem C133_partner_gradients_2d_partial (hv : m.Valid2 L r) (hr : m.Read serial) (sqrt : K → K) (hs : ∀ x, 0 < x → sqrt x ≠ 0) (trunc : K → Int)
    (htr : ∀ i : Nat, trunc (i : K) = i) (hw : m.WideAt 11 22) : ∃ W, mkPWorld 2 r serial (build2 sqrt trunc 1 serial) = some W ∧
      ∀ f f', PartnerFaces W.D 2 L f f' → W.D.name f = 11 → FreeOfWalls W.D f → FreeOfWalls W.D f' → ∀ (bc : Int → BCond K) (v : Vari K),
        (∀ k < 2, W.faceGrads bc v.fields (W.nodeValues v.fields) f k = W.faceGrads bc v.fields (W.nodeValues v.fields) f' k) ∧
        ∀ S : Setup K, diffusedIn W.D S (W.faceGrads bc v.fields (W.nodeValues v.fields)) [f, f'] = 0 := by
  have h := sdom2 hv hr sqrt hs trunc htr
  have hd : m.dim = 2 := hv.two
  obtain ⟨W, p, e, ok⟩ := h.world hv.toValid (read_cells hr).2.1
  have pdom := h.periodicDomain hv.toValid ok.pd
  rw [hd] at e
  have hW2 : W.dim = 2 := ok.dim.trans hd
  refine ⟨W, e, ?_⟩
  intro f f' hp hn hfr hfr' bc v
  obtain ⟨cn, hD⟩ := ok.pd.eq
  have hid : ∀ f, f < W.D.nbfaces → ∃ c < m.n, W.D.cellid f 0 = (c : Int) := by rw [hD]; intro f hf; simpa using h.cell0_nat hf
  obtain ⟨c, hc, ec⟩ := hid f hp.1
  obtain ⟨c', hc', ec'⟩ := hid f' hp.2.1
  have hn' : W.D.name f' = 22 ∧ IsTranslate 0 (L 0) (W.D.fcenter f) (W.D.fcenter f') := by
    obtain ⟨_, _, t, ht, hcase⟩ := hp
    simp [perDirs] at ht
    rcases ht with rfl | rfl
    · rcases hcase with ⟨x1, x2, x3⟩ | ⟨x1, x2, x3⟩
      · exact ⟨by simpa using x2, x3⟩
      · rw [hn] at x1; exact absurd x1 (by decide)
    · rcases hcase with ⟨x1, x2, x3⟩ | ⟨x1, x2, x3⟩ <;> · rw [hn] at x1; exact absurd x1 (by decide)
  obtain ⟨hn2, htr0⟩ := hn'
  have A := across_x hv hr sqrt hs trunc htr (wide_of_wideAt hd hw) e ok pdom hp (Or.inl hn) ec ec'
  have A' := across_x hv hr sqrt hs trunc htr (wide_of_wideAt hd hw) e ok pdom (partnerFaces_symm hp) (Or.inr hn2) ec' ec
  obtain ⟨j, hj, ho, on1, _, pm, fc⟩ := A.ends
  obtain ⟨j', hj', ho', _, on2, pm', fc'⟩ := A'.ends
  have on1 := on1 hn
  have on2 := on2 hn2
  -- the ends of `f'` are the translates of those of `f`
  obtain ⟨cc, l', xx, hoo, hoon, hfa⟩ := hv.x.up _ _ _ ho on1
  have hl2 : l'.Perm (sid2 serial c' j') := by
    refine hv.fapart _ _ _ _ _ _ hoo ho' ?_
    intro k hk
    rw [← fc' k hk]
    have hct := centre_translate m (h.side_length hc hj) (by omega) hfa k hk
    rw [hct, ← fc k hk]
    exact (htr0 k hk).symm
  have hlt : ∀ y ∈ sid2 serial c j, y < m.nbnodes ∧ labelOf m.node y = 11 := by
    intro y hy
    refine ⟨h.side_lt hv.toValid hc hj (Or.inl hy), ?_⟩
    rcases on1.2 y hy with q | q
    · exact q
    · simp [cornerLabels] at q
  have hlt' : ∀ y ∈ sid2 serial c' j', y < m.nbnodes ∧ labelOf m.node y = 22 := by
    intro y hy
    refine ⟨h.side_lt hv.toValid hc' hj' (Or.inl hy), ?_⟩
    rcases on2.2 y hy with q | q
    · exact q
    · simp [cornerLabels] at q
  obtain ⟨x0, hx0⟩ : ∃ x, x = (W.D.fnode f).getD 0 0 := ⟨_, rfl⟩
  obtain ⟨x1, hx1⟩ : ∃ x, x = (W.D.fnode f).getD 1 0 := ⟨_, rfl⟩
  obtain ⟨y0, hy0⟩ : ∃ x, x = (W.D.fnode f').getD 0 0 := ⟨_, rfl⟩
  obtain ⟨y1, hy1⟩ : ∃ x, x = (W.D.fnode f').getD 1 0 := ⟨_, rfl⟩
  have hfx : ∀ x ∈ [x0, x1], ∀ b ∈ W.D.boundaryfaces, ∀ i < 2, x ≠ (W.D.fnode b).getD i 0 := by
    intro x hx b hb i hi
    simp only [List.mem_cons, List.not_mem_nil, or_false] at hx
    rcases hx with rfl | rfl
    · rw [hx0]; exact hfr b hb i hi 0 (by omega)
    · rw [hx1]; exact hfr b hb i hi 1 (by omega)
  have hfy : ∀ x ∈ [y0, y1], ∀ b ∈ W.D.boundaryfaces, ∀ i < 2, x ≠ (W.D.fnode b).getD i 0 := by
    intro x hx b hb i hi
    simp only [List.mem_cons, List.not_mem_nil, or_false] at hx
    rcases hx with rfl | rfl
    · rw [hy0]; exact hfr' b hb i hi 0 (by omega)
    · rw [hy1]; exact hfr' b hb i hi 1 (by omega)
  rw [← hx0, ← hx1] at pm
  rw [← hy0, ← hy1] at pm'
  have hnv : ∀ x ∈ [x0, x1], ∀ y ∈ [y0, y1], IsTranslate 0 (L 0) (pos m.node x) (pos m.node y) → W.nodeValues v.fields y = W.nodeValues v.fields x := by
    intro x hx y hy ht
    obtain ⟨a1, a2⟩ := hlt x (pm.subset hx)
    obtain ⟨b1, b2⟩ := hlt' y (pm'.subset hy)
    exact node_x hv hr sqrt hs trunc htr hw e ok v a1 b1 a2 b2 ht (hfx x hx) (hfy y hy)
  have hpair : (IsTranslate 0 (L 0) (pos m.node x0) (pos m.node y0) ∧ IsTranslate 0 (L 0) (pos m.node x1) (pos m.node y1)) ∨
      (IsTranslate 0 (L 0) (pos m.node x0) (pos m.node y1) ∧ IsTranslate 0 (L 0) (pos m.node x1) (pos m.node y0)) := by
    have q := pm'.trans hl2.symm
    obtain ⟨a, b, hab⟩ := List.length_eq_two.mp pm.length_eq.symm
    obtain ⟨a', b', hab'⟩ := List.length_eq_two.mp q.length_eq.symm
    rw [hab, hab'] at hfa
    rw [hab] at pm
    rw [hab'] at q
    simp only [List.forall₂_cons, List.forall₂_nil_right_iff, and_true] at hfa
    obtain ⟨ha, hb⟩ := hfa
    rcases perm_two pm with ⟨rfl, rfl⟩ | ⟨rfl, rfl⟩ <;> rcases perm_two q with ⟨rfl, rfl⟩ | ⟨rfl, rfl⟩
    · exact Or.inl ⟨ha, hb⟩
    · exact Or.inr ⟨ha, hb⟩
    · exact Or.inr ⟨hb, ha⟩
    · exact Or.inl ⟨hb, ha⟩
  have hvx : ∀ y < m.nbnodes, ∀ k < 3, W.D.vertex y k = pos m.node y k := by rw [hD]; exact h.vertex
  have lt0 : x0 < m.nbnodes := (hlt x0 (pm.subset (by simp))).1
  have lt1 : x1 < m.nbnodes := (hlt x1 (pm.subset (by simp))).1
  have lt0' : y0 < m.nbnodes := (hlt' y0 (pm'.subset (by simp))).1
  have lt1' : y1 < m.nbnodes := (hlt' y1 (pm'.subset (by simp))).1
  -- both gradients solve the same equations
  have key : ∀ f f' c c' : Nat, AcrossX m serial W f f' c c' →
      IsDiamondGrad2 (Interp.faceGradient2 W.faceTabs (varFaces W.dim W.D bc) v.fields (W.nodeValues v.fields) (fun _ => (0, 0)) f)
        (W.D.vertex ((W.D.fnode f).getD 0 0)) (W.D.vertex ((W.D.fnode f).getD 1 0)) (W.D.center c) (right2 W.faceTabs f)
        (W.nodeValues v.fields ((W.D.fnode f).getD 0 0)) (W.nodeValues v.fields ((W.D.fnode f).getD 1 0)) (v.cell c) (v.cell c') := by
    intro f f' c c' A
    have hair : (Interp.faceGradientInfo2 W.faceTabs f).airDiamond ≠ 0 := by
      have hne := A.fat
      rw [← A.left] at hne
      simp only [Interp.faceGradientInfo2]
      intro h0
      apply hne
      have h1 : 1 / 2 * ((W.D.vertex ((W.D.fnode f).getD 1 0) 0 - W.D.vertex ((W.D.fnode f).getD 0 0) 0) * (right2 W.faceTabs f 1 - W.D.center (idx (W.D.cellid f 0)) 1)
        + (W.D.center (idx (W.D.cellid f 0)) 0 - right2 W.faceTabs f 0) * (W.D.vertex ((W.D.fnode f).getD 1 0) 1 - W.D.vertex ((W.D.fnode f).getD 0 0) 1)) = 0 := h0
      linear_combination 2 * h1
    have := C42_diamond_2d W.faceTabs (varFaces W.dim W.D bc) v.fields (W.nodeValues v.fields) (fun _ => (0, 0)) f .periodic (A.kind bc) hair
    have h2 : IsDiamondGrad2 (Interp.faceGradient2 W.faceTabs (varFaces W.dim W.D bc) v.fields (W.nodeValues v.fields) (fun _ => (0, 0)) f)
        (W.D.vertex ((W.D.fnode f).getD 0 0)) (W.D.vertex ((W.D.fnode f).getD 1 0)) (W.D.center (idx (W.D.cellid f 0))) (right2 W.faceTabs f)
        (W.nodeValues v.fields ((W.D.fnode f).getD 0 0)) (W.nodeValues v.fields ((W.D.fnode f).getD 1 0)) (v.cell (idx (W.D.cellid f 0))) (v.cell (idx (W.D.cellid f 1))) := this
    rw [A.left, A.right] at h2
    exact h2
  have k1 := key f f' c c' A
  have k2 := key f' f c' c A'
  have hgeq : Interp.faceGradient2 W.faceTabs (varFaces W.dim W.D bc) v.fields (W.nodeValues v.fields) (fun _ => (0, 0)) f' =
      Interp.faceGradient2 W.faceTabs (varFaces W.dim W.D bc) v.fields (W.nodeValues v.fields) (fun _ => (0, 0)) f := by
    refine (IsDiamondGrad2.unique k1 ?_ ?_).symm
    · rw [← hx0, ← hx1] at k1 ⊢
      rw [← hy0, ← hy1] at k2
      unfold IsDiamondGrad2 at k2 ⊢
      rw [A'.point 0 (by omega), A'.point 1 (by omega), hvx y0 lt0' 0 (by omega), hvx y0 lt0' 1 (by omega), hvx y1 lt1' 0 (by omega), hvx y1 lt1' 1 (by omega)] at k2
      rw [A.point 0 (by omega), A.point 1 (by omega), hvx x0 lt0 0 (by omega), hvx x0 lt0 1 (by omega), hvx x1 lt1 0 (by omega), hvx x1 lt1 1 (by omega)]
      obtain ⟨e1, e2⟩ := k2
      have m0 : x0 ∈ [x0, x1] := by simp
      have m1 : x1 ∈ [x0, x1] := by simp
      have m0' : y0 ∈ [y0, y1] := by simp
      have m1' : y1 ∈ [y0, y1] := by simp
      rcases hpair with ⟨t1, t2⟩ | ⟨t1, t2⟩
      · rw [hnv x0 m0 y0 m0' t1, hnv x1 m1 y1 m1' t2, t1 0 (by omega), t1 1 (by omega), t2 0 (by omega), t2 1 (by omega)] at e1
        exact ⟨by linear_combination e1, by linear_combination -e2⟩
      · rw [hnv x0 m0 y1 m1' t1, hnv x1 m1 y0 m0' t2, t1 0 (by omega), t1 1 (by omega), t2 0 (by omega), t2 1 (by omega)] at e1
        exact ⟨by linear_combination -e1, by linear_combination -e2⟩
    · have hne := A.fat
      intro h0
      apply hne
      linear_combination h0
  have hg : ∀ k < 3, W.faceGrads bc v.fields (W.nodeValues v.fields) f k = W.faceGrads bc v.fields (W.nodeValues v.fields) f' k := by
    unfold PWorld.faceGrads
    rw [if_pos hW2]
    intro k hk
    interval_cases k
    · exact congrArg Prod.fst hgeq.symm
    · exact congrArg Prod.snd hgeq.symm
    · rfl
  refine ⟨fun k hk => hg k (by omega), ?_⟩
  intro S
  have hnrm := pdom.normal f f' (hd.symm ▸ hp)
  simp only [diffusedIn, diffFlux, List.map_cons, List.map_nil, List.sum_cons, List.sum_nil]
  rw [hnrm 0 (by omega), hnrm 1 (by omega), hnrm 2 (by omega), hg 0 (by omega), hg 1 (by omega), hg 2 (by omega)]
  ring

end
/-! ## Example: the square `[0,3] × [0,3]` cut into eighteen triangles, periodic in `x`, walls at the top and the bottom -/

def bandCell (c j : Nat) : Nat :=
  c / 2 % 3 + 4 * (c / 6) + (if c % 2 = 0 then [0, 1, 4].getD j 0 else [1, 5, 4].getD j 0)
def bandNode (i : Nat) : ℚ × ℚ × ℚ × Nat :=
  (((i % 4 : Nat) : ℚ), ((i / 4 : Nat) : ℚ), 0, if i % 4 = 0 then 11 else if i % 4 = 3 then 22 else if i / 4 = 0 then 4 else if i / 4 = 3 then 3 else 0)
def band : Mesh ℚ := ⟨2, bandCell, bandNode, 16, 18⟩

theorem band_nodup : ∀ c < band.n, (nodesOf band.nodeid (band.dim + 1) c).Nodup := by decide +kernel

theorem band_x : band.Facing 0 11 22 3 := by
  refine FacingCheck.facing (up := fun a => a + 3) (dn := fun a => a - 3) ⟨?_, ?_, ?_, ?_, ?_, ?_⟩ band_nodup <;> decide +kernel

theorem bandValid : band.Valid2 (fun _ => 3) (fun x => x) := by
  have hO := fun {c x l} (h : band.Outer c l x) => outer_side band band_nodup h
  refine ⟨⟨by decide +kernel, by decide +kernel, ?_, band_x, facing_absent _ _ _ _ _ (by decide +kernel) (by decide +kernel), fun h => absurd h (by decide),
    by decide +kernel, ?_, fun _ _ _ _ _ => rfl, fun _ _ _ _ _ _ _ => rfl⟩, rfl, by decide +kernel, ?_⟩
  · intro c l x ho
    obtain ⟨j, hj, hp, hOj⟩ := hO ho
    have D : ∀ c < band.n, ∀ j < band.dim + 1, OuterAt band c j → ∃ s ∈ wallSides band.dim ++ perSides band.dim, band.On s (sdOf band c j) := by decide +kernel
    obtain ⟨s, hs, hon⟩ := D c ho.1 j hj hOj
    exact ⟨s, hs, on_perm hon hp.symm⟩
  · intro c l x c' l' x' ho ho' e
    obtain ⟨j, hj, hp, hOj⟩ := hO ho
    obtain ⟨j', hj', hp', hOj'⟩ := hO ho'
    have D : ∀ c < band.n, ∀ j < band.dim + 1, OuterAt band c j → ∀ c' < band.n, ∀ j' < band.dim + 1, OuterAt band c' j' → SameFace band c j c' j' := by decide +kernel
    exact hp.trans ((D c ho.1 j hj hOj c' ho'.1 j' hj' hOj' (fun k hk => by rw [← centre_perm _ hp, ← centre_perm _ hp', e k hk])).trans hp'.symm)
  · intro c hc c' hc' hne a b x y h1 h2
    have D : ∀ c < 18, ∀ c' < 18, c ≠ c' → ∀ a ∈ nodesOf bandCell 3 c, ∀ b ∈ nodesOf bandCell 3 c, ∀ x ∈ nodesOf bandCell 3 c, [a, b, x].Perm (nodesOf bandCell 3 c) →
      ∀ y ∈ nodesOf bandCell 3 c', [a, b, y].Perm (nodesOf bandCell 3 c') →
      signedArea (pos bandNode a) (pos bandNode b) (pos bandNode x) * signedArea (pos bandNode a) (pos bandNode b) (pos bandNode y) < 0 := by decide +kernel
    exact D c hc c' hc' hne a (h1.subset (by simp)) b (h1.subset (by simp)) x (h1.subset (by simp)) h1 y (h2.subset (by simp)) h2

def bandSerial : RankData ℚ := expected 1 0 (serialWrite bandCell bandNode 16 18 3)
theorem bandRead : band.Read bandSerial := C25_round_trip_serial (K := ℚ) _ _

theorem bandWide : band.WideAt 11 22 := by
  intro c hc a ha
  rw [nextTo_iff _ band_nodup, nextTo_iff _ band_nodup]
  have D : ∀ c < band.n, ∀ a ∈ nodesOf band.nodeid (band.dim + 1) c,
      (labelOf band.node a = 11 → (∃ c₂ < band.n, ∃ j < band.dim + 1, NextAt band 11 c c₂ j) ∧ ¬ ∃ c₂ < band.n, ∃ j < band.dim + 1, NextAt band 22 c c₂ j) ∧
      (labelOf band.node a = 22 → (∃ c₂ < band.n, ∃ j < band.dim + 1, NextAt band 22 c c₂ j) ∧ ¬ ∃ c₂ < band.n, ∃ j < band.dim + 1, NextAt band 11 c c₂ j) := by
    decide +kernel
  exact D c hc a ((mem_nodesOf_uses band c a).mp ha)

/-- The hypotheses of C133 are met by this mesh: the middle face of its side `in` has neither end on a wall. -/
example : ∃ c l x, band.Outer c l x ∧ band.On 11 l ∧ l = [4, 8] ∧ ∀ c' < band.n, ∀ j < band.dim + 1, OuterAt band c' j → ∀ s ∈ wallSides band.dim,
    band.On s (sdOf band c' j) → 4 ∉ sdOf band c' j ∧ 8 ∉ sdOf band c' j :=
  ⟨6, _, _, side_outer band (j := 1) (by decide) (by decide) (by decide +kernel) (List.Perm.refl _), by decide +kernel, by decide +kernel, by decide +kernel⟩
example := C133_partner_nodes_2d_partial bandValid bandRead (fun x => x) (fun x hx => hx.ne') Rat.floor floor_nat bandWide
example := C133_partner_gradients_2d_partial bandValid bandRead (fun x => x) (fun x hx => hx.ne') Rat.floor floor_nat bandWide

end Verif.Props.Par
