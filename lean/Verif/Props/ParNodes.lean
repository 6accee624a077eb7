import Verif.Props.ParRun
import Verif.Props.ParBuild2
import Verif.Props.ParStencil
import Verif.Props.HaloGhost
import Verif.Model.DomainNodes

/-! Helper lemmas for the parallel theorems: the nodes of a rank and of the whole mesh. -/
set_option linter.unusedSectionVars false
set_option linter.unusedVariables false
set_option linter.unusedSimpArgs false
namespace Verif.Props.Par
open Verif.Fvm Verif.Spec Verif.Conn Verif.Dom Verif.Geo Verif.Names Verif.MeshFile Verif.Part Verif.Comm Verif.Run Verif.HaloGhost
variable {K : Type*} [Field K] [LinearOrder K] [IsStrictOrderedRing K]

section
variable {d1 : Nat} {nodeid : Nat → Nat → Nat} {node : Nat → K × K × K × Nat} {cv : Nat → List K} {npart0 epart : Nat → Nat}
  {nbnodes n SIZE : Nat} {data : Nat → RankData K} {serial : RankData K}

/-- The nodes of a rank. -/
theorem Launched.nodes (h : Launched d1 nodeid node cv npart0 epart nbnodes n SIZE data serial) {p : Nat} (hp : p < SIZE) :
    (data p).nodeloctoglob.Nodup ∧ (data p).vertex.length = (data p).nodeloctoglob.length ∧
    ∀ k, k ∈ (data p).nodeloctoglob ↔ ∃ C < n, epart C = p ∧ Uses nodeid d1 C k := by
  have hS1 : ¬ SIZE = 1 := by have := h.hS; omega
  have hD := h.data_eq hp
  have := (C21_node_parts nodeid npart0 epart nbnodes n d1).2 p
  have e1 : (data p).nodeloctoglob = (partition nodeid npart0 epart nbnodes n d1).nodePart p := by
    rw [hD]; simp only [expected, if_neg hS1, rankWrite]
  refine ⟨by rw [e1]; exact this.1, ?_, by rw [e1]; exact this.2⟩
  rw [e1, hD]; simp [expected, rankWrite]

theorem Launched.gOf_inj (h : Launched d1 nodeid node cv npart0 epart nbnodes n SIZE data serial) {p : Nat} (hp : p < SIZE) {i i' : Nat}
    (hi : i < (data p).vertex.length) (hi' : i' < (data p).vertex.length) (e : gOf (data p) i = gOf (data p) i') : i = i' := by
  obtain ⟨nd, hl, _⟩ := h.nodes hp
  rw [hl] at hi hi'
  unfold gOf at e
  rw [List.getD_eq_getElem _ _ hi, List.getD_eq_getElem _ _ hi'] at e
  exact (List.Nodup.getElem_inj_iff nd).mp e

theorem Launched.gOf_mem (h : Launched d1 nodeid node cv npart0 epart nbnodes n SIZE data serial) {p : Nat} (hp : p < SIZE) {i : Nat}
    (hi : i < (data p).vertex.length) : gOf (data p) i ∈ (data p).nodeloctoglob := by
  obtain ⟨nd, hl, _⟩ := h.nodes hp
  rw [hl] at hi
  unfold gOf
  rw [List.getD_eq_getElem _ _ hi]
  exact List.getElem_mem hi

/-- Every node of a rank is a node of one of its cells. -/
theorem Launched.node_used (h : Launched d1 nodeid node cv npart0 epart nbnodes n SIZE data serial) {p : Nat} (hp : p < SIZE) {i : Nat}
    (hi : i < (data p).vertex.length) : ∃ c < (data p).nodeid.length, ∃ j < d1, at2 0 (data p).nodeid c j = i ∧
      nodeid (phi (data p) c) j = gOf (data p) i := by
  obtain ⟨nd, hl, hm⟩ := h.nodes hp
  obtain ⟨C, hC, he, j, hj, hn⟩ := (hm _).mp (h.gOf_mem hp hi)
  obtain ⟨c, hc, e⟩ := h.phi_surj hp C hC he
  refine ⟨c, hc, j, hj, ?_, by rw [e, hn]⟩
  obtain ⟨_, h2, _⟩ := h.local_nodes hp hc hj
  rw [h2, e, hn]
  unfold gOf
  rw [hl] at hi
  rw [List.getD_eq_getElem _ _ hi]
  exact List.Nodup.idxOf_getElem nd i hi

theorem Launched.node_lt (h : Launched d1 nodeid node cv npart0 epart nbnodes n SIZE data serial) {p : Nat} (hp : p < SIZE) {c : Nat}
    (hc : c < (data p).nodeid.length) {j : Nat} (hj : j < d1) : at2 0 (data p).nodeid c j < (data p).vertex.length := by
  obtain ⟨nd, hl, hm⟩ := h.nodes hp
  obtain ⟨_, h2, _⟩ := h.local_nodes hp hc hj
  rw [h2, hl]
  apply List.idxOf_lt_length_iff.mpr
  have := h.phi_lt hp hc
  exact (hm _).mpr ⟨_, this.1, this.2, j, hj, rfl⟩

theorem Launched.gOf_lt (h : Launched d1 nodeid node cv npart0 epart nbnodes n SIZE data serial) {p : Nat} (hp : p < SIZE) {i : Nat}
    (hi : i < (data p).vertex.length) : gOf (data p) i < nbnodes := by
  obtain ⟨c, hc, j, hj, _, e⟩ := h.node_used hp hi
  rw [← e]; exact h.hnode _ (h.phi_lt hp hc).1 j hj

theorem Launched.vertex_eq (h : Launched d1 nodeid node cv npart0 epart nbnodes n SIZE data serial) {p : Nat} (hp : p < SIZE) {i : Nat}
    (hi : i < (data p).vertex.length) : ∀ k < 4, at2 0 (data p).vertex i k = at2 0 serial.vertex (gOf (data p) i) k := by
  obtain ⟨c, hc, j, hj, e1, e2⟩ := h.node_used hp hi
  obtain ⟨_, _, h3⟩ := h.local_nodes hp hc hj
  rw [e1, e2] at h3
  exact h3

/-- A global node of a cell of the rank has a local number. -/
theorem Launched.node_local (h : Launched d1 nodeid node cv npart0 epart nbnodes n SIZE data serial) {p : Nat} (hp : p < SIZE) {C s : Nat}
    (hC : C < n) (he : epart C = p) (hu : Uses nodeid d1 C s) : ∃ i < (data p).vertex.length, gOf (data p) i = s := by
  obtain ⟨nd, hl, hm⟩ := h.nodes hp
  obtain ⟨i, hi, e⟩ := List.mem_iff_getElem.mp ((hm s).mpr ⟨C, hC, he, hu⟩)
  exact ⟨i, by rw [hl]; exact hi, by unfold gOf; rw [List.getD_eq_getElem _ _ hi, e]⟩

/-- The local and the global cells of a node. -/
theorem Launched.uses_iff (h : Launched d1 nodeid node cv npart0 epart nbnodes n SIZE data serial) {p : Nat} (hp : p < SIZE) {c i : Nat}
    (hc : c < (data p).nodeid.length) (hi : i < (data p).vertex.length) :
    Uses (at2 0 (data p).nodeid) d1 c i ↔ Uses nodeid d1 (phi (data p) c) (gOf (data p) i) := by
  constructor
  · rintro ⟨j, hj, e⟩
    exact ⟨j, hj, by rw [← (h.local_nodes hp hc hj).1, e]; rfl⟩
  · rintro ⟨j, hj, e⟩
    refine ⟨j, hj, h.gOf_inj hp (h.node_lt hp hc hj) hi ?_⟩
    rw [← e]; exact (h.local_nodes hp hc hj).1

/-- First column of row `k` of the external halo cells. -/
def ext0 (d : RankData K) (k : Nat) : Nat := (d.halosext.getD k []).getD 0 0

theorem Launched.ext_get (h : Launched d1 nodeid node cv npart0 epart nbnodes n SIZE data serial) {p : Nat} (hp : p < SIZE) {k : Nat}
    (hk : k < (data p).halosext.length) : (data p).halosext[k]? = some (ext0 (data p) k :: (List.range d1).map (nodeid (ext0 (data p) k))) ∧
      ext0 (data p) k < n ∧ epart (ext0 (data p) k) ≠ p := by
  have hm := List.getElem_mem hk
  obtain ⟨c, e, hc, he, _⟩ := (h.ext_rows hp _).mp hm
  have e0 : ext0 (data p) k = c := by
    unfold ext0; rw [List.getD_eq_getElem _ _ hk, e]; rfl
  rw [e0, List.getElem?_eq_getElem hk, e]
  exact ⟨rfl, hc, he⟩

/-- A halo cell is received once. -/
theorem Launched.ext_inj (h : Launched d1 nodeid node cv npart0 epart nbnodes n SIZE data serial) {p : Nat} (hp : p < SIZE) {k k' : Nat}
    (hk : k < (data p).halosext.length) (hk' : k' < (data p).halosext.length) (e : ext0 (data p) k = ext0 (data p) k') : k = k' := by
  have hS1 : ¬ SIZE = 1 := by have := h.hS; omega
  obtain ⟨cells, hcells, hnd⟩ : ∃ cells : List Nat, (data p).halosext = cells.map (fun c => c :: (List.range d1).map (nodeid c)) ∧ cells.Nodup := by
    obtain ⟨P, hP⟩ : ∃ P, P = partition nodeid npart0 epart nbnodes n d1 := ⟨_, rfl⟩
    refine ⟨(P.neighsub p).flatMap (fun q => (halos P.cpart P.haloCell SIZE).2 p q), ?_, ?_⟩
    · rw [h.data_eq hp]; simp only [expected, if_neg hS1, rankWrite, ← hP, List.map_flatMap]
    · have hl : ∀ q ∈ P.neighsub p, Lists ((halos P.cpart P.haloCell SIZE).2 p q) (fun c => c < n ∧ epart c = q ∧
          ∃ k, Uses nodeid d1 c k ∧ NodeIn nodeid npart0 epart n d1 p k) := by
        intro q hq
        rw [hP] at hq ⊢
        have hne := ((C22_neighbours nodeid npart0 epart nbnodes n d1 p).2 q).mp hq
        obtain ⟨a, b⟩ := C24_send_receive nodeid npart0 epart nbnodes n d1 SIZE q p h.hd (h.neigh_lt p q hq)
        rw [← a]; exact b hne.1
      rw [List.nodup_flatMap]
      refine ⟨fun q hq => (hl q hq).1.imp (fun hab => Nat.ne_of_lt hab), ?_⟩
      have hnn : (P.neighsub p).Pairwise (· < ·) := by rw [hP]; exact (C22_neighbours nodeid npart0 epart nbnodes n d1 p).1
      refine (List.Pairwise.imp_of_mem ?_ hnn)
      intro a b ha hb hab c hca hcb
      have x1 := (((hl a ha).2 c).mp hca).2.1
      have x2 := (((hl b hb).2 c).mp hcb).2.1
      omega
  have hlen : (data p).halosext.length = cells.length := by rw [hcells, List.length_map]
  have he0 : ∀ k, (hk : k < cells.length) → ext0 (data p) k = cells[k] := by
    intro k hk
    unfold ext0
    rw [hcells]; simp [List.getD, hk]
  rw [he0 k (by omega), he0 k' (by omega)] at e
  exact (List.Nodup.getElem_inj_iff hnd).mp e

/-- A cell of another subdomain with a node in the rank is a halo cell of it. -/
theorem Launched.ext_surj (h : Launched d1 nodeid node cv npart0 epart nbnodes n SIZE data serial) {p : Nat} (hp : p < SIZE) {E i : Nat}
    (hE : E < n) (he : epart E ≠ p) (hi : i < (data p).vertex.length) (hu : Uses nodeid d1 E (gOf (data p) i)) :
    ∃ k < (data p).halosext.length, ext0 (data p) k = E := by
  obtain ⟨nd, hl, hm⟩ := h.nodes hp
  obtain ⟨C, hC, hCe, hCu⟩ := (hm _).mp (h.gOf_mem hp hi)
  have := (h.ext_rows hp (E :: (List.range d1).map (nodeid E))).mpr ⟨E, rfl, hE, he, _, hu, Or.inr ⟨C, hC, hCe, hCu⟩⟩
  obtain ⟨k, hk, e⟩ := List.mem_iff_getElem.mp this
  refine ⟨k, hk, ?_⟩
  unfold ext0; rw [List.getD_eq_getElem _ _ hk, e]; rfl

end

/-- The tables of all ranks and of the serial run, as far as nodes are concerned. -/
structure NodePair (dim : Nat) (nodeid : Nat → Nat → Nat) (node : Nat → K × K × K × Nat) (cv : Nat → List K) (npart0 epart : Nat → Nat)
    (nbnodes n SIZE : Nat) (data : Nat → RankData K) (serial : RankData K) (L : Nat → Tables K) (G : Tables K) (B : List Int)
    (out : Nat → Nat → Vec K) (trunc : K → Int) : Prop where
  run : RunPair dim SIZE n epart data L G B out
  hl : Launched (dim + 1) nodeid node cv npart0 epart nbnodes n SIZE data serial
  distinct : DistinctRows nodeid (dim + 1) n
  cnodeL : ∀ p < SIZE, ∀ c < (L p).nbcells, ((List.range (dim + 1)).map ((L p).cnode c)).Perm ((List.range (dim + 1)).map (at2 0 (data p).nodeid c))
  cnodeG : ∀ C < n, ((List.range (dim + 1)).map (G.cnode C)).Perm ((List.range (dim + 1)).map (nodeid C))
  nbL : ∀ p < SIZE, (L p).nbnodes = (data p).vertex.length
  nbG : G.nbnodes = nbnodes
  nbGs : serial.vertex.length = nbnodes
  vertexL : ∀ p < SIZE, (L p).vertex = at2 0 (data p).vertex
  vertexG : G.vertex = at2 0 serial.vertex
  oldnameL : ∀ p < SIZE, ∀ i, (L p).oldname i = trunc ((L p).vertex i 3)
  oldnameG : ∀ i, G.oldname i = trunc (G.vertex i 3)
  sameFace : ∀ p < SIZE, ∀ c < (L p).nbcells, ∀ j < dim + 1,
    SameFace (data p).nodeloctoglob ((L p).fnode ((L p).faceid c j)) (G.fnode (G.faceid (phi (data p) c) j))
  fnodeL : ∀ p < SIZE, ∀ c < (L p).nbcells, ∀ j < dim + 1, ∀ x ∈ (L p).fnode ((L p).faceid c j), ∃ i < dim + 1, at2 0 (data p).nodeid c i = x
  fnodeG : ∀ C < n, ∀ j < dim + 1, (G.fnode (G.faceid C j)).Nodup ∧ (G.fnode (G.faceid C j)).length = dim ∧
    ∀ x ∈ G.fnode (G.faceid C j), Uses nodeid (dim + 1) C x
  faceG : ∀ C < n, ∀ f : List Nat, f.Nodup → f.length = dim → (∀ x ∈ f, Uses nodeid (dim + 1) C x) →
    ∃ j < dim + 1, f.Perm (G.fnode (G.faceid C j))
  faceG_eq : ∀ C < n, ∀ C' < n, ∀ j < dim + 1, ∀ j' < dim + 1, (G.fnode (G.faceid C j)).Perm (G.fnode (G.faceid C' j')) →
    G.faceid C j = G.faceid C' j'
  mark : ∀ p < SIZE, ∀ c < (L p).nbcells, ∀ j < dim + 1, (∃ E < n, epart E ≠ p ∧ Uses G.faceid (dim + 1) E (G.faceid (phi (data p) c) j)) →
    ∀ i ∈ (L p).fnode ((L p).faceid c j), (L p).nodename i = 10
  ghostPt : ∀ p < SIZE, ∀ c < (L p).nbcells, ∀ j < dim + 1, (L p).faceid c j ∈ (L p).boundaryfaces →
    ghostPoint dim (L p) ((L p).faceid c j) = ghostPoint dim G (G.faceid (phi (data p) c) j)
  labelG : ∀ F ∈ G.boundaryfaces, ∀ s ∈ G.fnode F, G.oldname s ∈ B
  hBe : B = if dim = 2 then [1, 2, 3, 4] else [1, 2, 3, 4, 5, 6]

section
variable {dim : Nat} {nodeid : Nat → Nat → Nat} {node : Nat → K × K × K × Nat} {cv : Nat → List K} {npart0 epart : Nat → Nat}
  {nbnodes n SIZE : Nat} {data : Nat → RankData K} {serial : RankData K} {L : Nat → Tables K} {G : Tables K} {B : List Int}
  {out : Nat → Nat → Vec K} {trunc : K → Int}

theorem uses_of_perm {t t' : Nat → Nat → Nat} {d c : Nat} (h : ((List.range d).map (t c)).Perm ((List.range d).map (t' c))) (x : Nat) :
    Uses t d c x ↔ Uses t' d c x := by
  have := h.mem_iff (a := x)
  simpa [Uses] using this

theorem distinct_of_perm {t t' : Nat → Nat → Nat} {d n : Nat} (h : ∀ c < n, ((List.range d).map (t c)).Perm ((List.range d).map (t' c)))
    (hd : DistinctRows t' d n) : DistinctRows t d n := by
  intro c hc j hj j' hj' e
  have hn : ((List.range d).map (t c)).Nodup := by
    rw [(h c hc).nodup_iff]
    refine List.Nodup.map_on ?_ List.nodup_range
    intro a ha b hb
    exact hd c hc a (List.mem_range.mp ha) b (List.mem_range.mp hb)
  exact List.inj_on_of_nodup_map hn (List.mem_range.mpr hj) (List.mem_range.mpr hj') e

theorem NodePair.nL (h : NodePair dim nodeid node cv npart0 epart nbnodes n SIZE data serial L G B out trunc) {p : Nat} (hp : p < SIZE) :
    (L p).nbcells = (data p).nodeid.length := by
  rw [h.run.len p hp, (h.hl.cells hp).2]

theorem NodePair.usesL (h : NodePair dim nodeid node cv npart0 epart nbnodes n SIZE data serial L G B out trunc) {p : Nat} (hp : p < SIZE)
    {c i : Nat} (hc : c < (L p).nbcells) (hi : i < (L p).nbnodes) :
    Uses (L p).cnode (dim + 1) c i ↔ Uses nodeid (dim + 1) (phi (data p) c) (gOf (data p) i) := by
  rw [uses_of_perm (h.cnodeL p hp c hc)]
  exact h.hl.uses_iff hp (by rw [← h.nL hp]; exact hc) (by rw [← h.nbL p hp]; exact hi)

theorem NodePair.usersG (h : NodePair dim nodeid node cv npart0 epart nbnodes n SIZE data serial L G B out trunc) (s : Nat) :
    users G.cnode (dim + 1) G.nbcells s = users nodeid (dim + 1) n s := by
  unfold users
  rw [h.run.nG]
  apply List.filter_congr
  intro C hC
  exact decide_eq_decide.mpr (uses_of_perm (h.cnodeG C (List.mem_range.mp hC)) s)

theorem chain_step {α : Type*} {r : α → α → Prop} (P : α → Prop) {a b : α} (h : Relation.ReflTransGen r a b) (ha : P a) (hb : ¬ P b) :
    ∃ x y, r x y ∧ P x ∧ ¬ P y := by
  induction h with
  | refl => exact absurd ha hb
  | @tail x y hx hxy ih =>
    by_cases hPx : P x
    · exact ⟨x, y, hxy, hPx, hb⟩
    · exact ih hPx

/-- A node shared with another subdomain is named 10. -/
theorem NodePair.named (h : NodePair dim nodeid node cv npart0 epart nbnodes n SIZE data serial L G B out trunc)
    (star : StarConnected dim nodeid n) {p : Nat} (hp : p < SIZE) {i : Nat} (hi : i < (L p).nbnodes) {E : Nat} (hE : E < n)
    (he : epart E ≠ p) (hu : Uses nodeid (dim + 1) E (gOf (data p) i)) : (L p).nodename i = 10 := by
  rw [h.nbL p hp] at hi
  obtain ⟨c, hc, j, hj, _, e⟩ := h.hl.node_used hp hi
  have hcp := h.hl.phi_lt hp hc
  obtain ⟨X, Y, ⟨hX, hY, f, f1, f2, f3, f4⟩, pX, pY⟩ := chain_step (fun C => epart C = p) (star _ _ hcp.1 E hE ⟨j, hj, e⟩ hu) hcp.2 he
  obtain ⟨jx, hjx, px⟩ := h.faceG X hX f f2 f1 (fun x hx => (f4 x hx).1)
  obtain ⟨jy, hjy, py⟩ := h.faceG Y hY f f2 f1 (fun x hx => (f4 x hx).2)
  obtain ⟨x, hx, rfl⟩ := h.hl.phi_surj hp X hX pX
  rw [← h.nL hp] at hx
  have hsame := h.faceG_eq _ hX _ hY jx hjx jy hjy (px.symm.trans py)
  have hs := h.sameFace p hp x hx jx hjx
  unfold SameFace at hs
  have hm : gOf (data p) i ∈ ((L p).fnode ((L p).faceid x jx)).map (gOf (data p)) := hs.symm.subset (px.subset f3)
  obtain ⟨i', hi', e'⟩ := List.mem_map.mp hm
  obtain ⟨k, hk, ek⟩ := h.fnodeL p hp x hx jx hjx i' hi'
  have hlt : i' < (data p).vertex.length := by rw [← ek]; exact h.hl.node_lt hp (by rw [← h.nL hp]; exact hx) hk
  obtain rfl := h.hl.gOf_inj hp hlt hi e'
  exact h.mark p hp x hx jx hjx ⟨Y, hY, pY, jy, hjy, hsame.symm⟩ i' hi'

theorem NodePair.haloidn_eq (h : NodePair dim nodeid node cv npart0 epart nbnodes n SIZE data serial L G B out trunc)
    (star : StarConnected dim nodeid n) {p : Nat} (hp : p < SIZE) {i : Nat} (hi : i < (L p).nbnodes) :
    Lists (haloidn SIZE (data p) (L p) i) (fun k => k < (data p).halosext.length ∧ Uses nodeid (dim + 1) (ext0 (data p) k) (gOf (data p) i)) := by
  have hnd : ∀ r ∈ (data p).halosext, r.tail.Nodup := by
    intro r hr
    obtain ⟨c, rfl, hc, _⟩ := (h.hl.ext_rows hp r).mp hr
    refine List.Nodup.map_on ?_ List.nodup_range
    intro a ha b hb
    exact h.distinct c hc a (List.mem_range.mp ha) b (List.mem_range.mp hb)
  have hL := C27_halo_cells_of_node (data p).halosext hnd (gOf (data p) i)
  have hiff : ∀ k, (∃ row, (data p).halosext[k]? = some row ∧ gOf (data p) i ∈ row.tail) ↔
      (k < (data p).halosext.length ∧ Uses nodeid (dim + 1) (ext0 (data p) k) (gOf (data p) i)) := by
    intro k
    constructor
    · rintro ⟨row, hr, hm⟩
      obtain ⟨hk, _⟩ := List.getElem?_eq_some_iff.mp hr
      refine ⟨hk, ?_⟩
      rw [(h.hl.ext_get hp hk).1] at hr
      cases hr
      simpa [Uses] using hm
    · rintro ⟨hk, hu⟩
      refine ⟨_, (h.hl.ext_get hp hk).1, ?_⟩
      simpa [Uses] using hu
  unfold haloidn
  rw [if_pos h.hl.hS]
  by_cases hnm : (L p).nodename i = 10
  · rw [if_pos hnm]
    exact ⟨hL.1, fun k => (hL.2 k).trans (hiff k)⟩
  · rw [if_neg hnm]
    refine ⟨List.Pairwise.nil, fun k => ?_⟩
    simp only [List.not_mem_nil, false_iff]
    rintro ⟨hk, hu⟩
    obtain ⟨_, h2, h3⟩ := h.hl.ext_get hp hk
    exact hnm (h.named star hp hi h2 h3 hu)

/-- The cells around a node: the local ones and the halo cells are the cells of the whole mesh. -/
theorem NodePair.cells_at_node (h : NodePair dim nodeid node cv npart0 epart nbnodes n SIZE data serial L G B out trunc)
    (star : StarConnected dim nodeid n) {p : Nat} (hp : p < SIZE) {i : Nat} (hi : i < (L p).nbnodes) :
    ((users (L p).cnode (dim + 1) (L p).nbcells i).map (phi (data p)) ++ (haloidn SIZE (data p) (L p) i).map (ext0 (data p))).Perm
      (users nodeid (dim + 1) n (gOf (data p) i)) := by
  have hh := h.haloidn_eq star hp hi
  have mu : ∀ (t : Nat → Nat → Nat) (m x c : Nat), c ∈ users t (dim + 1) m x ↔ c < m ∧ Uses t (dim + 1) c x := fun t m x c => mem_users _ _ _ _ _
  have hi' := hi
  rw [h.nbL p hp] at hi'
  rw [List.perm_ext_iff_of_nodup]
  · intro C
    simp only [List.mem_append, List.mem_map, mu, hh.2]
    constructor
    · rintro (⟨c, ⟨hc, hu⟩, rfl⟩ | ⟨k, ⟨hk, hu⟩, rfl⟩)
      · exact ⟨(h.hl.phi_lt hp (by rw [← h.nL hp]; exact hc)).1, (h.usesL hp hc hi).mp hu⟩
      · exact ⟨(h.hl.ext_get hp hk).2.1, hu⟩
    · rintro ⟨hC, hu⟩
      by_cases he : epart C = p
      · obtain ⟨c, hc, rfl⟩ := h.hl.phi_surj hp C hC he
        rw [← h.nL hp] at hc
        exact Or.inl ⟨c, ⟨hc, (h.usesL hp hc hi).mpr hu⟩, rfl⟩
      · obtain ⟨k, hk, rfl⟩ := h.hl.ext_surj hp hC he hi' hu
        exact Or.inr ⟨k, ⟨hk, hu⟩, rfl⟩
  · rw [List.nodup_append]
    refine ⟨?_, ?_, ?_⟩
    · refine List.Nodup.map_on ?_ (List.nodup_range.filter _)
      intro a ha b hb e
      exact (h.run.rank p hp).sub.inj ((mu _ _ _ _).mp ha).1 ((mu _ _ _ _).mp hb).1 e
    · refine List.Nodup.map_on ?_ (hh.1.imp (fun hab => Nat.ne_of_lt hab))
      intro a ha b hb e
      exact h.hl.ext_inj hp ((hh.2 a).mp ha).1 ((hh.2 b).mp hb).1 e
    · intro a ha b hb e
      obtain ⟨c, hc, rfl⟩ := List.mem_map.mp ha
      obtain ⟨k, hk, rfl⟩ := List.mem_map.mp hb
      have h1 := (h.hl.phi_lt hp (by rw [← h.nL hp]; exact ((mu _ _ _ _).mp hc).1)).2
      have h2 := (h.hl.ext_get hp ((hh.2 k).mp hk).1).2.2
      rw [e] at h1
      exact h2 h1
  · exact List.nodup_range.filter _

end
end Verif.Props.Par
