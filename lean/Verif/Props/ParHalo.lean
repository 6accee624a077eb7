import Verif.Props.ParGhosts

/-! Helper lemmas for the parallel theorems: the exchanged ghosts of a rank and the values stored for them. -/
set_option linter.unusedSectionVars false
set_option linter.unusedVariables false
set_option linter.unusedSimpArgs false
namespace Verif.Props.Par
open Verif.Fvm Verif.Spec Verif.Conn Verif.Dom Verif.Geo Verif.Names Verif.MeshFile Verif.Part Verif.Comm Verif.Run Verif.HaloGhost
variable {K : Type*} [Field K] [LinearOrder K] [IsStrictOrderedRing K]

section
variable {dim : Nat} {nodeid : Nat → Nat → Nat} {node : Nat → K × K × K × Nat} {cv : Nat → List K} {npart0 epart : Nat → Nat}
  {nbnodes n SIZE : Nat} {data : Nat → RankData K} {serial : RankData K} {L : Nat → Tables K} {G : Tables K} {B : List Int}
  {out : Nat → Nat → Vec K} {trunc : K → Int}

theorem NodePair.domGhosts_at (h : NodePair dim nodeid node cv npart0 epart nbnodes n SIZE data serial L G B out trunc) {p : Nat} (hp : p < SIZE)
    (i : Nat) : (domGhosts dim (L p)).1 i = (bf (L p) i).map (rowOf dim (L p)) ∧ (domGhosts dim (L p)).2 i = (bf (L p) i).map (faceInfo dim (L p)) :=
  domGhosts_eq h.run.hd h.hBe (L p) (fun f hf => h.nameL_cases hp hf) (fun f => (h.run.rank p hp).cL.bnd.2 f) (fun f hf => h.fnodeL_ok hp hf) i

theorem NodePair.domGhosts_atG (h : NodePair dim nodeid node cv npart0 epart nbnodes n SIZE data serial L G B out trunc)
    (i : Nat) : (domGhosts dim G).1 i = (bf G i).map (rowOf dim G) ∧ (domGhosts dim G).2 i = (bf G i).map (faceInfo dim G) := by
  have h0 : 0 < SIZE := by have := h.run.hS; omega
  exact domGhosts_eq h.run.hd h.hBe G (fun f hf => (h.nameG_cases hf).imp id Or.inr) (fun f => (h.run.rank 0 h0).cG.bnd.2 f)
    (fun f hf => h.fnodeG_ok hf) i

/-- A remote ghost cell from the pair (rank, face). -/
def remOf (dim : Nat) (L : Nat → Tables K) (e : Nat × Nat) : Remote K := ⟨e.1, rowOf dim (L e.1) e.2, faceInfo dim (L e.1) e.2⟩

theorem NodePair.remote_eq (h : NodePair dim nodeid node cv npart0 epart nbnodes n SIZE data serial L G B out trunc) (p s : Nat) :
    remoteGhosts SIZE (fun q => domRankGhost dim (data q) (L q)) p s = (remPairs SIZE data L p s).map (remOf dim L) := by
  unfold remoteGhosts remPairs
  rw [List.map_flatMap]
  apply List.flatMap_congr
  intro q hq
  have hq := List.mem_range.mp hq
  split_ifs with hqp
  · rfl
  rw [List.map_flatMap, h.nbL q hq]
  apply List.flatMap_congr
  intro j hj
  show (if gOf (data q) j = s then _ else _) = _
  split_ifs with hg
  · show List.map _ (((domGhosts dim (L q)).1 j).zip ((domGhosts dim (L q)).2 j)) = _
    obtain ⟨e1, e2⟩ := h.domGhosts_at hq j
    rw [e1, e2, List.zip_map', List.map_map, List.map_map]
    rfl
  · rfl

theorem Launched.row_len {d1 : Nat} (h : Launched d1 nodeid node cv npart0 epart nbnodes n SIZE data serial) {p : Nat} (hp : p < SIZE) {c : Nat}
    (hc : c < (data p).nodeid.length) : ((data p).nodeid[c]).length = d1 := by
  have hD := h.data_eq hp
  obtain ⟨P, hP⟩ : ∃ P, P = partition nodeid npart0 epart nbnodes n d1 := ⟨_, rfl⟩
  have : ∀ row ∈ (data p).nodeid, row.length = d1 := by
    rw [hD]; simp only [expected, rankWrite, ← hP, List.mem_map]
    rintro row ⟨C, _, rfl⟩
    simp
  exact this _ (List.getElem_mem hc)

theorem NodePair.haloCell_lt (h : NodePair dim nodeid node cv npart0 epart nbnodes n SIZE data serial L G B out trunc) {p : Nat} (hp : p < SIZE)
    {s k : Nat} (hk : k ∈ haloCellsOfNode (data p).halosext s) : k < (data p).halosext.length := by
  have hnd : ∀ r ∈ (data p).halosext, r.tail.Nodup := by
    intro r hr
    obtain ⟨c, rfl, hc, _⟩ := (h.hl.ext_rows hp r).mp hr
    refine List.Nodup.map_on ?_ List.nodup_range
    intro a ha b hb
    exact h.distinct c hc a (List.mem_range.mp ha) b (List.mem_range.mp hb)
  obtain ⟨row, hr, _⟩ := ((C27_halo_cells_of_node (data p).halosext hnd s).2 k).mp hk
  exact (List.getElem?_eq_some_iff.mp hr).1

theorem NodePair.agree (h : NodePair dim nodeid node cv npart0 epart nbnodes n SIZE data serial L G B out trunc) :
    GhostAgree SIZE (fun q => domRankGhost dim (data q) (L q))
      (fun g => ((List.range nbnodes).map (partition nodeid npart0 epart nbnodes n (dim + 1)).npart).getD g []) := by
  refine C65_partitioned_mesh nodeid node cv npart0 epart nbnodes n (dim + 1) SIZE h.hl.hd h.hl.hS h.hl.he ?_ h.hl.hnode _ _
    ⟨fun p hp => rfl, rfl⟩ data h.hl.hdata (fun p => (L p).nodename) (bndOf dim) (fun p => (L p).name) (fun p f => (L p).cellid f 0)
    (fun p => ghostNodes dim (L p)) (fun p => ghostPoint dim (L p)) (fun p => faceInfo dim (L p)) (fun p => (L p).nbfaces) ?_
  · intro k hk
    obtain ⟨i, hi, j, hj, rfl⟩ := h.hl.hused k hk
    obtain ⟨i', hi', e, _⟩ := h.hl.hok i hi j hj
    rw [← e]; exact h.hl.he i' hi'
  · intro p hp f hf
    have hperm := ghostNodes_perm h.run.hd (L p) f (h.fnodeL_ok hp hf).2
    refine ⟨hperm.nodup_iff.mpr (h.fnodeL_ok hp hf).1, fun hb => ?_⟩
    rw [bndOf_iff h.run.hd h.hBe _ (h.nameL_cases hp hf)] at hb
    have r := h.run.rank p hp
    have hbf : f ∈ (L p).boundaryfaces := (r.cL.bnd.2 f).mpr ⟨hf, hb⟩
    obtain ⟨c, hc, j, hj, rfl⟩ := r.cL.fsurj f hf
    obtain ⟨_, _, c0, _⟩ := r.boundary hc hj hbf
    have hcl : c < (data p).nodeid.length := by rw [← h.nL hp]; exact hc
    refine ⟨(data p).nodeid[c], by rw [c0]; simp [hcl], fun m hm => ?_⟩
    obtain ⟨k, hk, ek⟩ := h.fnodeL p hp c hc j hj m (hperm.subset hm)
    rw [← ek]
    have hlen := h.hl.row_len hp hcl
    unfold at2
    rw [List.getD_eq_getElem _ _ hcl, List.getD_eq_getElem _ _ (by rw [hlen]; exact hk)]
    exact List.getElem_mem _

/-- What rank `p` holds after the exchange of the ghost cells. -/
structure HGSpec (dim SIZE : Nat) (data : Nat → RankData K) (L : Nat → Tables K) (p : Nat) (hg : HGResult K) (rows : Nat → List (GRow K)) : Prop where
  own : ∀ i < (L p).nbnodes, ∃ m, hg.ghosts i = (bf (L p) i).map (rowOf dim (L p)) ++ List.replicate m (HaloGhost.padRow dim)
  halo : ∀ i ∈ halonodes (L p), ∃ m, hg.haloghosts i = rows i ++ List.replicate m (HaloGhost.padRow dim) ∧
    hg.haloinfo i = (remPairs SIZE data L p (gOf (data p) i)).map (fun e => faceInfo dim (L e.1) e.2) ++ List.replicate m (List.replicate (2 * dim) (-1))
  desc : ∀ i ∈ halonodes (L p), List.Forall₂ (fun r e => r.pt = ghostPoint dim (L e.1) e.2 ∧ r.name = (L e.1).name e.2 ∧ r.last ≠ -1 ∧
    ∃ k : Nat, r.cell = (k : Int) ∧ k < (data p).halosext.length ∧ ext0 (data p) k = phi (data e.1) ((L e.1).cellid e.2 0).toNat)
    (rows i) (remPairs SIZE data L p (gOf (data p) i))
  other : ∀ i < (L p).nbnodes, i ∉ halonodes (L p) → ∃ m, hg.haloghosts i = List.replicate m (HaloGhost.padRow dim)
  slots : (halonodes (L p)).flatMap (fun i => (rows i).map (·.last)) = (List.range hg.size).map (fun (x : Nat) => (x : Int))

theorem forall2_left {α β : Type*} {R : α → β → Prop} {l : List α} {l' : List β} (h : List.Forall₂ R l l') {x : α} (hx : x ∈ l) :
    ∃ y ∈ l', R x y := by
  induction h with
  | nil => simp at hx
  | cons h1 h2 ih =>
    rcases List.mem_cons.mp hx with rfl | hx
    · exact ⟨_, List.mem_cons_self, h1⟩
    · obtain ⟨y, hy, r⟩ := ih hx; exact ⟨y, List.mem_cons_of_mem _ hy, r⟩

theorem NodePair.haloGhosts_ok (h : NodePair dim nodeid node cv npart0 epart nbnodes n SIZE data serial L G B out trunc) {p : Nat} (hp : p < SIZE) :
    ∃ hg rows, haloGhosts dim SIZE data L p = some hg ∧ HGSpec dim SIZE data L p hg rows := by
  obtain ⟨hg, e, h1, h2, _, _, h3, h4⟩ := C65_ghost_exchange dim (2 * dim) SIZE h.run.hS _ _ h.agree p hp
  have hhn : (domRankGhost dim (data p) (L p)).halonodes = halonodes (L p) := by
    unfold halonodes; rw [h.nbL p hp]; rfl
  have hnb : (domRankGhost dim (data p) (L p)).nbnodes = (L p).nbnodes := (h.nbL p hp).symm
  have hg0 : ∀ i, (domRankGhost dim (data p) (L p)).gnode i = gOf (data p) i := fun i => rfl
  simp only [hhn, hnb, hg0] at h1 h2 h3 h4
  have hch : ∀ i, ∃ rows : List (GRow K), i ∈ halonodes (L p) → ∃ m, hg.haloghosts i = rows ++ List.replicate m (HaloGhost.padRow dim) ∧
      List.Forall₂ (Describes (fun q => domRankGhost dim (data q) (L q)) p) rows
        (remoteGhosts SIZE (fun q => domRankGhost dim (data q) (L q)) p (gOf (data p) i)) ∧
      hg.haloinfo i = (remoteGhosts SIZE (fun q => domRankGhost dim (data q) (L q)) p (gOf (data p) i)).map (·.info)
        ++ List.replicate m (List.replicate (2 * dim) (-1)) := by
    intro i
    by_cases hi : i ∈ halonodes (L p)
    · obtain ⟨rows, m, hh⟩ := h1 i hi
      exact ⟨rows, fun _ => ⟨m, hh⟩⟩
    · exact ⟨[], fun x => absurd x hi⟩
  choose rows hrows using hch
  refine ⟨hg, rows, e, ?_, ?_, ?_, ?_, ?_⟩
  · intro i hi
    obtain ⟨m, e1, _⟩ := h3 i hi
    exact ⟨m, by rw [e1, ← (h.domGhosts_at hp i).1]; rfl⟩
  · intro i hi
    obtain ⟨m, e1, _, e3⟩ := hrows i hi
    refine ⟨m, e1, ?_⟩
    rw [e3, h.remote_eq, List.map_map]; rfl
  · intro i hi
    obtain ⟨m, e1, e2, _⟩ := hrows i hi
    rw [h.remote_eq, List.forall₂_map_right_iff] at e2
    refine e2.imp ?_
    rintro r ⟨q, f⟩ ⟨a1, a2, a3, k, a4, ⟨i', hi', hk⟩, a5⟩
    refine ⟨a1, a2, a3, k, a4, ?_, a5⟩
    rw [hhn] at hi'
    have hn : (L p).nodename i' = 10 := by
      have := (List.mem_filter.mp hi').2; simpa using this
    have hk' : k ∈ haloCellsOfNode (data p).halosext ((data p).nodeloctoglob.getD i' 0) := by
      have : k ∈ (if (L p).nodename i' = 10 then haloCellsOfNode (data p).halosext ((data p).nodeloctoglob.getD i' 0) else []) := hk
      rw [if_pos hn] at this
      exact this
    exact h.haloCell_lt hp hk'
  · intro i hi hni
    exact h2 i hi hni
  · rw [← h4]
    apply List.flatMap_congr
    intro i hi
    obtain ⟨m, e1, e2, _⟩ := hrows i hi
    rw [e1, List.filter_append, List.filter_eq_self.mpr, List.filter_eq_nil_iff.mpr, List.append_nil]
    · intro r hr
      rw [(List.mem_replicate.mp hr).2]; simp [HaloGhost.padRow]
    · intro r hr
      obtain ⟨x, _, hx⟩ := forall2_left e2 hr
      simpa using hx.2.2.1

end
end Verif.Props.Par
