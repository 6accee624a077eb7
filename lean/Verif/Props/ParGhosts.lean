import Verif.Props.ParNodes

/-! Helper lemmas for the parallel theorems: the ghost cells around a node. -/
set_option linter.unusedSectionVars false
set_option linter.unusedVariables false
set_option linter.unusedSimpArgs false
namespace Verif.Props.Par
open Verif.Fvm Verif.Spec Verif.Conn Verif.Dom Verif.Geo Verif.Names Verif.MeshFile Verif.Part Verif.Comm Verif.Run Verif.HaloGhost
variable {K : Type*} [Field K] [LinearOrder K] [IsStrictOrderedRing K]

/-- The boundary faces with node `i`, in the order of the faces. -/
def bf (D : Tables K) (i : Nat) : List Nat := (List.range D.nbfaces).filter (fun f => f ∈ D.boundaryfaces ∧ i ∈ D.fnode f)

theorem mem_bf (D : Tables K) (i f : Nat) : f ∈ bf D i ↔ f < D.nbfaces ∧ f ∈ D.boundaryfaces ∧ i ∈ D.fnode f := by
  unfold bf; simp

theorem nodup_bf (D : Tables K) (i : Nat) : (bf D i).Nodup := List.nodup_range.filter _

section
variable {dim : Nat} {nodeid : Nat → Nat → Nat} {node : Nat → K × K × K × Nat} {cv : Nat → List K} {npart0 epart : Nat → Nat}
  {nbnodes n SIZE : Nat} {data : Nat → RankData K} {serial : RankData K} {L : Nat → Tables K} {G : Tables K} {B : List Int}
  {out : Nat → Nat → Vec K} {trunc : K → Int}

/-- The face of the whole mesh corresponding to a face of the rank. -/
theorem NodePair.exists_gamma (h : NodePair dim nodeid node cv npart0 epart nbnodes n SIZE data serial L G B out trunc) :
    ∃ γ : Nat → Nat → Nat, ∀ p < SIZE, ∀ c < (L p).nbcells, ∀ j < dim + 1, γ p ((L p).faceid c j) = G.faceid (phi (data p) c) j := by
  classical
  refine ⟨fun p f => if hx : ∃ F, ∃ c < (L p).nbcells, ∃ j < dim + 1, (L p).faceid c j = f ∧ G.faceid (phi (data p) c) j = F then hx.choose else 0, ?_⟩
  intro p hp c hc j hj
  have hx : ∃ F, ∃ c' < (L p).nbcells, ∃ j' < dim + 1, (L p).faceid c' j' = (L p).faceid c j ∧ G.faceid (phi (data p) c') j' = F :=
    ⟨_, c, hc, j, hj, rfl, rfl⟩
  dsimp only
  rw [dif_pos hx]
  obtain ⟨c', hc', j', hj', e1, e2⟩ := hx.choose_spec
  rw [← e2]
  exact ((h.run.rank p hp).sub.same c' hc' c hc j' hj' j hj).mp e1

/-- Names of the faces of a rank. -/
theorem NodePair.nameL_cases (h : NodePair dim nodeid node cv npart0 epart nbnodes n SIZE data serial L G B out trunc) {p : Nat} (hp : p < SIZE)
    {f : Nat} (hf : f < (L p).nbfaces) : (L p).name f = 0 ∨ (L p).name f = 10 ∨ (L p).name f ∈ B := by
  have r := h.run.rank p hp
  obtain ⟨c, hc, j, hj, rfl⟩ := r.cL.fsurj f hf
  obtain ⟨n1, n2⟩ := r.nameL c hc j hj
  by_cases hE : ∃ E < G.nbcells, ¬ (epart E = p) ∧ Uses G.faceid (dim + 1) E (G.faceid (phi (data p) c) j)
  · exact Or.inr (Or.inl (n1 hE).1)
  · obtain ⟨m2, m1⟩ := n2 hE
    rcases r.sub.cases hc hj with ⟨uG, uL⟩ | ⟨e, he, hne, _, hu⟩ | ⟨E, hE', hmE, ⟨j', hj', hFE⟩, _⟩
    · right; right
      rw [m1 (by rw [uL]; rfl)]
      exact (r.nameG _ (r.cG.flt _ (r.sub.lt c hc).1 j hj)).2 (by rw [uG]; rfl)
    · left
      exact m2 (by rcases hu with ⟨_, u⟩ | ⟨_, u⟩ <;> rw [u] <;> rfl)
    · exact absurd ⟨E, hE', hmE, j', hj', hFE⟩ hE

theorem NodePair.nameG_cases (h : NodePair dim nodeid node cv npart0 epart nbnodes n SIZE data serial L G B out trunc) {F : Nat}
    (hF : F < G.nbfaces) : G.name F = 0 ∨ G.name F ∈ B := by
  have h0 : 0 < SIZE := by have := h.run.hS; omega
  have r := h.run.rank 0 h0
  have hne := r.cG.users_ne hF
  have h2 := r.sub.two F
  obtain ⟨a, b⟩ := r.nameG F hF
  have : (users G.faceid (dim + 1) G.nbcells F).length ≠ 0 := fun e => hne (List.length_eq_zero_iff.mp e)
  by_cases h1 : (users G.faceid (dim + 1) G.nbcells F).length = 1
  · exact Or.inr (b h1)
  · exact Or.inl (a (by omega))

theorem bndOf_iff {dim : Nat} (hd : dim = 2 ∨ dim = 3) {B : List Int} (hB : B = if dim = 2 then [1, 2, 3, 4] else [1, 2, 3, 4, 5, 6]) (x : Int)
    (hx : x = 0 ∨ x = 10 ∨ x ∈ B) : bndOf dim x = true ↔ x ∈ B := by
  subst hB
  unfold bndOf
  rcases hd with rfl | rfl
  · simp only [if_true, bnd2, List.mem_cons, List.not_mem_nil, or_false, Bool.or_eq_true, decide_eq_true_eq] at hx ⊢
    omega
  · simp only [show ¬ ((3 : Nat) = 2) by decide, if_false, bnd3, List.mem_cons, List.not_mem_nil, or_false, Bool.and_eq_true, decide_eq_true_eq, ne_eq] at hx ⊢
    omega

/-- A row of the ghost table. -/
def rowOf (dim : Nat) (D : Tables K) (f : Nat) : GRow K := ⟨ghostPoint dim D f, D.cellid f 0, D.name f, (f : Int)⟩

theorem ghostNodes_perm {dim : Nat} (hd : dim = 2 ∨ dim = 3) (D : Tables K) (f : Nat) (hl : (D.fnode f).length = dim) :
    (ghostNodes dim D f).Perm (D.fnode f) := by
  unfold ghostNodes
  rcases hd with rfl | rfl
  · rw [if_pos rfl]
    match D.fnode f, hl with
    | [a, b], _ => exact List.Perm.swap _ _ _
  · rw [if_neg (by decide)]
    match D.fnode f, hl with
    | [a, b, c], _ => exact List.Perm.swap _ _ _

/-- The ghost table of a Domain: a row for every boundary face with the node. -/
theorem domGhosts_eq {dim : Nat} (hd : dim = 2 ∨ dim = 3) {B : List Int} (hB : B = if dim = 2 then [1, 2, 3, 4] else [1, 2, 3, 4, 5, 6])
    (D : Tables K) (hname : ∀ f < D.nbfaces, D.name f = 0 ∨ D.name f = 10 ∨ D.name f ∈ B)
    (hbnd : ∀ f, f ∈ D.boundaryfaces ↔ f < D.nbfaces ∧ D.name f ∈ B)
    (hfn : ∀ f < D.nbfaces, (D.fnode f).Nodup ∧ (D.fnode f).length = dim) (i : Nat) :
    (domGhosts dim D).1 i = (bf D i).map (rowOf dim D) ∧ (domGhosts dim D).2 i = (bf D i).map (faceInfo dim D) := by
  have hp := fun f hf => ghostNodes_perm hd D f (hfn f hf).2
  have := C65_node_ghosts (bndOf dim) D.name (fun f => D.cellid f 0) (ghostNodes dim D) (ghostPoint dim D) (faceInfo dim D) D.nbfaces
    (fun f hf => (hp f hf).nodup_iff.mpr (hfn f hf).1) i
  have e : (List.range D.nbfaces).filter (fun f => bndOf dim (D.name f) ∧ i ∈ ghostNodes dim D f) = bf D i := by
    unfold bf
    apply List.filter_congr
    intro f hf
    have hf := List.mem_range.mp hf
    apply decide_eq_decide.mpr
    rw [bndOf_iff hd hB _ (hname f hf), (hp f hf).mem_iff, hbnd]
    simp [hf]
  simp only [e] at this
  exact this

theorem NodePair.fnodeL_ok (h : NodePair dim nodeid node cv npart0 epart nbnodes n SIZE data serial L G B out trunc) {p : Nat} (hp : p < SIZE)
    {f : Nat} (hf : f < (L p).nbfaces) : ((L p).fnode f).Nodup ∧ ((L p).fnode f).length = dim := by
  have r := h.run.rank p hp
  obtain ⟨c, hc, j, hj, rfl⟩ := r.cL.fsurj f hf
  have hs := h.sameFace p hp c hc j hj
  have hC := (r.sub.lt c hc).1
  rw [h.run.nG] at hC
  obtain ⟨f1, f2, _⟩ := h.fnodeG _ hC j hj
  unfold SameFace at hs
  refine ⟨List.Nodup.of_map _ (hs.nodup_iff.mpr f1), ?_⟩
  rw [← f2, ← hs.length_eq, List.length_map]

theorem NodePair.fnodeG_ok (h : NodePair dim nodeid node cv npart0 epart nbnodes n SIZE data serial L G B out trunc)
    {F : Nat} (hF : F < G.nbfaces) : (G.fnode F).Nodup ∧ (G.fnode F).length = dim := by
  have h0 : 0 < SIZE := by have := h.run.hS; omega
  have r := h.run.rank 0 h0
  obtain ⟨C, hC, j, hj, rfl⟩ := r.cG.fsurj F hF
  rw [h.run.nG] at hC
  obtain ⟨f1, f2, _⟩ := h.fnodeG _ hC j hj
  exact ⟨f1, f2⟩

/-- The ghosts of the other ranks at global node `s`, as pairs (rank, face). -/
def remPairs (SIZE : Nat) (data : Nat → RankData K) (L : Nat → Tables K) (p s : Nat) : List (Nat × Nat) :=
  (List.range SIZE).flatMap (fun q => if q = p then [] else
    ((List.range (L q).nbnodes).filter (fun j => (L q).nodename j = 10)).flatMap (fun j =>
      if gOf (data q) j = s then (bf (L q) j).map (fun f => (q, f)) else []))

theorem mem_remPairs (p s : Nat) (e : Nat × Nat) : e ∈ remPairs SIZE data L p s ↔ e.1 < SIZE ∧ e.1 ≠ p ∧ ∃ j < (L e.1).nbnodes,
    (L e.1).nodename j = 10 ∧ gOf (data e.1) j = s ∧ e.2 ∈ bf (L e.1) j := by
  unfold remPairs
  simp only [List.mem_flatMap, List.mem_range, List.mem_filter, decide_eq_true_eq]
  constructor
  · rintro ⟨q, hq, hm⟩
    split at hm
    · simp at hm
    · rename_i hqp
      obtain ⟨j, hjm, hm⟩ := List.mem_flatMap.mp hm
      obtain ⟨hj, hn⟩ : j < (L q).nbnodes ∧ (L q).nodename j = 10 := by simpa using hjm
      split at hm
      · rename_i hg
        obtain ⟨f, hf, rfl⟩ := List.mem_map.mp hm
        exact ⟨hq, hqp, j, hj, hn, hg, hf⟩
      · simp at hm
  · rintro ⟨hq, hqp, j, hj, hn, hg, hf⟩
    refine ⟨e.1, hq, ?_⟩
    rw [if_neg hqp]
    refine List.mem_flatMap.mpr ⟨j, by simpa using ⟨hj, hn⟩, ?_⟩
    rw [if_pos hg]
    exact List.mem_map.mpr ⟨e.2, hf, rfl⟩

theorem NodePair.gOf_inj (h : NodePair dim nodeid node cv npart0 epart nbnodes n SIZE data serial L G B out trunc) {p : Nat} (hp : p < SIZE)
    {i i' : Nat} (hi : i < (L p).nbnodes) (hi' : i' < (L p).nbnodes) (e : gOf (data p) i = gOf (data p) i') : i = i' := by
  rw [h.nbL p hp] at hi hi'
  exact h.hl.gOf_inj hp hi hi' e

theorem NodePair.nodup_remPairs (h : NodePair dim nodeid node cv npart0 epart nbnodes n SIZE data serial L G B out trunc) (p s : Nat) :
    (remPairs SIZE data L p s).Nodup := by
  unfold remPairs
  rw [List.nodup_flatMap]
  constructor
  · intro q hq
    have hq := List.mem_range.mp hq
    split
    · exact List.nodup_nil
    · rw [List.nodup_flatMap]
      constructor
      · intro j hj
        split
        · exact (nodup_bf _ _).map (fun a b e => (Prod.mk.inj e).2)
        · exact List.nodup_nil
      · refine List.Nodup.pairwise_of_forall_ne (List.nodup_range.filter _) ?_
        intro a ha b hb hab
        have ha' := List.mem_range.mp (List.mem_filter.mp ha).1
        have hb' := List.mem_range.mp (List.mem_filter.mp hb).1
        show List.Disjoint _ _
        intro x hx hx'
        dsimp only at hx hx'
        split at hx
        · rename_i e1
          split at hx'
          · rename_i e2
            exact hab (h.gOf_inj hq ha' hb' (e1.trans e2.symm))
          · simp at hx'
        · simp at hx
  · refine List.Nodup.pairwise_of_forall_ne List.nodup_range ?_
    intro a ha b hb hab x hx hx'
    have h1 : x.1 = a := by
      dsimp only at hx
      split at hx
      · simp at hx
      · obtain ⟨j, _, hm⟩ := List.mem_flatMap.mp hx
        split at hm
        · obtain ⟨f, _, rfl⟩ := List.mem_map.mp hm; rfl
        · simp at hm
    have h2 : x.1 = b := by
      dsimp only at hx'
      split at hx'
      · simp at hx'
      · obtain ⟨j, _, hm⟩ := List.mem_flatMap.mp hx'
        split at hm
        · obtain ⟨f, _, rfl⟩ := List.mem_map.mp hm; rfl
        · simp at hm
    exact hab (h1.symm.trans h2)

/-- A boundary face of a rank at one of its nodes is a boundary face of the whole mesh at the same node, of the same cell. -/
theorem NodePair.bf_global (h : NodePair dim nodeid node cv npart0 epart nbnodes n SIZE data serial L G B out trunc)
    {γ : Nat → Nat → Nat} (hγ : ∀ p < SIZE, ∀ c < (L p).nbcells, ∀ j < dim + 1, γ p ((L p).faceid c j) = G.faceid (phi (data p) c) j)
    {q : Nat} (hq : q < SIZE) {i f : Nat} (hf : f ∈ bf (L q) i) :
    ∃ c < (L q).nbcells, ∃ j < dim + 1, f = (L q).faceid c j ∧ γ q f = G.faceid (phi (data q) c) j ∧ γ q f ∈ bf G (gOf (data q) i) ∧
      (L q).name f = G.name (γ q f) ∧ (L q).cellid f 0 = (c : Int) ∧ G.cellid (γ q f) 0 = (phi (data q) c : Int) := by
  have r := h.run.rank q hq
  obtain ⟨h1, h2, h3⟩ := (mem_bf _ _ _).mp hf
  obtain ⟨c, hc, j, hj, rfl⟩ := r.cL.fsurj f h1
  obtain ⟨b1, b2, b3, b4⟩ := r.boundary hc hj h2
  have hC := (r.sub.lt c hc).1
  have hF := r.cG.flt _ hC j hj
  refine ⟨c, hc, j, hj, rfl, hγ q hq c hc j hj, ?_, by rw [hγ q hq c hc j hj]; exact b1, b3, by rw [hγ q hq c hc j hj]; exact b4⟩
  rw [hγ q hq c hc j hj]
  refine (mem_bf _ _ _).mpr ⟨hF, (r.cG.bnd.2 _).mpr ⟨hF, b1 ▸ b2⟩, ?_⟩
  have hs := h.sameFace q hq c hc j hj
  unfold SameFace at hs
  exact hs.subset (List.mem_map.mpr ⟨i, h3, rfl⟩)

/-- The ghosts around a node: the local boundary faces and those received from the other ranks are the boundary faces of the whole mesh. -/
theorem NodePair.ghosts_at_node (h : NodePair dim nodeid node cv npart0 epart nbnodes n SIZE data serial L G B out trunc)
    (star : StarConnected dim nodeid n)
    {γ : Nat → Nat → Nat} (hγ : ∀ p < SIZE, ∀ c < (L p).nbcells, ∀ j < dim + 1, γ p ((L p).faceid c j) = G.faceid (phi (data p) c) j)
    {p : Nat} (hp : p < SIZE) {i : Nat} (hi : i < (L p).nbnodes) :
    ((bf (L p) i).map (γ p) ++ (remPairs SIZE data L p (gOf (data p) i)).map (fun e => γ e.1 e.2)).Perm (bf G (gOf (data p) i)) := by
  have inj : ∀ q < SIZE, ∀ q' < SIZE, ∀ i i' f f', f ∈ bf (L q) i → f' ∈ bf (L q') i' → γ q f = γ q' f' → q = q' ∧ f = f' := by
    intro q hq q' hq' i i' f f' hf hf' e
    obtain ⟨c, hc, j, hj, rfl, a1, _, _, _, a2⟩ := h.bf_global hγ hq hf
    obtain ⟨c', hc', j', hj', rfl, b1, _, _, _, b2⟩ := h.bf_global hγ hq' hf'
    rw [e, b2] at a2
    have e2 : phi (data q') c' = phi (data q) c := by exact_mod_cast a2
    have m1 := ((h.run.rank q hq).sub.lt c hc).2
    have m2 := ((h.run.rank q' hq').sub.lt c' hc').2
    obtain rfl : q = q' := by rw [← m1, ← m2, e2]
    refine ⟨rfl, ?_⟩
    obtain rfl := (h.run.rank q hq).sub.inj hc hc' e2.symm
    rw [a1, b1] at e
    rw [(h.run.rank q hq).cG.inj _ ((h.run.rank q hq).sub.lt c hc).1 j hj j' hj' e]
  rw [List.perm_ext_iff_of_nodup]
  · intro F
    simp only [List.mem_append, List.mem_map, mem_remPairs]
    constructor
    · rintro (⟨f, hf, rfl⟩ | ⟨⟨q, f⟩, ⟨hq, hqp, j, hj, _, hg, hf⟩, rfl⟩)
      · obtain ⟨_, _, _, _, _, _, hm, _⟩ := h.bf_global hγ hp hf; exact hm
      · obtain ⟨_, _, _, _, _, _, hm, _⟩ := h.bf_global hγ hq hf
        rw [← hg]; exact hm
    · intro hF
      obtain ⟨h1, h2, h3⟩ := (mem_bf _ _ _).mp hF
      have r0 := h.run.rank p hp
      obtain ⟨C, hC, j, hj, rfl⟩ := r0.cG.fsurj F h1
      have hCn := hC
      rw [h.run.nG] at hCn
      have hq := h.run.he C hCn
      obtain ⟨q, hqe⟩ : ∃ q, epart C = q := ⟨_, rfl⟩
      rw [hqe] at hq
      have r := h.run.rank q hq
      obtain ⟨c, hc, rfl⟩ := r.sub.surj C hC hqe
      have hB := ((r.cG.bnd.2 _).mp h2).2
      have hone : ¬ ∃ E < G.nbcells, ¬ (epart E = q) ∧ Uses G.faceid (dim + 1) E (G.faceid (phi (data q) c) j) := by
        rintro ⟨E, hE, hne, hu⟩
        have hn := (r.nameG _ h1).1
        have hl : (users G.faceid (dim + 1) G.nbcells (G.faceid (phi (data q) c) j)).length = 2 := by
          rcases r.sub.cases hc hj with ⟨uG, _⟩ | ⟨e, he, _, _, hu'⟩ | ⟨E', _, _, _, _, hu'⟩
          · exfalso
            have := (mem_users _ _ _ _ _).mpr ⟨hE, hu⟩
            rw [uG] at this
            rw [List.mem_singleton.mp this] at hne
            exact hne hqe
          · rcases hu' with ⟨u, _⟩ | ⟨u, _⟩ <;> rw [u] <;> rfl
          · rcases hu' with u | u <;> rw [u] <;> rfl
        rw [hn hl] at hB
        exact r.cG.B0 hB
      have hf := r.cL.flt c hc j hj
      obtain ⟨m2, m1⟩ := (r.nameL c hc j hj).2 hone
      have hname : (L q).name ((L q).faceid c j) = G.name (G.faceid (phi (data q) c) j) := by
        rcases r.sub.cases hc hj with ⟨_, uL⟩ | ⟨e, he, _, _, hu'⟩ | ⟨E', a1, a2, a3, _, _⟩
        · exact m1 (by rw [uL]; rfl)
        · exfalso
          have := (r.nameG _ h1).1 (by rcases hu' with ⟨u, _⟩ | ⟨u, _⟩ <;> rw [u] <;> rfl)
          rw [this] at hB
          exact r.cG.B0 hB
        · exact absurd ⟨E', a1, a2, a3⟩ hone
      have hbL : (L q).faceid c j ∈ (L q).boundaryfaces := (r.cL.bnd.2 _).mpr ⟨hf, by rw [hname]; exact hB⟩
      have hs := h.sameFace q hq c hc j hj
      unfold SameFace at hs
      obtain ⟨i', hi', e'⟩ := List.mem_map.mp (hs.symm.subset h3)
      obtain ⟨k, hk, ek⟩ := h.fnodeL q hq c hc j hj i' hi'
      have hlt : i' < (L q).nbnodes := by rw [h.nbL q hq, ← ek]; exact h.hl.node_lt hq (by rw [← h.nL hq]; exact hc) hk
      have hbf : (L q).faceid c j ∈ bf (L q) i' := (mem_bf _ _ _).mpr ⟨hf, hbL, hi'⟩
      by_cases hqp : q = p
      · subst hqp
        obtain rfl := h.gOf_inj hq hlt hi e'
        exact Or.inl ⟨_, hbf, hγ q hq c hc j hj⟩
      · refine Or.inr ⟨(q, (L q).faceid c j), ⟨hq, hqp, i', hlt, ?_, e', hbf⟩, hγ q hq c hc j hj⟩
        have hi2 := hi
        rw [h.nbL p hp] at hi2
        obtain ⟨a, ha, ja, hja, _, ea⟩ := h.hl.node_used hp hi2
        have hpa := h.hl.phi_lt hp ha
        refine h.named star hq hlt hpa.1 (by rw [hpa.2]; exact fun x => hqp x.symm) ⟨ja, hja, ?_⟩
        rw [ea]; exact e'.symm
  · rw [List.nodup_append]
    refine ⟨List.Nodup.map_on (fun a ha b hb e => (inj p hp p hp i i a b ha hb e).2) (nodup_bf _ _), ?_, ?_⟩
    · refine List.Nodup.map_on ?_ (h.nodup_remPairs p _)
      intro a ha b hb e
      obtain ⟨a1, a2, j, _, _, _, a3⟩ := (mem_remPairs p _ a).mp ha
      obtain ⟨b1, b2, j', _, _, _, b3⟩ := (mem_remPairs p _ b).mp hb
      obtain ⟨e1, e2⟩ := inj _ a1 _ b1 _ _ _ _ a3 b3 e
      exact Prod.ext e1 e2
    · intro x hx y hy e
      obtain ⟨f, hf, rfl⟩ := List.mem_map.mp hx
      obtain ⟨b, hb, rfl⟩ := List.mem_map.mp hy
      obtain ⟨b1, b2, j', _, _, _, b3⟩ := (mem_remPairs p _ b).mp hb
      exact b2 (inj p hp _ b1 _ _ _ _ hf b3 e).1.symm
  · exact nodup_bf _ _

end
end Verif.Props.Par
