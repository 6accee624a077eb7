import Verif.Model.Comm
import Verif.Props.MeshFile

/-!
# Property C26: the halo exchange delivers the owner's value
-/
set_option linter.unusedSectionVars false
namespace Verif.Props
open Verif.MeshFile Verif.Spec Verif.Part Verif.Conn Verif.Comm
variable {K : Type*} [NatCast K]

theorem scountArr_eq (nbr : List Nat) (f : Nat → Nat) (hn : nbr.Nodup) (r : Nat) :
    scountArr [nbr, nbr.map f] r = if r ∈ nbr then f r else 0 := by
  have key : ∀ (l : List Nat) (s : Nat → Nat), l.Nodup →
      ((l.zip (l.map f)).foldl (fun s e => setAt s e.1 e.2) s) r = if r ∈ l then f r else s r := by
    intro l
    induction l with
    | nil => intro s _; simp
    | cons a l ih =>
      intro s hl
      rw [List.nodup_cons] at hl
      rw [List.map_cons, List.zip_cons_cons, List.foldl_cons, ih _ hl.2]
      by_cases h : r ∈ l
      · simp [h]
      · by_cases ha : r = a
        · subst ha; simp [h]
        · simp [h, ha, setAt_ne _ _ ha]
  exact key nbr _ hn

theorem positive_eq (SIZE : Nat) (nbr : List Nat) (f : Nat → Nat) (h : nbr.Pairwise (· < ·)) (hb : ∀ q ∈ nbr, q < SIZE)
    (hf : ∀ q ∈ nbr, 0 < f q) : positive SIZE (fun r => if r ∈ nbr then f r else 0) = nbr.map f := by
  have e : (List.range SIZE).filter (fun r => r ∈ nbr) = nbr := by
    apply Lists.unique (P := fun r => r ∈ nbr)
    · refine ⟨List.Pairwise.sublist List.filter_sublist List.pairwise_lt_range, fun x => ?_⟩
      simp only [List.mem_filter, List.mem_range, decide_eq_true_eq]
      exact ⟨fun h => h.2, fun h => ⟨hb x h, h⟩⟩
    · exact ⟨h, fun _ => Iff.rfl⟩
  unfold positive
  rw [List.filter_map]
  have e2 : (List.range SIZE).filter ((fun x => decide (0 < x)) ∘ fun r => if r ∈ nbr then f r else 0)
      = (List.range SIZE).filter (fun r => r ∈ nbr) := by
    apply List.filter_congr
    intro x _
    by_cases hx : x ∈ nbr
    · simp [hx, hf x hx]
    · simp [hx]
  rw [e2, e]
  apply List.map_congr_left
  intro x hx; simp [hx]

theorem block_eq {α : Type*} (nbr : List Nat) (g : Nat → List α) (p : Nat) (hp : p ∈ nbr) :
    block (nbr.map (fun q => (g q).length)) (nbr.flatMap g) (nbr.idxOf p) = g p := by
  induction nbr with
  | nil => simp at hp
  | cons a l ih =>
    by_cases h : a = p
    · subst h; simp [block]
    · have hp' : p ∈ l := by
        rcases List.mem_cons.mp hp with h' | h'
        · exact absurd h'.symm h
        · exact h'
      have := ih hp'
      rw [List.idxOf_cons_ne _ h]
      unfold block at this ⊢
      simp only [List.map_cons, List.flatMap_cons, List.take_succ_cons, List.sum_cons, List.getD_cons_succ]
      rw [List.drop_append, List.drop_eq_nil_of_le (by omega)]
      simpa using this

theorem dictGet_zipIdx (l : List Nat) (hn : l.Nodup) (c : Nat) (hc : c ∈ l) : dictGet l.zipIdx c = some (l.idxOf c) := by
  have hlt := List.idxOf_lt_length_iff.mpr hc
  unfold dictGet
  have hmem : (c, l.idxOf c) ∈ l.zipIdx := by
    rw [List.mem_iff_getElem?]
    exact ⟨l.idxOf c, by simp [List.getElem?_zipIdx, List.getElem?_eq_getElem hlt, List.getElem_idxOf hlt]⟩
  obtain ⟨e, he⟩ : ∃ e, l.zipIdx.reverse.find? (fun e => e.1 = c) = some e := by
    rw [← Option.isSome_iff_exists, List.find?_isSome]
    exact ⟨_, List.mem_reverse.mpr hmem, by simp⟩
  rw [he]
  have h1 := List.find?_some he
  have h2 := List.mem_reverse.mp (List.mem_of_find?_eq_some he)
  rcases e with ⟨a, i⟩
  simp only [decide_eq_true_eq] at h1
  subst h1
  have h3 := List.mem_zipIdx_iff_getElem?.mp h2
  simp only [Option.map_some, Option.some.injEq]
  have hi : i < l.length := (List.getElem?_eq_some_iff.mp h3).1
  have := (List.getElem?_eq_some_iff.mp h3).2
  have hh : l.idxOf l[i] = i := hn.idxOf_getElem i hi
  rw [this] at hh
  exact hh.symm

theorem mapM_some_of_forall {α β : Type*} (l : List α) (f : α → Option β) (g : α → β) (h : ∀ a ∈ l, f a = some (g a)) :
    l.mapM f = some (l.map g) := by
  induction l with
  | nil => rfl
  | cons a l ih =>
    simp [List.mapM_cons, h a (by simp), ih (fun b hb => h b (by simp [hb]))]

/-- The exchange in terms of the neighbour lists `nbr` and of the send lists `L q p`. -/
theorem updateHalo_eq (SIZE : Nat) (data : Nat → RankData K) (cell : Nat → Nat → K) (nbr : Nat → List Nat) (L : Nat → Nat → List Nat)
    (loc : Nat → List Nat)
    (hneigh : ∀ q < SIZE, (data q).neigh = [nbr q, (nbr q).map (fun r => (L q r).length)])
    (hint : ∀ q < SIZE, (data q).halosint = (nbr q).flatMap (L q))
    (hloc : ∀ q < SIZE, (data q).globtoloc = (loc q).zipIdx) (hnd : ∀ q < SIZE, (loc q).Nodup)
    (hL : ∀ q < SIZE, ∀ r ∈ nbr q, ∀ c ∈ L q r, c ∈ loc q)
    (hlt : ∀ q < SIZE, ∀ r ∈ nbr q, r < SIZE) (hpw : ∀ q < SIZE, (nbr q).Pairwise (· < ·))
    (hsym : ∀ q < SIZE, ∀ r < SIZE, r ∈ nbr q ↔ q ∈ nbr r)
    (hpos : ∀ q < SIZE, ∀ r ∈ nbr q, L q r ≠ []) (p : Nat) (hp : p < SIZE) :
    updateHalo SIZE data cell p =
      some ((nbr p).flatMap (fun q => (L q p).map (fun c => cell q ((loc q).idxOf c)))) := by
  have hnodup : ∀ q < SIZE, (nbr q).Nodup := fun q hq => (hpw q hq).imp (fun h => Nat.ne_of_lt h)
  have hsend : ∀ q ∈ List.range SIZE, (indsend (data q).globtoloc (data q).halosint).map (halosend (cell q))
      = some ((nbr q).flatMap (fun r => (L q r).map (fun c => cell q ((loc q).idxOf c)))) := by
    intro q hq
    have hq := List.mem_range.mp hq
    rw [indsend, hloc q hq, hint q hq, mapM_some_of_forall _ _ (fun c => (loc q).idxOf c)]
    · simp [halosend, List.map_flatMap, Function.comp_def]
    · intro c hc
      obtain ⟨r, hr, hcr⟩ := List.mem_flatMap.mp hc
      exact dictGet_zipIdx _ (hnd q hq) c (hL q hq r hr c hcr)
  have hsc : ∀ q < SIZE, positive SIZE (scountArr (data q).neigh) = (nbr q).map (fun r => (L q r).length) := by
    intro q hq
    have : scountArr (data q).neigh = fun r => if r ∈ nbr q then (L q r).length else 0 := by
      funext r; rw [hneigh q hq, scountArr_eq _ _ (hnodup q hq)]
    rw [this, positive_eq SIZE _ _ (hpw q hq) (hlt q hq)]
    intro r hr
    exact List.length_pos_iff.mpr (hpos q hq r hr)
  have hrc : positive SIZE (rcountArr (fun q => (data q).neigh) p) = (nbr p).map (fun q => (L q p).length) := by
    have : positive SIZE (rcountArr (fun q => (data q).neigh) p)
        = positive SIZE (fun q => if q ∈ nbr p then (L q p).length else 0) := by
      unfold positive
      congr 1
      apply List.map_congr_left
      intro q hq
      have hq := List.mem_range.mp hq
      rw [rcountArr, hneigh q hq, scountArr_eq _ _ (hnodup q hq)]
      simp only [hsym q hq p hp]
    rw [this, positive_eq SIZE _ _ (hpw p hp) (hlt p hp)]
    intro q hq
    exact List.length_pos_iff.mpr (hpos q (hlt p hp q hq) p ((hsym p hp q (hlt p hp q hq)).mp hq))
  unfold updateHalo
  simp only []
  rw [mapM_some_of_forall _ _ _ hsend]
  simp only [Option.bind_eq_bind, Option.bind_some]
  unfold neighborAlltoallv
  simp only []
  have hp0 : (data p).neigh.getD 0 [] = nbr p := by rw [hneigh p hp]; rfl
  rw [hp0, mapM_some_of_forall _ _ (fun j => (L ((nbr p).getD j 0) p).map
    (fun c => cell ((nbr p).getD j 0) ((loc ((nbr p).getD j 0)).idxOf c)))]
  · simp only [Option.map_some, Option.some.injEq]
    rw [List.flatMap_def]
    congr 1
    apply List.ext_getElem
    · simp
    · intro j h1 h2
      simp only [List.length_map, List.length_range] at h1
      simp [List.getElem?_eq_getElem h1]
  · intro j hj
    have hj := List.mem_range.mp hj
    obtain ⟨q, hqd⟩ : ∃ q, (nbr p).getD j 0 = q := ⟨_, rfl⟩
    have hqj : (nbr p)[j] = q := by rw [← hqd]; simp [hj]
    have hqm : q ∈ nbr p := hqj ▸ List.getElem_mem hj
    have hqS := hlt p hp q hqm
    have hpq : p ∈ nbr q := (hsym p hp q hqS).mp hqm
    have hq0 : (data q).neigh.getD 0 [] = nbr q := by rw [hneigh q hqS]; rfl
    rw [hqd, hq0, hsc q hqS, hrc]
    have hb : block ((nbr q).map (fun r => (L q r).length))
        (((List.range SIZE).map (fun q => (nbr q).flatMap (fun r => (L q r).map (fun c => cell q ((loc q).idxOf c))))).getD q [])
        ((nbr q).idxOf p) = (L q p).map (fun c => cell q ((loc q).idxOf c)) := by
      have := block_eq (nbr q) (fun r => (L q r).map (fun c => cell q ((loc q).idxOf c))) p hpq
      simp only [List.length_map] at this
      rw [← this]
      congr 1
      simp [List.getD, hqS]
    rw [hb, if_pos]
    refine ⟨?_, hpq, by simp⟩
    simp [List.getD, hj, hqj]

/-- C26: for every mesh, every METIS result and every number of processes above 1, when all ranks read their mesh files and exchange
halo values, the exchange succeeds on every rank `p`, the halo array has one entry per row of the rank's external halo list, and
the `k`-th entry is the value of the cell listed in row `k`, as held by the rank that owns that cell. -/
theorem C26_halo_exchange (nodeid : Nat → Nat → Nat) (node : Nat → K × K × K × Nat) (cv : Nat → List K)
    (npart0 epart : Nat → Nat) (nbnodes n d1 SIZE : Nat) (hd : 0 < d1) (hS : 1 < SIZE)
    (he : ∀ i < n, epart i < SIZE) (hok : NodePartOk nodeid npart0 epart n d1)
    (hused : ∀ k < nbnodes, ∃ i < n, Uses nodeid d1 i k)
    (file : Nat → List (Line K)) (master : List (Line K))
    (hfile : let P := partition nodeid npart0 epart nbnodes n d1
      let h := halos P.cpart P.haloCell SIZE
      (∀ p < SIZE, file p = writeRank p (rankWrite nodeid node cv P h nbnodes SIZE d1 p)) ∧
      master = writeMaster ((List.range nbnodes).map P.npart))
    (data : Nat → RankData K) (hdata : ∀ p < SIZE, readMeshFile SIZE p (file p) master = some (data p))
    (cell : Nat → Nat → K) (p : Nat) (hp : p < SIZE) :
    ∃ halo : List K, updateHalo SIZE data cell p = some halo ∧ halo.length = (data p).halosext.length ∧
      ∀ (k : Nat) (row : List Nat), (data p).halosext[k]? = some row →
        ∃ g j, row.head? = some g ∧ g < n ∧ epart g ≠ p ∧ (data (epart g)).loctoglob[j]? = some g ∧
          halo[k]? = some (cell (epart g) j) := by
  obtain ⟨P, hP⟩ : ∃ P, P = partition nodeid npart0 epart nbnodes n d1 := ⟨_, rfl⟩
  obtain ⟨h, hh⟩ : ∃ h, h = halos P.cpart P.haloCell SIZE := ⟨_, rfl⟩
  have hS1 : ¬ SIZE = 1 := by omega
  simp only [← hP, ← hh] at hfile
  have hdat : ∀ q < SIZE, data q = expected SIZE q (rankWrite nodeid node cv P h nbnodes SIZE d1 q) := by
    intro q hq
    have := hdata q hq
    rw [hfile.1 q hq, hfile.2, show (List.range nbnodes).map P.npart = (rankWrite nodeid node cv P h nbnodes SIZE d1 q).nparts from rfl,
      C25_round_trip_parallel SIZE q hS] at this
    exact (Option.some.inj this).symm
  have hsr : ∀ q < SIZE, ∀ r, h.1 q r = h.2 r q ∧ (q ≠ r → Lists (h.1 q r) (fun c => c < n ∧ epart c = q ∧
      ∃ k, Uses nodeid d1 c k ∧ NodeIn nodeid npart0 epart n d1 r k)) := by
    intro q hq r
    have := C24_send_receive nodeid npart0 epart nbnodes n d1 SIZE q r hd hq
    simp only [← hP, ← hh] at this
    exact this
  have hnb : ∀ q, Lists (P.neighsub q) (fun r => r ≠ q ∧
      ∃ k < nbnodes, NodeIn nodeid npart0 epart n d1 q k ∧ NodeIn nodeid npart0 epart n d1 r k) := by
    intro q; rw [hP]; exact C22_neighbours nodeid npart0 epart nbnodes n d1 q
  have hsym : ∀ q r, r ∈ P.neighsub q ↔ q ∈ P.neighsub r := by
    intro q r; rw [hP]; exact (C22_symmetric nodeid npart0 epart nbnodes n d1 q r).1
  have hlt : ∀ q, ∀ r ∈ P.neighsub q, r < SIZE := by
    intro q r hr
    obtain ⟨_, k, hk, _, hrk⟩ := ((hnb q).2 r).mp hr
    rcases hrk with hrk | ⟨i, hi, hei, _⟩
    · obtain ⟨i, hi, j, hj, rfl⟩ := hused k hk
      obtain ⟨i', hi', hei, _⟩ := hok i hi j hj
      rw [← hrk, ← hei]; exact he i' hi'
    · rw [← hei]; exact he i hi
  have hcp : ∀ q, Lists (P.cellPart q) (fun c => c < n ∧ epart c = q) := by
    intro q; rw [hP]; exact C20_cell_part nodeid npart0 epart nbnodes n d1 q
  have hne : ∀ q, ∀ r ∈ P.neighsub q, r ≠ q := fun q r hr => ((hnb q).2 r).mp hr |>.1
  have hex := updateHalo_eq SIZE data cell P.neighsub h.1 P.cellPart
    (fun q hq => by rw [hdat q hq]; simp [expected, hS1, rankWrite])
    (fun q hq => by rw [hdat q hq]; simp [expected, hS1, rankWrite])
    (fun q hq => by rw [hdat q hq]; simp [expected, hS1, rankWrite])
    (fun q _ => (hcp q).1.imp (fun h => Nat.ne_of_lt h))
    (fun q hq r hr c hc => by
      have := (((hsr q hq r).2 (Ne.symm (hne q r hr))).2 c).mp hc
      exact ((hcp q).2 c).mpr ⟨this.1, this.2.1⟩)
    (fun q _ r hr => hlt q r hr) (fun q _ => (hnb q).1) (fun q _ r _ => hsym q r)
    (fun q hq r hr => by
      have := C24_keys_present nodeid npart0 epart nbnodes n d1 SIZE q r hd hq (hlt q r hr) hok hused
      simp only [← hP, ← hh] at this
      exact (this hr).1) p hp
  refine ⟨_, hex, ?_, ?_⟩
  · rw [hdat p hp]
    simp only [expected, if_neg hS1, rankWrite, List.length_flatMap, List.length_map]
    congr 1
    apply List.map_congr_left
    intro q hq
    rw [(hsr q (hlt p q hq) p).1]
  · -- both lists are maps of the same list of pairs (owner, cell)
    have e1 : (P.neighsub p).flatMap (fun q => (h.1 q p).map (fun c => cell q ((P.cellPart q).idxOf c)))
        = ((P.neighsub p).flatMap (fun q => (h.1 q p).map (fun c => (q, c)))).map
          (fun t => cell t.1 ((P.cellPart t.1).idxOf t.2)) := by
      simp [List.map_flatMap, Function.comp_def]
    have e2 : (data p).halosext = ((P.neighsub p).flatMap (fun q => (h.1 q p).map (fun c => (q, c)))).map
        (fun t => t.2 :: (List.range d1).map (nodeid t.2)) := by
      rw [hdat p hp]
      simp only [expected, if_neg hS1, rankWrite, List.map_flatMap, List.map_map, Function.comp_def]
      rw [List.flatMap_def, List.flatMap_def]
      congr 1
      apply List.map_congr_left
      intro q hq
      rw [(hsr q (hlt p q hq) p).1]
    intro k row hrow
    rw [e2, List.getElem?_map, Option.map_eq_some_iff] at hrow
    obtain ⟨⟨q, g⟩, hk, rfl⟩ := hrow
    obtain ⟨q', hq', hqg⟩ := List.mem_flatMap.mp (List.mem_of_getElem? hk)
    obtain ⟨g', hg', heq⟩ := List.mem_map.mp hqg
    obtain ⟨rfl, rfl⟩ := Prod.mk.inj heq
    have hqS := hlt p q' hq'
    obtain ⟨hgn, hge, _⟩ := (((hsr q' hqS p).2 (hne p q' hq')).2 g').mp hg'
    refine ⟨g', (P.cellPart q').idxOf g', rfl, hgn, ?_, ?_, ?_⟩
    · rw [hge]; exact hne p q' hq'
    · rw [hge, hdat q' hqS]
      simp only [expected, if_neg hS1, rankWrite]
      have hlt' := List.idxOf_lt_length_iff.mpr (((hcp q').2 g').mpr ⟨hgn, hge⟩)
      rw [List.getElem?_eq_getElem hlt', List.getElem_idxOf hlt']
    · rw [e1, List.getElem?_map, hk, hge]; rfl

/-- Four triangles on two ranks: what is exchanged. -/
example : let P := partition exStrip exN exE 6 4 3
    let h := halos P.cpart P.haloCell 2
    let data := fun p => expected (K := ℚ) 2 p (rankWrite exStrip (fun _ => (0, 0, 0, 0)) (fun _ => []) P h 6 2 3 p)
    updateHalo 2 data (fun p j => 10 * p + j) 0 = some [10, 11] ∧ updateHalo 2 data (fun p j => 10 * p + j) 1 = some [0, 1] := by
  decide +kernel

end Verif.Props
