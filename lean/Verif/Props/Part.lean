import Verif.Model.Part
import Verif.Spec.Part
import Verif.Lemmas.Conn

/-!
# Properties C20–C24: partition of the mesh
-/
set_option linter.unusedSectionVars false
namespace Verif.Props
open Verif.Conn Verif.Spec Verif.Part

/-! ### basic lemmas -/

theorem mem_insertNew (l : List Nat) (x y : Nat) : y ∈ insertNew l x ↔ y ∈ l ∨ y = x := by
  unfold insertNew; split
  · simp
  · rename_i h; simp only [not_not] at h
    constructor
    · exact Or.inl
    · rintro (h' | rfl)
      · exact h'
      · exact h

theorem nodup_insertNew (l : List Nat) (x : Nat) (h : l.Nodup) : (insertNew l x).Nodup := by
  unfold insertNew; split
  · rename_i hx
    rw [List.nodup_append]; refine ⟨h, by simp, ?_⟩
    intro a ha b hb; simp at hb; subst hb; exact fun e => hx (e ▸ ha)
  · exact h

theorem foldl_insertNew_spec (L l : List Nat) (h : l.Nodup) :
    (L.foldl insertNew l).Nodup ∧ ∀ y, y ∈ L.foldl insertNew l ↔ y ∈ l ∨ y ∈ L := by
  induction L generalizing l with
  | nil => exact ⟨h, by simp⟩
  | cons a L ih =>
    obtain ⟨h1, h2⟩ := ih (insertNew l a) (nodup_insertNew l a h)
    refine ⟨h1, fun y => ?_⟩
    rw [List.foldl_cons, h2 y, mem_insertNew, List.mem_cons]; tauto

theorem npUniq_lists (l : List Nat) : Lists (npUniq l) (fun x => x ∈ l) := by
  refine ⟨?_, fun x => by simp [npUniq, List.mem_dedup]⟩
  have hs : (npUniq l).Pairwise (· ≤ ·) :=
    List.Pairwise.sublist (List.dedup_sublist _) (List.pairwise_insertionSort (· ≤ ·) l)
  exact (hs.and (List.nodup_dedup _)).imp (fun h => lt_of_le_of_ne h.1 h.2)

theorem uniqueFunc_spec (l : List Nat) :
    (uniqueFunc l).Nodup ∧ (∀ x, x ∈ uniqueFunc l ↔ x ∈ l) ∧
    (uniqueFunc l).Pairwise (fun a b => l.idxOf a ≤ l.idxOf b) := by
  have hp : (uniqueFunc l).Perm (npUniq l) := List.perm_insertionSort _ _
  refine ⟨hp.nodup_iff.mpr ((npUniq_lists l).1.imp Nat.ne_of_lt), fun x => ?_, ?_⟩
  · rw [hp.mem_iff]; exact (npUniq_lists l).2 x
  · haveI : Std.Total (fun a b : Nat => l.idxOf a ≤ l.idxOf b) := ⟨fun a b => Nat.le_total _ _⟩
    haveI : IsTrans Nat (fun a b : Nat => l.idxOf a ≤ l.idxOf b) := ⟨fun a b c h1 h2 => Nat.le_trans h1 h2⟩
    exact List.pairwise_insertionSort _ _

theorem foldl_flatMap' {σ α β : Type*} (l : List α) (g : α → List β) (f : σ → β → σ) (s : σ) :
    l.foldl (fun s a => (g a).foldl f s) s = (l.flatMap g).foldl f s := by
  rw [List.foldl_flatMap]

/-! ### the first loop -/

theorem loop1_inner (nodeid : Nat → Nat → Nat) (epart : Nat → Nat) (i m : Nat) (s : S1) :
    let r := (List.range m).foldl (fun (s : S1) j =>
      let k := nodeid i j
      { npart := setAt s.npart k (insertNew (s.npart k) (epart i))
        nodePart := appendAt s.nodePart (epart i) k
        cellPart := s.cellPart }) s
    (∀ k, (∀ y, y ∈ r.npart k ↔ y ∈ s.npart k ∨ (y = epart i ∧ Uses nodeid m i k))) ∧
    ((∀ k, (s.npart k).Nodup) → ∀ k, (r.npart k).Nodup) ∧
    (∀ p, r.nodePart p = s.nodePart p ++ if epart i = p then (List.range m).map (nodeid i) else []) ∧
    r.cellPart = s.cellPart := by
  induction m with
  | zero => simp [Uses]
  | succ m ih =>
    intro r
    obtain ⟨h1, h2, h3, h4⟩ := ih
    set t := (List.range m).foldl (fun (s : S1) j =>
      let k := nodeid i j
      { npart := setAt s.npart k (insertNew (s.npart k) (epart i))
        nodePart := appendAt s.nodePart (epart i) k
        cellPart := s.cellPart : S1 }) s with ht
    have hr : r = { npart := setAt t.npart (nodeid i m) (insertNew (t.npart (nodeid i m)) (epart i))
                    nodePart := appendAt t.nodePart (epart i) (nodeid i m)
                    cellPart := t.cellPart } := by
      simp only [r, List.range_succ, List.foldl_append, List.foldl_cons, List.foldl_nil]; rfl
    have hU : ∀ k, Uses nodeid (m + 1) i k ↔ Uses nodeid m i k ∨ nodeid i m = k := by
      intro k; unfold Uses; constructor
      · rintro ⟨j, hj, e⟩
        by_cases hjm : j = m
        · subst hjm; exact Or.inr e
        · exact Or.inl ⟨j, by omega, e⟩
      · rintro (⟨j, hj, e⟩ | e)
        · exact ⟨j, by omega, e⟩
        · exact ⟨m, by omega, e⟩
    rw [hr]
    refine ⟨?_, ?_, ?_, h4⟩
    · intro k y
      by_cases hk : k = nodeid i m
      · subst hk
        simp only [setAt_same, mem_insertNew, h1, hU]; tauto
      · have hk' : ¬ nodeid i m = k := fun e => hk e.symm
        simp only [setAt_ne _ _ hk, h1, hU, hk', or_false]
    · intro hs k
      by_cases hk : k = nodeid i m
      · subst hk; simp only [setAt_same]; exact nodup_insertNew _ _ (h2 hs _)
      · simp only [setAt_ne _ _ hk]; exact h2 hs k
    · intro p
      by_cases hp : epart i = p
      · subst hp; simp only [appendAt, setAt_same, h3, if_true, List.range_succ, List.map_append, List.append_assoc]
        rfl
      · have hp' : p ≠ epart i := fun e => hp e.symm
        simp only [appendAt, setAt_ne _ _ hp', h3, hp, if_false]

theorem loop1_spec (nodeid : Nat → Nat → Nat) (npart0 epart : Nat → Nat) (n d1 : Nat) :
    let r := loop1 nodeid npart0 epart n d1
    (∀ k, (r.npart k).Nodup ∧ ∀ q, q ∈ r.npart k ↔ NodeIn nodeid npart0 epart n d1 q k) ∧
    (∀ p k, k ∈ r.nodePart p ↔ ∃ i < n, epart i = p ∧ Uses nodeid d1 i k) ∧
    (∀ p, r.cellPart p = (List.range n).filter (fun i => epart i = p)) := by
  induction n with
  | zero => simp [loop1, NodeIn, eq_comm]
  | succ n ih =>
    intro r
    obtain ⟨h1, h2, h3⟩ := ih
    set t := loop1 nodeid npart0 epart n d1 with ht
    obtain ⟨a1, a2, a3, a4⟩ := loop1_inner nodeid epart n d1 t
    set u := (List.range d1).foldl (fun (s : S1) j =>
      let k := nodeid n j
      { npart := setAt s.npart k (insertNew (s.npart k) (epart n))
        nodePart := appendAt s.nodePart (epart n) k
        cellPart := s.cellPart : S1 }) t with hu
    have hr : r = { u with cellPart := appendAt u.cellPart (epart n) n } := by
      simp only [r, loop1, List.range_succ (n := n), List.foldl_append, List.foldl_cons, List.foldl_nil]; rfl
    rw [hr]
    refine ⟨?_, ?_, ?_⟩
    · intro k
      refine ⟨a2 (fun k => (h1 k).1) k, fun q => ?_⟩
      simp only [a1, (h1 k).2]
      unfold NodeIn
      constructor
      · rintro ((h | ⟨i, hi, h⟩) | ⟨rfl, h⟩)
        · exact Or.inl h
        · exact Or.inr ⟨i, by omega, h⟩
        · exact Or.inr ⟨n, by omega, rfl, h⟩
      · rintro (h | ⟨i, hi, h, h'⟩)
        · exact Or.inl (Or.inl h)
        · by_cases e : i = n
          · subst e; exact Or.inr ⟨h.symm, h'⟩
          · exact Or.inl (Or.inr ⟨i, by omega, h, h'⟩)
    · intro p k
      simp only [a3, List.mem_append, h2]
      constructor
      · rintro (⟨i, hi, h⟩ | h)
        · exact ⟨i, by omega, h⟩
        · by_cases hp : epart n = p
          · rw [if_pos hp] at h
            obtain ⟨j, hj, e⟩ := List.mem_map.mp h
            exact ⟨n, by omega, hp, j, by simpa using hj, e⟩
          · rw [if_neg hp] at h; simp at h
      · rintro ⟨i, hi, h, h'⟩
        by_cases e : i = n
        · subst e; right; rw [if_pos h]
          obtain ⟨j, hj, e⟩ := h'
          exact List.mem_map.mpr ⟨j, by simpa using hj, e⟩
        · exact Or.inl ⟨i, by omega, h, h'⟩
    · intro p
      simp only [a4]
      by_cases hp : epart n = p
      · subst hp; simp [appendAt, h3, List.range_succ]
      · have hp' : p ≠ epart n := fun e => hp e.symm
        simp [appendAt, setAt_ne _ _ hp', h3, List.range_succ, hp]

/-! ## C20 -/

/-- C20: subdomain `p` is the ascending list of the cells of part `p`. -/
theorem C20_cell_part (nodeid : Nat → Nat → Nat) (npart0 epart : Nat → Nat) (nbnodes n d1 p : Nat) :
    Lists ((partition nodeid npart0 epart nbnodes n d1).cellPart p) (fun i => i < n ∧ epart i = p) := by
  have h := npUniq_lists ((loop1 nodeid npart0 epart n d1).cellPart p)
  refine ⟨h.1, fun x => ?_⟩
  rw [show (partition nodeid npart0 epart nbnodes n d1).cellPart p = npUniq ((loop1 nodeid npart0 epart n d1).cellPart p) from rfl,
    h.2, (loop1_spec nodeid npart0 epart n d1).2.2 p]
  simp

theorem tcList_eq (cellPart : Nat → List Nat) (SIZE : Nat) : tcList cellPart SIZE = (List.range SIZE).flatMap cellPart := by
  unfold tcList
  rw [foldl_flatMap']
  have : ∀ (l acc : List Nat), l.foldl (fun tc c => tc ++ [c]) acc = acc ++ l := by
    intro l
    induction l with
    | nil => simp
    | cons a l ih => intro acc; simp [ih]
  rw [this]; simp

/-- C20: every cell belongs to exactly one subdomain, and the concatenation `tc` of the subdomains is a permutation of all
cells, provided METIS returns parts below `SIZE`. -/
theorem C20_partition (nodeid : Nat → Nat → Nat) (npart0 epart : Nat → Nat) (nbnodes n d1 SIZE : Nat)
    (he : ∀ i < n, epart i < SIZE) :
    (∀ i < n, ∃! p, p < SIZE ∧ i ∈ (partition nodeid npart0 epart nbnodes n d1).cellPart p) ∧
    (tcList (partition nodeid npart0 epart nbnodes n d1).cellPart SIZE).Perm (List.range n) := by
  have hc := fun p => C20_cell_part nodeid npart0 epart nbnodes n d1 p
  constructor
  · intro i hi
    refine ⟨epart i, ⟨he i hi, ((hc _).2 i).mpr ⟨hi, rfl⟩⟩, ?_⟩
    rintro p ⟨_, hp⟩
    exact (((hc p).2 i).mp hp).2.symm
  · rw [tcList_eq, List.perm_ext_iff_of_nodup _ List.nodup_range]
    · intro i
      simp only [List.mem_flatMap, List.mem_range]
      constructor
      · rintro ⟨p, _, hp⟩; exact (((hc p).2 i).mp hp).1
      · intro hi; exact ⟨epart i, he i hi, ((hc _).2 i).mpr ⟨hi, rfl⟩⟩
    · rw [List.nodup_flatMap]
      refine ⟨fun p _ => (hc p).1.imp Nat.ne_of_lt, ?_⟩
      apply List.Pairwise.imp _ (List.nodup_range (n := SIZE))
      intro p q hpq x hp hq
      exact hpq ((((hc p).2 x).mp hp).2.symm.trans (((hc q).2 x).mp hq).2)

/-! ## C21 -/

/-- C21: the list of subdomains of a node is exact and has no repetition; the node list of a subdomain contains exactly the
nodes of its cells, each once. -/
theorem C21_node_parts (nodeid : Nat → Nat → Nat) (npart0 epart : Nat → Nat) (nbnodes n d1 : Nat) :
    let P := partition nodeid npart0 epart nbnodes n d1
    (∀ k, (P.npart k).Nodup ∧ ∀ q, q ∈ P.npart k ↔ (npart0 k = q ∨ ∃ i < n, epart i = q ∧ Uses nodeid d1 i k)) ∧
    (∀ p, (P.nodePart p).Nodup ∧ ∀ k, k ∈ P.nodePart p ↔ ∃ i < n, epart i = p ∧ Uses nodeid d1 i k) := by
  intro P
  obtain ⟨h1, h2, _⟩ := loop1_spec nodeid npart0 epart n d1
  refine ⟨h1, fun p => ?_⟩
  obtain ⟨a, b, _⟩ := uniqueFunc_spec ((loop1 nodeid npart0 epart n d1).nodePart p)
  exact ⟨a, fun k => (b k).trans (h2 p k)⟩

/-! ## C22 -/

theorem neighRaw_mem (npart : Nat → List Nat) (nbnodes p q : Nat) :
    q ∈ neighRaw npart nbnodes p ↔ ∃ k < nbnodes, 1 < (npart k).length ∧ p ∈ npart k ∧ q ∈ npart k := by
  unfold neighRaw
  induction nbnodes with
  | zero => simp
  | succ m ih =>
    rw [List.range_succ, List.foldl_append]
    simp only [List.foldl_cons, List.foldl_nil]
    set ns := (List.range m).foldl (fun ns i =>
      if (npart i).length > 1 then (npart i).foldl (fun ns q => setAt ns q (ns q ++ npart i)) ns else ns) (fun _ => [])
    have inner : ∀ (l : List Nat) (ns : Nat → List Nat),
        q ∈ l.foldl (fun ns q => setAt ns q (ns q ++ npart m)) ns p ↔ q ∈ ns p ∨ (p ∈ l ∧ q ∈ npart m) := by
      intro l
      induction l with
      | nil => simp
      | cons a l ihl =>
        intro ns
        rw [List.foldl_cons, ihl]
        by_cases h : p = a
        · subst h; simp only [setAt_same, List.mem_append, List.mem_cons, true_or, true_and]; tauto
        · rw [setAt_ne _ _ h]; simp only [List.mem_cons, h, false_or]
    have hs : (∃ k < m + 1, 1 < (npart k).length ∧ p ∈ npart k ∧ q ∈ npart k) ↔
        (∃ k < m, 1 < (npart k).length ∧ p ∈ npart k ∧ q ∈ npart k) ∨ (1 < (npart m).length ∧ p ∈ npart m ∧ q ∈ npart m) := by
      constructor
      · rintro ⟨k, hk, h⟩
        by_cases e : k = m
        · subst e; exact Or.inr h
        · exact Or.inl ⟨k, by omega, h⟩
      · rintro (⟨k, hk, h⟩ | h)
        · exact ⟨k, by omega, h⟩
        · exact ⟨m, by omega, h⟩
    rw [hs, ← ih]
    split
    · rename_i h; rw [inner]
      constructor
      · rintro (h' | h')
        · exact Or.inl h'
        · exact Or.inr ⟨h, h'⟩
      · rintro (h' | h')
        · exact Or.inl h'
        · exact Or.inr h'.2
    · rename_i h
      constructor
      · exact Or.inl
      · rintro (h' | h')
        · exact h'
        · exact absurd h'.1 h

theorem two_le_length_of_ne {l : List Nat} {a b : Nat} (ha : a ∈ l) (hb : b ∈ l) (h : a ≠ b) : 1 < l.length := by
  match l with
  | [] => simp at ha
  | [x] => simp at ha hb; exact absurd (ha.trans hb.symm) h
  | _ :: _ :: _ => simp

/-- C22: `q` is listed as a neighbour of `p` iff they are different and some node belongs to both. -/
theorem C22_neighbours (nodeid : Nat → Nat → Nat) (npart0 epart : Nat → Nat) (nbnodes n d1 p : Nat) :
    Lists ((partition nodeid npart0 epart nbnodes n d1).neighsub p) (fun q => q ≠ p ∧
      ∃ k < nbnodes, NodeIn nodeid npart0 epart n d1 p k ∧ NodeIn nodeid npart0 epart n d1 q k) := by
  obtain ⟨h1, _, _⟩ := loop1_spec nodeid npart0 epart n d1
  set np := (loop1 nodeid npart0 epart n d1).npart
  have hl := npUniq_lists (neighRaw np nbnodes p)
  refine ⟨List.Pairwise.sublist List.filter_sublist hl.1, fun q => ?_⟩
  have : q ∈ (partition nodeid npart0 epart nbnodes n d1).neighsub p ↔ q ∈ npUniq (neighRaw np nbnodes p) ∧ q ≠ p := by
    simp [partition, np]
  rw [this, hl.2]
  simp only []
  rw [neighRaw_mem]
  constructor
  · rintro ⟨⟨k, hk, _, hp, hq⟩, hne⟩
    exact ⟨hne, k, hk, ((h1 k).2 p).mp hp, ((h1 k).2 q).mp hq⟩
  · rintro ⟨hne, k, hk, hp, hq⟩
    have hp' := ((h1 k).2 p).mpr hp
    have hq' := ((h1 k).2 q).mpr hq
    exact ⟨⟨k, hk, two_le_length_of_ne hp' hq' (Ne.symm hne), hp', hq'⟩, hne⟩

/-- C22: the neighbour relation is symmetric and irreflexive. -/
theorem C22_symmetric (nodeid : Nat → Nat → Nat) (npart0 epart : Nat → Nat) (nbnodes n d1 p q : Nat) :
    let P := partition nodeid npart0 epart nbnodes n d1
    (q ∈ P.neighsub p ↔ p ∈ P.neighsub q) ∧ p ∉ P.neighsub p := by
  intro P
  have hp := C22_neighbours nodeid npart0 epart nbnodes n d1 p
  have hq := C22_neighbours nodeid npart0 epart nbnodes n d1 q
  constructor
  · rw [show q ∈ P.neighsub p ↔ _ from hp.2 q, show p ∈ P.neighsub q ↔ _ from hq.2 p]
    constructor
    · rintro ⟨h, k, hk, a, b⟩; exact ⟨h.symm, k, hk, b, a⟩
    · rintro ⟨h, k, hk, a, b⟩; exact ⟨h.symm, k, hk, b, a⟩
  · intro h; exact ((hp.2 p).mp h).1 rfl

/-! ## C23 -/

theorem sum_len_gt (len : Nat → Nat) (m : Nat) (h1 : ∀ j < m, 1 ≤ len j) :
    m ≤ ((List.range m).map len).sum ∧ (m < ((List.range m).map len).sum ↔ ∃ j < m, 1 < len j) := by
  induction m with
  | zero => simp
  | succ m ih =>
    obtain ⟨a, b⟩ := ih (fun j hj => h1 j (by omega))
    have hm := h1 m (by omega)
    rw [List.range_succ, List.map_append, List.sum_append]
    simp only [List.map_cons, List.map_nil, List.sum_cons, List.sum_nil, Nat.add_zero]
    refine ⟨by omega, ?_⟩
    constructor
    · intro h
      by_cases hl : 1 < len m
      · exact ⟨m, by omega, hl⟩
      · obtain ⟨j, hj, h'⟩ := b.mp (by omega); exact ⟨j, by omega, h'⟩
    · rintro ⟨j, hj, h'⟩
      by_cases e : j = m
      · subst e; omega
      · have := b.mpr ⟨j, by omega, h'⟩; omega

theorem haloInner (len : Nat → Nat) (d1 c : Nat) (l : List Nat) (m : Nat) :
    let r := (List.range m).foldl (fun (s : Nat × List Nat) k =>
      let a := s.1 + len k
      if a > d1 then (a, s.2 ++ [c]) else (a, s.2)) (0, l)
    r.1 = ((List.range m).map len).sum ∧
    ∀ x, x ∈ r.2 ↔ x ∈ l ∨ (x = c ∧ ∃ m' < m, d1 < ((List.range (m' + 1)).map len).sum) := by
  induction m with
  | zero => simp
  | succ m ih =>
    intro r
    set t := (List.range m).foldl (fun (s : Nat × List Nat) k =>
      let a := s.1 + len k
      if a > d1 then (a, s.2 ++ [c]) else (a, s.2)) (0, l) with ht
    have hr : r = if t.1 + len m > d1 then (t.1 + len m, t.2 ++ [c]) else (t.1 + len m, t.2) := by
      simp only [r, List.range_succ, List.foldl_append, List.foldl_cons, List.foldl_nil]; rfl
    obtain ⟨a, b⟩ := ih
    have hsum : t.1 + len m = ((List.range (m + 1)).map len).sum := by
      rw [a, List.range_succ, List.map_append, List.sum_append]; simp
    rw [hr, hsum]
    have hs : ∀ x, (x = c ∧ ∃ m' < m + 1, d1 < ((List.range (m' + 1)).map len).sum) ↔
        (x = c ∧ ∃ m' < m, d1 < ((List.range (m' + 1)).map len).sum) ∨ (x = c ∧ d1 < ((List.range (m + 1)).map len).sum) := by
      intro x
      constructor
      · rintro ⟨hx, m', hm', h⟩
        by_cases e : m' = m
        · subst e; exact Or.inr ⟨hx, h⟩
        · exact Or.inl ⟨hx, m', by omega, h⟩
      · rintro (⟨hx, m', hm', h⟩ | ⟨hx, h⟩)
        · exact ⟨hx, m', by omega, h⟩
        · exact ⟨hx, m, by omega, h⟩
    split
    · rename_i h
      refine ⟨rfl, fun x => ?_⟩
      simp only [List.mem_append, b, List.mem_singleton, hs]
      have h' : d1 < ((List.range (m + 1)).map len).sum := h
      simp only [h', and_true]; tauto
    · rename_i h
      refine ⟨rfl, fun x => ?_⟩
      have h' : ¬ d1 < ((List.range (m + 1)).map len).sum := h
      rw [b, hs]; simp only [h', and_false, or_false]

theorem prefix_sum_mono (len : Nat → Nat) (a b : Nat) (h : a ≤ b) :
    ((List.range a).map len).sum ≤ ((List.range b).map len).sum := by
  induction b with
  | zero => obtain rfl : a = 0 := by omega
            exact le_rfl
  | succ b ih =>
    by_cases e : a = b + 1
    · subst e; exact le_rfl
    · rw [List.range_succ, List.map_append, List.sum_append]
      have := ih (by omega); omega

theorem haloRaw_mem (nodeid : Nat → Nat → Nat) (npart : Nat → List Nat) (cells : List Nat) (d1 : Nat) (hd : 0 < d1)
    (h1 : ∀ k, 1 ≤ (npart k).length) (x : Nat) :
    x ∈ haloRaw nodeid npart cells d1 ↔ x ∈ cells ∧ ∃ j < d1, 1 < (npart (nodeid x j)).length := by
  unfold haloRaw
  have key : ∀ (cells l : List Nat), x ∈ cells.foldl (fun l j =>
      ((List.range d1).foldl (fun (s : Nat × List Nat) k =>
        let a := s.1 + (npart (nodeid j k)).length
        if a > d1 then (a, s.2 ++ [j]) else (a, s.2)) (0, l)).2) l ↔
      x ∈ l ∨ (x ∈ cells ∧ ∃ j < d1, 1 < (npart (nodeid x j)).length) := by
    intro cells
    induction cells with
    | nil => simp
    | cons c cells ih =>
      intro l
      rw [List.foldl_cons, ih, (haloInner (fun k => (npart (nodeid c k)).length) d1 c l d1).2 x]
      have hg := (sum_len_gt (fun k => (npart (nodeid c k)).length) d1 (fun j _ => h1 _)).2
      have hex : (∃ m' < d1, d1 < ((List.range (m' + 1)).map (fun k => (npart (nodeid c k)).length)).sum) ↔
          ∃ j < d1, 1 < (npart (nodeid c j)).length := by
        rw [← hg]
        constructor
        · rintro ⟨m', hm', h⟩
          exact lt_of_lt_of_le h (prefix_sum_mono _ (m' + 1) d1 hm')
        · intro h
          exact ⟨d1 - 1, by omega, by rwa [Nat.sub_add_cancel hd]⟩
      rw [hex, List.mem_cons]
      constructor
      · rintro ((h | ⟨rfl, h⟩) | ⟨h, h'⟩)
        · exact Or.inl h
        · exact Or.inr ⟨Or.inl rfl, h⟩
        · exact Or.inr ⟨Or.inr h, h'⟩
      · rintro (h | ⟨rfl | h, h'⟩)
        · exact Or.inl (Or.inl h)
        · exact Or.inl (Or.inr ⟨rfl, h'⟩)
        · exact Or.inr ⟨h, h'⟩
  rw [key]; simp

/-- C23: the halo cells of `p` are exactly its cells having a node that belongs to two different subdomains. -/
theorem C23_halo_cells (nodeid : Nat → Nat → Nat) (npart0 epart : Nat → Nat) (nbnodes n d1 p : Nat) (hd : 0 < d1) :
    Lists ((partition nodeid npart0 epart nbnodes n d1).haloCell p) (fun c => c < n ∧ epart c = p ∧
      ∃ k, Uses nodeid d1 c k ∧ ∃ q q', q ≠ q' ∧ NodeIn nodeid npart0 epart n d1 q k ∧ NodeIn nodeid npart0 epart n d1 q' k) := by
  obtain ⟨h1, _, h3⟩ := loop1_spec nodeid npart0 epart n d1
  set np := (loop1 nodeid npart0 epart n d1).npart
  have hpos : ∀ k, 1 ≤ (np k).length := by
    intro k
    have : npart0 k ∈ np k := ((h1 k).2 _).mpr (Or.inl rfl)
    exact List.length_pos_of_mem this
  have hl := npUniq_lists (haloRaw nodeid np ((loop1 nodeid npart0 epart n d1).cellPart p) d1)
  refine ⟨hl.1, fun c => ?_⟩
  refine (hl.2 c).trans ?_
  simp only []
  rw [haloRaw_mem nodeid np _ d1 hd hpos, h3]
  simp only [List.mem_filter, List.mem_range, decide_eq_true_eq]
  constructor
  · rintro ⟨⟨hc, he⟩, j, hj, hlen⟩
    refine ⟨hc, he, nodeid c j, ⟨j, hj, rfl⟩, ?_⟩
    have hnd := (h1 (nodeid c j)).1
    match hh : np (nodeid c j) with
    | [] => rw [hh] at hlen; simp at hlen
    | [a] => rw [hh] at hlen; simp at hlen
    | a :: b :: t =>
      rw [hh] at hnd
      refine ⟨a, b, ?_, ((h1 _).2 a).mp (by simp [hh]), ((h1 _).2 b).mp (by simp [hh])⟩
      intro e; simp [e] at hnd
  · rintro ⟨hc, he, k, ⟨j, hj, rfl⟩, q, q', hne, hq, hq'⟩
    exact ⟨⟨hc, he⟩, j, hj, two_le_length_of_ne (((h1 _).2 q).mpr hq) (((h1 _).2 q').mpr hq') hne⟩

/-! ## C24 -/

theorem cpart_spec (nodeid : Nat → Nat → Nat) (epart : Nat → Nat) (npart : Nat → List Nat) (d1 i : Nat) :
    (cpart nodeid epart npart d1 i).Nodup ∧
    ∀ q, q ∈ cpart nodeid epart npart d1 i ↔ q = epart i ∨ ∃ j < d1, q ∈ npart (nodeid i j) := by
  unfold Part.cpart
  rw [foldl_flatMap']
  obtain ⟨a, b⟩ := foldl_insertNew_spec ((List.range d1).flatMap (fun j => npart (nodeid i j))) [epart i] (by simp)
  refine ⟨a, fun q => ?_⟩
  rw [b]; simp

theorem filter_eq_single {l : List Nat} (hn : l.Nodup) (q : Nat) : l.filter (fun x => x = q) = if q ∈ l then [q] else [] := by
  induction l with
  | nil => simp
  | cons a l ih =>
    rw [List.nodup_cons] at hn
    by_cases h : a = q
    · subst h
      have : a ∉ l := hn.1
      simp [ih hn.2, this]
    · have h' : ¬ q = a := fun e => h e.symm
      simp [h, h', ih hn.2]

/-- The contribution of one cell to the two dictionaries. -/
theorem halos_inner (cp : List Nat) (i cell : Nat) (s : (Nat → Nat → List Nat) × (Nat → Nat → List Nat)) (p q : Nat) :
    let r := cp.foldl (fun (s : (Nat → Nat → List Nat) × (Nat → Nat → List Nat)) q =>
        if i ≠ q then (setAt s.1 i (appendAt (s.1 i) q cell), setAt s.2 q (appendAt (s.2 q) i cell)) else s) s
    r.1 p q = s.1 p q ++ (if p = i ∧ i ≠ q then (cp.filter (fun x => x = q)).map (fun _ => cell) else []) ∧
    r.2 q p = s.2 q p ++ (if p = i ∧ i ≠ q then (cp.filter (fun x => x = q)).map (fun _ => cell) else []) := by
  induction cp generalizing s with
  | nil => simp
  | cons a cp ih =>
    intro r
    obtain ⟨h1, h2⟩ := ih (if i ≠ a then (setAt s.1 i (appendAt (s.1 i) a cell), setAt s.2 a (appendAt (s.2 a) i cell)) else s)
    have hr : r = cp.foldl (fun (s : (Nat → Nat → List Nat) × (Nat → Nat → List Nat)) q =>
        if i ≠ q then (setAt s.1 i (appendAt (s.1 i) q cell), setAt s.2 q (appendAt (s.2 q) i cell)) else s)
        (if i ≠ a then (setAt s.1 i (appendAt (s.1 i) a cell), setAt s.2 a (appendAt (s.2 a) i cell)) else s) := rfl
    rw [hr, h1, h2]
    by_cases hia : i = a
    · subst hia
      simp only [ne_eq, not_true, if_false]
      by_cases hpq : p = i ∧ i ≠ q
      · have : ¬ i = q := hpq.2
        simp [hpq.1, this]
      · simp only [hpq, if_false]
        have : ¬ (p = i ∧ ¬ i = q) := hpq
        simp [this]
    · simp only [ne_eq, hia, not_false_eq_true, if_true]
      by_cases hp : p = i
      · subst hp
        by_cases hq : q = a
        · subst hq; simp [appendAt, hia]
        · have hq' : ¬ a = q := fun e => hq e.symm
          simp [appendAt, setAt_ne _ _ hq, hq']
      · by_cases hq : q = a
        · subst hq; simp [appendAt, setAt_ne _ _ hp, hp]
        · simp [setAt_ne _ _ hp, setAt_ne _ _ hq, hp]

theorem halos_eq (cp hc : Nat → List Nat) (hn : ∀ c, (cp c).Nodup) (SIZE p q : Nat) :
    (halos cp hc SIZE).1 p q = (if p < SIZE ∧ p ≠ q then (hc p).filter (fun c => q ∈ cp c) else []) ∧
    (halos cp hc SIZE).2 q p = (if p < SIZE ∧ p ≠ q then (hc p).filter (fun c => q ∈ cp c) else []) := by
  have cellsLoop : ∀ (l : List Nat) (i : Nat) (s : (Nat → Nat → List Nat) × (Nat → Nat → List Nat)),
      let r := l.foldl (fun s cell => (cp cell).foldl (fun (s : (Nat → Nat → List Nat) × (Nat → Nat → List Nat)) q =>
        if i ≠ q then (setAt s.1 i (appendAt (s.1 i) q cell), setAt s.2 q (appendAt (s.2 q) i cell)) else s) s) s
      r.1 p q = s.1 p q ++ (if p = i ∧ i ≠ q then l.filter (fun c => q ∈ cp c) else []) ∧
      r.2 q p = s.2 q p ++ (if p = i ∧ i ≠ q then l.filter (fun c => q ∈ cp c) else []) := by
    intro l i
    induction l with
    | nil => intro s; simp
    | cons c l ih =>
      intro s r
      obtain ⟨a1, a2⟩ := halos_inner (cp c) i c s p q
      obtain ⟨b1, b2⟩ := ih ((cp c).foldl (fun (s : (Nat → Nat → List Nat) × (Nat → Nat → List Nat)) q =>
        if i ≠ q then (setAt s.1 i (appendAt (s.1 i) q c), setAt s.2 q (appendAt (s.2 q) i c)) else s) s)
      have e : (if p = i ∧ i ≠ q then ((cp c).filter (fun x => x = q)).map (fun _ => c) else [])
          ++ (if p = i ∧ i ≠ q then l.filter (fun c => q ∈ cp c) else [])
          = if p = i ∧ i ≠ q then (c :: l).filter (fun c => q ∈ cp c) else [] := by
        split
        · rw [filter_eq_single (hn c) q]
          by_cases h : q ∈ cp c <;> simp [h]
        · simp
      constructor
      · refine Eq.trans b1 ?_
        rw [a1, List.append_assoc, e]
      · refine Eq.trans b2 ?_
        rw [a2, List.append_assoc, e]
  unfold halos
  induction SIZE with
  | zero => simp
  | succ m ih =>
    rw [List.range_succ, List.foldl_append]
    simp only [List.foldl_cons, List.foldl_nil]
    obtain ⟨a1, a2⟩ := cellsLoop (hc m) m _
    rw [a1, a2, ih.1, ih.2]
    by_cases h : p = m
    · subst h; simp
    · have e : p < m + 1 ↔ p < m := by omega
      simp [h, e]

/-- C24: for all subdomains, the list of cells `p` sends to `q` is the list of cells `q` expects from `p` (same order), and
for `p ≠ q` it is the ascending list of the cells of `p` having a node that belongs to `q`. -/
theorem C24_send_receive (nodeid : Nat → Nat → Nat) (npart0 epart : Nat → Nat) (nbnodes n d1 SIZE p q : Nat) (hd : 0 < d1)
    (hp : p < SIZE) :
    let P := partition nodeid npart0 epart nbnodes n d1
    let h := halos P.cpart P.haloCell SIZE
    h.1 p q = h.2 q p ∧
    (p ≠ q → Lists (h.1 p q) (fun c => c < n ∧ epart c = p ∧ ∃ k, Uses nodeid d1 c k ∧ NodeIn nodeid npart0 epart n d1 q k)) := by
  intro P h
  obtain ⟨h1, _, _⟩ := loop1_spec nodeid npart0 epart n d1
  have hcp := fun c => cpart_spec nodeid epart (loop1 nodeid npart0 epart n d1).npart d1 c
  obtain ⟨e1, e2⟩ := halos_eq P.cpart P.haloCell (fun c => (hcp c).1) SIZE p q
  refine ⟨e1.trans e2.symm, ?_⟩
  intro hpq
  have hh := C23_halo_cells nodeid npart0 epart nbnodes n d1 p hd
  have e : h.1 p q = (P.haloCell p).filter (fun c => q ∈ P.cpart c) := by
    rw [show h.1 p q = _ from e1, if_pos ⟨hp, hpq⟩]
  rw [e]
  refine ⟨List.Pairwise.sublist List.filter_sublist hh.1, fun c => ?_⟩
  have hm : c ∈ (P.haloCell p).filter (fun c => q ∈ P.cpart c) ↔ c ∈ P.haloCell p ∧ q ∈ P.cpart c := by simp
  rw [hm, show c ∈ P.haloCell p ↔ _ from hh.2 c, show q ∈ P.cpart c ↔ _ from (hcp c).2 q]
  constructor
  · rintro ⟨⟨hc, he, _⟩, hq⟩
    rcases hq with rfl | ⟨j, hj, hq⟩
    · exact absurd he.symm hpq
    · exact ⟨hc, he, nodeid c j, ⟨j, hj, rfl⟩, ((h1 _).2 q).mp hq⟩
  · rintro ⟨hc, he, k, ⟨j, hj, rfl⟩, hq⟩
    refine ⟨⟨hc, he, nodeid c j, ⟨j, hj, rfl⟩, p, q, hpq, Or.inr ⟨c, hc, he, j, hj, rfl⟩, hq⟩, Or.inr ⟨j, hj, ((h1 _).2 q).mpr hq⟩⟩

/-- C24: whenever `q` is listed as a neighbour of `p`, both dictionaries have the key (no `KeyError` while writing the mesh
files), provided METIS gives every used node the part of one of its cells and every node is used by a cell. -/
theorem C24_keys_present (nodeid : Nat → Nat → Nat) (npart0 epart : Nat → Nat) (nbnodes n d1 SIZE p q : Nat) (hd : 0 < d1)
    (hp : p < SIZE) (hq : q < SIZE) (hok : NodePartOk nodeid npart0 epart n d1)
    (hused : ∀ k < nbnodes, ∃ i < n, Uses nodeid d1 i k) :
    let P := partition nodeid npart0 epart nbnodes n d1
    let h := halos P.cpart P.haloCell SIZE
    q ∈ P.neighsub p → h.1 p q ≠ [] ∧ h.2 p q ≠ [] := by
  intro P h hn
  obtain ⟨hne, k, hk, hpk, hqk⟩ := ((C22_neighbours nodeid npart0 epart nbnodes n d1 p).2 q).mp hn
  have owner : ∀ r, NodeIn nodeid npart0 epart n d1 r k → ∃ i < n, epart i = r ∧ Uses nodeid d1 i k := by
    rintro r (h | h)
    · obtain ⟨i, hi, j, hj, rfl⟩ := hused k hk
      obtain ⟨i', hi', he, hu⟩ := hok i hi j hj
      exact ⟨i', hi', he.trans h, hu⟩
    · exact h
  obtain ⟨i, hi, hie, hiu⟩ := owner p hpk
  obtain ⟨i', hi', hie', hiu'⟩ := owner q hqk
  obtain ⟨_, l1⟩ := C24_send_receive nodeid npart0 epart nbnodes n d1 SIZE p q hd hp
  obtain ⟨e2, l2⟩ := C24_send_receive nodeid npart0 epart nbnodes n d1 SIZE q p hd hq
  constructor
  · intro hnil
    have := ((l1 (Ne.symm hne)).2 i).mpr ⟨hi, hie, k, hiu, hqk⟩
    rw [show (halos (partition nodeid npart0 epart nbnodes n d1).cpart (partition nodeid npart0 epart nbnodes n d1).haloCell SIZE).1 p q = [] from hnil] at this
    simp at this
  · intro hnil
    have := ((l2 hne).2 i').mpr ⟨hi', hie', k, hiu', hpk⟩
    rw [e2, show (halos (partition nodeid npart0 epart nbnodes n d1).cpart (partition nodeid npart0 epart nbnodes n d1).haloCell SIZE).2 p q = [] from hnil] at this
    simp at this

/-- Four triangles in a strip, split 2+2. -/
def exStrip : Nat → Nat → Nat := fun i j => i + j
def exE : Nat → Nat := fun i => if i < 2 then 0 else 1
def exN : Nat → Nat := fun k => if k < 3 then 0 else 1

example : let P := partition exStrip exN exE 6 4 3
    P.cellPart 0 = [0, 1] ∧ P.cellPart 1 = [2, 3] ∧ P.neighsub 0 = [1] ∧ P.neighsub 1 = [0] ∧
    P.haloCell 0 = [0, 1] ∧ P.haloCell 1 = [2, 3] ∧ P.nodePart 1 = [2, 3, 4, 5] ∧ P.npart 2 = [0, 1] ∧
    (halos P.cpart P.haloCell 2).1 0 1 = [0, 1] ∧ tcList P.cellPart 2 = [0, 1, 2, 3] := by decide +kernel
instance (nodeid : Nat → Nat → Nat) (npart0 epart : Nat → Nat) (n d1 : Nat) : Decidable (NodePartOk nodeid npart0 epart n d1) := by
  unfold NodePartOk; infer_instance
example : NodePartOk exStrip exN exE 4 3 ∧ (∀ i < 4, exE i < 2) ∧ ∀ k < 6, ∃ i < 4, Uses exStrip 3 i k := by decide +kernel

end Verif.Props
