import Verif.Spec.Periodic
import Verif.Props.Part
import Mathlib.Data.List.Sort
set_option linter.unusedSectionVars false
set_option linter.unusedSimpArgs false
set_option linter.unusedVariables false

/-!
# C68: periodic boundaries
-/
namespace Verif.Props.Per
open Verif Verif.Spec Verif.Periodic
variable {K : Type*} [DecidableEq K]

theorem keyGet_map (key : Nat → Key K) (val : Nat → Nat) (l : List Nat) (h : ∀ i ∈ l, ∀ j ∈ l, key i = key j → i = j) (k : Nat) (hk : k ∈ l) :
    keyGet (l.map (fun i => (key i, val i))) (key k) = some (val k) := by
  unfold keyGet
  cases hf : (l.map (fun i => (key i, val i))).reverse.find? (fun e => e.1 = key k) with
  | none =>
    have := List.find?_eq_none.mp hf (key k, val k) (List.mem_reverse.mpr (List.mem_map.mpr ⟨k, hk, rfl⟩))
    simp at this
  | some e =>
    have h1 := List.find?_some hf
    have h2 := List.mem_reverse.mp (List.mem_of_find?_eq_some hf)
    obtain ⟨i, hi, rfl⟩ := List.mem_map.mp h2
    simp only [decide_eq_true_eq] at h1
    rw [h i hi k hk h1]; rfl

theorem shift_foldl (l : List Nat) (comp : Nat) (val : K) (sh : Nat → Nat → K) (c e : Nat) :
    l.foldl (fun sh cell => setAt sh cell (setAt (sh cell) comp val)) sh c e = if e = comp ∧ c ∈ l then val else sh c e := by
  induction l generalizing sh with
  | nil => simp
  | cons a l ih =>
    rw [List.foldl_cons, ih]
    by_cases he : e = comp
    · subst he
      by_cases hc : c ∈ l
      · simp [hc]
      · by_cases ha : c = a
        · subst ha; simp [hc]
        · simp [hc, ha, setAt_ne _ _ ha]
    · by_cases ha : c = a
      · subst ha; simp [he, setAt_ne _ _ he]
      · simp [he, ha, setAt_ne _ _ ha]

/-- A loop over the faces of one side. -/
theorem facePass_spec (m : PMesh K) (dict : List (Key K × Nat)) (look : Nat → Key K) (comp : Nat) (val : K) (faces : List Nat)
    (π : Nat → Nat) (h : ∀ i ∈ faces, keyGet dict (look i) = some (π i)) (s : PState K) :
    ∃ s', facePass m dict look comp val faces s = some s' ∧ s'.nper = s.nper ∧
      (∀ i, s'.cell1 i = if i ∈ faces then (π i : Int) else s.cell1 i) ∧
      (∀ x c, c ∈ s'.pnid x ↔ c ∈ s.pnid x ∨ ∃ i ∈ faces, m.cell0 i = x ∧ c ∈ m.cellnid (π i)) ∧
      (∀ c e, s'.shift c e = if e = comp ∧ ∃ i ∈ faces, c ∈ s'.pnid (m.cell0 i) then val else s.shift c e) := by
  induction faces generalizing s with
  | nil => exact ⟨s, rfl, rfl, by simp, by simp, by simp⟩
  | cons a l ih =>
    obtain ⟨s1, hs1⟩ : ∃ s1 : PState K, s1 =
        { cell1 := setAt s.cell1 a (π a : Int)
          pfid := setAt s.pfid (m.cell0 a) (π a : Int)
          pnid := setAt s.pnid (m.cell0 a) (s.pnid (m.cell0 a) ++ m.cellnid (π a))
          shift := (s.pnid (m.cell0 a) ++ m.cellnid (π a)).foldl (fun sh cell => setAt sh cell (setAt (sh cell) comp val)) s.shift
          nper := s.nper } := ⟨_, rfl⟩
    obtain ⟨s', e1, e2, e3, e4, e5⟩ := ih (fun i hi => h i (by simp [hi])) s1
    refine ⟨s', ?_, ?_, ?_, ?_, ?_⟩
    · unfold facePass at e1 ⊢
      rw [List.foldlM_cons, h a (by simp)]
      simp only [Option.bind_eq_bind, Option.bind_some]
      rw [← hs1]; exact e1
    · rw [e2, hs1]
    · intro i
      rw [e3]
      by_cases hi : i ∈ l
      · simp [hi]
      · by_cases ha : i = a
        · subst ha; simp [hi, hs1]
        · simp [hi, ha, hs1, setAt_ne _ _ ha]
    · intro x c
      rw [e4]
      have : c ∈ s1.pnid x ↔ c ∈ s.pnid x ∨ (m.cell0 a = x ∧ c ∈ m.cellnid (π a)) := by
        rw [hs1]
        by_cases hx : x = m.cell0 a
        · subst hx; simp
        · have : ¬ m.cell0 a = x := fun e => hx e.symm
          simp [setAt_ne _ _ hx, this]
      rw [this]
      simp only [List.mem_cons, exists_eq_or_imp, or_assoc]
    · intro c e
      rw [e5]
      have hs : s1.shift c e = if e = comp ∧ c ∈ s1.pnid (m.cell0 a) then val else s.shift c e := by
        rw [hs1]; simp only [shift_foldl, setAt_same]
      rw [hs]
      have key : (∃ i ∈ a :: l, c ∈ s'.pnid (m.cell0 i)) ↔ (∃ i ∈ l, c ∈ s'.pnid (m.cell0 i)) ∨ c ∈ s1.pnid (m.cell0 a) := by
        constructor
        · rintro ⟨i, hi, hc⟩
          rcases List.mem_cons.mp hi with rfl | hi
          · rcases (e4 (m.cell0 i) c).mp hc with hc | ⟨i', hi', e', hc'⟩
            · exact Or.inr hc
            · exact Or.inl ⟨i', hi', by rw [e']; exact hc⟩
          · exact Or.inl ⟨i, hi, hc⟩
        · rintro (⟨i, hi, hc⟩ | hc)
          · exact ⟨i, by simp [hi], hc⟩
          · exact ⟨a, by simp, (e4 _ _).mpr (Or.inl hc)⟩
      by_cases he : e = comp
      · simp only [he, true_and, key]
        by_cases h1 : ∃ i ∈ l, c ∈ s'.pnid (m.cell0 i)
        · rw [if_pos h1, if_pos (Or.inl h1)]
        · rw [if_neg h1]
          by_cases h2 : c ∈ s1.pnid (m.cell0 a)
          · rw [if_pos h2, if_pos (Or.inr h2)]
          · rw [if_neg h2, if_neg (not_or.mpr ⟨h1, h2⟩)]
      · simp [he]

/-- If a look-up fails, the loop fails. -/
theorem facePass_none (m : PMesh K) (dict : List (Key K × Nat)) (look : Nat → Key K) (comp : Nat) (val : K) (faces : List Nat)
    (h : ∃ i ∈ faces, keyGet dict (look i) = none) (s : PState K) : facePass m dict look comp val faces s = none := by
  induction faces generalizing s with
  | nil => simp at h
  | cons a l ih =>
    unfold facePass
    rw [List.foldlM_cons]
    cases ha : keyGet dict (look a) with
    | none => rfl
    | some c =>
      have : ∃ i ∈ l, keyGet dict (look i) = none := by
        obtain ⟨i, hi, he⟩ := h
        rcases List.mem_cons.mp hi with rfl | hi
        · rw [ha] at he; cases he
        · exact ⟨i, hi, he⟩
      exact ih this _

/-- A loop over the nodes of one side. -/
theorem nodePass_spec (dict : List (Key K × Int)) (look : Nat → Key K) (nodes : List Nat) (hn : nodes.Nodup)
    (h : ∀ i ∈ nodes, (dict.filter (fun e => e.1 = look i)).map (·.2) ≠ []) (s : PState K) :
    ∃ s', nodePass dict look nodes s = some s' ∧ s'.cell1 = s.cell1 ∧ s'.pnid = s.pnid ∧ s'.shift = s.shift ∧
      (∀ i, s'.nper i = if i ∈ nodes then s.nper i ++ (dict.filter (fun e => e.1 = look i)).map (·.2) else s.nper i) := by
  induction nodes generalizing s with
  | nil => exact ⟨s, rfl, rfl, rfl, rfl, by simp⟩
  | cons a l ih =>
    have ⟨ha, hn'⟩ := List.nodup_cons.mp hn
    obtain ⟨s', e1, e2, e3, e4, e5⟩ := ih hn' (fun i hi => h i (by simp [hi]))
      { s with nper := setAt s.nper a (s.nper a ++ (dict.filter (fun e => e.1 = look a)).map (·.2)) }
    refine ⟨s', ?_, e2, e3, e4, ?_⟩
    · unfold nodePass at e1 ⊢
      rw [List.foldlM_cons]
      have hne := h a (by simp)
      obtain ⟨L, hL⟩ : ∃ L, L = (dict.filter (fun e => e.1 = look a)).map (·.2) := ⟨_, rfl⟩
      rw [← hL] at hne e1 ⊢
      cases L with
      | nil => exact absurd rfl hne
      | cons b L => exact e1
    · intro i
      rw [e5]
      by_cases hi : i = a
      · subst hi; simp [ha]
      · by_cases hl : i ∈ l <;> simp [hi, hl, setAt_ne _ _ hi]

theorem nodePass_none (dict : List (Key K × Int)) (look : Nat → Key K) (nodes : List Nat)
    (h : ∃ i ∈ nodes, ∀ e ∈ dict, e.1 ≠ look i) (s : PState K) : nodePass dict look nodes s = none := by
  induction nodes generalizing s with
  | nil => simp at h
  | cons a l ih =>
    unfold nodePass
    rw [List.foldlM_cons]
    obtain ⟨L, hL⟩ : ∃ L, L = (dict.filter (fun e => e.1 = look a)).map (·.2) := ⟨_, rfl⟩
    rw [← hL]
    cases L with
    | nil => rfl
    | cons b L =>
      have : ∃ i ∈ l, ∀ e ∈ dict, e.1 ≠ look i := by
        obtain ⟨i, hi, he⟩ := h
        rcases List.mem_cons.mp hi with rfl | hi
        · have hb : b ∈ (dict.filter (fun e => e.1 = look i)).map (·.2) := by rw [← hL]; simp
          obtain ⟨e, he', _⟩ := List.mem_map.mp hb
          have := List.mem_filter.mp he'
          exact absurd (by simpa using this.2) (he e this.1)
        · exact ⟨i, hi, he⟩
      exact ih this _

theorem filter_nodeDict (r : K → K) (m : PMesh K) (nodes : List Nat) (hn : nodes.Nodup) (h : KeysDistinct r m.vertex nodes) (k : Nat) (hk : k ∈ nodes) :
    ((nodeDict r m nodes).filter (fun e => e.1 = keyAt r (m.vertex k))).map (·.2) = (m.ncells k).map (fun (c : Nat) => (c : Int)) := by
  unfold nodeDict
  rw [List.filter_flatMap, List.map_flatMap]
  have : ∀ i ∈ nodes, ((List.map (fun (c : Nat) => (keyAt r (m.vertex i), (c : Int))) (m.ncells i)).filter
      (fun e => e.1 = keyAt r (m.vertex k))).map (·.2) = if i = k then (m.ncells k).map (fun (c : Nat) => (c : Int)) else [] := by
    intro i hi
    by_cases e : i = k
    · subst e
      rw [if_pos rfl, List.filter_eq_self.mpr]
      · simp [Function.comp_def]
      · intro x hx; obtain ⟨c, _, rfl⟩ := List.mem_map.mp hx; simp
    · rw [if_neg e, List.filter_eq_nil_iff.mpr]
      · rfl
      · intro x hx; obtain ⟨c, _, rfl⟩ := List.mem_map.mp hx
        simp only [decide_eq_true_eq]
        exact fun he => e (h i hi k hk he)
  rw [List.flatMap_def, List.map_congr_left this, ← List.flatMap_def]
  clear this h
  induction nodes with
  | nil => simp at hk
  | cons a l ih =>
    have ⟨ha, hn'⟩ := List.nodup_cons.mp hn
    rw [List.flatMap_cons]
    by_cases e : a = k
    · subst e
      rw [if_pos rfl, List.flatMap_eq_nil_iff.mpr, List.append_nil]
      intro i hi
      rw [if_neg (fun e => ha (by rw [← e]; exact hi))]
    · rw [if_neg e, List.nil_append]
      rcases List.mem_cons.mp hk with rfl | hk
      · exact absurd rfl e
      · exact ih hn' hk

theorem visible_nat (l : List Nat) : ListsCells (visible (l.map (fun (c : Nat) => (c : Int)))) l := by
  unfold visible
  obtain ⟨u, hu⟩ : ∃ u, u = ((l.map (fun (c : Nat) => (c : Int))).insertionSort (· ≤ ·)).dedup := ⟨_, rfl⟩
  have hmem : ∀ x, x ∈ u ↔ ∃ c ∈ l, x = (c : Int) := by
    intro x
    rw [hu, List.mem_dedup, List.mem_insertionSort, List.mem_map]
    constructor
    · rintro ⟨c, hc, e⟩; exact ⟨c, hc, e.symm⟩
    · rintro ⟨c, hc, e⟩; exact ⟨c, hc, e.symm⟩
  have hall : u.filter (fun x => x ≠ -1) = u := by
    rw [List.filter_eq_self]
    intro x hx
    obtain ⟨c, _, rfl⟩ := (hmem x).mp hx
    simp
  simp only [← hu, hall, List.take_length]
  refine ⟨?_, hmem⟩
  have hs : u.Pairwise (· ≤ ·) := by
    rw [hu]
    exact List.Pairwise.sublist (List.dedup_sublist _) (List.pairwise_insertionSort _ _)
  have hnd : u.Nodup := by rw [hu]; exact List.nodup_dedup _
  exact (hs.and hnd).imp (fun h => lt_of_le_of_ne h.1 h.2)


section dirs
variable [Field K]

omit [DecidableEq K] in
theorem key_translate (r : K → K) (d : Nat) (hd : d < 3) (δ x : K) (a b : Nat → K) (h : IsTranslate d δ a b) (hx : x = r (a d + δ)) :
    repl d x (keyAt r a) = keyAt r b := by
  have h0 := h 0 (by omega); have h1 := h 1 (by omega); have h2 := h 2 (by omega)
  subst hx
  rcases (by omega : d = 0 ∨ d = 1 ∨ d = 2) with rfl | rfl | rfl <;> simp_all [repl, keyAt]

omit [DecidableEq K] in
theorem IsTranslate.symm' {d : Nat} {δ : K} {a b : Nat → K} (h : IsTranslate d δ a b) : IsTranslate d (-δ) b a := by
  intro e he
  rw [h e he]
  by_cases hd : e = d <;> simp [hd]

/-- Both face loops of a direction. -/
theorem facesDir_spec (r : K → K) (m : PMesh K) (d : Nat) (hd : d < 3) (lk : K → K → K) (δ valA valB : K) (A B : List Nat)
    (hM : Matched d δ m.centerf A B) (hA : KeysDistinct r m.centerf A) (hB : KeysDistinct r m.centerf B) (hdj : ∀ i ∈ A, i ∉ B)
    (hlA : ∀ i ∈ A, lk (m.centerf i d) δ = r (m.centerf i d + δ)) (hlB : ∀ i ∈ B, lk (m.centerf i d) (-δ) = r (m.centerf i d + -δ))
    (s : PState K) :
    ∃ (s1 s' : PState K), facesDir r m d lk δ valA valB A B s = some s' ∧ s'.nper = s.nper ∧
      Partners m s'.cell1 d δ A B ∧ (∀ i, i ∉ A → i ∉ B → s'.cell1 i = s.cell1 i) ∧
      (∀ x c, c ∈ s1.pnid x ↔ c ∈ s.pnid x ∨ ∃ i ∈ A, ∃ k ∈ B, IsTranslate d δ (m.centerf i) (m.centerf k) ∧ m.cell0 i = x ∧ c ∈ m.cellnid (m.cell0 k)) ∧
      (∀ x c, c ∈ s'.pnid x ↔ c ∈ s1.pnid x ∨ ∃ i ∈ A, ∃ k ∈ B, IsTranslate d δ (m.centerf i) (m.centerf k) ∧ m.cell0 k = x ∧ c ∈ m.cellnid (m.cell0 i)) ∧
      (∀ c e, s'.shift c e = if e = d ∧ ∃ k ∈ B, c ∈ s'.pnid (m.cell0 k) then valB
        else if e = d ∧ ∃ i ∈ A, c ∈ s1.pnid (m.cell0 i) then valA else s.shift c e) := by
  classical
  have uB : ∀ i k k', k ∈ B → k' ∈ B → IsTranslate d δ (m.centerf i) (m.centerf k) → IsTranslate d δ (m.centerf i) (m.centerf k') → k = k' := by
    intro i k k' hk hk' h h'
    refine hB k hk k' hk' ?_
    unfold keyAt
    rw [h 0 (by omega), h 1 (by omega), h 2 (by omega), h' 0 (by omega), h' 1 (by omega), h' 2 (by omega)]
  have uA : ∀ k i i', i ∈ A → i' ∈ A → IsTranslate d δ (m.centerf i) (m.centerf k) → IsTranslate d δ (m.centerf i') (m.centerf k) → i = i' := by
    intro k i i' hi hi' h h'
    refine hA i hi i' hi' ?_
    have h := IsTranslate.symm' h; have h' := IsTranslate.symm' h'
    unfold keyAt
    rw [h 0 (by omega), h 1 (by omega), h 2 (by omega), h' 0 (by omega), h' 1 (by omega), h' 2 (by omega)]
  choose! f hfB hft using hM.1
  choose! g hgA hgt using hM.2
  obtain ⟨s1, e1, n1, c1, p1, t1⟩ := facePass_spec m (faceDict r m B) (fun i => repl d (lk (m.centerf i d) δ) (keyAt r (m.centerf i))) d valA A
    (fun i => m.cell0 (f i)) (by
      intro i hi
      rw [key_translate r d hd δ _ _ _ (hft i hi) (hlA i hi)]
      exact keyGet_map _ _ _ hB _ (hfB i hi)) s
  obtain ⟨s2, e2, n2, c2, p2, t2⟩ := facePass_spec m (faceDict r m A) (fun i => repl d (lk (m.centerf i d) (-δ)) (keyAt r (m.centerf i))) d valB B
    (fun k => m.cell0 (g k)) (by
      intro k hk
      rw [key_translate r d hd (-δ) _ _ _ (IsTranslate.symm' (hgt k hk)) (hlB k hk)]
      exact keyGet_map _ _ _ hA _ (hgA k hk)) s1
  refine ⟨s1, s2, ?_, by rw [n2, n1], ?_, ?_, ?_, ?_, ?_⟩
  · unfold facesDir
    rw [e1]; exact e2
  · intro i hi k hk ht
    rw [c2, if_neg (hdj i hi), c1, if_pos hi, uB i (f i) k (hfB i hi) hk (hft i hi) ht, c2, if_pos hk, uA k (g k) i (hgA k hk) hi (hgt k hk) ht]
    exact ⟨rfl, rfl⟩
  · intro i hi hi'
    rw [c2, if_neg hi', c1, if_neg hi]
  · intro x c
    rw [p1]
    refine or_congr Iff.rfl ⟨?_, ?_⟩
    · rintro ⟨i, hi, hx, hc⟩; exact ⟨i, hi, f i, hfB i hi, hft i hi, hx, hc⟩
    · rintro ⟨i, hi, k, hk, ht, hx, hc⟩
      refine ⟨i, hi, hx, ?_⟩
      rw [uB i (f i) k (hfB i hi) hk (hft i hi) ht]; exact hc
  · intro x c
    rw [p2]
    refine or_congr Iff.rfl ⟨?_, ?_⟩
    · rintro ⟨k, hk, hx, hc⟩; exact ⟨g k, hgA k hk, k, hk, hgt k hk, hx, hc⟩
    · rintro ⟨i, hi, k, hk, ht, hx, hc⟩
      refine ⟨k, hk, hx, ?_⟩
      rw [uA k (g k) i (hgA k hk) hi (hgt k hk) ht]; exact hc
  · intro c e
    rw [t2, t1]

/-- Both node loops of a direction. -/
theorem nodesDir_spec (r : K → K) (m : PMesh K) (d : Nat) (lk : K → K → K) (δ : K) (dA dB : List (Key K × Int)) (A B : List Nat)
    (LA LB : Nat → List Int) (nA : A.Nodup) (nB : B.Nodup) (hdj : ∀ i ∈ A, i ∉ B)
    (hA : ∀ i ∈ A, (dB.filter (fun e => e.1 = repl d (lk (m.vertex i d) δ) (keyAt r (m.vertex i)))).map (·.2) = LA i ∧ LA i ≠ [])
    (hB : ∀ i ∈ B, (dA.filter (fun e => e.1 = repl d (lk (m.vertex i d) (-δ)) (keyAt r (m.vertex i)))).map (·.2) = LB i ∧ LB i ≠ [])
    (s : PState K) :
    ∃ s', nodesDir r m d lk δ dA dB A B s = some s' ∧ s'.cell1 = s.cell1 ∧ s'.pnid = s.pnid ∧ s'.shift = s.shift ∧
      (∀ i ∈ A, s'.nper i = s.nper i ++ LA i) ∧ (∀ i ∈ B, s'.nper i = s.nper i ++ LB i) ∧ (∀ i, i ∉ A → i ∉ B → s'.nper i = s.nper i) := by
  obtain ⟨s1, e1, a1, b1, c1, d1⟩ := nodePass_spec dB (fun i => repl d (lk (m.vertex i d) δ) (keyAt r (m.vertex i))) A nA
    (fun i hi => by rw [(hA i hi).1]; exact (hA i hi).2) s
  obtain ⟨s2, e2, a2, b2, c2, d2⟩ := nodePass_spec dA (fun i => repl d (lk (m.vertex i d) (-δ)) (keyAt r (m.vertex i))) B nB
    (fun i hi => by rw [(hB i hi).1]; exact (hB i hi).2) s1
  refine ⟨s2, ?_, by rw [a2, a1], by rw [b2, b1], by rw [c2, c1], ?_, ?_, ?_⟩
  · unfold nodesDir; rw [e1]; exact e2
  · intro i hi
    rw [d2, if_neg (hdj i hi), d1, if_pos hi, (hA i hi).1]
  · intro i hi
    rw [d2, if_pos hi, (hB i hi).1, d1, if_neg (fun h => hdj i h hi)]
  · intro i h1 h2
    rw [d2, if_neg h2, d1, if_neg h1]

/-- The node look-ups of a matched direction. -/
theorem node_lookup (r : K → K) (m : PMesh K) (d : Nat) (hd : d < 3) (δ x : K) (i k : Nat) (N : List Nat) (hn : N.Nodup)
    (hk : KeysDistinct r m.vertex N) (hkN : k ∈ N) (h : IsTranslate d δ (m.vertex i) (m.vertex k)) (hx : x = r (m.vertex i d + δ)) :
    ((nodeDict r m N).filter (fun e => e.1 = repl d x (keyAt r (m.vertex i)))).map (·.2) = (m.ncells k).map (fun (c : Nat) => (c : Int)) := by
  rw [key_translate r d hd δ x _ _ h hx]
  exact filter_nodeDict r m N hn hk k hkN

omit [DecidableEq K] in
theorem translate_unique (r : K → K) (pos : Nat → Nat → K) (d : Nat) (δ : K) (B : List Nat) (hB : KeysDistinct r pos B) (i k k' : Nat)
    (hk : k ∈ B) (hk' : k' ∈ B) (h : IsTranslate d δ (pos i) (pos k)) (h' : IsTranslate d δ (pos i) (pos k')) : k = k' := by
  refine hB k hk k' hk' ?_
  unfold keyAt
  rw [h 0 (by omega), h 1 (by omega), h 2 (by omega), h' 0 (by omega), h' 1 (by omega), h' 2 (by omega)]

/-- What one direction does (`dB` the dictionary of the nodes of side `B`, `LA` what the look-ups in it give). -/
structure DirOut (m : PMesh K) (d : Nat) (δ valA valB : K) (A B NA NB : List Nat) (LA : Nat → List Int) (s s1 s' : PState K) : Prop where
  partners : Partners m s'.cell1 d δ A B
  others : ∀ i, i ∉ A → i ∉ B → s'.cell1 i = s.cell1 i
  pnid1 : ∀ x c, c ∈ s1.pnid x ↔ c ∈ s.pnid x ∨
    ∃ i ∈ A, ∃ k ∈ B, IsTranslate d δ (m.centerf i) (m.centerf k) ∧ m.cell0 i = x ∧ c ∈ m.cellnid (m.cell0 k)
  pnid : ∀ x c, c ∈ s'.pnid x ↔ c ∈ s1.pnid x ∨
    ∃ i ∈ A, ∃ k ∈ B, IsTranslate d δ (m.centerf i) (m.centerf k) ∧ m.cell0 k = x ∧ c ∈ m.cellnid (m.cell0 i)
  shift : ∀ c e, s'.shift c e = if e = d ∧ ∃ k ∈ B, c ∈ s'.pnid (m.cell0 k) then valB
    else if e = d ∧ ∃ i ∈ A, c ∈ s1.pnid (m.cell0 i) then valA else s.shift c e
  nodesA : ∀ i ∈ NA, s'.nper i = s.nper i ++ LA i
  nodesB : ∀ k ∈ NB, ∀ i ∈ NA, IsTranslate d δ (m.vertex i) (m.vertex k) → s'.nper k = s.nper k ++ (m.ncells i).map (fun (c : Nat) => (c : Int))
  nothers : ∀ i, i ∉ NA → i ∉ NB → s'.nper i = s.nper i

theorem dir_spec (r : K → K) (m : PMesh K) (d : Nat) (hd : d < 3) (lk lkn : K → K → K) (δ valA valB : K) (A B NA NB : List Nat)
    (hP : PeriodicDir r m d δ A B NA NB) (hlk : lk = (fun x δ => r (x + δ)) ∨ lk = fun x δ => r x + δ) (hlkn : lkn = fun x δ => r x + δ)
    (dB : List (Key K × Int)) (LA : Nat → List Int)
    (hLA : ∀ i ∈ NA, (dB.filter (fun e => e.1 = repl d (lkn (m.vertex i d) δ) (keyAt r (m.vertex i)))).map (·.2) = LA i ∧ LA i ≠ []) (s : PState K) :
    ∃ s1 s', ((facesDir r m d lk δ valA valB A B s).bind (nodesDir r m d lkn δ (nodeDict r m NA) dB NA NB)) = some s' ∧
      DirOut m d δ valA valB A B NA NB LA s s1 s' := by
  classical
  obtain ⟨s1, s2, e1, n1, p1, o1, q1, q2, t1⟩ := facesDir_spec r m d hd lk δ valA valB A B hP.faces hP.keysA hP.keysB hP.disj
    (fun i hi => by rcases hlk with rfl | rfl <;> [rfl; exact hP.exactA i hi])
    (fun i hi => by rcases hlk with rfl | rfl <;> [rfl; exact hP.exactB i hi]) s
  choose! g hgA hgt using hP.nodes.2
  obtain ⟨s3, e3, c3, b3, sh3, nA, nB, nO⟩ := nodesDir_spec r m d lkn δ (nodeDict r m NA) dB NA NB LA
    (fun k => (m.ncells (g k)).map (fun (c : Nat) => (c : Int))) hP.nodupA hP.nodupB hP.ndisj hLA (by
      intro k hk
      refine ⟨?_, by simpa using hP.used _ (Or.inl (hgA k hk))⟩
      exact node_lookup r m d hd (-δ) _ k (g k) NA hP.nodupA hP.nkeysA (hgA k hk) (IsTranslate.symm' (hgt k hk))
        (by rw [hlkn]; exact hP.nexactB k hk)) s2
  refine ⟨s1, s3, by rw [e1]; exact e3, ?_⟩
  refine ⟨by rw [c3]; exact p1, by rw [c3]; exact o1, q1, by rw [b3]; exact q2, by rw [sh3, b3]; exact t1, ?_, ?_, ?_⟩
  · intro i hi; rw [nA i hi, n1]
  · intro k hk i hi ht
    rw [nB k hk, n1]
    rw [translate_unique r m.vertex d (-δ) NA hP.nkeysA k (g k) i (hgA k hk) hi (IsTranslate.symm' (hgt k hk)) (IsTranslate.symm' ht)]
  · intro i h1 h2; rw [nO i h1 h2, n1]

/-- The look-ups of side `A` when the dictionary of side `B` is complete. -/
theorem full_lookup (r : K → K) (m : PMesh K) (d : Nat) (hd : d < 3) (δ : K) (A B NA NB : List Nat) (hP : PeriodicDir r m d δ A B NA NB) :
    ∃ LA : Nat → List Int, (∀ i ∈ NA, ((nodeDict r m NB).filter (fun e => e.1 = repl d (r (m.vertex i d) + δ) (keyAt r (m.vertex i)))).map (·.2) = LA i ∧
      LA i ≠ []) ∧ ∀ i ∈ NA, ∀ k ∈ NB, IsTranslate d δ (m.vertex i) (m.vertex k) → LA i = (m.ncells k).map (fun (c : Nat) => (c : Int)) := by
  classical
  choose! f hfB hft using hP.nodes.1
  refine ⟨fun i => (m.ncells (f i)).map (fun (c : Nat) => (c : Int)), ?_, ?_⟩
  · intro i hi
    exact ⟨node_lookup r m d hd δ _ i (f i) NB hP.nodupB hP.nkeysB (hfB i hi) (hft i hi) (hP.nexactA i hi),
      by simpa using hP.used _ (Or.inr (hfB i hi))⟩
  · intro i hi k hk ht
    show List.map _ _ = _
    rw [translate_unique r m.vertex d δ NB hP.nkeysB i (f i) k (hfB i hi) hk (hft i hi) ht]

/-- The look-up in the dictionary built with the stale `j`. -/
def staleEntry (m : PMesh K) (j k : Nat) : Int := ((m.ncells k)[j]?.map (fun (c : Nat) => (c : Int))).getD (-1)

theorem filter_stale (r : K → K) (m : PMesh K) (j : Nat) (nodes : List Nat) (hn : nodes.Nodup) (h : KeysDistinct r m.vertex nodes) (k : Nat) (hk : k ∈ nodes) :
    ((nodeDictStale r m j nodes).filter (fun e => e.1 = keyAt r (m.vertex k))).map (·.2) = [staleEntry m j k] := by
  unfold nodeDictStale
  rw [List.filter_map, List.map_map]
  have : nodes.filter ((fun e : Key K × Int => decide (e.1 = keyAt r (m.vertex k))) ∘
      (fun i => (keyAt r (m.vertex i), ((m.ncells i)[j]?.map (fun (c : Nat) => (c : Int))).getD (-1)))) = nodes.filter (fun i => i = k) := by
    apply List.filter_congr
    intro i hi
    simp only [Function.comp, decide_eq_decide]
    exact ⟨h i hi k hk, fun e => by rw [e]⟩
  rw [this]
  have : nodes.filter (fun i => i = k) = [k] := by
    have h1 := List.Nodup.filter (fun i => decide (i = k)) hn
    have h2 : ∀ x, x ∈ nodes.filter (fun i => decide (i = k)) ↔ x = k := by
      intro x; simp only [List.mem_filter, decide_eq_true_eq]
      exact ⟨fun h => h.2, fun h => ⟨h ▸ hk, h⟩⟩
    revert h1 h2
    generalize nodes.filter (fun i => decide (i = k)) = w
    intro h1 h2
    match w, h1, h2 with
    | [], _, h2 => exact absurd ((h2 k).mpr rfl) (by simp)
    | [a], _, h2 => rw [(h2 a).mp (by simp)]
    | a :: b :: t, h1, h2 =>
      rw [(h2 a).mp (by simp), (h2 b).mp (by simp)] at h1
      simp at h1
  rw [this]; rfl

theorem stale_lookup (r : K → K) (m : PMesh K) (d : Nat) (hd : d < 3) (δ : K) (j : Nat) (A B NA NB : List Nat) (hP : PeriodicDir r m d δ A B NA NB) :
    ∃ LA : Nat → List Int, (∀ i ∈ NA, ((nodeDictStale r m j NB).filter (fun e => e.1 = repl d (r (m.vertex i d) + δ) (keyAt r (m.vertex i)))).map (·.2) = LA i ∧
      LA i ≠ []) ∧ ∀ i ∈ NA, ∀ k ∈ NB, IsTranslate d δ (m.vertex i) (m.vertex k) → LA i = [staleEntry m j k] := by
  classical
  choose! f hfB hft using hP.nodes.1
  refine ⟨fun i => [staleEntry m j (f i)], ?_, ?_⟩
  · intro i hi
    refine ⟨?_, by simp⟩
    rw [key_translate r d hd δ _ _ _ (hft i hi) (hP.nexactA i hi)]
    exact filter_stale r m j NB hP.nodupB hP.nkeysB _ (hfB i hi)
  · intro i hi k hk ht
    show [_] = _
    rw [translate_unique r m.vertex d δ NB hP.nkeysB i (f i) k (hfB i hi) hk (hft i hi) ht]

end dirs


section main
variable [Field K]

theorem dirX_spec (r : K → K) (m : PMesh K) (M S : K) (F N : Sides) (hP : PeriodicDir r m 0 M F.inn F.out N.inn N.out) (s : PState K) :
    ∃ LA s1 s', dirX r m M S F N s = some s' ∧ DirOut m 0 M (-1 * S) S F.inn F.out N.inn N.out LA s s1 s' ∧
      ∀ i ∈ N.inn, ∀ k ∈ N.out, IsTranslate 0 M (m.vertex i) (m.vertex k) → LA i = (m.ncells k).map (fun (c : Nat) => (c : Int)) := by
  obtain ⟨LA, h1, h2⟩ := full_lookup r m 0 (by omega) M _ _ _ _ hP
  obtain ⟨s1, s', e, h⟩ := dir_spec r m 0 (by omega) (fun x δ => r (x + δ)) (fun x δ => r x + δ) M (-1 * S) S _ _ _ _ hP (Or.inl rfl) rfl
    (nodeDict r m N.out) LA h1 s
  exact ⟨LA, s1, s', e, h, h2⟩

theorem dirY3_spec (r : K → K) (m : PMesh K) (M S : K) (F N : Sides) (hP : PeriodicDir r m 1 (-M) F.upper F.bottom N.upper N.bottom) (s : PState K) :
    ∃ LA s1 s', dirY3 r m M S F N s = some s' ∧ DirOut m 1 (-M) (-1 * S) S F.upper F.bottom N.upper N.bottom LA s s1 s' ∧
      ∀ i ∈ N.upper, ∀ k ∈ N.bottom, IsTranslate 1 (-M) (m.vertex i) (m.vertex k) → LA i = (m.ncells k).map (fun (c : Nat) => (c : Int)) := by
  obtain ⟨LA, h1, h2⟩ := full_lookup r m 1 (by omega) (-M) _ _ _ _ hP
  obtain ⟨s1, s', e, h⟩ := dir_spec r m 1 (by omega) (fun x δ => r x + δ) (fun x δ => r x + δ) (-M) (-1 * S) S _ _ _ _ hP (Or.inr rfl) rfl
    (nodeDict r m N.bottom) LA h1 s
  exact ⟨LA, s1, s', e, h, h2⟩

theorem dirZ3_spec (r : K → K) (m : PMesh K) (M S : K) (F N : Sides) (hP : PeriodicDir r m 2 (-M) F.front F.back N.front N.back) (s : PState K) :
    ∃ LA s1 s', dirZ3 r m M S F N s = some s' ∧ DirOut m 2 (-M) (-1 * S) S F.front F.back N.front N.back LA s s1 s' ∧
      ∀ i ∈ N.front, ∀ k ∈ N.back, IsTranslate 2 (-M) (m.vertex i) (m.vertex k) → LA i = (m.ncells k).map (fun (c : Nat) => (c : Int)) := by
  obtain ⟨LA, h1, h2⟩ := full_lookup r m 2 (by omega) (-M) _ _ _ _ hP
  obtain ⟨s1, s', e, h⟩ := dir_spec r m 2 (by omega) (fun x δ => r x + δ) (fun x δ => r x + δ) (-M) (-1 * S) S _ _ _ _ hP (Or.inr rfl) rfl
    (nodeDict r m N.back) LA h1 s
  exact ⟨LA, s1, s', e, h, h2⟩

theorem dirY2_spec (r : K → K) (m : PMesh K) (M S : K) (F N : Sides) (hP : PeriodicDir r m 1 (-M) F.upper F.bottom N.upper N.bottom) (s : PState K) :
    ∃ LA s1 s', dirY2 r m M S F N s = some s' ∧ DirOut m 1 (-M) (-1 * S) S F.upper F.bottom N.upper N.bottom LA s s1 s' ∧
      ∀ i ∈ N.upper, ∀ k ∈ N.bottom, IsTranslate 1 (-M) (m.vertex i) (m.vertex k) → LA i = [staleEntry m (staleJ m N.upper) k] := by
  obtain ⟨LA, h1, h2⟩ := stale_lookup r m 1 (by omega) (-M) (staleJ m N.upper) _ _ _ _ hP
  obtain ⟨s1, s', e, h⟩ := dir_spec r m 1 (by omega) (fun x δ => r x + δ) (fun x δ => r x + δ) (-M) (-1 * S) S _ _ _ _ hP (Or.inr rfl) rfl
    (nodeDictStale r m (staleJ m N.upper) N.bottom) LA h1 s
  exact ⟨LA, s1, s', e, h, h2⟩

omit [DecidableEq K] in
theorem partners_congr (m : PMesh K) (c c' : Nat → Int) (d : Nat) (δ : K) (A B : List Nat) (h : Partners m c d δ A B)
    (e : ∀ i, i ∈ A ∨ i ∈ B → c' i = c i) : Partners m c' d δ A B := by
  intro i hi k hk ht
  rw [e i (Or.inl hi), e k (Or.inr hk)]
  exact h i hi k hk ht

theorem apart_left {l1 l2 l3 l4 : List Nat} (h : Apart l1 l2 l3 l4) (i : Nat) (hi : i ∈ l1 ∨ i ∈ l2) : i ∉ l3 ∧ i ∉ l4 :=
  ⟨fun h' => h i hi (Or.inl h'), fun h' => h i hi (Or.inr h')⟩

theorem apart_right {l1 l2 l3 l4 : List Nat} (h : Apart l1 l2 l3 l4) (i : Nat) (hi : i ∈ l3 ∨ i ∈ l4) : i ∉ l1 ∧ i ∉ l2 :=
  ⟨fun h' => h i (Or.inl h') hi, fun h' => h i (Or.inr h') hi⟩

theorem visible_nil : visible [] = [] := rfl

/-- **C68 (2D, partners).**  On a mesh that is periodic with periods `L 0`, `L 1` (and whose boundary coordinates are compatible with the
rounding), the set-up succeeds; every periodic face gets as second cell the cell of the translated face, other faces keep theirs; the
periodic cells of the nodes left, right and below are the cells of the translated nodes; other nodes have none. -/
theorem C68_partners_2d_partial (r : K → K) (m : PMesh K) (L S : Nat → K) (F N : Sides) (cell1 : Nat → Int) (h : PeriodicMesh2 r m L F N) :
    ∃ s, update2d r m L S F N cell1 = some s ∧
      Partners m s.cell1 0 (L 0) F.inn F.out ∧ Partners m s.cell1 1 (-L 1) F.upper F.bottom ∧
      (∀ i, i ∉ F.inn → i ∉ F.out → i ∉ F.upper → i ∉ F.bottom → s.cell1 i = cell1 i) ∧
      NodeCells m s.nper 0 (L 0) N.inn N.out ∧ NodeCells m s.nper 0 (-L 0) N.out N.inn ∧ NodeCells m s.nper 1 (L 1) N.bottom N.upper ∧
      (∀ i, i ∉ N.inn → i ∉ N.out → i ∉ N.upper → i ∉ N.bottom → s.nper i = []) := by
  obtain ⟨LA, a1, a2, ea, ha, hla⟩ := dirX_spec r m (L 0) (S 0) F N h.x (pInit cell1)
  obtain ⟨LB, b1, b2, eb, hb, hlb⟩ := dirY2_spec r m (L 1) (S 1) F N h.y a2
  refine ⟨finish b2, ?_, ?_, hb.partners, ?_, ?_, ?_, ?_, ?_⟩
  · unfold update2d; rw [ea]; simp only [Option.bind_eq_bind, Option.bind_some]; rw [eb]; rfl
  · exact partners_congr m _ _ _ _ _ _ ha.partners (fun i hi => hb.others i (apart_left h.xyF i hi).1 (apart_left h.xyF i hi).2)
  · intro i h1 h2 h3 h4
    show b2.cell1 i = _
    rw [hb.others i h3 h4, ha.others i h1 h2]; rfl
  · intro i hi k hk ht
    show ListsCells (visible (b2.nper i)) _
    rw [hb.nothers i (apart_left h.xyN i (Or.inl hi)).1 (apart_left h.xyN i (Or.inl hi)).2, ha.nodesA i hi, hla i hi k hk ht]
    exact visible_nat _
  · intro k hk i hi ht
    show ListsCells (visible (b2.nper k)) _
    have ht' := IsTranslate.symm' ht; rw [neg_neg] at ht'
    rw [hb.nothers k (apart_left h.xyN k (Or.inr hk)).1 (apart_left h.xyN k (Or.inr hk)).2, ha.nodesB k hk i hi ht']
    exact visible_nat _
  · intro k hk i hi ht
    show ListsCells (visible (b2.nper k)) _
    rw [hb.nodesB k hk i hi (IsTranslate.symm' ht), ha.nothers k (apart_right h.xyN k (Or.inr hk)).1 (apart_right h.xyN k (Or.inr hk)).2]
    exact visible_nat _
  · intro i h1 h2 h3 h4
    show visible (b2.nper i) = _
    rw [hb.nothers i h3 h4, ha.nothers i h1 h2]; rfl

/-- **C68 (3D, partners).**  As in 2D, for all three directions and all nodes. -/
theorem C68_partners_3d (r : K → K) (m : PMesh K) (L S : Nat → K) (F N : Sides) (cell1 : Nat → Int) (h : PeriodicMesh3 r m L F N) :
    ∃ s, update3d r m L S F N cell1 = some s ∧
      Partners m s.cell1 0 (L 0) F.inn F.out ∧ Partners m s.cell1 1 (-L 1) F.upper F.bottom ∧ Partners m s.cell1 2 (-L 2) F.front F.back ∧
      (∀ i, i ∉ F.inn → i ∉ F.out → i ∉ F.upper → i ∉ F.bottom → i ∉ F.front → i ∉ F.back → s.cell1 i = cell1 i) ∧
      (NodeCells m s.nper 0 (L 0) N.inn N.out ∧ NodeCells m s.nper 0 (-L 0) N.out N.inn) ∧
      (NodeCells m s.nper 1 (-L 1) N.upper N.bottom ∧ NodeCells m s.nper 1 (L 1) N.bottom N.upper) ∧
      (NodeCells m s.nper 2 (-L 2) N.front N.back ∧ NodeCells m s.nper 2 (L 2) N.back N.front) ∧
      (∀ i, i ∉ N.inn → i ∉ N.out → i ∉ N.upper → i ∉ N.bottom → i ∉ N.front → i ∉ N.back → s.nper i = []) := by
  obtain ⟨LA, a1, a2, ea, ha, hla⟩ := dirX_spec r m (L 0) (S 0) F N h.x (pInit cell1)
  obtain ⟨LB, b1, b2, eb, hb, hlb⟩ := dirY3_spec r m (L 1) (S 1) F N h.y a2
  obtain ⟨LC, c1, c2, ec, hc, hlc⟩ := dirZ3_spec r m (L 2) (S 2) F N h.z b2
  have xyl := fun i hi => apart_left h.xyF i hi
  have xzl := fun i hi => apart_left h.xzF i hi
  have yzl := fun i hi => apart_left h.yzF i hi
  have nxyl := fun i hi => apart_left h.xyN i hi
  have nxzl := fun i hi => apart_left h.xzN i hi
  have nyzl := fun i hi => apart_left h.yzN i hi
  have nxyr := fun i hi => apart_right h.xyN i hi
  have nxzr := fun i hi => apart_right h.xzN i hi
  have nyzr := fun i hi => apart_right h.yzN i hi
  refine ⟨finish c2, ?_, ?_, ?_, hc.partners, ?_, ⟨?_, ?_⟩, ⟨?_, ?_⟩, ⟨?_, ?_⟩, ?_⟩
  · unfold update3d; rw [ea]; simp only [Option.bind_eq_bind, Option.bind_some]; rw [eb]; simp only [Option.bind_some]; rw [ec]; rfl
  · exact partners_congr m _ _ _ _ _ _ ha.partners (fun i hi => by
      show c2.cell1 i = _
      rw [hc.others i (xzl i hi).1 (xzl i hi).2, hb.others i (xyl i hi).1 (xyl i hi).2])
  · exact partners_congr m _ _ _ _ _ _ hb.partners (fun i hi => hc.others i (yzl i hi).1 (yzl i hi).2)
  · intro i h1 h2 h3 h4 h5 h6
    show c2.cell1 i = _
    rw [hc.others i h5 h6, hb.others i h3 h4, ha.others i h1 h2]; rfl
  · intro i hi k hk ht
    show ListsCells (visible (c2.nper i)) _
    rw [hc.nothers i (nxzl i (Or.inl hi)).1 (nxzl i (Or.inl hi)).2, hb.nothers i (nxyl i (Or.inl hi)).1 (nxyl i (Or.inl hi)).2,
      ha.nodesA i hi, hla i hi k hk ht]
    exact visible_nat _
  · intro k hk i hi ht
    show ListsCells (visible (c2.nper k)) _
    have ht' := IsTranslate.symm' ht; rw [neg_neg] at ht'
    rw [hc.nothers k (nxzl k (Or.inr hk)).1 (nxzl k (Or.inr hk)).2, hb.nothers k (nxyl k (Or.inr hk)).1 (nxyl k (Or.inr hk)).2,
      ha.nodesB k hk i hi ht']
    exact visible_nat _
  · intro i hi k hk ht
    show ListsCells (visible (c2.nper i)) _
    rw [hc.nothers i (nyzl i (Or.inl hi)).1 (nyzl i (Or.inl hi)).2, hb.nodesA i hi, hlb i hi k hk ht,
      ha.nothers i (nxyr i (Or.inl hi)).1 (nxyr i (Or.inl hi)).2]
    exact visible_nat _
  · intro k hk i hi ht
    show ListsCells (visible (c2.nper k)) _
    rw [hc.nothers k (nyzl k (Or.inr hk)).1 (nyzl k (Or.inr hk)).2, hb.nodesB k hk i hi (IsTranslate.symm' ht),
      ha.nothers k (nxyr k (Or.inr hk)).1 (nxyr k (Or.inr hk)).2]
    exact visible_nat _
  · intro i hi k hk ht
    show ListsCells (visible (c2.nper i)) _
    rw [hc.nodesA i hi, hlc i hi k hk ht, hb.nothers i (nyzr i (Or.inl hi)).1 (nyzr i (Or.inl hi)).2,
      ha.nothers i (nxzr i (Or.inl hi)).1 (nxzr i (Or.inl hi)).2]
    exact visible_nat _
  · intro k hk i hi ht
    show ListsCells (visible (c2.nper k)) _
    rw [hc.nodesB k hk i hi (IsTranslate.symm' ht), hb.nothers k (nyzr k (Or.inr hk)).1 (nyzr k (Or.inr hk)).2,
      ha.nothers k (nxzr k (Or.inr hk)).1 (nxzr k (Or.inr hk)).2]
    exact visible_nat _
  · intro i h1 h2 h3 h4 h5 h6
    show visible (c2.nper i) = _
    rw [hc.nothers i h5 h6, hb.nothers i h3 h4, ha.nothers i h1 h2]; rfl

theorem visible_one (x : Int) : (visible [x]).length ≤ 1 := by
  unfold visible
  simp only [List.insertionSort, List.orderedInsert, List.foldr]
  by_cases h : x = -1 <;> simp [h]

/-- **C68, what is wrong in 2D: nodes above.**  Whatever the mesh, an upper node whose translated node (below) has at least two cells does
not get these cells: it gets at most one. -/
theorem C68_upper_nodes_2d_incomplete (r : K → K) (m : PMesh K) (L S : Nat → K) (F N : Sides) (cell1 : Nat → Int) (h : PeriodicMesh2 r m L F N)
    (s : PState K) (hs : update2d r m L S F N cell1 = some s) (i k : Nat) (hi : i ∈ N.upper) (hk : k ∈ N.bottom)
    (ht : IsTranslate 1 (-L 1) (m.vertex i) (m.vertex k)) :
    (s.nper i).length ≤ 1 ∧ (∀ c ∈ m.ncells k, ∀ c' ∈ m.ncells k, c ≠ c' → ¬ ListsCells (s.nper i) (m.ncells k)) := by
  obtain ⟨LA, a1, a2, ea, ha, hla⟩ := dirX_spec r m (L 0) (S 0) F N h.x (pInit cell1)
  obtain ⟨LB, b1, b2, eb, hb, hlb⟩ := dirY2_spec r m (L 1) (S 1) F N h.y a2
  have : s = finish b2 := by
    have : update2d r m L S F N cell1 = some (finish b2) := by
      unfold update2d; rw [ea]; simp only [Option.bind_eq_bind, Option.bind_some]; rw [eb]; rfl
    rw [hs] at this; exact Option.some.inj this
  have hl : (s.nper i).length ≤ 1 := by
    rw [this]
    show (visible (b2.nper i)).length ≤ 1
    rw [hb.nodesA i hi, hlb i hi k hk ht, ha.nothers i (apart_right h.xyN i (Or.inl hi)).1 (apart_right h.xyN i (Or.inl hi)).2]
    exact visible_one _
  refine ⟨hl, ?_⟩
  rintro c hc c' hc' hne ⟨_, hm⟩
  have h1 := (hm c).mpr ⟨c, hc, rfl⟩
  have h2 := (hm c').mpr ⟨c', hc', rfl⟩
  match hw : s.nper i, hl with
  | [], _ => rw [hw] at h1; simp at h1
  | [a], _ => rw [hw] at h1 h2; simp at h1 h2; omega
  | a :: b :: t, hl => simp at hl

theorem shift_dir (r : K → K) (m : PMesh K) (d : Nat) (δ valA valB : K) (A B NA NB : List Nat) (LA : Nat → List Int) (s s1 s' : PState K)
    (hM : Matched d δ m.centerf A B) (hO : DirOut m d δ valA valB A B NA NB LA s s1 s') (he : ∀ x, s.pnid x = [])
    (hc : ∀ i ∈ A, ∀ k ∈ B, m.cell0 i ≠ m.cell0 k) (c e : Nat) [Decidable (Near m A c)] [Decidable (Near m B c)] :
    s'.shift c e = if e = d ∧ Near m A c then valB else if e = d ∧ Near m B c then valA else s.shift c e := by
  rw [hO.shift]
  have h1 : (∃ k ∈ B, c ∈ s'.pnid (m.cell0 k)) ↔ Near m A c := by
    constructor
    · rintro ⟨k, hk, h⟩
      rcases (hO.pnid _ _).mp h with h | ⟨i, hi, k', hk', ht, e1, h⟩
      · rcases (hO.pnid1 _ _).mp h with h | ⟨i, hi, k', hk', ht, e1, h⟩
        · rw [he] at h; simp at h
        · exact absurd e1 (hc i hi k hk)
      · exact ⟨i, hi, h⟩
    · rintro ⟨i, hi, h⟩
      obtain ⟨k, hk, ht⟩ := hM.1 i hi
      exact ⟨k, hk, (hO.pnid _ _).mpr (Or.inr ⟨i, hi, k, hk, ht, rfl, h⟩)⟩
  have h2 : (∃ i ∈ A, c ∈ s1.pnid (m.cell0 i)) ↔ Near m B c := by
    constructor
    · rintro ⟨i, hi, h⟩
      rcases (hO.pnid1 _ _).mp h with h | ⟨i', hi', k, hk, ht, e1, h⟩
      · rw [he] at h; simp at h
      · exact ⟨k, hk, h⟩
    · rintro ⟨k, hk, h⟩
      obtain ⟨i, hi, ht⟩ := hM.2 k hk
      exact ⟨i, hi, (hO.pnid1 _ _).mpr (Or.inr ⟨i, hi, k, hk, ht, rfl, h⟩)⟩
  simp only [h1, h2]

/-- **C68 (shift in x, 2D).**  If no cell touches both sides: a cell near the left side (a neighbour of a cell with a left face) has shift
`+S 0`, one near the right side and not near the left has `-S 0`, other cells 0. -/
theorem C68_shift_x_2d (r : K → K) (m : PMesh K) (L S : Nat → K) (F N : Sides) (cell1 : Nat → Int) (h : PeriodicMesh2 r m L F N)
    (hc : ∀ i ∈ F.inn, ∀ k ∈ F.out, m.cell0 i ≠ m.cell0 k) :
    ∃ s, update2d r m L S F N cell1 = some s ∧ ∀ c, (Near m F.inn c → s.shift c 0 = S 0) ∧
      (¬ Near m F.inn c → Near m F.out c → s.shift c 0 = -S 0) ∧ (¬ Near m F.inn c → ¬ Near m F.out c → s.shift c 0 = 0) := by
  classical
  obtain ⟨LA, a1, a2, ea, ha, hla⟩ := dirX_spec r m (L 0) (S 0) F N h.x (pInit cell1)
  obtain ⟨LB, b1, b2, eb, hb, hlb⟩ := dirY2_spec r m (L 1) (S 1) F N h.y a2
  refine ⟨finish b2, by unfold update2d; rw [ea]; simp only [Option.bind_eq_bind, Option.bind_some]; rw [eb]; rfl, fun c => ?_⟩
  have key : (finish b2).shift c 0 = _ := (show b2.shift c 0 = a2.shift c 0 by rw [hb.shift]; simp).trans
    (shift_dir r m 0 (L 0) (-1 * S 0) (S 0) _ _ _ _ LA (pInit cell1) a1 a2 h.x.faces ha (fun _ => rfl) hc c 0)
  rw [key]
  refine ⟨fun h1 => by simp [h1], fun h1 h2 => by simp [h1, h2], fun h1 h2 => by simp [h1, h2, pInit]⟩

/-- **C68 (shift in x, 3D).** -/
theorem C68_shift_x_3d (r : K → K) (m : PMesh K) (L S : Nat → K) (F N : Sides) (cell1 : Nat → Int) (h : PeriodicMesh3 r m L F N)
    (hc : ∀ i ∈ F.inn, ∀ k ∈ F.out, m.cell0 i ≠ m.cell0 k) :
    ∃ s, update3d r m L S F N cell1 = some s ∧ ∀ c, (Near m F.inn c → s.shift c 0 = S 0) ∧
      (¬ Near m F.inn c → Near m F.out c → s.shift c 0 = -S 0) ∧ (¬ Near m F.inn c → ¬ Near m F.out c → s.shift c 0 = 0) := by
  classical
  obtain ⟨LA, a1, a2, ea, ha, hla⟩ := dirX_spec r m (L 0) (S 0) F N h.x (pInit cell1)
  obtain ⟨LB, b1, b2, eb, hb, hlb⟩ := dirY3_spec r m (L 1) (S 1) F N h.y a2
  obtain ⟨LC, c1, c2, ec, hcc, hlc⟩ := dirZ3_spec r m (L 2) (S 2) F N h.z b2
  refine ⟨finish c2, by
    unfold update3d; rw [ea]; simp only [Option.bind_eq_bind, Option.bind_some]; rw [eb]; simp only [Option.bind_some]; rw [ec]; rfl, fun c => ?_⟩
  have key : (finish c2).shift c 0 = _ := (show c2.shift c 0 = a2.shift c 0 by rw [hcc.shift, hb.shift]; simp).trans
    (shift_dir r m 0 (L 0) (-1 * S 0) (S 0) _ _ _ _ LA (pInit cell1) a1 a2 h.x.faces ha (fun _ => rfl) hc c 0)
  rw [key]
  refine ⟨fun h1 => by simp [h1], fun h1 h2 => by simp [h1, h2], fun h1 h2 => by simp [h1, h2, pInit]⟩

/-- **C68: the shift in x puts the partner cell on the other side.**  The partner cell of a left face `i` (the cell of the right face `k`),
if it is near the right side only, has the shift that translates `k` onto `i` (`S 0 = L 0`: the right side is at the largest coordinate);
same for a right face. -/
theorem C68_shift_x_image (r : K → K) (m : PMesh K) (L S : Nat → K) (F N : Sides) (cell1 : Nat → Int) (h : PeriodicMesh2 r m L F N)
    (hc : ∀ i ∈ F.inn, ∀ k ∈ F.out, m.cell0 i ≠ m.cell0 k) (hS : S 0 = L 0) (i k : Nat) (hi : i ∈ F.inn) (hk : k ∈ F.out)
    (ht : IsTranslate 0 (L 0) (m.centerf i) (m.centerf k)) :
    ∃ s, update2d r m L S F N cell1 = some s ∧
      (Near m F.out (m.cell0 k) → ¬ Near m F.inn (m.cell0 k) → s.cell1 i = m.cell0 k ∧ IsTranslate 0 (s.shift (m.cell0 k) 0) (m.centerf k) (m.centerf i)) ∧
      (Near m F.inn (m.cell0 i) → s.cell1 k = m.cell0 i ∧ IsTranslate 0 (s.shift (m.cell0 i) 0) (m.centerf i) (m.centerf k)) := by
  obtain ⟨s, e, hs⟩ := C68_shift_x_2d r m L S F N cell1 h hc
  obtain ⟨s', e', p, _⟩ := C68_partners_2d_partial r m L S F N cell1 h
  rw [e] at e'; cases e'
  refine ⟨s, e, fun h1 h2 => ⟨(p i hi k hk ht).1, ?_⟩, fun h1 => ⟨(p i hi k hk ht).2, ?_⟩⟩
  · rw [(hs _).2.1 h2 h1, hS]; exact IsTranslate.symm' ht
  · rw [(hs _).1 h1, hS]; exact ht

theorem dirX_empty (r : K → K) (m : PMesh K) (M S : K) (F N : Sides) (h1 : F.inn = []) (h2 : F.out = []) (h3 : N.inn = []) (h4 : N.out = [])
    (s : PState K) : dirX r m M S F N s = some s := by
  unfold dirX facesDir nodesDir facePass nodePass
  rw [h1, h2, h3, h4]; rfl

/-- **C68, what is wrong in y (2D).**  On a mesh periodic in y only, the partner cell of an upper face `i` (the cell of the bottom face
`k`) gets the shift `-S 1` although the translation that maps `k` onto `i` is `+S 1`; so the image of the cell does not lie behind the
face.  Likewise for the partner cells of bottom faces. -/
theorem C68_shift_y_2d_wrong (r : K → K) (m : PMesh K) (L S : Nat → K) (F N : Sides) (cell1 : Nat → Int) (h : PeriodicMesh2 r m L F N)
    (hx : F.inn = [] ∧ F.out = [] ∧ N.inn = [] ∧ N.out = []) (hc : ∀ i ∈ F.upper, ∀ k ∈ F.bottom, m.cell0 i ≠ m.cell0 k)
    (hS : S 1 = L 1) (hL : L 1 ≠ -L 1) (i k : Nat) (hi : i ∈ F.upper) (hk : k ∈ F.bottom)
    (ht : IsTranslate 1 (L 1) (m.centerf k) (m.centerf i)) :
    ∃ s, update2d r m L S F N cell1 = some s ∧
      (Near m F.bottom (m.cell0 k) → ¬ Near m F.upper (m.cell0 k) → s.cell1 i = m.cell0 k ∧ s.shift (m.cell0 k) 1 = -S 1 ∧
        ¬ IsTranslate 1 (s.shift (m.cell0 k) 1) (m.centerf k) (m.centerf i)) ∧
      (Near m F.upper (m.cell0 i) → s.cell1 k = m.cell0 i ∧ s.shift (m.cell0 i) 1 = S 1 ∧
        ¬ IsTranslate 1 (s.shift (m.cell0 i) 1) (m.centerf i) (m.centerf k)) := by
  classical
  obtain ⟨LB, b1, b2, eb, hb, hlb⟩ := dirY2_spec r m (L 1) (S 1) F N h.y (pInit cell1)
  have ht' := IsTranslate.symm' ht
  refine ⟨finish b2, by unfold update2d; rw [dirX_empty r m _ _ F N hx.1 hx.2.1 hx.2.2.1 hx.2.2.2]; simp only [Option.bind_eq_bind, Option.bind_some]; rw [eb]; rfl, ?_, ?_⟩
  · intro h1 h2
    have hv : (finish b2).shift (m.cell0 k) 1 = -S 1 := by
      show b2.shift _ _ = _
      rw [shift_dir r m 1 (-L 1) (-1 * S 1) (S 1) _ _ _ _ LB (pInit cell1) b1 b2 h.y.faces hb (fun _ => rfl) hc]
      simp [h1, h2]
    refine ⟨(hb.partners i hi k hk ht').1, hv, ?_⟩
    rw [hv, hS]
    intro hw
    have e1 := hw 1 (by omega); have e2 := ht 1 (by omega)
    rw [e2] at e1; simp only [if_true] at e1
    exact hL (add_left_cancel e1)
  · intro h1
    have hv : (finish b2).shift (m.cell0 i) 1 = S 1 := by
      show b2.shift _ _ = _
      rw [shift_dir r m 1 (-L 1) (-1 * S 1) (S 1) _ _ _ _ LB (pInit cell1) b1 b2 h.y.faces hb (fun _ => rfl) hc]
      simp [h1]
    refine ⟨(hb.partners i hi k hk ht').2, hv, ?_⟩
    rw [hv, hS]
    intro hw
    have e1 := hw 1 (by omega); have e2 := ht' 1 (by omega)
    rw [e2] at e1; simp only [if_true] at e1
    exact hL (add_left_cancel e1).symm

theorem foldlM_none_of_key {α : Type*} (dict : List (Key K × α)) (k : Key K) (h : ∀ e ∈ dict, e.1 ≠ k) : keyGet dict k = none := by
  unfold keyGet
  rw [List.find?_eq_none.mpr]; rfl
  intro e he
  simpa using h e (List.mem_reverse.mp he)

/-- **C68, what is wrong with rounding (y).**  If a bottom face lies at `y = 0`, all upper faces at `y = L`, `L` is not exactly a `float32` number
(`r L ≠ L`) and `r 0 = 0`, the set-up of the y direction fails with a `KeyError`, for every mesh (2D and 3D). -/
theorem C68_rounding_y_fails (r : K → K) (m : PMesh K) (L S : K) (F N : Sides) (s : PState K)
    (h0 : r 0 = 0) (hL : r L ≠ L) (hup : ∀ i ∈ F.upper, m.centerf i 1 = L) (k : Nat) (hk : k ∈ F.bottom) (hbo : m.centerf k 1 = 0) :
    dirY2 r m L S F N s = none ∧ dirY3 r m L S F N s = none := by
  have key : facesDir r m 1 (fun x δ => r x + δ) (-L) (-1 * S) S F.upper F.bottom s = none := by
    unfold facesDir
    cases hf : facePass m (faceDict r m F.bottom) (fun i => repl 1 (r (m.centerf i 1) + -L) (keyAt r (m.centerf i))) 1 (-1 * S) F.upper s with
    | none => rfl
    | some s1 =>
      refine facePass_none _ _ _ _ _ _ ⟨k, hk, foldlM_none_of_key _ _ ?_⟩ _
      intro e he
      obtain ⟨i, hi, rfl⟩ := List.mem_map.mp he
      simp only [hbo, h0, neg_neg, zero_add, repl, keyAt, hup i hi]
      intro h
      exact hL (Prod.mk.inj (Prod.mk.inj h).2).1
  unfold dirY2 dirY3
  rw [key]
  exact ⟨rfl, rfl⟩

/-- **C68, what is wrong with rounding (x).**  Same for the nodes of the x direction. -/
theorem C68_rounding_x_fails (r : K → K) (m : PMesh K) (L S : K) (F N : Sides) (s : PState K)
    (h0 : r 0 = 0) (hL : r L ≠ L) (hout : ∀ i ∈ N.out, m.vertex i 0 = L) (k : Nat) (hk : k ∈ N.inn) (hin : m.vertex k 0 = 0) :
    dirX r m L S F N s = none := by
  unfold dirX
  cases hf : facesDir r m 0 (fun x δ => r (x + δ)) L (-1 * S) S F.inn F.out s with
  | none => rfl
  | some s1 =>
    simp only [Option.bind_eq_bind, Option.bind_some]
    unfold nodesDir
    rw [nodePass_none]; rfl
    refine ⟨k, hk, ?_⟩
    intro e he
    obtain ⟨i, hi, he⟩ := List.mem_flatMap.mp he
    obtain ⟨c, _, rfl⟩ := List.mem_map.mp he
    simp only [hin, h0, zero_add, repl, keyAt, hout i hi]
    intro h
    exact hL (Prod.mk.inj h).1

end main


/-! ## Non-vacuity: a grid of 3 × 3 unit squares, periodic in x and y

Cell `3 row + col`, node `4 row + col`; faces 0-2 left, 3-5 right, 6-8 upper, 9-11 bottom (the corner nodes are upper / bottom nodes). -/

def gridMesh : PMesh ℚ where
  centerf := fun i e =>
    if e = 0 then (if i < 3 then 0 else if i < 6 then 3 else if i < 9 then (i : ℚ) - 6 + 1 / 2 else (i : ℚ) - 9 + 1 / 2)
    else if e = 1 then (if i < 3 then (i : ℚ) + 1 / 2 else if i < 6 then (i : ℚ) - 3 + 1 / 2 else if i < 9 then 3 else 0)
    else 0
  cell0 := fun i => if i < 3 then 3 * i else if i < 6 then 3 * (i - 3) + 2 else if i < 9 then i else i - 9
  cellnid := fun c => (List.range 9).filter (fun d => d ≠ c ∧ d % 3 ≤ c % 3 + 1 ∧ c % 3 ≤ d % 3 + 1 ∧ d / 3 ≤ c / 3 + 1 ∧ c / 3 ≤ d / 3 + 1)
  vertex := fun i e => if e = 0 then ((i % 4 : Nat) : ℚ) else if e = 1 then ((i / 4 : Nat) : ℚ) else 0
  ncells := fun i => (List.range 9).filter (fun c => (i % 4 = c % 3 ∨ i % 4 = c % 3 + 1) ∧ (i / 4 = c / 3 ∨ i / 4 = c / 3 + 1))

def gridF : Sides := ⟨[0, 1, 2], [3, 4, 5], [6, 7, 8], [9, 10, 11], [], []⟩
def gridN : Sides := ⟨[4, 8], [7, 11], [12, 13, 14, 15], [0, 1, 2, 3], [], []⟩

theorem grid_periodic : PeriodicMesh2 (fun x => x) gridMesh (fun _ => 3) gridF gridN where
  x := by
    refine ⟨?_, ?_, ?_, ?_, ?_, ?_, ?_, ?_, ?_, ?_, ?_, ?_, ?_, ?_, ?_⟩
    case refine_11 => rintro i (h | h) <;> revert i <;> decide +kernel
    all_goals first
      | decide +kernel
      | (simp only [Matched, KeysDistinct, Exact, IsTranslate]; decide +kernel)
  y := by
    refine ⟨?_, ?_, ?_, ?_, ?_, ?_, ?_, ?_, ?_, ?_, ?_, ?_, ?_, ?_, ?_⟩
    case refine_11 => rintro i (h | h) <;> revert i <;> decide +kernel
    all_goals first
      | decide +kernel
      | (simp only [Matched, KeysDistinct, Exact, IsTranslate]; decide +kernel)
  xyF := by intro i h; simp [gridF] at h ⊢; omega
  xyN := by intro i h; simp [gridN] at h ⊢; omega

/-- Left face 1 and right face 4 exchange their cells 3 and 5; node 4 sees the cells 2 and 5 of node 7; node 1 sees the cells 6, 7 of node 13;
the upper node 13 sees only one of the cells 0, 1 of node 1. -/
example : (update2d (fun x => x) gridMesh (fun _ => 3) (fun _ => 3) gridF gridN (fun _ => -1)).map (fun s =>
    ([s.cell1 1, s.cell1 4], s.nper 4, s.nper 1, s.nper 13)) = some ([5, 3], [2, 5], [6, 7], [0]) := by decide +kernel

/-- The hypotheses of the theorem on the shift in x hold for the grid; cell 5 (right, middle) is near the right side. -/
example : (∀ i ∈ gridF.inn, ∀ k ∈ gridF.out, gridMesh.cell0 i ≠ gridMesh.cell0 k) ∧ Near gridMesh gridF.out 5 ∧ ¬ Near gridMesh gridF.inn 5 := by
  refine ⟨by decide, ⟨3, by decide, by decide⟩, ?_⟩
  rintro ⟨i, hi, h⟩
  revert i; decide

/-- The same grid, periodic in y only: all hypotheses of `C68_shift_y_2d_wrong` hold for faces 7 (above) and 10 (below). -/
def gridFy : Sides := ⟨[], [], [6, 7, 8], [9, 10, 11], [], []⟩
def gridNy : Sides := ⟨[], [], [12, 13, 14, 15], [0, 1, 2, 3], [], []⟩

theorem grid_periodic_y : PeriodicMesh2 (fun x => x) gridMesh (fun _ => 3) gridFy gridNy where
  x := by constructor <;> simp [Matched, KeysDistinct, Exact, gridFy, gridNy]
  y := grid_periodic.y
  xyF := by intro i h; simp [gridFy] at h
  xyN := by intro i h; simp [gridNy] at h

example : (∀ i ∈ gridFy.upper, ∀ k ∈ gridFy.bottom, gridMesh.cell0 i ≠ gridMesh.cell0 k) ∧ (3 : ℚ) ≠ -3 ∧
    IsTranslate 1 3 (gridMesh.centerf 10) (gridMesh.centerf 7) ∧ Near gridMesh gridFy.bottom (gridMesh.cell0 10) ∧
    ¬ Near gridMesh gridFy.upper (gridMesh.cell0 10) := by
  refine ⟨by decide, by norm_num, ?_, ⟨9, by decide, by decide⟩, ?_⟩
  · unfold IsTranslate; decide +kernel
  · rintro ⟨i, hi, h⟩
    revert i; decide

/-- The result on it: cell 1 (below, partner of the upper face 7 at y = 3) has centre y = 1/2 and shift -3, so its image is at -5/2, not 7/2. -/
example : (update2d (fun x => x) gridMesh (fun _ => 3) (fun _ => 3) gridFy gridNy (fun _ => -1)).map (fun s => (s.cell1 7, s.shift 1 1)) =
    some (1, -3) := by decide +kernel

/-- Rounding (here: to multiples of 1/2) with `r 0 = 0`, `r L ≠ L` for `L = 1/3`. -/
example : (fun x : ℚ => ((Rat.floor (2 * x) : Int) : ℚ) / 2) 0 = 0 ∧ (fun x : ℚ => ((Rat.floor (2 * x) : Int) : ℚ) / 2) (1 / 3) ≠ 1 / 3 := by decide +kernel

/-! A layer of 3 × 3 cubes, periodic in x, y and z: faces 0-11 as before, 12-20 front (z = 1), 21-29 back (z = 0); nodes `i < 16` at z = 0,
`i ≥ 16` at z = 1; only the four inner nodes of a layer are front / back nodes. -/

def gridMesh3 : PMesh ℚ where
  centerf := fun i e => if i < 12 then (if e = 2 then 1 / 2 else gridMesh.centerf i e) else
    let c := (i - 12) % 9
    if e = 0 then ((c % 3 : Nat) : ℚ) + 1 / 2 else if e = 1 then ((c / 3 : Nat) : ℚ) + 1 / 2 else if i < 21 then 1 else 0
  cell0 := fun i => if i < 12 then gridMesh.cell0 i else (i - 12) % 9
  cellnid := gridMesh.cellnid
  vertex := fun i e => if e = 2 then (if i < 16 then 0 else 1) else gridMesh.vertex (i % 16) e
  ncells := fun i => gridMesh.ncells (i % 16)

def gridF3 : Sides := ⟨[0, 1, 2], [3, 4, 5], [6, 7, 8], [9, 10, 11], [12, 13, 14, 15, 16, 17, 18, 19, 20], [21, 22, 23, 24, 25, 26, 27, 28, 29]⟩
def gridN3 : Sides := ⟨[4, 8, 20, 24], [7, 11, 23, 27], [12, 13, 14, 15, 28, 29, 30, 31], [0, 1, 2, 3, 16, 17, 18, 19], [21, 22, 25, 26], [5, 6, 9, 10]⟩

theorem grid_periodic3 : PeriodicMesh3 (fun x => x) gridMesh3 (fun d => if d = 2 then 1 else 3) gridF3 gridN3 where
  x := by
    refine ⟨?_, ?_, ?_, ?_, ?_, ?_, ?_, ?_, ?_, ?_, ?_, ?_, ?_, ?_, ?_⟩
    case refine_11 => rintro i (h | h) <;> revert i <;> decide +kernel
    all_goals first
      | decide +kernel
      | (simp only [Matched, KeysDistinct, Exact, IsTranslate]; decide +kernel)
  y := by
    refine ⟨?_, ?_, ?_, ?_, ?_, ?_, ?_, ?_, ?_, ?_, ?_, ?_, ?_, ?_, ?_⟩
    case refine_11 => rintro i (h | h) <;> revert i <;> decide +kernel
    all_goals first
      | decide +kernel
      | (simp only [Matched, KeysDistinct, Exact, IsTranslate]; decide +kernel)
  z := by
    refine ⟨?_, ?_, ?_, ?_, ?_, ?_, ?_, ?_, ?_, ?_, ?_, ?_, ?_, ?_, ?_⟩
    case refine_11 => rintro i (h | h) <;> revert i <;> decide +kernel
    all_goals first
      | decide +kernel
      | (simp only [Matched, KeysDistinct, Exact, IsTranslate]; decide +kernel)
  xyF := by intro i h; simp [gridF3] at h ⊢; omega
  xyN := by intro i h; simp [gridN3] at h ⊢; omega
  xzF := by intro i h; simp [gridF3] at h ⊢; omega
  xzN := by intro i h; simp [gridN3] at h ⊢; omega
  yzF := by intro i h; simp [gridF3] at h ⊢; omega
  yzN := by intro i h; simp [gridN3] at h ⊢; omega

example : (update3d (fun x => x) gridMesh3 (fun d => if d = 2 then 1 else 3) (fun d => if d = 2 then 1 else 3) gridF3 gridN3 (fun _ => -1)).map (fun s =>
    ([s.cell1 1, s.cell1 4, s.cell1 16], s.nper 13, s.nper 21)) = some ([5, 3, 4], [0, 1], [0, 1, 3, 4]) := by decide +kernel

end Verif.Props.Per
