import Verif.Spec.Output
import Mathlib.Data.List.Nodup
import Mathlib.Logic.Function.Basic
import Mathlib.Data.List.GetD
import Mathlib.Tactic.IntervalCases

/-!
# Model instances, result files, node labels (C63, C64, C67)
-/
set_option linter.unusedSectionVars false
set_option linter.unusedSimpArgs false
set_option linter.unusedVariables false
set_option linter.unnecessarySeqFocus false
set_option linter.unusedTactic false
set_option linter.unreachableTactic false
namespace Verif.Output
open Verif

/-! ## C63 -/

theorem dictSet_mem (names : List String) (f : String → Nat) (v : String) (x : Nat) (h : v ∈ names) :
    dictSet (names.map (fun k => (k, f k))) v x = names.map (fun k => (k, Function.update f v x k)) := by
  have : v ∈ (names.map (fun k => (k, f k))).map Prod.fst := by simpa [List.map_map] using h
  rw [dictSet, if_pos this, List.map_map]
  apply List.map_congr_left
  intro k hk
  by_cases e : k = v
  · subst e; simp
  · simp [e]

theorem dictSet_new (l : List String) (f : String → Nat) (v : String) (x : Nat) (h : v ∉ l) :
    dictSet (l.map (fun k => (k, f k))) v x = (l ++ [v]).map (fun k => (k, Function.update f v x k)) := by
  have : v ∉ (l.map (fun k => (k, f k))).map Prod.fst := by simpa [List.map_map] using h
  rw [dictSet, if_neg this, List.map_append]
  congr 1
  · apply List.map_congr_left
    intro k hk
    have : k ≠ v := fun e => h (e ▸ hk)
    simp [this]
  · simp

/-- The values given to the names by the constructor's loop. -/
def assign (s : Nat × (String → Nat)) (names : List String) : Nat × (String → Nat) :=
  names.foldl (fun s v => (s.1 + 1, Function.update s.2 v s.1)) s

theorem assign_fst (s : Nat × (String → Nat)) (names : List String) : (assign s names).1 = s.1 + names.length := by
  induction names generalizing s with
  | nil => rfl
  | cons a l ih => simp only [assign, List.foldl_cons] at *; rw [ih]; simp; omega

theorem assign_notin (s : Nat × (String → Nat)) (names : List String) (k : String) (h : k ∉ names) : (assign s names).2 k = s.2 k := by
  induction names generalizing s with
  | nil => rfl
  | cons a l ih =>
    simp only [assign, List.foldl_cons] at *
    simp only [List.mem_cons, not_or] at h
    rw [ih _ h.2]
    simp [h.1]

theorem assign_map (s : Nat × (String → Nat)) (names : List String) (hn : names.Nodup) :
    names.map (assign s names).2 = List.range' s.1 names.length := by
  induction names generalizing s with
  | nil => rfl
  | cons a l ih =>
    rw [List.nodup_cons] at hn
    have h1 := ih (s.1 + 1, Function.update s.2 a s.1) hn.2
    have h2 := assign_notin (s.1 + 1, Function.update s.2 a s.1) l a hn.1
    simp only [List.map_cons, List.length_cons, List.range'_succ]
    have e : (assign s (a :: l)).2 = (assign (s.1 + 1, Function.update s.2 a s.1) l).2 := rfl
    rw [e, h2, h1]
    simp

theorem fold_known (names todo : List String) (f : String → Nat) (id : Nat) (h : ∀ v ∈ todo, v ∈ names) :
    todo.foldl (fun (s : Nat × List (String × Nat)) v => (s.1 + 1, dictSet s.2 v s.1)) (id, names.map (fun k => (k, f k)))
      = ((assign (id, f) todo).1, names.map (fun k => (k, (assign (id, f) todo).2 k))) := by
  induction todo generalizing f id with
  | nil => rfl
  | cons a l ih =>
    simp only [List.foldl_cons]
    rw [dictSet_mem names f a id (h a (by simp)), ih _ _ (fun v hv => h v (by simp [hv]))]
    rfl

theorem fold_fresh (done todo : List String) (f : String → Nat) (id : Nat) (h : (done ++ todo).Nodup) :
    todo.foldl (fun (s : Nat × List (String × Nat)) v => (s.1 + 1, dictSet s.2 v s.1)) (id, done.map (fun k => (k, f k)))
      = ((assign (id, f) todo).1, (done ++ todo).map (fun k => (k, (assign (id, f) todo).2 k))) := by
  induction todo generalizing f id done with
  | nil => simp [assign]
  | cons a l ih =>
    simp only [List.foldl_cons]
    have ha : a ∉ done := by
      intro hd
      rw [List.nodup_append] at h
      exact h.2.2 a hd a (by simp) rfl
    rw [dictSet_new done f a id ha, ih (done ++ [a]) _ _ (by simpa using h)]
    simp [assign]

/-- Shape of the heap after any history. -/
structure Inv (names : List String) (h : Heap) : Prop where
  ids : h.nextId = h.own.length * names.length
  own : ∀ j < h.own.length, h.own.getD j [] = List.range' (j * names.length) names.length
  dict : (h.own = [] ∧ h.varbs = []) ∨ ∃ f, h.varbs = names.map (fun k => (k, f k)) ∧ 0 < h.own.length
    ∧ names.map f = List.range' ((h.own.length - 1) * names.length) names.length

theorem find_map (names : List String) (f : String → Nat) (v : String) (h : v ∈ names) :
    ((names.map (fun k => (k, f k))).find? (fun e => e.1 = v)).map Prod.snd = some (f v) := by
  induction names with
  | nil => simp at h
  | cons a l ih =>
    by_cases e : a = v
    · subst e; simp
    · simp only [List.map_cons, List.find?_cons, e, decide_false]
      exact ih (by rcases List.mem_cons.1 h with rfl | h; exacts [absurd rfl e, h])

theorem inv_construct (names : List String) (hn : names.Nodup) (h : Heap) (hi : Inv names h) : Inv names (h.construct names) := by
  obtain ⟨ids, own, dict⟩ := hi
  obtain ⟨f, hf⟩ : ∃ f : String → Nat, names.foldl (fun (s : Nat × List (String × Nat)) v => (s.1 + 1, dictSet s.2 v s.1)) (h.nextId, h.varbs)
      = ((assign (h.nextId, f) names).1, names.map (fun k => (k, (assign (h.nextId, f) names).2 k))) := by
    rcases dict with ⟨-, hd⟩ | ⟨f, hd, -, -⟩
    · exact ⟨fun _ => 0, by rw [hd]; simpa using fold_fresh [] names (fun _ => 0) h.nextId (by simpa using hn)⟩
    · exact ⟨f, by rw [hd]; exact fold_known names names f h.nextId (fun v hv => hv)⟩
  have hmap := assign_map (h.nextId, f) names hn
  have hown : names.map (fun v => (((names.map (fun k => (k, (assign (h.nextId, f) names).2 k))).find? (fun e => e.1 = v)).map Prod.snd).getD 0)
      = List.range' h.nextId names.length := by
    rw [← hmap]
    apply List.map_congr_left
    intro v hv
    rw [find_map names _ v hv]; rfl
  have hc : h.construct names = Heap.mk (assign (h.nextId, f) names).1 (names.map (fun k => (k, (assign (h.nextId, f) names).2 k)))
      (h.own ++ [List.range' h.nextId names.length]) h.updated := by
    simp only [Heap.construct, hf, hown]
  rw [hc]
  refine ⟨?_, ?_, .inr ⟨(assign (h.nextId, f) names).2, rfl, by simp, ?_⟩⟩
  · simp only [assign_fst, List.length_append, List.length_singleton, ids]; ring
  · intro j hj
    simp only [List.length_append, List.length_singleton] at hj
    simp only [List.getD_eq_getElem?_getD]
    by_cases e : j < h.own.length
    · rw [List.getElem?_append_left e]; have := own j e; rwa [List.getD_eq_getElem?_getD] at this
    · have : j = h.own.length := by omega
      subst this
      rw [List.getElem?_append_right (le_refl _)]
      simp [ids]
  · simp only [List.length_append, List.length_singleton, Nat.add_sub_cancel]
    rw [hmap, ids]

theorem inv_update (names : List String) (i : Nat) (h : Heap) (hi : Inv names h) : Inv names (h.updateValues i) := ⟨hi.ids, hi.own, hi.dict⟩

theorem inv_run (names : List String) (hn : names.Nodup) (ops : List HOp) : Inv names (ops.foldl (Heap.exec names) Heap.empty) := by
  suffices ∀ h, Inv names h → Inv names (ops.foldl (Heap.exec names) h) from this _ ⟨by simp [Heap.empty], by simp [Heap.empty], .inl ⟨rfl, rfl⟩⟩
  induction ops with
  | nil => intro h hi; exact hi
  | cons o ops ih =>
    intro h hi
    rw [List.foldl_cons]
    apply ih
    cases o with
    | construct => exact inv_construct names hn h hi
    | update i => exact inv_update names i h hi

theorem fold_incr (l : List (String × Nat)) (u : Nat → Nat) (hn : (l.map Prod.snd).Nodup) (v : Nat) :
    l.foldl (fun u e => setAt u e.2 (u e.2 + 1)) u v = u v + if v ∈ l.map Prod.snd then 1 else 0 := by
  induction l generalizing u with
  | nil => simp
  | cons a l ih =>
    simp only [List.map_cons, List.nodup_cons] at hn
    rw [List.foldl_cons, ih _ hn.2]
    by_cases e : v = a.2
    · subst e; simp [hn.1]
    · simp only [setAt, e, if_false, List.map_cons, List.mem_cons, false_or]

/-- **C63** (exact): after any history of constructions and updates, `update_values` of *any* instance updates once each variable of the last
constructed instance, and nothing else. -/
theorem C63_update_hits_last_instance (names : List String) (hn : names.Nodup) (ops : List HOp) (j v : Nat) :
    let h := ops.foldl (Heap.exec names) Heap.empty
    (h.updateValues j).updated v = h.updated v + if v ∈ h.own.getLastD [] then 1 else 0 := by
  intro h
  have hi : Inv names h := inv_run names hn ops
  rcases hi.dict with ⟨ho, hd⟩ | ⟨f, hd, hpos, hm⟩
  · simp [Heap.updateValues, ho, hd]
  · have hlast : h.own.getLastD [] = List.range' ((h.own.length - 1) * names.length) names.length := by
      rw [List.getLastD_eq_getLast?, List.getLast?_eq_getElem?, ← List.getD_eq_getElem?_getD]
      exact hi.own _ (by omega)
    have hsnd : h.varbs.map Prod.snd = List.range' ((h.own.length - 1) * names.length) names.length := by
      rw [hd, List.map_map, ← hm]; rfl
    simp only [Heap.updateValues]
    rw [fold_incr _ _ (by rw [hsnd]; exact List.nodup_range'), hsnd, hlast]

/-- **C63** (refutation): once a second instance exists, `update_values` of the first instance updates none of the first instance's variables. -/
theorem C63_older_instance_ignored (names : List String) (hn : names.Nodup) (ops : List HOp) (j v : Nat) :
    let h := ops.foldl (Heap.exec names) Heap.empty
    j + 1 < h.own.length → v ∈ h.own.getD j [] → (h.updateValues j).updated v = h.updated v := by
  intro h hj hv
  have hi : Inv names h := inv_run names hn ops
  have hu := C63_update_hits_last_instance names hn ops j v
  simp only at hu
  rw [hu]
  have hlast : h.own.getLastD [] = List.range' ((h.own.length - 1) * names.length) names.length := by
    rw [List.getLastD_eq_getLast?, List.getLast?_eq_getElem?, ← List.getD_eq_getElem?_getD]
    exact hi.own _ (by omega)
  rw [hi.own j (by omega), List.mem_range'_1] at hv
  have hne : v ∉ h.own.getLastD [] := by
    rw [hlast, List.mem_range'_1]
    have : (j + 1) * names.length ≤ (h.own.length - 1) * names.length := Nat.mul_le_mul_right _ (by omega)
    have e : (j + 1) * names.length = j * names.length + names.length := by ring
    omega
  change h.updated v + (if v ∈ h.own.getLastD [] then 1 else 0) = _
  rw [if_neg hne, Nat.add_zero]

/-- **C63** (partial): the last constructed instance (in particular a single one) is updated correctly: each of its variables exactly once. -/
theorem C63_last_instance_partial (names : List String) (hn : names.Nodup) (ops : List HOp) (v : Nat) :
    let h := ops.foldl (Heap.exec names) Heap.empty
    0 < h.own.length → v ∈ h.own.getD (h.own.length - 1) [] →
      (h.updateValues (h.own.length - 1)).updated v = h.updated v + 1 := by
  intro h hpos hv
  have hu := C63_update_hits_last_instance names hn ops (h.own.length - 1) v
  simp only at hu
  change (h.updateValues _).updated v = h.updated v + (if v ∈ h.own.getLastD [] then 1 else 0) at hu
  rw [hu, if_pos]
  rw [List.getLastD_eq_getLast?, List.getLast?_eq_getElem?, ← List.getD_eq_getElem?_getD]
  exact hv

/-- Two shallow-water models: five variables each; updating the first touches variables 5..9 only. -/
example : let h := [HOp.construct, .construct].foldl (Heap.exec ["h", "hu", "hv", "hc", "Z"]) Heap.empty
    h.own = [[0, 1, 2, 3, 4], [5, 6, 7, 8, 9]] ∧ (List.range 10).map (h.updateValues 0).updated = [0, 0, 0, 0, 0, 1, 1, 1, 1, 1] := by
  decide +kernel

/-! ## C64 -/

theorem savesSince_snoc_save (ops : List FOp) (m k : Nat) :
    savesSince (ops ++ [.save k]) m = savesSince ops m + if k = m then 1 else 0 := by
  simp only [savesSince, List.reverse_append, List.reverse_singleton, List.singleton_append, List.takeWhile_cons]
  by_cases e : k = m
  · subst e; simp [List.count_cons]
  · simp [e, List.count_cons]

/-- **C64** (exact): after any history on several ranks the index file of an iteration contains one document per save of that iteration since
the results were last cleared, each naming the pieces of all ranks. -/
theorem C64_documents (size : Nat) (hs : 1 < size) (ops : List FOp) (m : Nat) :
    (ops.foldl (fexec size) (fun _ => [])) m = List.replicate (savesSince ops m) (pieces size m) := by
  induction ops using List.reverseRecOn with
  | nil => rfl
  | append_singleton ops o ih =>
    rw [List.foldl_append, List.foldl_cons, List.foldl_nil]
    cases o with
    | readmesh => simp [fexec, savesSince]
    | save k =>
      rw [savesSince_snoc_save]
      simp only [fexec, if_pos hs]
      by_cases e : k = m
      · subst e; rw [setAt_same, ih, if_pos rfl, List.replicate_succ']
      · rw [setAt_ne _ _ (fun h => e h.symm), ih, if_neg e, Nat.add_zero]

/-- **C64** (the pieces): a document names one piece per rank, in the order of the ranks, with the rank and the iteration in the name. -/
theorem C64_pieces (size m q : Nat) : (pieces size m).length = size ∧
    (pieces size m)[q]? = if q < size then some (s!"visu{q}-{m}.vtu") else none := by
  constructor
  · simp [pieces]
  · unfold pieces
    by_cases h : q < size
    · simp [h]
      rfl
    · rw [if_neg h, List.getElem?_eq_none_iff]
      simpa using h

/-- **C64** (refutation): saving two fields of the same iteration (or restarting without re-reading the mesh) leaves two documents in the
index file, which is not well-formed XML. -/
theorem C64_two_documents_counterexample :
    ((([.save 7, .save 7] : List FOp).foldl (fexec 2) (fun _ => [])) 7).length = 2 := by decide +kernel

/-- **C64** (partial): an iteration saved exactly once since the results were cleared has exactly one document. -/
theorem C64_one_save_partial (size : Nat) (hs : 1 < size) (ops : List FOp) (m : Nat) (h : savesSince ops m = 1) :
    (ops.foldl (fexec size) (fun _ => [])) m = [pieces size m] := by rw [C64_documents size hs, h]; rfl

example : savesSince [.save 3, .readmesh, .save 3, .save 4] 3 = 1 := by decide

/-! ## C67 -/

theorem inner_const (vs : List Nat) (lab : Nat → Int) (x : Int) (v : Nat) :
    vs.foldl (fun l w => setAt l w x) lab v = if v ∈ vs then x else lab v := by
  induction vs generalizing lab with
  | nil => simp
  | cons a l ih =>
    rw [List.foldl_cons, ih]
    by_cases h : v ∈ l
    · simp [h]
    · by_cases e : v = a
      · subst e; simp [h]
      · simp [h, e, setAt]

theorem pass12_apply (lab : Nat → Int) (e : BElem) (v : Nat) : pass12 lab e v = if v ∈ e.1 ∧ (e.2 = 1 ∨ e.2 = 2) then e.2 else lab v := by
  unfold pass12
  by_cases h : e.2 = 1 ∨ e.2 = 2
  · simp only [h, if_true, and_true]; exact inner_const e.1 lab e.2 v
  · simp only [h, if_false, and_false]
    have : ∀ (vs : List Nat), vs.foldl (fun (l : Nat → Int) (_ : Nat) => l) lab = lab := by
      intro vs; induction vs with
      | nil => rfl
      | cons a l ih => simp
    rw [this]

theorem pass34_apply (lab : Nat → Int) (e : BElem) (v : Nat) :
    pass34 lab e v = if v ∈ e.1 ∧ (e.2 = 3 ∨ e.2 = 4) ∧ lab v ≠ 1 ∧ lab v ≠ 2 then e.2 else lab v := by
  unfold pass34
  obtain ⟨vs, x⟩ := e
  simp only
  by_cases h : x = 3 ∨ x = 4
  · simp only [h, if_true, true_and]
    have hx : x ≠ 1 ∧ x ≠ 2 := by rcases h with h | h <;> subst h <;> decide
    induction vs generalizing lab with
    | nil => simp
    | cons a l ih =>
      rw [List.foldl_cons, ih]
      by_cases ha : lab a ≠ 1 ∧ lab a ≠ 2
      · rw [if_pos ha]
        by_cases e : v = a
        · subst e; simp [hx, ha]
        · simp [e, setAt]
      · rw [if_neg ha]
        by_cases e : v = a
        · subst e; simp [ha]
        · simp [e]
  · simp only [h, if_false, false_and, and_false]
    have : ∀ (vs : List Nat), vs.foldl (fun (l : Nat → Int) (w : Nat) => if l w ≠ 1 ∧ l w ≠ 2 then l else l) lab = lab := by
      intro vs; induction vs with
      | nil => rfl
      | cons a l ih => simp
    rw [this]

theorem passRest_apply (lab : Nat → Int) (e : BElem) (v : Nat) : passRest lab e v = if v ∈ e.1 ∧ lab v = 0 then e.2 else lab v := by
  unfold passRest
  obtain ⟨vs, x⟩ := e
  simp only
  induction vs generalizing lab with
  | nil => simp
  | cons a l ih =>
    rw [List.foldl_cons, ih]
    by_cases ha : lab a = 0
    · rw [if_pos ha]
      by_cases e : v = a
      · subst e
        simp only [setAt_same, List.mem_cons, true_or, true_and, ha, if_true]
        split_ifs <;> rfl
      · simp [e, setAt]
    · rw [if_neg ha]
      by_cases e : v = a
      · subst e; simp [ha]
      · simp [e]

theorem labelsAt_snoc (els : List BElem) (e : BElem) (P : Int → Bool) (v : Nat) :
    labelsAt (els ++ [e]) P v = labelsAt els P v ++ if v ∈ e.1 ∧ P e.2 then [e.2] else [] := by
  simp only [labelsAt, List.filter_append, List.map_append]
  congr 1
  by_cases h : v ∈ e.1 <;> by_cases hp : P e.2 <;> simp [h, hp]

theorem fold12 (els : List BElem) (v : Nat) :
    els.foldl pass12 (fun _ => 0) v = ((labelsAt els (fun l => l = 1 ∨ l = 2) v).getLast?).getD 0 := by
  induction els using List.reverseRecOn with
  | nil => rfl
  | append_singleton els e ih =>
    rw [List.foldl_append, List.foldl_cons, List.foldl_nil, pass12_apply, labelsAt_snoc, ih]
    by_cases h : v ∈ e.1 ∧ (e.2 = 1 ∨ e.2 = 2)
    · have h' : v ∈ e.1 ∧ decide (e.2 = 1 ∨ e.2 = 2) = true := by simpa using h
      rw [if_pos h, if_pos h']; simp
    · have h' : ¬(v ∈ e.1 ∧ decide (e.2 = 1 ∨ e.2 = 2) = true) := by simpa using h
      rw [if_neg h, if_neg h']; simp

theorem labelsAt_mem (els : List BElem) (P : Int → Bool) (v : Nat) (l : Int) (h : l ∈ labelsAt els P v) : P l = true := by
  simp only [labelsAt, List.mem_map, List.mem_filter, Bool.and_eq_true] at h
  obtain ⟨e, ⟨-, -, hp⟩, rfl⟩ := h
  exact hp

theorem fold34 (els : List BElem) (lab : Nat → Int) (v : Nat) :
    els.foldl pass34 lab v = if lab v = 1 ∨ lab v = 2 then lab v else ((labelsAt els (fun l => l = 3 ∨ l = 4) v).getLast?).getD (lab v) := by
  induction els using List.reverseRecOn with
  | nil => simp [labelsAt]
  | append_singleton els e ih =>
    rw [List.foldl_append, List.foldl_cons, List.foldl_nil, pass34_apply, labelsAt_snoc, ih]
    by_cases hl : lab v = 1 ∨ lab v = 2
    · simp only [hl, if_true]
      have : ¬(lab v ≠ 1 ∧ lab v ≠ 2) := by tauto
      simp [this]
    · simp only [hl, if_false]
      have hne : ((labelsAt els (fun l => decide (l = 3 ∨ l = 4)) v).getLast?).getD (lab v) ≠ 1
          ∧ ((labelsAt els (fun l => decide (l = 3 ∨ l = 4)) v).getLast?).getD (lab v) ≠ 2 := by
        cases hg : (labelsAt els (fun l => decide (l = 3 ∨ l = 4)) v).getLast? with
        | none => simp only [Option.getD_none]; tauto
        | some l =>
          have := labelsAt_mem els _ v l (List.mem_of_getLast? hg)
          simp only [decide_eq_true_eq] at this
          simp only [Option.getD_some]
          rcases this with h | h <;> subst h <;> decide
      by_cases h : v ∈ e.1 ∧ (e.2 = 3 ∨ e.2 = 4)
      · have h' : v ∈ e.1 ∧ decide (e.2 = 3 ∨ e.2 = 4) = true := by simpa using h
        rw [if_pos ⟨h.1, h.2, hne⟩, if_pos h']; simp
      · have h' : ¬(v ∈ e.1 ∧ decide (e.2 = 3 ∨ e.2 = 4) = true) := by simpa using h
        rw [if_neg (fun hh => h ⟨hh.1, hh.2.1⟩), if_neg h']; simp

theorem foldRest (els : List BElem) (lab : Nat → Int) (v : Nat) :
    els.foldl passRest lab v = if lab v ≠ 0 then lab v else ((labelsAt els (fun l => l ≠ 0) v).head?).getD 0 := by
  induction els using List.reverseRecOn with
  | nil => simp only [List.foldl_nil, labelsAt]; split_ifs with h <;> simp_all
  | append_singleton els e ih =>
    rw [List.foldl_append, List.foldl_cons, List.foldl_nil, passRest_apply, labelsAt_snoc, ih]
    by_cases hl : lab v ≠ 0
    · simp [hl]
    · simp only [hl, if_false]
      cases hg : labelsAt els (fun l => decide (l ≠ 0)) v with
      | nil =>
        by_cases hv : v ∈ e.1
        · by_cases hz : e.2 = 0 <;> simp [hv, hz]
        · simp [hv]
      | cons a l =>
        have : a ≠ 0 := by
          have := labelsAt_mem els _ v a (by rw [hg]; simp)
          simpa using this
        simp [this]

/-- **C67** (rule): the label written for a node is the one given by the priority rule, renamed for the periodic directions. -/
theorem C67_label_rule (els : List BElem) (periodic : Nat → Int) (v : Nat) :
    ghostNodes els periodic v = rename periodic (labelRule els v) := by
  simp only [ghostNodes, labelRule, foldRest, fold34, fold12]
  congr 1
  cases h1 : (labelsAt els (fun l => decide (l = 1 ∨ l = 2)) v).getLast? with
  | some l =>
    have := labelsAt_mem els _ v l (List.mem_of_getLast? h1)
    simp only [decide_eq_true_eq] at this
    simp only [Option.getD_some, this, if_true]
    rcases this with h | h <;> subst h <;> simp
  | none =>
    simp only [Option.getD_none]
    cases h2 : (labelsAt els (fun l => decide (l = 3 ∨ l = 4)) v).getLast? with
    | some l =>
      have := labelsAt_mem els _ v l (List.mem_of_getLast? h2)
      simp only [decide_eq_true_eq] at this
      rcases this with h | h <;> subst h <;> simp
    | none => simp

/-- **C67** (soundness): the label of a node is 0 or the label of a boundary element containing it; it is 0 exactly when no boundary element
with a nonzero label contains it. -/
theorem C67_label_sound (els : List BElem) (v : Nat) :
    (labelRule els v ≠ 0 → ∃ e ∈ els, v ∈ e.1 ∧ e.2 = labelRule els v) ∧
    (labelRule els v = 0 ↔ ∀ e ∈ els, v ∈ e.1 → e.2 = 0) := by
  have hex : ∀ P l, l ∈ labelsAt els P v → ∃ e ∈ els, v ∈ e.1 ∧ e.2 = l := by
    intro P l hl
    simp only [labelsAt, List.mem_map, List.mem_filter, Bool.and_eq_true, decide_eq_true_eq] at hl
    obtain ⟨e, ⟨h1, h2, -⟩, h3⟩ := hl
    exact ⟨e, h1, h2, h3⟩
  have hsome : ∀ (P : Int → Bool) e, e ∈ els → v ∈ e.1 → P e.2 = true → labelsAt els P v ≠ [] := by
    intro P e he hv hp hnil
    have : e.2 ∈ labelsAt els P v := by
      simp only [labelsAt, List.mem_map, List.mem_filter, Bool.and_eq_true, decide_eq_true_eq]
      exact ⟨e, ⟨he, hv, hp⟩, rfl⟩
    rw [hnil] at this; simp at this
  unfold labelRule
  cases h1 : (labelsAt els (fun l => decide (l = 1 ∨ l = 2)) v).getLast? with
  | some l =>
    have hm := List.mem_of_getLast? h1
    have := labelsAt_mem els _ v l hm
    simp only [decide_eq_true_eq] at this
    obtain ⟨e, he, hv, hl⟩ := hex _ l hm
    refine ⟨fun _ => ⟨e, he, hv, hl⟩, ?_⟩
    simp only
    constructor
    · intro h; rcases this with h' | h' <;> omega
    · intro h; have := h e he hv; omega
  | none =>
    cases h2 : (labelsAt els (fun l => decide (l = 3 ∨ l = 4)) v).getLast? with
    | some l =>
      have hm := List.mem_of_getLast? h2
      have := labelsAt_mem els _ v l hm
      simp only [decide_eq_true_eq] at this
      obtain ⟨e, he, hv, hl⟩ := hex _ l hm
      refine ⟨fun _ => ⟨e, he, hv, hl⟩, ?_⟩
      simp only
      constructor
      · intro h; rcases this with h' | h' <;> omega
      · intro h; have := h e he hv; omega
    | none =>
      simp only
      cases h3 : labelsAt els (fun l => decide (l ≠ 0)) v with
      | nil =>
        simp only [List.head?_nil, Option.getD_none, ne_eq, not_true_eq_false, false_implies, true_iff, true_and]
        intro e he hv
        by_contra hz
        exact hsome (fun l => decide (l ≠ 0)) e he hv (by simpa using hz) h3
      | cons a l =>
        have hm : a ∈ labelsAt els (fun l => decide (l ≠ 0)) v := by rw [h3]; simp
        have ha := labelsAt_mem els _ v a hm
        simp only [decide_eq_true_eq] at ha
        obtain ⟨e, he, hv, hl⟩ := hex _ a hm
        simp only [List.head?_cons, Option.getD_some]
        refine ⟨fun _ => ⟨e, he, hv, hl⟩, ?_⟩
        constructor
        · intro h; exact absurd h ha
        · intro h; have := h e he hv; omega

/-- **C67** (renaming): renaming for periodic directions is injective on the labels 0 to 6 and turns exactly the labels of a periodic direction
into periodic labels. -/
theorem C67_rename_injective (periodic : Nat → Int) (l l' : Int) (hl : 0 ≤ l ∧ l ≤ 6) (hl' : 0 ≤ l' ∧ l' ≤ 6)
    (h : rename periodic l = rename periodic l') : l = l' := by
  obtain ⟨a, b⟩ := hl
  obtain ⟨a', b'⟩ := hl'
  simp only [rename] at h
  by_cases p0 : periodic 0 = 1 <;> by_cases p1 : periodic 1 = 1 <;> by_cases p2 : periodic 2 = 1 <;>
    simp only [p0, p1, p2, if_true, if_false] at h <;>
    interval_cases l <;> interval_cases l' <;> simp_all

/-- **C67** (refutation for list containers): with a mesh whose cells are stored in a list, any non-empty set of boundary elements raises. -/
theorem C67_list_mesh_counterexample (els : List BElem) (periodic : Nat → Int) (e : BElem) (he : e ∈ els) (hne : e.1 ≠ []) :
    ghostNodesList els periodic = .error "UnboundLocalError: k" := by
  rw [ghostNodesList, if_pos]
  rw [List.any_eq_true]
  exact ⟨e, he, by simpa using hne⟩

/-- A corner node (node 1 lies on label 3 and label 2; node 0 on labels 3 and 5; node 4 on none). -/
example : (List.range 5).map (ghostNodes [([0, 1], 3), ([1, 2], 2), ([2, 3], 4), ([3, 0], 5)] (fun i => if i = 0 then 1 else 0))
    = [3, 22, 22, 4, 0] := by decide +kernel

end Verif.Output
