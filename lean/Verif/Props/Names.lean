import Verif.Model.Names
import Verif.Spec.Names
import Verif.Props.Comm

/-!
# Properties C27 (halo faces), C28 (face names), C29 (face families)
-/
set_option linter.unusedSectionVars false
namespace Verif.Props
open Verif.Names Verif.Spec Verif.Part Verif.Conn Verif.MeshFile

/-! ## C28 -/

theorem foldl_setAt_if {α : Type*} (c : Nat → Prop) [DecidablePred c] (v : Nat → α) (a : Nat → α) (n f : Nat) :
    ((List.range n).foldl (fun nm i => if c i then setAt nm i (v i) else nm) a) f = if f < n ∧ c f then v f else a f := by
  induction n with
  | zero => simp
  | succ m ih =>
    rw [List.range_succ, List.foldl_append]
    simp only [List.foldl_cons, List.foldl_nil]
    by_cases hc : c m
    · rw [if_pos hc]
      by_cases hf : f = m
      · subst hf; simp [hc]
      · rw [setAt_ne _ _ hf, ih]
        have : f < m ↔ f < m + 1 := by omega
        simp [this]
    · rw [if_neg hc, ih]
      by_cases hf : f = m
      · subst hf; simp [hc]
      · have : f < m ↔ f < m + 1 := by omega
        simp [this]

/-- C28 (2D): the name of every face.  A two-sided face keeps 0; a one-sided face whose nodes carry the same label gets it; if the labels
differ and are both nonzero it gets the first of 3, 4, 33, 44 carried by one of them, and 100 if there is none or if a node is
unlabelled. -/
theorem C28_names_2d (cellid1 : Nat → Int) (nodeid : Nat → Nat → Nat) (namen : Nat → Int) (nbfaces f : Nat) (hf : f < nbfaces) :
    let nm := faceNames2 cellid1 nodeid namen nbfaces f
    let a := namen (nodeid f 0); let b := namen (nodeid f 1)
    (cellid1 f ≠ -1 → nm = 0) ∧
    (cellid1 f = -1 → a = b → nm = a) ∧
    (cellid1 f = -1 → a ≠ b → a ≠ 0 → b ≠ 0 → nm = (([3, 4, 33, 44] : List Int).find? (fun v => v = a ∨ v = b)).getD 100) ∧
    (cellid1 f = -1 → a ≠ b → (a = 0 ∨ b = 0) → nm = 100) := by
  intro nm a b
  have h : nm = if f < nbfaces ∧ (cellid1 f = -1 ∧ cellid1 f ≠ -10) then name2 a b else 0 :=
    foldl_setAt_if (fun i => cellid1 i = -1 ∧ cellid1 i ≠ -10) (fun i => name2 (namen (nodeid i 0)) (namen (nodeid i 1))) _ nbfaces f
  refine ⟨fun h1 => ?_, fun h1 h2 => ?_, fun h1 h2 h3 h4 => ?_, fun h1 h2 h3 => ?_⟩
  · rw [h, if_neg]; tauto
  · rw [h, if_pos ⟨hf, h1, by rw [h1]; decide⟩, name2, if_pos h2]
  · rw [h, if_pos ⟨hf, h1, by rw [h1]; decide⟩, name2, if_neg h2]
    simp only [List.find?_cons, List.find?_nil]
    by_cases e1 : (3 = a ∨ 3 = b) <;> by_cases e2 : (4 = a ∨ 4 = b) <;> by_cases e3 : (33 = a ∨ 33 = b) <;>
      by_cases e4 : (44 = a ∨ 44 = b) <;> simp [e1, e2, e3, e4] <;> grind
  · rw [h, if_pos ⟨hf, h1, by rw [h1]; decide⟩, name2, if_neg h2]
    grind

/-- C28 (3D): the priority order is 5, 6, 3, 4, 55, 66, 33, 44. -/
theorem C28_names_3d (cellid1 : Nat → Int) (nodeid : Nat → Nat → Nat) (namen : Nat → Int) (nbfaces f : Nat) (hf : f < nbfaces) :
    let nm := faceNames3 cellid1 nodeid namen nbfaces f
    let a := namen (nodeid f 0); let b := namen (nodeid f 1); let c := namen (nodeid f 2)
    (cellid1 f ≠ -1 → nm = 0) ∧
    (cellid1 f = -1 → a = b → a = c → nm = a) ∧
    (cellid1 f = -1 → ¬ (a = b ∧ a = c) → a ≠ 0 → b ≠ 0 → c ≠ 0 →
      nm = (([5, 6, 3, 4, 55, 66, 33, 44] : List Int).find? (fun v => v = a ∨ v = b ∨ v = c)).getD 100) ∧
    (cellid1 f = -1 → ¬ (a = b ∧ a = c) → (a = 0 ∨ b = 0 ∨ c = 0) → nm = 100) := by
  intro nm a b c
  have h : nm = if f < nbfaces ∧ cellid1 f = -1 then name3 a b c else 0 :=
    foldl_setAt_if (fun i => cellid1 i = -1) (fun i => name3 (namen (nodeid i 0)) (namen (nodeid i 1)) (namen (nodeid i 2))) _ nbfaces f
  refine ⟨fun h1 => ?_, fun h1 h2 h3 => ?_, fun h1 h2 h3 h4 h5 => ?_, fun h1 h2 h3 => ?_⟩
  · rw [h, if_neg]; tauto
  · rw [h, if_pos ⟨hf, h1⟩, name3, if_pos ⟨h2, h3⟩]
  · rw [h, if_pos ⟨hf, h1⟩, name3, if_neg h2]
    have key : ∀ v : Int, ((a = v ∧ b ≠ 0 ∧ c ≠ 0) ∨ (a ≠ 0 ∧ b = v ∧ c ≠ 0) ∨ (a ≠ 0 ∧ b ≠ 0 ∧ c = v)) ↔ (v = a ∨ v = b ∨ v = c) := by
      intro v; constructor
      · rintro (h | h | h) <;> simp [h]
      · rintro (h | h | h) <;> simp [h, h3, h4, h5]
    simp only [key, List.find?_cons, List.find?_nil]
    by_cases e1 : (5 = a ∨ 5 = b ∨ 5 = c)
    · simp [e1]
    by_cases e2 : (6 = a ∨ 6 = b ∨ 6 = c)
    · simp [e1, e2]
    by_cases e3 : (3 = a ∨ 3 = b ∨ 3 = c)
    · simp [e1, e2, e3]
    by_cases e4 : (4 = a ∨ 4 = b ∨ 4 = c)
    · simp [e1, e2, e3, e4]
    by_cases e5 : (55 = a ∨ 55 = b ∨ 55 = c)
    · simp [e1, e2, e3, e4, e5]
    by_cases e6 : (66 = a ∨ 66 = b ∨ 66 = c)
    · simp [e1, e2, e3, e4, e5, e6]
    by_cases e7 : (33 = a ∨ 33 = b ∨ 33 = c)
    · simp [e1, e2, e3, e4, e5, e6, e7]
    by_cases e8 : (44 = a ∨ 44 = b ∨ 44 = c)
    · simp [e1, e2, e3, e4, e5, e6, e7, e8]
    simp [e1, e2, e3, e4, e5, e6, e7, e8]
  · rw [h, if_pos ⟨hf, h1⟩, name3, if_neg h2]
    have key : ∀ v : Int, v ≠ 0 → ¬ ((a = v ∧ b ≠ 0 ∧ c ≠ 0) ∨ (a ≠ 0 ∧ b = v ∧ c ≠ 0) ∨ (a ≠ 0 ∧ b ≠ 0 ∧ c = v)) := by
      intro v hv
      rcases h3 with h3 | h3 | h3 <;> simp [h3, hv, Ne.symm hv]
    rw [if_neg (key 5 (by decide)), if_neg (key 6 (by decide)), if_neg (key 3 (by decide)), if_neg (key 4 (by decide)),
      if_neg (key 55 (by decide)), if_neg (key 66 (by decide)), if_neg (key 33 (by decide)), if_neg (key 44 (by decide))]

/-- A corner triangle: labels 1 and 3 meet, the face of side 3 is named 3, the interior face 0. -/
example : faceNames2 (fun f => if f = 1 then 4 else -1) (fun f j => f + j) (fun k => [1, 3, 3, 2].getD k 0) 3 0 = 3 ∧
    faceNames2 (fun f => if f = 1 then 4 else -1) (fun f j => f + j) (fun k => [1, 3, 3, 2].getD k 0) 3 1 = 0 ∧
    faceNames2 (fun f => if f = 1 then 4 else -1) (fun f j => f + j) (fun k => [1, 3, 3, 2].getD k 0) 3 2 = 3 := by decide +kernel
example : name3 1 3 5 = 5 ∧ name3 1 3 3 = 3 ∧ name3 1 2 1 = 100 ∧ name3 0 5 5 = 100 := by decide

/-! ## C29 -/

theorem count_named (name : Nat → Int) (nb : Nat) (v : Int) (f : Nat) :
    (named name nb v).count f = if f < nb ∧ name f = v then 1 else 0 := by
  have hn : (named name nb v).Nodup := List.Nodup.filter _ List.nodup_range
  rw [List.Nodup.count hn]
  simp [named]

theorem count_sort (l : List Nat) (f : Nat) : (l.insertionSort (· ≤ ·)).count f = l.count f :=
  (List.perm_insertionSort _ l).count_eq f

/-- C29 (2D): the inner, halo, boundary and periodic lists cover every face exactly once iff every face has one of the known names. -/
theorem C29_families_2d (name : Nat → Int) (nbfaces : Nat) :
    CoversOnce nbfaces (families2 name nbfaces) ↔ ∀ f < nbfaces, name f ∈ 0 :: 10 :: labels2 := by
  have h : ∀ f, ((families2 name nbfaces).map (fun l => l.count f)).sum
      = if f < nbfaces ∧ name f ∈ 0 :: 10 :: labels2 then 1 else 0 := by
    intro f
    simp only [families2, List.map_cons, List.map_nil, List.sum_cons, List.sum_nil, count_sort, List.count_append, count_named, labels2]
    by_cases hf : f < nbfaces
    · simp only [hf, true_and, List.mem_cons, List.not_mem_nil, or_false]
      by_cases h0 : name f ∈ ([0, 10, 1, 2, 3, 4, 11, 22, 33, 44] : List Int)
      · simp only [List.mem_cons, List.not_mem_nil, or_false] at h0
        rcases h0 with h | h | h | h | h | h | h | h | h | h <;> simp [h]
      · simp only [List.mem_cons, List.not_mem_nil, or_false, not_or] at h0
        simp [h0]
    · simp [hf]
  constructor
  · intro hc f hf
    have := hc f
    rw [h f, if_pos hf] at this
    by_contra hn
    rw [if_neg (fun h => hn h.2)] at this
    exact absurd this (by decide)
  · intro hc f
    rw [h f]
    by_cases hf : f < nbfaces
    · rw [if_pos hf, if_pos ⟨hf, hc f hf⟩]
    · rw [if_neg hf, if_neg (fun h => hf h.1)]

/-- C29 (3D). -/
theorem C29_families_3d (name : Nat → Int) (nbfaces : Nat) :
    CoversOnce nbfaces (families3 name nbfaces) ↔ ∀ f < nbfaces, name f ∈ 0 :: 10 :: labels3 := by
  have h : ∀ f, ((families3 name nbfaces).map (fun l => l.count f)).sum
      = if f < nbfaces ∧ name f ∈ 0 :: 10 :: labels3 then 1 else 0 := by
    intro f
    simp only [families3, List.map_cons, List.map_nil, List.sum_cons, List.sum_nil, count_sort, List.count_append, count_named, labels3]
    by_cases hf : f < nbfaces
    · simp only [hf, true_and, List.mem_cons, List.not_mem_nil, or_false]
      by_cases h0 : name f ∈ ([0, 10, 1, 2, 3, 4, 5, 6, 11, 22, 33, 44, 55, 66] : List Int)
      · simp only [List.mem_cons, List.not_mem_nil, or_false] at h0
        rcases h0 with h | h | h | h | h | h | h | h | h | h | h | h | h | h <;> simp [h]
      · simp only [List.mem_cons, List.not_mem_nil, or_false, not_or] at h0
        simp [h0]
    · simp [hf]
  constructor
  · intro hc f hf
    have := hc f
    rw [h f, if_pos hf] at this
    by_contra hn
    rw [if_neg (fun h => hn h.2)] at this
    exact absurd this (by decide)
  · intro hc f
    rw [h f]
    by_cases hf : f < nbfaces
    · rw [if_pos hf, if_pos ⟨hf, hc f hf⟩]
    · rw [if_neg hf, if_neg (fun h => hf h.1)]

/-- C29 as stated is false: a boundary face joining a node of side 1 to a node of side 2 (a side meshed by one edge) is in no
list, so its flux is never computed. -/
theorem C29_counterexample_lost_face :
    ∃ (cellid1 : Nat → Int) (nodeid : Nat → Nat → Nat) (namen : Nat → Int),
      (∀ f < 1, ∀ j < 2, namen (nodeid f j) ∈ labels2) ∧
      ¬ CoversOnce 1 (families2 (faceNames2 cellid1 nodeid namen 1) 1) := by
  refine ⟨fun _ => -1, fun _ j => j, fun k => if k = 0 then 1 else 2, by decide, ?_⟩
  rw [C29_families_2d]
  intro h
  exact absurd (h 0 (by decide)) (by decide +kernel)

/-- C29 as stated is false: a one-sided face between two unlabelled nodes is put in the inner list, where the schemes use its
second cell `-1`. -/
theorem C29_counterexample_unlabelled :
    ∃ (cellid1 : Nat → Int) (nodeid : Nat → Nat → Nat) (namen : Nat → Int),
      cellid1 0 = -1 ∧ 0 ∈ named (faceNames2 cellid1 nodeid namen 1) 1 0 :=
  ⟨fun _ => -1, fun _ j => j, fun _ => 0, rfl, by decide +kernel⟩

/-- C29 (2D, serial): if both nodes of every one-sided face carry a boundary label and these labels are equal or one of them is 3, 4, 33
or 44, then the lists cover every face exactly once and the inner list is exactly the list of two-sided faces. -/
theorem C29_families_of_names_partial (cellid1 : Nat → Int) (nodeid : Nat → Nat → Nat) (namen : Nat → Int) (nbfaces : Nat)
    (hlab : ∀ f < nbfaces, cellid1 f = -1 → namen (nodeid f 0) ∈ labels2 ∧ namen (nodeid f 1) ∈ labels2 ∧
      (namen (nodeid f 0) = namen (nodeid f 1) ∨ namen (nodeid f 0) ∈ ([3, 4, 33, 44] : List Int) ∨
        namen (nodeid f 1) ∈ ([3, 4, 33, 44] : List Int))) :
    let nm := faceNames2 cellid1 nodeid namen nbfaces
    CoversOnce nbfaces (families2 nm nbfaces) ∧ ∀ f, f ∈ named nm nbfaces 0 ↔ f < nbfaces ∧ cellid1 f ≠ -1 := by
  intro nm
  have key : ∀ f < nbfaces, (cellid1 f ≠ -1 → nm f = 0) ∧ (cellid1 f = -1 → nm f ∈ labels2) := by
    intro f hf
    obtain ⟨h1, h2, h3, _⟩ := C28_names_2d cellid1 nodeid namen nbfaces f hf
    refine ⟨h1, fun hc => ?_⟩
    obtain ⟨ha, hb, hab⟩ := hlab f hf hc
    by_cases hab' : namen (nodeid f 0) = namen (nodeid f 1)
    · rw [show nm f = _ from h2 hc hab']; exact ha
    · have ha0 : namen (nodeid f 0) ≠ 0 := by intro h; rw [h] at ha; exact absurd ha (by decide)
      have hb0 : namen (nodeid f 1) ≠ 0 := by intro h; rw [h] at hb; exact absurd hb (by decide)
      rw [show nm f = _ from h3 hc hab' ha0 hb0]
      obtain ⟨x, hx⟩ : ∃ x, ([3, 4, 33, 44] : List Int).find? (fun v => v = namen (nodeid f 0) ∨ v = namen (nodeid f 1)) = some x := by
        rw [← Option.isSome_iff_exists, List.find?_isSome]
        rcases hab with h | h | h
        · exact absurd h hab'
        · exact ⟨_, h, by simp⟩
        · exact ⟨_, h, by simp⟩
      rw [hx]
      have hsub : ∀ y ∈ ([3, 4, 33, 44] : List Int), y ∈ labels2 := by decide
      exact hsub x (List.mem_of_find?_eq_some hx)
  have l0 : ∀ x ∈ labels2, x ≠ 0 := by decide
  refine ⟨(C29_families_2d nm nbfaces).mpr ?_, ?_⟩
  · intro f hf
    by_cases hc : cellid1 f = -1
    · have := (key f hf).2 hc
      simp [this]
    · rw [(key f hf).1 hc]; simp
  · intro f
    simp only [named, List.mem_filter, List.mem_range, decide_eq_true_eq]
    constructor
    · rintro ⟨hf, h0⟩
      exact ⟨hf, fun hc => l0 _ ((key f hf).2 hc) h0⟩
    · rintro ⟨hf, hc⟩
      exact ⟨hf, (key f hf).1 hc⟩

/-- C29 (3D, serial): same, the deciding labels being 5, 6, 3, 4, 55, 66, 33, 44. -/
theorem C29_families_of_names_3d_partial (cellid1 : Nat → Int) (nodeid : Nat → Nat → Nat) (namen : Nat → Int) (nbfaces : Nat)
    (hlab : ∀ f < nbfaces, cellid1 f = -1 → (∀ j < 3, namen (nodeid f j) ∈ labels3) ∧
      ((namen (nodeid f 0) = namen (nodeid f 1) ∧ namen (nodeid f 0) = namen (nodeid f 2)) ∨
        ∃ j < 3, namen (nodeid f j) ∈ ([5, 6, 3, 4, 55, 66, 33, 44] : List Int))) :
    let nm := faceNames3 cellid1 nodeid namen nbfaces
    CoversOnce nbfaces (families3 nm nbfaces) ∧ ∀ f, f ∈ named nm nbfaces 0 ↔ f < nbfaces ∧ cellid1 f ≠ -1 := by
  intro nm
  have l0 : ∀ x ∈ labels3, x ≠ 0 := by decide
  have key : ∀ f < nbfaces, (cellid1 f ≠ -1 → nm f = 0) ∧ (cellid1 f = -1 → nm f ∈ labels3) := by
    intro f hf
    obtain ⟨h1, h2, h3, _⟩ := C28_names_3d cellid1 nodeid namen nbfaces f hf
    refine ⟨h1, fun hc => ?_⟩
    obtain ⟨hl, hab⟩ := hlab f hf hc
    by_cases hab' : namen (nodeid f 0) = namen (nodeid f 1) ∧ namen (nodeid f 0) = namen (nodeid f 2)
    · rw [show nm f = _ from h2 hc hab'.1 hab'.2]; exact hl 0 (by decide)
    · rw [show nm f = _ from h3 hc hab' (l0 _ (hl 0 (by decide))) (l0 _ (hl 1 (by decide))) (l0 _ (hl 2 (by decide)))]
      rcases hab with hab | ⟨j, hj, hm⟩
      · exact absurd hab hab'
      · have hp : (namen (nodeid f j) = namen (nodeid f 0) ∨ namen (nodeid f j) = namen (nodeid f 1) ∨ namen (nodeid f j) = namen (nodeid f 2)) := by
          have : j = 0 ∨ j = 1 ∨ j = 2 := by omega
          rcases this with rfl | rfl | rfl <;> simp
        obtain ⟨x, hx⟩ : ∃ x, ([5, 6, 3, 4, 55, 66, 33, 44] : List Int).find? (fun v => v = namen (nodeid f 0) ∨ v = namen (nodeid f 1) ∨ v = namen (nodeid f 2)) = some x := by
          rw [← Option.isSome_iff_exists, List.find?_isSome]
          exact ⟨_, hm, by simpa using hp⟩
        rw [hx]
        have := List.mem_of_find?_eq_some hx
        have hsub : ∀ y ∈ ([5, 6, 3, 4, 55, 66, 33, 44] : List Int), y ∈ labels3 := by decide
        exact hsub x this
  refine ⟨(C29_families_3d nm nbfaces).mpr ?_, ?_⟩
  · intro f hf
    by_cases hc : cellid1 f = -1
    · have := (key f hf).2 hc
      simp [this]
    · rw [(key f hf).1 hc]; simp
  · intro f
    simp only [named, List.mem_filter, List.mem_range, decide_eq_true_eq]
    constructor
    · rintro ⟨hf, h0⟩
      exact ⟨hf, fun hc => l0 _ ((key f hf).2 hc) h0⟩
    · rintro ⟨hf, hc⟩
      exact ⟨hf, (key f hf).1 hc⟩

example : CoversOnce 3 (families2 (faceNames2 (fun f => if f = 1 then 4 else -1) (fun f j => f + j) (fun k => [1, 3, 3, 2].getD k 0) 3) 3) := by
  refine (C29_families_of_names_partial _ _ _ 3 ?_).1
  decide +kernel

/-! ## C27 -/

theorem tupleGet_mem {d : List (List Nat × Nat)} {k : List Nat} {v : Nat} (h : tupleGet d k = some v) : (k, v) ∈ d := by
  unfold tupleGet at h
  rw [Option.map_eq_some_iff] at h
  obtain ⟨⟨k', v'⟩, h, rfl⟩ := h
  have h1 := List.find?_some h
  simp only [decide_eq_true_eq] at h1
  subst h1
  exact List.mem_reverse.mp (List.mem_of_find?_eq_some h)

theorem tupleGet_exists {d : List (List Nat × Nat)} {k : List Nat} {v : Nat} (h : (k, v) ∈ d) : ∃ v', tupleGet d k = some v' := by
  unfold tupleGet
  obtain ⟨e, he⟩ : ∃ e, d.reverse.find? (fun e => e.1 = k) = some e := by
    rw [← Option.isSome_iff_exists, List.find?_isSome]
    exact ⟨(k, v), List.mem_reverse.mpr h, by simp⟩
  exact ⟨e.2, by rw [he]; rfl⟩

/-- The dictionary loops, written without the counter. -/
def dictOf (w : Nat) (sides : List Nat → List (List Nat)) (ext : List (List Nat)) : List (List Nat × Nat) :=
  ext.zipIdx.flatMap (fun e => (sides e.1).zipIdx.map (fun s => (s.1, w * e.2 + 1 + s.2)))

def sides2 (r : List Nat) : List (List Nat) :=
  [[r.getD 1 0, r.getD 2 0], [r.getD 2 0, r.getD 3 0], [r.getD 1 0, r.getD 3 0]]
def sides3 (r : List Nat) : List (List Nat) :=
  [[r.getD 1 0, r.getD 2 0, r.getD 3 0], [r.getD 3 0, r.getD 4 0, r.getD 1 0], [r.getD 1 0, r.getD 2 0, r.getD 4 0],
    [r.getD 4 0, r.getD 2 0, r.getD 3 0]]

theorem dict_fold (w : Nat) (sides : List Nat → List (List Nat)) (hw : ∀ r, (sides r).length = w) (ext : List (List Nat)) :
    ext.foldl (fun (s : List (List Nat × Nat) × Nat) r => (s.1 ++ (sides r).zipIdx.map (fun t => (t.1, s.2 + t.2)), s.2 + w)) ([], 1)
      = (dictOf w sides ext, w * ext.length + 1) := by
  induction ext using List.reverseRecOn with
  | nil => simp [dictOf]
  | append_singleton l r ih =>
    rw [List.foldl_append, ih]
    simp only [List.foldl_cons, List.foldl_nil, dictOf, List.zipIdx_append, List.flatMap_append, Prod.mk.injEq]
    constructor
    · simp
    · simp [Nat.mul_add]; omega

theorem haloDict2_eq (ext : List (List Nat)) : haloDict2 ext = dictOf 3 sides2 ext := by
  exact congrArg Prod.fst (dict_fold 3 sides2 (fun _ => rfl) ext)

theorem haloDict3_eq (ext : List (List Nat)) : haloDict3 ext = dictOf 4 sides3 ext := by
  exact congrArg Prod.fst (dict_fold 4 sides3 (fun _ => rfl) ext)

theorem mem_dictOf {w : Nat} {sides : List Nat → List (List Nat)} (hw : ∀ r, (sides r).length = w) (ext : List (List Nat))
    (key : List Nat) (v : Nat) (h : (key, v) ∈ dictOf w sides ext) :
    0 < v ∧ ∃ row, ext[(v - 1) / w]? = some row ∧ key ∈ sides row := by
  unfold dictOf at h
  obtain ⟨⟨row, k⟩, he, h⟩ := List.mem_flatMap.mp h
  obtain ⟨⟨s, t⟩, hs, h⟩ := List.mem_map.mp h
  obtain ⟨rfl, rfl⟩ := Prod.mk.inj h
  have h1 := List.mem_zipIdx_iff_getElem?.mp he
  have h2 := List.mem_zipIdx_iff_getElem?.mp hs
  simp only at h1 h2 ⊢
  have ht : t < w := by rw [← hw row]; exact (List.getElem?_eq_some_iff.mp h2).1
  refine ⟨by omega, row, ?_, List.mem_of_getElem? h2⟩
  have : (w * k + 1 + t - 1) / w = k := by
    have hw0 : 0 < w := by omega
    rw [show w * k + 1 + t - 1 = t + w * k by omega, Nat.add_mul_div_left _ _ hw0, Nat.div_eq_of_lt ht]; omega
  rw [this, h1]

theorem dictOf_has {w : Nat} {sides : List Nat → List (List Nat)} (ext : List (List Nat))
    (key row : List Nat) (hr : row ∈ ext) (hk : key ∈ sides row) : ∃ v, (key, v) ∈ dictOf w sides ext := by
  obtain ⟨k, hk'⟩ := List.mem_iff_getElem?.mp hr
  obtain ⟨t, ht⟩ := List.mem_iff_getElem?.mp hk
  refine ⟨w * k + 1 + t, ?_⟩
  unfold dictOf
  exact List.mem_flatMap.mpr ⟨(row, k), List.mem_zipIdx_iff_getElem?.mpr hk',
    List.mem_map.mpr ⟨(key, t), List.mem_zipIdx_iff_getElem?.mpr ht, rfl⟩⟩

/-- The keys tried for a face contain a key of the dictionary. -/
def Hit (dict : List (List Nat × Nat)) (keys : List (List Nat)) : Prop := ∃ key ∈ keys, ∃ v, (key, v) ∈ dict

theorem mark_face (w : Nat) (dict : List (List Nat × Nat)) (hpos : ∀ e ∈ dict, 0 < e.2) (fn : List Nat) (i : Nat) (keys : List (List Nat))
    (s : Marks) :
    let s' := keys.foldl (markStep w dict fn i) s
    (∀ j, j ≠ i → s'.cellid1 j = s.cellid1 j ∧ s'.name j = s.name j ∧ s'.halofid j = s.halofid j) ∧
    (Hit dict keys → s'.cellid1 i = -10 ∧ s'.name i = 10 ∧
      (∃ key ∈ keys, ∃ v, (key, v) ∈ dict ∧ s'.halofid i = (v - 1) / w) ∧
      ∀ m, s'.nodename m = if m ∈ fn then 10 else s.nodename m) ∧
    (¬ Hit dict keys → s' = s) := by
  have setl : ∀ (l : List Nat) (nm : Nat → Int) (m : Nat), (l.foldl (fun nm m => setAt nm m 10) nm) m = if m ∈ l then 10 else nm m := by
    intro l
    induction l with
    | nil => intro nm m; simp
    | cons a l ih =>
      intro nm m
      rw [List.foldl_cons, ih]
      by_cases h : m ∈ l
      · simp [h]
      · by_cases ha : m = a
        · subst ha; simp
        · simp [h, ha, setAt_ne _ _ ha]
  induction keys using List.reverseRecOn with
  | nil => exact ⟨fun j _ => ⟨rfl, rfl, rfl⟩, fun ⟨_, h, _⟩ => absurd h (by simp), fun _ => rfl⟩
  | append_singleton ks key ih =>
    obtain ⟨i1, i2, i3⟩ := ih
    rw [List.foldl_append]
    simp only [List.foldl_cons, List.foldl_nil]
    set t := ks.foldl (markStep w dict fn i) s
    cases hg : tupleGet dict key with
    | none =>
      have e : markStep w dict fn i t key = t := by simp [markStep, hg]
      have hno : ∀ v, (key, v) ∉ dict := by
        intro v hv
        obtain ⟨v', h'⟩ := tupleGet_exists hv
        rw [hg] at h'; exact absurd h' (by simp)
      have hiff : Hit dict (ks ++ [key]) ↔ Hit dict ks := by
        constructor
        · rintro ⟨k, hk, v, hv⟩
          rcases List.mem_append.mp hk with hk | hk
          · exact ⟨k, hk, v, hv⟩
          · rw [List.mem_singleton] at hk; subst hk; exact absurd hv (hno v)
        · rintro ⟨k, hk, v, hv⟩; exact ⟨k, by simp [hk], v, hv⟩
      rw [e]
      refine ⟨i1, fun h => ?_, fun h => i3 (fun h' => h (hiff.mpr h'))⟩
      obtain ⟨a, b, ⟨k, hk, v, hv, hh⟩, d⟩ := i2 (hiff.mp h)
      exact ⟨a, b, ⟨k, by simp [hk], v, hv, hh⟩, d⟩
    | some v =>
      have hv := tupleGet_mem hg
      have hv0 : v ≠ 0 := by have := hpos _ hv; omega
      have e : markStep w dict fn i t key = ⟨setAt t.cellid1 i (-10), setAt t.name i 10,
          fn.foldl (fun nm m => setAt nm m 10) t.nodename, setAt t.halofid i ((v - 1) / w)⟩ := by
        simp [markStep, hg, hv0]
      rw [e]
      refine ⟨fun j hj => ?_, fun _ => ⟨by simp, by simp, ⟨key, by simp, v, hv, by simp⟩, fun m => ?_⟩,
        fun h => absurd ⟨key, by simp, v, hv⟩ h⟩
      · obtain ⟨a, b, c⟩ := i1 j hj
        simp only [setAt_ne _ _ hj]
        exact ⟨a, b, c⟩
      · simp only [setl]
        by_cases hm : m ∈ fn
        · simp [hm]
        · simp only [hm, if_false]
          by_cases hh : Hit dict ks
          · rw [(i2 hh).2.2.2 m, if_neg hm]
          · rw [show t = s from i3 hh]

theorem mark_loop (w : Nat) (dict : List (List Nat × Nat)) (hpos : ∀ e ∈ dict, 0 < e.2) (fn : Nat → List Nat) (keys : Nat → List (List Nat))
    (nb : Nat) (s : Marks) :
    let s' := (List.range nb).foldl (fun s i => (keys i).foldl (markStep w dict (fn i) i) s) s
    (∀ i, (i < nb ∧ Hit dict (keys i)) → s'.cellid1 i = -10 ∧ s'.name i = 10 ∧
      ∃ key ∈ keys i, ∃ v, (key, v) ∈ dict ∧ s'.halofid i = (v - 1) / w) ∧
    (∀ i, ¬ (i < nb ∧ Hit dict (keys i)) → s'.cellid1 i = s.cellid1 i ∧ s'.name i = s.name i ∧ s'.halofid i = s.halofid i) ∧
    (∀ m, (∃ i < nb, Hit dict (keys i) ∧ m ∈ fn i) → s'.nodename m = 10) ∧
    (∀ m, (¬ ∃ i < nb, Hit dict (keys i) ∧ m ∈ fn i) → s'.nodename m = s.nodename m) := by
  induction nb with
  | zero => simp
  | succ n ih =>
    obtain ⟨i1, i2, i3, i4⟩ := ih
    rw [List.range_succ, List.foldl_append]
    simp only [List.foldl_cons, List.foldl_nil]
    set t := (List.range n).foldl (fun s i => (keys i).foldl (markStep w dict (fn i) i) s) s
    obtain ⟨m1, m2, m3⟩ := mark_face w dict hpos (fn n) n (keys n) t
    refine ⟨fun i hi => ?_, fun i hi => ?_, fun m hm => ?_, fun m hm => ?_⟩
    · by_cases h : i = n
      · subst h
        obtain ⟨a, b, c, _⟩ := m2 hi.2
        exact ⟨a, b, c⟩
      · obtain ⟨a, b, c⟩ := m1 i h
        rw [a, b, c]
        exact i1 i ⟨by omega, hi.2⟩
    · by_cases h : i = n
      · subst h
        have hno : ¬ Hit dict (keys i) := fun h' => hi ⟨by omega, h'⟩
        rw [m3 hno]
        exact i2 i (fun h' => hno h'.2)
      · obtain ⟨a, b, c⟩ := m1 i h
        rw [a, b, c]
        exact i2 i (fun h' => hi ⟨by omega, h'.2⟩)
    · obtain ⟨i, hi, hh, hmi⟩ := hm
      by_cases h : Hit dict (keys n)
      · rw [(m2 h).2.2.2 m]
        by_cases hmn : m ∈ fn n
        · simp [hmn]
        · rw [if_neg hmn]
          have hne : i ≠ n := fun e => hmn (e ▸ hmi)
          exact i3 m ⟨i, by omega, hh, hmi⟩
      · rw [m3 h]
        have hne : i ≠ n := fun e => h (e ▸ hh)
        exact i3 m ⟨i, by omega, hh, hmi⟩
    · have hold : ¬ ∃ i < n, Hit dict (keys i) ∧ m ∈ fn i := fun ⟨i, hi, h⟩ => hm ⟨i, by omega, h⟩
      by_cases h : Hit dict (keys n)
      · rw [(m2 h).2.2.2 m, if_neg (fun hmn => hm ⟨n, by omega, h, hmn⟩), i4 m hold]
      · rw [m3 h, i4 m hold]

/-- What C27 says about the result `s'` of marking, for the faces `face i` given by their global nodes. -/
def MarksSpec (dim nb : Nat) (ext : List (List Nat)) (face : Nat → List Nat) (fn : Nat → List Nat) (s s' : Marks) : Prop :=
  (∀ i < nb, (∃ row ∈ ext, IsSide dim row.tail (face i)) →
    s'.name i = 10 ∧ s'.cellid1 i = -10 ∧ ∃ row, ext[s'.halofid i]? = some row ∧ IsSide dim row.tail (face i)) ∧
  (∀ i < nb, (¬ ∃ row ∈ ext, IsSide dim row.tail (face i)) →
    s'.name i = s.name i ∧ s'.cellid1 i = s.cellid1 i ∧ s'.halofid i = s.halofid i) ∧
  (∀ m, (∃ i < nb, (∃ row ∈ ext, IsSide dim row.tail (face i)) ∧ m ∈ fn i) → s'.nodename m = 10) ∧
  (∀ m, (¬ ∃ i < nb, (∃ row ∈ ext, IsSide dim row.tail (face i)) ∧ m ∈ fn i) → s'.nodename m = s.nodename m)

theorem marksSpec_of (dim w nb : Nat) (sides : List Nat → List (List Nat)) (hw : ∀ r, (sides r).length = w) (ext : List (List Nat))
    (face fn : Nat → List Nat) (keys : Nat → List (List Nat)) (s : Marks)
    (hside : ∀ i, ∀ row ∈ ext, (∃ key ∈ keys i, key ∈ sides row) ↔ IsSide dim row.tail (face i)) :
    MarksSpec dim nb ext face fn s
      ((List.range nb).foldl (fun s i => (keys i).foldl (markStep w (dictOf w sides ext) (fn i) i) s) s) := by
  have hhit : ∀ i, Hit (dictOf w sides ext) (keys i) ↔ ∃ row ∈ ext, IsSide dim row.tail (face i) := by
    intro i
    constructor
    · rintro ⟨key, hk, v, hv⟩
      obtain ⟨_, row, hr, hks⟩ := mem_dictOf hw ext key v hv
      have := List.mem_of_getElem? hr
      exact ⟨row, this, (hside i row this).mp ⟨key, hk, hks⟩⟩
    · rintro ⟨row, hr, h⟩
      obtain ⟨key, hk, hks⟩ := (hside i row hr).mpr h
      obtain ⟨v, hv⟩ := dictOf_has (w := w) ext key row hr hks
      exact ⟨key, hk, v, hv⟩
  obtain ⟨l1, l2, l3, l4⟩ := mark_loop w (dictOf w sides ext)
    (fun e he => (mem_dictOf hw ext e.1 e.2 he).1) fn keys nb s
  simp only [hhit] at l1 l2 l3 l4
  refine ⟨fun i hi h => ?_, fun i hi h => ?_, l3, l4⟩
  · obtain ⟨a, b, key, hk, v, hv, c⟩ := l1 i ⟨hi, h⟩
    obtain ⟨_, row, hr, hks⟩ := mem_dictOf hw ext key v hv
    refine ⟨b, a, row, by rw [c]; exact hr, ?_⟩
    exact (hside i row (List.mem_of_getElem? hr)).mp ⟨key, hk, hks⟩
  · obtain ⟨a, b, c⟩ := l2 i (fun h' => h h'.2)
    exact ⟨b, a, c⟩

theorem permPair (x y u v : Nat) : [x, y].Perm [u, v] ↔ [x, y] = [u, v] ∨ [y, x] = [u, v] := by
  rw [List.cons_perm_iff_perm_erase, List.cons_perm_iff_perm_erase]
  simp only [List.erase_cons, List.erase_nil]
  grind
theorem permTriple (x y z u v w : Nat) : [x, y, z].Perm [u, v, w] ↔
    [u, v, w] ∈ [[x, y, z], [x, z, y], [y, x, z], [y, z, x], [z, x, y], [z, y, x]] := by
  constructor
  · intro h
    have hx : x ∈ [u, v, w] := h.subset (by simp)
    simp only [List.mem_cons, List.not_mem_nil, or_false] at hx
    rcases hx with rfl | rfl | rfl
    · have := (List.perm_cons x).mp h
      rw [permPair] at this
      rcases this with h | h <;> simp [← h]
    · have h' : [x, y, z].Perm [x, u, w] := h.trans (List.Perm.swap _ _ _)
      have := (List.perm_cons x).mp h'
      rw [permPair] at this
      rcases this with h | h <;> (simp only [List.cons.injEq, and_true] at h; simp [h])
    · have h' : [x, y, z].Perm [x, u, v] := h.trans (by
        exact ((List.Perm.swap x v []).cons u).trans (List.Perm.swap _ _ _))
      have := (List.perm_cons x).mp h'
      rw [permPair] at this
      rcases this with h | h <;> (simp only [List.cons.injEq, and_true] at h; simp [h])
  · intro h
    simp only [List.mem_cons, List.not_mem_nil, or_false] at h
    rcases h with h | h | h | h | h | h <;> rw [h]
    · exact (List.Perm.swap _ _ _).cons _
    · exact List.Perm.swap _ _ _
    · exact (List.Perm.swap y x [z]).trans ((List.Perm.swap z x []).cons y)
    · exact ((List.Perm.swap z y []).cons x).trans (List.Perm.swap z x [y])
    · exact (((List.Perm.swap z y []).cons x).trans (List.Perm.swap z x [y])).trans ((List.Perm.swap y x []).cons z)
theorem isSide2 (a b c x y : Nat) : IsSide 2 [a, b, c] [x, y] ↔
    ∃ key ∈ [[x, y], [y, x]], key ∈ [[a, b], [b, c], [a, c]] := by
  have hs : ∀ s : List Nat, (s.Sublist [a, b, c] ∧ s.length = 2) ↔ s = [a, b] ∨ s = [b, c] ∨ s = [a, c] := by
    intro s
    rw [← List.mem_sublists]
    constructor
    · rintro ⟨h, hl⟩
      simp [List.sublists] at h
      rcases h with rfl | rfl | rfl | rfl | rfl | rfl | rfl | rfl <;> simp at hl ⊢
    · rintro (rfl | rfl | rfl) <;> simp [List.sublists]
  constructor
  · rintro ⟨s, h1, h2, h3⟩
    rcases (hs s).mp ⟨h1, h2⟩ with rfl | rfl | rfl <;> rw [permPair] at h3 <;> rcases h3 with h | h <;>
      simp [h]
  · rintro ⟨key, hk, hm⟩
    simp only [List.mem_cons, List.not_mem_nil, or_false] at hk hm
    refine ⟨key, ((hs key).mpr hm).1, ((hs key).mpr hm).2, ?_⟩
    rcases hk with rfl | rfl
    · exact List.Perm.refl _
    · exact List.Perm.swap _ _ _

theorem isSide3 (a b c d x y z : Nat) : IsSide 3 [a, b, c, d] [x, y, z] ↔
    ∃ key ∈ [[x, y, z], [x, z, y], [y, x, z], [y, z, x], [z, x, y], [z, y, x]], key ∈ [[a, b, c], [c, d, a], [a, b, d], [d, b, c]] := by
  have hs : ∀ s : List Nat, (s.Sublist [a, b, c, d] ∧ s.length = 3) ↔ s = [a, b, c] ∨ s = [a, c, d] ∨ s = [a, b, d] ∨ s = [b, c, d] := by
    intro s
    rw [← List.mem_sublists]
    constructor
    · rintro ⟨h, hl⟩
      simp [List.sublists] at h
      rcases h with rfl | rfl | rfl | rfl | rfl | rfl | rfl | rfl | rfl | rfl | rfl | rfl | rfl | rfl | rfl | rfl <;> simp at hl ⊢
    · rintro (rfl | rfl | rfl | rfl) <;> simp [List.sublists]
  constructor
  · rintro ⟨s, h1, h2, h3⟩
    rcases (hs s).mp ⟨h1, h2⟩ with rfl | rfl | rfl | rfl <;> rw [permTriple] at h3 
    · exact ⟨_, h3, by simp⟩
    · refine ⟨[c, d, a], ?_, by simp⟩
      rw [← permTriple] at h3 ⊢
      refine h3.trans ?_
      rw [permTriple]; simp
    · exact ⟨_, h3, by simp⟩
    · refine ⟨[d, b, c], ?_, by simp⟩
      rw [← permTriple] at h3 ⊢
      refine h3.trans ?_
      rw [permTriple]; simp
  · rintro ⟨key, hk, hm⟩
    have : ∃ u v w, key = [u, v, w] := by
      simp only [List.mem_cons, List.not_mem_nil, or_false] at hm
      rcases hm with rfl | rfl | rfl | rfl <;> exact ⟨_, _, _, rfl⟩
    obtain ⟨u, v, w, rfl⟩ := this
    rw [← permTriple] at hk
    simp only [List.mem_cons, List.not_mem_nil, or_false] at hm
    rcases hm with h | h | h | h
    · exact ⟨[a, b, c], ((hs _).mpr (by simp)).1, rfl, h ▸ hk⟩
    · refine ⟨[a, c, d], ((hs _).mpr (by simp)).1, rfl, (h ▸ hk).trans ?_⟩
      rw [permTriple]; simp
    · exact ⟨[a, b, d], ((hs _).mpr (by simp)).1, rfl, h ▸ hk⟩
    · refine ⟨[b, c, d], ((hs _).mpr (by simp)).1, rfl, (h ▸ hk).trans ?_⟩
      rw [permTriple]; simp

/-- C27 (2D): after the halo structure is built, a local face is a halo face (name 10, second cell -10) iff its two global nodes are a
side of one of the external halo cells, and its halo index designates a halo cell having that side; all other faces keep their
name, cells and index; exactly the nodes of the halo faces are renamed 10. -/
theorem C27_halo_faces_2d (ext : List (List Nat)) (hrow : ∀ r ∈ ext, r.length = 4) (nodeid : Nat → Nat → Nat) (g : Nat → Nat)
    (nb : Nat) (s : Marks) :
    MarksSpec 2 nb ext (fun i => [g (nodeid i 0), g (nodeid i 1)]) (fun i => [nodeid i 0, nodeid i 1]) s
      (markLoop2 ext nodeid g nb s) := by
  unfold markLoop2
  simp only [haloDict2_eq]
  refine marksSpec_of 2 3 nb sides2 (fun _ => rfl) ext _ _ (fun i => [[g (nodeid i 0), g (nodeid i 1)], [g (nodeid i 1), g (nodeid i 0)]]) s ?_
  intro i row hr
  match row, hrow row hr with
  | [c, n1, n2, n3], _ => exact (isSide2 n1 n2 n3 _ _).symm

/-- C27 (3D). -/
theorem C27_halo_faces_3d (ext : List (List Nat)) (hrow : ∀ r ∈ ext, r.length = 5) (nodeid : Nat → Nat → Nat) (g : Nat → Nat)
    (nb : Nat) (s : Marks) :
    MarksSpec 3 nb ext (fun i => [g (nodeid i 0), g (nodeid i 1), g (nodeid i 2)])
      (fun i => [nodeid i 0, nodeid i 1, nodeid i 2]) s (markLoop3 ext nodeid g nb s) := by
  unfold markLoop3
  simp only [haloDict3_eq]
  refine marksSpec_of 3 4 nb sides3 (fun _ => rfl) ext _ _ (fun i =>
    let n1 := g (nodeid i 0); let n2 := g (nodeid i 1); let n3 := g (nodeid i 2)
    [[n1, n2, n3], [n1, n3, n2], [n2, n1, n3], [n2, n3, n1], [n3, n1, n2], [n3, n2, n1]]) s ?_
  intro i row hr
  match row, hrow row hr with
  | [c, n1, n2, n3, n4], _ => exact (isSide3 n1 n2 n3 n4 _ _ _).symm

/-- C27: the halo cells recorded for a node are exactly the halo cells that use it, ascending, without repetition (cells have
distinct nodes). -/
theorem C27_halo_cells_of_node (ext : List (List Nat)) (hnd : ∀ r ∈ ext, r.tail.Nodup) (node : Nat) :
    Lists (haloCellsOfNode ext node) (fun k => ∃ row, ext[k]? = some row ∧ node ∈ row.tail) := by
  have e : haloCellsOfNode ext node = (ext.zipIdx.filter (fun e => node ∈ e.1.tail)).map (·.2) := by
    unfold haloCellsOfNode
    have key : ∀ (l : List (List Nat × Nat)), (∀ e ∈ l, e.1.tail.Nodup) →
        l.flatMap (fun e => (e.1.tail.filter (fun x => x = node)).map (fun _ => e.2)) = (l.filter (fun e => node ∈ e.1.tail)).map (·.2) := by
      intro l hl
      induction l with
      | nil => rfl
      | cons a l ih =>
        rw [List.flatMap_cons, ih (fun e he => hl e (by simp [he])), filter_eq_single (hl a (by simp)) node]
        by_cases h : node ∈ a.1.tail <;> simp [h]
    exact key _ (fun e he => hnd _ (by
      have := List.mem_zipIdx_iff_getElem?.mp he
      exact List.mem_of_getElem? this))
  rw [e]
  constructor
  · have h2 : (ext.zipIdx.map (·.2)).Pairwise (· < ·) := by
      rw [show ext.zipIdx.map (·.2) = List.range' 0 ext.length from List.zipIdx_map_snd 0 ext]
      exact List.pairwise_lt_range'
    exact List.Pairwise.sublist (List.Sublist.map _ List.filter_sublist) h2
  · intro k
    simp only [List.mem_map, List.mem_filter, decide_eq_true_eq]
    constructor
    · rintro ⟨⟨row, k'⟩, ⟨h1, h2⟩, rfl⟩
      exact ⟨row, List.mem_zipIdx_iff_getElem?.mp h1, h2⟩
    · rintro ⟨row, h1, h2⟩
      exact ⟨(row, k), ⟨List.mem_zipIdx_iff_getElem?.mpr h1, h2⟩, rfl⟩

/-- The rows of the external halo list of rank `p`: exactly the cells of other subdomains having a node in `p`. -/
theorem halosext_rows {K : Type*} (nodeid : Nat → Nat → Nat) (node : Nat → K × K × K × Nat) (cv : Nat → List K)
    (npart0 epart : Nat → Nat) (nbnodes n d1 SIZE p : Nat) (hd : 0 < d1) (he : ∀ i < n, epart i < SIZE)
    (hnode : ∀ i < n, ∀ j < d1, nodeid i j < nbnodes) (row : List Nat) :
    let P := partition nodeid npart0 epart nbnodes n d1
    (∀ q ∈ P.neighsub p, q < SIZE) →
    (row ∈ (rankWrite nodeid node cv P (halos P.cpart P.haloCell SIZE) nbnodes SIZE d1 p).halosext ↔
      ∃ c, row = c :: (List.range d1).map (nodeid c) ∧ c < n ∧ epart c ≠ p ∧
        ∃ k, Uses nodeid d1 c k ∧ NodeIn nodeid npart0 epart n d1 p k) := by
  intro P hlt
  have hnb := C22_neighbours nodeid npart0 epart nbnodes n d1 p
  simp only [rankWrite, List.mem_flatMap, List.mem_map]
  constructor
  · rintro ⟨q, hq, c, hc, rfl⟩
    obtain ⟨e, l⟩ := C24_send_receive nodeid npart0 epart nbnodes n d1 SIZE q p hd (hlt q hq)
    have hqp : q ≠ p := ((hnb.2 q).mp hq).1
    rw [show (halos P.cpart P.haloCell SIZE).2 p q = _ from e.symm] at hc
    obtain ⟨h1, h2, h3⟩ := ((l hqp).2 c).mp hc
    exact ⟨c, rfl, h1, by rw [h2]; exact hqp, h3⟩
  · rintro ⟨c, rfl, hc, hne, k, ⟨j, hj, rfl⟩, hk⟩
    refine ⟨epart c, ?_, c, ?_, rfl⟩
    · exact (hnb.2 (epart c)).mpr ⟨hne, nodeid c j, hnode c hc j hj, hk, Or.inr ⟨c, hc, rfl, j, hj, rfl⟩⟩
    · obtain ⟨e, l⟩ := C24_send_receive nodeid npart0 epart nbnodes n d1 SIZE (epart c) p hd (he c hc)
      rw [show (halos P.cpart P.haloCell SIZE).2 p (epart c) = _ from e.symm]
      exact ((l hne).2 c).mpr ⟨hc, rfl, nodeid c j, ⟨j, hj, rfl⟩, hk⟩

/-- C27 (2D, whole mesh): on rank `p`, a face of a local cell is marked as halo face iff in the global mesh some cell of another
subdomain has that face. -/
theorem C27_halo_faces_global_2d {K : Type*} (cnode : Nat → Nat → Nat) (node : Nat → K × K × K × Nat) (cv : Nat → List K)
    (npart0 epart : Nat → Nat) (nbnodes n SIZE p : Nat) (he : ∀ i < n, epart i < SIZE) (h0 : ∀ k < nbnodes, npart0 k < SIZE)
    (hnode : ∀ i < n, ∀ j < 3, cnode i j < nbnodes)
    (fnode : Nat → Nat → Nat) (g : Nat → Nat) (nb : Nat) (s : Marks)
    (hloc : ∀ f < nb, ∃ c < n, epart c = p ∧ IsSide 2 ((List.range 3).map (cnode c)) [g (fnode f 0), g (fnode f 1)])
    (hs : ∀ f < nb, s.name f ≠ 10) :
    let P := partition cnode npart0 epart nbnodes n 3
    let d := rankWrite cnode node cv P (halos P.cpart P.haloCell SIZE) nbnodes SIZE 3 p
    ∀ f < nb, ((markLoop2 d.halosext fnode g nb s).name f = 10 ↔
      ∃ c < n, epart c ≠ p ∧ IsSide 2 ((List.range 3).map (cnode c)) [g (fnode f 0), g (fnode f 1)]) := by
  intro P d f hf
  have hlt : ∀ q ∈ P.neighsub p, q < SIZE := by
    intro q hq
    obtain ⟨_, k, hk, _, hqk⟩ := ((C22_neighbours cnode npart0 epart nbnodes n 3 p).2 q).mp hq
    rcases hqk with h | ⟨i, hi, h, _⟩
    · rw [← h]; exact h0 k hk
    · rw [← h]; exact he i hi
  have hrows := fun row => halosext_rows cnode node cv npart0 epart nbnodes n 3 SIZE p (by omega) he hnode row hlt
  have hrow4 : ∀ r ∈ d.halosext, r.length = 4 := by
    intro r hr
    obtain ⟨c, rfl, _⟩ := (hrows r).mp hr
    simp
  obtain ⟨m1, m2, _, _⟩ := C27_halo_faces_2d d.halosext hrow4 fnode g nb s
  have hex : (∃ row ∈ d.halosext, IsSide 2 row.tail [g (fnode f 0), g (fnode f 1)]) ↔
      ∃ c < n, epart c ≠ p ∧ IsSide 2 ((List.range 3).map (cnode c)) [g (fnode f 0), g (fnode f 1)] := by
    constructor
    · rintro ⟨row, hr, hside⟩
      obtain ⟨c, rfl, hc, hne, _⟩ := (hrows row).mp hr
      exact ⟨c, hc, hne, hside⟩
    · rintro ⟨c, hc, hne, hside⟩
      refine ⟨c :: (List.range 3).map (cnode c), (hrows _).mpr ⟨c, rfl, hc, hne, g (fnode f 0), ?_, ?_⟩, hside⟩
      · obtain ⟨s, h1, _, h3⟩ := hside
        have : g (fnode f 0) ∈ (List.range 3).map (cnode c) := h1.subset (h3.subset (by simp))
        obtain ⟨j, hj, hj'⟩ := List.mem_map.mp this
        exact ⟨j, List.mem_range.mp hj, hj'⟩
      · obtain ⟨c', hc', he', s, h1, _, h3⟩ := hloc f hf
        have : g (fnode f 0) ∈ (List.range 3).map (cnode c') := h1.subset (h3.subset (by simp))
        obtain ⟨j, hj, hj'⟩ := List.mem_map.mp this
        exact Or.inr ⟨c', hc', he', j, List.mem_range.mp hj, hj'⟩
  rw [← hex]
  by_cases h : ∃ row ∈ d.halosext, IsSide 2 row.tail [g (fnode f 0), g (fnode f 1)]
  · exact ⟨fun _ => h, fun _ => (m1 f hf h).1⟩
  · exact ⟨fun hn => absurd hn (by rw [(m2 f hf h).1]; exact hs f hf), fun h' => absurd h' h⟩

/-- Strip of four triangles on two ranks: on rank 0 the face of global nodes (2,3) is the halo face and its halo cell is row 0
(global cell 2); the face (0,1) is not. -/
example : let P := partition exStrip exN exE 6 4 3
    let ext := (rankWrite (K := ℚ) exStrip (fun _ => (0, 0, 0, 0)) (fun _ => []) P (halos P.cpart P.haloCell 2) 6 2 3 0).halosext
    let m := markLoop2 ext (fun f j => if f = 0 then j else 2 + j) (fun k => k) 2 ⟨fun _ => -1, fun _ => 0, fun _ => 0, fun _ => 0⟩
    ext = [[2, 2, 3, 4], [3, 3, 4, 5]] ∧ m.name 0 = 0 ∧ m.name 1 = 10 ∧ m.cellid1 1 = -10 ∧ m.halofid 1 = 0 ∧ m.nodename 2 = 10 ∧
      haloCellsOfNode ext 3 = [0, 1] := by decide +kernel

end Verif.Props
