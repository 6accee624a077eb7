import Verif.Model.Conn
import Verif.Spec.Conn
import Mathlib.Data.List.GetD

set_option linter.unusedSectionVars false
namespace Verif.Conn
open Verif.Spec

/-- The iteration space of `loop2`. -/
def pairs (n m : Nat) : List (Nat × Nat) := (List.range n).flatMap (fun i => (List.range m).map (fun j => (i, j)))

theorem loop2_eq {σ : Type*} (n m : Nat) (body : σ → Nat → Nat → σ) (s : σ) :
    loop2 n m body s = (pairs n m).foldl (fun s p => body s p.1 p.2) s := by
  unfold loop2 pairs
  rw [List.foldl_flatMap]
  simp only [List.foldl_map]

theorem loop2_succ {σ : Type*} (n m : Nat) (body : σ → Nat → Nat → σ) (s : σ) :
    loop2 (n + 1) m body s = (List.range m).foldl (fun s j => body s n j) (loop2 n m body s) := by
  unfold loop2
  rw [List.range_succ, List.foldl_append]; rfl

theorem foldl_appendAt {α β : Type*} (l : List β) (key : β → Nat) (val : β → α) (t : Nat → List α) (k : Nat) :
    l.foldl (fun t x => appendAt t (key x) (val x)) t k
      = t k ++ (l.filter (fun x => key x = k)).map val := by
  induction l generalizing t with
  | nil => simp
  | cons a l ih =>
    rw [List.foldl_cons, ih]
    by_cases h : key a = k
    · subst h; simp [appendAt]
    · have h' : k ≠ key a := fun e => h e.symm
      simp [appendAt, setAt_ne _ _ h', h]

theorem foldl_countAt {β : Type*} (l : List β) (key : β → Nat) (t : Nat → Nat) (k : Nat) :
    l.foldl (fun t x => setAt t (key x) (t (key x) + 1)) t k
      = t k + (l.filter (fun x => key x = k)).length := by
  induction l generalizing t with
  | nil => simp
  | cons a l ih =>
    rw [List.foldl_cons, ih]
    by_cases h : key a = k
    · subst h; simp; omega
    · have h' : k ≠ key a := fun e => h e.symm
      simp [setAt_ne _ _ h', h]

theorem foldl_prod {σ τ β : Type*} (l : List β) (f : σ → β → σ) (g : τ → β → τ) (s : σ × τ) :
    l.foldl (fun s x => (f s.1 x, g s.2 x)) s = (l.foldl f s.1, l.foldl g s.2) := by
  induction l generalizing s with
  | nil => rfl
  | cons a l ih => simp [ih]

theorem filter_single {α : Type*} (l : List α) (P : α → Bool) (hn : l.Nodup)
    (hu : ∀ a ∈ l, ∀ b ∈ l, P a → P b → a = b) : (l.filter P).length ≤ 1 := by
  induction l with
  | nil => simp
  | cons a l ih =>
    rw [List.nodup_cons] at hn
    have ih' := ih hn.2 (fun x hx y hy => hu x (List.mem_cons_of_mem _ hx) y (List.mem_cons_of_mem _ hy))
    by_cases h : P a
    · rw [List.filter_cons_of_pos h]
      have : l.filter P = [] := by
        rw [List.filter_eq_nil_iff]
        intro b hb hPb
        have := hu a (by simp) b (by simp [hb]) h hPb
        exact hn.1 (this ▸ hb)
      simp [this]
    · rw [List.filter_cons_of_neg h]; exact ih'

theorem flatMap_users (n : Nat) (P : Nat → Prop) [DecidablePred P] (f : Nat → List Nat)
    (h : ∀ i < n, f i = if P i then [i] else []) :
    (List.range n).flatMap f = (List.range n).filter (fun i => P i) := by
  induction n with
  | zero => simp
  | succ n ih =>
    rw [List.range_succ, List.flatMap_append, List.filter_append, ih (fun i hi => h i (by omega))]
    congr 1
    simp [h n (by omega)]
    by_cases hp : P n <;> simp [hp]

theorem users_sorted (t : Nat → Nat → Nat) (d1 n x : Nat) : (users t d1 n x).Pairwise (· < ·) :=
  List.Pairwise.sublist List.filter_sublist List.pairwise_lt_range

theorem mem_users (t : Nat → Nat → Nat) (d1 n x i : Nat) : i ∈ users t d1 n x ↔ i < n ∧ Uses t d1 i x := by
  simp [users]

theorem users_lists (t : Nat → Nat → Nat) (d1 n x : Nat) :
    Lists (users t d1 n x) (fun i => i < n ∧ Uses t d1 i x) := ⟨users_sorted t d1 n x, mem_users t d1 n x⟩

theorem users_succ (t : Nat → Nat → Nat) (d1 n x : Nat) :
    users t d1 (n + 1) x = users t d1 n x ++ if Uses t d1 n x then [n] else [] := by
  unfold users
  rw [List.range_succ, List.filter_append]
  congr 1
  by_cases h : Uses t d1 n x <;> simp [h]

/-! ### `nodeCells` -/

theorem nodeCells_eq (nodeid : Nat → Nat → Nat) (n d1 k : Nat) :
    (nodeCells nodeid n d1).1 k = ((pairs n d1).filter (fun p => nodeid p.1 p.2 = k)).map Prod.fst ∧
    (nodeCells nodeid n d1).2 k = ((nodeCells nodeid n d1).1 k).length := by
  unfold nodeCells
  rw [loop2_eq]
  rw [foldl_prod (pairs n d1) (fun t p => appendAt t (nodeid p.1 p.2) p.1)
    (fun t p => setAt t (nodeid p.1 p.2) (t (nodeid p.1 p.2) + 1))]
  simp only
  rw [foldl_appendAt, foldl_countAt (key := fun p : Nat × Nat => nodeid p.1 p.2)]
  simp

theorem filter_pairs (n m : Nat) (P : Nat → Nat → Prop) [∀ i j, Decidable (P i j)] :
    (pairs n m).filter (fun p => P p.1 p.2)
      = (List.range n).flatMap (fun i => ((List.range m).filter (fun j => P i j)).map (fun j => (i, j))) := by
  unfold pairs
  rw [List.filter_flatMap]
  congr 1; funext i
  rw [List.filter_map]; rfl

theorem range_filter_uses (t : Nat → Nat → Nat) (d1 i x : Nat)
    (hd : ∀ j < d1, ∀ j' < d1, t i j = t i j' → j = j') :
    ((List.range d1).filter (fun j => t i j = x)).map (fun _ => i) = if Uses t d1 i x then [i] else [] := by
  have h1 : ((List.range d1).filter (fun j => t i j = x)).length ≤ 1 := by
    apply filter_single _ _ List.nodup_range
    intro a ha b hb h1 h2
    simp only [List.mem_range, decide_eq_true_eq] at *
    exact hd a ha b hb (h1.trans h2.symm)
  by_cases h : Uses t d1 i x
  · rw [if_pos h]
    obtain ⟨j, hj, hx⟩ := h
    have hm : j ∈ (List.range d1).filter (fun j => t i j = x) := by simp [hj, hx]
    match hl : (List.range d1).filter (fun j => t i j = x) with
    | [] => rw [hl] at hm; simp at hm
    | [a] => simp
    | a :: b :: l => rw [hl] at h1; simp at h1
  · rw [if_neg h]
    have : (List.range d1).filter (fun j => decide (t i j = x)) = [] := by
      rw [List.filter_eq_nil_iff]
      intro j hj hx
      exact h ⟨j, by simpa using hj, by simpa using hx⟩
    rw [this]; rfl

theorem nodeCells_users (nodeid : Nat → Nat → Nat) (n d1 k : Nat) (hd : DistinctRows nodeid d1 n) :
    (nodeCells nodeid n d1).1 k = users nodeid d1 n k := by
  rw [(nodeCells_eq nodeid n d1 k).1, filter_pairs n d1 (fun i j => nodeid i j = k), List.map_flatMap]
  apply flatMap_users n (fun i => Uses nodeid d1 i k)
  intro i hi
  rw [List.map_map]
  exact range_filter_uses nodeid d1 i k (hd i hi)

theorem mem_nodeCells (nodeid : Nat → Nat → Nat) (n d1 k i : Nat) :
    i ∈ (nodeCells nodeid n d1).1 k ↔ i < n ∧ Uses nodeid d1 i k := by
  rw [(nodeCells_eq nodeid n d1 k).1]
  simp only [pairs, List.mem_map, List.mem_filter, List.mem_flatMap, List.mem_range, decide_eq_true_eq, Prod.exists]
  constructor
  · rintro ⟨a, b, ⟨⟨x, hx, j, hj, he⟩, hk⟩, rfl⟩
    simp only [Prod.mk.injEq] at he
    obtain ⟨rfl, rfl⟩ := he
    exact ⟨hx, j, hj, hk⟩
  · rintro ⟨hi, j, hj, hk⟩
    exact ⟨i, j, ⟨⟨i, hi, j, hj, rfl⟩, hk⟩, rfl⟩

/-! ### padding -/

theorem maxLen_succ (n : Nat) (long : Nat → Nat) : maxLen (n + 1) long = max (maxLen n long) (long n) := by
  unfold maxLen; rw [List.range_succ, List.foldl_append]; rfl

theorem le_maxLen (n : Nat) (long : Nat → Nat) (i : Nat) (h : i < n) : long i ≤ maxLen n long := by
  induction n with
  | zero => omega
  | succ n ih =>
    rw [maxLen_succ]
    by_cases e : i = n
    · subst e; exact le_max_right _ _
    · exact le_trans (ih (by omega)) (le_max_left _ _)

theorem maxLen_attained (n : Nat) (long : Nat → Nat) (h : 0 < n) : ∃ i < n, maxLen n long = long i := by
  induction n with
  | zero => omega
  | succ n ih =>
    rw [maxLen_succ]
    by_cases hn : n = 0
    · subst hn; exact ⟨0, by omega, by simp [maxLen]⟩
    · obtain ⟨i, hi, he⟩ := ih (by omega)
      by_cases hm : maxLen n long ≤ long n
      · exact ⟨n, by omega, max_eq_right hm⟩
      · exact ⟨i, by omega, by rw [max_eq_left (by omega), he]⟩

theorem padRow_eq (m : Nat) (l : List Nat) (h : l.length ≤ m) : PaddedRow m (padRow m l l.length) l := by
  refine ⟨h, ?_⟩
  have key : ∀ t ≤ l.length, (List.range t).foldl (fun row j => row.set j ((l.getD j 0 : Nat) : Int))
      (List.replicate m (-1)) = (l.take t).map (fun (x : Nat) => (x : Int)) ++ List.replicate (m - t) (-1) := by
    intro t ht
    induction t with
    | zero => simp
    | succ t ih =>
      rw [List.range_succ, List.foldl_append, ih (by omega)]
      simp only [List.foldl_cons, List.foldl_nil]
      have hlen : ((l.take t).map (fun (x : Nat) => (x : Int))).length = t := by simp; omega
      obtain ⟨r, hr⟩ : ∃ r, m - t = r + 1 := ⟨m - t - 1, by omega⟩
      rw [hr, List.replicate_succ, List.set_append_right _ _ (by omega), hlen, Nat.sub_self, List.set_cons_zero]
      have : m - (t + 1) = r := by omega
      rw [this, List.take_succ, List.map_append]
      have hg : l[t]? = some l[t] := List.getElem?_eq_getElem (by omega)
      simp [hg]
  unfold padRow
  rw [key _ le_rfl]; simp

/-! ### neighbours through a node -/

theorem foldl_insertNew (L : List Nat) (i : Nat) (s : List Nat × Nat) :
    let r := L.foldl (fun s c => if ¬ (c ∈ s.1) ∧ c ≠ i then (s.1 ++ [c], s.2 + 1) else s) s
    (s.1.Nodup → s.2 = s.1.length → i ∉ s.1 →
      r.1.Nodup ∧ r.2 = r.1.length ∧ ∀ c, c ∈ r.1 ↔ c ∈ s.1 ∨ (c ∈ L ∧ c ≠ i)) := by
  induction L generalizing s with
  | nil => intro r h1 h2 _; exact ⟨h1, h2, fun c => by simp [r]⟩
  | cons a L ih =>
    intro r h1 h2 h3
    by_cases h : ¬ (a ∈ s.1) ∧ a ≠ i
    · have hr : r = L.foldl (fun s c => if ¬ (c ∈ s.1) ∧ c ≠ i then (s.1 ++ [c], s.2 + 1) else s) (s.1 ++ [a], s.2 + 1) := by
        simp only [r, List.foldl_cons]; rw [if_pos h]
      obtain ⟨a1, a2, a3⟩ := ih (s.1 ++ [a], s.2 + 1)
        (by rw [List.nodup_append]; refine ⟨h1, by simp, ?_⟩; intro x hx y hy; simp at hy; subst hy; exact fun e => h.1 (e ▸ hx))
        (by simp [h2]) (by simp only [List.mem_append, List.mem_singleton, not_or]; exact ⟨h3, Ne.symm h.2⟩)
      rw [hr]
      refine ⟨a1, a2, ?_⟩
      intro c; rw [a3 c]
      simp only [List.mem_append, List.mem_cons, List.not_mem_nil, or_false]
      constructor
      · rintro ((hc | rfl) | hc)
        · exact Or.inl hc
        · exact Or.inr ⟨Or.inl rfl, h.2⟩
        · exact Or.inr ⟨Or.inr hc.1, hc.2⟩
      · rintro (hc | ⟨rfl | hc, hne⟩)
        · exact Or.inl (Or.inl hc)
        · exact Or.inl (Or.inr rfl)
        · exact Or.inr ⟨hc, hne⟩
    · have hr : r = L.foldl (fun s c => if ¬ (c ∈ s.1) ∧ c ≠ i then (s.1 ++ [c], s.2 + 1) else s) s := by
        simp only [r, List.foldl_cons]; rw [if_neg h]
      obtain ⟨a1, a2, a3⟩ := ih s h1 h2 h3
      rw [hr]
      refine ⟨a1, a2, ?_⟩
      intro c; rw [a3 c]
      simp only [List.mem_cons]
      constructor
      · rintro (hc | hc)
        · exact Or.inl hc
        · exact Or.inr ⟨Or.inr hc.1, hc.2⟩
      · rintro (hc | ⟨rfl | hc, hne⟩)
        · exact Or.inl hc
        · left; by_contra hn; exact h ⟨hn, hne⟩
        · exact Or.inr ⟨hc, hne⟩

theorem cellNeighRaw_spec (nodeid : Nat → Nat → Nat) (tmp : Nat → List Nat) (d1 i : Nat) :
    let r := cellNeighRaw nodeid tmp d1 i
    r.1.Nodup ∧ r.2 = r.1.length ∧ ∀ c, c ∈ r.1 ↔ (∃ j < d1, c ∈ tmp (nodeid i j)) ∧ c ≠ i := by
  intro r
  have hr : r = ((List.range d1).flatMap (fun j => tmp (nodeid i j))).foldl
      (fun s c => if ¬ (c ∈ s.1) ∧ c ≠ i then (s.1 ++ [c], s.2 + 1) else s) ([], 0) := by
    rw [List.foldl_flatMap]; rfl
  obtain ⟨a1, a2, a3⟩ := foldl_insertNew ((List.range d1).flatMap (fun j => tmp (nodeid i j))) i ([], 0)
    (by simp) rfl (by simp)
  rw [hr]
  refine ⟨a1, a2, fun c => ?_⟩
  rw [a3 c]; simp


/-! ### cells of a face -/

/-- First and last-but-different user, as a function of the ascending list of users. -/
def twoOf (l : List Nat) : Int × Int :=
  (match l.head? with | some a => (a : Int) | none => -1,
   if 2 ≤ l.length then (match l.getLast? with | some a => (a : Int) | none => -1) else -1)

theorem cellsOfFace_row (faceid : Nat → Nat → Nat) (m i : Nat) (cellid : Nat → Int × Int) (l : Nat → List Nat)
    (h : ∀ f, cellid f = twoOf (l f)) (hlt : ∀ f, ∀ a ∈ l f, a < i) (f : Nat) :
    (List.range m).foldl (fun s j => cellsOfFaceStep faceid s i j) cellid f
      = twoOf (l f ++ if Uses faceid m i f then [i] else []) := by
  induction m generalizing f with
  | zero => simp [Uses, h]
  | succ m ih =>
    rw [List.range_succ, List.foldl_append]
    simp only [List.foldl_cons, List.foldl_nil]
    set c := (List.range m).foldl (fun s j => cellsOfFaceStep faceid s i j) cellid with hc
    unfold cellsOfFaceStep
    have hU : Uses faceid (m + 1) i f ↔ Uses faceid m i f ∨ faceid i m = f := by
      unfold Uses; constructor
      · rintro ⟨j, hj, e⟩
        by_cases hjm : j = m
        · subst hjm; exact Or.inr e
        · exact Or.inl ⟨j, by omega, e⟩
      · rintro (⟨j, hj, e⟩ | e)
        · exact ⟨j, by omega, e⟩
        · exact ⟨m, by omega, e⟩
    by_cases hf : faceid i m = f
    · -- the face touched by this iteration
      have hU' : Uses faceid (m + 1) i f := hU.mpr (Or.inr hf)
      rw [if_pos hU', hf]
      have hcf := ih f
      match hl : l f with
      | [] =>
        rw [hl] at hcf
        by_cases hu : Uses faceid m i f
        · rw [if_pos hu] at hcf
          have e1 : (c f) = ((i : Int), -1) := by rw [hcf]; simp [twoOf]
          have e2 : ¬ ((i : Int) = -1) := by omega
          simp [e1, e2, twoOf]
        · rw [if_neg hu] at hcf
          have e1 : (c f) = (-1, -1) := by rw [hcf]; simp [twoOf]
          simp [e1, twoOf]
      | a :: t =>
        have ha : a < i := hlt f a (by simp [hl])
        have hne : ¬ ((a : Int) = (i : Int)) := by omega
        have hne1 : ¬ ((a : Int) = -1) := by omega
        have e1 : (c f).1 = (a : Int) := by rw [hcf, hl]; simp [twoOf]
        simp only [e1, hne1, if_false, hne, not_false_eq_true, if_true, ne_eq, setAt_same]
        have hlast : (a :: (t ++ [i])).getLast? = some i := by
          rw [show (a :: (t ++ [i])) = (a :: t) ++ [i] from rfl, List.getLast?_append]; simp
        simp [twoOf, hlast]
    · have hne : f ≠ faceid i m := fun e => hf e.symm
      have hU2 : (if Uses faceid (m + 1) i f then [i] else []) = (if Uses faceid m i f then [i] else []) := by
        by_cases hu : Uses faceid m i f
        · rw [if_pos hu, if_pos (hU.mpr (Or.inl hu))]
        · rw [if_neg hu, if_neg]; intro h'; rcases hU.mp h' with h' | h'
          · exact hu h'
          · exact hf h'
      rw [hU2, ← ih f]
      split <;> split <;> simp [setAt_ne _ _ hne]

theorem cellsOfFace_eq (faceid : Nat → Nat → Nat) (n m f : Nat) :
    createCellsOfFace faceid n m noCells f = twoOf (users faceid m n f) := by
  induction n generalizing f with
  | zero => simp [createCellsOfFace, loop2, users, noCells, twoOf]
  | succ n ih =>
    unfold createCellsOfFace at ih ⊢
    rw [loop2_succ, users_succ]
    exact cellsOfFace_row faceid m n _ (users faceid m n) ih
      (fun f a ha => ((mem_users faceid m n f a).mp ha).1) f

theorem neigh_row (faceid : Nat → Nat → Nat) (cellid : Nat → Int × Int) (n m i : Nat) :
    createNeighborCellByFace faceid cellid n m i
      = if i < n then (List.range m).map (fun j => neighByFace faceid cellid i j) else [] := by
  unfold createNeighborCellByFace
  induction n with
  | zero => simp [loop2]
  | succ n ih =>
    rw [loop2_succ, foldl_appendAt (List.range m) (fun _ => n) (fun j => neighByFace faceid cellid n j), ih]
    by_cases h : i = n
    · subst h; simp
    · have h' : ¬ n = i := fun e => h e.symm
      have e : i < n + 1 ↔ i < n := by omega
      simp [h', e]

/-! ### faces -/

theorem create2dfaces_spec (nodeidc : Nat → Nat → Nat) (n : Nat) (s : FaceState) :
    let r := create2dfaces nodeidc n s
    r.k = 3 * n ∧ ∀ i < n, r.faces (3 * i) = [nodeidc i 0, nodeidc i 1] ∧ r.faces (3 * i + 1) = [nodeidc i 1, nodeidc i 2] ∧
      r.faces (3 * i + 2) = [nodeidc i 2, nodeidc i 0] ∧ ∀ j < 3, r.cellf i j = 3 * i + j := by
  unfold create2dfaces
  induction n with
  | zero => simp
  | succ n ih =>
    rw [List.range_succ, List.foldl_append]
    simp only [List.foldl_cons, List.foldl_nil]
    obtain ⟨hk, hi⟩ := ih
    set t := List.foldl _ _ (List.range n)
    refine ⟨by rw [hk]; ring, ?_⟩
    intro i hin
    by_cases h : i = n
    · subst h
      rw [hk]
      refine ⟨?_, ?_, ?_, ?_⟩
      · rw [setAt_ne _ _ (by omega), setAt_ne _ _ (by omega), setAt_same]
      · rw [setAt_ne _ _ (by omega), setAt_same]
      · rw [setAt_same]
      · intro j hj
        rw [setAt_same]
        have : j = 0 ∨ j = 1 ∨ j = 2 := by omega
        rcases this with rfl | rfl | rfl <;> simp [setAt]
    · obtain ⟨a, b, c, d⟩ := hi i (by omega)
      rw [hk]
      refine ⟨?_, ?_, ?_, ?_⟩
      · rw [setAt_ne _ _ (by omega), setAt_ne _ _ (by omega), setAt_ne _ _ (by omega), a]
      · rw [setAt_ne _ _ (by omega), setAt_ne _ _ (by omega), setAt_ne _ _ (by omega), b]
      · rw [setAt_ne _ _ (by omega), setAt_ne _ _ (by omega), setAt_ne _ _ (by omega), c]
      · intro j hj; rw [setAt_ne _ _ h]; exact d j hj

theorem create3dfaces_spec (nodeidc : Nat → Nat → Nat) (n : Nat) (s : FaceState) :
    let r := create3dfaces nodeidc n s
    r.k = 4 * n ∧ ∀ i < n, r.faces (4 * i) = [nodeidc i 0, nodeidc i 1, nodeidc i 2] ∧
      r.faces (4 * i + 1) = [nodeidc i 2, nodeidc i 3, nodeidc i 0] ∧
      r.faces (4 * i + 2) = [nodeidc i 0, nodeidc i 1, nodeidc i 3] ∧
      r.faces (4 * i + 3) = [nodeidc i 3, nodeidc i 1, nodeidc i 2] ∧ ∀ j < 4, r.cellf i j = 4 * i + j := by
  unfold create3dfaces
  induction n with
  | zero => simp
  | succ n ih =>
    rw [List.range_succ, List.foldl_append]
    simp only [List.foldl_cons, List.foldl_nil]
    obtain ⟨hk, hi⟩ := ih
    set t := List.foldl _ _ (List.range n)
    refine ⟨by rw [hk]; ring, ?_⟩
    intro i hin
    by_cases h : i = n
    · subst h
      rw [hk]
      refine ⟨?_, ?_, ?_, ?_, ?_⟩
      · rw [setAt_ne _ _ (by omega), setAt_ne _ _ (by omega), setAt_ne _ _ (by omega), setAt_same]
      · rw [setAt_ne _ _ (by omega), setAt_ne _ _ (by omega), setAt_same]
      · rw [setAt_ne _ _ (by omega), setAt_same]
      · rw [setAt_same]
      · intro j hj
        rw [setAt_same]
        have : j = 0 ∨ j = 1 ∨ j = 2 ∨ j = 3 := by omega
        rcases this with rfl | rfl | rfl | rfl <;> simp [setAt]
    · obtain ⟨a, b, c, d, e⟩ := hi i (by omega)
      rw [hk]
      refine ⟨?_, ?_, ?_, ?_, ?_⟩
      · rw [setAt_ne _ _ (by omega), setAt_ne _ _ (by omega), setAt_ne _ _ (by omega), setAt_ne _ _ (by omega), a]
      · rw [setAt_ne _ _ (by omega), setAt_ne _ _ (by omega), setAt_ne _ _ (by omega), setAt_ne _ _ (by omega), b]
      · rw [setAt_ne _ _ (by omega), setAt_ne _ _ (by omega), setAt_ne _ _ (by omega), setAt_ne _ _ (by omega), c]
      · rw [setAt_ne _ _ (by omega), setAt_ne _ _ (by omega), setAt_ne _ _ (by omega), setAt_ne _ _ (by omega), d]
      · intro j hj; rw [setAt_ne _ _ h]; exact e j hj

theorem createCellFaceid_eq (n d1 : Nat) (o : Nat → Nat) (cellf faceid : Nat → Nat → Nat) (i j : Nat)
    (hi : i < n) (hj : j < d1) : createCellFaceid n d1 o cellf faceid i j = o (cellf i j) := by
  have inner : ∀ (m : Nat) (t : Nat → Nat → Nat) (a i j : Nat),
      (List.range m).foldl (fun t j => setAt t a (setAt (t a) j (o (cellf a j)))) t i j
        = if i = a ∧ j < m then o (cellf i j) else t i j := by
    intro m
    induction m with
    | zero => intro t a i j; simp
    | succ m ih =>
      intro t a i j
      rw [List.range_succ, List.foldl_append]
      simp only [List.foldl_cons, List.foldl_nil]
      by_cases hia : i = a
      · subst hia
        rw [setAt_same]
        by_cases hjm : j = m
        · subst hjm; simp
        · rw [setAt_ne _ _ hjm, ih]
          have e : j < m + 1 ↔ j < m := by omega
          simp [e]
      · rw [setAt_ne _ _ hia, ih]; simp [hia]
  unfold createCellFaceid
  induction n with
  | zero => omega
  | succ n ih =>
    rw [loop2_succ, inner]
    by_cases h : i = n
    · simp [h, hj]
    · rw [if_neg (by tauto)]; exact ih (by omega)

theorem npUnique_spec (rows : List (List Nat)) :
    (npUnique rows).1.Nodup ∧ (∀ r, r ∈ (npUnique rows).1 ↔ r ∈ rows) ∧
    ∀ t < rows.length, (npUnique rows).2 t < (npUnique rows).1.length ∧
      (npUnique rows).1.getD ((npUnique rows).2 t) [] = rows.getD t [] := by
  refine ⟨List.nodup_dedup _, ?_, ?_⟩
  · intro r; simp [npUnique, List.mem_dedup]
  · intro t ht
    have hm : rows.getD t [] ∈ (rows.insertionSort (fun a b => rowLe a b = true)).dedup := by
      rw [List.mem_dedup, (List.perm_insertionSort _ _).mem_iff, List.getD_eq_getElem _ _ ht]
      exact List.getElem_mem ht
    have hlt : (npUnique rows).2 t < (npUnique rows).1.length := List.idxOf_lt_length_iff.mpr hm
    refine ⟨hlt, ?_⟩
    rw [List.getD_eq_getElem _ _ hlt]
    exact List.getElem_idxOf hlt


theorem sortRow_perm (r : List Nat) : (sortRow r).Perm r := List.perm_insertionSort _ _

theorem sortRow_sorted (r : List Nat) : (sortRow r).Pairwise (· ≤ ·) :=
  List.pairwise_insertionSort (· ≤ ·) r

theorem sorted_perm_eq {a b : List Nat} (ha : a.Pairwise (· ≤ ·)) (hb : b.Pairwise (· ≤ ·)) (h : a.Perm b) : a = b :=
  List.Perm.eq_of_pairwise (le := (· ≤ ·)) (fun x y _ _ h1 h2 => le_antisymm h1 h2) ha hb h

end Verif.Conn
