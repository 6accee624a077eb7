import Verif.Model.Proc
import Mathlib.Tactic.Ring
import Mathlib.Data.Finset.Max
import Mathlib.Tactic.Linarith
import Mathlib.Algebra.BigOperators.Group.Finset.Basic
import Mathlib.Algebra.Order.BigOperators.Group.Finset

/-!
# Every schedule of the processes gives the result of the lock-step run

`Lock SIZE P n a`: run together, the processes meet in `n` collectives, all on the same communicator, and process `p` ends with `a p`.
`lock_sched`: then no schedule deadlocks, no process fails, every schedule is finite and the results are the same.
-/
namespace Verif.Proc
open Finset
variable {M α β : Type*} [Inhabited M]

/-- The `SIZE` processes run together. -/
inductive Lock (SIZE : Nat) : (Nat → Prog M α) → Nat → (Nat → α) → Prop
  | ret (P : Nat → Prog M α) (a : Nat → α) : (∀ p < SIZE, P p = .ret (a p)) → Lock SIZE P 0 a
  | coll (P : Nat → Prog M α) (a : Nat → α) (n comm : Nat) (nb : Nat → List Nat) (out : Nat → List M) (k : Nat → List M → Prog M α) :
      (∀ p < SIZE, P p = .coll comm (nb p) (out p) (k p)) → (∀ p < SIZE, ∀ q ∈ nb p, q < SIZE ∧ p ∈ nb q) →
      Lock SIZE (fun p => k p ((nb p).map (fun q => msgFor (nb q, out q) p))) n a → Lock SIZE P (n + 1) a

theorem Lock.congr {SIZE n : Nat} {P : Nat → Prog M α} {a : Nat → α} (h : Lock SIZE P n a) {P' : Nat → Prog M α} {a' : Nat → α}
    (hP : ∀ p < SIZE, P p = P' p) (ha : ∀ p < SIZE, a p = a' p) : Lock SIZE P' n a' := by
  induction h generalizing P' with
  | ret P a h => exact .ret _ _ (fun p hp => by rw [← hP p hp, h p hp, ha p hp])
  | coll P a n comm nb out k h1 h2 _ ih =>
    exact .coll _ _ _ comm nb out k (fun p hp => by rw [← hP p hp, h1 p hp]) h2 (ih (fun _ _ => rfl) ha)

theorem Lock.bind {SIZE n m : Nat} {P : Nat → Prog M α} {a : Nat → α} {F : Nat → α → Prog M β} {b : Nat → β} (h : Lock SIZE P n a)
    (h' : Lock SIZE (fun p => F p (a p)) m b) : Lock SIZE (fun p => (P p).bind (F p)) (n + m) b := by
  induction h with
  | ret P a h =>
    rw [Nat.zero_add]
    exact h'.congr (fun p hp => by rw [h p hp]; rfl) (fun _ _ => rfl)
  | coll P a n comm nb out k h1 h2 _ ih =>
    rw [Nat.add_right_comm]
    exact .coll _ _ _ comm nb out (fun p l => (k p l).bind (F p)) (fun p hp => by rw [h1 p hp]; rfl) h2 (ih h')

/-- The rounds of a lock-step run. -/
structure Rounds (SIZE : Nat) (P : Nat → Prog M α) (n : Nat) (a : Nat → α) (T : Nat → Nat → Prog M α) (comm : Nat → Nat)
    (nb : Nat → Nat → List Nat) (out : Nat → Nat → List M) (k : Nat → Nat → List M → Prog M α) : Prop where
  first : ∀ p, T 0 p = P p
  at_ : ∀ i < n, ∀ p < SIZE, T i p = .coll (comm i) (nb i p) (out i p) (k i p)
  sym : ∀ i < n, ∀ p < SIZE, ∀ q ∈ nb i p, q < SIZE ∧ p ∈ nb i q
  next : ∀ i < n, ∀ p < SIZE, T (i + 1) p = k i p ((nb i p).map (fun q => msgFor (nb i q, out i q) p))
  last : ∀ p < SIZE, T n p = .ret (a p)

theorem Lock.rounds {SIZE n : Nat} {P : Nat → Prog M α} {a : Nat → α} (h : Lock SIZE P n a) :
    ∃ T comm nb out k, Rounds SIZE P n a T comm nb out k := by
  induction h with
  | ret P a h => exact ⟨fun _ => P, fun _ => 0, fun _ _ => [], fun _ _ => [], fun _ _ _ => .fail,
      ⟨fun _ => rfl, fun i hi => absurd hi (Nat.not_lt_zero i), fun i hi => absurd hi (Nat.not_lt_zero i), fun i hi => absurd hi (Nat.not_lt_zero i), h⟩⟩
  | coll P a n comm nb out k h1 h2 _ ih =>
    obtain ⟨T, c, b, o, f, R⟩ := ih
    refine ⟨fun i => Nat.casesOn i P T, fun i => Nat.casesOn i comm c, fun i => Nat.casesOn i nb b, fun i => Nat.casesOn i out o,
      fun i => Nat.casesOn i k f, ⟨fun _ => rfl, ?_, ?_, ?_, ?_⟩⟩
    · intro i hi p hp
      cases i with
      | zero => exact h1 p hp
      | succ i => exact R.at_ i (by omega) p hp
    · intro i hi p hp
      cases i with
      | zero => exact h2 p hp
      | succ i => exact R.sym i (by omega) p hp
    · intro i hi p hp
      cases i with
      | zero => exact R.first p
      | succ i => exact R.next i (by omega) p hp
    · exact R.last

/-- Contributions after `j` rounds on communicator `c`. -/
def sel (comm : Nat → Nat) (c j : Nat) : List Nat := (List.range j).filter (fun i => comm i = c)

theorem sel_succ (comm : Nat → Nat) (c j : Nat) : sel comm c (j + 1) = sel comm c j ++ (if comm j = c then [j] else []) := by
  unfold sel
  rw [List.range_succ, List.filter_append]
  by_cases h : comm j = c <;> simp [h]

theorem sel_mono (comm : Nat → Nat) (c : Nat) {i j : Nat} (h : i ≤ j) : (sel comm c i).length ≤ (sel comm c j).length := by
  induction j, h using Nat.le_induction with
  | base => exact le_refl _
  | succ j _ ih => rw [sel_succ, List.length_append]; omega

/-- The contribution of round `i` is found at its place. -/
theorem sel_at (comm : Nat → Nat) {i j : Nat} (h : i < j) : (sel comm (comm i) j)[(sel comm (comm i) i).length]? = some i := by
  induction j, h using Nat.le_induction with
  | base => rw [sel_succ, if_pos rfl]; simp
  | succ j hj ih =>
    rw [sel_succ, List.getElem?_append_left]
    · exact ih
    · exact (List.getElem?_eq_some_iff.mp ih).1

theorem lt_of_sel (comm : Nat → Nat) {i j : Nat} (h : (sel comm (comm i) (i + 1)).length ≤ (sel comm (comm i) j).length) : i < j := by
  by_contra hj
  have := sel_mono comm (comm i) (Nat.le_of_not_lt hj)
  rw [sel_succ, if_pos rfl, List.length_append] at h
  simp at h
  omega

/-- What holds of all processes after any schedule: process `p` is in round `pos p`. -/
structure Inv (SIZE n : Nat) (T : Nat → Nat → Prog M α) (comm : Nat → Nat) (nb : Nat → Nat → List Nat) (out : Nat → Nat → List M) (len : Nat)
    (c : Cfg M α) (pos : Nat → Nat) : Prop where
  le : ∀ p < SIZE, pos p ≤ n
  st : ∀ p < SIZE, c.st p = T (pos p) p
  wait : ∀ p < SIZE, c.waiting p = true → pos p < n
  posted : ∀ p < SIZE, ∀ κ, c.posted p κ = (sel comm κ (pos p + (c.waiting p).toNat)).map (fun i => (nb i p, out i p))
  len : ∑ p ∈ range SIZE, (2 * pos p + (c.waiting p).toNat) = len

theorem sum_put {SIZE p : Nat} (hp : p < SIZE) (f g : Nat → Nat) (h : ∀ q < SIZE, q ≠ p → g q = f q) (h1 : g p = f p + 1) :
    ∑ q ∈ range SIZE, g q = ∑ q ∈ range SIZE, f q + 1 := by
  have hm : p ∈ range SIZE := mem_range.mpr hp
  rw [← add_sum_erase _ _ hm, ← add_sum_erase (range SIZE) f hm, h1]
  have : ∑ q ∈ (range SIZE).erase p, g q = ∑ q ∈ (range SIZE).erase p, f q :=
    sum_congr rfl (fun q hq => h q (mem_range.mp (mem_of_mem_erase hq)) (ne_of_mem_erase hq))
  omega

theorem inv_step {SIZE n : Nat} {P : Nat → Prog M α} {a : Nat → α} {T comm nb out k} (R : Rounds SIZE P n a T comm nb out k)
    {sync : Cfg M α → Nat → Nat → Nat → Prop} {len p : Nat} {c c' : Cfg M α} {pos : Nat → Nat} (hp : p < SIZE)
    (I : Inv SIZE n T comm nb out len c pos) (hs : Step sync p c c') : ∃ pos', Inv SIZE n T comm nb out (len + 1) c' pos' := by
  cases hs with
  | enter κ b o f h1 h2 =>
    have hlt : pos p < n := by
      by_contra hn
      have : pos p = n := le_antisymm (I.le p hp) (Nat.le_of_not_lt hn)
      rw [I.st p hp, this, R.last p hp] at h1
      simp at h1
    have he := h1
    rw [I.st p hp, R.at_ _ hlt p hp, Prog.coll.injEq] at he
    obtain ⟨e1, e2, e3, e4⟩ := he
    refine ⟨pos, ⟨I.le, I.st, ?_, ?_, ?_⟩⟩
    · intro q hq hw
      by_cases e : q = p
      · rw [e]; exact hlt
      · exact I.wait q hq (by simpa [put, e] using hw)
    · intro q hq κ'
      by_cases e : q = p
      · subst e
        simp only [put, if_true]
        have hb := I.posted q hq
        simp only [h2, Bool.toNat_false, Nat.add_zero] at hb
        simp only [Bool.toNat_true, sel_succ]
        by_cases ek : κ' = κ
        · subst ek
          rw [if_pos rfl, hb, e1, if_pos rfl, List.map_append, ← e2, ← e3]; rfl
        · rw [if_neg ek, hb, e1, if_neg (fun h => ek h.symm), List.append_nil]
      · simp only [put, if_neg e]
        exact I.posted q hq κ'
    · rw [← I.len]
      apply sum_put hp
      · intro q hq e; simp [put, e]
      · simp [put, h2]
  | leave κ b o f h1 h2 h3 h4 =>
    have hlt := I.wait p hp h2
    have he := h1
    rw [I.st p hp, R.at_ _ hlt p hp, Prog.coll.injEq] at he
    obtain ⟨e1, e2, e3, e4⟩ := he
    subst e1 e2 e3 e4
    have hl : (c.posted p (comm (pos p))).length = (sel comm (comm (pos p)) (pos p + 1)).length := by
      rw [I.posted p hp, h2, List.length_map]; rfl
    have hmsg : ∀ q ∈ nb (pos p) p, nth c q (comm (pos p)) (c.posted p (comm (pos p))).length = (nb (pos p) q, out (pos p) q) := by
      intro q hq
      have hqS := (R.sym _ hlt p hp q hq).1
      have h3' := (h3 q hq).1
      rw [hl, I.posted q hqS, List.length_map] at h3'
      have hj := lt_of_sel comm h3'
      unfold nth
      rw [hl, I.posted q hqS, sel_succ, if_pos rfl, List.length_append]
      simp only [List.length_singleton, Nat.add_sub_cancel]
      rw [List.getD_eq_getElem?_getD, List.getElem?_map, sel_at comm hj]
      rfl
    refine ⟨put pos p (pos p + 1), ⟨?_, ?_, ?_, ?_, ?_⟩⟩
    · intro q hq
      unfold put
      split
      · exact hlt
      · exact I.le q hq
    · intro q hq
      by_cases e : q = p
      · subst e
        simp only [put, if_true]
        rw [R.next _ hlt q hq]
        congr 1
        apply List.map_congr_left
        intro r hr
        rw [hmsg r hr]
      · simp only [put, if_neg e]; exact I.st q hq
    · intro q hq hw
      by_cases e : q = p
      · subst e; simp [put] at hw
      · simp only [put, if_neg e] at hw ⊢; exact I.wait q hq hw
    · intro q hq κ'
      by_cases e : q = p
      · subst e
        simp only [put, if_true]
        rw [I.posted q hq, h2]; rfl
      · simp only [put, if_neg e]; exact I.posted q hq κ'
    · rw [← I.len]
      apply sum_put hp
      · intro q hq e; simp [put, e]
      · simp [put, h2]; omega

theorem inv_exec {SIZE n : Nat} {P : Nat → Prog M α} {a : Nat → α} {T comm nb out k} (R : Rounds SIZE P n a T comm nb out k)
    {sync : Cfg M α → Nat → Nat → Nat → Prop} {sch : List Nat} {c : Cfg M α} (he : Exec sync SIZE (Cfg.init P) sch c) :
    ∃ pos, Inv SIZE n T comm nb out sch.length c pos := by
  generalize hc0 : Cfg.init P = c0 at he
  induction he with
  | nil =>
    subst hc0
    refine ⟨fun _ => 0, ⟨fun _ _ => Nat.zero_le _, fun p _ => (R.first p).symm, fun p _ h => by simp [Cfg.init] at h, fun p _ κ => ?_, ?_⟩⟩
    · simp [Cfg.init, sel]
    · simp [Cfg.init]
  | step c c' sch p h1 hp hs ih =>
    obtain ⟨pos, I⟩ := ih
    obtain ⟨pos', I'⟩ := inv_step R hp I hs
    exact ⟨pos', by rw [List.length_append]; exact I'⟩

/-- Some process can go on unless all are finished, even if the collectives synchronise all processes. -/
theorem progress {SIZE n : Nat} {P : Nat → Prog M α} {a : Nat → α} {T comm nb out k} (R : Rounds SIZE P n a T comm nb out k)
    {sync : Cfg M α → Nat → Nat → Nat → Prop} (hsync : ∀ c p κ m, fullSync SIZE c p κ m → sync c p κ m) {len : Nat} {c : Cfg M α}
    {pos : Nat → Nat} (I : Inv SIZE n T comm nb out len c pos) :
    (∀ p < SIZE, c.st p = .ret (a p)) ∨ ∃ p < SIZE, ∃ c', Step sync p c c' := by
  by_cases hall : ∀ p < SIZE, pos p = n
  · exact .inl (fun p hp => by rw [I.st p hp, hall p hp, R.last p hp])
  right
  push Not at hall
  obtain ⟨p0, hp0, hne⟩ := hall
  obtain ⟨p, hpm, hmin⟩ := exists_min_image (range SIZE) pos ⟨p0, mem_range.mpr hp0⟩
  have hp := mem_range.mp hpm
  have hlt : pos p < n := lt_of_le_of_lt (hmin p0 (mem_range.mpr hp0)) (lt_of_le_of_ne (I.le p0 hp0) hne)
  by_cases hw : ∃ q < SIZE, pos q = pos p ∧ c.waiting q = false
  · obtain ⟨q, hq, e, hwq⟩ := hw
    exact ⟨q, hq, _, Step.enter c _ _ _ _ (by rw [I.st q hq, R.at_ (pos q) (by omega) q hq]) hwq⟩
  · push Not at hw
    have hpost : ∀ q < SIZE, pos p < pos q + (c.waiting q).toNat := by
      intro q hq
      have := hmin q (mem_range.mpr hq)
      by_cases e : pos q = pos p
      · have := hw q hq e
        simp at this
        rw [this, e]; simp
      · omega
    have hwp : c.waiting p = true := by simpa using hw p hp rfl
    have hl : (c.posted p (comm (pos p))).length = (sel comm (comm (pos p)) (pos p + 1)).length := by
      rw [I.posted p hp, hwp, List.length_map]; rfl
    have hle : ∀ q < SIZE, (c.posted p (comm (pos p))).length ≤ (c.posted q (comm (pos p))).length := by
      intro q hq
      rw [hl, I.posted q hq, List.length_map]
      exact sel_mono _ _ (hpost q hq)
    refine ⟨p, hp, _, Step.leave c (comm (pos p)) (nb (pos p) p) (out (pos p) p) (k (pos p) p)
      (by rw [I.st p hp, R.at_ _ hlt p hp]) hwp ?_ (hsync _ _ _ _ (fun q hq => hle q hq))⟩
    intro q hq
    have hqS := (R.sym _ hlt p hp q hq).1
    refine ⟨hle q hqS, ?_⟩
    unfold nth
    rw [hl, I.posted q hqS, sel_succ, if_pos rfl, List.length_append]
    simp only [List.length_singleton, Nat.add_sub_cancel]
    rw [List.getD_eq_getElem?_getD, List.getElem?_map, sel_at comm (hpost q hqS)]
    exact (R.sym _ hlt p hp q hq).2

/-- Every schedule: no process fails, a finished process holds the lock-step result, the run is not stuck before all are finished, and
it is at most `2 n SIZE` steps long. -/
theorem lock_sched {SIZE n : Nat} {P : Nat → Prog M α} {a : Nat → α} (h : Lock SIZE P n a) {sync : Cfg M α → Nat → Nat → Nat → Prop}
    (hsync : ∀ c p κ m, fullSync SIZE c p κ m → sync c p κ m) {sch : List Nat} {c : Cfg M α} (he : Exec sync SIZE (Cfg.init P) sch c) :
    (∀ p < SIZE, c.st p ≠ .fail) ∧ (∀ p < SIZE, ∀ x, c.st p = .ret x → x = a p) ∧
      ((∀ p < SIZE, c.st p = .ret (a p)) ∨ ∃ p < SIZE, ∃ c', Step sync p c c') ∧ sch.length ≤ 2 * n * SIZE := by
  obtain ⟨T, comm, nb, out, k, R⟩ := h.rounds
  obtain ⟨pos, I⟩ := inv_exec R he
  have hst : ∀ p < SIZE, (∃ κ b o f, c.st p = .coll κ b o f) ∨ c.st p = .ret (a p) := by
    intro p hp
    rw [I.st p hp]
    rcases Nat.lt_or_ge (pos p) n with hlt | hge
    · exact .inl ⟨_, _, _, _, R.at_ _ hlt p hp⟩
    · rw [le_antisymm (I.le p hp) hge]; exact .inr (R.last p hp)
  refine ⟨fun p hp e => ?_, fun p hp x e => ?_, progress R hsync I, ?_⟩
  · rcases hst p hp with ⟨_, _, _, _, h⟩ | h <;> rw [h] at e <;> simp at e
  · rcases hst p hp with ⟨_, _, _, _, h⟩ | h <;> rw [h] at e <;> simp at e
    exact e.symm
  · rw [← I.len]
    have : ∑ p ∈ range SIZE, (2 * pos p + (c.waiting p).toNat) ≤ ∑ _p ∈ range SIZE, 2 * n := by
      apply sum_le_sum
      intro p hp
      have h1 := I.le p (mem_range.mp hp)
      rcases hb : c.waiting p with _ | _
      · simp; omega
      · have := I.wait p (mem_range.mp hp) hb
        simp; omega
    simp only [sum_const, card_range, nsmul_eq_mul, Nat.cast_id] at this
    linarith [Nat.mul_comm SIZE (2 * n)]

end Verif.Proc
