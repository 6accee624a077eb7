import Verif.Spec.LinSolve
import Verif.Props.LinSys
import Verif.Props.Variable
import Verif.Props.Comm

/-!
# Solving a linear system (C51, C52, C73)
-/
set_option linter.unusedSectionVars false
set_option linter.unusedSimpArgs false
set_option linter.unusedVariables false
set_option linter.unnecessarySeqFocus false
set_option linter.unusedTactic false
set_option linter.unreachableTactic false
namespace Verif.Props
open Verif Verif.Var Verif.LinSolve

section solve
variable {K : Type*} [Field K]

/-- `s'` has the arrays of `s` and possibly new ones. -/
structure Ext (s s' : St K) : Prop where
  next : s.next ≤ s'.next
  heap : ∀ r < s.next, s'.heap r = s.heap r
  rhs0 : s'.rhs0 = s.rhs0
  cell : s'.cell = s.cell

theorem Ext.refl (s : St K) : Ext s s := ⟨le_refl _, fun _ _ => rfl, rfl, rfl⟩
theorem Ext.trans {s s' s'' : St K} (h : Ext s s') (h' : Ext s' s'') : Ext s s'' :=
  ⟨h.next.trans h'.next, fun r hr => (h'.heap r (lt_of_lt_of_le hr h.next)).trans (h.heap r hr), h'.rhs0.trans h.rhs0, h'.cell.trans h.cell⟩
theorem ext_alloc (s : St K) (a : Nat → K) : Ext s (s.alloc a).1 :=
  ⟨by simp [St.alloc], fun r hr => by simp only [St.alloc]; exact setAt_ne _ _ (by omega), rfl, rfl⟩

/-- The right-hand side used on rank `p`. -/
theorem effRhs_ok (s s' : St K) (p : Nat) (arg r : Option Nat) (h : effRhs s p arg = .ok (s', r)) (hr0 : ∀ q, s.rhs0 p = some q → q < s.next) :
    Ext s s' ∧ s'.prhs = s.prhs ∧ ∀ q, r = some q → ∃ q0, s.rhs0 p = some q0 ∧ q < s'.next ∧
      ∀ i, s'.heap q i = s.heap q0 i + optVal (arg.map s.heap) i := by
  unfold effRhs at h
  cases arg with
  | none =>
    simp only [Except.ok.injEq, Prod.mk.injEq] at h
    obtain ⟨rfl, rfl⟩ := h
    exact ⟨Ext.refl _, rfl, fun q hq => ⟨q, hq, hr0 q hq, fun i => by simp [optVal]⟩⟩
  | some a =>
    simp only at h
    cases h0 : s.rhs0 p with
    | none => rw [h0] at h; simp at h
    | some q0 =>
      rw [h0] at h
      simp only [Except.ok.injEq, Prod.mk.injEq] at h
      obtain ⟨rfl, rfl⟩ := h
      refine ⟨ext_alloc _ _, rfl, fun q hq => ⟨q0, rfl, ?_, fun i => ?_⟩⟩
      · simp only [Option.some.injEq] at hq; subst hq; simp [St.alloc]
      · simp only [Option.some.injEq] at hq; subst hq; simp [St.alloc, optVal]; ring

theorem effRhs_exists (s : St K) (p q0 : Nat) (arg : Option Nat) (h0 : s.rhs0 p = some q0) :
    ∃ s' q, effRhs s p arg = .ok (s', some q) := by
  unfold effRhs
  cases arg with
  | none => exact ⟨s, q0, by simp [h0]⟩
  | some a => simp only [h0]; exact ⟨_, _, rfl⟩

theorem convertSolution_apply (x1 x : Nat → K) (tc : List Nat) (n i : Nat) :
    convertSolution x1 x tc n i = if i < n then x1 (tc.getD i 0) else x i := by
  unfold convertSolution
  induction n with
  | zero => simp
  | succ n ih =>
    rw [List.range_succ, List.foldl_append]
    simp only [List.foldl_cons, List.foldl_nil, setAt]
    by_cases h : i = n
    · subst h; simp
    · rw [if_neg h, ih]
      by_cases h' : i < n
      · rw [if_pos h', if_pos (by omega)]
      · rw [if_neg h', if_neg (by omega)]

theorem scatterv_frame (E : Env K) (n : Nat) (s : St K) :
    let f := fun (s : St K) p => s.store (s.cell p) (fun j => if j < E.localsize p then s.x1converted (((List.range p).map E.localsize).sum + j) else s.heap (s.cell p) j)
    let s' := (List.range n).foldl f s
    s'.next = s.next ∧ s'.rhs0 = s.rhs0 ∧ s'.cell = s.cell ∧ s'.x1converted = s.x1converted ∧ s'.prhs = s.prhs ∧ s'.sol = s.sol ∧
      (∀ r, (∀ p < n, r ≠ s.cell p) → s'.heap r = s.heap r) ∧
      ((∀ p < n, ∀ q < n, s.cell p = s.cell q → p = q) → ∀ p < n, ∀ j < E.localsize p,
        s'.heap (s.cell p) j = s.x1converted (((List.range p).map E.localsize).sum + j)) := by
  intro f s'
  induction n with
  | zero => exact ⟨rfl, rfl, rfl, rfl, rfl, rfl, fun _ _ => rfl, fun _ p hp => absurd hp (by omega)⟩
  | succ n ih =>
    have e : s' = f ((List.range n).foldl f s) n := by simp only [s', List.range_succ, List.foldl_append, List.foldl_cons, List.foldl_nil]
    obtain ⟨h1, h2, h3, h4, h5, h5', h6, h7⟩ := ih
    rw [e]
    obtain ⟨T, hT⟩ : ∃ T, T = (List.range n).foldl f s := ⟨_, rfl⟩
    rw [← hT] at h1 h2 h3 h4 h5 h5' h6 h7 ⊢
    refine ⟨h1, h2, h3, h4, h5, h5', fun r hr => ?_, fun hinj p hp j hj => ?_⟩
    · simp only [f, St.store]
      rw [setAt_ne _ _ (by rw [h3]; exact hr n (by omega))]
      exact h6 r (fun p hp => hr p (by omega))
    · simp only [f, St.store, h3]
      by_cases hpn : p = n
      · subst hpn; rw [setAt_same, if_pos hj, h4]
      · rw [setAt_ne _ _ (fun h => hpn (hinj p hp n (by omega) h))]
        exact h7 (fun a ha b hb => hinj a (by omega) b (by omega)) p (by omega) j hj

theorem globalsize_sum (E : Env K) : E.globalsize = ((List.range E.SIZE).map E.localsize).sum := by
  unfold Env.globalsize
  have : ∀ (l : List Nat) (a : Nat), l.foldl (fun n p => n + E.localsize p) a = a + (l.map E.localsize).sum := by
    intro l; induction l with
    | nil => simp
    | cons b l ih => intro a; simp [ih]; omega
  rw [this]; simp

theorem flatMap_getD (loc : Nat → Nat → Nat) (size : Nat → Nat) (n p j : Nat) (hp : p < n) (hj : j < size p) :
    ((List.range n).flatMap (fun p => (List.range (size p)).map (loc p))).getD (((List.range p).map size).sum + j) 0 = loc p j ∧
      ((List.range p).map size).sum + j < ((List.range n).map size).sum := by
  have hlen : ∀ m, ((List.range m).flatMap (fun p => (List.range (size p)).map (loc p))).length = ((List.range m).map size).sum := by
    intro m; induction m with
    | zero => rfl
    | succ m ih => rw [List.range_succ]; simp only [List.flatMap_append, List.length_append, ih, List.map_append, List.sum_append]; simp
  induction n with
  | zero => omega
  | succ n ih =>
    rw [List.range_succ (n := n), List.flatMap_append, List.map_append, List.sum_append]
    by_cases h : p = n
    · subst h
      refine ⟨?_, by simp [hj]⟩
      rw [List.getD_append_right _ _ _ _ (by rw [hlen]; omega), hlen]
      simp [hj, List.getD_eq_getElem?_getD]
    · obtain ⟨h1, h2⟩ := ih (by omega)
      refine ⟨?_, by omega⟩
      rw [List.getD_append _ _ _ _ (by rw [hlen]; exact h2)]
      exact h1

theorem tc_entry (E : Env K) (hE : NumberingOk E) (p j : Nat) (hp : p < E.SIZE) (hj : j < E.localsize p) :
    E.tc.getD (((List.range p).map E.localsize).sum + j) 0 = E.loctoglob p j ∧
      ((List.range p).map E.localsize).sum + j < E.globalsize ∧ E.loctoglob p j < E.globalsize := by
  obtain ⟨h1, h2⟩ := flatMap_getD E.loctoglob E.localsize E.SIZE p j hp hj
  rw [← hE.tc] at h1
  rw [← globalsize_sum] at h2
  refine ⟨h1, h2, ?_⟩
  have : E.loctoglob p j ∈ E.tc := by
    rw [hE.tc]; simp only [List.mem_flatMap, List.mem_range, List.mem_map]; exact ⟨p, hp, j, hj, rfl⟩
  simpa using hE.perm.mem_iff.1 this

/-- **C51** (scatter): after `convert_solution` and `Scatterv`, cell `j` of rank `p` holds the entry of its global number. -/
theorem C51_scatter (E : Env K) (hE : NumberingOk E) (s : St K) (x : Nat → K)
    (hinj : ∀ p < E.SIZE, ∀ q < E.SIZE, s.cell p = s.cell q → p = q) (p : Nat) (hp : p < E.SIZE) (j : Nat) (hj : j < E.localsize p) :
    (scatterv E { s with x1converted := convertSolution x s.x1converted E.tc E.globalsize }).cells p j = x (E.loctoglob p j) := by
  obtain ⟨-, -, h3, -, -, -, -, h7⟩ := scatterv_frame E E.SIZE { s with x1converted := convertSolution x s.x1converted E.tc E.globalsize }
  obtain ⟨t1, t2, -⟩ := tc_entry E hE p j hp hj
  have := h7 hinj p hp j hj
  simp only [convertSolution_apply, if_pos t2, t1] at this
  rw [← this]
  show (scatterv E _).heap ((scatterv E _).cell p) j = _
  unfold scatterv
  rw [h3]

/-- What a history preserves. -/
structure SolveInv (E : Env K) (s0 s : St K) : Prop where
  rhs0 : s.rhs0 = s0.rhs0
  val : ∀ p < E.SIZE, s.heap p = s0.heap p
  next : E.SIZE ≤ s.next
  cell : ∀ p < E.SIZE, E.SIZE ≤ s.cell p ∧ s.cell p < s.next
  inj : ∀ p < E.SIZE, ∀ q < E.SIZE, s.cell p = s.cell q → p = q

/-- What holds right after construction. -/
structure Start (E : Env K) (s0 : St K) : Prop where
  ref : ∀ p q, s0.rhs0 p = some q → q = p ∧ p < E.SIZE
  seq : E.solver = .spsolve ∨ E.solver = .umfpack → E.SIZE = 1

/-- The arrays `rhs0` represent the global right-hand side `b`. -/
def Holds0 (E : Env K) (s0 : St K) (b : Nat → K) : Prop :=
  match E.solver with
  | .petsc => ∀ p < E.SIZE, ∀ i < E.localsize p, b (E.loctoglob p i) = s0.heap p i
  | _ => ∀ g < E.globalsize, b g = s0.heap 0 g

theorem SolveInv.ext {E : Env K} {s0 s s' : St K} (h : SolveInv E s0 s) (e : Ext s s') : SolveInv E s0 s' where
  rhs0 := e.rhs0.trans h.rhs0
  val := fun p hp => (e.heap p (lt_of_lt_of_le hp h.next)).trans (h.val p hp)
  next := h.next.trans e.next
  cell := fun p hp => by rw [e.cell]; exact ⟨(h.cell p hp).1, lt_of_lt_of_le (h.cell p hp).2 e.next⟩
  inj := by rw [e.cell]; exact h.inj

theorem SolveInv.store {E : Env K} {s0 s : St K} (h : SolveInv E s0 s) (r : Nat) (hr : E.SIZE ≤ r) (a : Nat → K) : SolveInv E s0 (s.store r a) where
  rhs0 := h.rhs0
  val := fun p hp => by simp only [St.store]; rw [setAt_ne _ _ (by omega)]; exact h.val p hp
  next := h.next
  cell := h.cell
  inj := h.inj

/-- The invariant does not look at these fields. -/
theorem SolveInv.congr {E : Env K} {s0 s : St K} (h : SolveInv E s0 s) (x v : Nat → K) (l : Nat → Nat) :
    SolveInv E s0 { s with x1converted := x, prhs := v, sol := l } := ⟨h.rhs0, h.val, h.next, h.cell, h.inj⟩

theorem SolveInv.scatterv {E : Env K} {s0 s : St K} (h : SolveInv E s0 s) : SolveInv E s0 (scatterv E s) := by
  obtain ⟨h1, h2, h3, -, -, -, h6, -⟩ := scatterv_frame E E.SIZE s
  unfold LinSolve.scatterv
  refine ⟨h2.trans h.rhs0, fun p hp => ?_, by rw [h1]; exact h.next, ?_, ?_⟩
  · rw [h6 p (fun q hq => by have := (h.cell q hq).1; omega)]; exact h.val p hp
  · rw [h1, h3]; exact h.cell
  · rw [h3]; exact h.inj

theorem nodup_loctoglob (E : Env K) (hE : NumberingOk E) (p q i j : Nat) (hp : p < E.SIZE) (hq : q < E.SIZE) (hi : i < E.localsize p)
    (hj : j < E.localsize q) (h : E.loctoglob p i = E.loctoglob q j) : p = q ∧ i = j := by
  have hnd : E.tc.Nodup := hE.perm.nodup_iff.2 List.nodup_range
  rw [hE.tc, List.nodup_flatMap] at hnd
  by_cases hpq : p = q
  · subst hpq
    exact ⟨rfl, (List.inj_on_of_nodup_map (hnd.1 p (by simpa using hp))) (by simpa using hi) (by simpa using hj) h⟩
  · exfalso
    have := hnd.2
    rw [List.pairwise_iff_getElem] at this
    rcases Nat.lt_or_gt_of_ne hpq with hlt | hlt
    · have := this p q (by simpa using hp) (by simpa using hq) hlt
      simp only [List.getElem_range, Function.onFun] at this
      exact this (a := E.loctoglob p i) (by simp; exact ⟨i, hi, rfl⟩) (by simp; exact ⟨j, hj, h.symm⟩)
    · have := this q p (by simpa using hq) (by simpa using hp) hlt
      simp only [List.getElem_range, Function.onFun] at this
      exact this (a := E.loctoglob p i) (by simp; exact ⟨j, hj, h.symm⟩) (by simp; exact ⟨i, hi, rfl⟩)

/-- Sequential solvers. -/
theorem solveSeq_ok (E : Env K) (hE : NumberingOk E) (s0 s s' : St K) (h0 : Start E s0) (inv : SolveInv E s0 s) (args : Nat → Option Nat)
    (hs : E.SIZE = 1) (hsv : E.solver = .spsolve ∨ E.solver = .umfpack) (h : solveSeq E s args = .ok s') :
    SolveInv E s0 s' ∧ (∀ r < s.next, s'.heap r = s.heap r) ∧
      (SolverOk E → ∀ b r, Holds0 E s0 b → SourceIs E s args r → ∀ p < E.SIZE, ∀ j < E.localsize p,
        s'.cells p j = E.S (fun g => b g + r g) (E.loctoglob p j)) := by
  unfold solveSeq at h
  simp only [bind, Except.bind] at h
  cases he : effRhs s 0 (args 0) with
  | error e => rw [he] at h; simp at h
  | ok v =>
    obtain ⟨s1, r⟩ := v
    rw [he] at h
    obtain ⟨e1, -, e3⟩ := effRhs_ok s s1 0 (args 0) r he (fun q hq => by
      rw [inv.rhs0] at hq; obtain ⟨rfl, hp⟩ := h0.ref _ _ hq; exact lt_of_lt_of_le hp inv.next)
    cases r with
    | none => simp at h
    | some q =>
      simp only [Except.ok.injEq] at h
      obtain ⟨q0, hq0, hq, hval⟩ := e3 q rfl
      have hq00 : q0 = 0 := by rw [inv.rhs0] at hq0; exact (h0.ref _ _ hq0).1
      subst hq00
      have e2 := ext_alloc s1 (E.S (s1.heap q))
      have inv1 := inv.ext (e1.trans e2)
      subst h
      refine ⟨⟨inv1.rhs0, inv1.val, inv1.next, ?_, ?_⟩, fun r hr => (e1.trans e2).heap r hr, ?_⟩
      · intro p hp
        have hp0 : p = 0 := by omega
        subst hp0
        simp only [setAt_same]
        have := e1.next; have := inv.next
        refine ⟨?_, ?_⟩ <;> simp [St.alloc] <;> omega
      · intro a ha b hb _; omega
      · intro hS b r hb hr p hp j hj
        have hp0 : p = 0 := by omega
        subst hp0
        obtain ⟨-, -, hlt⟩ := tc_entry E hE 0 j hp hj
        simp only [St.cells, setAt_same, St.alloc]
        rw [hE.serial hs j] at hlt ⊢
        refine hS _ _ (fun g hg => ?_) _ hlt
        rw [hval, inv.val 0 hp]
        have hb' : b g = s0.heap 0 g := by unfold Holds0 at hb; rcases hsv with h | h <;> rw [h] at hb <;> exact hb g hg
        have hr' : r g = optVal ((args 0).map s.heap) g := by unfold SourceIs at hr; rcases hsv with h | h <;> rw [h] at hr <;> exact hr g hg
        rw [hb', hr']

theorem foldlM_ext (n : Nat) (args : Nat → Option Nat) (s s' : St K)
    (hr0 : ∀ p q, s.rhs0 p = some q → q < s.next)
    (h : (List.range n).foldlM (fun s p => (effRhs s (p + 1) (args (p + 1))).map Prod.fst) s = .ok s') : Ext s s' := by
  induction n generalizing s' with
  | zero => simp [pure, Except.pure] at h; subst h; exact Ext.refl _
  | succ n ih =>
    rw [List.range_succ, List.foldlM_append] at h
    simp only [bind, Except.bind] at h
    cases h1 : (List.range n).foldlM (fun s p => (effRhs s (p + 1) (args (p + 1))).map Prod.fst) s with
    | error e => rw [h1] at h; simp at h
    | ok s1 =>
      rw [h1] at h
      have e1 := ih s1 h1
      simp only [List.foldlM_cons, List.foldlM_nil, bind, Except.bind] at h
      cases h2 : effRhs s1 (n + 1) (args (n + 1)) with
      | error e => rw [h2] at h; simp [Except.map] at h
      | ok v =>
        rw [h2] at h
        simp [Except.map, pure, Except.pure] at h
        subst h
        exact e1.trans (effRhs_ok s1 v.1 (n + 1) (args (n + 1)) v.2 h2 (fun q hq => by
          rw [e1.rhs0] at hq; exact lt_of_lt_of_le (hr0 _ _ hq) e1.next)).1

theorem solveMumps_ok (E : Env K) (hE : NumberingOk E) (s0 s s' : St K) (h0 : Start E s0) (inv : SolveInv E s0 s) (args : Nat → Option Nat)
    (hsv : E.solver = .mumps) (h : solveMumps E s args = .ok s') :
    SolveInv E s0 s' ∧ (∀ r < s.next, (∀ p < E.SIZE, r ≠ s.cell p) → s'.heap r = s.heap r) ∧
      (SolverOk E → ∀ b r, Holds0 E s0 b → SourceIs E s args r → ∀ p < E.SIZE, ∀ j < E.localsize p,
        s'.cells p j = E.S (fun g => b g + r g) (E.loctoglob p j)) := by
  have hr0 : ∀ p q, s.rhs0 p = some q → q < s.next := fun p q hq => by
    rw [inv.rhs0] at hq; obtain ⟨rfl, hp⟩ := h0.ref _ _ hq; exact lt_of_lt_of_le hp inv.next
  unfold solveMumps at h
  simp only [bind, Except.bind] at h
  cases he : effRhs s 0 (args 0) with
  | error e => rw [he] at h; simp at h
  | ok v =>
    obtain ⟨s1, r⟩ := v
    rw [he] at h
    obtain ⟨e1, -, e3⟩ := effRhs_ok s s1 0 (args 0) r he (hr0 0)
    simp only at h
    cases hf : (List.range (E.SIZE - 1)).foldlM (fun s p => (effRhs s (p + 1) (args (p + 1))).map Prod.fst) s1 with
    | error e => rw [hf] at h; simp at h
    | ok s2 =>
      rw [hf] at h
      have e2 := foldlM_ext _ args s1 s2 (fun p q hq => by rw [e1.rhs0] at hq; exact lt_of_lt_of_le (hr0 _ _ hq) e1.next) hf
      cases r with
      | none => simp at h
      | some q =>
        simp only [Except.ok.injEq] at h
        obtain ⟨q0, hq0, hq, hval⟩ := e3 q rfl
        have hq00 : q0 = 0 ∧ 0 < E.SIZE := by rw [inv.rhs0] at hq0; exact h0.ref _ _ hq0
        obtain ⟨rfl, hS0⟩ := hq00
        have e12 := e1.trans e2
        have e3 := e12.trans (ext_alloc s2 (s2.heap q))
        have invA := inv.ext e3
        have hn2 : E.SIZE ≤ s2.next := inv.next.trans e12.next
        obtain ⟨T, hT⟩ : ∃ T : St K, T = (s2.alloc (s2.heap q)).1.setSol (s2.alloc (s2.heap q)).2 := ⟨_, rfl⟩
        have invT : SolveInv E s0 T := by rw [hT]; exact ⟨invA.rhs0, invA.val, invA.next, invA.cell, invA.inj⟩
        have hTsol : T.sol 0 = s2.next := by rw [hT]; simp [St.alloc, St.setSol]
        have hTheap : T.heap s2.next = s2.heap q := by rw [hT]; simp [St.alloc, St.setSol]
        have hTold : ∀ r < s2.next, T.heap r = s2.heap r := by intro r hr; rw [hT]; exact (ext_alloc s2 (s2.heap q)).heap r hr
        unfold mumpsRun at h
        simp only at h
        rw [← hT, hTsol, hTheap] at h
        obtain ⟨W, hW⟩ : ∃ W, W = T.store s2.next (E.S (s2.heap q)) := ⟨_, rfl⟩
        have hTcell : T.cell = s.cell := by rw [hT]; exact e3.cell
        have invW : SolveInv E s0 W := by rw [hW]; exact invT.store _ hn2 _
        have hWs : W.sol 0 = s2.next := by rw [hW]; exact hTsol
        have hWh : W.heap s2.next = E.S (s2.heap q) := by rw [hW]; simp [St.store]
        have hWcell : W.cell = s.cell := by rw [hW]; exact hTcell
        have hWold : ∀ r < s2.next, W.heap r = s2.heap r := by
          intro r hr; rw [hW]; simp only [St.store]; rw [setAt_ne _ _ (by omega)]; exact hTold r hr
        rw [← hW, hWs, hWh] at h
        have invX : SolveInv E s0 { W with x1converted := convertSolution (E.S (s2.heap q)) W.x1converted E.tc E.globalsize } :=
          ⟨invW.rhs0, invW.val, invW.next, invW.cell, invW.inj⟩
        subst h
        refine ⟨invX.scatterv, fun r hr hrc => ?_, fun hS b r hb hr p hp j hj => ?_⟩
        · obtain ⟨-, -, -, -, -, -, h6, -⟩ := scatterv_frame E E.SIZE { W with x1converted := convertSolution (E.S (s2.heap q)) W.x1converted E.tc E.globalsize }
          unfold LinSolve.scatterv
          rw [h6 r (by simp only [hWcell]; exact hrc)]
          simp only
          rw [hWold r (lt_of_lt_of_le hr e12.next), e12.heap r hr]
        · rw [C51_scatter E hE W _ invW.inj p hp j hj]
          obtain ⟨-, -, hlt⟩ := tc_entry E hE p j hp hj
          refine hS _ _ (fun g hg => ?_) _ hlt
          rw [e2.heap q hq, hval, inv.val 0 hS0]
          unfold Holds0 at hb; unfold SourceIs at hr
          rw [hsv] at hb hr
          rw [hb g hg, hr g hg]

/-- The PETSc right-hand side after the ranks below `n` have written. -/
theorem petsc_fold (E : Env K) (hE : NumberingOk E) (s0 s s' : St K) (h0 : Start E s0) (inv : SolveInv E s0 s) (args : Nat → Option Nat) (n : Nat)
    (hn : n ≤ E.SIZE)
    (h : (List.range n).foldlM (petscRank E args) s = .ok s') :
    Ext s s' ∧ ((∀ p < n, ∀ a, args p = some a → a < s.next) →
      ∀ p < n, ∀ i < E.localsize p, s'.prhs (E.loctoglob p i) = s0.heap p i + optVal ((args p).map s.heap) i) := by
  induction n generalizing s' with
  | zero => simp [pure, Except.pure] at h; subst h; exact ⟨Ext.refl _, fun _ p hp => absurd hp (by omega)⟩
  | succ n ih =>
    rw [List.range_succ, List.foldlM_append] at h
    simp only [bind, Except.bind] at h
    cases h1 : (List.range n).foldlM (petscRank E args) s with
    | error e => rw [h1] at h; simp at h
    | ok s1 =>
      rw [h1] at h
      obtain ⟨e1, hp1⟩ := ih s1 (by omega) h1
      have h' : petscRank E args s1 n = .ok s' := by
        rw [← h]
        simp only [List.foldlM_cons, List.foldlM_nil, bind, Except.bind, pure, Except.pure]
        split <;> simp_all
      clear h
      unfold petscRank at h'
      have inv1 := inv.ext e1
      cases he : effRhs s1 n (args n) with
      | error e => rw [he] at h'; simp at h'
      | ok v =>
        obtain ⟨s2, r⟩ := v
        obtain ⟨e2, e2p, e3⟩ := effRhs_ok s1 s2 n (args n) r he (fun q hq => by
          rw [inv1.rhs0] at hq; obtain ⟨rfl, hp⟩ := h0.ref _ _ hq; exact lt_of_lt_of_le hp inv1.next)
        rw [he] at h'
        cases r with
        | none => simp at h'
        | some q =>
          obtain ⟨q0, hq0, hq, hval⟩ := e3 q rfl
          have hq00 : q0 = n := by rw [inv1.rhs0] at hq0; exact (h0.ref _ _ hq0).1
          subst hq00
          simp only [Except.ok.injEq] at h'
          subst h'
          refine ⟨e1.trans ⟨e2.next, e2.heap, e2.rhs0, e2.cell⟩, fun hargs p hp i hi => ?_⟩
          have key : ∀ (m : Nat) (g : Nat) (v : Nat → K), (List.range m).foldl (fun w i => setAt w (E.loctoglob q0 i) (s2.heap q i)) v g =
              if ∃ i < m, E.loctoglob q0 i = g then (List.range m).foldl (fun w i => setAt w (E.loctoglob q0 i) (s2.heap q i)) v g else v g := by
            intro m g v
            split_ifs with hex
            · rfl
            · induction m with
              | zero => rfl
              | succ m ihm =>
                rw [List.range_succ, List.foldl_append]
                simp only [List.foldl_cons, List.foldl_nil]
                rw [setAt_ne _ _ (fun hg => hex ⟨m, by omega, hg.symm⟩)]
                exact ihm (fun ⟨i, hi, h⟩ => hex ⟨i, by omega, h⟩)
          have key2 : ∀ (m : Nat) (v : Nat → K), m ≤ E.localsize q0 → ∀ i < m,
              (List.range m).foldl (fun w i => setAt w (E.loctoglob q0 i) (s2.heap q i)) v (E.loctoglob q0 i) = s2.heap q i := by
            intro m v hm
            induction m with
            | zero => intro i hi; omega
            | succ m ihm =>
              intro i hi
              rw [List.range_succ, List.foldl_append]
              simp only [List.foldl_cons, List.foldl_nil]
              by_cases him : i = m
              · subst him; simp
              · rw [setAt_ne _ _ (fun h => him (nodup_loctoglob E hE q0 q0 i m (by omega) (by omega) (by omega) (by omega) h).2)]
                exact ihm (by omega) i (by omega)
          by_cases hpn : p = q0
          · subst hpn
            simp only
            rw [key2 _ _ (le_refl _) i hi, hval, inv1.val p (by omega)]
            congr 1
            cases ha : args p with
            | none => simp [optVal]
            | some a => simp [optVal, e1.heap a (hargs p (by omega) a ha)]
          · simp only
            rw [key, if_neg, e2p]
            · exact hp1 (fun p hp => hargs p (by omega)) p (by omega) i hi
            · rintro ⟨k, hk, hkg⟩
              exact hpn (nodup_loctoglob E hE q0 p k i (by omega) (by omega) hk hi hkg).1.symm

theorem solvePetsc_ok (E : Env K) (hE : NumberingOk E) (s0 s s' : St K) (h0 : Start E s0) (inv : SolveInv E s0 s) (args : Nat → Option Nat)
    (hsv : E.solver = .petsc) (h : solvePetsc E s args = .ok s') :
    SolveInv E s0 s' ∧ (∀ r < s.next, (∀ p < E.SIZE, r ≠ s.cell p) → s'.heap r = s.heap r) ∧
      (SolverOk E → (∀ p < E.SIZE, ∀ a, args p = some a → a < s.next) → ∀ b r, Holds0 E s0 b → SourceIs E s args r → ∀ p < E.SIZE, ∀ j < E.localsize p,
        s'.cells p j = E.S (fun g => b g + r g) (E.loctoglob p j)) := by
  unfold solvePetsc at h
  split at h
  · simp at h
  · next s1 h1 =>
    obtain ⟨e1, hp1⟩ := petsc_fold E hE s0 s s1 h0 inv args E.SIZE (le_refl _) h1
    simp only [Except.ok.injEq] at h
    have inv1 := inv.ext e1
    have invX : SolveInv E s0 { s1 with x1converted := convertSolution (E.S s1.prhs) s1.x1converted E.tc E.globalsize } :=
      ⟨inv1.rhs0, inv1.val, inv1.next, inv1.cell, inv1.inj⟩
    subst h
    refine ⟨invX.scatterv, fun r hr hrc => ?_, fun hS hargs b r hb hr p hp j hj => ?_⟩
    · obtain ⟨-, -, -, -, -, -, h6, -⟩ := scatterv_frame E E.SIZE { s1 with x1converted := convertSolution (E.S s1.prhs) s1.x1converted E.tc E.globalsize }
      unfold LinSolve.scatterv
      rw [h6 r (by simp only [e1.cell]; exact hrc)]
      exact e1.heap r hr
    · rw [C51_scatter E hE s1 _ inv1.inj p hp j hj]
      obtain ⟨-, -, hlt⟩ := tc_entry E hE p j hp hj
      refine hS _ _ (fun g hg => ?_) _ hlt
      have hg' : g ∈ E.tc := hE.perm.mem_iff.2 (by simpa using hg)
      rw [hE.tc] at hg'
      simp only [List.mem_flatMap, List.mem_range, List.mem_map] at hg'
      obtain ⟨q, hq, i, hi, rfl⟩ := hg'
      rw [hp1 hargs q hq i hi]
      unfold Holds0 at hb; unfold SourceIs at hr
      rw [hsv] at hb hr
      rw [hb q hq i hi, hr q hq i hi]

/-- All solvers. -/
theorem solve_ok (E : Env K) (hE : NumberingOk E) (s0 s s' : St K) (h0 : Start E s0) (inv : SolveInv E s0 s) (args : Nat → Option Nat)
    (h : solve E s args = .ok s') :
    SolveInv E s0 s' ∧ (∀ r < s.next, (∀ p < E.SIZE, r ≠ s.cell p) → s'.heap r = s.heap r) ∧
      (SolverOk E → (∀ p < E.SIZE, ∀ a, args p = some a → a < s.next) → ∀ b r, Holds0 E s0 b → SourceIs E s args r → ∀ p < E.SIZE, ∀ j < E.localsize p,
        s'.cells p j = E.S (fun g => b g + r g) (E.loctoglob p j)) := by
  unfold solve at h
  cases hsv : E.solver <;> rw [hsv] at h
  · obtain ⟨a, b, c⟩ := solveSeq_ok E hE s0 s s' h0 inv args (h0.seq (.inl hsv)) (.inl hsv) h
    exact ⟨a, fun r hr _ => b r hr, fun h _ => c h⟩
  · obtain ⟨a, b, c⟩ := solveSeq_ok E hE s0 s s' h0 inv args (h0.seq (.inr hsv)) (.inr hsv) h
    exact ⟨a, fun r hr _ => b r hr, fun h _ => c h⟩
  · obtain ⟨a, b, c⟩ := solveMumps_ok E hE s0 s s' h0 inv args hsv h
    exact ⟨a, b, fun h _ => c h⟩
  · exact solvePetsc_ok E hE s0 s s' h0 inv args hsv h

theorem mapM_range_ok {α ε : Type*} (f : Nat → Except ε α) (n : Nat) (l : List α) (h : (List.range n).mapM f = .ok l) :
    l.length = n ∧ ∀ p < n, ∃ a, l[p]? = some a ∧ f p = .ok a := by
  induction n generalizing l with
  | zero => simp [pure, Except.pure] at h; subst h; simp
  | succ n ih =>
    rw [List.range_succ, List.mapM_append] at h
    simp only [bind, Except.bind, List.mapM_cons, List.mapM_nil, pure, Except.pure] at h
    cases h1 : (List.range n).mapM f with
    | error e => rw [h1] at h; simp at h
    | ok l1 =>
      rw [h1] at h
      cases h2 : f n with
      | error e => rw [h2] at h; simp at h
      | ok a =>
        rw [h2] at h
        simp at h
        subst h
        obtain ⟨h3, h4⟩ := ih l1 h1
        refine ⟨by simp [h3], fun p hp => ?_⟩
        by_cases hpn : p = n
        · subst hpn; exact ⟨a, by simp [← h3], h2⟩
        · obtain ⟨b, hb, hb'⟩ := h4 p (by omega)
          exact ⟨b, by rw [List.getElem?_append_left (by omega)]; exact hb, hb'⟩

/-- A freshly constructed system. -/
theorem mkSystem_ok (E : Env K) (hpos : 0 < E.SIZE) (bnd : Nat → Nat → K) (ctor : Nat → Option (Nat → K)) (cell0 : Nat → Nat → K) (s0 : St K)
    (h : mkSystem E bnd ctor cell0 = .ok s0) : Start E s0 ∧ SolveInv E s0 s0 ∧
      (∀ b, RhsIs E bnd ctor (decide (E.solver ≠ .umfpack)) b → Holds0 E s0 b) ∧
      (∀ p < E.SIZE, E.solver ≠ .mumps ∨ p = 0 → s0.rhs0 p = some p) ∧ (∀ p, E.solver = .mumps → 0 < p → s0.rhs0 p = none) := by
  unfold mkSystem at h
  simp only [bind, Except.bind] at h
  cases hl : (List.range E.SIZE).mapM (initRhs0 E bnd ctor) with
  | error e => rw [hl] at h; simp at h
  | ok l =>
    rw [hl] at h
    simp only [pure, Except.pure, Except.ok.injEq] at h
    obtain ⟨hlen, hl'⟩ := mapM_range_ok _ _ _ hl
    have hget : ∀ p < E.SIZE, initRhs0 E bnd ctor p = .ok (l.getD p none) := by
      intro p hp
      obtain ⟨a, ha, ha'⟩ := hl' p hp
      rw [ha', List.getD_eq_getElem?_getD, ha]; rfl
    have hrhs0 : s0.rhs0 = fun p => (l.getD p none).map (fun _ => p) := by rw [← h]
    have hheap : ∀ p < E.SIZE, s0.heap p = (l.getD p none).getD (fun _ => 0) := by intro p hp; rw [← h]; simp [hp]
    have hsome : ∀ p < E.SIZE, E.solver ≠ .mumps ∨ p = 0 → ∃ a, l.getD p none = some a := by
      intro p hp hc
      have := hget p hp
      unfold initRhs0 at this
      cases hsv : E.solver <;> simp only [hsv] at this
      · split_ifs at this <;> simp only [Except.ok.injEq] at this; exact ⟨_, this.symm⟩
      · split_ifs at this <;> simp only [Except.ok.injEq] at this; exact ⟨_, this.symm⟩
      · rcases hc with hc | hc
        · exact absurd hsv hc
        · rw [if_pos hc] at this; simp only [Except.ok.injEq] at this; exact ⟨_, this.symm⟩
      · simp only [Except.ok.injEq] at this; exact ⟨_, this.symm⟩
    refine ⟨⟨?_, ?_⟩, ⟨rfl, fun _ _ => rfl, ?_, ?_, ?_⟩, ?_, ?_, ?_⟩
    · intro p q hq
      rw [hrhs0] at hq
      simp only [Option.map_eq_some_iff] at hq
      obtain ⟨a, ha, rfl⟩ := hq
      refine ⟨rfl, ?_⟩
      by_contra hp
      rw [List.getD_eq_getElem?_getD, List.getElem?_eq_none (by omega)] at ha
      simp at ha
    · intro hsv
      have := hget 0 hpos
      unfold initRhs0 at this
      rcases hsv with hsv | hsv <;> simp only [hsv] at this <;> split_ifs at this with hS <;> first | exact hS | simp at this
    · rw [← h]; simp; omega
    · intro p hp; rw [← h]; simp; omega
    · intro p hp q hq; rw [← h]; simp
    · intro b hb
      unfold Holds0
      unfold RhsIs at hb
      have h0 := hget 0 hpos
      have hh0 := hheap 0 hpos
      cases hsv : E.solver <;> simp only [hsv] at hb ⊢
      · intro g hg
        rw [hb g hg, hh0]
        unfold initRhs0 at h0
        simp only [hsv] at h0
        split_ifs at h0 <;> simp only [Except.ok.injEq] at h0
        rw [← h0]
        cases ctor 0 <;> simp [optVal]
      · intro g hg
        rw [hb g hg, hh0]
        unfold initRhs0 at h0
        simp only [hsv] at h0
        split_ifs at h0 <;> simp only [Except.ok.injEq] at h0
        rw [← h0]
        simp
      · intro g hg
        rw [hb g hg, hh0]
        unfold initRhs0 at h0
        simp only [hsv, if_true, Except.ok.injEq] at h0
        rw [← h0]
        have hsum : ∀ (l : List Nat) (a : K), l.foldl (fun a q => a + bnd q g) a = a + (l.map (fun q => bnd q g)).sum := by
          intro l; induction l with
          | nil => simp
          | cons c l ih => intro a; simp [ih, add_assoc]
        cases ctor 0 <;> simp [optVal, hsum]
      · intro p hp i hi
        rw [hb p hp i hi, hheap p hp]
        have h1 := hget p hp
        unfold initRhs0 at h1
        simp only [hsv, Except.ok.injEq] at h1
        rw [← h1]
        cases ctor p <;> simp [optVal]
    · intro p hp hc
      obtain ⟨a, ha⟩ := hsome p hp hc
      rw [hrhs0]; simp only [ha, Option.map_some]
    · intro p hsv hp
      rw [hrhs0]
      simp only [Option.map_eq_none_iff]
      by_cases hp' : p < E.SIZE
      · have := hget p hp'
        unfold initRhs0 at this
        simp only [hsv, if_neg (by omega : ¬ p = 0)] at this
        split at this <;> simp at this
        exact this.symm
      · rw [List.getD_eq_getElem?_getD, List.getElem?_eq_none (by omega)]; rfl

theorem run_inv (E : Env K) (hE : NumberingOk E) (s0 s s' : St K) (h0 : Start E s0) (inv : SolveInv E s0 s) (ops : List (LinSolve.Op K))
    (hleg : ∀ o ∈ ops, o.Legal E) (h : run E s ops = .ok s') : SolveInv E s0 s' := by
  induction ops generalizing s with
  | nil => simp [run, pure, Except.pure] at h; subst h; exact inv
  | cons o ops ih =>
    simp only [run, List.foldlM_cons, bind, Except.bind] at h
    cases h1 : step E s o with
    | error e => rw [h1] at h; simp at h
    | ok s1 =>
      rw [h1] at h
      refine ih s1 ?_ (fun o ho => hleg o (by simp [ho])) h
      have hl := hleg o (by simp)
      cases o with
      | alloc a => simp [step] at h1; subst h1; exact inv.ext (ext_alloc s a)
      | poke r i x => simp [step] at h1; subst h1; exact inv.store r hl _
      | pokeCell p i x => simp [step] at h1; subst h1; exact inv.store _ (inv.cell p hl).1 _
      | solve args => exact (solve_ok E hE s0 s s1 h0 inv args h1).1

/-- **C52, C51**: after any history of solves, allocations, writes into the program's own arrays and into the solution variable, a
solve with source `r` gives on every rank the cell values `S (b + r)` at the global numbers of its cells, `b` being the
right-hand side at construction: earlier solves leave no trace. -/
theorem C52_history (E : Env K) (hpos : 0 < E.SIZE) (hE : NumberingOk E) (hS : SolverOk E) (bnd : Nat → Nat → K) (ctor : Nat → Option (Nat → K))
    (cell0 : Nat → Nat → K) (s0 s s' : St K) (hmk : mkSystem E bnd ctor cell0 = .ok s0) (b : Nat → K)
    (hb : RhsIs E bnd ctor (decide (E.solver ≠ .umfpack)) b)
    (ops : List (LinSolve.Op K)) (hleg : ∀ o ∈ ops, o.Legal E) (hrun : run E s0 ops = .ok s)
    (args : Nat → Option Nat) (hargs : ∀ p < E.SIZE, ∀ a, args p = some a → a < s.next) (r : Nat → K) (hr : SourceIs E s args r)
    (hsolve : solve E s args = .ok s') (p : Nat) (hp : p < E.SIZE) (j : Nat) (hj : j < E.localsize p) :
    s'.cells p j = E.S (fun g => b g + r g) (E.loctoglob p j) := by
  obtain ⟨h0, inv, hold, -⟩ := mkSystem_ok E hpos bnd ctor cell0 s0 hmk
  have inv' := run_inv E hE s0 s0 s h0 inv ops hleg hrun
  exact (solve_ok E hE s0 s s' h0 inv' args hsolve).2.2 hS hargs b r (hold b hb) hr p hp j hj

/-- **C52** (inputs): a solve changes no existing array of the program except the solution variable's own cell arrays. -/
theorem C52_inputs_unchanged (E : Env K) (hpos : 0 < E.SIZE) (hE : NumberingOk E) (bnd : Nat → Nat → K) (ctor : Nat → Option (Nat → K))
    (cell0 : Nat → Nat → K) (s0 s s' : St K) (hmk : mkSystem E bnd ctor cell0 = .ok s0)
    (ops : List (LinSolve.Op K)) (hleg : ∀ o ∈ ops, o.Legal E) (hrun : run E s0 ops = .ok s)
    (args : Nat → Option Nat) (hsolve : solve E s args = .ok s') (r : Nat) (hr : r < s.next) (hc : ∀ p < E.SIZE, r ≠ s.cell p) :
    s'.heap r = s.heap r := by
  obtain ⟨h0, inv, hold, -⟩ := mkSystem_ok E hpos bnd ctor cell0 s0 hmk
  exact (solve_ok E hE s0 s s' h0 (run_inv E hE s0 s0 s h0 inv ops hleg hrun) args hsolve).2.1 r hr hc

/-- **C52** (progress): a solve never raises, except that a right-hand side must not be passed on a rank other than 0 with MUMPS. -/
theorem C52_progress (E : Env K) (hpos : 0 < E.SIZE) (hE : NumberingOk E) (bnd : Nat → Nat → K) (ctor : Nat → Option (Nat → K))
    (cell0 : Nat → Nat → K) (s0 s : St K) (hmk : mkSystem E bnd ctor cell0 = .ok s0)
    (ops : List (LinSolve.Op K)) (hleg : ∀ o ∈ ops, o.Legal E) (hrun : run E s0 ops = .ok s) (args : Nat → Option Nat)
    (hargs : E.solver = .mumps → ∀ p, 0 < p → args p = none) : ∃ s', solve E s args = .ok s' := by
  obtain ⟨h0, inv, -, hsome, hnone⟩ := mkSystem_ok E hpos bnd ctor cell0 s0 hmk
  have inv' := run_inv E hE s0 s0 s h0 inv ops hleg hrun
  have seq : E.solver ≠ .mumps → ∃ s', solveSeq E s args = .ok s' := by
    intro hm
    obtain ⟨s1, q, h1⟩ := effRhs_exists s 0 0 (args 0) (by rw [inv'.rhs0]; exact hsome 0 hpos (.inl hm))
    unfold solveSeq
    simp only [h1, bind, Except.bind]; exact ⟨_, rfl⟩
  unfold solve
  cases hsv : E.solver
  · exact seq (by rw [hsv]; decide)
  · exact seq (by rw [hsv]; decide)
  · obtain ⟨s1, q, h1⟩ := effRhs_exists s 0 0 (args 0) (by rw [inv'.rhs0]; exact hsome 0 hpos (.inr rfl))
    have : ∀ n, ∃ s2, (List.range n).foldlM (fun s p => (effRhs s (p + 1) (args (p + 1))).map Prod.fst) s1 = .ok s2 := by
      intro n
      induction n with
      | zero => exact ⟨s1, rfl⟩
      | succ n ih =>
        obtain ⟨s2, h2⟩ := ih
        refine ⟨s2, ?_⟩
        rw [List.range_succ, List.foldlM_append, h2]
        simp [bind, Except.bind, effRhs, hargs hsv (n + 1) (by omega), Except.map, pure, Except.pure]
    obtain ⟨s2, h2⟩ := this (E.SIZE - 1)
    simp only [solveMumps, h1, h2, bind, Except.bind]
    exact ⟨_, rfl⟩
  · have : ∀ n ≤ E.SIZE, ∃ s2, (List.range n).foldlM (petscRank E args) s = .ok s2 ∧ s2.rhs0 = s.rhs0 := by
      intro n
      induction n with
      | zero => exact fun _ => ⟨s, rfl, rfl⟩
      | succ n ih =>
        intro hn
        obtain ⟨s2, h2, hr2⟩ := ih (by omega)
        have hs2 : s2.rhs0 n = some n := by rw [hr2, inv'.rhs0]; exact hsome n (by omega) (.inl (by rw [hsv]; decide))
        obtain ⟨s3, q, h3⟩ := effRhs_exists s2 n n (args n) hs2
        rw [List.range_succ, List.foldlM_append, h2]
        simp only [bind, Except.bind, List.foldlM_cons, List.foldlM_nil, petscRank, h3, pure, Except.pure]
        refine ⟨_, rfl, ?_⟩
        simp only
        rw [← hr2]
        unfold effRhs at h3
        cases ha : args n with
        | none => rw [ha] at h3; simp at h3; rw [h3.1]
        | some a => rw [ha, hs2] at h3; simp only [Except.ok.injEq, Prod.mk.injEq] at h3; rw [← h3.1]; rfl
    obtain ⟨s2, h2, -⟩ := this E.SIZE (le_refl _)
    simp only [solvePetsc, h2]
    exact ⟨_, rfl⟩

/-- **C73** (partial: not UMFPACK, and with MUMPS only rank 0 may pass `rhs`): the right-hand side given to the constructor is part of
the system solved by every `solve()`, after any history. -/
theorem C73_constructor_rhs_partial (E : Env K) (hpos : 0 < E.SIZE) (hE : NumberingOk E) (hS : SolverOk E) (hu : E.solver ≠ .umfpack)
    (bnd : Nat → Nat → K) (ctor : Nat → Option (Nat → K)) (cell0 : Nat → Nat → K) (s0 s s' : St K)
    (hmk : mkSystem E bnd ctor cell0 = .ok s0) (b : Nat → K) (hb : RhsIs E bnd ctor true b)
    (ops : List (LinSolve.Op K)) (hleg : ∀ o ∈ ops, o.Legal E) (hrun : run E s0 ops = .ok s)
    (hsolve : solve E s (fun _ => none) = .ok s') (p : Nat) (hp : p < E.SIZE) (j : Nat) (hj : j < E.localsize p) :
    s'.cells p j = E.S b (E.loctoglob p j) := by
  have := C52_history E hpos hE hS bnd ctor cell0 s0 s s' hmk b (by simpa [hu] using hb) ops hleg hrun (fun _ => none) (by simp)
    (fun _ => 0) (by unfold SourceIs; cases E.solver <;> simp [optVal]) hsolve p hp j hj
  simpa using this

/-- **C73** is false with MUMPS on several ranks: passing `rhs` on a rank other than 0 makes the constructor fail. -/
theorem C73_mumps_other_ranks (E : Env K) (hsv : E.solver = .mumps) (bnd : Nat → Nat → K) (ctor : Nat → Option (Nat → K))
    (cell0 : Nat → Nat → K) (p : Nat) (hp : p < E.SIZE) (h0 : 0 < p) (hc : (ctor p).isSome) (s0 : St K) :
    mkSystem E bnd ctor cell0 ≠ .ok s0 := by
  intro h
  unfold mkSystem at h
  simp only [bind, Except.bind] at h
  cases hl : (List.range E.SIZE).mapM (initRhs0 E bnd ctor) with
  | error e => rw [hl] at h; simp at h
  | ok l =>
    obtain ⟨a, -, ha⟩ := (mapM_range_ok _ _ _ hl).2 p hp
    obtain ⟨r, hr⟩ := Option.isSome_iff_exists.1 hc
    have hne : p ≠ 0 := by omega
    simp [initRhs0, hsv, hr, hne] at ha

end solve

/-! ## The numbering tables come from the partition -/
open Verif.MeshFile in
/-- The tables `LinearSystem` takes from the mesh data of the ranks: `localsize = nbcells`, `cells.loctoglob`, `cells.tc` of rank 0. -/
def envOf {K : Type*} (SIZE : Nat) (data : Nat → RankData K) (solver : Solver) (S : (Nat → K) → Nat → K) : Env K where
  solver := solver
  SIZE := SIZE
  localsize := fun p => (data p).nodeid.length
  loctoglob := fun p j => (data p).loctoglob.getD j 0
  tc := (data 0).tc
  S := S

open Verif.MeshFile Verif.Part in
/-- **C51** (tables): the tables read by the ranks from the files written by the partitioner (more than one process) satisfy
`NumberingOk`, so that `C52_history` applies to every partition. -/
theorem C51_numbering_parallel {K : Type*} [Field K] (nodeid : Nat → Nat → Nat) (node : Nat → K × K × K × Nat) (cv : Nat → List K)
    (npart0 epart : Nat → Nat) (nbnodes n d1 SIZE : Nat) (hS : 1 < SIZE) (he : ∀ i < n, epart i < SIZE)
    (file : Nat → List (Line K)) (master : List (Line K))
    (hfile : let P := partition nodeid npart0 epart nbnodes n d1
      let h := halos P.cpart P.haloCell SIZE
      (∀ p < SIZE, file p = writeRank p (rankWrite nodeid node cv P h nbnodes SIZE d1 p)) ∧
      master = writeMaster ((List.range nbnodes).map P.npart))
    (data : Nat → RankData K) (hdata : ∀ p < SIZE, readMeshFile SIZE p (file p) master = some (data p))
    (solver : Solver) (S : (Nat → K) → Nat → K) :
    NumberingOk (envOf SIZE data solver S) ∧ (envOf SIZE data solver S).globalsize = n := by
  have hS1 : ¬ SIZE = 1 := by omega
  obtain ⟨P, hP⟩ : ∃ P, P = partition nodeid npart0 epart nbnodes n d1 := ⟨_, rfl⟩
  obtain ⟨h, hh⟩ : ∃ h, h = halos P.cpart P.haloCell SIZE := ⟨_, rfl⟩
  simp only [← hP, ← hh] at hfile
  have hdat : ∀ q < SIZE, data q = expected SIZE q (rankWrite nodeid node cv P h nbnodes SIZE d1 q) := by
    intro q hq
    have h1 := hdata q hq
    rw [hfile.1 q hq, hfile.2, show (List.range nbnodes).map P.npart = (rankWrite nodeid node cv P h nbnodes SIZE d1 q).nparts from rfl,
      C25_round_trip_parallel SIZE q hS] at h1
    exact (Option.some.inj h1).symm
  have hloc : ∀ q < SIZE, (data q).loctoglob = P.cellPart q := by
    intro q hq; rw [hdat q hq]; simp [expected, rankWrite, hS1]
  have hlen : ∀ q < SIZE, (data q).nodeid.length = (P.cellPart q).length := by
    intro q hq; rw [hdat q hq]; simp [expected, rankWrite]
  have htc : (data 0).tc = tcList P.cellPart SIZE := by
    rw [hdat 0 (by omega)]; simp [expected, rankWrite, hS1]
  have hperm : (data 0).tc.Perm (List.range n) := by
    rw [htc, hP]; exact (C20_partition nodeid npart0 epart nbnodes n d1 SIZE he).2
  have hflat : (data 0).tc = (List.range SIZE).flatMap (fun p => (List.range (data p).nodeid.length).map (fun j => (data p).loctoglob.getD j 0)) := by
    rw [htc, tcList_eq]
    apply List.flatMap_congr
    intro q hq
    have hq' : q < SIZE := by simpa using hq
    rw [hlen q hq', hloc q hq']
    apply List.ext_getElem (by simp)
    intro i h1 h2
    simp [List.getD_eq_getElem?_getD, h1]
  have hg : (envOf SIZE data solver S).globalsize = n := by
    rw [globalsize_sum]
    have := hperm.length_eq
    rw [hflat] at this
    simp only [List.length_flatMap, List.length_map, List.length_range] at this
    exact this
  exact ⟨⟨hflat, by rw [hg]; exact hperm, fun h1 => absurd h1 hS1⟩, hg⟩

open Verif.MeshFile in
/-- **C51** (tables, one process): the cells are numbered as in the file. -/
theorem C51_numbering_serial {K : Type*} [Field K] (d : WriteData K) (master : List (Line K)) (data : RankData K)
    (hdata : readMeshFile 1 0 (writeSerial d) master = some data) (solver : Solver) (S : (Nat → K) → Nat → K) :
    NumberingOk { solver, SIZE := 1, localsize := fun _ => data.nodeid.length, loctoglob := fun _ j => j, tc := data.tc, S } := by
  rw [C25_round_trip_serial] at hdata
  obtain rfl := Option.some.inj hdata
  refine ⟨?_, ?_, fun _ _ => rfl⟩
  · simp [expected]
  · rw [globalsize_sum]; simp [expected]

/-! ## The solution satisfies the discrete balance -/
section balance
variable {K : Type*} [Field K] [LinearOrder K] [IsStrictOrderedRing K]
open Verif.LinSys Verif.Interp

/-- **C51, C48, C52** end to end (2D, any number of ranks, any solver, any history): if the solver solves the system whose matrix is
the sum of the triplets of all ranks, then after `solve(rhs=r)` the cell values on all ranks satisfy the diamond-scheme balance with
right-hand side `r`. -/
theorem C51_solution_balance_2d (E : Env K) (hpos : 0 < E.SIZE) (hE : NumberingOk E) (hS : SolverOk E)
    (M : Nat → LinSys.Mesh K) (L : Nat → LinSys.Lists) (BCdirichlet : List Int) (Pbordnode Pbordface : Nat → Nat → K)
    (hM : ∀ p < E.SIZE, (M p).loctoglob = E.loctoglob p) (hok : ∀ p < E.SIZE, Ok 2 (M p) (L p) (E.localsize p))
    (hsol : ∀ b, ∀ g < E.globalsize, ((List.range E.SIZE).map (fun q => applyT (getTriplet2 (M q) BCdirichlet (L q)) (E.S b) g)).sum = b g)
    (cell0 : Nat → Nat → K) (s0 s s' : St K)
    (hmk : mkSystem E (fun p => match E.solver with
        | .petsc => getRhsLoc2 (M p) BCdirichlet (L p) (Pbordnode p) (Pbordface p) (fun _ => 0)
        | _ => getRhsGlob2 (M p) BCdirichlet (L p) (Pbordnode p) (Pbordface p) (fun _ => 0)) (fun _ => none) cell0 = .ok s0)
    (ops : List (LinSolve.Op K)) (hleg : ∀ o ∈ ops, o.Legal E) (hrun : run E s0 ops = .ok s)
    (args : Nat → Option Nat) (hargs : ∀ p < E.SIZE, ∀ a, args p = some a → a < s.next) (r : Nat → K) (hr : SourceIs E s args r)
    (hsolve : solve E s args = .ok s') :
    ∃ P : Nat → K, (∀ p < E.SIZE, ∀ j < E.localsize p, s'.cells p j = P (E.loctoglob p j)) ∧
      ∀ (w : Nat → Fields K), (∀ p < E.SIZE, FieldsOf (M p) P (w p)) → ∀ p < E.SIZE, ∀ j < E.localsize p,
        balance2 (M p) (w p) BCdirichlet (L p) (Pbordnode p) (Pbordface p) j = r (E.loctoglob p j) := by
  obtain ⟨b, hbdef⟩ : ∃ b : Nat → K, b = fun g => ((List.range E.SIZE).map (fun q =>
    getRhsGlob2 (M q) BCdirichlet (L q) (Pbordnode q) (Pbordface q) (fun _ => 0) g)).sum := ⟨_, rfl⟩
  have hdisj : ∀ p ∈ List.range E.SIZE, ∀ q ∈ List.range E.SIZE, p ≠ q → ∀ a < E.localsize p, ∀ c < E.localsize q,
      (M p).loctoglob a ≠ (M q).loctoglob c := by
    intro p hp q hq hpq a ha c hc h
    have hp := List.mem_range.1 hp
    have hq := List.mem_range.1 hq
    rw [hM p hp, hM q hq] at h
    exact hpq (nodup_loctoglob E hE p q a c hp hq ha hc h).1
  have hb : RhsIs E (fun p => match E.solver with
        | .petsc => getRhsLoc2 (M p) BCdirichlet (L p) (Pbordnode p) (Pbordface p) (fun _ => 0)
        | _ => getRhsGlob2 (M p) BCdirichlet (L p) (Pbordnode p) (Pbordface p) (fun _ => 0)) (fun _ => none) (decide (E.solver ≠ .umfpack)) b := by
    have hseq := (mkSystem_ok E hpos _ _ _ s0 hmk).1.seq
    unfold RhsIs
    cases hsv : E.solver <;> simp only [optVal, ite_self, add_zero]
    · intro g hg; rw [hbdef, hseq (.inl hsv)]; simp
    · intro g hg; rw [hbdef, hseq (.inr hsv)]; simp
    · intro g hg; rw [hbdef]
    · intro p hp i hi
      rw [hbdef]
      simp only
      rw [List.sum_map_eq_nsmul_single p _ (fun q hq hqm => ?_), List.count_eq_one_of_mem List.nodup_range (List.mem_range.2 hp), one_smul]
      · rw [← hM p hp]
        have := C50_local_global_2d (M p) BCdirichlet (L p) (Pbordnode p) (Pbordface p) (fun _ => 0) (fun _ => 0) (E.localsize p)
          (hok p hp).inj (hok p hp).cell0 (hok p hp).cell1 i hi
        simpa using this
      · rw [← hM p hp]
        exact rhsGlob2_no_row _ _ _ _ _ (E.localsize q) _ (hok q (List.mem_range.1 hqm)).cell0 (hok q (List.mem_range.1 hqm)).cell1
          (fun c hc => hdisj q hqm p (List.mem_range.2 hp) hq c hc i hi)
  refine ⟨E.S (fun g => b g + r g), fun p hp j hj => ?_, fun w hw p hp j hj => ?_⟩
  · exact C52_history E hpos hE hS _ _ cell0 s0 s s' hmk b hb ops hleg hrun args hargs r hr hsolve p hp j hj
  · have := C48_global_2d (List.range E.SIZE) List.nodup_range M L E.localsize BCdirichlet Pbordnode Pbordface (E.S (fun g => b g + r g)) w
      (fun p hp => hok p (List.mem_range.1 hp)) (fun p hp => hw p (List.mem_range.1 hp)) hdisj p (List.mem_range.2 hp) j hj
    rw [← this, hM p hp, hsol _ _ (tc_entry E hE p j hp hj).2.2, hbdef]
    ring

end balance

/-! ## Examples -/

/-- Two ranks, three cells: rank 0 owns the global cells 2 and 0, rank 1 owns cell 1; the "solver" divides by 2. -/
def exEnv (sv : Solver) : Env ℚ :=
  { solver := sv, SIZE := 2, localsize := fun p => if p = 0 then 2 else 1
    loctoglob := fun p j => if p = 0 then (if j = 0 then 2 else 0) else 1, tc := [2, 0, 1], S := fun b g => b g / 2 }

/-- Non-vacuity of C51-C52: tables, solver, and a history of two solves with a write into the solution in between. -/
example (sv : Solver) : NumberingOk (exEnv sv) ∧ SolverOk (exEnv sv) :=
  ⟨⟨by cases sv <;> decide, by
      have : (exEnv sv).globalsize = 3 := by cases sv <;> decide
      rw [this]; show [2, 0, 1].Perm [0, 1, 2]; decide, fun h => by simp [exEnv] at h⟩,
    fun b b' h g hg => by show b g / 2 = b' g / 2; rw [h g hg]⟩
example : ((mkSystem (exEnv .mumps) (fun p g => p + g) (fun _ => none) (fun _ _ => 0)).bind (fun s =>
    run (exEnv .mumps) s [.alloc (fun g => 10 * g), .solve (fun _ => none), .pokeCell 1 0 77, .poke 4 0 1,
      .solve (fun p => if p = 0 then some 4 else none)])).map (fun s => (s.cells 0 0, s.cells 0 1, s.cells 1 0))
    = .ok (25/2, 1, 13/2) := by decide +kernel
example : ((mkSystem (exEnv .petsc) (fun p i => p + i) (fun _ => none) (fun _ _ => 0)).bind (fun s =>
    run (exEnv .petsc) s [.alloc (fun i => 10 * i), .solve (fun _ => none), .pokeCell 1 0 77,
      .solve (fun p => if p = 0 then some 4 else none)])).map (fun s => (s.cells 0 0, s.cells 0 1, s.cells 1 0))
    = .ok (0, 11/2, 1/2) := by decide +kernel

/-- **C73** is false with UMFPACK: the constructor's right-hand side is ignored (`spsolve` gives 6, UMFPACK 1, for the system
2 x = 2 + 10). -/
theorem C73_umfpack_counterexample :
    let E := fun sv => ({ solver := sv, SIZE := 1, localsize := fun _ => 1, loctoglob := fun _ j => j, tc := [0], S := fun b g => b g / 2 } : Env ℚ)
    let go := fun sv => ((mkSystem (E sv) (fun _ _ => 2) (fun _ => some (fun _ => 10)) (fun _ _ => 0)).bind (fun s =>
      solve (E sv) s (fun _ => none))).map (fun s => s.cells 0 0)
    go .spsolve = .ok 6 ∧ go .umfpack = .ok 1 := by decide +kernel

end Verif.Props
