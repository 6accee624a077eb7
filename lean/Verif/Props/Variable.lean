import Verif.Spec.Variable
import Mathlib.Data.List.Perm.Basic
import Mathlib.Algebra.Order.BigOperators.Group.Finset
import Mathlib.Algebra.Order.AbsoluteValue.Basic

/-!
# C30-C37: boundary conditions, ghost values and arithmetic of `Variable`
-/
set_option linter.unusedSectionVars false
namespace Verif.Var
open Verif

/-! ## The ghost kernels -/
section kernels
variable {K : Type*}

theorem foldl_setAt_val (f : Nat → K) (l : List Nat) (g : Nat → K) (i : Nat) :
    l.foldl (fun g i => setAt g i (f i)) g i = if i ∈ l then f i else g i := by
  induction l generalizing g with
  | nil => simp
  | cons a l ih =>
    rw [List.foldl_cons, ih]
    by_cases h : i ∈ l
    · simp [h]
    · by_cases h2 : i = a
      · subst h2; simp [h]
      · simp [h, h2, setAt]

/-- **C30** (Neumann kernel): exactly the listed faces receive the value of the adjacent cell. -/
theorem C30_neumann (w_c : Nat → K) (cellid0 : Nat → Nat) (faces : List Nat) (g : Nat → K) (i : Nat) :
    ghostNeumann w_c cellid0 faces g i = if i ∈ faces then w_c (cellid0 i) else g i :=
  foldl_setAt_val (fun i => w_c (cellid0 i)) faces g i

/-- **C30** (non-slip kernel). -/
theorem C30_nonslip [Ring K] (w_c : Nat → K) (cellid0 : Nat → Nat) (faces : List Nat) (g : Nat → K) (i : Nat) :
    ghostNonslip w_c cellid0 faces g i = if i ∈ faces then - w_c (cellid0 i) else g i := by
  have := foldl_setAt_val (fun i => -1 * w_c (cellid0 i)) faces g i
  simpa [ghostNonslip] using this

/-- **C30** (Dirichlet kernel). -/
theorem C30_dirichlet (value : Nat → K) (faces : List Nat) (g : Nat → K) (i : Nat) :
    ghostDirichlet value faces g i = if i ∈ faces then value i else g i :=
  foldl_setAt_val value faces g i

end kernels

/-! ## The whole ghost update -/
section update
variable {K : Type*} [Ring K]

/-- One location of `update_ghost_value`. -/
theorem updateGhost_cons (d : Dom) (loc : Loc) (locs : List Loc) (s : VState K) :
    updateGhost d (loc :: locs) s = (updateGhost d [loc] s).bind (updateGhost d locs) := by
  simp only [updateGhost, List.foldlM_cons, List.foldlM_nil]
  cases h : s.bcs loc with
  | none => rfl
  | some b => cases hb : b.bctype <;> simp [hb] <;> rfl

/-- What one location does to the ghosts, and that nothing else changes. -/
theorem updateGhost_one (d : Dom) (loc : Loc) (s : VState K) (b : Boundary) (hb : s.bcs loc = some b) :
    ∃ s', updateGhost d [loc] s = .ok s' ∧ s'.heap = s.heap ∧ s'.bcs = s.bcs ∧ s'.cell = s.cell ∧
      ∀ i, s'.ghost i = if i ∈ d.faces loc then
        ghostSpec b.bctype (s.heap.val b.valueface) (s.heap.val b.valueface) d.cellid0 i else s.ghost i := by
  simp only [updateGhost, List.foldlM_cons, List.foldlM_nil, hb]
  cases hb : b.bctype <;> simp only [] <;> refine ⟨_, rfl, rfl, rfl, rfl, fun i => ?_⟩ <;>
    simp [ghostSpec, C30_neumann, C30_nonslip, C30_dirichlet]

/-- **C30** (whole update): when every location has a boundary object, `update_ghost_value` succeeds; on a face of a location
of the list it stores the value its boundary condition prescribes, every other ghost entry keeps its value, and neither the cell,
node, halo nor the prescribed values change. -/
theorem C30_update (d : Dom) (hd : DisjointLocs d) (locs : List Loc) (s : VState K)
    (hb : ∀ loc ∈ locs, (s.bcs loc).isSome) :
    ∃ s', updateGhost d locs s = .ok s' ∧ s'.heap = s.heap ∧ s'.bcs = s.bcs ∧ s'.cell = s.cell ∧
      (∀ loc ∈ locs, ∀ b, s.bcs loc = some b → ∀ i ∈ d.faces loc,
        s'.ghost i = ghostSpec b.bctype (s.heap.val b.valueface) (s.heap.val b.valueface) d.cellid0 i) ∧
      (∀ i, (∀ loc ∈ locs, i ∉ d.faces loc) → s'.ghost i = s.ghost i) := by
  induction locs generalizing s with
  | nil => exact ⟨s, rfl, rfl, rfl, rfl, by simp, by simp⟩
  | cons loc locs ih =>
    obtain ⟨b, hbl⟩ := Option.isSome_iff_exists.1 (hb loc (by simp))
    obtain ⟨s1, h1, hh, hbc, hc, hg⟩ := updateGhost_one d loc s b hbl
    obtain ⟨s2, h2, hh2, hbc2, hc2, hg2, hr2⟩ := ih s1 (fun l hl => by rw [hbc]; exact hb l (by simp [hl]))
    refine ⟨s2, ?_, hh2.trans hh, hbc2.trans hbc, hc2.trans hc, ?_, ?_⟩
    · rw [updateGhost_cons, h1]; exact h2
    · intro l hl b' hb' i hi
      by_cases hin : l ∈ locs
      · rw [hg2 l hin b' (by rw [hbc]; exact hb') i hi, hh]
      · have hl : l = loc := by rcases List.mem_cons.1 hl with h | h
                                · exact h
                                · exact absurd h hin
        subst hl
        rw [hr2 i (fun l' hl' hi' => hd.faces l l' (fun e => hin (e ▸ hl')) i hi hi'), hg i, if_pos hi]
        rw [hbl] at hb'; cases hb'; rfl
    · intro i hi
      rw [hr2 i (fun l hl => hi l (by simp [hl])), hg i, if_neg (hi loc (by simp))]

/-- **C30** (idempotent): a second update changes no ghost value. -/
theorem C30_idempotent (d : Dom) (hd : DisjointLocs d) (locs : List Loc) (s s1 : VState K)
    (hb : ∀ loc ∈ locs, (s.bcs loc).isSome) (h1 : updateGhost d locs s = .ok s1) :
    ∃ s2, updateGhost d locs s1 = .ok s2 ∧ s2.ghost = s1.ghost := by
  obtain ⟨s', h, hh, hbc, -, hg, hr⟩ := C30_update d hd locs s hb
  rw [h1] at h; cases h
  obtain ⟨s2, h2, -, -, -, hg2, hr2⟩ := C30_update d hd locs s1 (fun l hl => by rw [hbc]; exact hb l hl)
  refine ⟨s2, h2, funext fun i => ?_⟩
  by_cases hi : ∃ loc ∈ locs, i ∈ d.faces loc
  · obtain ⟨loc, hl, hi⟩ := hi
    obtain ⟨b, hbl⟩ := Option.isSome_iff_exists.1 (hb loc hl)
    rw [hg2 loc hl b (by rw [hbc]; exact hbl) i hi, hg loc hl b hbl i hi, hh]
  · exact hr2 i (fun l hl hi' => hi ⟨l, hl, hi'⟩)

/-- **C30** (order): any two orders of the locations give the same ghost values. -/
theorem C30_order (d : Dom) (hd : DisjointLocs d) (l1 l2 : List Loc) (hp : l1.Perm l2) (s s1 s2 : VState K)
    (h1 : updateGhost d l1 s = .ok s1) (h2 : updateGhost d l2 s = .ok s2) (hb : ∀ loc ∈ l1, (s.bcs loc).isSome) :
    s1.ghost = s2.ghost := by
  obtain ⟨s', h, -, -, -, hg, hr⟩ := C30_update d hd l1 s hb
  rw [h1] at h; cases h
  obtain ⟨s', h, -, -, -, hg2, hr2⟩ := C30_update d hd l2 s (fun l hl => hb l (hp.mem_iff.2 hl))
  rw [h2] at h; cases h
  funext i
  by_cases hi : ∃ loc ∈ l1, i ∈ d.faces loc
  · obtain ⟨loc, hl, hi⟩ := hi
    obtain ⟨b, hbl⟩ := Option.isSome_iff_exists.1 (hb loc hl)
    rw [hg2 loc (hp.mem_iff.1 hl) b hbl i hi, hg loc hl b hbl i hi]
  · rw [hr i (fun l hl hi' => hi ⟨l, hl, hi'⟩), hr2 i (fun l hl hi' => hi ⟨l, hp.mem_iff.2 hl, hi'⟩)]

end update

/-! ## Construction -/
section construction
variable {K : Type*}

/-- Invariant rule for a monadic loop that succeeded. -/
theorem foldlM_inv {σ α ε : Type*} (f : σ → α → Except ε σ) (P : List α → σ → Prop) (l : List α) (s0 s : σ)
    (h0 : P [] s0) (hstep : ∀ pre a s s', (pre ++ [a]) <+: l → P pre s → f s a = .ok s' → P (pre ++ [a]) s')
    (h : l.foldlM f s0 = .ok s) : P l s := by
  suffices H : ∀ (post pre : List α) (s1 : σ), pre ++ post = l → P pre s1 → post.foldlM f s1 = .ok s → P l s from
    H l [] s0 rfl h0 h
  intro post
  induction post with
  | nil => intro pre s1 hp hP h; simp at hp; cases h; exact hp ▸ hP
  | cons a post ih =>
    intro pre s1 hp hP h
    rw [List.foldlM_cons] at h
    cases hf : f s1 a with
    | error e => rw [hf] at h; cases h
    | ok s2 =>
      rw [hf] at h
      exact ih (pre ++ [a]) s2 (by simp [hp]) (hstep pre a s1 s2 ⟨post, by simp [hp]⟩ hP hf) h

/-- Progress rule: a monadic loop whose every step succeeds under the invariant succeeds. -/
theorem foldlM_progress {σ α ε : Type*} (f : σ → α → Except ε σ) (P : List α → σ → Prop) (l : List α) (s0 : σ)
    (h0 : P [] s0) (hstep : ∀ pre a s, (pre ++ [a]) <+: l → P pre s → ∃ s', f s a = .ok s' ∧ P (pre ++ [a]) s') :
    ∃ s, l.foldlM f s0 = .ok s ∧ P l s := by
  suffices H : ∀ (post pre : List α) (s1 : σ), pre ++ post = l → P pre s1 → ∃ s, post.foldlM f s1 = .ok s ∧ P l s from
    H l [] s0 rfl h0
  intro post
  induction post with
  | nil => intro pre s1 hp hP; simp at hp; exact ⟨s1, rfl, hp ▸ hP⟩
  | cons a post ih =>
    intro pre s1 hp hP
    obtain ⟨s2, hf, hP2⟩ := hstep pre a s1 ⟨post, by simp [hp]⟩ hP
    obtain ⟨s, hs, hPs⟩ := ih (pre ++ [a]) s2 (by simp [hp]) hP2
    exact ⟨s, by rw [List.foldlM_cons, hf]; exact hs, hPs⟩

theorem write_ok (h : Heap K) (r : Ref) (i : Nat) (x : K) (hi : i < h.len r) :
    h.write r i x = .ok { h with val := fun r' => if r' = r then setAt (h.val r) i x else h.val r' } := by
  simp [Heap.write, hi]

/-- A successful sequence of writes into `r` only changes `r`, and there only listed entries. -/
theorem writeAll_ok (r : Ref) (x : Nat → K) (l : List Nat) (h : Heap K) (hl : ∀ i ∈ l, i < h.len r) :
    ∃ h', h.writeAll r l x = .ok h' ∧ h'.len = h.len ∧ (∀ r', r' ≠ r → h'.val r' = h.val r') ∧
      ∀ i, h'.val r i = if i ∈ l then x i else h.val r i := by
  induction l generalizing h with
  | nil => exact ⟨h, rfl, rfl, fun _ _ => rfl, by simp⟩
  | cons a l ih =>
    have ha := write_ok h r a (x a) (hl a (by simp))
    obtain ⟨h', h1, h2, h3, h4⟩ := ih _ (show ∀ i ∈ l, i < Heap.len { h with val := fun r' => if r' = r then setAt (h.val r) a (x a) else h.val r' } r from
      fun i hi => hl i (by simp [hi]))
    refine ⟨h', ?_, h2, fun r' hr => ?_, fun i => ?_⟩
    · unfold Heap.writeAll at h1 ⊢
      rw [List.foldlM_cons, ha]; exact h1
    · rw [h3 r' hr]; simp [hr]
    · rw [h4 i]
      by_cases hi : i ∈ l
      · simp [hi]
      · by_cases hia : i = a
        · subst hia; simp [hi]
        · simp [hi, hia, setAt]

theorem slots_ok (r : Ref) (x : Nat → K) (l : List Int) (h : Heap K) (hl : ∀ c ∈ l, c ≠ -1 → c.toNat < h.len r) :
    ∃ h', l.foldlM (fun (h : Heap K) (c : Int) => if c ≠ -1 then h.write r c.toNat (x c.toNat) else .ok h) h = .ok h' ∧
      h'.len = h.len ∧ (∀ r', r' ≠ r → h'.val r' = h.val r') := by
  induction l generalizing h with
  | nil => exact ⟨h, rfl, rfl, fun _ _ => rfl⟩
  | cons c l ih =>
    by_cases hc : c = -1
    · obtain ⟨h', h1, h2, h3⟩ := ih h (fun c hc => hl c (by simp [hc]))
      refine ⟨h', ?_, h2, h3⟩
      rw [List.foldlM_cons, if_neg (by simpa using hc)]; exact h1
    · have ha := write_ok h r c.toNat (x c.toNat) (hl c (by simp) hc)
      obtain ⟨h', h1, h2, h3⟩ := ih { h with val := fun r' => if r' = r then setAt (h.val r) c.toNat (x c.toNat) else h.val r' }
        (fun c hc => hl c (by simp [hc]))
      refine ⟨h', ?_, h2, fun r' hr => ?_⟩
      · rw [List.foldlM_cons, if_pos hc, ha]; exact h1
      · rw [h3 r' hr]; simp [hr]

theorem nodesLoop_ok (d : Dom) (vn vh : Ref) (hne : vh ≠ vn) (v : Vals K) (l : List Nat) (h : Heap K)
    (hl : ∀ i ∈ l, i < h.len vn) (hs : ∀ i ∈ l, ∀ c ∈ d.slots i, c ≠ -1 → c.toNat < h.len vh) :
    ∃ h', l.foldlM (fun (h : Heap K) i => do
        let h ← h.write vn i (v.node i)
        (d.slots i).foldlM (fun (h : Heap K) (c : Int) =>
          if c ≠ -1 then h.write vh c.toNat (v.slot i c.toNat) else .ok h) h) h = .ok h' ∧
      h'.len = h.len ∧ (∀ r', r' ≠ vn → r' ≠ vh → h'.val r' = h.val r') ∧
      ∀ i, h'.val vn i = if i ∈ l then v.node i else h.val vn i := by
  induction l generalizing h with
  | nil => exact ⟨h, rfl, rfl, fun _ _ _ => rfl, by simp⟩
  | cons a l ih =>
    have ha := write_ok h vn a (v.node a) (hl a (by simp))
    obtain ⟨h1, e1, l1, v1⟩ := slots_ok vh (fun c => v.slot a c) (d.slots a)
      { h with val := fun r' => if r' = vn then setAt (h.val vn) a (v.node a) else h.val r' } (hs a (by simp))
    obtain ⟨h2, e2, l2, v2, n2⟩ := ih h1 (fun i hi => by rw [l1]; exact hl i (by simp [hi]))
      (fun i hi => by rw [l1]; exact hs i (by simp [hi]))
    refine ⟨h2, ?_, l2.trans l1, fun r' hr hr' => ?_, fun i => ?_⟩
    · rw [List.foldlM_cons, ha]
      simp only [bind, Except.bind] at e1 ⊢
      rw [e1]; exact e2
    · rw [v2 r' hr hr', v1 r' hr']; simp [hr]
    · rw [n2 i, v1 vn (Ne.symm hne)]
      by_cases hi : i ∈ l
      · simp [hi]
      · by_cases hia : i = a
        · subst hia; simp [hi]
        · simp [hi, hia, setAt]

/-- State after the entries `pre` (all legal, Dirichlet first): the cell, node and halo arrays still hold zeros, the boundary objects
point where they should, and the prescribed values are in the value arrays. -/
structure BuildInv [Zero K] (d : Dom) (values : Loc → Option (Vals K)) (pre : List (Loc × BCType)) (s : VState K) : Prop where
  len : s.heap.len = (vInit (K := K) d).heap.len
  cell : s.cell = .cell
  ghost0 : s.ghost = fun _ => 0
  fresh0 : s.nextFresh = 0
  zeroCell : ∀ i, s.heap.val .cell i = 0
  zeroNode : ∀ i, s.heap.val .node i = 0
  zeroHalo : ∀ i, s.heap.val .halo i = 0
  own : (∀ e ∈ pre, e.2 ≠ .neumann ∧ e.2 ≠ .nonslip ∧ e.2 ≠ .slip) → s.vf = .vface ∧ s.vn = .vnode ∧ s.vh = .vhalo
  dirichlet : ∀ loc, (loc, .dirichlet) ∈ pre → s.bcs loc = some ⟨.dirichlet, .vface, .vnode, .vhalo⟩ ∧
    ∀ v, values loc = some v → (∀ i ∈ d.faces loc, s.heap.val .vface i = v.face i) ∧
      (∀ i ∈ d.nodes loc, s.heap.val .vnode i = v.node i)
  zeroFace : ∀ i, (∀ loc, (loc, .dirichlet) ∈ pre → i ∉ d.faces loc) → s.heap.val .vface i = 0
  neumann : ∀ loc t, t = .neumann ∨ t = .nonslip → (loc, t) ∈ pre → s.bcs loc = some ⟨t, .cell, .node, .halo⟩
  periodic : ∀ loc, (loc, .periodic) ∈ pre → s.bcs loc = some ⟨.periodic, .empty, .empty, .empty⟩

theorem prefix_sub {α : Type*} {pre l : List α} {a : α} (h : (pre ++ [a]) <+: l) : ∀ e ∈ pre, e ∈ l :=
  fun e he => h.subset (by simp [he])

theorem build_step [Zero K] (d : Dom) (hok : DomOk d) (hdj : DisjointLocs d) (values : Loc → Option (Vals K))
    (BC : List (Loc × BCType)) (hnd : (BC.map Prod.fst).Nodup) (hdf : DirichletFirst BC)
    (pre : List (Loc × BCType)) (e : Loc × BCType) (s : VState K) (hpre : (pre ++ [e]) <+: BC)
    (hleg : LegalEntry d values e) (hslip : e.2 ≠ .slip)
    (inv : BuildInv d values pre s) : ∃ s', bcStep d values s e = .ok s' ∧ BuildInv d values (pre ++ [e]) s' := by
  obtain ⟨loc, t⟩ := e
  have hnew : ∀ l t', (l, t') ∈ pre → l ≠ loc := by
    intro l t' hl he
    have := hnd.sublist (hpre.sublist.map Prod.fst)
    simp only [List.map_append, List.map_cons, List.map_nil] at this
    rw [List.nodup_append] at this
    exact this.2.2 l (List.mem_map.2 ⟨(l, t'), hl, rfl⟩) loc (by simp) he
  have hown : t = .dirichlet → ∀ e ∈ pre, e.2 ≠ .neumann ∧ e.2 ≠ .nonslip ∧ e.2 ≠ .slip := by
    intro ht e he
    have := hdf.sublist hpre.sublist
    rw [List.pairwise_append] at this
    exact this.2.2 e he (loc, t) (by simp) ht
  have hper : (d.isPeriodic loc && decide (t ≠ .periodic)) = false ∧ (!(d.isPeriodic loc) && decide (t = .periodic)) = false := by
    have h1 := hleg.1; simp only at h1
    by_cases hp : t = .periodic
    · simp [hp, h1.1 hp]
    · have : d.isPeriodic loc = false := by
        cases h : d.isPeriodic loc with
        | false => rfl
        | true => exact absurd (h1.2 h) hp
      simp [hp, this]
  -- a step that only sets the boundary object and the local variables
  have simple : ∀ (vf vn vh : Ref) (b : Boundary), b.bctype = t → t ≠ .dirichlet →
      (t = .neumann ∨ t = .nonslip → b = ⟨t, .cell, .node, .halo⟩) →
      (t = .periodic → b = ⟨t, .empty, .empty, .empty⟩ ) → (t ≠ .neumann → t ≠ .nonslip → vf = s.vf ∧ vn = s.vn ∧ vh = s.vh) →
      BuildInv d values (pre ++ [(loc, t)]) { s with vf := vf, vn := vn, vh := vh, bcs := setAt s.bcs loc (some b) } := by
    intro vf vn vh b hbt hnd hn hpp hv
    refine ⟨inv.len, inv.cell, inv.ghost0, inv.fresh0, inv.zeroCell, inv.zeroNode, inv.zeroHalo, ?_, ?_, ?_, ?_, ?_⟩
    · intro h
      have h1 := h (loc, t) (by simp)
      obtain ⟨a, b, c⟩ := hv h1.1 h1.2.1
      have := inv.own (fun e he => h e (by simp [he]))
      simp [a, b, c, this]
    · intro l hl
      rcases List.mem_append.1 hl with hl | hl
      · have := inv.dirichlet l hl
        refine ⟨?_, this.2⟩
        simp only
        rw [setAt_ne _ _ (hnew l _ hl)]; exact this.1
      · simp at hl; exact absurd hl.2.symm hnd
    · intro i hi
      exact inv.zeroFace i (fun l hl => hi l (by simp [hl]))
    · intro l t' ht' hl
      rcases List.mem_append.1 hl with hl | hl
      · simp only
        rw [setAt_ne _ _ (hnew l _ hl)]; exact inv.neumann l t' ht' hl
      · simp at hl; obtain ⟨rfl, rfl⟩ := hl
        simp [hn ht']
    · intro l hl
      rcases List.mem_append.1 hl with hl | hl
      · simp only
        rw [setAt_ne _ _ (hnew l _ hl)]; exact inv.periodic l hl
      · simp at hl; obtain ⟨rfl, rfl⟩ := hl
        simp [hpp rfl]
  cases t with
  | slip => exact absurd rfl hslip
  | other =>
    refine ⟨s, by simp only [bcStep, hper.1, hper.2]; simp, ?_⟩
    refine ⟨inv.len, inv.cell, inv.ghost0, inv.fresh0, inv.zeroCell, inv.zeroNode, inv.zeroHalo, fun h => inv.own (fun e he => h e (by simp [he])), ?_,
      fun i hi => inv.zeroFace i (fun l hl => hi l (by simp [hl])), ?_, ?_⟩
    · intro l hl; exact inv.dirichlet l (by simpa using hl)
    · rintro l t' (rfl | rfl) hl
      · exact inv.neumann l _ (.inl rfl) (by simpa using hl)
      · exact inv.neumann l _ (.inr rfl) (by simpa using hl)
    · intro l hl; exact inv.periodic l (by simpa using hl)
  | neumann =>
    refine ⟨_, by simp only [bcStep, hper.1, hper.2]; simp; rfl, ?_⟩
    exact simple .cell .node .halo ⟨.neumann, .cell, .node, .halo⟩ rfl (by simp) (by simp) (by simp) (by simp)
  | nonslip =>
    refine ⟨_, by simp only [bcStep, hper.1, hper.2]; simp; rfl, ?_⟩
    exact simple .cell .node .halo ⟨.nonslip, .cell, .node, .halo⟩ rfl (by simp) (by simp) (by simp) (by simp)
  | periodic =>
    have hpp : d.isPeriodic loc = true := hleg.1.1 rfl
    refine ⟨_, by simp [bcStep, hpp]; rfl, ?_⟩
    exact simple s.vf s.vn s.vh ⟨.periodic, .empty, .empty, .empty⟩ rfl (by simp) (by simp) (by simp) (by simp)
  | dirichlet =>
    obtain ⟨v, hv⟩ := Option.isSome_iff_exists.1 (hleg.2 rfl)
    simp only at hv
    obtain ⟨o1, o2, o3⟩ := inv.own (hown rfl)
    have lf : s.heap.len .vface = d.nbfaces := by rw [inv.len]; rfl
    have ln : s.heap.len .vnode = d.nbnodes := by rw [inv.len]; rfl
    have lh : s.heap.len .vhalo = d.sizehaloghost := by rw [inv.len]; rfl
    obtain ⟨h1, e1, l1, v1, f1⟩ := writeAll_ok .vface v.face (d.faces loc) s.heap (fun i hi => by rw [lf]; exact hok.faces loc i hi)
    obtain ⟨h2, e2, l2, v2, n2⟩ := nodesLoop_ok d .vnode .vhalo (by simp) v (d.nodes loc) h1
      (fun i hi => by rw [l1, ln]; exact hok.nodes loc i hi) (fun i hi => by rw [l1, lh]; exact hok.slots loc i hi)
    refine ⟨setBC { s with heap := h2 } loc .dirichlet .vface .vnode .vhalo, ?_, ?_⟩
    · simp only [bcStep, hper.1, hper.2, hv, o1, o2, o3]
      simp only [bind, Except.bind] at e1 e2 ⊢
      simp only [e1, e2]; rfl
    · have vv : ∀ r, r ≠ .vface → r ≠ .vnode → r ≠ .vhalo → h2.val r = s.heap.val r := fun r a b c => by
        rw [v2 r b c, v1 r a]
      have hfa : h2.val .vface = h1.val .vface := v2 _ (by simp) (by simp)
      refine ⟨(l2.trans l1).trans inv.len, inv.cell, inv.ghost0, inv.fresh0, fun i => ?_, fun i => ?_, fun i => ?_, ?_, ?_, ?_, ?_, ?_⟩
      · show h2.val .cell i = 0
        rw [vv _ (by simp) (by simp) (by simp)]; exact inv.zeroCell i
      · show h2.val .node i = 0
        rw [vv _ (by simp) (by simp) (by simp)]; exact inv.zeroNode i
      · show h2.val .halo i = 0
        rw [vv _ (by simp) (by simp) (by simp)]; exact inv.zeroHalo i
      · intro _; exact ⟨o1, o2, o3⟩
      · intro l hl
        rcases List.mem_append.1 hl with hl | hl
        · have hne := hnew l _ hl
          have := inv.dirichlet l hl
          refine ⟨?_, fun v' hv' => ⟨fun i hi => ?_, fun i hi => ?_⟩⟩
          · simp only [setBC]
            rw [setAt_ne _ _ hne]; exact this.1
          · show h2.val .vface i = _
            rw [hfa, f1 i, if_neg (hdj.faces l loc hne i hi)]; exact (this.2 v' hv').1 i hi
          · show h2.val .vnode i = _
            rw [n2 i, if_neg (hdj.nodes l loc hne i hi), v1 _ (by simp)]; exact (this.2 v' hv').2 i hi
        · simp at hl; subst hl
          refine ⟨by simp [setBC], fun v' hv' => ?_⟩
          rw [hv] at hv'; cases hv'
          refine ⟨fun i hi => ?_, fun i hi => ?_⟩
          · show h2.val .vface i = _
            rw [hfa, f1 i, if_pos hi]
          · show h2.val .vnode i = _
            rw [n2 i, if_pos hi]
      · intro i hi
        show h2.val .vface i = 0
        rw [hfa, f1 i, if_neg (hi loc (by simp))]
        exact inv.zeroFace i (fun l hl => hi l (by simp [hl]))
      · rintro l t' (rfl | rfl) hl <;> rcases List.mem_append.1 hl with hl | hl
        · simp only [setBC]; rw [setAt_ne _ _ (hnew l _ hl)]; exact inv.neumann l _ (.inl rfl) hl
        · simp at hl
        · simp only [setBC]; rw [setAt_ne _ _ (hnew l _ hl)]; exact inv.neumann l _ (.inr rfl) hl
        · simp at hl
      · intro l hl
        rcases List.mem_append.1 hl with hl | hl
        · simp only [setBC]; rw [setAt_ne _ _ (hnew l _ hl)]; exact inv.periodic l hl
        · simp at hl

theorem build_init [Zero K] (d : Dom) (values : Loc → Option (Vals K)) : BuildInv d values [] (vInit (K := K) d) := by
  refine ⟨rfl, rfl, rfl, rfl, fun _ => rfl, fun _ => rfl, fun _ => rfl, fun _ => ⟨rfl, rfl, rfl⟩, ?_, fun _ _ => rfl, ?_, ?_⟩ <;> simp

/-- The construction succeeds and establishes the invariant. -/
theorem build_ok [Zero K] (d : Dom) (hok : DomOk d) (hdj : DisjointLocs d) (values : Loc → Option (Vals K))
    (BC : List (Loc × BCType)) (hnd : (BC.map Prod.fst).Nodup) (hdf : DirichletFirst BC)
    (hleg : ∀ e ∈ BC, LegalEntry d values e) (hslip : ∀ e ∈ BC, e.2 ≠ .slip) :
    ∃ s, mkVariable d BC values = .ok s ∧ BuildInv d values BC s :=
  foldlM_progress (bcStep d values) (BuildInv d values) BC (vInit d) (build_init d values)
    (fun pre a s hp inv => build_step d hok hdj values BC hnd hdf pre a s hp (hleg a (hp.subset (by simp)))
      (hslip a (hp.subset (by simp))) inv)

/-! ### C31 -/

/-- **C31** (partial: dictionaries in which no Dirichlet entry follows a Neumann or non-slip one, no slip): the variable is
created with zero cell, node and halo values; each Dirichlet location carries exactly its prescribed face and node values; each
Neumann/non-slip location reads the variable's own arrays. -/
theorem C31_prescribed_partial [Zero K] (d : Dom) (hok : DomOk d) (hdj : DisjointLocs d) (values : Loc → Option (Vals K))
    (BC : List (Loc × BCType)) (hnd : (BC.map Prod.fst).Nodup) (hdf : DirichletFirst BC)
    (hleg : ∀ e ∈ BC, LegalEntry d values e) (hslip : ∀ e ∈ BC, e.2 ≠ .slip) :
    ∃ s, mkVariable d BC values = .ok s ∧ (∀ i, cells s i = 0) ∧ (∀ i, s.heap.val .node i = 0) ∧ (∀ i, s.heap.val .halo i = 0) ∧
      (∀ loc v, (loc, .dirichlet) ∈ BC → values loc = some v → ∃ b, s.bcs loc = some b ∧ b.bctype = .dirichlet ∧
        (∀ i ∈ d.faces loc, s.heap.val b.valueface i = v.face i) ∧ (∀ i ∈ d.nodes loc, s.heap.val b.valuenode i = v.node i)) ∧
      (∀ loc t, t = .neumann ∨ t = .nonslip → (loc, t) ∈ BC → ∃ b, s.bcs loc = some b ∧ b.bctype = t ∧
        b.valueface = s.cell ∧ b.valuenode = .node ∧ b.valuehalo = .halo) := by
  obtain ⟨s, hs, inv⟩ := build_ok d hok hdj values BC hnd hdf hleg hslip
  refine ⟨s, hs, fun i => ?_, inv.zeroNode, inv.zeroHalo, ?_, ?_⟩
  · rw [cells, inv.cell]; exact inv.zeroCell i
  · intro loc v hl hv
    have := inv.dirichlet loc hl
    exact ⟨_, this.1, rfl, (this.2 v hv).1, (this.2 v hv).2⟩
  · intro loc t ht hl
    exact ⟨_, inv.neumann loc t ht hl, rfl, inv.cell.symm, rfl, rfl⟩

/-- **C31** (partial, order): two such dictionaries with the same entries give the same boundary types and prescribed values,
hence the same ghost values after an update. -/
theorem C31_order_partial [Ring K] (d : Dom) (hok : DomOk d) (hdj : DisjointLocs d) (values : Loc → Option (Vals K))
    (BC BC' : List (Loc × BCType)) (hp : BC.Perm BC') (hnd : (BC.map Prod.fst).Nodup) (hdf : DirichletFirst BC)
    (hdf' : DirichletFirst BC') (hleg : ∀ e ∈ BC, LegalEntry d values e) (hslip : ∀ e ∈ BC, e.2 ≠ .slip)
    (hoth : ∀ e ∈ BC, e.2 ≠ .other) (hperf : ∀ loc, d.isPeriodic loc = true → d.faces loc = [])
    (locs : List Loc) (hall : ∀ loc ∈ locs, loc ∈ BC.map Prod.fst) :
    ∃ s s' g g', mkVariable d BC values = .ok s ∧ mkVariable d BC' values = .ok s' ∧
      updateGhost d locs s = .ok g ∧ updateGhost d locs s' = .ok g' ∧ g.ghost = g'.ghost ∧ cells g = cells g' := by
  obtain ⟨s, hs, inv⟩ := build_ok d hok hdj values BC hnd hdf hleg hslip
  obtain ⟨s', hs', inv'⟩ := build_ok d hok hdj values BC' ((hp.map Prod.fst).nodup_iff.1 hnd) hdf'
    (fun e he => hleg e (hp.mem_iff.2 he)) (fun e he => hslip e (hp.mem_iff.2 he))
  have key : ∀ loc ∈ locs, ∃ b, s.bcs loc = some b ∧ s'.bcs loc = some b ∧ ∀ i ∈ d.faces loc,
      ghostSpec b.bctype (s.heap.val b.valueface) (s.heap.val b.valueface) d.cellid0 i
        = ghostSpec b.bctype (s'.heap.val b.valueface) (s'.heap.val b.valueface) d.cellid0 i := by
    intro loc hl
    obtain ⟨⟨l, t⟩, he, rfl⟩ := List.mem_map.1 (hall loc hl)
    have he' := hp.mem_iff.1 he
    cases t with
    | slip => exact absurd rfl (hslip _ he)
    | other => exact absurd rfl (hoth _ he)
    | dirichlet =>
      obtain ⟨v, hv⟩ := Option.isSome_iff_exists.1 ((hleg _ he).2 rfl)
      have a := inv.dirichlet l he; have b := inv'.dirichlet l he'
      refine ⟨_, a.1, b.1, fun i hi => ?_⟩
      simp only [ghostSpec]
      rw [(a.2 v hv).1 i hi, (b.2 v hv).1 i hi]
    | neumann =>
      refine ⟨_, inv.neumann l _ (.inl rfl) he, inv'.neumann l _ (.inl rfl) he', fun i hi => ?_⟩
      simp [ghostSpec, inv.zeroCell, inv'.zeroCell]
    | nonslip =>
      refine ⟨_, inv.neumann l _ (.inr rfl) he, inv'.neumann l _ (.inr rfl) he', fun i hi => ?_⟩
      simp [ghostSpec, inv.zeroCell, inv'.zeroCell]
    | periodic =>
      refine ⟨_, inv.periodic l he, inv'.periodic l he', fun i hi => ?_⟩
      have h0 : d.faces l = [] := hperf l ((hleg _ he).1.1 rfl)
      simp only at hi
      rw [h0] at hi; simp at hi
  have hb : ∀ loc ∈ locs, (s.bcs loc).isSome := fun l hl => by obtain ⟨b, h, -⟩ := key l hl; simp [h]
  have hb' : ∀ loc ∈ locs, (s'.bcs loc).isSome := fun l hl => by obtain ⟨b, -, h, -⟩ := key l hl; simp [h]
  obtain ⟨g, hg, hh, -, hc, hgv, hgr⟩ := C30_update d hdj locs s hb
  obtain ⟨g', hg', hh', -, hc', hgv', hgr'⟩ := C30_update d hdj locs s' hb'
  refine ⟨s, s', g, g', hs, hs', hg, hg', funext fun i => ?_, funext fun i => ?_⟩
  · by_cases hi : ∃ loc ∈ locs, i ∈ d.faces loc
    · obtain ⟨loc, hl, hi⟩ := hi
      obtain ⟨b, h1, h2, h3⟩ := key loc hl
      rw [hgv loc hl b h1 i hi, hgv' loc hl b h2 i hi, h3 i hi]
    · rw [hgr i (fun l hl hi' => hi ⟨l, hl, hi'⟩), hgr' i (fun l hl hi' => hi ⟨l, hl, hi'⟩), inv.ghost0, inv'.ghost0]
  · rw [cells, cells, hc, hc', hh, hh', inv.cell, inv'.cell, inv.zeroCell, inv'.zeroCell]

end construction

/-! ### A small domain for the examples: 2 cells, 3 faces; location 0 owns face 0, location 1 owns face 2 -/

/-- Two cells in a row: face 0 is the `in` boundary of cell 0, face 2 the `out` boundary of cell 1. -/
def exDom : Dom where
  nbfaces := 3
  nbcells := 2
  nbnodes := 4
  nbhalos := 0
  sizehaloghost := 0
  typeindex := fun l => l + 1
  isPeriodic := fun _ => false
  faces := fun l => if l = 0 then [0] else if l = 1 then [2] else []
  nodes := fun l => if l = 0 then [0, 1] else if l = 1 then [2, 3] else []
  slots := fun _ => []
  cellid0 := fun i => if i = 0 then 0 else 1
  table := fun _ => []
  halonodes := []

/-- Dirichlet value 7 at location 0 (`in`), 5 at location 1 (`out`). -/
def exVals : Loc → Option (Vals ℚ) := fun l =>
  if l = 0 then some ⟨fun _ => 7, fun _ => 7, fun _ _ => 7⟩ else if l = 1 then some ⟨fun _ => 5, fun _ => 5, fun _ _ => 5⟩ else none

theorem exDom_ok : DomOk exDom := by
  refine ⟨fun loc i hi => ?_, fun loc i hi => ?_, fun loc i hi c hc => ?_⟩
  · simp only [exDom] at *; split_ifs at hi <;> simp_all
  · simp only [exDom] at *; split_ifs at hi <;> simp_all <;> omega
  · simp [exDom] at hc

theorem exDom_disjoint : DisjointLocs exDom := by
  refine ⟨fun a b hab i hi => ?_, fun a b hab i hi => ?_⟩
  · simp only [exDom] at *; split_ifs at * <;> simp_all
  · simp only [exDom] at *; split_ifs at * <;> simp_all <;> omega

/-- **C31** is false as stated: with `{in: neumann, out: dirichlet}` (value 5 on `out`) the prescribed values go to the *node/cell*
arrays: face 2 is beyond the 2 cells and the constructor raises `IndexError`, whereas `{out: dirichlet, in: neumann}` succeeds. -/
theorem C31_counterexample_error :
    (∃ s, mkVariable exDom [(1, .dirichlet), (0, .neumann)] exVals = .ok s) ∧
    (mkVariable exDom [(0, .neumann), (1, .dirichlet)] exVals).map (fun _ => ()) = .error .indexError := by
  refine ⟨?_, ?_⟩
  · obtain ⟨s, h, -⟩ := C31_prescribed_partial exDom exDom_ok exDom_disjoint exVals [(1, .dirichlet), (0, .neumann)]
      (by decide) (by decide) (by simp [LegalEntry, exDom, exVals]) (by decide)
    exact ⟨s, h⟩
  · decide +kernel

/-- **C31** is false as stated: with the Neumann entry first and a small face number, the Dirichlet value is silently written into the
cell values of the variable. -/
theorem C31_counterexample_cells :
    (mkVariable exDom [(1, .neumann), (0, .dirichlet)] exVals).map (fun s => (cells s 0, s.heap.val .node 0)) = .ok (7, 7) := by
  decide +kernel

/-! ### C33, C34 -/
section validation
variable {K : Type*}

theorem bcStep_illegal (d : Dom) (values : Loc → Option (Vals K)) (s : VState K) (e : Loc × BCType)
    (h : ¬ LegalEntry d values e) : bcStep d values s e = .error .valueError := by
  obtain ⟨loc, t⟩ := e
  unfold bcStep
  by_cases h1 : (d.isPeriodic loc && decide (t ≠ .periodic)) = true
  · simp only [h1]; simp
  · by_cases h2 : (!(d.isPeriodic loc) && decide (t = .periodic)) = true
    · simp only [h2]; simp
    · simp only [h1, h2]
      have hp : (t = .periodic ↔ d.isPeriodic loc = true) := by
        cases hh : d.isPeriodic loc <;> simp_all
      cases t with
      | dirichlet =>
        cases hv : values loc with
        | none => simp
        | some v => exact absurd ⟨hp, fun _ => by simp [hv]⟩ h
      | _ => exact absurd ⟨hp, by simp⟩ h

theorem write_err (h : Heap K) (r : Ref) (i : Nat) (x : K) : h.write r i x ≠ .error .valueError := by
  unfold Heap.write; split_ifs <;> simp

theorem foldlM_err {σ α : Type*} (f : σ → α → Except PyErr σ) (hf : ∀ s a, f s a ≠ .error .valueError) (l : List α) (s : σ) :
    l.foldlM f s ≠ .error .valueError := by
  induction l generalizing s with
  | nil => simp [pure, Except.pure]
  | cons a l ih =>
    rw [List.foldlM_cons]
    cases h : f s a with
    | error e => intro he; apply hf s a; rw [h]; exact he
    | ok s' => exact ih s'

theorem bcStep_legal_err (d : Dom) (values : Loc → Option (Vals K)) (s : VState K) (e : Loc × BCType)
    (h : LegalEntry d values e) : bcStep d values s e ≠ .error .valueError := by
  obtain ⟨loc, t⟩ := e
  obtain ⟨hp, hv⟩ := h
  simp only at hp hv
  have hper : (d.isPeriodic loc && decide (t ≠ .periodic)) = false ∧ (!(d.isPeriodic loc) && decide (t = .periodic)) = false := by
    cases hh : d.isPeriodic loc <;> simp_all
  unfold bcStep
  simp only [hper.1, hper.2]
  cases t with
  | dirichlet =>
    obtain ⟨v, hv⟩ := Option.isSome_iff_exists.1 (hv rfl)
    simp only [hv]
    simp only [Bool.false_eq_true, if_false]
    cases h1 : s.heap.writeAll s.vf (d.faces loc) v.face with
    | error e =>
      intro he
      have : e = .valueError := by simpa [bind, Except.bind] using he
      subst this
      exact foldlM_err _ (fun s a => write_err _ _ _ _) _ _ h1
    | ok h' =>
      simp only [bind, Except.bind]
      split
      · rename_i e h2
        intro he
        have : e = .valueError := by simpa using he
        subst this
        refine foldlM_err _ (fun s' a => ?_) _ _ h2
        cases h3 : s'.write s.vn a (v.node a) with
        | error e => intro he; apply write_err s' s.vn a (v.node a); rw [h3]; exact he
        | ok h'' =>
          refine foldlM_err _ (fun s'' c => ?_) _ _
          split_ifs
          · exact write_err _ _ _ _
          · simp
      · simp
  | _ => simp

/-- **C33** (necessity): the constructor succeeds only if every entry of the dictionary is legal. -/
theorem C33_legal_of_ok [Zero K] (d : Dom) (BC : List (Loc × BCType)) (values : Loc → Option (Vals K)) (s : VState K)
    (h : mkVariable d BC values = .ok s) : ∀ e ∈ BC, LegalEntry d values e := by
  refine foldlM_inv (bcStep d values) (fun pre _ => ∀ e ∈ pre, LegalEntry d values e) BC (vInit d) s (by simp) ?_ h
  intro pre a s s' _ ih hs e he
  rcases List.mem_append.1 he with he | he
  · exact ih e he
  · simp at he; subst he
    by_contra hn
    rw [bcStep_illegal d values s e hn] at hs; cases hs

/-- **C33** (soundness of the error): a `ValueError` means that some entry is illegal (periodic mismatch or missing value). -/
theorem C33_valueError_illegal [Zero K] (d : Dom) (BC : List (Loc × BCType)) (values : Loc → Option (Vals K))
    (h : mkVariable d BC values = .error .valueError) : ∃ e ∈ BC, ¬ LegalEntry d values e := by
  by_contra hn
  push Not at hn
  unfold mkVariable at h
  generalize (vInit (K := K) d) = s0 at h
  induction BC generalizing s0 with
  | nil => cases h
  | cons a l ih =>
    rw [List.foldlM_cons] at h
    cases hs : bcStep d values s0 a with
    | error e =>
      rw [hs] at h
      have : e = .valueError := by simpa [bind, Except.bind] using h
      subst this
      exact bcStep_legal_err d values s0 a (hn a (by simp)) hs
    | ok s' =>
      rw [hs] at h
      exact ih (fun e he => hn e (by simp [he])) s' h

/-- **C33** (partial: no Dirichlet entry after a Neumann/non-slip one, no slip): the constructor succeeds iff every entry is legal,
and otherwise the exception is a `ValueError`. -/
theorem C33_exact_partial [Zero K] (d : Dom) (hok : DomOk d) (hdj : DisjointLocs d) (values : Loc → Option (Vals K))
    (BC : List (Loc × BCType)) (hnd : (BC.map Prod.fst).Nodup) (hdf : DirichletFirst BC) (hslip : ∀ e ∈ BC, e.2 ≠ .slip) :
    ((∀ e ∈ BC, LegalEntry d values e) → ∃ s, mkVariable d BC values = .ok s) ∧
    ((∃ e ∈ BC, ¬ LegalEntry d values e) → mkVariable d BC values = .error .valueError) := by
  refine ⟨fun h => ?_, fun h => ?_⟩
  · obtain ⟨s, hs, -⟩ := build_ok d hok hdj values BC hnd hdf h hslip
    exact ⟨s, hs⟩
  · -- first illegal entry
    suffices H : ∀ (post pre : List (Loc × BCType)) (s : VState K), pre ++ post = BC → BuildInv d values pre s →
        (∃ e ∈ post, ¬ LegalEntry d values e) → post.foldlM (bcStep d values) s = .error .valueError from
      H BC [] (vInit d) rfl (build_init d values) h
    intro post
    induction post with
    | nil => rintro _ _ _ _ ⟨e, he, -⟩; simp at he
    | cons a post ih =>
      rintro pre s hp inv ⟨e, he, hill⟩
      rw [List.foldlM_cons]
      by_cases hleg : LegalEntry d values a
      · have hpre : (pre ++ [a]) <+: BC := ⟨post, by simp [hp]⟩
        obtain ⟨s', hs', inv'⟩ := build_step d hok hdj values BC hnd hdf pre a s hpre hleg (hslip a (hpre.subset (by simp))) inv
        rw [hs']
        refine ih (pre ++ [a]) s' (by simp [hp]) inv' ⟨e, ?_, hill⟩
        rcases List.mem_cons.1 he with rfl | he
        · exact absurd hleg hill
        · exact he
      · rw [bcStep_illegal d values s a hleg]; rfl

/-- **C33** is false as stated: legal entries, in the order Neumann then Dirichlet, are rejected with an `IndexError`. -/
theorem C33_counterexample : (∀ e ∈ [((0 : Loc), BCType.neumann), (1, .dirichlet)], LegalEntry exDom exVals e) ∧
    (mkVariable exDom [(0, .neumann), (1, .dirichlet)] exVals).map (fun _ => ()) = .error .indexError :=
  ⟨by simp [LegalEntry, exDom, exVals], C31_counterexample_error.2⟩

/-- A location that is not a key of the dictionary has no boundary object. -/
theorem bcs_none [Zero K] (d : Dom) (BC : List (Loc × BCType)) (values : Loc → Option (Vals K)) (s : VState K)
    (h : mkVariable d BC values = .ok s) (loc : Loc) (hl : loc ∉ BC.map Prod.fst) : s.bcs loc = none := by
  refine foldlM_inv (bcStep d values) (fun pre (s : VState K) => loc ∉ pre.map Prod.fst → s.bcs loc = none) BC (vInit d) s
    (fun _ => rfl) ?_ h hl
  intro pre a s s' _ ih hs hn
  obtain ⟨l, t⟩ := a
  simp only [List.map_append, List.map_cons, List.map_nil, List.mem_append, List.mem_singleton, not_or] at hn
  have ih := ih hn.1
  have hb : s'.bcs = s.bcs ∨ ∃ b, s'.bcs = setAt s.bcs l b := by
    unfold bcStep at hs
    simp only at hs
    split_ifs at hs
    cases t with
    | dirichlet =>
      simp only at hs
      cases hv : values l with
      | none => rw [hv] at hs; cases hs
      | some v =>
        rw [hv] at hs
        simp only [bind, Except.bind] at hs
        split at hs
        · cases hs
        · split at hs
          · cases hs
          · cases hs; exact .inr ⟨_, rfl⟩
    | slip => cases hs
    | other => cases hs; exact .inl rfl
    | _ => cases hs; exact .inr ⟨_, rfl⟩
  rcases hb with hb | ⟨b, hb⟩
  · rw [hb]; exact ih
  · rw [hb, setAt_ne _ _ hn.2]; exact ih

/-- **C33** (missing location): leaving a location out of the dictionary is accepted by the constructor, but then the first ghost
update raises `AttributeError`. -/
theorem C33_missing_location [Ring K] (d : Dom) (BC : List (Loc × BCType)) (values : Loc → Option (Vals K)) (s : VState K)
    (h : mkVariable d BC values = .ok s) (locs : List Loc) (loc : Loc) (hin : loc ∈ locs) (hl : loc ∉ BC.map Prod.fst) :
    updateGhost d locs s = .error .attributeError := by
  have hn := bcs_none d BC values s h loc hl
  clear h
  induction locs generalizing s with
  | nil => simp at hin
  | cons a l ih =>
    rw [updateGhost_cons]
    cases ha : s.bcs a with
    | none => simp [updateGhost, ha, bind, Except.bind]
    | some b =>
      obtain ⟨s1, h1, -, hbc, -⟩ := updateGhost_one d a s b ha
      rw [h1]
      refine ih s1 ?_ (by rw [hbc]; exact hn)
      rcases List.mem_cons.1 hin with rfl | hin
      · rw [hn] at ha; cases ha
      · exact hin

/-- **C34** is false: no variable with a slip boundary can be created, in whatever dictionary; alone it is an `AttributeError`. -/
theorem C34_slip_never [Zero K] (d : Dom) (BC : List (Loc × BCType)) (values : Loc → Option (Vals K)) (loc : Loc)
    (hl : (loc, .slip) ∈ BC) : (∀ s, mkVariable d BC values ≠ .ok s) := by
  intro s h
  have : ∀ e ∈ BC, e.2 ≠ .slip := by
    refine foldlM_inv (bcStep d values) (fun pre _ => ∀ e ∈ pre, e.2 ≠ .slip) BC (vInit d) s (by simp) ?_ h
    intro pre a s s' _ ih hs e he
    rcases List.mem_append.1 he with he | he
    · exact ih e he
    · simp at he; subst he
      intro hsl
      obtain ⟨l, t⟩ := e
      simp only at hsl; subst hsl
      unfold bcStep at hs
      simp only at hs
      split_ifs at hs
  exact this _ hl rfl

/-- **C34** (which exception): on a non-periodic location `{loc: slip}` raises `AttributeError`. -/
theorem C34_slip_attributeError [Zero K] (d : Dom) (values : Loc → Option (Vals K)) (loc : Loc) (hp : d.isPeriodic loc = false) :
    mkVariable d [(loc, .slip)] values = .error .attributeError := by
  simp [mkVariable, bcStep, hp, bind, Except.bind]

end validation

/-- Non-vacuity of C31/C33: a Dirichlet, a periodic-free and a Neumann location. -/
example : ∃ s, mkVariable exDom [(1, .dirichlet), (0, .nonslip), (2, .neumann)] exVals = .ok s :=
  (C33_exact_partial exDom exDom_ok exDom_disjoint exVals [(1, .dirichlet), (0, .nonslip), (2, .neumann)]
    (by decide) (by decide) (by decide)).1 (by simp [LegalEntry, exDom, exVals])

/-- Non-vacuity of `C31_order_partial`: two Dirichlet locations in both orders. -/
example : ∃ s s' g g', mkVariable exDom [(0, .dirichlet), (1, .dirichlet)] exVals = .ok s ∧
    mkVariable exDom [(1, .dirichlet), (0, .dirichlet)] exVals = .ok s' ∧
      updateGhost exDom [0, 1] s = .ok g ∧ updateGhost exDom [0, 1] s' = .ok g' ∧ g.ghost = g'.ghost ∧ cells g = cells g' :=
  C31_order_partial exDom exDom_ok exDom_disjoint exVals _ _ (List.Perm.swap _ _ _) (by decide) (by decide) (by decide)
    (by simp [LegalEntry, exDom, exVals]) (by decide) (by decide) (by simp [exDom]) [0, 1] (by decide)

/-! ### C32 -/
section current
variable {K : Type*}

/-- What a user does between construction and the ghost update. -/
inductive Op (K : Type*)
  /-- `v.cell[i] = x` -/
  | assign (i : Nat) (x : K)
  /-- `v.cell = array` (this is what `solve` and the arithmetic operators do) -/
  | rebind (n : Nat) (a : Nat → K)

/-- Run a history of operations. -/
def runOps (s : VState K) (ops : List (Op K)) : VState K :=
  ops.foldl (fun s o => match o with | .assign i x => setCell s i x | .rebind n a => rebindCell s n a) s

theorem runOps_bcs (s : VState K) (ops : List (Op K)) : (runOps s ops).bcs = s.bcs ∧ (runOps s ops).ghost = s.ghost := by
  induction ops generalizing s with
  | nil => exact ⟨rfl, rfl⟩
  | cons o ops ih => cases o <;> exact ih _

theorem runOps_inplace (s : VState K) (ops : List (Op K)) (h : ∀ o ∈ ops, ∃ i x, o = .assign i x) :
    (runOps s ops).cell = s.cell := by
  induction ops generalizing s with
  | nil => rfl
  | cons o ops ih =>
    obtain ⟨i, x, rfl⟩ := h o (by simp)
    exact ih (setCell s i x) (fun o ho => h o (by simp [ho]))

/-- **C32** (partial: cell values modified in place only): after any history of in-place assignments the ghost update of a Neumann
(non-slip) face gives (minus) the *current* value of the adjacent cell. -/
theorem C32_inplace_partial [Ring K] (d : Dom) (hok : DomOk d) (hdj : DisjointLocs d) (values : Loc → Option (Vals K))
    (BC : List (Loc × BCType)) (hnd : (BC.map Prod.fst).Nodup) (hdf : DirichletFirst BC)
    (hleg : ∀ e ∈ BC, LegalEntry d values e) (hslip : ∀ e ∈ BC, e.2 ≠ .slip) (s : VState K) (hs : mkVariable d BC values = .ok s)
    (ops : List (Op K)) (hops : ∀ o ∈ ops, ∃ i x, o = .assign i x) (locs : List Loc) (hall : ∀ loc ∈ locs, loc ∈ BC.map Prod.fst)
    (hoth : ∀ e ∈ BC, e.2 ≠ .other) :
    ∃ g, updateGhost d locs (runOps s ops) = .ok g ∧ cells g = cells (runOps s ops) ∧
      (∀ loc ∈ locs, (loc, .neumann) ∈ BC → ∀ i ∈ d.faces loc, g.ghost i = cells (runOps s ops) (d.cellid0 i)) ∧
      (∀ loc ∈ locs, (loc, .nonslip) ∈ BC → ∀ i ∈ d.faces loc, g.ghost i = - cells (runOps s ops) (d.cellid0 i)) := by
  obtain ⟨s', hs', inv⟩ := build_ok d hok hdj values BC hnd hdf hleg hslip
  rw [hs] at hs'; cases hs'
  have hb : ∀ loc ∈ locs, ((runOps s ops).bcs loc).isSome := by
    intro loc hl
    rw [(runOps_bcs s ops).1]
    obtain ⟨⟨l, t⟩, he, rfl⟩ := List.mem_map.1 (hall loc hl)
    cases t with
    | slip => exact absurd rfl (hslip _ he)
    | other => exact absurd rfl (hoth _ he)
    | dirichlet => simp [(inv.dirichlet l he).1]
    | neumann => simp [inv.neumann l _ (.inl rfl) he]
    | nonslip => simp [inv.neumann l _ (.inr rfl) he]
    | periodic => simp [inv.periodic l he]
  obtain ⟨g, hg, hh, -, hc, hgv, -⟩ := C30_update d hdj locs (runOps s ops) hb
  have hcell : (runOps s ops).cell = .cell := (runOps_inplace s ops hops).trans inv.cell
  refine ⟨g, hg, by rw [cells, cells, hh, hc], fun loc hl hn i hi => ?_, fun loc hl hn i hi => ?_⟩
  · rw [hgv loc hl _ (by rw [(runOps_bcs s ops).1]; exact inv.neumann loc _ (.inl rfl) hn) i hi]
    simp [ghostSpec, cells, hcell]
  · rw [hgv loc hl _ (by rw [(runOps_bcs s ops).1]; exact inv.neumann loc _ (.inr rfl) hn) i hi]
    simp [ghostSpec, cells, hcell]

/-- **C32** is false once the attribute is rebound (`solve` of the spsolve/umfpack back-ends, `a + b`, ...): a Neumann ghost is then
the value the *old* array holds, whatever the new values are. -/
theorem C32_after_rebinding [Ring K] (d : Dom) (hdj : DisjointLocs d) (s : VState K) (locs : List Loc) (loc : Loc) (hl : loc ∈ locs)
    (hb : ∀ loc ∈ locs, (s.bcs loc).isSome) (hcell : s.cell = .cell)
    (hn : s.bcs loc = some ⟨.neumann, .cell, .node, .halo⟩) (n : Nat) (a : Nat → K) :
    ∃ g, updateGhost d locs (rebindCell s n a) = .ok g ∧ cells g = a ∧
      ∀ i ∈ d.faces loc, g.ghost i = cells s (d.cellid0 i) := by
  obtain ⟨g, hg, hh, -, hc, hgv, -⟩ := C30_update d hdj locs (rebindCell s n a) hb
  refine ⟨g, hg, ?_, fun i hi => ?_⟩
  · rw [cells, hh, hc]; simp [rebindCell]
  · rw [hgv loc hl _ hn i hi]
    simp [ghostSpec, rebindCell, cells, hcell]

/-- The default variable (`Variable(domain)`): every non-periodic location is Neumann and reads the variable's own arrays. -/
theorem mkDefault_spec [Zero K] (d : Dom) (locs : List Loc) :
    (∀ loc ∈ locs, d.isPeriodic loc = false → (mkDefault (K := K) d locs).bcs loc = some ⟨.neumann, .cell, .node, .halo⟩) ∧
    (∀ loc ∈ locs, ((mkDefault (K := K) d locs).bcs loc).isSome) ∧
    (mkDefault (K := K) d locs).cell = .cell ∧ (mkDefault (K := K) d locs).heap = (vInit d).heap ∧
    (mkDefault (K := K) d locs).ghost = fun _ => 0 := by
  unfold mkDefault
  have key : ∀ (l : List Loc) (s : VState K), s.cell = .cell → s.heap = (vInit d).heap → s.ghost = (fun _ => 0) →
      ∀ r, r = l.foldl (fun s loc =>
        let s := if d.isPeriodic loc then s else { s with vf := .cell, vn := .node, vh := .halo }
        setBC s loc (if d.isPeriodic loc then .periodic else .neumann) s.vf s.vn s.vh) s →
      (∀ loc, (loc ∈ l ∨ s.bcs loc = some ⟨.neumann, .cell, .node, .halo⟩) → d.isPeriodic loc = false →
        r.bcs loc = some ⟨.neumann, .cell, .node, .halo⟩) ∧
      (∀ loc, (loc ∈ l ∨ (s.bcs loc).isSome) → (r.bcs loc).isSome) ∧ r.cell = .cell ∧ r.heap = (vInit d).heap ∧ r.ghost = fun _ => 0 := by
    intro l
    induction l with
    | nil => intro s h1 h2 h3 r hr; subst hr; exact ⟨fun loc h _ => by simpa using h, fun loc h => by simpa using h, h1, h2, h3⟩
    | cons a l ih =>
      intro s h1 h2 h3 r hr
      rw [List.foldl_cons] at hr
      have hbcs : ∀ (s : VState K) t f n h loc, (setBC s a t f n h).bcs loc = if loc = a then some ⟨t, f, n, h⟩ else s.bcs loc := by
        intros; simp [setBC, setAt]
      by_cases hp : d.isPeriodic a = true
      · simp only [hp, if_true] at hr
        obtain ⟨q1, q2, q3⟩ := ih (setBC s a .periodic s.vf s.vn s.vh) h1 h2 h3 r hr
        refine ⟨fun loc h hnp => q1 loc ?_ hnp, fun loc h => q2 loc ?_, q3⟩
        · have hne : loc ≠ a := fun e => by rw [e, hp] at hnp; cases hnp
          rcases h with h | h
          · exact .inl (by simpa [hne] using h)
          · exact .inr (by rw [hbcs, if_neg hne]; exact h)
        · by_cases hne : loc = a
          · exact .inr (by rw [hbcs, if_pos hne]; rfl)
          · rcases h with h | h
            · exact .inl (by simpa [hne] using h)
            · exact .inr (by rw [hbcs, if_neg hne]; exact h)
      · simp only [hp] at hr
        obtain ⟨q1, q2, q3⟩ := ih (setBC { s with vf := .cell, vn := .node, vh := .halo } a .neumann .cell .node .halo) h1 h2 h3 r (by simpa using hr)
        refine ⟨fun loc h hnp => q1 loc ?_ hnp, fun loc h => q2 loc ?_, q3⟩
        · by_cases hne : loc = a
          · exact .inr (by rw [hbcs, if_pos hne])
          · rcases h with h | h
            · exact .inl (by simpa [hne] using h)
            · exact .inr (by rw [hbcs, if_neg hne]; exact h)
        · by_cases hne : loc = a
          · exact .inr (by rw [hbcs, if_pos hne]; rfl)
          · rcases h with h | h
            · exact .inl (by simpa [hne] using h)
            · exact .inr (by rw [hbcs, if_neg hne]; exact h)
  obtain ⟨a, b, c⟩ := key locs (vInit d) rfl rfl rfl _ rfl
  exact ⟨fun loc hl hp => a loc (.inl hl) hp, fun loc hl => b loc (.inl hl), c⟩

/-- **C32** is false for arithmetic: the Neumann ghosts of `a op b` are 0 whatever the operands hold. -/
theorem C32_arithmetic_ghosts_zero [Ring K] (op : K → K → K) (d : Dom) (hdj : DisjointLocs d) (locs : List Loc) (a b : VState K) :
    ∃ g, updateGhost d locs (varOp op d locs a b) = .ok g ∧ (∀ i, cells g i = op (cells a i) (cells b i)) ∧
      ∀ loc ∈ locs, d.isPeriodic loc = false → ∀ i ∈ d.faces loc, g.ghost i = 0 := by
  obtain ⟨h1, h2, h3, h4, h5⟩ := mkDefault_spec (K := K) d locs
  obtain ⟨g, hg, hh, -, hc, hgv, -⟩ := C30_update d hdj locs (varOp op d locs a b) h2
  refine ⟨g, hg, fun i => ?_, fun loc hl hp i hi => ?_⟩
  · rw [cells, hh, hc]; simp [varOp, rebindCell]
  · rw [hgv loc hl _ (h1 loc hl hp) i hi]
    simp [ghostSpec, varOp, rebindCell, h4, vInit]

/-- A concrete history: all cells 3, `b = a + a`, update the ghosts of `b`: cell 0 holds 6, the Neumann ghost of face 0 holds 0. -/
theorem C32_counterexample :
    (let a := runOps (mkDefault (K := ℚ) exDom [0, 1]) [.assign 0 3, .assign 1 3]
     (updateGhost exDom [0, 1] (varAdd exDom [0, 1] a a)).map (fun g => (cells g 0, g.ghost 0)) = .ok (6, 0)) := by decide +kernel

/-- Non-vacuity of `C32_inplace_partial`: after `cell[0] = 3` the non-slip ghost of face 0 is -3. -/
example : ((mkVariable exDom [(1, .dirichlet), (0, .nonslip)] exVals).bind (fun s =>
    updateGhost exDom [0, 1] (runOps s [.assign 0 3]))).map (fun g => (g.ghost 0, g.ghost 2)) = .ok (-3, 5) := by decide +kernel

/-! ### C36 -/

/-- **C36**: the cell values of `a + b`, `a - b`, `a * b` are the pointwise results. -/
theorem C36_pointwise [Ring K] (d : Dom) (locs : List Loc) (a b : VState K) (i : Nat) :
    cells (varAdd d locs a b) i = cells a i + cells b i ∧ cells (varSub d locs a b) i = cells a i - cells b i ∧
    cells (varMul d locs a b) i = cells a i * cells b i := by
  simp [varAdd, varSub, varMul, varOp, cells, rebindCell]

/-- **C36** (division): raises exactly when some denominator cell is zero, and is pointwise otherwise. -/
theorem C36_division [Field K] [DecidableEq K] (d : Dom) (locs : List Loc) (a b : VState K) :
    ((∃ i < d.nbcells, cells b i = 0) → varDiv d locs a b = .error .valueError) ∧
    ((∀ i < d.nbcells, cells b i ≠ 0) → ∃ r, varDiv d locs a b = .ok r ∧ ∀ i, cells r i = cells a i / cells b i) := by
  constructor
  · rintro ⟨i, hi, h0⟩
    unfold varDiv
    rw [if_neg]
    simp only [List.all_eq_true, List.mem_range]
    intro h
    have := h i hi
    simp [h0] at this
  · intro h
    refine ⟨_, by unfold varDiv; rw [if_pos]; simpa using h, fun i => ?_⟩
    simp [varOp, cells, rebindCell]

end current

/-! ### C35 -/
section haloghost
variable {K : Type*}

/-- Entries with the same slot and boundary label describe the same ghost cell (the slots are numbers of ghost cells). -/
def SlotsConsistent (table : Nat → List HG) (nodes : List Nat) : Prop :=
  ∀ i ∈ nodes, ∀ e ∈ table i, ∀ i' ∈ nodes, ∀ e' ∈ table i', e.slot ≠ -1 → e'.slot ≠ -1 → e.slot.toNat = e'.slot.toNat → e = e'

/-- The double loop as one loop over the entries. -/
theorem haloghostLoop_flat (f : HG → K) (table : Nat → List HG) (bc : Int) (nodes : List Nat) (w : Nat → K) :
    haloghostLoop f table bc nodes w = (nodes.flatMap table).foldl (fun w e =>
      if e.slot ≠ -1 then if e.bc = bc then setAt w e.slot.toNat (f e) else w else w) w := by
  unfold haloghostLoop
  induction nodes generalizing w with
  | nil => rfl
  | cons a l ih => rw [List.foldl_cons, List.flatMap_cons, List.foldl_append, ih]

theorem entries_loop (f : HG → K) (bc : Int) (l : List HG) (w : Nat → K)
    (hc : ∀ e ∈ l, ∀ e' ∈ l, e.slot ≠ -1 → e'.slot ≠ -1 → e.slot.toNat = e'.slot.toNat → e = e') :
    (∀ e ∈ l, e.slot ≠ -1 → e.bc = bc → l.foldl (fun w e =>
      if e.slot ≠ -1 then if e.bc = bc then setAt w e.slot.toNat (f e) else w else w) w e.slot.toNat = f e) ∧
    (∀ k, (∀ e ∈ l, e.slot ≠ -1 → e.bc = bc → e.slot.toNat ≠ k) → l.foldl (fun w e =>
      if e.slot ≠ -1 then if e.bc = bc then setAt w e.slot.toNat (f e) else w else w) w k = w k) := by
  induction l generalizing w with
  | nil => simp
  | cons a l ih =>
    have hc' : ∀ e ∈ l, ∀ e' ∈ l, e.slot ≠ -1 → e'.slot ≠ -1 → e.slot.toNat = e'.slot.toNat → e = e' :=
      fun e he e' he' => hc e (by simp [he]) e' (by simp [he'])
    refine ⟨fun e he hs hb => ?_, fun k hk => ?_⟩
    · rw [List.foldl_cons]
      by_cases hin : e ∈ l
      · exact (ih _ hc').1 e hin hs hb
      · have hea : e = a := (List.mem_cons.1 he).resolve_right hin
        subst hea
        rw [(ih _ hc').2]
        · simp [hs, hb]
        · intro e' he' hs' _ heq
          exact hin (hc e (by simp) e' (by simp [he']) hs hs' heq.symm ▸ he')
    · rw [List.foldl_cons, (ih _ hc').2 k (fun e he => hk e (by simp [he]))]
      by_cases hs : a.slot = -1
      · simp [hs]
      · by_cases hb : a.bc = bc
        · have := hk a (by simp) hs hb
          simp [hs, hb, setAt, Ne.symm this]
        · simp [hs, hb]

/-- The halo-ghost loop writes `f` of the entry in its slot for the entries of the given boundary, and nothing else. -/
theorem haloghostLoop_spec (f : HG → K) (table : Nat → List HG) (bc : Int) (nodes : List Nat) (w : Nat → K)
    (hc : SlotsConsistent table nodes) :
    (∀ i ∈ nodes, ∀ e ∈ table i, e.slot ≠ -1 → e.bc = bc → haloghostLoop f table bc nodes w e.slot.toNat = f e) ∧
    (∀ k, (∀ i ∈ nodes, ∀ e ∈ table i, e.slot ≠ -1 → e.bc = bc → e.slot.toNat ≠ k) → haloghostLoop f table bc nodes w k = w k) := by
  rw [haloghostLoop_flat]
  have := entries_loop f bc (nodes.flatMap table) w (by
    intro e he e' he'
    obtain ⟨i, hi, he⟩ := List.mem_flatMap.1 he
    obtain ⟨i', hi', he'⟩ := List.mem_flatMap.1 he'
    exact hc i hi e he i' hi' e' he')
  refine ⟨fun i hi e he => this.1 e (List.mem_flatMap.2 ⟨i, hi, he⟩), fun k hk => this.2 k (fun e he => ?_)⟩
  obtain ⟨i, hi, he⟩ := List.mem_flatMap.1 he
  exact hk i hi e he

/-- **C35** (Neumann; partial because of non-slip): the value of a halo ghost of a Neumann boundary is that of its halo cell; all
other slots are untouched. -/
theorem C35_neumann_partial (w_halo : Nat → K) (table : Nat → List HG) (bc : Int) (nodes : List Nat) (w : Nat → K)
    (hc : SlotsConsistent table nodes) :
    (∀ i ∈ nodes, ∀ e ∈ table i, e.slot ≠ -1 → e.bc = bc →
      haloghostNeumann w_halo table bc nodes w e.slot.toNat = w_halo e.cellhalo.toNat) ∧
    (∀ k, (∀ i ∈ nodes, ∀ e ∈ table i, e.slot ≠ -1 → e.bc = bc → e.slot.toNat ≠ k) → haloghostNeumann w_halo table bc nodes w k = w k) :=
  haloghostLoop_spec _ table bc nodes w hc

/-- **C35** (Dirichlet): the prescribed value of the slot. -/
theorem C35_dirichlet_partial (value : Nat → K) (table : Nat → List HG) (bc : Int) (nodes : List Nat) (w : Nat → K)
    (hc : SlotsConsistent table nodes) :
    (∀ i ∈ nodes, ∀ e ∈ table i, e.slot ≠ -1 → e.bc = bc →
      haloghostDirichlet value table bc nodes w e.slot.toNat = value e.slot.toNat) ∧
    (∀ k, (∀ i ∈ nodes, ∀ e ∈ table i, e.slot ≠ -1 → e.bc = bc → e.slot.toNat ≠ k) → haloghostDirichlet value table bc nodes w k = w k) :=
  haloghostLoop_spec _ table bc nodes w hc

/-- **C35** is false for non-slip: the value stored is minus the value of the halo cell *numbered like the slot*. -/
theorem C35_nonslip_reads_slot [Ring K] (w_halo : Nat → K) (table : Nat → List HG) (bc : Int) (nodes : List Nat) (w : Nat → K)
    (hc : SlotsConsistent table nodes) (i : Nat) (hi : i ∈ nodes) (e : HG) (he : e ∈ table i) (hs : e.slot ≠ -1) (hb : e.bc = bc) :
    haloghostNonslip w_halo table bc nodes w e.slot.toNat = - w_halo e.slot.toNat := by
  have := (haloghostLoop_spec (fun e => -1 * w_halo e.slot.toNat) table bc nodes w hc).1 i hi e he hs hb
  simpa [haloghostNonslip] using this

/-- A concrete case: the ghost of halo cell 1 (value 4) sits in slot 0; the non-slip value should be -4 but is minus the value of halo
cell 0 (value 9). -/
theorem C35_counterexample :
    haloghostNonslip (K := ℚ) (fun i => if i = 0 then 9 else 4) (fun _ => [⟨1, 3, 0⟩]) 3 [0] (fun _ => 0) 0 = -9 := by decide +kernel

/-- Non-vacuity of the consistency hypothesis: two nodes share the same ghost, a padding entry (slot -1) is ignored. -/
example : SlotsConsistent (fun i => if i = 0 then [⟨1, 3, 0⟩, ⟨-1, -1, -1⟩] else [⟨1, 3, 0⟩, ⟨2, 4, 1⟩]) [0, 5] := by
  simp [SlotsConsistent]

end haloghost

/-! ### C37 -/
section norm
variable {K : Type*} [Field K] [LinearOrder K] [IsStrictOrderedRing K]

theorem norml2_num (n : Nat) (e vol : Nat → K) (hv : ∀ i < n, 0 < vol i) :
    ((List.range n).map (fun i => |(|e i| * vol i)|)).sum = ∑ i ∈ Finset.range n, |e i| * vol i := by
  rw [list_sum_range]
  exact Finset.sum_congr rfl (fun i hi => abs_of_nonneg (mul_nonneg (abs_nonneg _) (hv i (Finset.mem_range.1 hi)).le))

theorem norml2_eq (n : Nat) (cell exact vol : Nat → K) (hv : ∀ i < n, 0 < vol i) :
    norml2 n cell exact vol
      = (∑ i ∈ Finset.range n, |cell i - exact i| * vol i) / (∑ i ∈ Finset.range n, |exact i| * vol i) := by
  unfold norml2
  rw [norml2_num n (fun i => cell i - exact i) vol hv, norml2_num n exact vol hv]

theorem wsum_nonneg (n : Nat) (e vol : Nat → K) (hv : ∀ i < n, 0 < vol i) : 0 ≤ ∑ i ∈ Finset.range n, |e i| * vol i :=
  Finset.sum_nonneg (fun i hi => mul_nonneg (abs_nonneg _) (hv i (Finset.mem_range.1 hi)).le)

theorem wsum_zero (n : Nat) (e vol : Nat → K) (hv : ∀ i < n, 0 < vol i) :
    ∑ i ∈ Finset.range n, |e i| * vol i = 0 ↔ ∀ i < n, e i = 0 := by
  rw [Finset.sum_eq_zero_iff_of_nonneg (fun i hi => mul_nonneg (abs_nonneg _) (hv i (Finset.mem_range.1 hi)).le)]
  constructor
  · intro h i hi
    have := h i (Finset.mem_range.2 hi)
    rcases mul_eq_zero.1 this with h | h
    · exact abs_eq_zero.1 h
    · exact absurd h (hv i hi).ne'
  · intro h i hi
    rw [h i (Finset.mem_range.1 hi)]; simp

/-- **C37**: with positive volumes and an exact solution that is not identically zero, the norm is nonnegative, and zero iff the two
fields agree in every cell. -/
theorem C37_zero_iff (n : Nat) (cell exact vol : Nat → K) (hv : ∀ i < n, 0 < vol i) (hne : ∃ i < n, exact i ≠ 0) :
    0 ≤ norml2 n cell exact vol ∧ (norml2 n cell exact vol = 0 ↔ ∀ i < n, cell i = exact i) := by
  rw [norml2_eq n cell exact vol hv]
  have hden : ∑ i ∈ Finset.range n, |exact i| * vol i ≠ 0 := by
    intro h
    obtain ⟨i, hi, h0⟩ := hne
    exact h0 ((wsum_zero n exact vol hv).1 h i hi)
  refine ⟨div_nonneg (wsum_nonneg n (fun i => cell i - exact i) vol hv) (wsum_nonneg n exact vol hv), ?_⟩
  rw [div_eq_zero_iff, or_iff_left hden, wsum_zero n (fun i => cell i - exact i) vol hv]
  simp [sub_eq_zero]

/-- **C37** (scaling): multiplying both fields by a nonzero constant leaves the relative norm unchanged; multiplying the error
`cell - exact` by `c` multiplies it by `|c|`. -/
theorem C37_scaling (n : Nat) (cell exact vol : Nat → K) (hv : ∀ i < n, 0 < vol i) (c : K) :
    (c ≠ 0 → norml2 n (fun i => c * cell i) (fun i => c * exact i) vol = norml2 n cell exact vol) ∧
    norml2 n (fun i => exact i + c * (cell i - exact i)) exact vol = |c| * norml2 n cell exact vol := by
  have scale : ∀ e : Nat → K, ∑ i ∈ Finset.range n, |c * e i| * vol i = |c| * ∑ i ∈ Finset.range n, |e i| * vol i := by
    intro e
    rw [Finset.mul_sum]
    exact Finset.sum_congr rfl (fun i _ => by rw [abs_mul, mul_assoc])
  constructor
  · intro hc
    rw [norml2_eq n _ _ vol hv, norml2_eq n _ _ vol hv]
    have : ∀ i, c * cell i - c * exact i = c * (cell i - exact i) := fun i => by ring
    simp only [this]
    rw [scale exact, scale (fun i => cell i - exact i), mul_div_mul_left _ _ (abs_ne_zero.2 hc)]
  · rw [norml2_eq n _ _ vol hv, norml2_eq n _ _ vol hv]
    have : ∀ i, exact i + c * (cell i - exact i) - exact i = c * (cell i - exact i) := fun i => by ring
    simp only [this]
    rw [scale (fun i => cell i - exact i), mul_div_assoc]

/-- **C37** (triangle inequality): the (unnormalised) error is a metric: with a common reference the norm of `a - exact` is at most
that of `b - exact` plus the weighted distance of `a` and `b`. -/
theorem C37_triangle (n : Nat) (a b exact vol : Nat → K) (hv : ∀ i < n, 0 < vol i) :
    norml2 n a exact vol ≤ norml2 n b exact vol
      + (∑ i ∈ Finset.range n, |a i - b i| * vol i) / (∑ i ∈ Finset.range n, |exact i| * vol i) := by
  rw [norml2_eq n _ _ vol hv, norml2_eq n _ _ vol hv, ← add_div]
  refine div_le_div_of_nonneg_right ?_ (wsum_nonneg n exact vol hv)
  rw [← Finset.sum_add_distrib]
  refine Finset.sum_le_sum (fun i hi => ?_)
  rw [← add_mul]
  refine mul_le_mul_of_nonneg_right ?_ (hv i (Finset.mem_range.1 hi)).le
  calc |a i - exact i| = |(b i - exact i) + (a i - b i)| := by ring_nf
    _ ≤ _ := abs_add_le _ _

/-- Non-vacuity. -/
example : norml2 (K := ℚ) 2 (fun i => i) (fun _ => 1) (fun _ => 1/2) = 1/2 := by decide +kernel

end norm
end Verif.Var
