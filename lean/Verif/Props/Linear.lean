import Verif.Model.RunVar
import Mathlib.Algebra.Module.Submodule.Basic
import Mathlib.Algebra.Module.Submodule.Lattice
import Mathlib.Algebra.Module.Pi

/-!
# Helper lemmas: updates, exchanges and gradients keep linear relations between variables (towards C120, C121)
-/
set_option linter.unusedSectionVars false
set_option linter.unusedSimpArgs false
set_option linter.unusedVariables false
namespace Verif.Props.Par
open Verif Verif.Dom Verif.Fvm Verif.MeshFile Verif.Comm Verif.HaloGhost Verif.Run

theorem mapM_opt_map {α β γ : Type*} (l : List α) (f : α → Option β) (g : β → γ) :
    l.mapM (fun a => (f a).map g) = (l.mapM f).map (List.map g) := by
  induction l with
  | nil => simp
  | cons a t ih =>
    rw [List.mapM_cons, List.mapM_cons, ih]
    cases f a with
    | none => rfl
    | some b =>
      cases t.mapM f with
      | none => rfl
      | some c => rfl

theorem block_map {α β : Type*} (f : α → β) (counts : List Nat) (buf : List α) (i : Nat) :
    block counts (buf.map f) i = (block counts buf i).map f := by
  unfold block; rw [← List.map_drop, ← List.map_take]

theorem alltoallv_map {α β : Type*} (f : α → β) (nbr : Nat → List Nat) (scount rcount : Nat → List Nat) (send : Nat → List α) (p : Nat) :
    neighborAlltoallv nbr scount rcount (fun q => (send q).map f) p = (neighborAlltoallv nbr scount rcount send p).map (List.map f) := by
  unfold neighborAlltoallv
  have : ∀ j, (fun j => let q := (nbr p).getD j 0
    let b := block (scount q) ((send q).map f) ((nbr q).idxOf p)
    if b.length = (rcount p).getD j 0 ∧ p ∈ nbr q ∧ (scount q).length = (nbr q).length then some b else none) j =
      ((fun j => let q := (nbr p).getD j 0
    let b := block (scount q) (send q) ((nbr q).idxOf p)
    if b.length = (rcount p).getD j 0 ∧ p ∈ nbr q ∧ (scount q).length = (nbr q).length then some b else none) j).map (List.map f) := by
    intro j
    dsimp only
    rw [block_map, List.length_map]
    split <;> rfl
  rw [show (fun j => let q := (nbr p).getD j 0
    let b := block (scount q) ((send q).map f) ((nbr q).idxOf p)
    if b.length = (rcount p).getD j 0 ∧ p ∈ nbr q ∧ (scount q).length = (nbr q).length then some b else none) = _ from funext this,
    mapM_opt_map, Option.map_map, Option.map_map]
  congr 1
  funext l
  simp [Function.comp, List.map_flatten]

theorem mapM_opt_mem {α β : Type*} (l : List α) (f : α → Option β) {r : List β} (h : l.mapM f = some r) {b : β} (hb : b ∈ r) : ∃ a ∈ l, f a = some b := by
  induction l generalizing r with
  | nil => simp at h; subst h; simp at hb
  | cons a t ih =>
    rw [List.mapM_cons] at h
    cases e : f a with
    | none => rw [e] at h; simp at h
    | some x =>
      cases e' : t.mapM f with
      | none => rw [e, e'] at h; simp at h
      | some y =>
        rw [e, e'] at h
        have h : x :: y = r := by simpa using h
        subst h
        rcases List.mem_cons.mp hb with rfl | hb
        · exact ⟨a, by simp, e⟩
        · obtain ⟨a', ha, e2⟩ := ih e' hb
          exact ⟨a', by simp [ha], e2⟩

theorem alltoallv_mem {α : Type*} (nbr : Nat → List Nat) (scount rcount : Nat → List Nat) (send : Nat → List α) (p : Nat) {l : List α}
    (h : neighborAlltoallv nbr scount rcount send p = some l) {x : α} (hx : x ∈ l) : ∃ q, x ∈ send q := by
  unfold neighborAlltoallv at h
  rw [Option.map_eq_some_iff] at h
  obtain ⟨bs, e, rfl⟩ := h
  obtain ⟨b, hb, hxb⟩ := List.mem_flatten.mp hx
  obtain ⟨j, _, ej⟩ := mapM_opt_mem _ _ e hb
  dsimp only at ej
  split at ej
  · injection ej with ej
    subst ej
    exact ⟨_, List.mem_of_mem_drop (List.mem_of_mem_take hxb)⟩
  · exact absurd ej (by simp)

/-- The halo array of a rank is a list of cell values of the ranks, taken at places that do not depend on the values. -/
theorem exchange_places {K : Type*} [Field K] [LinearOrder K] (SIZE : Nat) (data : Nat → RankData K) (p : Nat) :
    ∃ o : Option (List (Nat × Nat)), (∀ l, o = some l → ∀ x ∈ l, x.1 < SIZE) ∧
      ∀ cell : Nat → Nat → K, Run.exchange SIZE data cell p = o.map (List.map (fun x => cell x.1 x.2)) := by
  by_cases h1 : SIZE = 1
  · exact ⟨some [], fun l e x hx => (by injection e with e; subst e; simp at hx), fun cell => by unfold Run.exchange; rw [if_pos h1]; rfl⟩
  · let o : Option (List (Nat × Nat)) := ((List.range SIZE).mapM (fun q => (indsend (data q).globtoloc (data q).halosint).map
      (fun ind => ind.map (fun i => (q, i))))).bind (fun send =>
        neighborAlltoallv (fun q => ((data q).neigh).getD 0 []) (fun q => positive SIZE (scountArr (data q).neigh))
          (fun q => positive SIZE (rcountArr (fun q => (data q).neigh) q)) (fun q => send.getD q []) p)
    refine ⟨o, ?_, fun cell => ?_⟩
    · intro l e x hx
      obtain ⟨send, es, el⟩ := Option.bind_eq_some_iff.mp e
      obtain ⟨q, hq⟩ := alltoallv_mem _ _ _ _ _ el hx
      rw [List.getD_eq_getElem?_getD] at hq
      cases e2 : send[q]? with
      | none => rw [e2] at hq; simp at hq
      | some b =>
        rw [e2] at hq
        obtain ⟨q', hq', e3⟩ := mapM_opt_mem _ _ es (List.mem_of_getElem? e2)
        rw [Option.map_eq_some_iff] at e3
        obtain ⟨ind, _, rfl⟩ := e3
        obtain ⟨i, _, rfl⟩ := List.mem_map.mp hq
        exact List.mem_range.mp hq'
    unfold Run.exchange
    rw [if_neg h1]
    unfold updateHalo
    have e : (List.range SIZE).mapM (fun q => (indsend (data q).globtoloc (data q).halosint).map (halosend (cell q))) =
        ((List.range SIZE).mapM (fun q => (indsend (data q).globtoloc (data q).halosint).map (fun ind => ind.map (fun i => (q, i))))).map
          (List.map (List.map (fun x : Nat × Nat => cell x.1 x.2))) := by
      rw [← mapM_opt_map]
      congr 1
      funext q
      rw [Option.map_map]
      congr 1
      funext ind
      simp [halosend, Function.comp]
    dsimp only
    rw [e]
    dsimp only [o]
    cases (List.range SIZE).mapM (fun q => (indsend (data q).globtoloc (data q).halosint).map (fun ind => ind.map (fun i => (q, i)))) with
    | none => rfl
    | some send =>
      simp only [Option.map_some, Option.bind_some, Option.bind_eq_bind]
      rw [← alltoallv_map]
      congr 1
      funext q
      simp only [List.getD_eq_getElem?_getD, List.getElem?_map]
      cases send[q]? <;> rfl

/-- The halo arrays of all ranks. -/
theorem exchangeAll_places {K : Type*} [Field K] [LinearOrder K] (W : World K) :
    ∃ o : Option (Nat → List (Nat × Nat)), (∀ l, o = some l → ∀ p, ∀ x ∈ l p, x.1 < W.SIZE) ∧
      ∀ cell : Nat → Nat → K, exchangeAll W cell = o.map (fun l p => (l p).map (fun x => cell x.1 x.2)) := by
  choose o hlt ho using fun p => exchange_places W.SIZE W.data p
  refine ⟨((List.range W.SIZE).mapM o).map (fun l p => l.getD p []), ?_, fun cell => ?_⟩
  · intro l e p x hx
    rw [Option.map_eq_some_iff] at e
    obtain ⟨ls, e, rfl⟩ := e
    beta_reduce at hx
    rw [List.getD_eq_getElem?_getD] at hx
    cases e2 : ls[p]? with
    | none => rw [e2] at hx; simp at hx
    | some b =>
      rw [e2] at hx
      obtain ⟨q, _, e3⟩ := mapM_opt_mem _ _ e (List.mem_of_getElem? e2)
      exact hlt q b e3 x hx
  unfold exchangeAll
  rw [show Run.exchange W.SIZE W.data cell = fun p => (o p).map (List.map (fun x => cell x.1 x.2)) from funext fun p => ho p cell, mapM_opt_map,
    Option.map_map, Option.map_map]
  congr 1
  funext l p
  simp only [Function.comp, List.getD_eq_getElem?_getD, List.getElem?_map]
  cases l[p]? <;> rfl

/-! ### families of arrays whose values satisfy linear relations -/

section
variable {K : Type*} [Field K] [LinearOrder K] {ι : Type*} (R : Submodule K (ι → K))

/-- The values of the family at every index satisfy the relations. -/
def RelAll (f : ι → Nat → K) : Prop := ∀ j, (fun i => f i j) ∈ R

/-- A family of in-place updates of arrays: the entries in `T` are overwritten by related values, the others are kept. -/
def Writes (T : Set Nat) (F : ι → (Nat → K) → Nat → K) : Prop :=
  ∃ v : ι → Nat → K, (∀ j ∈ T, (fun i => v i j) ∈ R) ∧ ∀ i g j, (j ∈ T → F i g j = v i j) ∧ (j ∉ T → F i g j = g j)

theorem Writes.id : Writes R ∅ (fun _ g => g) := ⟨fun _ _ => 0, fun j hj => absurd hj (by simp), fun i g j => ⟨fun h => absurd h (by simp), fun _ => rfl⟩⟩

theorem Writes.set (k : Nat) (x : ι → K) (hx : x ∈ R) : Writes R {k} (fun i g => setAt g k (x i)) := by
  refine ⟨fun i _ => x i, fun j _ => hx, fun i g j => ⟨fun h => ?_, fun h => ?_⟩⟩
  · rw [Set.mem_singleton_iff] at h; simp [setAt, h]
  · rw [Set.mem_singleton_iff] at h; simp [setAt, h]

theorem Writes.comp {T T' : Set Nat} {F F' : ι → (Nat → K) → Nat → K} (h : Writes R T F) (h' : Writes R T' F') :
    Writes R (T ∪ T') (fun i g => F' i (F i g)) := by
  classical
  obtain ⟨v, hv, e⟩ := h
  obtain ⟨v', hv', e'⟩ := h'
  refine ⟨fun i j => if j ∈ T' then v' i j else v i j, fun j hj => ?_, fun i g j => ⟨fun hj => ?_, fun hj => ?_⟩⟩
  · by_cases h : j ∈ T'
    · simp only [h, if_true]; exact hv' j h
    · simp only [h, if_false]; exact hv j (hj.resolve_right h)
  · beta_reduce
    by_cases h : j ∈ T'
    · rw [(e' i _ j).1 h, if_pos h]
    · rw [(e' i _ j).2 h, if_neg h, (e i g j).1 (hj.resolve_right h)]
  · beta_reduce
    rw [(e' i _ j).2 (fun h => hj (.inr h)), (e i g j).2 (fun h => hj (.inl h))]

theorem Writes.foldl {α : Type*} (l : List α) (F : α → ι → (Nat → K) → Nat → K) (T : α → Set Nat) (h : ∀ a ∈ l, Writes R (T a) (F a)) :
    Writes R {j | ∃ a ∈ l, j ∈ T a} (fun i g => l.foldl (fun g a => F a i g) g) := by
  induction l with
  | nil =>
    have : {j | ∃ a ∈ ([] : List α), j ∈ T a} = ∅ := by ext j; simp
    rw [this]; exact Writes.id R
  | cons a t ih =>
    have := Writes.comp R (h a (by simp)) (ih (fun b hb => h b (by simp [hb])))
    have e : {j | ∃ b ∈ a :: t, j ∈ T b} = T a ∪ {j | ∃ b ∈ t, j ∈ T b} := by
      ext j; simp
    rw [e]; exact this

theorem Writes.rel {T : Set Nat} {F : ι → (Nat → K) → Nat → K} (h : Writes R T F) {g : ι → Nat → K} (hg : ∀ j, j ∉ T → (fun i => g i j) ∈ R) :
    RelAll R (fun i => F i (g i)) := by
  obtain ⟨v, hv, e⟩ := h
  intro j
  by_cases hj : j ∈ T
  · simp only [(e _ _ j).1 hj]; exact hv j hj
  · simp only [(e _ _ j).2 hj]; exact hg j hj

theorem Writes.keep {T : Set Nat} {F : ι → (Nat → K) → Nat → K} (h : Writes R T F) (i : ι) (g : Nat → K) {j : Nat} (hj : j ∉ T) : F i g j = g j := by
  obtain ⟨v, hv, e⟩ := h
  exact (e i g j).2 hj

/-- The boundary conditions of the family: of the same kind, with related prescribed values. -/
def BcRel (bc : ι → Int → BCond K) (loc : Int) : Prop :=
  (∀ i, bc i loc = .neumann) ∨ (∀ i, bc i loc = .nonslip) ∨
    ∃ v : ι → K → K → K → K, (∀ i, bc i loc = .dirichlet (v i)) ∧ ∀ x y z, (fun i => v i x y z) ∈ R

theorem smul_rel {f : ι → K} (h : f ∈ R) (c : K) : (fun i => c * f i) ∈ R := R.smul_mem c h

theorem add_rel {f g : ι → K} (hf : f ∈ R) (hg : g ∈ R) : (fun i => f i + g i) ∈ R := R.add_mem hf hg

theorem sub_rel {f g : ι → K} (hf : f ∈ R) (hg : g ∈ R) : (fun i => f i - g i) ∈ R := R.sub_mem hf hg

theorem zero_rel : (fun _ : ι => (0 : K)) ∈ R := R.zero_mem

/-- The faces whose ghost value is written by `update_ghost_value`. -/
def ghostSet (dim : Nat) (D : Tables K) : Set Nat := {j | ∃ loc ∈ locNames dim, j ∈ {j | ∃ f ∈ Var.facesNamed D.name D.nbfaces loc, j ∈ ({f} : Set Nat)}}

theorem writes_ghosts (dim : Nat) (D : Tables K) (cell : ι → Nat → K) (bc : ι → Int → BCond K) (hc : RelAll R cell)
    (hb : ∀ loc, BcRel R bc loc) : Writes R (ghostSet dim D) (fun i g => updateGhosts dim D (cell i) (bc i) g) := by
  unfold updateGhosts ghostSet
  refine Writes.foldl R (locNames dim) (fun loc i g => ghostOne D (cell i) (bc i loc) loc g) (fun loc => {j | ∃ f ∈ Var.facesNamed D.name D.nbfaces loc, j ∈ ({f} : Set Nat)}) (fun loc _ => ?_)
  rcases hb loc with e | e | ⟨v, e, hv⟩
  · have : (fun i g => ghostOne D (cell i) (bc i loc) loc g) = fun i g =>
        (Var.facesNamed D.name D.nbfaces loc).foldl (fun g f => setAt g f (cell i (idx (D.cellid f 0)))) g := by
      funext i g; rw [e i]; rfl
    rw [this]
    exact Writes.foldl R _ (fun f i g => setAt g f (cell i (idx (D.cellid f 0)))) _ (fun f _ => Writes.set R f _ (hc _))
  · have : (fun i g => ghostOne D (cell i) (bc i loc) loc g) = fun i g =>
        (Var.facesNamed D.name D.nbfaces loc).foldl (fun g f => setAt g f (-1 * cell i (idx (D.cellid f 0)))) g := by
      funext i g; rw [e i]; rfl
    rw [this]
    exact Writes.foldl R _ (fun f i g => setAt g f (-1 * cell i (idx (D.cellid f 0)))) _ (fun f _ => Writes.set R f _ (smul_rel R (hc _) _))
  · have : (fun i g => ghostOne D (cell i) (bc i loc) loc g) = fun i g =>
        (Var.facesNamed D.name D.nbfaces loc).foldl (fun g f => setAt g f (v i (D.fcenter f 0) (D.fcenter f 1) (D.fcenter f 2))) g := by
      funext i g; rw [e i]; rfl
    rw [this]
    exact Writes.foldl R _ (fun f i g => setAt g f (v i (D.fcenter f 0) (D.fcenter f 1) (D.fcenter f 2))) _ (fun f _ => Writes.set R f _ (hv _ _ _))

/-- The prescribed values at the halo ghosts. -/
theorem valuehalo_rel (dim : Nat) (D : Tables K) (hg : HGResult K) (bc : ι → Int → BCond K) (hb : ∀ loc, BcRel R bc loc) :
    RelAll R (fun i => valuehalo dim D hg (bc i)) := by
  unfold valuehalo
  have hw : ∀ loc, ∃ T, Writes R T (fun i g => valuehaloOne D hg (bc i loc) loc g) := by
    intro loc
    rcases hb loc with e | e | ⟨v, e, hv⟩
    · have : (fun i g => valuehaloOne D hg (bc i loc) loc g) = fun i g => g := by funext i g; rw [e i]; rfl
      exact ⟨∅, by rw [this]; exact Writes.id R⟩
    · have : (fun i g => valuehaloOne D hg (bc i loc) loc g) = fun i g => g := by funext i g; rw [e i]; rfl
      exact ⟨∅, by rw [this]; exact Writes.id R⟩
    · have h2 : ∀ n j, ∃ T, Writes R T (fun i vh => match (hg.haloghosts n)[j]? with
          | some r => if r.last ≠ -1 then setAt vh r.last.toNat (Var.lambdaAtSlot (v i) ((hg.haloinfo n).getD j [])) else vh
          | none => vh) := by
        intro n j
        cases (hg.haloghosts n)[j]? with
        | none => exact ⟨_, Writes.id R⟩
        | some r =>
          by_cases hr : r.last ≠ -1
          · have e : (fun i vh => if r.last ≠ -1 then setAt vh r.last.toNat (Var.lambdaAtSlot (v i) ((hg.haloinfo n).getD j [])) else vh) =
                fun i vh => setAt vh r.last.toNat (Var.lambdaAtSlot (v i) ((hg.haloinfo n).getD j [])) := by
              funext i vh; exact if_pos hr
            dsimp only; rw [e]
            exact ⟨_, Writes.set R _ (fun i => Var.lambdaAtSlot (v i) ((hg.haloinfo n).getD j [])) (hv _ _ _)⟩
          · have e : (fun i vh => if r.last ≠ -1 then setAt vh r.last.toNat (Var.lambdaAtSlot (v i) ((hg.haloinfo n).getD j [])) else vh) =
                fun i vh => vh := by
              funext i vh; exact if_neg hr
            dsimp only; rw [e]
            exact ⟨_, Writes.id R⟩
      choose T hT using h2
      have : (fun i g => valuehaloOne D hg (bc i loc) loc g) = fun i g =>
            ((List.range D.nbnodes).filter (fun i => D.oldname i = loc)).foldl (fun vh n =>
              (List.range (hg.haloghosts n).length).foldl (fun vh j => match (hg.haloghosts n)[j]? with
                | some r => if r.last ≠ -1 then setAt vh r.last.toNat (Var.lambdaAtSlot (v i) ((hg.haloinfo n).getD j [])) else vh
                | none => vh) vh) g := by
        funext i g; rw [e i]; rfl
      rw [this]
      exact ⟨_, Writes.foldl R _ (fun n i vh => (List.range (hg.haloghosts n).length).foldl (fun vh j => match (hg.haloghosts n)[j]? with
              | some r => if r.last ≠ -1 then setAt vh r.last.toNat (Var.lambdaAtSlot (v i) ((hg.haloinfo n).getD j [])) else vh
              | none => vh) vh) _ (fun n _ => Writes.foldl R _ (fun j i vh => match (hg.haloghosts n)[j]? with
              | some r => if r.last ≠ -1 then setAt vh r.last.toNat (Var.lambdaAtSlot (v i) ((hg.haloinfo n).getD j [])) else vh
              | none => vh) _ (fun j _ => hT n j))⟩
  choose T hT using hw
  exact (Writes.foldl R (locNames dim) (fun loc i g => valuehaloOne D hg (bc i loc) loc g) T (fun loc _ => hT loc)).rel R
    (g := fun _ _ => 0) (fun _ _ => zero_rel R)

/-- The slots written by one entry of the table of halo ghosts. -/
def slotSet (e : Var.HG) (loc : Int) : Set Nat := if e.slot ≠ -1 ∧ e.bc = loc then {e.slot.toNat} else ∅

theorem writes_loop (table : Nat → List Var.HG) (loc : Int) (nodes : List Nat) (f : ι → Var.HG → K) (hf : ∀ e, (fun i => f i e) ∈ R) :
    Writes R {j | ∃ n ∈ nodes, j ∈ {j | ∃ e ∈ table n, j ∈ slotSet e loc}} (fun i w => Var.haloghostLoop (f i) table loc nodes w) := by
  unfold Var.haloghostLoop
  refine Writes.foldl R nodes (fun n i w => (table n).foldl (fun w e => if e.slot ≠ -1 then if e.bc = loc then setAt w e.slot.toNat (f i e) else w else w) w)
    (fun n => {j | ∃ e ∈ table n, j ∈ slotSet e loc}) (fun n _ => ?_)
  refine Writes.foldl R (table n) (fun e i w => if e.slot ≠ -1 then if e.bc = loc then setAt w e.slot.toNat (f i e) else w else w)
    (fun e => slotSet e loc) (fun e _ => ?_)
  unfold slotSet
  by_cases h : e.slot ≠ -1 ∧ e.bc = loc
  · rw [if_pos h]
    have : (fun i w => if e.slot ≠ -1 then if e.bc = loc then setAt w e.slot.toNat (f i e) else w else w) = fun i w => setAt w e.slot.toNat (f i e) := by
      funext i w; rw [if_pos h.1, if_pos h.2]
    rw [this]; exact Writes.set R _ _ (hf e)
  · rw [if_neg h]
    have : (fun i w => if e.slot ≠ -1 then if e.bc = loc then setAt w e.slot.toNat (f i e) else w else w) = fun i w => w := by
      funext i w
      by_cases h1 : e.slot ≠ -1
      · rw [if_pos h1, if_neg (fun h2 => h ⟨h1, h2⟩)]
      · rw [if_neg h1]
    rw [this]; exact Writes.id R

/-- The halo ghosts written by `update_ghost_value`. -/
def haloghostSet (dim : Nat) (D : Tables K) (hg : HGResult K) : Set Nat :=
  {j | ∃ loc ∈ locNames dim, j ∈ {j | ∃ n ∈ halonodes D, j ∈ {j | ∃ e ∈ hgTable hg n, j ∈ slotSet e loc}}}

theorem writes_haloghosts (dim : Nat) (D : Tables K) (hg : HGResult K) (whalo : ι → Nat → K) (bc : ι → Int → BCond K) (hw : RelAll R whalo)
    (hb : ∀ loc, BcRel R bc loc) :
    Writes R (haloghostSet dim D hg) (fun i g => updateHaloghosts dim D hg (halonodes D) (whalo i) (bc i) g) := by
  unfold updateHaloghosts haloghostSet
  refine Writes.foldl R (locNames dim) (fun loc i g => haloghostOne hg (halonodes D) (whalo i) (valuehalo dim D hg (bc i)) (bc i loc) loc g)
    (fun loc => {j | ∃ n ∈ halonodes D, j ∈ {j | ∃ e ∈ hgTable hg n, j ∈ slotSet e loc}}) (fun loc _ => ?_)
  rcases hb loc with e | e | ⟨v, e, hv⟩
  · have : (fun i g => haloghostOne hg (halonodes D) (whalo i) (valuehalo dim D hg (bc i)) (bc i loc) loc g) = fun i g =>
        Var.haloghostLoop ((fun i e => whalo i e.cellhalo.toNat) i) (hgTable hg) loc (halonodes D) g := by
      funext i g; rw [e i]; rfl
    rw [this]
    exact writes_loop R _ loc _ _ (fun e => hw _)
  · have : (fun i g => haloghostOne hg (halonodes D) (whalo i) (valuehalo dim D hg (bc i)) (bc i loc) loc g) = fun i g =>
        Var.haloghostLoop ((fun i e => -1 * whalo i e.slot.toNat) i) (hgTable hg) loc (halonodes D) g := by
      funext i g; rw [e i]; rfl
    rw [this]
    exact writes_loop R _ loc _ _ (fun e => smul_rel R (hw _) _)
  · have : (fun i g => haloghostOne hg (halonodes D) (whalo i) (valuehalo dim D hg (bc i)) (bc i loc) loc g) = fun i g =>
        Var.haloghostLoop ((fun i e => valuehalo dim D hg (bc i) e.slot.toNat) i) (hgTable hg) loc (halonodes D) g := by
      funext i g; rw [e i]; rfl
    rw [this]
    exact writes_loop R _ loc _ _ (fun e => valuehalo_rel R dim D hg bc hb _)

/-- All four arrays of the variables of the family satisfy the relations. -/
structure Related (SIZE : Nat) (U : ι → Nat → Vari K) : Prop where
  cell : ∀ p < SIZE, RelAll R (fun i => (U i p).cell)
  ghost : ∀ p < SIZE, RelAll R (fun i => (U i p).ghost)
  haloghost : ∀ p < SIZE, RelAll R (fun i => (U i p).haloghost)
  halo : ∀ p < SIZE, RelAll R (fun i k => (U i p).halo.getD k 0)

/-- The cells do, and the entries of the other arrays that no update writes. -/
structure Relat0 (W : World K) (U : ι → Nat → Vari K) : Prop where
  cell : ∀ p < W.SIZE, RelAll R (fun i => (U i p).cell)
  ghost : ∀ p < W.SIZE, ∀ j, j ∉ ghostSet W.dim (W.D p) → (fun i => (U i p).ghost j) ∈ R
  haloghost : ∀ p < W.SIZE, ∀ j, j ∉ haloghostSet W.dim (W.D p) (W.hg p) → (fun i => (U i p).haloghost j) ∈ R

theorem Related.weak {W : World K} {U : ι → Nat → Vari K} (h : Related R W.SIZE U) : Relat0 R W U :=
  ⟨h.cell, fun p hp j _ => h.ghost p hp j, fun p hp j _ => h.haloghost p hp j⟩

theorem exchangeAll_rel {W : World K} {a : ι → Nat → Nat → K} {b : ι → Nat → List K} (ha : ∀ p < W.SIZE, RelAll R (fun i => a i p))
    (h : ∀ i, exchangeAll W (a i) = some (b i)) (p : Nat) : RelAll R (fun i k => (b i p).getD k 0) := by
  obtain ⟨o, hlt, ho⟩ := exchangeAll_places W
  cases ho' : o with
  | none =>
    subst ho'
    intro k
    by_cases hi : Nonempty ι
    · obtain ⟨i⟩ := hi
      have := h i
      rw [ho] at this; exact absurd this (by simp)
    · have : (fun i : ι => (b i p).getD k 0) = fun _ => 0 := by funext i; exact absurd ⟨i⟩ hi
      rw [this]; exact zero_rel R
  | some l =>
    subst ho'
    have e : ∀ i, b i = fun p => (l p).map (fun x => a i x.1 x.2) := by
      intro i
      have := h i
      rw [ho] at this
      exact (Option.some.inj this).symm
    intro k
    simp only [e, List.getD_eq_getElem?_getD, List.getElem?_map]
    cases e2 : (l p)[k]? with
    | none => exact zero_rel R
    | some x => exact ha _ (hlt l rfl p x (List.mem_of_getElem? e2)) _

theorem updateValues_rel {W : World K} {bc : ι → Int → BCond K} {U U' : ι → Nat → Vari K} (hb : ∀ loc, BcRel R bc loc)
    (h0 : Relat0 R W U) (h : ∀ i, updateValues W (bc i) (U i) = some (U' i)) : Related R W.SIZE U' := by
  have : ∀ i, ∃ b, exchangeAll W (fun p => (U i p).cell) = some b ∧ U' i = updateGhostValue W (bc i) (fun p => { U i p with halo := b p }) := by
    intro i
    have := h i
    unfold updateValues updateHaloValue at this
    rw [Option.map_map, Option.map_eq_some_iff] at this
    obtain ⟨b, e, e'⟩ := this
    exact ⟨b, e, e'.symm⟩
  choose b hb1 hb2 using this
  have hh := exchangeAll_rel R h0.cell hb1
  refine ⟨fun p hp => ?_, fun p hp => ?_, fun p hp => ?_, fun p hp => ?_⟩
  · simp only [hb2]; exact h0.cell p hp
  · simp only [hb2]
    exact (writes_ghosts R W.dim (W.D p) (fun i => (U i p).cell) bc (h0.cell p hp) hb).rel R (h0.ghost p hp)
  · simp only [hb2]
    exact (writes_haloghosts R W.dim (W.D p) (W.hg p) (fun i k => (b i p).getD k 0) bc (hh p) hb).rel R (h0.haloghost p hp)
  · simp only [hb2]; exact hh p

end

/-- What an update leaves alone. -/
theorem updateValues_keep {K : Type*} [Field K] [LinearOrder K] {W : World K} {bc : Int → BCond K} {V V' : Nat → Vari K}
    (h : updateValues W bc V = some V') (p : Nat) : (V' p).cell = (V p).cell ∧
      (∀ j, j ∉ ghostSet W.dim (W.D p) → (V' p).ghost j = (V p).ghost j) ∧
      (∀ j, j ∉ haloghostSet W.dim (W.D p) (W.hg p) → (V' p).haloghost j = (V p).haloghost j) := by
  unfold updateValues updateHaloValue at h
  rw [Option.map_map, Option.map_eq_some_iff] at h
  obtain ⟨b, e, rfl⟩ := h
  have hb : ∀ loc, BcRel (⊤ : Submodule K (Unit → K)) (fun _ => bc) loc := by
    intro loc
    cases e : bc loc with
    | neumann => exact .inl fun _ => e
    | nonslip => exact .inr (.inl fun _ => e)
    | dirichlet v => exact .inr (.inr ⟨fun _ => v, fun _ => e, fun _ _ _ => trivial⟩)
  refine ⟨rfl, fun j hj => ?_, fun j hj => ?_⟩
  · exact (writes_ghosts (⊤ : Submodule K (Unit → K)) W.dim (W.D p) (fun _ => (V p).cell) (fun _ => bc) (fun _ => trivial) hb).keep _ () _ hj
  · exact (writes_haloghosts (⊤ : Submodule K (Unit → K)) W.dim (W.D p) (W.hg p) (fun _ k => (b p).getD k 0) (fun _ => bc) (fun _ => trivial) hb).keep _ () _ hj

/-! ### the kernels keep linear relations -/

theorem foldl_family {ι σ α : Type*} (P : (ι → σ) → Prop) (l : List α) (f : α → ι → σ → σ) (h : ∀ a ∈ l, ∀ s, P s → P (fun i => f a i (s i)))
    (s : ι → σ) (h0 : P s) : P (fun i => l.foldl (fun s a => f a i s) (s i)) := by
  induction l generalizing s with
  | nil => exact h0
  | cons a t ih => exact ih (fun b hb => h b (by simp [hb])) (fun i => f a i (s i)) (h a (by simp) s h0)

section
variable {K : Type*} [Field K] [LinearOrder K] {ι : Type*} (R : Submodule K (ι → K))

/-- The values received by the interpolation kernels. -/
structure FieldsRel (w : ι → Interp.Fields K) : Prop where
  c : RelAll R (fun i => (w i).c)
  ghost : RelAll R (fun i => (w i).ghost)
  halo : RelAll R (fun i => (w i).halo)
  haloghost : RelAll R (fun i => (w i).haloghost)

theorem Related.fields {SIZE : Nat} {U : ι → Nat → Vari K} (h : Related R SIZE U) {p : Nat} (hp : p < SIZE) : FieldsRel R (fun i => (U i p).fields) :=
  ⟨h.cell p hp, h.ghost p hp, h.halo p hp, h.haloghost p hp⟩

/-- The sums of the least-squares gradient: common moments, related right-hand sides. -/
def Grad2Rel (a : ι → Interp.Grad2 K) : Prop :=
  (∃ xx yy xy, ∀ i, (a i).xx = xx ∧ (a i).yy = yy ∧ (a i).xy = xy) ∧ (fun i => (a i).xw) ∈ R ∧ (fun i => (a i).yw) ∈ R

theorem gradStep2_rel (c pt : Geo.Vec K) (wi val : ι → K) (hw : wi ∈ R) (hv : val ∈ R) (a : ι → Interp.Grad2 K) (h : Grad2Rel R a) :
    Grad2Rel R (fun i => Interp.gradStep2 c (wi i) (a i) pt (val i)) := by
  obtain ⟨⟨xx, yy, xy, e⟩, h1, h2⟩ := h
  refine ⟨⟨xx + (pt 0 - c 0) * (pt 0 - c 0), yy + (pt 1 - c 1) * (pt 1 - c 1), xy + (pt 0 - c 0) * (pt 1 - c 1), fun i => ?_⟩, ?_, ?_⟩
  · obtain ⟨a1, a2, a3⟩ := e i
    simp only [Interp.gradStep2, a1, a2, a3, and_self]
  · exact add_rel R h1 (smul_rel R (sub_rel R hv hw) _)
  · exact add_rel R h2 (smul_rel R (sub_rel R hv hw) _)

theorem gradSums2_rel (T : Interp.NodeTabs K) (C : Interp.CellTabs) (w : ι → Interp.Fields K) (h : FieldsRel R w) (c : Nat) :
    Grad2Rel R (fun i => Interp.gradSums2 T C (w i) c) := by
  have st : ∀ pt (val : ι → K), val ∈ R → ∀ a, Grad2Rel R a → Grad2Rel R (fun i => Interp.gradStep2 (T.centerc c) ((w i).c c) (a i) pt (val i)) :=
    fun pt val hv a ha => gradStep2_rel R (T.centerc c) pt (fun i => (w i).c c) val (h.c c) hv a ha
  unfold Interp.gradSums2
  dsimp only
  have s0 : Grad2Rel R (fun _ : ι => (⟨0, 0, 0, 0, 0⟩ : Interp.Grad2 K)) := ⟨⟨0, 0, 0, fun _ => ⟨rfl, rfl, rfl⟩⟩, zero_rel R, zero_rel R⟩
  have s1 := foldl_family (Grad2Rel R) (C.cellnid c)
    (fun cell i a => Interp.gradStep2 (T.centerc c) ((w i).c c) a (T.centerc cell) ((w i).c cell)) (fun cell _ a ha => st _ _ (h.c cell) a ha) _ s0
  have s2 := foldl_family (Grad2Rel R) (C.nodes c) (fun nod i a =>
      let a := if T.oldname nod = 11 ∨ T.oldname nod = 22 then
          (T.periodicn nod).foldl (fun a cell => Interp.gradStep2 (T.centerc c) ((w i).c c) a (Interp.shiftX (T.centerc cell) (T.shift cell)) ((w i).c cell)) a else a
      if T.oldname nod = 33 ∨ T.oldname nod = 44 then
        (T.periodicn nod).foldl (fun a cell => Interp.gradStep2 (T.centerc c) ((w i).c c) a (Interp.shiftY (T.centerc cell) (T.shift cell)) ((w i).c cell)) a else a)
    (fun nod _ a ha => by
      have b1 : Grad2Rel R (fun i => if T.oldname nod = 11 ∨ T.oldname nod = 22 then
          (T.periodicn nod).foldl (fun a cell => Interp.gradStep2 (T.centerc c) ((w i).c c) a (Interp.shiftX (T.centerc cell) (T.shift cell)) ((w i).c cell)) (a i) else a i) := by
        split
        · exact foldl_family (Grad2Rel R) (T.periodicn nod)
            (fun cell i a => Interp.gradStep2 (T.centerc c) ((w i).c c) a (Interp.shiftX (T.centerc cell) (T.shift cell)) ((w i).c cell))
            (fun cell _ a ha => st _ _ (h.c cell) a ha) _ ha
        · exact ha
      dsimp only
      split
      · exact foldl_family (Grad2Rel R) (T.periodicn nod)
            (fun cell i a => Interp.gradStep2 (T.centerc c) ((w i).c c) a (Interp.shiftY (T.centerc cell) (T.shift cell)) ((w i).c cell))
            (fun cell _ a ha => st _ _ (h.c cell) a ha) _ b1
      · exact b1) _ s1
  have s3 := foldl_family (Grad2Rel R) (C.halonid c)
    (fun cell i a => Interp.gradStep2 (T.centerc c) ((w i).c c) a (T.centerh cell) ((w i).halo cell)) (fun cell _ a ha => st _ _ (h.halo cell) a ha) _ s2
  refine foldl_family (Grad2Rel R) (C.nodes c) (fun nod i a =>
    let a := if T.oldname nod ≤ 4 then
        (T.ghosts nod).foldl (fun a g => if g.2 ≠ -1 then Interp.gradStep2 (T.centerc c) ((w i).c c) a g.1 ((w i).ghost g.2.toNat) else a) a else a
    (T.haloghosts nod).foldl (fun a g => if g.2 ≠ -1 then Interp.gradStep2 (T.centerc c) ((w i).c c) a g.1 ((w i).haloghost g.2.toNat) else a) a)
    (fun nod _ a ha => ?_) _ s3
  have b1 : Grad2Rel R (fun i => if T.oldname nod ≤ 4 then
      (T.ghosts nod).foldl (fun a g => if g.2 ≠ -1 then Interp.gradStep2 (T.centerc c) ((w i).c c) a g.1 ((w i).ghost g.2.toNat) else a) (a i) else a i) := by
    split
    · refine foldl_family (Grad2Rel R) (T.ghosts nod)
        (fun g i a => if g.2 ≠ -1 then Interp.gradStep2 (T.centerc c) ((w i).c c) a g.1 ((w i).ghost g.2.toNat) else a) (fun g _ a ha => ?_) _ ha
      split
      · exact st _ _ (h.ghost _) a ha
      · exact ha
    · exact ha
  refine foldl_family (Grad2Rel R) (T.haloghosts nod)
    (fun g i a => if g.2 ≠ -1 then Interp.gradStep2 (T.centerc c) ((w i).c c) a g.1 ((w i).haloghost g.2.toNat) else a) (fun g _ a ha => ?_) _ b1
  split
  · exact st _ _ (h.haloghost _) a ha
  · exact ha

theorem cellGradient2_rel (T : Interp.NodeTabs K) (C : Interp.CellTabs) (w : ι → Interp.Fields K) (h : FieldsRel R w) (c : Nat) :
    (fun i => (Interp.cellGradient2 T C (w i) c).1) ∈ R ∧ (fun i => (Interp.cellGradient2 T C (w i) c).2.1) ∈ R := by
  obtain ⟨⟨xx, yy, xy, e⟩, h1, h2⟩ := gradSums2_rel R T C w h c
  have e1 : (fun i => (Interp.cellGradient2 T C (w i) c).1) =
      fun i => (xx * yy - xy * xy)⁻¹ * (yy * (Interp.gradSums2 T C (w i) c).xw - xy * (Interp.gradSums2 T C (w i) c).yw) := by
    funext i
    obtain ⟨a1, a2, a3⟩ := e i
    simp only [Interp.cellGradient2, a1, a2, a3]
    rw [div_eq_inv_mul]
  have e2 : (fun i => (Interp.cellGradient2 T C (w i) c).2.1) =
      fun i => (xx * yy - xy * xy)⁻¹ * (xx * (Interp.gradSums2 T C (w i) c).yw - xy * (Interp.gradSums2 T C (w i) c).xw) := by
    funext i
    obtain ⟨a1, a2, a3⟩ := e i
    simp only [Interp.cellGradient2, a1, a2, a3]
    rw [div_eq_inv_mul]
  rw [e1, e2]
  exact ⟨smul_rel R (sub_rel R (smul_rel R h1 _) (smul_rel R h2 _)) _, smul_rel R (sub_rel R (smul_rel R h2 _) (smul_rel R h1 _)) _⟩

end

end Verif.Props.Par
