import Verif.Props.ParHalo

/-! Helper lemmas for the parallel theorems: the values of the exchanged ghosts. -/
set_option linter.unusedSectionVars false
set_option linter.unusedVariables false
set_option linter.unusedSimpArgs false
namespace Verif.Props.Par
open Verif.Fvm Verif.Spec Verif.Conn Verif.Dom Verif.Geo Verif.Names Verif.MeshFile Verif.Part Verif.Comm Verif.Run Verif.HaloGhost
variable {K : Type*} [Field K] [LinearOrder K] [IsStrictOrderedRing K]

/-- A loop that stores `val x` at `key x`. -/
theorem foldl_store {α : Type*} (l : List α) (step : (Nat → K) → α → (Nat → K)) (key : α → Option Nat) (val : α → K)
    (hs : ∀ a x k, step a x k = if key x = some k then val x else a k) (a : Nat → K) (k : Nat) :
    ((∀ x ∈ l, key x ≠ some k) → l.foldl step a k = a k) ∧
    (∀ x0 ∈ l, key x0 = some k → (∀ x ∈ l, key x = some k → x = x0) → l.foldl step a k = val x0) := by
  induction l generalizing a with
  | nil => simp
  | cons y l ih =>
    rw [List.foldl_cons]
    obtain ⟨i1, i2⟩ := ih (step a y)
    constructor
    · intro hx
      rw [i1 (fun x hxl => hx x (List.mem_cons_of_mem _ hxl)), hs, if_neg (hx y List.mem_cons_self)]
    · intro x0 hx0 hk hu
      by_cases hin : ∃ x ∈ l, key x = some k
      · obtain ⟨x, hxl, hxk⟩ := hin
        obtain rfl := hu x (List.mem_cons_of_mem _ hxl) hxk
        exact i2 x hxl hxk (fun z hz => hu z (List.mem_cons_of_mem _ hz))
      · push Not at hin
        rw [i1 hin, hs]
        rcases List.mem_cons.mp hx0 with rfl | hx0
        · rw [if_pos hk]
        · exact absurd hk (hin x0 hx0)

section
variable {dim SIZE : Nat} {data : Nat → RankData K} {L : Nat → Tables K} {p : Nat} {hg : HGResult K} {rows : Nat → List (GRow K)}

theorem nodup_halonodes (D : Tables K) : (halonodes D).Nodup := List.nodup_range.filter _

theorem mem_halonodes (D : Tables K) (i : Nat) : i ∈ halonodes D ↔ i < D.nbnodes ∧ D.nodename i = 10 := by
  unfold halonodes; simp

theorem HGSpec.slot_inj (s : HGSpec dim SIZE data L p hg rows) {i i' : Nat} (hi : i ∈ halonodes (L p)) (hi' : i' ∈ halonodes (L p)) {j j' : Nat}
    {r r' : GRow K} (hr : (rows i)[j]? = some r) (hr' : (rows i')[j']? = some r') (e : r.last = r'.last) : i = i' ∧ j = j' := by
  have hnd : ((halonodes (L p)).flatMap (fun i => (rows i).map (·.last))).Nodup := by
    rw [s.slots]; exact List.nodup_range.map (fun a b h => by simpa using h)
  rw [List.nodup_flatMap] at hnd
  obtain ⟨n1, n2⟩ := hnd
  have m1 : r.last ∈ (rows i).map (·.last) := List.mem_map.mpr ⟨r, List.mem_of_getElem? hr, rfl⟩
  have m2 : r.last ∈ (rows i').map (·.last) := List.mem_map.mpr ⟨r', List.mem_of_getElem? hr', e.symm⟩
  have hii : i = i' := by
    by_contra hne
    obtain ⟨a, ha, ea⟩ := List.mem_iff_getElem.mp hi
    obtain ⟨b, hb, eb⟩ := List.mem_iff_getElem.mp hi'
    rcases Nat.lt_trichotomy a b with hlt | rfl | hlt
    · have := List.pairwise_iff_getElem.mp n2 a b ha hb hlt
      rw [ea, eb] at this
      exact this m1 m2
    · exact hne (ea.symm.trans eb)
    · have := List.pairwise_iff_getElem.mp n2 b a hb ha hlt
      rw [ea, eb] at this
      exact this m2 m1
  subst hii
  refine ⟨rfl, ?_⟩
  have hn := n1 i hi
  obtain ⟨hj, ej⟩ := List.getElem?_eq_some_iff.mp hr
  obtain ⟨hj', ej'⟩ := List.getElem?_eq_some_iff.mp hr'
  have := (List.Nodup.getElem_inj_iff hn (i := j) (hi := by simpa using hj) (j := j') (hj := by simpa using hj')).mp (by simp [ej, ej', e])
  exact this

theorem HGSpec.last_nonneg (s : HGSpec dim SIZE data L p hg rows) {i : Nat} (hi : i ∈ halonodes (L p)) {r : GRow K} (hr : r ∈ rows i) :
    0 ≤ r.last := by
  have : r.last ∈ (halonodes (L p)).flatMap (fun i => (rows i).map (·.last)) :=
    List.mem_flatMap.mpr ⟨i, hi, List.mem_map.mpr ⟨r, hr, rfl⟩⟩
  rw [s.slots] at this
  obtain ⟨x, _, e⟩ := List.mem_map.mp this
  omega

theorem HGSpec.entry (s : HGSpec dim SIZE data L p hg rows) {i : Nat} (hi : i ∈ halonodes (L p)) {e : Var.HG} (he : e ∈ hgTable hg i) (hs : e.slot ≠ -1) :
    ∃ r ∈ rows i, e = ⟨r.cell, r.name, r.last⟩ := by
  obtain ⟨r, hr, rfl⟩ := List.mem_map.mp he
  obtain ⟨m, e1, _⟩ := s.halo i hi
  rw [e1] at hr
  rcases List.mem_append.mp hr with hr | hr
  · exact ⟨r, hr, rfl⟩
  · rw [(List.mem_replicate.mp hr).2] at hs
    exact absurd rfl hs

theorem HGSpec.consistent (s : HGSpec dim SIZE data L p hg rows) : Var.SlotsConsistent (hgTable hg) (halonodes (L p)) := by
  intro i hi e he i' hi' e' he' h1 h2 h3
  obtain ⟨r, hr, rfl⟩ := s.entry hi he h1
  obtain ⟨r', hr', rfl⟩ := s.entry hi' he' h2
  have a := s.last_nonneg hi hr
  have b := s.last_nonneg hi' hr'
  have e : r.last = r'.last := by dsimp only at h3; omega
  obtain ⟨j, hj, ej⟩ := List.mem_iff_getElem.mp hr
  obtain ⟨j', hj', ej'⟩ := List.mem_iff_getElem.mp hr'
  obtain ⟨rfl, rfl⟩ := s.slot_inj hi hi' (by rw [List.getElem?_eq_getElem hj, ej]) (by rw [List.getElem?_eq_getElem hj', ej']) e
  rw [ej] at ej'
  rw [ej']

/-- The value `update_ghost_value` stores for a halo ghost. -/
def hgVal (whalo vh : Nat → K) (r : GRow K) : BCond K → K
  | .neumann => whalo r.cell.toNat
  | .nonslip => -1 * whalo r.last.toNat
  | .dirichlet _ => vh r.last.toNat

theorem HGSpec.mem_table (s : HGSpec dim SIZE data L p hg rows) {i : Nat} (hi : i ∈ halonodes (L p)) {r : GRow K} (hr : r ∈ rows i) :
    (⟨r.cell, r.name, r.last⟩ : Var.HG) ∈ hgTable hg i := by
  obtain ⟨m, e1, _⟩ := s.halo i hi
  unfold hgTable
  rw [e1]
  exact List.mem_map.mpr ⟨r, List.mem_append_left _ hr, rfl⟩

theorem HGSpec.loop (s : HGSpec dim SIZE data L p hg rows) (f : Var.HG → K) (loc : Int) (g : Nat → K) {i : Nat} (hi : i ∈ halonodes (L p))
    {r : GRow K} (hr : r ∈ rows i) : Var.haloghostLoop f (hgTable hg) loc (halonodes (L p)) g r.last.toNat =
      if r.name = loc then f ⟨r.cell, r.name, r.last⟩ else g r.last.toNat := by
  obtain ⟨h1, h2⟩ := Var.haloghostLoop_spec f (hgTable hg) loc (halonodes (L p)) g s.consistent
  have hn := s.last_nonneg hi hr
  have hm := s.mem_table hi hr
  split_ifs with e
  · exact h1 i hi _ hm (by dsimp only; omega) e
  · refine h2 _ ?_
    intro i' hi' e' he' hs hb heq
    have := s.consistent i hi _ hm i' hi' e' he' (by dsimp only; omega) hs heq.symm
    rw [← this] at hb
    exact e hb

theorem HGSpec.one (s : HGSpec dim SIZE data L p hg rows) (whalo vh : Nat → K) (b : BCond K) (loc : Int) (g : Nat → K) {i : Nat}
    (hi : i ∈ halonodes (L p)) {r : GRow K} (hr : r ∈ rows i) :
    haloghostOne hg (halonodes (L p)) whalo vh b loc g r.last.toNat = if r.name = loc then hgVal whalo vh r b else g r.last.toNat := by
  cases b <;> exact s.loop _ loc g hi hr

theorem HGSpec.update (s : HGSpec dim SIZE data L p hg rows) (whalo : Nat → K) (bc : Int → BCond K) (g : Nat → K) {i : Nat}
    (hi : i ∈ halonodes (L p)) {r : GRow K} (hr : r ∈ rows i) (hn : r.name ∈ locNames dim) :
    updateHaloghosts dim (L p) hg (halonodes (L p)) whalo bc g r.last.toNat =
      hgVal whalo (valuehalo dim (L p) hg bc) r (bc r.name) := by
  unfold updateHaloghosts
  generalize valuehalo dim (L p) hg bc = vh
  have key : ∀ (locs : List Int) (g : Nat → K),
      locs.foldl (fun g loc => haloghostOne hg (halonodes (L p)) whalo vh (bc loc) loc g) g r.last.toNat =
        if r.name ∈ locs then hgVal whalo vh r (bc r.name) else g r.last.toNat := by
    intro locs
    induction locs with
    | nil => intro g; simp
    | cons l ls ih =>
      intro g
      rw [List.foldl_cons, ih, s.one _ _ _ _ _ hi hr]
      by_cases h1 : r.name ∈ ls
      · rw [if_pos h1, if_pos (List.mem_cons_of_mem _ h1)]
      · rw [if_neg h1]
        by_cases h2 : r.name = l
        · rw [if_pos h2, if_pos (by rw [h2]; simp), h2]
        · rw [if_neg h2, if_neg (by simp [h1, h2])]
  rw [key, if_pos hn]

/-- The value stored in `valuehalo` for a halo ghost of node `i`. -/
def vhVal (D : Tables K) (hg : HGResult K) (i j : Nat) (b : BCond K) (old : K) : K :=
  match b with
  | .dirichlet v => Var.lambdaAtSlot v ((hg.haloinfo i).getD j [])
  | _ => old

theorem HGSpec.vhOne (s : HGSpec dim SIZE data L p hg rows) (b : BCond K) (loc : Int) (vh : Nat → K) {i j : Nat}
    (hi : i ∈ halonodes (L p)) {r : GRow K} (hr : (rows i)[j]? = some r) :
    valuehaloOne (L p) hg b loc vh r.last.toNat = if (L p).oldname i = loc then vhVal (L p) hg i j b (vh r.last.toNat) else vh r.last.toNat := by
  cases b with
  | neumann => simp [valuehaloOne, vhVal]
  | nonslip => simp [valuehaloOne, vhVal]
  | dirichlet v =>
    have hmem := List.mem_of_getElem? hr
    have hn := s.last_nonneg hi hmem
    obtain ⟨hj, ej⟩ := List.getElem?_eq_some_iff.mp hr
    obtain ⟨m, e1, _⟩ := s.halo i hi
    have hrow : (hg.haloghosts i)[j]? = some r := by rw [e1, List.getElem?_append_left hj]; exact hr
    unfold valuehaloOne
    dsimp only
    have hflat : ∀ (l : List Nat) (vh : Nat → K), l.foldl (fun vh i =>
        (List.range (hg.haloghosts i).length).foldl (fun vh j =>
          match (hg.haloghosts i)[j]? with
          | some r => if r.last ≠ -1 then setAt vh r.last.toNat (Var.lambdaAtSlot v ((hg.haloinfo i).getD j [])) else vh
          | none => vh) vh) vh =
        (l.flatMap (fun i => (List.range (hg.haloghosts i).length).map (fun j => (i, j)))).foldl (fun vh (x : Nat × Nat) =>
          match (hg.haloghosts x.1)[x.2]? with
          | some r => if r.last ≠ -1 then setAt vh r.last.toNat (Var.lambdaAtSlot v ((hg.haloinfo x.1).getD x.2 [])) else vh
          | none => vh) vh := by
      intro l vh
      rw [List.foldl_flatMap]
      simp only [List.foldl_map]
    refine (congrFun (hflat _ _) _).trans ?_
    obtain ⟨key, hkey⟩ : ∃ key : Nat × Nat → Option Nat, key = fun x => match (hg.haloghosts x.1)[x.2]? with
          | some r => if r.last ≠ -1 then some r.last.toNat else none
          | none => none := ⟨_, rfl⟩
    obtain ⟨h1, h2⟩ := foldl_store ((((List.range (L p).nbnodes).filter (fun i => (L p).oldname i = loc))).flatMap
        (fun i => (List.range (hg.haloghosts i).length).map (fun j => (i, j)))) (fun vh (x : Nat × Nat) =>
          match (hg.haloghosts x.1)[x.2]? with
          | some r => if r.last ≠ -1 then setAt vh r.last.toNat (Var.lambdaAtSlot v ((hg.haloinfo x.1).getD x.2 [])) else vh
          | none => vh) key (fun x => Var.lambdaAtSlot v ((hg.haloinfo x.1).getD x.2 []))
        (by
          intro a x k
          rw [hkey]
          dsimp only
          have hc : (hg.haloghosts x.1)[x.2]? = none ∨ ∃ q, (hg.haloghosts x.1)[x.2]? = some q := by
            cases (hg.haloghosts x.1)[x.2]? with
            | none => exact Or.inl rfl
            | some q => exact Or.inr ⟨q, rfl⟩
          rcases hc with hc | ⟨q, hc⟩
          · simp [hc]
          · simp only [hc]
            by_cases hq : q.last ≠ -1
            · rw [if_pos hq, if_pos hq]
              simp only [Option.some.injEq, setAt]
              by_cases hk : k = q.last.toNat
              · simp [hk]
              · simp [hk, Ne.symm hk]
            · rw [if_neg hq, if_neg hq]; simp) vh r.last.toNat
    have huniq : ∀ x ∈ ((List.range (L p).nbnodes).filter (fun i => (L p).oldname i = loc)).flatMap
        (fun i => (List.range (hg.haloghosts i).length).map (fun j => (i, j))), key x = some r.last.toNat → x = (i, j) := by
      intro x hx hk
      obtain ⟨i', hi', hx⟩ := List.mem_flatMap.mp hx
      obtain ⟨j', _, rfl⟩ := List.mem_map.mp hx
      have hlt : i' < (L p).nbnodes := List.mem_range.mp (List.mem_filter.mp hi').1
      rw [hkey] at hk
      dsimp only at hk
      cases hq : (hg.haloghosts i')[j']? with
      | none => rw [hq] at hk; simp at hk
      | some q =>
        rw [hq] at hk
        dsimp only at hk
        split_ifs at hk with hql
        have hqm := List.mem_of_getElem? hq
        by_cases hh : i' ∈ halonodes (L p)
        · obtain ⟨m', e', _⟩ := s.halo i' hh
          have hjl : j' < (rows i').length := by
            by_contra hge
            rw [e', List.getElem?_append_right (by omega)] at hq
            have := List.mem_of_getElem? hq
            rw [(List.mem_replicate.mp this).2] at hql
            exact hql rfl
          have hq' : (rows i')[j']? = some q := by rw [e', List.getElem?_append_left hjl] at hq; exact hq
          have := s.last_nonneg hh (List.mem_of_getElem? hq')
          have hk := Option.some.inj hk
          obtain ⟨a, b⟩ := s.slot_inj hh hi hq' hr (by omega)
          rw [a, b]
        · obtain ⟨m', e'⟩ := s.other i' hlt hh
          rw [e'] at hqm
          rw [(List.mem_replicate.mp hqm).2] at hql
          exact absurd rfl hql
    have hkk : key (i, j) = some r.last.toNat := by
      rw [hkey]; dsimp only; rw [hrow]; dsimp only; rw [if_pos (by omega)]
    split_ifs with ho
    · refine h2 (i, j) ?_ hkk huniq
      refine List.mem_flatMap.mpr ⟨i, ?_, List.mem_map.mpr ⟨j, ?_, rfl⟩⟩
      · exact List.mem_filter.mpr ⟨List.mem_range.mpr ((mem_halonodes _ _).mp hi).1, by simpa using ho⟩
      · rw [e1]; simp; omega
    · refine h1 ?_
      intro x hx hk
      have := huniq x hx hk
      rw [this] at hx
      obtain ⟨i', hi', hx⟩ := List.mem_flatMap.mp hx
      obtain ⟨j', _, e⟩ := List.mem_map.mp hx
      obtain ⟨rfl, rfl⟩ := Prod.mk.inj e
      have := (List.mem_filter.mp hi').2
      exact ho (by simpa using this)

theorem HGSpec.vh (s : HGSpec dim SIZE data L p hg rows) (bc : Int → BCond K) {i j : Nat}
    (hi : i ∈ halonodes (L p)) {r : GRow K} (hr : (rows i)[j]? = some r) (v : K → K → K → K) (hv : bc ((L p).oldname i) = .dirichlet v)
    (hl : (L p).oldname i ∈ locNames dim) :
    valuehalo dim (L p) hg bc r.last.toNat = Var.lambdaAtSlot v ((hg.haloinfo i).getD j []) := by
  unfold valuehalo
  have key : ∀ (locs : List Int) (vh : Nat → K),
      locs.foldl (fun vh loc => valuehaloOne (L p) hg (bc loc) loc vh) vh r.last.toNat =
        if (L p).oldname i ∈ locs then Var.lambdaAtSlot v ((hg.haloinfo i).getD j []) else vh r.last.toNat := by
    intro locs
    induction locs with
    | nil => intro vh; simp
    | cons l ls ih =>
      intro vh
      rw [List.foldl_cons, ih, s.vhOne _ _ _ hi hr]
      by_cases h1 : (L p).oldname i ∈ ls
      · rw [if_pos h1, if_pos (List.mem_cons_of_mem _ h1)]
      · rw [if_neg h1]
        by_cases h2 : (L p).oldname i = l
        · rw [if_pos h2, if_pos (by rw [h2]; simp), ← h2, hv]; rfl
        · rw [if_neg h2, if_neg (by simp [h1, h2])]
  rw [key, if_pos hl]

end
end Verif.Props.Par
