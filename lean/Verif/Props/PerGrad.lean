import Verif.Props.PerRun

/-! Helper lemmas for the runs on meshes with periodic sides: the ghost tables of one process; gradients of constants (2D). -/
set_option linter.unusedSectionVars false
set_option linter.unusedVariables false
set_option linter.unusedSimpArgs false
namespace Verif.Props.Par
open Verif.Fvm Verif.Spec Verif.Conn Verif.Dom Verif.Geo Verif.Names Verif.MeshFile Verif.Part Verif.Comm Verif.Run Verif.Periodic Verif.Props.Per
open Verif.HaloGhost Verif.Interp Verif.Props.HG
variable {K : Type*} [Field K] [LinearOrder K] [IsStrictOrderedRing K]

/-- With one process the ghost tables are always built: the own rows, padded; no remote row. -/
theorem haloGhosts_one (dim : Nat) (d : RankData K) (D : Tables K) :
    ∃ hg, haloGhosts dim 1 (fun _ => d) (fun _ => D) 0 = some hg ∧
      (∀ i < d.vertex.length, ∃ m, hg.ghosts i = (domGhosts dim D).1 i ++ List.replicate m (HaloGhost.padRow dim)) ∧
      ∀ i < d.vertex.length, ∃ m, hg.haloghosts i = List.replicate m (HaloGhost.padRow dim) := by
  obtain ⟨e, he⟩ : ∃ e, e = domRankGhost dim d D := ⟨_, rfl⟩
  have hnb : e.nbnodes = d.vertex.length := by rw [he]; rfl
  have hnd : e.halonodes.Nodup := by rw [he]; exact List.nodup_range.filter _
  have hlt : ∀ i ∈ e.halonodes, i < d.vertex.length := by
    intro i hi
    rw [he] at hi
    exact List.mem_range.mp (List.mem_filter.mp hi).1
  obtain ⟨halo, hhalo⟩ : ∃ x, x = padRows e.nbnodes (HaloGhost.padRow dim : GRow K) (List.replicate (2 * dim) (-1 : K)) (fun _ => []) (fun _ => []) := ⟨_, rfl⟩
  have hpad : ∀ i < d.vertex.length, halo.1 i = List.replicate (padLen e.nbnodes (fun _ => ([] : List (GRow K)))) (HaloGhost.padRow dim) := by
    intro i hi
    have := (padRows_eq e.nbnodes (HaloGhost.padRow dim : GRow K) (List.replicate (2 * dim) (-1 : K)) (fun _ => []) (fun _ => []) i (by omega)).2.1
    rw [hhalo, this]; simp
  obtain ⟨hg', c', e1, e2, rows, e3, _⟩ := numberNodes_eq (haloexttoind e) dim e.halonodes hnd (fun _ => [])
    (fun _ => padLen e.nbnodes (fun _ => ([] : List (GRow K)))) (by simp) (by simp) halo.1 0 (fun i hi => by rw [hpad i (hlt i hi)]; simp)
  refine ⟨{ ghosts := (padRows e.nbnodes (HaloGhost.padRow dim) (List.replicate (2 * dim) (-1)) e.ghosts e.info).1
            info := (padRows e.nbnodes (HaloGhost.padRow dim) (List.replicate (2 * dim) (-1)) e.ghosts e.info).2
            haloghosts := hg', haloinfo := halo.2, size := c' }, ?_, ?_, ?_⟩
  · unfold haloGhosts updateHaloGhost numberNodes
    simp only [← he, gt_iff_lt, Nat.lt_irrefl, if_false]
    simp only [bind, Option.bind, pure]
    rw [← hhalo, e1]
  · intro i hi
    refine ⟨padLen e.nbnodes e.ghosts - (e.ghosts i).length, ?_⟩
    have := (padRows_eq e.nbnodes (HaloGhost.padRow dim : GRow K) (List.replicate (2 * dim) (-1 : K)) e.ghosts e.info i (by omega)).2.1
    dsimp only
    rw [this]
    congr 1
    rw [he]; rfl
  · intro i hi
    dsimp only
    by_cases hin : i ∈ e.halonodes
    · obtain ⟨a, b⟩ := e3 i hin
      rw [List.forall₂_nil_right_iff] at b
      rw [b] at a
      exact ⟨_, a⟩
    · rw [e2 i hin]; exact ⟨_, hpad i hi⟩

theorem foldl_all {α β : Type*} (P : α → Prop) (f : α → β → α) (l : List β) (h : ∀ a, P a → ∀ b ∈ l, P (f a b)) (a : α) (ha : P a) : P (l.foldl f a) := by
  induction l generalizing a with
  | nil => exact ha
  | cons b l ih => exact ih (fun a ha b hb => h a ha b (List.mem_cons_of_mem _ hb)) _ (h a ha b (by simp))

/-- The ghost rows of the nodes belong to faces that get a ghost cell. -/
theorem nodeGhosts_rows (bnd : Int → Bool) (name : Nat → Int) (cell0 : Nat → Int) (fnodes : Nat → List Nat) (ghost info : Nat → List K) (nbfaces : Nat) :
    ∀ i, ∀ r ∈ (nodeGhosts bnd name cell0 fnodes ghost info nbfaces).1 i, ∃ f < nbfaces, bnd (name f) = true ∧ r.last = (f : Int) := by
  unfold nodeGhosts
  refine foldl_all (fun s : (Nat → List (GRow K)) × (Nat → List (List K)) => ∀ i, ∀ r ∈ s.1 i, ∃ f < nbfaces, bnd (name f) = true ∧ r.last = (f : Int)) _ _ ?_ _ (by simp)
  intro s hs f hf
  split
  · rename_i hb
    refine foldl_all (fun s : (Nat → List (GRow K)) × (Nat → List (List K)) => ∀ i, ∀ r ∈ s.1 i, ∃ f < nbfaces, bnd (name f) = true ∧ r.last = (f : Int)) _ _ ?_ _ hs
    intro s hs a ha i r hr
    dsimp only at hr
    unfold setAt at hr
    split at hr
    · rcases List.mem_append.mp hr with hr | hr
      · exact hs _ r hr
      · rw [List.mem_singleton] at hr
        exact ⟨f, List.mem_range.mp hf, hb, by rw [hr]⟩
    · exact hs i r hr
  · exact hs

/-- Every entry of the periodic lists of the nodes is a cell or -1. -/
def NperIn (n : Nat) (s : PState K) : Prop := ∀ i, ∀ z ∈ s.nper i, -1 ≤ z ∧ z < (n : Int)

theorem facePass_nper (m : PMesh K) (dict : List (Key K × Nat)) (look : Nat → Key K) (comp : Nat) (val : K) (faces : List Nat) (s s' : PState K)
    (h : facePass m dict look comp val faces s = some s') : s'.nper = s.nper := by
  unfold facePass at h
  induction faces generalizing s with
  | nil => simp at h; rw [h]
  | cons f fs ih =>
    rw [List.foldlM_cons] at h
    cases hk : keyGet dict (look f) with
    | none => rw [hk] at h; simp at h
    | some c =>
      rw [hk] at h
      exact ih (s := { s with
        cell1 := setAt s.cell1 f (c : Int)
        pfid := setAt s.pfid (m.cell0 f) (c : Int)
        pnid := setAt s.pnid (m.cell0 f) (s.pnid (m.cell0 f) ++ m.cellnid c)
        shift := (s.pnid (m.cell0 f) ++ m.cellnid c).foldl (fun sh cell => setAt sh cell (setAt (sh cell) comp val)) s.shift }) h

theorem nodePass_nper (n : Nat) (dict : List (Key K × Int)) (look : Nat → Key K) (nodes : List Nat) (s s' : PState K)
    (hd : ∀ e ∈ dict, -1 ≤ e.2 ∧ e.2 < (n : Int)) (hs : NperIn n s) (h : nodePass dict look nodes s = some s') : NperIn n s' := by
  unfold nodePass at h
  induction nodes generalizing s with
  | nil => simp at h; rw [← h]; exact hs
  | cons i is ih =>
    rw [List.foldlM_cons] at h
    cases hk : (dict.filter (fun e => e.1 = look i)).map (·.2) with
    | nil => rw [hk] at h; simp at h
    | cons z zs =>
      rw [hk] at h
      simp only [Option.bind_eq_bind, Option.bind_some] at h
      refine ih _ ?_ h
      intro a y hy
      dsimp only at hy
      unfold setAt at hy
      split at hy
      · rcases List.mem_append.mp hy with hy | hy
        · exact hs _ y hy
        · rw [← hk] at hy
          obtain ⟨e, he, rfl⟩ := List.mem_map.mp hy
          exact hd e (List.mem_filter.mp he).1
      · exact hs a y hy

theorem nodeDict_in (r : K → K) (m : PMesh K) (n : Nat) (hm : ∀ i, ∀ c ∈ m.ncells i, c < n) (nodes : List Nat) :
    ∀ e ∈ nodeDict r m nodes, -1 ≤ e.2 ∧ e.2 < (n : Int) := by
  intro e he
  unfold nodeDict at he
  obtain ⟨i, _, he⟩ := List.mem_flatMap.mp he
  obtain ⟨c, hc, rfl⟩ := List.mem_map.mp he
  have := hm i c hc
  exact ⟨by show (-1 : Int) ≤ (c : Int); omega, by show (c : Int) < (n : Int); exact_mod_cast this⟩

theorem nodeDictStale_in (r : K → K) (m : PMesh K) (n j : Nat) (hm : ∀ i, ∀ c ∈ m.ncells i, c < n) (nodes : List Nat) :
    ∀ e ∈ nodeDictStale r m j nodes, -1 ≤ e.2 ∧ e.2 < (n : Int) := by
  intro e he
  unfold nodeDictStale at he
  obtain ⟨i, _, rfl⟩ := List.mem_map.mp he
  dsimp only
  cases hk : (m.ncells i)[j]? with
  | none => simp only [Option.map_none, Option.getD_none]; constructor <;> omega
  | some c =>
    have := hm i c (List.mem_of_getElem? hk)
    simp only [Option.map_some, Option.getD_some]
    exact ⟨by omega, by exact_mod_cast this⟩

theorem dir_nper (r : K → K) (m : PMesh K) (n : Nat) (d : Nat) (lkf lkn : K → K → K) (δ va vb : K) (A B : List Nat) (dictA dictB : List (Key K × Int))
    (NA NB : List Nat) (hA : ∀ e ∈ dictA, -1 ≤ e.2 ∧ e.2 < (n : Int)) (hB : ∀ e ∈ dictB, -1 ≤ e.2 ∧ e.2 < (n : Int)) (s s' : PState K) (hs : NperIn n s)
    (h : (do let s ← facesDir r m d lkf δ va vb A B s; nodesDir r m d lkn δ dictA dictB NA NB s) = some s') : NperIn n s' := by
  simp only [Option.bind_eq_bind] at h
  obtain ⟨t, h1, h2⟩ := Option.bind_eq_some_iff.mp h
  unfold facesDir at h1
  simp only [Option.bind_eq_bind] at h1
  obtain ⟨t1, h3, h4⟩ := Option.bind_eq_some_iff.mp h1
  unfold nodesDir at h2
  simp only [Option.bind_eq_bind] at h2
  obtain ⟨t2, h5, h6⟩ := Option.bind_eq_some_iff.mp h2
  have e1 := facePass_nper _ _ _ _ _ _ _ _ h3
  have e2 := facePass_nper _ _ _ _ _ _ _ _ h4
  have hs1 : NperIn n t := by unfold NperIn; rw [e2, e1]; exact hs
  exact nodePass_nper n _ _ _ _ _ hA (nodePass_nper n _ _ _ _ _ hB hs1 h5) h6

theorem visible_mem {l : List Int} {z : Int} (h : z ∈ visible l) : z ∈ l := by
  unfold visible at h
  have := List.mem_of_mem_take h
  rw [List.mem_dedup, List.mem_insertionSort] at this
  exact this

theorem update2d_nper (r : K → K) (m : PMesh K) (n : Nat) (M S : Nat → K) (F N : Sides) (cell1 : Nat → Int) (hm : ∀ i, ∀ c ∈ m.ncells i, c < n)
    (s : PState K) (h : update2d r m M S F N cell1 = some s) : NperIn n s := by
  unfold update2d at h
  simp only [Option.bind_eq_bind] at h
  obtain ⟨t, h1, h2⟩ := Option.bind_eq_some_iff.mp h
  obtain ⟨t2, h3, h4⟩ := Option.bind_eq_some_iff.mp h2
  have ht : NperIn n t := dir_nper r m n 0 _ _ _ _ _ _ _ _ _ _ _ (nodeDict_in r m n hm _) (nodeDict_in r m n hm _) _ _
    (by intro i z hz; simp [pInit] at hz) h1
  have ht2 : NperIn n t2 := dir_nper r m n 1 _ _ _ _ _ _ _ _ _ _ _ (nodeDict_in r m n hm _) (nodeDictStale_in r m n _ hm _) _ _ ht h3
  have e : s = finish t2 := by simpa using h4.symm
  intro i z hz
  rw [e] at hz
  exact ht2 i z (visible_mem hz)

section
variable {n : Nat} {W : PWorld K} {out : Nat → Nat → Vec K} {p : Nat → Nat}

/-- What the gradient of a constant needs of the tables. -/
structure GradOk (n nbnodes : Nat) (W : PWorld K) : Prop where
  nodes : ∀ c < n, ∀ j < W.dim + 1, W.D.cnode c j < nbnodes
  ghosts : ∀ i < nbnodes, ∃ m, W.hg.ghosts i = (domGhosts W.dim W.D).1 i ++ List.replicate m (HaloGhost.padRow W.dim)
  haloghosts : ∀ i < nbnodes, ∃ m, W.hg.haloghosts i = List.replicate m (HaloGhost.padRow W.dim)
  nper : NperIn n W.P
  bnd : ∀ f < W.D.nbfaces, bndOf W.dim (W.D.name f) = true → f ∈ W.D.boundaryfaces

/-- The cell gradients (2D) vanish when all values are the same. -/
theorem GradOk.zero (h : GradOk n nbnodes W) (hn : W.D.nbcells = n) (h2 : W.dim = 2) (v : Vari K) (q : K) (hc : ∀ c < n, v.cell c = q)
    (hg : ∀ f ∈ W.D.boundaryfaces, v.ghost f = q) : ∀ c < n, W.cellGrads v.fields c = (0, 0, 0) := by
  intro c hcn
  unfold PWorld.cellGrads
  rw [if_pos h2]
  refine C40_constant_2d _ _ _ _ ?_
  intro x hx
  show x.2 = v.cell c
  rw [hc c hcn]
  unfold cellStencil at hx
  have haloN : W.cellTabs.halonid c = [] := by unfold PWorld.cellTabs Dom.cellTabs; simp
  rw [haloN] at hx
  simp only [List.append_nil, List.map_nil, List.mem_append, List.mem_map, List.mem_flatMap] at hx
  rcases hx with (⟨a, ha, rfl⟩ | hx) | ⟨I, hI, hx⟩
  · exact hc a (hn ▸ ((mem_cellNeigh _ _ _ _ _).mp ha).1)
  · unfold cellPeriodic2 at hx
    obtain ⟨I, _, hx⟩ := List.mem_flatMap.mp hx
    have hI : ∀ a ∈ W.nodeTabs.periodicn I, a < n := by
      intro a ha
      obtain ⟨z, hz, rfl⟩ := List.mem_map.mp ha
      obtain ⟨z1, z2⟩ := h.nper I z hz
      unfold pyIndex
      rw [hn]
      split <;> omega
    unfold periodicPart at hx
    split at hx
    · obtain ⟨a, ha, rfl⟩ := List.mem_map.mp hx; exact hc a (hI a ha)
    split at hx
    · obtain ⟨a, ha, rfl⟩ := List.mem_map.mp hx; exact hc a (hI a ha)
    split at hx
    · obtain ⟨a, ha, rfl⟩ := List.mem_map.mp hx; exact hc a (hI a ha)
    · simp at hx
  · have hIn : I < nbnodes := by
      have : I ∈ (List.range (W.dim + 1)).map (W.D.cnode c) := hI
      obtain ⟨j, hj, rfl⟩ := List.mem_map.mp this
      exact h.nodes c hcn j (List.mem_range.mp hj)
    rcases hx with hx | hx
    · split at hx
      · obtain ⟨m, e⟩ := h.ghosts I hIn
        have e' : W.nodeTabs.ghosts I = ((domGhosts W.dim W.D).1 I ++ List.replicate m (HaloGhost.padRow W.dim)).map rowPt := by
          show (W.hg.ghosts I).map rowPt = _
          rw [e]
        rw [e'] at hx
        unfold ghostPart at hx
        obtain ⟨y, hy, rfl⟩ := List.mem_map.mp hx
        obtain ⟨hy1, hy2⟩ := List.mem_filter.mp hy
        obtain ⟨row, hrow, rfl⟩ := List.mem_map.mp hy1
        rcases List.mem_append.mp hrow with hrow | hrow
        · obtain ⟨f, hf, hb, hl⟩ := nodeGhosts_rows _ _ _ _ _ _ _ I row hrow
          show v.ghost row.last.toNat = q
          rw [hl, Int.toNat_natCast]
          exact hg f (h.bnd f hf hb)
        · rw [List.eq_of_mem_replicate hrow] at hy2
          simp [rowPt, HaloGhost.padRow] at hy2
      · simp at hx
    · obtain ⟨m, e⟩ := h.haloghosts I hIn
      have e' : W.nodeTabs.haloghosts I = (List.replicate m (HaloGhost.padRow W.dim)).map rowPt := by
        show (W.hg.haloghosts I).map rowPt = _
        rw [e]
      rw [e', ghostPart_nil] at hx
      simp at hx

end
end Verif.Props.Par
