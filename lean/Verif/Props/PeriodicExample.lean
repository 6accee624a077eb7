import Verif.Props.PeriodicRun
import Verif.Props.Parallel3

/-! Concrete meshes with periodic sides: the hypotheses of C100 - C102 are met. -/
set_option linter.unusedSectionVars false
set_option linter.unusedVariables false
set_option linter.unusedSimpArgs false
set_option synthInstance.maxHeartbeats 1000000
set_option synthInstance.maxSize 1000
set_option maxRecDepth 4000
namespace Verif.Props.Par
open Verif.Fvm Verif.Spec Verif.Conn Verif.Dom Verif.Geo Verif.Names Verif.MeshFile Verif.Part Verif.Comm Verif.Run Verif.Periodic
variable {K : Type*} [Field K] [LinearOrder K] [IsStrictOrderedRing K]

/-- The corners of cell `c` but the `j`th. -/
def sdOf (m : Mesh K) (c j : Nat) : List Nat := (nodesOf m.nodeid (m.dim + 1) c).eraseIdx j

def OuterAt (m : Mesh K) (c j : Nat) : Prop := ∀ c' < m.n, c' ≠ c → ¬ ∀ a ∈ sdOf m c j, Uses m.nodeid (m.dim + 1) c' a

instance (m : Mesh K) (c j : Nat) : Decidable (OuterAt m c j) := by unfold OuterAt; infer_instance
instance (m : Mesh K) (s : Nat) (l : List Nat) : Decidable (m.On s l) := by unfold Mesh.On; infer_instance
instance [DecidableEq K] (d : Nat) (δ : K) (v w : Nat → K) : Decidable (IsTranslate d δ v w) := by unfold IsTranslate; infer_instance

def SameFace (m : Mesh K) (c j c' j' : Nat) : Prop :=
  (∀ k < 3, m.centre (sdOf m c j) k = m.centre (sdOf m c' j') k) → (sdOf m c j).Perm (sdOf m c' j')
instance [DecidableEq K] (m : Mesh K) (c j c' j' : Nat) : Decidable (SameFace m c j c' j') := by unfold SameFace; infer_instance

theorem perm_side (m : Mesh K) {c x : Nat} {l : List Nat} (hn : (nodesOf m.nodeid (m.dim + 1) c).Nodup)
    (hp : (l ++ [x]).Perm (nodesOf m.nodeid (m.dim + 1) c)) : ∃ j < m.dim + 1, l.Perm (sdOf m c j) ∧ m.nodeid c j = x := by
  have hx : x ∈ nodesOf m.nodeid (m.dim + 1) c := hp.subset (by simp)
  obtain ⟨j, hj, e⟩ := List.mem_map.mp hx
  have hj := List.mem_range.mp hj
  refine ⟨j, hj, ?_, e⟩
  have hlen : (nodesOf m.nodeid (m.dim + 1) c).length = m.dim + 1 := by simp [nodesOf]
  have h1 : ((sdOf m c j) ++ [x]).Perm (nodesOf m.nodeid (m.dim + 1) c) := by
    have h3 : (nodesOf m.nodeid (m.dim + 1) c)[j]'(by omega) = x := by simp [nodesOf, e]
    have h2 := List.getElem_cons_eraseIdx_perm (l := nodesOf m.nodeid (m.dim + 1) c) (n := j) (by omega)
    rw [h3] at h2
    exact (List.perm_append_comm).trans h2
  exact (List.perm_append_right_iff [x]).mp (hp.trans h1.symm)

theorem outer_side (m : Mesh K) (hn : ∀ c < m.n, (nodesOf m.nodeid (m.dim + 1) c).Nodup) {c x : Nat} {l : List Nat} (h : m.Outer c l x) :
    ∃ j < m.dim + 1, l.Perm (sdOf m c j) ∧ OuterAt m c j := by
  obtain ⟨hc, hp, hu⟩ := h
  obtain ⟨j, hj, h1, _⟩ := perm_side m (hn c hc) hp
  exact ⟨j, hj, h1, fun c' hc' hne hall => hu c' hc' hne (fun a ha => hall a (h1.subset ha))⟩

theorem side_outer (m : Mesh K) {c j : Nat} (hc : c < m.n) (hj : j < m.dim + 1) (ho : OuterAt m c j) {l : List Nat} (hl : l.Perm (sdOf m c j)) :
    m.Outer c l (m.nodeid c j) := by
  refine ⟨hc, ?_, fun c' hc' hne hall => ho c' hc' hne (fun a ha => hall a (hl.symm.subset ha))⟩
  have hlen : (nodesOf m.nodeid (m.dim + 1) c).length = m.dim + 1 := by simp [nodesOf]
  have h3 : (nodesOf m.nodeid (m.dim + 1) c)[j]'(by omega) = m.nodeid c j := by simp [nodesOf]
  have h2 := List.getElem_cons_eraseIdx_perm (l := nodesOf m.nodeid (m.dim + 1) c) (n := j) (by omega)
  rw [h3] at h2
  exact ((hl.append_right _).trans (List.perm_append_comm)).trans h2

def HasImage (m : Mesh K) (s : Nat) (τ : Nat → Nat) (l : List Nat) : Prop :=
  ∃ c' < m.n, ∃ j' < m.dim + 1, OuterAt m c' j' ∧ m.On s (sdOf m c' j') ∧ (l.map τ).Perm (sdOf m c' j')
instance (m : Mesh K) (s : Nat) (τ : Nat → Nat) (l : List Nat) : Decidable (HasImage m s τ l) := by unfold HasImage; infer_instance
def Moved (m : Mesh K) (d : Nat) (δ x : K) (τ : Nat → Nat) (l : List Nat) : Prop :=
  ∀ a ∈ l, IsTranslate d δ (pos m.node a) (pos m.node (τ a)) ∧ pos m.node a d = x
instance [DecidableEq K] (m : Mesh K) (d : Nat) (δ x : K) (τ : Nat → Nat) (l : List Nat) : Decidable (Moved m d δ x τ l) := by
  unfold Moved; infer_instance

/-- A finite check of `Mesh.Facing`; `τ`, `σ` map the nodes of a side to those of the facing one. -/
structure FacingCheck (m : Mesh K) (d lo hi : Nat) (L : K) (τ σ : Nat → Nat) : Prop where
  up : ∀ c < m.n, ∀ j < m.dim + 1, OuterAt m c j → m.On lo (sdOf m c j) → HasImage m hi τ (sdOf m c j) ∧
    Moved m d L 0 τ (sdOf m c j)
  down : ∀ c < m.n, ∀ j < m.dim + 1, OuterAt m c j → m.On hi (sdOf m c j) → HasImage m lo σ (sdOf m c j) ∧
    Moved m d (-L) L σ (sdOf m c j)
  nup : ∀ a < m.nbnodes, labelOf m.node a = lo → τ a < m.nbnodes ∧ labelOf m.node (τ a) = hi ∧ IsTranslate d L (pos m.node a) (pos m.node (τ a))
  ndown : ∀ a < m.nbnodes, labelOf m.node a = hi → σ a < m.nbnodes ∧ labelOf m.node (σ a) = lo ∧ IsTranslate d (-L) (pos m.node a) (pos m.node (σ a))
  range : ∀ a < m.nbnodes, 0 ≤ pos m.node a d ∧ pos m.node a d ≤ L
  face : ∃ c < m.n, ∃ j < m.dim + 1, OuterAt m c j ∧ m.On hi (sdOf m c j)

theorem FacingCheck.facing {m : Mesh K} {d lo hi : Nat} {L : K} {up dn : Nat → Nat} (h : FacingCheck m d lo hi L up dn)
    (hn : ∀ c < m.n, (nodesOf m.nodeid (m.dim + 1) c).Nodup) : m.Facing d lo hi L := by
  refine ⟨?_, ?_, ?_, ?_, ?_, ?_, fun _ _ _ => h.range, fun _ _ _ => ?_⟩
  · intro c l x ho hon
    obtain ⟨j, hj, hp, hO⟩ := outer_side m hn ho
    obtain ⟨⟨c', hc', j', hj', hO', hon', hp'⟩, ht⟩ := h.up c ho.1 j hj hO (on_perm hon hp)
    have hm : (l.map up).Perm (sdOf m c' j') := (hp.map up).trans hp'
    refine ⟨c', l.map up, _, side_outer m hc' hj' hO' hm, on_perm hon' hm.symm, ?_⟩
    rw [List.forall₂_map_right_iff]
    exact List.forall₂_same.mpr (fun a ha => (ht a (hp.subset ha)).1)
  · intro c l x ho hon
    obtain ⟨j, hj, hp, hO⟩ := outer_side m hn ho
    obtain ⟨⟨c', hc', j', hj', hO', hon', hp'⟩, ht⟩ := h.down c ho.1 j hj hO (on_perm hon hp)
    have hm : (l.map dn).Perm (sdOf m c' j') := (hp.map dn).trans hp'
    refine ⟨c', l.map dn, _, side_outer m hc' hj' hO' hm, on_perm hon' hm.symm, ?_⟩
    rw [List.forall₂_map_right_iff]
    exact List.forall₂_same.mpr (fun a ha => (ht a (hp.subset ha)).1)
  · intro a ha hl; exact ⟨up a, h.nup a ha hl⟩
  · intro a ha hl; exact ⟨dn a, h.ndown a ha hl⟩
  · intro c l x ho hon a ha
    obtain ⟨j, hj, hp, hO⟩ := outer_side m hn ho
    exact ((h.up c ho.1 j hj hO (on_perm hon hp)).2 a (hp.subset ha)).2
  · intro c l x ho hon a ha
    obtain ⟨j, hj, hp, hO⟩ := outer_side m hn ho
    exact ((h.down c ho.1 j hj hO (on_perm hon hp)).2 a (hp.subset ha)).2
  · obtain ⟨c, hc, j, hj, hO, hon⟩ := h.face
    exact ⟨c, _, _, side_outer m hc hj hO (List.Perm.refl _), hon⟩

/-- Nothing is required of a direction none of whose two labels occurs. -/
theorem facing_absent (m : Mesh K) (d lo hi : Nat) (L : K) (hn : ∀ c < m.n, ∀ j < m.dim + 1, m.nodeid c j < m.nbnodes)
    (h : ∀ a < m.nbnodes, labelOf m.node a ≠ lo ∧ labelOf m.node a ≠ hi) : m.Facing d lo hi L := by
  have key : ∀ c l x s, m.Outer c l x → m.On s l → s = lo ∨ s = hi → False := by
    intro c l x s ho hon hs
    obtain ⟨a, ha, e⟩ := hon.1
    have hm : a ∈ nodesOf m.nodeid (m.dim + 1) c := ho.2.1.subset (by simp [ha])
    obtain ⟨j, hj, e2⟩ := List.mem_map.mp hm
    have := h a (e2 ▸ hn c ho.1 j (List.mem_range.mp hj))
    rcases hs with rfl | rfl
    · exact this.1 e
    · exact this.2 e
  refine ⟨fun c l x ho hon => (key c l x _ ho hon (Or.inl rfl)).elim, fun c l x ho hon => (key c l x _ ho hon (Or.inr rfl)).elim,
    fun a ha e => absurd e (h a ha).1, fun a ha e => absurd e (h a ha).2, fun c l x ho hon => (key c l x _ ho hon (Or.inl rfl)).elim,
    fun c l x ho hon => (key c l x _ ho hon (Or.inr rfl)).elim, ?_, ?_⟩
  · rintro b hb (e | e)
    · exact absurd e (h b hb).1
    · exact absurd e (h b hb).2
  · rintro b hb (e | e)
    · exact absurd e (h b hb).1
    · exact absurd e (h b hb).2

/-! ## A fully periodic triangular mesh: the rectangle `[0,2] × [0,1]` cut into four triangles -/

def torusCell (c j : Nat) : Nat := if c % 2 = 0 then [c / 2, c / 2 + 1, c / 2 + 3].getD j 0 else [c / 2 + 1, c / 2 + 4, c / 2 + 3].getD j 0
def torusNode (i : Nat) : ℚ × ℚ × ℚ × Nat :=
  (((i % 3 : Nat) : ℚ), ((i / 3 : Nat) : ℚ), 0, if i % 3 = 0 then 11 else if i % 3 = 2 then 22 else if i / 3 = 0 then 44 else 33)
def torus : Mesh ℚ := ⟨2, torusCell, torusNode, 6, 4⟩
def torusL (d : Nat) : ℚ := if d = 0 then 2 else 1

theorem torus_nodup : ∀ c < torus.n, (nodesOf torus.nodeid (torus.dim + 1) c).Nodup := by decide +kernel

theorem torus_x : torus.Facing 0 11 22 (torusL 0) := by
  refine FacingCheck.facing (up := fun a => a + 2) (dn := fun a => a - 2) ⟨?_, ?_, ?_, ?_, ?_, ?_⟩ torus_nodup <;> decide +kernel

theorem torus_y : torus.Facing 1 44 33 (torusL 1) := by
  refine FacingCheck.facing (up := fun a => a + 3) (dn := fun a => a - 3) ⟨?_, ?_, ?_, ?_, ?_, ?_⟩ torus_nodup <;> decide +kernel

theorem torusValid : torus.Valid2 torusL (fun x => x) := by
  have hO := fun {c x l} (h : torus.Outer c l x) => outer_side torus torus_nodup h
  refine ⟨⟨by decide +kernel, by decide +kernel, ?_, torus_x, torus_y, fun h => absurd h (by decide), by decide +kernel, ?_, fun _ _ _ _ _ => rfl,
    fun _ _ _ _ _ _ _ => rfl⟩, rfl, by decide +kernel, ?_⟩
  · intro c l x ho
    obtain ⟨j, hj, hp, hOj⟩ := hO ho
    have D : ∀ c < torus.n, ∀ j < torus.dim + 1, OuterAt torus c j → ∃ s ∈ wallSides torus.dim ++ perSides torus.dim, torus.On s (sdOf torus c j) := by decide +kernel
    obtain ⟨s, hs, hon⟩ := D c ho.1 j hj hOj
    exact ⟨s, hs, on_perm hon hp.symm⟩
  · intro c l x c' l' x' ho ho' e
    obtain ⟨j, hj, hp, hOj⟩ := hO ho
    obtain ⟨j', hj', hp', hOj'⟩ := hO ho'
    have D : ∀ c < torus.n, ∀ j < torus.dim + 1, OuterAt torus c j → ∀ c' < torus.n, ∀ j' < torus.dim + 1, OuterAt torus c' j' → SameFace torus c j c' j' := by decide +kernel
    exact hp.trans ((D c ho.1 j hj hOj c' ho'.1 j' hj' hOj' (fun k hk => by rw [← centre_perm _ hp, ← centre_perm _ hp', e k hk])).trans hp'.symm)
  · intro c hc c' hc' hne a b x y h1 h2
    have D : ∀ c < 4, ∀ c' < 4, c ≠ c' → ∀ a ∈ nodesOf torusCell 3 c, ∀ b ∈ nodesOf torusCell 3 c, ∀ x ∈ nodesOf torusCell 3 c, [a, b, x].Perm (nodesOf torusCell 3 c) →
      ∀ y ∈ nodesOf torusCell 3 c', [a, b, y].Perm (nodesOf torusCell 3 c') →
      signedArea (pos torusNode a) (pos torusNode b) (pos torusNode x) * signedArea (pos torusNode a) (pos torusNode b) (pos torusNode y) < 0 := by decide +kernel
    exact D c hc c' hc' hne a (h1.subset (by simp)) b (h1.subset (by simp)) x (h1.subset (by simp)) h1 y (h2.subset (by simp)) h2

theorem torus_all : ∀ c l x s, torus.Outer c l x → s ∈ wallSides 2 → ¬ torus.On s l := by
  intro c l x s ho hs hon
  obtain ⟨j, hj, hp, hOj⟩ := outer_side torus torus_nodup ho
  have D : ∀ c < torus.n, ∀ j < torus.dim + 1, OuterAt torus c j → ∀ s ∈ wallSides 2, ¬ torus.On s (sdOf torus c j) := by decide +kernel
  exact D c ho.1 j hj hOj s hs (on_perm hon hp)

def torusSerial : RankData ℚ := expected 1 0 (serialWrite torusCell torusNode 6 4 3)
theorem torusRead : torus.Read torusSerial := C25_round_trip_serial (K := ℚ) _ _

/-- The hypotheses of the 2D theorems are met by this mesh. -/
example := C100_domain_2d torusValid torusRead (fun x => x) (fun x hx => hx.ne') Rat.floor floor_nat
example := C101_all_periodic_2d torusValid torusRead (fun x => x) (fun x hx => hx.ne') Rat.floor floor_nat torus_all
example := C102_maximum_principle_2d torusValid torusRead (fun x => x) (fun x hx => hx.ne') Rat.floor floor_nat
/-! ## A tetrahedral mesh periodic in `x`: a triangular prism of length 2 cut into six tetrahedra, walls around -/

def prismCell (c j : Nat) : Nat :=
  3 * (c / 3) + (if c % 3 = 0 then [0, 1, 2, 5].getD j 0 else if c % 3 = 1 then [0, 1, 4, 5].getD j 0 else [0, 3, 4, 5].getD j 0)
def prismNode (i : Nat) : ℚ × ℚ × ℚ × Nat :=
  (((i / 3 : Nat) : ℚ), if i % 3 = 1 then 1 else 0, if i % 3 = 2 then 1 else 0, if i / 3 = 0 then 11 else if i / 3 = 2 then 22 else 3)
def prism : Mesh ℚ := ⟨3, prismCell, prismNode, 9, 6⟩
def prismL (d : Nat) : ℚ := if d = 0 then 2 else 1

theorem prism_nodup : ∀ c < prism.n, (nodesOf prism.nodeid (prism.dim + 1) c).Nodup := by decide +kernel

theorem prism_x : prism.Facing 0 11 22 (prismL 0) := by
  refine FacingCheck.facing (up := fun a => a + 6) (dn := fun a => a - 6) ⟨?_, ?_, ?_, ?_, ?_, ?_⟩ prism_nodup <;> decide +kernel

theorem prism_opp : ∀ c < 6, ∀ a ∈ nodesOf prismCell 4 c, ∀ b ∈ nodesOf prismCell 4 c, ∀ d ∈ nodesOf prismCell 4 c, ∀ x ∈ nodesOf prismCell 4 c,
    [a, b, d, x].Perm (nodesOf prismCell 4 c) → ∀ c' < 6, c ≠ c' → a ∈ nodesOf prismCell 4 c' → b ∈ nodesOf prismCell 4 c' → d ∈ nodesOf prismCell 4 c' →
      ∀ y ∈ nodesOf prismCell 4 c', [a, b, d, y].Perm (nodesOf prismCell 4 c') →
      signedVol (pos prismNode a) (pos prismNode b) (pos prismNode d) (pos prismNode x) *
        signedVol (pos prismNode a) (pos prismNode b) (pos prismNode d) (pos prismNode y) < 0 := by decide +kernel

theorem prismValid : prism.Valid3 prismL (fun x => x) := by
  have hO := fun {c x l} (h : prism.Outer c l x) => outer_side prism prism_nodup h
  have hnodes : ∀ c < prism.n, ∀ j < prism.dim + 1, prism.nodeid c j < prism.nbnodes := by decide +kernel
  refine ⟨⟨hnodes, by decide +kernel, ?_, prism_x, facing_absent _ _ _ _ _ hnodes (by decide +kernel),
    fun _ => facing_absent _ _ _ _ _ hnodes (by decide +kernel), by decide +kernel, ?_, fun _ _ _ _ _ => rfl,
    fun _ _ _ _ _ _ _ => rfl⟩, rfl, by decide +kernel, ?_⟩
  · intro c l x ho
    obtain ⟨j, hj, hp, hOj⟩ := hO ho
    have D : ∀ c < prism.n, ∀ j < prism.dim + 1, OuterAt prism c j → ∃ s ∈ wallSides prism.dim ++ perSides prism.dim, prism.On s (sdOf prism c j) := by decide +kernel
    obtain ⟨s, hs, hon⟩ := D c ho.1 j hj hOj
    exact ⟨s, hs, on_perm hon hp.symm⟩
  · intro c l x c' l' x' ho ho' e
    obtain ⟨j, hj, hp, hOj⟩ := hO ho
    obtain ⟨j', hj', hp', hOj'⟩ := hO ho'
    have D : ∀ c < prism.n, ∀ j < prism.dim + 1, OuterAt prism c j → ∀ c' < prism.n, ∀ j' < prism.dim + 1, OuterAt prism c' j' → SameFace prism c j c' j' := by decide +kernel
    exact hp.trans ((D c ho.1 j hj hOj c' ho'.1 j' hj' hOj' (fun k hk => by rw [← centre_perm _ hp, ← centre_perm _ hp', e k hk])).trans hp'.symm)
  · intro c hc c' hc' hne a b d x y h1 h2
    exact prism_opp c hc a (h1.subset (by simp)) b (h1.subset (by simp)) d (h1.subset (by simp)) x (h1.subset (by simp)) h1 c' hc' hne
      (h2.subset (by simp)) (h2.subset (by simp)) (h2.subset (by simp)) y (h2.subset (by simp)) h2

def prismSerial : RankData ℚ := expected 1 0 (serialWrite prismCell prismNode 9 6 4)
theorem prismRead : prism.Read prismSerial := C25_round_trip_serial (K := ℚ) _ _

/-- The hypotheses of the 3D theorems are met by this mesh. -/
example := C100_domain_3d prismValid prismRead (fun x => x) (fun x hx => hx.ne') Rat.floor floor_nat
example := C101_mass_balance_3d prismValid prismRead (fun x => x) (fun x hx => hx.ne') Rat.floor floor_nat
example := C102_maximum_principle_3d prismValid prismRead (fun x => x) (fun x hx => hx.ne') Rat.floor floor_nat

end Verif.Props.Par
