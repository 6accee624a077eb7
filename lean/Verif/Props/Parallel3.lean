import Verif.Props.ParRank3
import Verif.Props.Parallel

/-!
C82, C83 in 3D: a run on several processes computes what the serial run computes.
-/
set_option linter.unusedSectionVars false
set_option linter.unusedVariables false
set_option linter.unusedSimpArgs false
namespace Verif.Props.Par
open Verif.Fvm Verif.Spec Verif.Conn Verif.Dom Verif.Geo Verif.Names Verif.MeshFile Verif.Part Verif.Comm Verif.Run
variable {K : Type*} [Field K] [LinearOrder K] [IsStrictOrderedRing K]

section
variable {nodeid : Nat → Nat → Nat} {node : Nat → K × K × K × Nat} {npart0 epart : Nat → Nat}
  {nbnodes n SIZE : Nat} {data : Nat → RankData K} {serial : RankData K}

theorem fnode_perm3 (sqrt : K → K) (trunc : K → Int) (size : Nat) (d : RankData K) {c j : Nat} (hc : c < d.nodeid.length) (hj : j < 4) :
    ((build3 sqrt trunc size d).fnode ((build3 sqrt trunc size d).faceid c j)).Perm (sid3 d c j) := by
  obtain ⟨hf, hp⟩ := face_perm3 sqrt trunc size d hc hj
  rw [← sid3_eq] at hp
  refine List.Perm.trans ?_ hp
  have h3 := list3_eta (facesSpec_len (facesSpec3 sqrt trunc size d) (sid3_length d) hf)
  refine (fnode3_perm sqrt d hf).trans ?_
  show _root_.List.Perm _ [((fac3 d).getD _ []).getD 0 0, ((fac3 d).getD _ []).getD 1 0, ((fac3 d).getD _ []).getD 2 0]
  rw [h3]

theorem Launched.sameFace3 (h : Launched 4 nodeid node (centvol3 node nodeid) npart0 epart nbnodes n SIZE data serial)
    (sqrt : K → K) (trunc : K → Int) {p : Nat} (hp : p < SIZE) {c j : Nat} (hc : c < (data p).nodeid.length) (hj : j < 4) :
    SameFace (data p).nodeloctoglob ((build3 sqrt trunc SIZE (data p)).fnode ((build3 sqrt trunc SIZE (data p)).faceid c j))
      ((build3 sqrt trunc 1 serial).fnode ((build3 sqrt trunc 1 serial).faceid (phi (data p) c) j)) := by
  have sc := h.sameCell3 hp hc
  have h1 := (fnode_perm3 sqrt trunc SIZE (data p) hc hj).map (gOf (data p))
  have h2 := fnode_perm3 sqrt trunc 1 serial sc.Lt hj
  rw [sc.side j] at h2
  exact h1.trans h2.symm

theorem mesure3_even (sqrt : K → K) (a b : Vec K) (ε : K) (hε : ε = 1 ∨ ε = -1) (h : ∀ k < 3, a k = ε * b k) : mesure3 sqrt a = mesure3 sqrt b := by
  unfold mesure3
  rw [h 0 (by omega), h 1 (by omega), h 2 (by omega)]
  congr 1
  rcases hε with rfl | rfl <;> ring

theorem Launched.runPair3 (h : Launched 4 nodeid node (centvol3 node nodeid) npart0 epart nbnodes n SIZE data serial)
    (vm : ValidMesh3 nodeid node nbnodes n) (sqrt : K → K) (trunc : K → Int) (htr : ∀ m : Nat, trunc (m : K) = m) :
    RunPair 3 SIZE n epart data (fun p => build3 sqrt trunc SIZE (data p)) (build3 sqrt trunc 1 serial) [1, 2, 3, 4, 5, 6] (out3 serial) := by
  have hn : (build3 sqrt trunc 1 serial).nbcells = n := h.serial_cells.1
  refine ⟨Or.inr rfl, h.hS, by decide, hn, h.he, fun p hp => (h.cells hp).2, fun p hp => h.rankOf3 vm sqrt trunc htr hp, ?_, ?_, ?_, ?_⟩
  · intro p hp row hr E hE
    obtain ⟨c, rfl, hc, _⟩ := (h.ext_rows hp row).mp hr
    obtain rfl : c = E := by simpa using hE
    exact hc
  · intro p hp c hc
    have sc := h.sameCell3 hp hc
    rw [volume_build3 _ _ _ _ hc, volume_build3 _ _ _ _ sc.Lt, sc.volume]
  · intro p hp c hc j hj
    have sc := h.sameCell3 hp hc
    obtain ⟨hf, _⟩ := face_perm3 sqrt trunc SIZE (data p) hc hj
    obtain ⟨hF, _⟩ := face_perm3 sqrt trunc 1 serial sc.Lt hj
    obtain ⟨ε, hε, hnn⟩ := (h.rankOf3 vm sqrt trunc htr hp).normal_pm hc hj
    rw [mesure_build3 _ _ _ _ hf, mesure_build3 _ _ _ _ hF]
    exact mesure3_even sqrt _ _ ε hε hnn
  · intro cell W hr p hp
    exact h.halo cell W hr hp

/-- C82 (3D): the convective residual computed by the processes of a parallel run is, cell by cell, the one of the serial run
(order 1 and order 2). -/
theorem C82_residual_3d (h : Launched 4 nodeid node (centvol3 node nodeid) npart0 epart nbnodes n SIZE data serial)
    (vm : ValidMesh3 nodeid node nbnodes n) (sqrt : K → K) (trunc : K → Int) (htr : ∀ m : Nat, trunc (m : K) = m)
    (FL : Nat → Fields K) (FG : Fields K)
    (hF : SameFields SIZE data (fun p => build3 sqrt trunc SIZE (data p)) (build3 sqrt trunc 1 serial) FL FG) (order : Int) :
    ∀ p < SIZE, Restricts (data p).loctoglob
      (convArgs (build3 sqrt trunc SIZE (data p)) (FL p) order).explicitschemeConvective3d
      (convArgs (build3 sqrt trunc 1 serial) FG order).explicitschemeConvective3d := by
  intro p hp
  have R := h.runPair3 vm sqrt trunc htr
  rw [restricts_iff R hp]
  intro c hc
  have e1 := conv_balance (R.rank p hp).cL (FL p) order (dim := 3) (Or.inr rfl) c
  have e2 := conv_balance (R.rank p hp).cG FG order (dim := 3) (Or.inr rfl) (phi (data p) c)
  unfold Run.conv at e1 e2
  rw [if_neg (by decide)] at e1 e2
  rw [e1, e2]
  exact rank_balance (R.rank p hp) (fieldsMatch_of R (fun p hp c hc j hj => h.sameFace3 sqrt trunc hp hc hj) hF hp) order 3 (by omega) c hc

/-- C83 (3D): after any number of iterations of the order-1 transport driver the parallel run has reached the same time, and every rank
holds, in its cells, the values of the serial run. -/
theorem C83_run_3d (h : Launched 4 nodeid node (centvol3 node nodeid) npart0 epart nbnodes n SIZE data serial)
    (vm : ValidMesh3 nodeid node nbnodes n) (sqrt : K → K) (trunc : K → Int) (htr : ∀ m : Nat, trunc (m : K) = m)
    (S : Setup K) (gradsP gradsS : Nat → Nat → Grads K) (init : K → K → K → K) (N : Nat) :
    ∃ (s t : State K), loop 3 SIZE data (fun p => build3 sqrt trunc SIZE (data p)) S gradsP
          (start (fun p => build3 sqrt trunc SIZE (data p)) init) N = some s ∧
      loop 3 1 (fun _ => serial) (fun _ => build3 sqrt trunc 1 serial) S gradsS (start (fun _ => build3 sqrt trunc 1 serial) init) N = some t ∧
      s.time = t.time ∧ s.iter = t.iter ∧ ∀ p < SIZE, Restricts (data p).loctoglob (s.cell p) (t.cell 0) := by
  have R := h.runPair3 vm sqrt trunc htr
  obtain ⟨s, t, e1, e2, m⟩ := loop_match R S gradsP gradsS (fun _ => serial) _ _ (start_match R init) N
  exact ⟨s, t, e1, e2, m.time, m.iter, m.cell⟩

/-- C83: every cell of the mesh is held by exactly one rank, so the restrictions of `C83_run_3d` determine the whole serial state. -/
theorem C83_every_cell_3d (h : Launched 4 nodeid node (centvol3 node nodeid) npart0 epart nbnodes n SIZE data serial) (C : Nat) (hC : C < n) :
    ∃! p : Nat, p < SIZE ∧ ∃ j : Nat, (data p).loctoglob[j]? = some C := by
  refine ⟨epart C, ⟨h.he C hC, ?_⟩, ?_⟩
  · obtain ⟨c, hc, e⟩ := h.phi_surj (h.he C hC) C hC rfl
    have := phi_get (d := data (epart C)) (c := c) (by rw [← (h.cells (h.he C hC)).2]; exact hc)
    rw [e] at this
    exact ⟨c, this⟩
  · rintro q ⟨hq, j, hj⟩
    exact (((h.cells hq).1.2 C).mp (List.mem_of_getElem? hj)).2.symm

end

/-! ### a mesh meeting the hypotheses: a chain of three tetrahedra on two ranks -/

/-- Node `k` at `(k, k², k³)`, labelled 3 or 4. -/
def chainNode (k : Nat) : ℚ × ℚ × ℚ × Nat := ((k : ℚ), (k : ℚ) ^ 2, (k : ℚ) ^ 3, if k % 2 = 0 then 4 else 3)

/-- Tetrahedron `c` has the nodes `c .. c + 3`. -/
def chainCell (c k : Nat) : Nat := c + k
def chainPart (c : Nat) : Nat := if c < 2 then 0 else 1
def chainNodePart (k : Nat) : Nat := if k < 4 then 0 else 1

instance (a b c : Nat) : Decidable (SideLabels3 a b c) := by unfold SideLabels3; infer_instance

def chainOpp (c a b d x : Nat) : Prop := [a, b, d, x].Perm (nodesOf chainCell 4 c) → ∀ c' < 3, ∀ y < 6, c ≠ c' →
  [a, b, d, y].Perm (nodesOf chainCell 4 c') →
  signedVol (pos chainNode a) (pos chainNode b) (pos chainNode d) (pos chainNode x) *
    signedVol (pos chainNode a) (pos chainNode b) (pos chainNode d) (pos chainNode y) < 0

def chainLab (c a b d x : Nat) : Prop := [a, b, d, x].Perm (nodesOf chainCell 4 c) →
  SideLabels3 (labelOf chainNode a) (labelOf chainNode b) (labelOf chainNode d)

instance (c a b d x : Nat) : Decidable (chainOpp c a b d x) := by unfold chainOpp; infer_instance
instance (c a b d x : Nat) : Decidable (chainLab c a b d x) := by unfold chainLab; infer_instance

theorem chainValid : ValidMesh3 chainCell chainNode 6 3 := by
  have hlt : ∀ c < 3, ∀ a b d x, [a, b, d, x].Perm (nodesOf chainCell 4 c) →
      (∃ i < 4, a = c + i) ∧ (∃ i < 4, b = c + i) ∧ (∃ i < 4, d = c + i) ∧ (∃ i < 4, x = c + i) := by
    intro c hc a b d x hp
    have key : ∀ z ∈ nodesOf chainCell 4 c, ∃ i < 4, z = c + i := by
      intro z hz
      obtain ⟨k, hk, rfl⟩ := List.mem_map.mp hz
      exact ⟨k, List.mem_range.mp hk, rfl⟩
    exact ⟨key _ (hp.subset (by simp)), key _ (hp.subset (by simp)), key _ (hp.subset (by simp)), key _ (hp.subset (by simp))⟩
  refine ⟨by decide, by decide +kernel, by decide +kernel, ?_, ?_⟩
  · intro c hc c' hc' hne a b d x y h1 h2
    obtain ⟨⟨i1, l1, rfl⟩, ⟨i2, l2, rfl⟩, ⟨i3, l3, rfl⟩, ⟨i4, l4, rfl⟩⟩ := hlt c hc a b d x h1
    obtain ⟨_, _, _, ⟨k, lk, rfl⟩⟩ := hlt c' hc' _ _ _ y h2
    have D : ∀ c < 3, ∀ i1 < 4, ∀ i2 < 4, ∀ i3 < 4, ∀ i4 < 4, chainOpp c (c + i1) (c + i2) (c + i3) (c + i4) := by decide +kernel
    exact D c hc i1 l1 i2 l2 i3 l3 i4 l4 h1 c' hc' (c' + k) (by omega) hne h2
  · intro c hc a b d x h1 h2
    obtain ⟨⟨i1, l1, rfl⟩, ⟨i2, l2, rfl⟩, ⟨i3, l3, rfl⟩, ⟨i4, l4, rfl⟩⟩ := hlt c hc a b d x h1
    have D : ∀ c < 3, ∀ i1 < 4, ∀ i2 < 4, ∀ i3 < 4, ∀ i4 < 4, chainLab c (c + i1) (c + i2) (c + i3) (c + i4) := by decide +kernel
    exact D c hc i1 l1 i2 l2 i3 l3 i4 l4 h1

def chainData (p : Nat) : RankData ℚ :=
  expected 2 p (rankWrite chainCell chainNode (centvol3 chainNode chainCell) (partition chainCell chainNodePart chainPart 6 3 4)
    (halos (partition chainCell chainNodePart chainPart 6 3 4).cpart (partition chainCell chainNodePart chainPart 6 3 4).haloCell 2) 6 2 4 p)

def chainSerial : RankData ℚ := expected 1 0 (serialWrite chainCell chainNode 6 3 4)

theorem chainLaunched : Launched 4 chainCell chainNode (centvol3 chainNode chainCell) chainNodePart chainPart 6 3 2 chainData chainSerial := by
  refine ⟨by decide, by decide, by decide +kernel, by decide +kernel, by decide +kernel, by decide +kernel, ?_, ?_⟩
  · intro p hp; exact C25_round_trip_parallel (K := ℚ) 2 p (by decide) _
  · exact C25_round_trip_serial (K := ℚ) _ _

/-- The hypotheses of `C83_run_3d` are met, e.g. by this mesh. -/
example (S : Setup ℚ) (g1 g2 : Nat → Nat → Grads ℚ) (init : ℚ → ℚ → ℚ → ℚ) (N : Nat) :=
  C83_run_3d chainLaunched chainValid (fun x => x) Rat.floor floor_nat S g1 g2 init N

/-- The hypotheses of `C82_residual_3d` are met, with any cell arrays. -/
example (w wx wy wz psi : Nat → ℚ) : ∃ FL FG, SameFields 2 chainData (fun p => build3 (fun x => x) Rat.floor 2 (chainData p))
    (build3 (fun x => x) Rat.floor 1 chainSerial) FL FG ∧ FG.w = w ∧ FG.wx = wx ∧ FG.wy = wy ∧ FG.wz = wz ∧ FG.psi = psi := by
  obtain ⟨FL, h⟩ := sameFields_split (chainLaunched.runPair3 chainValid (fun x => x) Rat.floor floor_nat) w wx wy wz psi 1 2 0 5
  exact ⟨FL, _, h, rfl, rfl, rfl, rfl, rfl⟩

end Verif.Props.Par
