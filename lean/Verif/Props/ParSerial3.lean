import Verif.Props.ParSerial2
import Verif.Props.ParGeom3

/-! Helper lemmas for the parallel theorems (3D): the tables of a rank of a parallel run against those of the serial run. -/
set_option linter.unusedSectionVars false
set_option linter.unusedVariables false
set_option linter.unusedSimpArgs false
set_option linter.unusedTactic false
set_option linter.unreachableTactic false
namespace Verif.Props.Par
open Verif.Fvm Verif.Spec Verif.Conn Verif.Dom Verif.Geo Verif.Names Verif.MeshFile Verif.Part Verif.Comm
variable {K : Type*} [Field K] [LinearOrder K] [IsStrictOrderedRing K]

theorem name3_swap1 (a b c : Int) : name3 b a c = name3 a b c := by
  have e : ∀ v : Int, ((b = v ∧ a ≠ 0 ∧ c ≠ 0) ∨ (b ≠ 0 ∧ a = v ∧ c ≠ 0) ∨ (b ≠ 0 ∧ a ≠ 0 ∧ c = v)) ↔
      ((a = v ∧ b ≠ 0 ∧ c ≠ 0) ∨ (a ≠ 0 ∧ b = v ∧ c ≠ 0) ∨ (a ≠ 0 ∧ b ≠ 0 ∧ c = v)) := fun v => by tauto
  unfold name3
  simp only [e]
  by_cases h : a = b ∧ a = c
  · rw [if_pos h, if_pos ⟨h.1.symm, h.1 ▸ h.2⟩, h.1]
  · have h' : ¬ (b = a ∧ b = c) := fun e' => h ⟨e'.1.symm, e'.1 ▸ e'.2⟩
    simp only [h, h', if_false]

theorem name3_swap2 (a b c : Int) : name3 a c b = name3 a b c := by
  have e : ∀ v : Int, ((a = v ∧ c ≠ 0 ∧ b ≠ 0) ∨ (a ≠ 0 ∧ c = v ∧ b ≠ 0) ∨ (a ≠ 0 ∧ c ≠ 0 ∧ b = v)) ↔
      ((a = v ∧ b ≠ 0 ∧ c ≠ 0) ∨ (a ≠ 0 ∧ b = v ∧ c ≠ 0) ∨ (a ≠ 0 ∧ b ≠ 0 ∧ c = v)) := fun v => by tauto
  unfold name3
  simp only [e]
  by_cases h : a = b ∧ a = c
  · rw [if_pos h, if_pos ⟨h.2, h.1⟩]
  · have h' : ¬ (a = c ∧ a = b) := fun e' => h ⟨e'.2, e'.1⟩
    simp only [h, h', if_false]

theorem name3_perm (f : Nat → Int) {x y z p q r : Nat} (h : [x, y, z].Perm [p, q, r]) : name3 (f x) (f y) (f z) = name3 (f p) (f q) (f r) := by
  rcases perm3 h with h | h | h | h | h | h <;> obtain ⟨rfl, rfl, rfl⟩ := h
  · rfl
  · exact name3_swap1 _ _ _
  · rw [name3_swap2, name3_swap1]
  · exact name3_swap2 _ _ _
  · rw [name3_swap1, name3_swap2]
  · rw [name3_swap1, name3_swap2, name3_swap1]

theorem nm3_side (sqrt : K → K) (trunc : K → Int) (size : Nat) (d : RankData K) {c j : Nat} (hc : c < d.nodeid.length) (hj : j < 4) :
    nm3 trunc d ((build3 sqrt trunc size d).faceid c j) =
      name3 (trunc (vtx d (tA d c j) 3)) (trunc (vtx d (tB d c j) 3)) (trunc (vtx d (tC d c j) 3)) := by
  obtain ⟨_, hp⟩ := face_perm3 sqrt trunc size d hc hj
  exact name3_perm (fun s => trunc (vtx d s 3)) hp

theorem name3_sides {a b c : Nat} (h : SideLabels3 a b c) : name3 (a : Int) (b : Int) (c : Int) ∈ ([1, 2, 3, 4, 5, 6] : List Int) := by
  obtain ⟨⟨a1, a2⟩, ⟨b1, b2⟩, ⟨c1, c2⟩, hab⟩ := h
  interval_cases a <;> interval_cases b <;> interval_cases c <;> first | (exfalso; omega) | decide

theorem mem_side3_of {x y z w a b c : Nat} (ha : a ∈ [x, y, z, w]) (hb : b ∈ [x, y, z, w]) (hc : c ∈ [x, y, z, w]) (hab : a ≠ b)
    (hbc : b ≠ c) (hac : a ≠ c) : ∃ j < 4, [a, b, c].Perm (side3 x y z w j) := by
  have key : ∀ l : List Nat, a ∈ l → b ∈ l → c ∈ l → l.length = 3 → [a, b, c].Perm l := by
    intro l h1 h2 h3 hl
    have hn : [a, b, c].Nodup := by simp [hab, hbc, hac]
    have hs : [a, b, c] ⊆ l := by
      intro t ht
      simp only [List.mem_cons, List.not_mem_nil, or_false] at ht
      rcases ht with rfl | rfl | rfl <;> assumption
    exact (List.subperm_of_subset hn hs).perm_of_length_le (by rw [hl]; simp)
  have hmem : ∃ j < 4, a ∈ side3 x y z w j ∧ b ∈ side3 x y z w j ∧ c ∈ side3 x y z w j := by
    simp only [List.mem_cons, List.not_mem_nil, or_false] at ha hb hc
    rcases ha with rfl | rfl | rfl | rfl <;> rcases hb with rfl | rfl | rfl | rfl <;> rcases hc with rfl | rfl | rfl | rfl <;> first
      | exact absurd rfl hab
      | exact absurd rfl hbc
      | exact absurd rfl hac
      | (refine ⟨0, by omega, ?_, ?_, ?_⟩ <;> simp [side3] <;> done)
      | (refine ⟨1, by omega, ?_, ?_, ?_⟩ <;> simp [side3] <;> done)
      | (refine ⟨2, by omega, ?_, ?_, ?_⟩ <;> simp [side3] <;> done)
      | (refine ⟨3, by omega, ?_, ?_, ?_⟩ <;> simp [side3] <;> done)
  obtain ⟨j, hj, h1, h2, h3⟩ := hmem
  exact ⟨j, hj, key _ h1 h2 h3 (by unfold side3; split <;> rfl)⟩

theorem signedVol_distinct {v : Nat → Vec K} {a b c d : Nat} (h : signedVol (v a) (v b) (v c) (v d) ≠ 0) :
    a ≠ b ∧ a ≠ c ∧ a ≠ d ∧ b ≠ c ∧ b ≠ d ∧ c ≠ d := by
  refine ⟨?_, ?_, ?_, ?_, ?_, ?_⟩ <;> (rintro rfl; apply h; unfold signedVol; ring)

section
variable {nodeid : Nat → Nat → Nat} {node : Nat → K × K × K × Nat} {cv : Nat → List K} {npart0 epart : Nat → Nat}
  {nbnodes n SIZE : Nat} {data : Nat → RankData K} {serial : RankData K}

theorem Launched.row3S (h : Launched 4 nodeid node cv npart0 epart nbnodes n SIZE data serial) {C : Nat} (hC : C < n) :
    row3 serial C = (nodeid C 0, nodeid C 1, nodeid C 2, nodeid C 3) := by
  have := h.serial_cells.2.1 C hC
  unfold row3
  rw [this 0 (by omega), this 1 (by omega), this 2 (by omega), this 3 (by omega)]

theorem nodesOf4 (nodeid : Nat → Nat → Nat) (C : Nat) : nodesOf nodeid 4 C = [nodeid C 0, nodeid C 1, nodeid C 2, nodeid C 3] := rfl

theorem Launched.lst3S (h : Launched 4 nodeid node cv npart0 epart nbnodes n SIZE data serial) {C : Nat} (hC : C < n) :
    lst3 serial C = nodesOf nodeid 4 C := by
  unfold lst3; rw [h.row3S hC, nodesOf4]

theorem Launched.vol_eq (h : Launched 4 nodeid node cv npart0 epart nbnodes n SIZE data serial) {a b c d : Nat} (ha : a < nbnodes)
    (hb : b < nbnodes) (hc : c < nbnodes) (hd : d < nbnodes) :
    signedVol (vtx serial a) (vtx serial b) (vtx serial c) (vtx serial d) = signedVol (pos node a) (pos node b) (pos node c) (pos node d) := by
  have hs := h.serial_cells.2.2.1
  unfold signedVol vtx
  rw [(hs a ha).1 0 (by omega), (hs a ha).1 1 (by omega), (hs a ha).1 2 (by omega), (hs b hb).1 0 (by omega), (hs b hb).1 1 (by omega),
    (hs b hb).1 2 (by omega), (hs c hc).1 0 (by omega), (hs c hc).1 1 (by omega), (hs c hc).1 2 (by omega), (hs d hd).1 0 (by omega),
    (hs d hd).1 1 (by omega), (hs d hd).1 2 (by omega)]

theorem Launched.nonFlatS3 (h : Launched 4 nodeid node cv npart0 epart nbnodes n SIZE data serial) (vm : ValidMesh3 nodeid node nbnodes n)
    {C : Nat} (hC : C < n) : NonFlat3 serial C := by
  unfold NonFlat3
  rw [h.row3S hC, h.vol_eq (vm.nodes C hC 0 (by omega)) (vm.nodes C hC 1 (by omega)) (vm.nodes C hC 2 (by omega)) (vm.nodes C hC 3 (by omega))]
  exact vm.volume C hC

theorem Launched.side_perm3 (h : Launched 4 nodeid node cv npart0 epart nbnodes n SIZE data serial) {C : Nat} (hC : C < n) {j : Nat}
    (hj : j < 4) : [tA serial C j, tB serial C j, tC serial C j, tO serial C j].Perm (nodesOf nodeid 4 C) := by
  rw [← h.lst3S hC]; exact Par.side_perm3 serial C hj

theorem Launched.side_lt3 (h : Launched 4 nodeid node cv npart0 epart nbnodes n SIZE data serial) {C : Nat} (hC : C < n) {j : Nat}
    (hj : j < 4) : tA serial C j < nbnodes ∧ tB serial C j < nbnodes ∧ tC serial C j < nbnodes ∧ tO serial C j < nbnodes := by
  have hp := h.side_perm3 hC hj
  have key : ∀ x ∈ nodesOf nodeid 4 C, x < nbnodes := by
    intro x hx
    obtain ⟨k, hk, rfl⟩ := List.mem_map.mp hx
    exact h.hnode C hC k (List.mem_range.mp hk)
  exact ⟨key _ (hp.subset (by simp)), key _ (hp.subset (by simp)), key _ (hp.subset (by simp)), key _ (hp.subset (by simp))⟩

theorem Launched.side_ne3 (h : Launched 4 nodeid node cv npart0 epart nbnodes n SIZE data serial) (vm : ValidMesh3 nodeid node nbnodes n)
    {C : Nat} (hC : C < n) {j : Nat} (hj : j < 4) :
    tA serial C j ≠ tB serial C j ∧ tB serial C j ≠ tC serial C j ∧ tA serial C j ≠ tC serial C j := by
  have h1 := signedVol_perm_ne (vtx serial) _ _ _ _ _ _ _ _ (Par.side_perm3 serial C hj) (h.nonFlatS3 vm hC)
  obtain ⟨a, b, _, c, _⟩ := signedVol_distinct h1
  exact ⟨a, c, b⟩

/-- Two cells with a common side lie on opposite sides of it. -/
theorem Launched.opp3 (h : Launched 4 nodeid node cv npart0 epart nbnodes n SIZE data serial) (vm : ValidMesh3 nodeid node nbnodes n)
    {C C' j j' : Nat} (hC : C < n) (hC' : C' < n) (hne : C ≠ C') (hj : j < 4) (hj' : j' < 4)
    (hp : (sid3 serial C j).Perm (sid3 serial C' j')) :
    signedVol (vtx serial (tA serial C j)) (vtx serial (tB serial C j)) (vtx serial (tC serial C j)) (vtx serial (tO serial C j)) *
      signedVol (vtx serial (tA serial C j)) (vtx serial (tB serial C j)) (vtx serial (tC serial C j)) (vtx serial (tO serial C' j')) < 0 := by
  obtain ⟨l1, l2, l3, l4⟩ := h.side_lt3 hC hj
  obtain ⟨_, _, _, l4'⟩ := h.side_lt3 hC' hj'
  rw [h.vol_eq l1 l2 l3 l4, h.vol_eq l1 l2 l3 l4']
  refine vm.opposite C hC C' hC' hne _ _ _ _ _ (h.side_perm3 hC hj) ?_
  refine List.Perm.trans ?_ (h.side_perm3 hC' hj')
  rw [sid3_eq, sid3_eq] at hp
  rw [append3, append3]; exact hp.append_right _

theorem Launched.sameCell3 (h : Launched 4 nodeid node cv npart0 epart nbnodes n SIZE data serial) {p : Nat} (hp : p < SIZE) {c : Nat}
    (hc : c < (data p).nodeid.length) : SameCell3 (data p) serial (gOf (data p)) c (phi (data p) c) := by
  have hC := (h.phi_lt hp hc).1
  have hl := fun j (hj : j < 4) => h.local_nodes hp hc hj
  refine ⟨hc, by rw [h.serial_cells.1]; exact hC, ?_, ?_⟩
  · rw [h.row3S hC]
    unfold row3 gOf
    rw [(hl 0 (by omega)).1, (hl 1 (by omega)).1, (hl 2 (by omega)).1, (hl 3 (by omega)).1]
  · intro s hs k hk
    simp only [List.mem_cons, List.not_mem_nil, or_false, lst3, row3] at hs
    unfold vtx gOf
    rcases hs with rfl | rfl | rfl | rfl
    · rw [(hl 0 (by omega)).2.2 k hk, (hl 0 (by omega)).1]
    · rw [(hl 1 (by omega)).2.2 k hk, (hl 1 (by omega)).1]
    · rw [(hl 2 (by omega)).2.2 k hk, (hl 2 (by omega)).1]
    · rw [(hl 3 (by omega)).2.2 k hk, (hl 3 (by omega)).1]

theorem node_mem3 (d : RankData K) (c : Nat) {j : Nat} (hj : j < 4) {x : Nat} (hx : x ∈ sid3 d c j) : ∃ i < 4, x = at2 0 d.nodeid c i := by
  have hp := Par.side_perm3 d c hj
  rw [sid3_eq] at hx
  have : x ∈ lst3 d c := by
    apply hp.subset
    simp only [List.mem_cons, List.not_mem_nil, or_false] at hx ⊢
    tauto
  simp only [List.mem_cons, List.not_mem_nil, or_false, lst3, row3] at this
  rcases this with e | e | e | e
  · exact ⟨0, by omega, e⟩
  · exact ⟨1, by omega, e⟩
  · exact ⟨2, by omega, e⟩
  · exact ⟨3, by omega, e⟩

theorem Launched.isSide3 (h : Launched 4 nodeid node cv npart0 epart nbnodes n SIZE data serial) {C : Nat} (hC : C < n) (face : List Nat) :
    IsSide 3 ((List.range 4).map (nodeid C)) face ↔ ∃ j < 4, face.Perm (sid3 serial C j) := by
  have hr : (List.range 4).map (nodeid C) = [nodeid C 0, nodeid C 1, nodeid C 2, nodeid C 3] := rfl
  have hs : ∀ j, sid3 serial C j = side3 (nodeid C 0) (nodeid C 1) (nodeid C 2) (nodeid C 3) j := by
    intro j; unfold sid3; rw [h.row3S hC]
  rw [hr]
  simp only [hs]
  generalize nodeid C 0 = a at *
  generalize nodeid C 1 = b at *
  generalize nodeid C 2 = e at *
  generalize nodeid C 3 = f at *
  have key : ∀ x y z : Nat, IsSide 3 [a, b, e, f] [x, y, z] ↔ ∃ j < 4, [x, y, z].Perm (side3 a b e f j) := by
    intro x y z
    rw [Props.isSide3]
    constructor
    · rintro ⟨key, hk, hm⟩
      have hpk : [x, y, z].Perm key := by
        simp only [List.mem_cons, List.not_mem_nil, or_false] at hk
        rcases hk with rfl | rfl | rfl | rfl | rfl | rfl <;>
          (apply List.perm_iff_count.mpr; intro t; simp only [List.count_cons, List.count_nil] <;> omega)
      simp only [List.mem_cons, List.not_mem_nil, or_false] at hm
      rcases hm with rfl | rfl | rfl | rfl
      · exact ⟨0, by omega, hpk⟩
      · exact ⟨1, by omega, hpk⟩
      · exact ⟨2, by omega, hpk⟩
      · exact ⟨3, by omega, hpk⟩
    · rintro ⟨j, hj, hpj⟩
      interval_cases j <;> simp only [side3] at hpj <;> rcases perm3 hpj with h | h | h | h | h | h <;> obtain ⟨rfl, rfl, rfl⟩ := h <;> simp
  constructor
  · rintro ⟨s, h1, h2, h3⟩
    match face, h3.length_eq.trans h2 with
    | [x, y, z], _ => exact (key x y z).mp ⟨s, h1, h2, h3⟩
  · rintro ⟨j, hj, hpj⟩
    have hl := hpj.length_eq
    have h3 : (side3 a b e f j).length = 3 := by unfold side3; split <;> rfl
    rw [h3] at hl
    match face, hl with
    | [x, y, z], _ => exact (key x y z).mpr ⟨j, hj, hpj⟩

set_option maxHeartbeats 1000000 in
/-- The tables of rank `p` and of the serial run, as far as cells, faces and halo cells are concerned. -/
theorem Launched.meshPair3 (h : Launched 4 nodeid node cv npart0 epart nbnodes n SIZE data serial) (vm : ValidMesh3 nodeid node nbnodes n)
    (sqrt : K → K) (trunc : K → Int) {p : Nat} (hp : p < SIZE) :
    MeshPair (build3 sqrt trunc SIZE (data p)) (build3 sqrt trunc 1 serial) 4 3 (sid3 (data p)) (sid3 serial) nodeid (phi (data p))
      (gOf (data p)) (fun C => epart C = p) (extOf SIZE (data p)) := by
  have hn : (build3 sqrt trunc 1 serial).nbcells = n := h.serial_cells.1
  have hL : (build3 sqrt trunc SIZE (data p)).nbcells = (data p).nodeid.length := rfl
  have hext : extOf SIZE (data p) = (data p).halosext := by unfold extOf; rw [if_pos h.hS]
  refine ⟨?_, ?_, ?_, ?_, ?_, ?_, ?_, ?_, ?_, ?_⟩
  · intro c hc; rw [hn]; exact h.phi_lt hp hc
  · intro c c' hcc hc'; exact h.phi_mono hp c c' hcc hc'
  · intro C hC hm; rw [hn] at hC; exact h.phi_surj hp C hC hm
  · intro c hc j hj; exact (h.sameCell3 hp hc).side j
  · intro c hc c' hc' j hj j' hj' x hx y hy e
    obtain ⟨i, hi, rfl⟩ := node_mem3 _ _ hj hx
    obtain ⟨i', hi', rfl⟩ := node_mem3 _ _ hj' hy
    have l1 := h.local_nodes hp hc hi
    have l2 := h.local_nodes hp hc' hi'
    unfold gOf at e
    rw [l1.1, l2.1] at e
    rw [l1.2.1, l2.2.1, e]
  · intro C hC face; rw [hn] at hC; exact h.isSide3 hC face
  · intro row hr
    rw [hext] at hr
    obtain ⟨c, h1, h2, h3, _⟩ := (h.ext_rows hp row).mp hr
    exact ⟨c, h1, by rw [hn]; exact h2, h3⟩
  · intro E hE hm C hC hmC j hj j' hj' hpm
    rw [hn] at hE hC
    rw [hext]
    refine (h.ext_rows hp _).mpr ⟨E, rfl, hE, hm, tA serial E j, ?_, Or.inr ⟨C, hC, hmC, ?_⟩⟩
    · have : tA serial E j ∈ nodesOf nodeid 4 E := (h.side_perm3 hE hj).subset (by simp)
      obtain ⟨k, hk, e⟩ := List.mem_map.mp this
      exact ⟨k, List.mem_range.mp hk, e⟩
    · have h1 : tA serial E j ∈ sid3 serial C j' := hpm.subset (by rw [sid3_eq]; simp)
      have : tA serial E j ∈ nodesOf nodeid 4 C := by
        apply (h.side_perm3 hC hj').subset
        rw [sid3_eq] at h1
        simp only [List.mem_cons, List.not_mem_nil, or_false] at h1 ⊢
        tauto
      obtain ⟨k, hk, e⟩ := List.mem_map.mp this
      exact ⟨k, List.mem_range.mp hk, e⟩
  · intro a ha b hb c hc h1 h2 h3 ja hja jb hjb jc hjc p1 p2
    rw [hn] at ha hb hc
    have s1 := h.opp3 vm ha hb h1 hja hjb p1
    have s2 := h.opp3 vm ha hc h2 hja hjc p2
    obtain ⟨lA, lB, lC, lO⟩ := h.side_lt3 ha hja
    have s3 : signedVol (vtx serial (tA serial a ja)) (vtx serial (tB serial a ja)) (vtx serial (tC serial a ja)) (vtx serial (tO serial b jb)) *
        signedVol (vtx serial (tA serial a ja)) (vtx serial (tB serial a ja)) (vtx serial (tC serial a ja)) (vtx serial (tO serial c jc)) < 0 := by
      rw [h.vol_eq lA lB lC (h.side_lt3 hb hjb).2.2.2, h.vol_eq lA lB lC (h.side_lt3 hc hjc).2.2.2]
      rw [sid3_eq, sid3_eq] at p1 p2
      refine vm.opposite b hb c hc h3 _ _ _ _ _ ?_ ?_
      · refine List.Perm.trans ?_ (h.side_perm3 hb hjb); rw [append3, append3]; exact p1.append_right _
      · refine List.Perm.trans ?_ (h.side_perm3 hc hjc); rw [append3, append3]; exact p2.append_right _
    generalize signedVol (vtx serial (tA serial a ja)) (vtx serial (tB serial a ja)) (vtx serial (tC serial a ja)) (vtx serial (tO serial a ja)) = X at *
    generalize signedVol (vtx serial (tA serial a ja)) (vtx serial (tB serial a ja)) (vtx serial (tC serial a ja)) (vtx serial (tO serial b jb)) = Y at *
    generalize signedVol (vtx serial (tA serial a ja)) (vtx serial (tB serial a ja)) (vtx serial (tC serial a ja)) (vtx serial (tO serial c jc)) = Z at *
    rcases mul_neg_iff.mp s1 with ⟨x1, x2⟩ | ⟨x1, x2⟩ <;> rcases mul_neg_iff.mp s2 with ⟨y1, y2⟩ | ⟨y1, y2⟩ <;>
      rcases mul_neg_iff.mp s3 with ⟨z1, z2⟩ | ⟨z1, z2⟩ <;> linarith
  · intro C hC j hj j' hj' hpm
    rw [hn] at hC
    have hnf := h.nonFlatS3 vm hC
    obtain ⟨d1, d2, d3, d4, d5, d6⟩ := signedVol_distinct hnf
    -- the opposite node of side j is in every other side
    have hO : ∀ i < 4, ∀ i' < 4, tO serial C i ∈ sid3 serial C i' ↔ i ≠ i' := by
      intro i hi i' hi'
      unfold sid3
      interval_cases i <;> interval_cases i' <;>
        simp [tO, side3, d1, d2, d3, d4, d5, d6, Ne.symm d1, Ne.symm d2, Ne.symm d3, Ne.symm d4, Ne.symm d5, Ne.symm d6]
    by_contra hne
    have := (hO j hj j' hj').mpr hne
    have := hpm.symm.subset this
    exact (hO j hj j hj).mp this rfl

end
end Verif.Props.Par
