import Verif.Props.PerSer2

/-! Helper lemmas for the theorems on meshes with periodic sides (3D): the tables `build3` of a valid tetrahedral mesh meet `SDom`. -/
set_option linter.unusedSectionVars false
set_option linter.unusedVariables false
set_option linter.unusedSimpArgs false
namespace Verif.Props.Par
open Verif.Fvm Verif.Spec Verif.Conn Verif.Dom Verif.Geo Verif.Names Verif.MeshFile Verif.Part Verif.Comm Verif.Run Verif.Periodic
variable {K : Type*} [Field K] [LinearOrder K] [IsStrictOrderedRing K]

theorem name3_first (a b c s : Int) (ha : a ≠ 0) (hb : b ≠ 0) (hc : c ≠ 0) :
    (a = s ∧ b ≠ 0 ∧ c ≠ 0 ∨ a ≠ 0 ∧ b = s ∧ c ≠ 0 ∨ a ≠ 0 ∧ b ≠ 0 ∧ c = s) ↔ (a = s ∨ b = s ∨ c = s) := by tauto

theorem corner_facts {s x : Nat} (hs : s ∈ wallSides 3 ++ perSides 3) (hx : x = s ∨ x ∈ cornerLabels s) : x ≠ 0 ∧ (s ≠ 5 → x ≠ 5) ∧ (s ≠ 6 → s ≠ 5 → x ≠ 6) ∧
    (s ∈ [4, 55, 66, 33, 44] → x ≠ 3) ∧ (s ∈ [55, 66, 33, 44] → x ≠ 4) ∧ (s ∈ [66, 33, 44] → x ≠ 55) ∧ (s ∈ [33, 44] → x ≠ 66) ∧ (s = 44 → x ≠ 33) ∧
    (s ∈ [1, 2, 11, 22] → x = s) := by
  have hs' : s ∈ [1, 2, 3, 4, 5, 6, 11, 22, 33, 44, 55, 66] := hs
  have : ∀ s ∈ [1, 2, 3, 4, 5, 6, 11, 22, 33, 44, 55, 66], ∀ x ∈ s :: cornerLabels s, x ≠ 0 ∧ (s ≠ 5 → x ≠ 5) ∧ (s ≠ 6 → s ≠ 5 → x ≠ 6) ∧
    (s ∈ [4, 55, 66, 33, 44] → x ≠ 3) ∧ (s ∈ [55, 66, 33, 44] → x ≠ 4) ∧ (s ∈ [66, 33, 44] → x ≠ 55) ∧ (s ∈ [33, 44] → x ≠ 66) ∧ (s = 44 → x ≠ 33) ∧
    (s ∈ [1, 2, 11, 22] → x = s) := by decide
  exact this s hs' x (by simpa using hx)

/-- The name of a triangle lying on side `s`. -/
theorem name3_on {s a b c : Nat} (hs : s ∈ wallSides 3 ++ perSides 3) (h1 : a = s ∨ b = s ∨ c = s) (ha : a = s ∨ a ∈ cornerLabels s)
    (hb : b = s ∨ b ∈ cornerLabels s) (hc : c = s ∨ c ∈ cornerLabels s) : name3 (a : Int) (b : Int) (c : Int) = (s : Int) := by
  obtain ⟨a0, a5, a6, a3, a4, a55, a66, a33, a1⟩ := corner_facts hs ha
  obtain ⟨b0, b5, b6, b3, b4, b55, b66, b33, b1⟩ := corner_facts hs hb
  obtain ⟨c0, c5, c6, c3, c4, c55, c66, c33, c1⟩ := corner_facts hs hc
  clear ha hb hc
  have za : (a : Int) ≠ 0 := by exact_mod_cast a0
  have zb : (b : Int) ≠ 0 := by exact_mod_cast b0
  have zc : (c : Int) ≠ 0 := by exact_mod_cast c0
  have no : ∀ v : Nat, a ≠ v → b ≠ v → c ≠ v → ¬ ((a : Int) = (v : Int) ∨ (b : Int) = (v : Int) ∨ (c : Int) = (v : Int)) := by
    intro v ha hb hc; push Not; exact ⟨by exact_mod_cast ha, by exact_mod_cast hb, by exact_mod_cast hc⟩
  have yes : (a : Int) = (s : Int) ∨ (b : Int) = (s : Int) ∨ (c : Int) = (s : Int) := by exact_mod_cast h1
  unfold name3
  simp only [name3_first _ _ _ _ za zb zc]
  by_cases h : (a : Int) = b ∧ (a : Int) = c
  · rw [if_pos h]; rcases yes with e | e | e
    · exact e
    · exact h.1.trans e
    · exact h.2.trans e
  rw [if_neg h]
  have hs' : s ∈ [1, 2, 3, 4, 5, 6, 11, 22, 33, 44, 55, 66] := hs
  simp only [List.mem_cons, List.not_mem_nil, or_false] at hs'
  have n5 := fun e => no 5 (a5 e) (b5 e) (c5 e)
  have n6 := fun e e' => no 6 (a6 e e') (b6 e e') (c6 e e')
  have n3 := fun e => no 3 (a3 e) (b3 e) (c3 e)
  have n4 := fun e => no 4 (a4 e) (b4 e) (c4 e)
  have n55 := fun e => no 55 (a55 e) (b55 e) (c55 e)
  have n66 := fun e => no 66 (a66 e) (b66 e) (c66 e)
  have n33 := fun e => no 33 (a33 e) (b33 e) (c33 e)
  have eqs : s ∈ [1, 2, 11, 22] → False := fun e => h ⟨by rw [a1 e, b1 e], by rw [a1 e, c1 e]⟩
  clear no za zb zc a0 a5 a6 a3 a4 a55 a66 a33 a1 b0 b5 b6 b3 b4 b55 b66 b33 b1 c0 c5 c6 c3 c4 c55 c66 c33 c1 h1 hs h
  push_cast at n5 n6 n3 n4 n55 n66 n33
  rcases hs' with rfl | rfl | rfl | rfl | rfl | rfl | rfl | rfl | rfl | rfl | rfl | rfl
  · exact (eqs (by decide)).elim
  · exact (eqs (by decide)).elim
  · rw [if_neg (n5 (by decide)), if_neg (n6 (by decide) (by decide)), if_pos (by exact_mod_cast yes)]; rfl
  · rw [if_neg (n5 (by decide)), if_neg (n6 (by decide) (by decide)), if_neg (n3 (by decide)), if_pos (by exact_mod_cast yes)]; rfl
  · rw [if_pos (by exact_mod_cast yes)]; rfl
  · rw [if_neg (n5 (by decide)), if_pos (by exact_mod_cast yes)]; rfl
  · exact (eqs (by decide)).elim
  · exact (eqs (by decide)).elim
  · rw [if_neg (n5 (by decide)), if_neg (n6 (by decide) (by decide)), if_neg (n3 (by decide)), if_neg (n4 (by decide)), if_neg (n55 (by decide)), if_neg (n66 (by decide)), if_pos (by exact_mod_cast yes)]; rfl
  · rw [if_neg (n5 (by decide)), if_neg (n6 (by decide) (by decide)), if_neg (n3 (by decide)), if_neg (n4 (by decide)), if_neg (n55 (by decide)), if_neg (n66 (by decide)), if_neg (n33 (by decide)), if_pos (by exact_mod_cast yes)]; rfl
  · rw [if_neg (n5 (by decide)), if_neg (n6 (by decide) (by decide)), if_neg (n3 (by decide)), if_neg (n4 (by decide)), if_pos (by exact_mod_cast yes)]; rfl
  · rw [if_neg (n5 (by decide)), if_neg (n6 (by decide) (by decide)), if_neg (n3 (by decide)), if_neg (n4 (by decide)), if_neg (n55 (by decide)), if_pos (by exact_mod_cast yes)]; rfl

section
variable {m : Mesh K} {serial : RankData K} {L : Nat → K} {r : K → K}

set_option maxHeartbeats 1000000 in
theorem sdom3 (hv : m.Valid3 L r) (hr : m.Read serial) (sqrt : K → K) (hs : ∀ x, 0 < x → sqrt x ≠ 0) (trunc : K → Int)
    (htr : ∀ i : Nat, trunc (i : K) = i) :
    SDom m (build3 sqrt trunc 1 serial) (sid3 serial) (tO serial) (out3 serial) (fac3 serial) (nm3 trunc serial) (gOf serial) := by
  obtain ⟨v, three, volume, opposite⟩ := hv
  obtain ⟨dim, nodeid, node, nbnodes, n⟩ := m
  dsimp only at three
  subst three
  obtain ⟨hlen, hvl, hcell, hvert, hext⟩ := read_cells hr
  change serial.nodeid.length = n at hlen
  change ∀ C < n, ∀ j < 4, at2 0 serial.nodeid C j = nodeid C j at hcell
  change serial.vertex.length = nbnodes at hvl
  have hnodes : ∀ c < n, ∀ j < 4, nodeid c j < nbnodes := v.nodes
  dsimp only at volume opposite
  have hrow : ∀ C < n, row3 serial C = (nodeid C 0, nodeid C 1, nodeid C 2, nodeid C 3) := by
    intro C hC
    unfold row3
    rw [hcell C hC 0 (by omega), hcell C hC 1 (by omega), hcell C hC 2 (by omega), hcell C hC 3 (by omega)]
  have hlst : ∀ C < n, lst3 serial C = nodesOf nodeid 4 C := by intro C hC; unfold lst3; rw [hrow C hC]; rfl
  have hpos : ∀ a < nbnodes, ∀ k < 3, vtx serial a k = pos node a k := fun a ha => (hvert a ha).1
  have hvol : ∀ a < nbnodes, ∀ b < nbnodes, ∀ c < nbnodes, ∀ o < nbnodes, signedVol (vtx serial a) (vtx serial b) (vtx serial c) (vtx serial o) =
      signedVol (pos node a) (pos node b) (pos node c) (pos node o) := by
    intro a ha b hb c hc o ho
    unfold signedVol
    rw [hpos a ha 0 (by omega), hpos a ha 1 (by omega), hpos a ha 2 (by omega), hpos b hb 0 (by omega), hpos b hb 1 (by omega), hpos b hb 2 (by omega),
      hpos c hc 0 (by omega), hpos c hc 1 (by omega), hpos c hc 2 (by omega), hpos o ho 0 (by omega), hpos o ho 1 (by omega), hpos o ho 2 (by omega)]
  have hnf : ∀ C < n, NonFlat3 serial C := by
    intro C hC
    unfold NonFlat3
    rw [hrow C hC]
    show signedVol (vtx serial (nodeid C 0)) (vtx serial (nodeid C 1)) (vtx serial (nodeid C 2)) (vtx serial (nodeid C 3)) ≠ 0
    rw [hvol _ (hnodes C hC 0 (by omega)) _ (hnodes C hC 1 (by omega)) _ (hnodes C hC 2 (by omega)) _ (hnodes C hC 3 (by omega))]
    exact volume C hC
  have hl : ∀ C < n, C < serial.nodeid.length := fun C hC => hlen ▸ hC
  have hsp : ∀ C < n, ∀ j < 4, [tA serial C j, tB serial C j, tC serial C j, tO serial C j].Perm (nodesOf nodeid 4 C) := by
    intro C hC j hj
    rw [← hlst C hC]; exact Par.side_perm3 serial C hj
  have hlt : ∀ C < n, ∀ j < 4, tA serial C j < nbnodes ∧ tB serial C j < nbnodes ∧ tC serial C j < nbnodes ∧ tO serial C j < nbnodes := by
    intro C hC j hj
    have hp := hsp C hC j hj
    have key : ∀ x ∈ nodesOf nodeid 4 C, x < nbnodes := by
      intro x hx
      obtain ⟨k, hk, rfl⟩ := List.mem_map.mp hx
      exact hnodes C hC k (List.mem_range.mp hk)
    exact ⟨key _ (hp.subset (by simp)), key _ (hp.subset (by simp)), key _ (hp.subset (by simp)), key _ (hp.subset (by simp))⟩
  have hopp : ∀ C < n, ∀ C' < n, C ≠ C' → ∀ j < 4, ∀ j' < 4, (sid3 serial C j).Perm (sid3 serial C' j') →
      signedVol (vtx serial (tA serial C j)) (vtx serial (tB serial C j)) (vtx serial (tC serial C j)) (vtx serial (tO serial C j)) *
        signedVol (vtx serial (tA serial C j)) (vtx serial (tB serial C j)) (vtx serial (tC serial C j)) (vtx serial (tO serial C' j')) < 0 := by
    intro C hC C' hC' hne j hj j' hj' hp
    obtain ⟨l1, l2, l3, l4⟩ := hlt C hC j hj
    obtain ⟨_, _, _, l4'⟩ := hlt C' hC' j' hj'
    rw [hvol _ l1 _ l2 _ l3 _ l4, hvol _ l1 _ l2 _ l3 _ l4']
    refine opposite C hC C' hC' hne _ _ _ _ _ (hsp C hC j hj) ?_
    refine List.Perm.trans ?_ (hsp C' hC' j' hj')
    rw [sid3_eq, sid3_eq] at hp
    rw [append3, append3]; exact hp.append_right _
  have hside : ∀ C < n, ∀ j < 4, signedVol (vtx serial (tA serial C j)) (vtx serial (tB serial C j)) (vtx serial (tC serial C j)) (vtx serial (tO serial C j)) ≠ 0 :=
    fun C hC j hj => signedVol_perm_ne (vtx serial) _ _ _ _ _ _ _ _ (Par.side_perm3 serial C hj) (hnf C hC)
  have hbuilt := built3 sqrt trunc 1 serial (fun x hx => by rw [hext] at hx; simp at hx)
  have hext1 : extOf 1 serial = [] := by unfold extOf; simp
  rw [hext1] at hbuilt
  have hfirst : ∀ c < n, ∀ j < 4, ∃ a < n, ∃ ja < 4, (build3 sqrt trunc 1 serial).faceid a ja = (build3 sqrt trunc 1 serial).faceid c j ∧
      (build3 sqrt trunc 1 serial).cellid ((build3 sqrt trunc 1 serial).faceid c j) 0 = (a : Int) := by
    intro c hc j hj
    have hf := (face_perm3 sqrt trunc 1 serial (hl c hc) hj).1
    obtain ⟨a, ha, e, hm⟩ := users_first (ne_nil_of_face hbuilt.faces hf)
    obtain ⟨ja, hja, ej⟩ := hm
    exact ⟨a, hlen ▸ ha, ja, hja, ej, by rw [hbuilt.cell0 _ (hbuilt.nb ▸ hf), e]⟩
  refine ⟨Or.inr rfl, hlen, hvl, ?_, ⟨per3_nodup _ _, ?_⟩, ?_, ?_, ?_, ?_, ?_, ?_, ?_, ?_, ?_, ?_, ?_, ?_, ?_, ?_, ?_⟩
  · -- built
    exact hbuilt
  · -- per
    intro f
    exact mem_per3 _ _ f
  · -- sd
    intro c hc j hj
    rw [sid3_eq]
    exact hsp c hc j hj
  · -- opx
    intro c hc x hx
    have : x ∈ lst3 serial c := by rw [hlst c hc]; exact hx
    simp only [lst3, List.mem_cons, List.not_mem_nil, or_false] at this
    rcases this with rfl | rfl | rfl | rfl
    · exact ⟨3, by show 3 < 4; omega, rfl⟩
    · exact ⟨1, by show 1 < 4; omega, rfl⟩
    · exact ⟨2, by show 2 < 4; omega, rfl⟩
    · exact ⟨0, by show 0 < 4; omega, rfl⟩
  · -- opinj
    intro c hc j hj j' hj' e
    obtain ⟨d1, d2, d3, d4, d5, d6⟩ := signedVol_distinct (hnf c hc)
    change j < 4 at hj; change j' < 4 at hj'
    interval_cases j <;> interval_cases j' <;> first
      | rfl
      | (exfalso; simp only [tO] at e; first
          | exact d1 e | exact d2 e | exact d3 e | exact d4 e | exact d5 e | exact d6 e
          | exact d1 e.symm | exact d2 e.symm | exact d3 e.symm | exact d4 e.symm | exact d5 e.symm | exact d6 e.symm)
  · -- nodup
    intro c hc
    show (nodesOf nodeid 4 c).Nodup
    obtain ⟨d1, d2, d3, d4, d5, d6⟩ := signedVol_distinct (hnf c hc)
    rw [← hlst c hc]
    unfold lst3
    simp [d1, d2, d3, d4, d5, d6]
  · -- three
    intro a ha b hb c hc h1 h2 h3 ja hja jb hjb jc hjc p1 p2
    have s1 := hopp a ha b hb h1 ja hja jb hjb p1
    have s2 := hopp a ha c hc h2 ja hja jc hjc p2
    obtain ⟨lA, lB, lC, lO⟩ := hlt a ha ja hja
    have s3 : signedVol (vtx serial (tA serial a ja)) (vtx serial (tB serial a ja)) (vtx serial (tC serial a ja)) (vtx serial (tO serial b jb)) *
        signedVol (vtx serial (tA serial a ja)) (vtx serial (tB serial a ja)) (vtx serial (tC serial a ja)) (vtx serial (tO serial c jc)) < 0 := by
      rw [hvol _ lA _ lB _ lC _ (hlt b hb jb hjb).2.2.2, hvol _ lA _ lB _ lC _ (hlt c hc jc hjc).2.2.2]
      rw [sid3_eq, sid3_eq] at p1 p2
      refine opposite b hb c hc h3 _ _ _ _ _ ?_ ?_
      · refine List.Perm.trans ?_ (hsp b hb jb hjb); rw [append3, append3]; exact p1.append_right _
      · refine List.Perm.trans ?_ (hsp c hc jc hjc); rw [append3, append3]; exact p2.append_right _
    generalize signedVol (vtx serial (tA serial a ja)) (vtx serial (tB serial a ja)) (vtx serial (tC serial a ja)) (vtx serial (tO serial a ja)) = X at *
    generalize signedVol (vtx serial (tA serial a ja)) (vtx serial (tB serial a ja)) (vtx serial (tC serial a ja)) (vtx serial (tO serial b jb)) = Y at *
    generalize signedVol (vtx serial (tA serial a ja)) (vtx serial (tB serial a ja)) (vtx serial (tC serial a ja)) (vtx serial (tO serial c jc)) = Z at *
    rcases mul_neg_iff.mp s1 with ⟨x1, x2⟩ | ⟨x1, x2⟩ <;> rcases mul_neg_iff.mp s2 with ⟨y1, y2⟩ | ⟨y1, y2⟩ <;>
      rcases mul_neg_iff.mp s3 with ⟨z1, z2⟩ | ⟨z1, z2⟩ <;> linarith
  · -- name
    intro c hc j hj s hs' hon
    obtain ⟨⟨x, hx, ex⟩, hall⟩ := hon
    obtain ⟨l1, l2, l3, _⟩ := hlt c hc j hj
    rw [nm3_side sqrt trunc 1 serial (hl c hc) hj]
    rw [show vtx serial (tA serial c j) 3 = _ from (hvert _ l1).2, show vtx serial (tB serial c j) 3 = _ from (hvert _ l2).2,
      show vtx serial (tC serial c j) 3 = _ from (hvert _ l3).2, htr, htr, htr]
    rw [sid3_eq] at hx hall
    refine name3_on hs' ?_ (hall _ (by simp)) (hall _ (by simp)) (hall _ (by simp))
    simp only [List.mem_cons, List.not_mem_nil, or_false] at hx
    rcases hx with rfl | rfl | rfl
    · exact Or.inl ex
    · exact Or.inr (Or.inl ex)
    · exact Or.inr (Or.inr ex)
  · -- fcenter
    intro c hc j hj k hk
    obtain ⟨l1, l2, l3, _⟩ := hlt c hc j hj
    rw [fcenter_side3 _ _ _ _ (hl c hc) hj, sid3_eq]
    simp only [centerf3, Mesh.centre, List.map_cons, List.map_nil, List.sum_cons, List.sum_nil]
    rw [hpos _ l1 k hk, hpos _ l2 k hk, hpos _ l3 k hk]
    push_cast; ring
  · -- normal
    intro c hc j hj h0 k hk
    rw [normal_first3 sqrt trunc 1 serial (hl c hc) hj (hnf c hc) h0]
  · -- opp
    intro c hc c' hc' hne j hj j' hj' hp k hk
    exact out3_opp serial hj hj' (hnf c' hc') hp (hopp c hc c' hc' hne j hj j' hj' hp) k
  · -- vertex
    intro a ha k hk
    exact hpos a ha k hk
  · -- nodename
    intro a ha
    show trunc (vtx serial a 3) = _
    rw [show vtx serial a 3 = _ from (hvert a ha).2, htr]
  · -- cnode
    intro c hc
    have h1 := hlst c hc
    show (nodesOf (build3 sqrt trunc 1 serial).cnode 4 c).Perm (nodesOf nodeid 4 c)
    rw [← h1]
    exact List.Perm.refl _
  · -- off
    intro c hc j hj d hd x hx e
    obtain ⟨l1, l2, l3, l4⟩ := hlt c hc j hj
    rw [sid3_eq] at hx
    have hA := hx _ (by simp : tA serial c j ∈ _)
    have hB := hx _ (by simp : tB serial c j ∈ _)
    have hC := hx _ (by simp : tC serial c j ∈ _)
    refine hside c hc j hj ?_
    rw [hvol _ l1 _ l2 _ l3 _ l4]
    unfold signedVol
    change pos node (tA serial c j) d = x at hA
    change pos node (tB serial c j) d = x at hB
    change pos node (tC serial c j) d = x at hC
    change pos node (tO serial c j) d = x at e
    change d < 3 at hd
    interval_cases d <;> rw [hA, hB, hC, e] <;> ring
  · -- flip
    intro c hc c' hc' j hj j' hj' d hd δ x x' l l' hlp hlp' ht hx hx' hneg k hk
    rw [sid3_eq] at hlp hlp'
    have l2 : l.length = 3 := hlp.length_eq
    have l2' : l'.length = 3 := hlp'.length_eq
    match l, l', l2, l2', ht, hx, hx', hlp, hlp' with
    | [p, q, w], [p', q', w'], _, _, ht, hx, hx', hlp, hlp' =>
      simp only [List.forall₂_cons, List.Forall₂.nil, and_true] at ht
      have hP : ∀ z ∈ [p, q, w], z < nbnodes := by
        intro z hz
        have := hlp.subset hz
        simp only [List.mem_cons, List.not_mem_nil, or_false] at this
        rcases this with rfl | rfl | rfl
        · exact (hlt c hc j hj).1
        · exact (hlt c hc j hj).2.1
        · exact (hlt c hc j hj).2.2.1
      have hP' : ∀ z ∈ [p', q', w'], z < nbnodes := by
        intro z hz
        have := hlp'.subset hz
        simp only [List.mem_cons, List.not_mem_nil, or_false] at this
        rcases this with rfl | rfl | rfl
        · exact (hlt c' hc' j' hj').1
        · exact (hlt c' hc' j' hj').2.1
        · exact (hlt c' hc' j' hj').2.2.1
      have hfull : [p, q, w, tO serial c j].Perm (lst3 serial c) := by
        refine List.Perm.trans ?_ (Par.side_perm3 serial c hj); rw [append3, append3]; exact hlp.append_right _
      have hfull' : [p', q', w', tO serial c' j'].Perm (lst3 serial c') := by
        refine List.Perm.trans ?_ (Par.side_perm3 serial c' hj'); rw [append3, append3]; exact hlp'.append_right _
      have eo : out3 serial c j = orientedNormal3 (vtx serial) (cen3 serial c) p q w :=
        (orientedNormal3_perm _ _ _ _ _ _ _ _ hlp (tst3_side_ne serial (hnf c hc) hj)).symm
      have eo' : out3 serial c' j' = orientedNormal3 (vtx serial) (cen3 serial c') p' q' w' :=
        (orientedNormal3_perm _ _ _ _ _ _ _ _ hlp' (tst3_side_ne serial (hnf c' hc') hj')).symm
      have tq : ∀ i < 3, pos node q' i - pos node p' i = pos node q i - pos node p i := fun i hi => posn_of_translate ht.2.1 ht.1 hi
      have tw : ∀ i < 3, pos node w' i - pos node p' i = pos node w i - pos node p i := fun i hi => posn_of_translate ht.2.2 ht.1 hi
      have tqv : ∀ i < 3, vtx serial q' i - vtx serial p' i = vtx serial q i - vtx serial p i := by
        intro i hi
        rw [hpos _ (hP' q' (by simp)) i hi, hpos _ (hP' p' (by simp)) i hi, hpos _ (hP q (by simp)) i hi, hpos _ (hP p (by simp)) i hi]; exact tq i hi
      have twv : ∀ i < 3, vtx serial w' i - vtx serial p' i = vtx serial w i - vtx serial p i := by
        intro i hi
        rw [hpos _ (hP' w' (by simp)) i hi, hpos _ (hP' p' (by simp)) i hi, hpos _ (hP w (by simp)) i hi, hpos _ (hP p (by simp)) i hi]; exact tw i hi
      have eraw : rawNormal3 (vtx serial) p' q' w' = rawNormal3 (vtx serial) p q w := by
        funext i
        match i with
        | 0 => simp only [rawNormal3]; rw [tqv 1 (by omega), tqv 2 (by omega), twv 1 (by omega), twv 2 (by omega)]
        | 1 => simp only [rawNormal3]; rw [tqv 0 (by omega), tqv 2 (by omega), twv 0 (by omega), twv 2 (by omega)]
        | _ + 2 => simp only [rawNormal3]; rw [tqv 0 (by omega), tqv 1 (by omega), twv 0 (by omega), twv 1 (by omega)]
      have n1 := signedVol_perm_ne (vtx serial) _ _ _ _ _ _ _ _ hfull (hnf c hc)
      have T1 : tst3 (vtx serial) (cen3 serial c) p q w = _ := tst3_center _ _ _ _ _ _ _ _ _ hfull
      have T2 : tst3 (vtx serial) (cen3 serial c') p' q' w' = _ := tst3_center _ _ _ _ _ _ _ _ _ hfull'
      rw [eo, eo', orientedNormal3_eq, orientedNormal3_eq, eraw, T1, T2]
      have hprod : signedVol (vtx serial p) (vtx serial q) (vtx serial w) (vtx serial (tO serial c j)) *
          signedVol (vtx serial p') (vtx serial q') (vtx serial w') (vtx serial (tO serial c' j')) < 0 := by
        rw [hvol _ (hP p (by simp)) _ (hP q (by simp)) _ (hP w (by simp)) _ (hlt c hc j hj).2.2.2] at n1 ⊢
        rw [hvol _ (hP' p' (by simp)) _ (hP' q' (by simp)) _ (hP' w' (by simp)) _ (hlt c' hc' j' hj').2.2.2]
        have xp := hx p (by simp)
        have xq := hx q (by simp)
        have xw := hx w (by simp)
        have xp' := hx' p' (by simp)
        have xq' := hx' q' (by simp)
        have xw' := hx' w' (by simp)
        change pos node p d = x at xp
        change pos node q d = x at xq
        change pos node w d = x at xw
        change pos node p' d = x' at xp'
        change pos node q' d = x' at xq'
        change pos node w' d = x' at xw'
        change (pos node (tO serial c j) d - x) * (pos node (tO serial c' j') d - x') < 0 at hneg
        change d < 3 at hd
        obtain ⟨κ, e1, e2⟩ : ∃ κ, signedVol (pos node p) (pos node q) (pos node w) (pos node (tO serial c j)) = κ * (pos node (tO serial c j) d - x) ∧
            signedVol (pos node p') (pos node q') (pos node w') (pos node (tO serial c' j')) = κ * (pos node (tO serial c' j') d - x') := by
          interval_cases d
          · refine ⟨((pos node q 1 - pos node p 1) * (pos node w 2 - pos node p 2) - (pos node q 2 - pos node p 2) * (pos node w 1 - pos node p 1)) / 6, ?_, ?_⟩
            · unfold signedVol; rw [xp, xq, xw]; ring
            · rw [← tq 1 (by omega), ← tq 2 (by omega), ← tw 1 (by omega), ← tw 2 (by omega)]
              unfold signedVol; rw [xp', xq', xw']; ring
          · refine ⟨-((pos node q 0 - pos node p 0) * (pos node w 2 - pos node p 2) - (pos node q 2 - pos node p 2) * (pos node w 0 - pos node p 0)) / 6, ?_, ?_⟩
            · unfold signedVol; rw [xp, xq, xw]; ring
            · rw [← tq 0 (by omega), ← tq 2 (by omega), ← tw 0 (by omega), ← tw 2 (by omega)]
              unfold signedVol; rw [xp', xq', xw']; ring
          · refine ⟨((pos node q 0 - pos node p 0) * (pos node w 1 - pos node p 1) - (pos node q 1 - pos node p 1) * (pos node w 0 - pos node p 0)) / 6, ?_, ?_⟩
            · unfold signedVol; rw [xp, xq, xw]; ring
            · rw [← tq 0 (by omega), ← tq 1 (by omega), ← tw 0 (by omega), ← tw 1 (by omega)]
              unfold signedVol; rw [xp', xq', xw']; ring
        rw [e1] at n1
        rw [e1, e2]
        have hk2 : 0 < κ * κ := mul_self_pos.mpr (left_ne_zero_of_mul n1)
        nlinarith
      generalize signedVol (vtx serial p) (vtx serial q) (vtx serial w) (vtx serial (tO serial c j)) = X at hprod ⊢
      generalize signedVol (vtx serial p') (vtx serial q') (vtx serial w') (vtx serial (tO serial c' j')) = Y at hprod ⊢
      rcases mul_neg_iff.mp hprod with ⟨h1, h2⟩ | ⟨h1, h2⟩
      · rw [if_pos (by linarith : (3 : K) / 4 * X > 0), if_neg (by linarith)]; ring
      · rw [if_neg (by linarith : ¬ (3 : K) / 4 * X > 0), if_pos (by linarith)]; ring
  · -- solid
    refine ⟨fun C hC k hk => out3_closed serial (hnf C (hlen ▸ hC)) k hk, ?_, ?_, ?_, ?_⟩
    · intro C hC
      rw [volume_build3 _ _ _ _ hC, volume3_eq]
      exact abs_pos.mpr (hnf C (hlen ▸ hC))
    · intro C hC j hj
      exact out3_ne serial (hnf C (hlen ▸ hC)) hj
    · intro C hC j hj
      obtain ⟨hF, _⟩ := face_perm3 sqrt trunc 1 serial hC hj
      obtain ⟨a, ha, ja, hja, ea, e0⟩ := hfirst C (hlen ▸ hC) j hj
      rw [mesure_build3 _ _ _ _ hF, ← ea, normal_first3 sqrt trunc 1 serial (hl a ha) hja (hnf a ha) (by rw [ea]; exact e0)]
      exact hs _ (out3_ne serial (hnf a ha) hja)
    · intro C hC w hw k hk
      have := out3_span serial (hnf C (hlen ▸ hC)) w (fun j hj => hw j hj)
      change k < 3 at hk
      interval_cases k
      · exact this.1
      · exact this.2.1
      · exact this.2.2

end
end Verif.Props.Par
