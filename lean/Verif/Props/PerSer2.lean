import Verif.Props.PerUpd

/-! Helper lemmas for the theorems on meshes with periodic sides (2D): the tables `build2` of a valid triangular mesh meet `SDom`. -/
set_option linter.unusedSectionVars false
set_option linter.unusedVariables false
set_option linter.unusedSimpArgs false
namespace Verif.Props.Par
open Verif.Fvm Verif.Spec Verif.Conn Verif.Dom Verif.Geo Verif.Names Verif.MeshFile Verif.Part Verif.Comm Verif.Run Verif.Periodic
variable {K : Type*} [Field K] [LinearOrder K] [IsStrictOrderedRing K]

theorem read_cells {nodeid : Nat → Nat → Nat} {node : Nat → K × K × K × Nat} {nbnodes n d1 : Nat} {serial : RankData K}
    (h : readMeshFile 1 0 (writeSerial (serialWrite nodeid node nbnodes n d1)) [] = some serial) :
    serial.nodeid.length = n ∧ serial.vertex.length = nbnodes ∧ (∀ C < n, ∀ j < d1, at2 0 serial.nodeid C j = nodeid C j) ∧
    (∀ s < nbnodes, (∀ k < 3, at2 0 serial.vertex s k = pos node s k) ∧ at2 0 serial.vertex s 3 = (labelOf node s : K)) ∧
    serial.halosext = [] := by
  rw [C25_round_trip_serial] at h
  rw [← Option.some.inj h]
  refine ⟨by simp [expected, serialWrite], by simp [expected, serialWrite], ?_, ?_, rfl⟩
  · intro C hC j hj
    simp [expected, serialWrite, at2, List.getD, hC, hj]
  · intro s hs
    have e : ∀ k, at2 0 (expected 1 0 (serialWrite nodeid node nbnodes n d1)).vertex s k =
        ([(node s).1, (node s).2.1, (node s).2.2.1, ((node s).2.2.2 : K)]).getD k 0 := by
      intro k; simp [expected, serialWrite, at2, List.getD, hs]
    refine ⟨fun k hk => ?_, ?_⟩
    · rw [e]
      match k, hk with
      | 0, _ => rfl
      | 1, _ => rfl
      | 2, _ => rfl
    · rw [e]; rfl

theorem per2_nodup (name : Nat → Int) (nb : Nat) : ((families2 name nb).getD 3 []).Nodup := by
  show (List.insertionSort _ _).Nodup
  rw [(List.perm_insertionSort _ _).nodup_iff]
  have hm := mem_named name nb
  refine nodup_named_append _ _ _ _ (nodup_named_append _ _ _ _ (nodup_named_append _ _ _ _ (nodup_named _ _ _) ?_) ?_) ?_ <;>
    (intro f hf; simp only [List.mem_append, hm] at hf; omega)

theorem per3_nodup (name : Nat → Int) (nb : Nat) : ((families3 name nb).getD 3 []).Nodup := by
  show (List.insertionSort _ _).Nodup
  rw [(List.perm_insertionSort _ _).nodup_iff]
  have hm := mem_named name nb
  refine nodup_named_append _ _ _ _ (nodup_named_append _ _ _ _ (nodup_named_append _ _ _ _ (nodup_named_append _ _ _ _
    (nodup_named_append _ _ _ _ (nodup_named _ _ _) ?_) ?_) ?_) ?_) ?_ <;>
    (intro f hf; simp only [List.mem_append, hm] at hf; omega)

/-- The name of an edge lying on side `s`. -/
theorem name2_on {s a b : Nat} (hs : s ∈ wallSides 2 ++ perSides 2) (h1 : a = s ∨ b = s) (ha : a = s ∨ a ∈ cornerLabels s) (hb : b = s ∨ b ∈ cornerLabels s) :
    name2 (a : Int) (b : Int) = (s : Int) := by
  simp only [wallSides, perSides, if_true, List.mem_append, List.mem_cons, List.not_mem_nil, or_false] at hs
  rcases hs with (rfl | rfl | rfl | rfl) | rfl | rfl | rfl | rfl <;>
    simp [cornerLabels] at ha hb <;> unfold name2 <;> split_ifs <;> omega

theorem posn_of_translate {d : Nat} {δ : K} {v w : Nat → K} (h : IsTranslate d δ v w) {p q : Nat → K} (h' : IsTranslate d δ p q) {k : Nat} (hk : k < 3) :
    w k - q k = v k - p k := by
  rw [h k hk, h' k hk]; ring

section
variable {m : Mesh K} {serial : RankData K} {L : Nat → K} {r : K → K}

theorem sdom2 (hv : m.Valid2 L r) (hr : m.Read serial) (sqrt : K → K) (hs : ∀ x, 0 < x → sqrt x ≠ 0) (trunc : K → Int)
    (htr : ∀ i : Nat, trunc (i : K) = i) :
    SDom m (build2 sqrt trunc 1 serial) (sid2 serial) (sO serial) (out2 serial) (fac2 serial) (nm2 trunc serial) (gOf serial) := by
  obtain ⟨v, two, area, opposite⟩ := hv
  obtain ⟨dim, nodeid, node, nbnodes, n⟩ := m
  dsimp only at two
  subst two
  obtain ⟨hlen, hvl, hcell, hvert, hext⟩ := read_cells hr
  change serial.nodeid.length = n at hlen
  change ∀ C < n, ∀ j < 3, at2 0 serial.nodeid C j = nodeid C j at hcell
  change serial.vertex.length = nbnodes at hvl
  have hnodes : ∀ c < n, ∀ j < 3, nodeid c j < nbnodes := v.nodes
  dsimp only at area opposite
  have hrow : ∀ C < n, row2 serial C = (nodeid C 0, nodeid C 1, nodeid C 2) := by
    intro C hC
    unfold row2
    rw [hcell C hC 0 (by omega), hcell C hC 1 (by omega), hcell C hC 2 (by omega)]
  have hpos : ∀ a < nbnodes, ∀ k < 3, vtx serial a k = pos node a k := fun a ha => (hvert a ha).1
  have harea : ∀ a < nbnodes, ∀ b < nbnodes, ∀ c < nbnodes,
      signedArea (vtx serial a) (vtx serial b) (vtx serial c) = signedArea (pos node a) (pos node b) (pos node c) := by
    intro a ha b hb c hc
    unfold signedArea
    rw [hpos a ha 0 (by omega), hpos a ha 1 (by omega), hpos b hb 0 (by omega), hpos b hb 1 (by omega), hpos c hc 0 (by omega), hpos c hc 1 (by omega)]
  have hnf : ∀ C < n, NonFlat serial C := by
    intro C hC
    unfold NonFlat
    rw [hrow C hC]
    show signedArea (vtx serial (nodeid C 0)) (vtx serial (nodeid C 1)) (vtx serial (nodeid C 2)) ≠ 0
    rw [harea _ (hnodes C hC 0 (by omega)) _ (hnodes C hC 1 (by omega)) _ (hnodes C hC 2 (by omega))]
    exact area C hC
  have hl : ∀ C < n, C < serial.nodeid.length := fun C hC => hlen ▸ hC
  have hsp : ∀ C < n, ∀ j < 3, [sA serial C j, sB serial C j, sO serial C j].Perm (nodesOf nodeid 3 C) := by
    intro C hC j hj
    have := Par.side_perm serial (hl C hC) hj
    rw [hrow C hC] at this; exact this
  have hlt : ∀ C < n, ∀ j < 3, sA serial C j < nbnodes ∧ sB serial C j < nbnodes ∧ sO serial C j < nbnodes := by
    intro C hC j hj
    have hp := hsp C hC j hj
    have key : ∀ x ∈ nodesOf nodeid 3 C, x < nbnodes := by
      intro x hx
      obtain ⟨k, hk, rfl⟩ := List.mem_map.mp hx
      exact hnodes C hC k (List.mem_range.mp hk)
    exact ⟨key _ (hp.subset (by simp)), key _ (hp.subset (by simp)), key _ (hp.subset (by simp))⟩
  have e3 : ∀ x y z : Nat, [x, y, z] = [x, y] ++ [z] := fun _ _ _ => rfl
  have hopp : ∀ C < n, ∀ C' < n, C ≠ C' → ∀ j < 3, ∀ j' < 3, (sid2 serial C j).Perm (sid2 serial C' j') →
      signedArea (vtx serial (sA serial C j)) (vtx serial (sB serial C j)) (vtx serial (sO serial C j)) *
        signedArea (vtx serial (sA serial C j)) (vtx serial (sB serial C j)) (vtx serial (sO serial C' j')) < 0 := by
    intro C hC C' hC' hne j hj j' hj' hp
    obtain ⟨l1, l2, l3⟩ := hlt C hC j hj
    obtain ⟨_, _, l3'⟩ := hlt C' hC' j' hj'
    rw [harea _ l1 _ l2 _ l3, harea _ l1 _ l2 _ l3']
    refine opposite C hC C' hC' hne _ _ _ _ (hsp C hC j hj) ?_
    refine List.Perm.trans ?_ (hsp C' hC' j' hj')
    rw [sid2_eq, sid2_eq] at hp
    rw [e3, e3]; exact hp.append_right _
  have hside : ∀ C < n, ∀ j < 3, signedArea (vtx serial (sA serial C j)) (vtx serial (sB serial C j)) (vtx serial (sO serial C j)) ≠ 0 :=
    fun C hC j hj => signedArea_perm_ne (vtx serial) _ _ _ _ _ _ (Par.side_perm serial (hl C hC) hj) (hnf C hC)
  have hbuilt := built2 sqrt trunc 1 serial (fun x hx => by rw [hext] at hx; simp at hx)
  have hext1 : extOf 1 serial = [] := by unfold extOf; simp
  rw [hext1] at hbuilt
  have hfirst : ∀ c < n, ∀ j < 3, ∃ a < n, ∃ ja < 3, (build2 sqrt trunc 1 serial).faceid a ja = (build2 sqrt trunc 1 serial).faceid c j ∧
      (build2 sqrt trunc 1 serial).cellid ((build2 sqrt trunc 1 serial).faceid c j) 0 = (a : Int) := by
    intro c hc j hj
    have hf := (face_perm2 sqrt trunc 1 serial (hl c hc) hj).1
    obtain ⟨a, ha, e, hm⟩ := users_first (ne_nil_of_face hbuilt.faces hf)
    obtain ⟨ja, hja, ej⟩ := hm
    exact ⟨a, hlen ▸ ha, ja, hja, ej, by rw [hbuilt.cell0 _ (hbuilt.nb ▸ hf), e]⟩
  refine ⟨Or.inl rfl, hlen, hvl, ?_, ⟨per2_nodup _ _, ?_⟩, ?_, ?_, ?_, ?_, ?_, ?_, ?_, ?_, ?_, ?_, ?_, ?_, ?_, ?_, ?_⟩
  · -- built
    exact hbuilt
  · -- per
    intro f
    exact mem_per2 _ _ f
  · -- sd
    intro c hc j hj
    rw [sid2_eq]
    exact hsp c hc j hj
  · -- opx
    intro c hc x hx
    have : x ∈ [(orow2 serial c).1, (orow2 serial c).2.1, (orow2 serial c).2.2] := by
      have h1 := orow2_perm serial (hl c hc)
      rw [hrow c hc] at h1
      exact h1.symm.subset hx
    simp only [List.mem_cons, List.not_mem_nil, or_false] at this
    rcases this with rfl | rfl | rfl
    · exact ⟨1, by show 1 < 3; omega, rfl⟩
    · exact ⟨2, by show 2 < 3; omega, rfl⟩
    · exact ⟨0, by show 0 < 3; omega, rfl⟩
  · -- opinj
    intro c hc j hj j' hj' e
    have h1 := signedArea_perm_ne (vtx serial) _ _ _ _ _ _ (orow2_perm serial (hl c hc)) (hnf c hc)
    obtain ⟨d1, d2, d3⟩ := signedArea_distinct h1
    change j < 3 at hj; change j' < 3 at hj'
    interval_cases j <;> interval_cases j' <;> first
      | rfl
      | (exfalso; simp only [sO] at e; first
          | exact d1 e | exact d2 e | exact d3 e | exact d1 e.symm | exact d2 e.symm | exact d3 e.symm)
  · -- nodup
    intro c hc
    show (nodesOf nodeid 3 c).Nodup
    obtain ⟨d1, d2, d3⟩ := signedArea_distinct (v := pos node) (area c hc)
    rw [nodesOf3]
    simp [d1, d2, d3]
  · -- three
    intro a ha b hb c hc h1 h2 h3 ja hja jb hjb jc hjc p1 p2
    have s1 := hopp a ha b hb h1 ja hja jb hjb p1
    have s2 := hopp a ha c hc h2 ja hja jc hjc p2
    obtain ⟨lA, lB, lO⟩ := hlt a ha ja hja
    have s3 : signedArea (vtx serial (sA serial a ja)) (vtx serial (sB serial a ja)) (vtx serial (sO serial b jb)) *
        signedArea (vtx serial (sA serial a ja)) (vtx serial (sB serial a ja)) (vtx serial (sO serial c jc)) < 0 := by
      rw [harea _ lA _ lB _ (hlt b hb jb hjb).2.2, harea _ lA _ lB _ (hlt c hc jc hjc).2.2]
      rw [sid2_eq, sid2_eq] at p1 p2
      refine opposite b hb c hc h3 _ _ _ _ ?_ ?_
      · refine List.Perm.trans ?_ (hsp b hb jb hjb); rw [e3, e3]; exact p1.append_right _
      · refine List.Perm.trans ?_ (hsp c hc jc hjc); rw [e3, e3]; exact p2.append_right _
    generalize signedArea (vtx serial (sA serial a ja)) (vtx serial (sB serial a ja)) (vtx serial (sO serial a ja)) = X at *
    generalize signedArea (vtx serial (sA serial a ja)) (vtx serial (sB serial a ja)) (vtx serial (sO serial b jb)) = Y at *
    generalize signedArea (vtx serial (sA serial a ja)) (vtx serial (sB serial a ja)) (vtx serial (sO serial c jc)) = Z at *
    rcases mul_neg_iff.mp s1 with ⟨x1, x2⟩ | ⟨x1, x2⟩ <;> rcases mul_neg_iff.mp s2 with ⟨y1, y2⟩ | ⟨y1, y2⟩ <;>
      rcases mul_neg_iff.mp s3 with ⟨z1, z2⟩ | ⟨z1, z2⟩ <;> linarith
  · -- name
    intro c hc j hj s hs' hon
    obtain ⟨⟨x, hx, ex⟩, hall⟩ := hon
    obtain ⟨l1, l2, _⟩ := hlt c hc j hj
    rw [nm2_side sqrt trunc 1 serial (hl c hc) hj]
    rw [show vtx serial (sA serial c j) 3 = _ from (hvert _ l1).2, show vtx serial (sB serial c j) 3 = _ from (hvert _ l2).2, htr, htr]
    rw [sid2_eq] at hx hall
    refine name2_on hs' ?_ (hall _ (by simp)) (hall _ (by simp))
    simp only [List.mem_cons, List.not_mem_nil, or_false] at hx
    rcases hx with rfl | rfl
    · exact Or.inl ex
    · exact Or.inr ex
  · -- fcenter
    intro c hc j hj k hk
    obtain ⟨l1, l2, _⟩ := hlt c hc j hj
    rw [fcenter_side2 _ _ _ _ (hl c hc) hj, sid2_eq]
    simp only [centerf2, Mesh.centre, List.map_cons, List.map_nil, List.sum_cons, List.sum_nil]
    rw [hpos _ l1 k hk, hpos _ l2 k hk]
    push_cast; ring
  · -- normal
    intro c hc j hj h0 k hk
    rw [normal_first2 sqrt trunc 1 serial (hl c hc) hj (hnf c hc) h0]
  · -- opp
    intro c hc c' hc' hne j hj j' hj' hp k hk
    exact out2_opp serial (hl c hc) (hl c' hc') hj hj' (hnf c' hc') hp (hopp c hc c' hc' hne j hj j' hj' hp) k
  · -- vertex
    intro a ha k hk
    exact hpos a ha k hk
  · -- nodename
    intro a ha
    show trunc (vtx serial a 3) = _
    rw [show vtx serial a 3 = _ from (hvert a ha).2, htr]
  · -- cnode
    intro c hc
    have h1 := orow2_perm serial (hl c hc)
    rw [hrow c hc] at h1
    exact h1
  · -- off
    intro c hc j hj d hd x hx e
    obtain ⟨l1, l2, l3⟩ := hlt c hc j hj
    rw [sid2_eq] at hx
    have hA := hx _ (by simp : sA serial c j ∈ _)
    have hB := hx _ (by simp : sB serial c j ∈ _)
    refine hside c hc j hj ?_
    rw [harea _ l1 _ l2 _ l3]
    unfold signedArea
    change pos node (sA serial c j) d = x at hA
    change pos node (sB serial c j) d = x at hB
    change pos node (sO serial c j) d = x at e
    change d < 2 at hd
    interval_cases d <;> rw [hA, hB, e] <;> ring
  · -- flip
    intro c hc c' hc' j hj j' hj' d hd δ x x' l l' hlp hlp' ht hx hx' hneg k hk
    rw [sid2_eq] at hlp hlp'
    have l2 : l.length = 2 := hlp.length_eq
    have l2' : l'.length = 2 := hlp'.length_eq
    match l, l', l2, l2', ht, hx, hx', hlp, hlp' with
    | [p, q], [p', q'], _, _, ht, hx, hx', hlp, hlp' =>
      simp only [List.forall₂_cons, List.Forall₂.nil, and_true] at ht
      have hP : ∀ z ∈ [p, q], z < nbnodes := by
        intro z hz
        have := hlp.subset hz
        simp only [List.mem_cons, List.not_mem_nil, or_false] at this
        rcases this with rfl | rfl
        · exact (hlt c hc j hj).1
        · exact (hlt c hc j hj).2.1
      have hP' : ∀ z ∈ [p', q'], z < nbnodes := by
        intro z hz
        have := hlp'.subset hz
        simp only [List.mem_cons, List.not_mem_nil, or_false] at this
        rcases this with rfl | rfl
        · exact (hlt c' hc' j' hj').1
        · exact (hlt c' hc' j' hj').2.1
      have hfull : [p, q, sO serial c j].Perm [(row2 serial c).1, (row2 serial c).2.1, (row2 serial c).2.2] := by
        refine List.Perm.trans ?_ (Par.side_perm serial (hl c hc) hj); rw [e3, e3]; exact hlp.append_right _
      have hfull' : [p', q', sO serial c' j'].Perm [(row2 serial c').1, (row2 serial c').2.1, (row2 serial c').2.2] := by
        refine List.Perm.trans ?_ (Par.side_perm serial (hl c' hc') hj'); rw [e3, e3]; exact hlp'.append_right _
      have eo : out2 serial c j = orientedNormal2 (vtx serial) (center2 (vtx serial) (row2 serial c).1 (row2 serial c).2.1 (row2 serial c).2.2) p q :=
        (orientedNormal2_perm _ _ _ _ _ _ hlp (tst_side_ne serial (hl c hc) (hnf c hc) hj)).symm
      have eo' : out2 serial c' j' = orientedNormal2 (vtx serial) (center2 (vtx serial) (row2 serial c').1 (row2 serial c').2.1 (row2 serial c').2.2) p' q' :=
        (orientedNormal2_perm _ _ _ _ _ _ hlp' (tst_side_ne serial (hl c' hc') (hnf c' hc') hj')).symm
      have eraw : rawNormal2 (vtx serial) p' q' = rawNormal2 (vtx serial) p q := by
        funext i
        have t0 := posn_of_translate ht.1 ht.2 (k := 0) (by omega)
        have t1 := posn_of_translate ht.1 ht.2 (k := 1) (by omega)
        rw [← hpos _ (hP' p' (by simp)) 0 (by omega), ← hpos _ (hP' q' (by simp)) 0 (by omega), ← hpos _ (hP p (by simp)) 0 (by omega),
          ← hpos _ (hP q (by simp)) 0 (by omega)] at t0
        rw [← hpos _ (hP' p' (by simp)) 1 (by omega), ← hpos _ (hP' q' (by simp)) 1 (by omega), ← hpos _ (hP p (by simp)) 1 (by omega),
          ← hpos _ (hP q (by simp)) 1 (by omega)] at t1
        match i with
        | 0 => exact t1
        | 1 => simp only [rawNormal2]; linarith
        | _ + 2 => rfl
      have n1 := signedArea_perm_ne (vtx serial) _ _ _ _ _ _ hfull (hnf c hc)
      rw [eo, eo', orientedNormal2_eq, orientedNormal2_eq, eraw, tst_center _ _ _ _ _ _ _ hfull, tst_center _ _ _ _ _ _ _ hfull']
      have hprod : signedArea (vtx serial p) (vtx serial q) (vtx serial (sO serial c j)) *
          signedArea (vtx serial p') (vtx serial q') (vtx serial (sO serial c' j')) < 0 := by
        rw [harea _ (hP p (by simp)) _ (hP q (by simp)) _ (hlt c hc j hj).2.2] at n1 ⊢
        rw [harea _ (hP' p' (by simp)) _ (hP' q' (by simp)) _ (hlt c' hc' j' hj').2.2]
        have t0 := posn_of_translate ht.1 ht.2 (k := 0) (by omega)
        have t1 := posn_of_translate ht.1 ht.2 (k := 1) (by omega)
        have xp := hx p (by simp)
        have xq := hx q (by simp)
        have xp' := hx' p' (by simp)
        have xq' := hx' q' (by simp)
        change pos node p' 0 - pos node q' 0 = pos node p 0 - pos node q 0 at t0
        change pos node p' 1 - pos node q' 1 = pos node p 1 - pos node q 1 at t1
        change pos node p d = x at xp
        change pos node q d = x at xq
        change pos node p' d = x' at xp'
        change pos node q' d = x' at xq'
        change (pos node (sO serial c j) d - x) * (pos node (sO serial c' j') d - x') < 0 at hneg
        change d < 2 at hd
        obtain ⟨κ, e1, e2⟩ : ∃ κ, signedArea (pos node p) (pos node q) (pos node (sO serial c j)) = κ * (pos node (sO serial c j) d - x) ∧
            signedArea (pos node p') (pos node q') (pos node (sO serial c' j')) = κ * (pos node (sO serial c' j') d - x') := by
          interval_cases d
          · refine ⟨-(pos node q 1 - pos node p 1) / 2, ?_, ?_⟩
            · unfold signedArea; rw [xp, xq]; ring
            · unfold signedArea; rw [xp', xq', show pos node q 1 - pos node p 1 = pos node q' 1 - pos node p' 1 by linarith]; ring
          · refine ⟨(pos node q 0 - pos node p 0) / 2, ?_, ?_⟩
            · unfold signedArea; rw [xp, xq]; ring
            · unfold signedArea; rw [xp', xq', show pos node q 0 - pos node p 0 = pos node q' 0 - pos node p' 0 by linarith]; ring
        rw [e1] at n1
        rw [e1, e2]
        have hk2 : 0 < κ * κ := mul_self_pos.mpr (left_ne_zero_of_mul n1)
        nlinarith
      rcases mul_neg_iff.mp hprod with ⟨h1, h2⟩ | ⟨h1, h2⟩
      · rw [if_pos (by linarith : (2 : K) / 3 * signedArea (vtx serial p) (vtx serial q) (vtx serial (sO serial c j)) > 0), if_neg (by linarith)]; ring
      · rw [if_neg (by linarith : ¬ (2 : K) / 3 * signedArea (vtx serial p) (vtx serial q) (vtx serial (sO serial c j)) > 0), if_pos (by linarith)]; ring
  · -- solid
    refine ⟨fun C hC k hk => out2_closed serial hC k hk, ?_, ?_, ?_, ?_⟩
    · intro C hC
      rw [volume_build2 _ _ _ _ hC, volume2_eq]
      exact abs_pos.mpr (hnf C (hlen ▸ hC))
    · intro C hC j hj
      have := out2_ne serial hC (hnf C (hlen ▸ hC)) hj
      nlinarith [sq_nonneg (out2 serial C j 2)]
    · intro C hC j hj
      obtain ⟨hF, _⟩ := face_perm2 sqrt trunc 1 serial hC hj
      obtain ⟨a, ha, ja, hja, ea, e0⟩ := hfirst C (hlen ▸ hC) j hj
      rw [mesure_build2 _ _ _ _ hF, ← ea, normal_first2 sqrt trunc 1 serial (hl a ha) hja (hnf a ha) (by rw [ea]; exact e0)]
      exact hs _ (out2_ne serial (hl a ha) (hnf a ha) hja)
    · intro C hC w hw k hk
      have := out2_span serial hC (hnf C (hlen ▸ hC)) w (fun j hj => by
        have := hw j hj; rw [out2_third] at this; linarith)
      change k < 2 at hk
      interval_cases k
      · exact this.1
      · exact this.2

end
end Verif.Props.Par
