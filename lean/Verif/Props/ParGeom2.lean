import Verif.Props.ParBuild2

/-! Helper lemmas for the parallel theorems: normals and centres of the faces of a 2D Domain, on a rank and in serial. -/
set_option linter.unusedSectionVars false
set_option linter.unusedVariables false
set_option linter.unusedSimpArgs false
namespace Verif.Props.Par
open Verif.Fvm Verif.Spec Verif.Conn Verif.Dom Verif.Geo Verif.Names Verif.MeshFile
variable {K : Type*} [Field K] [LinearOrder K] [IsStrictOrderedRing K]

/-- First, second node of side `j` of cell `c`, and the opposite node. -/
def sA (d : RankData K) (c j : Nat) : Nat := (sid2 d c j).getD 0 0
def sB (d : RankData K) (c j : Nat) : Nat := (sid2 d c j).getD 1 0
def sO (d : RankData K) (c j : Nat) : Nat := match j with | 0 => (orow2 d c).2.2 | 1 => (orow2 d c).1 | _ => (orow2 d c).2.1

theorem sid2_eq (d : RankData K) (c j : Nat) : sid2 d c j = [sA d c j, sB d c j] := by
  unfold sA sB sid2 side2; split <;> rfl

theorem orient2_cases (v : Nat → Vec K) (a b c : Nat) : orient2 v a b c = (a, c, b) ∨ orient2 v a b c = (a, b, c) := by
  unfold orient2; dsimp only; split <;> simp

theorem perm_swap23 (a b c : Nat) : [a, c, b].Perm [a, b, c] := (List.Perm.swap b c []).cons a

theorem orow2_perm (d : RankData K) {c : Nat} (hc : c < d.nodeid.length) :
    [(orow2 d c).1, (orow2 d c).2.1, (orow2 d c).2.2].Perm [(row2 d c).1, (row2 d c).2.1, (row2 d c).2.2] := by
  rw [orow2_eq d hc]
  rcases orient2_cases (vtx d) (row2 d c).1 (row2 d c).2.1 (row2 d c).2.2 with h | h <;> rw [h]
  exact perm_swap23 _ _ _

theorem perm_rot (a b c : Nat) : [b, c, a].Perm [a, b, c] := by
  have : [b, c, a] = [b, c] ++ [a] := rfl
  rw [this]; exact List.perm_append_comm.trans (by simp)

theorem side_perm_o (d : RankData K) (c : Nat) {j : Nat} (hj : j < 3) :
    [sA d c j, sB d c j, sO d c j].Perm [(orow2 d c).1, (orow2 d c).2.1, (orow2 d c).2.2] := by
  interval_cases j
  · exact List.Perm.refl _
  · exact perm_rot _ _ _
  · exact (perm_rot _ _ _).trans (perm_rot _ _ _)

theorem side_perm (d : RankData K) {c : Nat} (hc : c < d.nodeid.length) {j : Nat} (hj : j < 3) :
    [sA d c j, sB d c j, sO d c j].Perm [(row2 d c).1, (row2 d c).2.1, (row2 d c).2.2] :=
  (side_perm_o d c hj).trans (orow2_perm d hc)

theorem center_build2 (sqrt : K → K) (trunc : K → Int) (size : Nat) (d : RankData K) {c : Nat} (hc : c < d.nodeid.length) :
    (build2 sqrt trunc size d).center c = center2 (vtx d) (row2 d c).1 (row2 d c).2.1 (row2 d c).2.2 := by
  show (compute2dCenterVolume (vtx d) d.nodeid.length ⟨row2 d, fun _ _ => 0, fun _ => 0⟩).center c = _
  rw [(compute2d_apply (vtx d) d.nodeid.length ⟨row2 d, fun _ _ => 0, fun _ => 0⟩ c).2.1, if_pos hc]

theorem volume_build2 (sqrt : K → K) (trunc : K → Int) (size : Nat) (d : RankData K) {c : Nat} (hc : c < d.nodeid.length) :
    (build2 sqrt trunc size d).volume c = volume2 (vtx d) (row2 d c).1 (row2 d c).2.1 (row2 d c).2.2 := by
  show (compute2dCenterVolume (vtx d) d.nodeid.length ⟨row2 d, fun _ _ => 0, fun _ => 0⟩).volume c = _
  rw [(compute2d_apply (vtx d) d.nodeid.length ⟨row2 d, fun _ _ => 0, fun _ => 0⟩ c).2.2, if_pos hc]

theorem normal_build2 (sqrt : K → K) (trunc : K → Int) (size : Nat) (d : RankData K) {f : Nat} (hf : f < (fac2 d).length) :
    (build2 sqrt trunc size d).normal f = orientedNormal2 (vtx d)
      ((build2 sqrt trunc size d).center (idx ((build2 sqrt trunc size d).cellid f 0))) (at2 0 (fac2 d) f 0) (at2 0 (fac2 d) f 1) := by
  show writeRows (fac2 d).length _ _ f = _
  rw [writeRows_apply, if_pos hf]; rfl

theorem fcenter_build2 (sqrt : K → K) (trunc : K → Int) (size : Nat) (d : RankData K) {f : Nat} (hf : f < (fac2 d).length) :
    (build2 sqrt trunc size d).fcenter f = centerf2 (vtx d) (at2 0 (fac2 d) f 0) (at2 0 (fac2 d) f 1) := by
  show writeRows (fac2 d).length _ _ f = _
  rw [writeRows_apply, if_pos hf]; rfl

theorem mesure_build2 (sqrt : K → K) (trunc : K → Int) (size : Nat) (d : RankData K) {f : Nat} (hf : f < (fac2 d).length) :
    (build2 sqrt trunc size d).mesure f = mesure2 sqrt ((build2 sqrt trunc size d).normal f) := by
  rw [normal_build2 _ _ _ _ hf]
  show writeRows (fac2 d).length _ _ f = _
  rw [writeRows_apply, if_pos hf]; rfl

/-- Which side of the edge `p q` the point `g` lies on. -/
def tst (v : Nat → Vec K) (g : Vec K) (p q : Nat) : K :=
  (g 0 - centerf2 v p q 0) * rawNormal2 v p q 0 + (g 1 - centerf2 v p q 1) * rawNormal2 v p q 1

theorem orientedNormal2_eq (v : Nat → Vec K) (g : Vec K) (p q : Nat) :
    orientedNormal2 v g p q = if tst v g p q > 0 then fun k => -1 * rawNormal2 v p q k else rawNormal2 v p q := rfl

theorem tst_swap (v : Nat → Vec K) (g : Vec K) (p q : Nat) : tst v g q p = - tst v g p q := by
  simp only [tst, centerf2, rawNormal2]; ring

theorem rawNormal2_swap (v : Nat → Vec K) (p q k : Nat) : rawNormal2 v q p k = - rawNormal2 v p q k := by
  match k with
  | 0 => simp [rawNormal2]
  | 1 => simp [rawNormal2]
  | _ + 2 => simp [rawNormal2]

theorem orientedNormal2_swap (v : Nat → Vec K) (g : Vec K) (p q : Nat) (h : tst v g p q ≠ 0) :
    orientedNormal2 v g q p = orientedNormal2 v g p q := by
  rw [orientedNormal2_eq, orientedNormal2_eq, tst_swap]
  funext k
  rcases lt_or_gt_of_ne h with h | h
  · rw [if_pos (by linarith), if_neg (by linarith)]
    show -1 * rawNormal2 v q p k = _
    rw [rawNormal2_swap]; ring
  · rw [if_neg (by linarith), if_pos h]
    show rawNormal2 v q p k = -1 * _
    rw [rawNormal2_swap]; ring

theorem orientedNormal2_perm (v : Nat → Vec K) (g : Vec K) (x y p q : Nat) (hp : [x, y].Perm [p, q]) (h : tst v g p q ≠ 0) :
    orientedNormal2 v g x y = orientedNormal2 v g p q := by
  rcases perm2 hp with ⟨rfl, rfl⟩ | ⟨rfl, rfl⟩
  · rfl
  · exact orientedNormal2_swap v g _ _ h

theorem centerf2_perm (v : Nat → Vec K) (x y p q : Nat) (hp : [x, y].Perm [p, q]) : centerf2 v x y = centerf2 v p q := by
  rcases perm2 hp with ⟨rfl, rfl⟩ | ⟨rfl, rfl⟩
  · rfl
  · funext k; simp only [centerf2]; ring

theorem tst_center (v : Nat → Vec K) (a b c p q r : Nat) (h : [p, q, r].Perm [a, b, c]) :
    tst v (center2 v a b c) p q = 2 / 3 * signedArea (v p) (v q) (v r) := by
  have hc : ∀ k < 2, center2 v a b c k = (v p k + v q k + v r k) / 3 := by
    intro k hk
    rcases perm3 h with h | h | h | h | h | h <;> obtain ⟨rfl, rfl, rfl⟩ := h <;> interval_cases k <;> simp only [center2] <;> ring
  unfold tst
  rw [hc 0 (by omega), hc 1 (by omega)]
  simp only [rawNormal2, centerf2, signedArea]; ring

theorem signedArea_perm_ne (v : Nat → Vec K) (a b c p q r : Nat) (h : [p, q, r].Perm [a, b, c])
    (hne : signedArea (v a) (v b) (v c) ≠ 0) : signedArea (v p) (v q) (v r) ≠ 0 := by
  intro h0
  apply hne
  rcases perm3 h with h | h | h | h | h | h <;> obtain ⟨rfl, rfl, rfl⟩ := h <;> unfold signedArea at * <;> linarith

/-- Nonzero area of cell `c`. -/
def NonFlat (d : RankData K) (c : Nat) : Prop :=
  signedArea (vtx d (row2 d c).1) (vtx d (row2 d c).2.1) (vtx d (row2 d c).2.2) ≠ 0

/-- The outward normal of side `j` of cell `c`. -/
def out2 (d : RankData K) (c j : Nat) : Vec K :=
  orientedNormal2 (vtx d) (center2 (vtx d) (row2 d c).1 (row2 d c).2.1 (row2 d c).2.2) (sA d c j) (sB d c j)

theorem tst_side (d : RankData K) {c : Nat} (hc : c < d.nodeid.length) {j : Nat} (hj : j < 3) :
    tst (vtx d) (center2 (vtx d) (row2 d c).1 (row2 d c).2.1 (row2 d c).2.2) (sA d c j) (sB d c j) =
      2 / 3 * signedArea (vtx d (sA d c j)) (vtx d (sB d c j)) (vtx d (sO d c j)) :=
  tst_center _ _ _ _ _ _ _ (side_perm d hc hj)

theorem tst_side_ne (d : RankData K) {c : Nat} (hc : c < d.nodeid.length) (hne : NonFlat d c) {j : Nat} (hj : j < 3) :
    tst (vtx d) (center2 (vtx d) (row2 d c).1 (row2 d c).2.1 (row2 d c).2.2) (sA d c j) (sB d c j) ≠ 0 := by
  rw [tst_side d hc hj]
  exact mul_ne_zero (by norm_num) (signedArea_perm_ne _ _ _ _ _ _ _ (side_perm d hc hj) hne)

theorem face_perm2 (sqrt : K → K) (trunc : K → Int) (size : Nat) (d : RankData K) {c j : Nat} (hc : c < d.nodeid.length) (hj : j < 3) :
    (build2 sqrt trunc size d).faceid c j < (fac2 d).length ∧
    [at2 0 (fac2 d) ((build2 sqrt trunc size d).faceid c j) 0, at2 0 (fac2 d) ((build2 sqrt trunc size d).faceid c j) 1].Perm
      [sA d c j, sB d c j] := by
  have spec := facesSpec2 sqrt trunc size d
  obtain ⟨h1, h2⟩ := spec.2.2.2 c hc j hj
  refine ⟨h1, ?_⟩
  have hlen2 : ∀ i j, (sid2 d i j).length = 2 := by intro i j; unfold sid2 side2; split <;> rfl
  have := list2_eta (facesSpec_len spec hlen2 h1)
  show [((fac2 d).getD _ []).getD 0 0, ((fac2 d).getD _ []).getD 1 0].Perm _
  rw [this, ← sid2_eq]; exact h2

/-- The stored normal of a face is the outward normal of its first cell. -/
theorem normal_first2 (sqrt : K → K) (trunc : K → Int) (size : Nat) (d : RankData K) {c j : Nat} (hc : c < d.nodeid.length) (hj : j < 3)
    (hne : NonFlat d c) (h0 : (build2 sqrt trunc size d).cellid ((build2 sqrt trunc size d).faceid c j) 0 = (c : Int)) :
    (build2 sqrt trunc size d).normal ((build2 sqrt trunc size d).faceid c j) = out2 d c j := by
  obtain ⟨hf, hp⟩ := face_perm2 sqrt trunc size d hc hj
  rw [normal_build2 _ _ _ _ hf, h0]
  rw [show idx ((c : Nat) : Int) = c by simp [idx], center_build2 _ _ _ _ hc]
  exact orientedNormal2_perm _ _ _ _ _ _ hp (tst_side_ne d hc hne hj)

theorem fcenter_side2 (sqrt : K → K) (trunc : K → Int) (size : Nat) (d : RankData K) {c j : Nat} (hc : c < d.nodeid.length) (hj : j < 3) :
    (build2 sqrt trunc size d).fcenter ((build2 sqrt trunc size d).faceid c j) = centerf2 (vtx d) (sA d c j) (sB d c j) := by
  obtain ⟨hf, hp⟩ := face_perm2 sqrt trunc size d hc hj
  rw [fcenter_build2 _ _ _ _ hf]
  exact centerf2_perm _ _ _ _ _ hp

/-- Two cells on opposite sides of a common edge have opposite outward normals. -/
theorem out2_opp (d : RankData K) {c c' j j' : Nat} (hc : c < d.nodeid.length) (hc' : c' < d.nodeid.length) (hj : j < 3) (hj' : j' < 3)
    (hne : NonFlat d c') (hp : (sid2 d c j).Perm (sid2 d c' j'))
    (hopp : signedArea (vtx d (sA d c j)) (vtx d (sB d c j)) (vtx d (sO d c j)) *
      signedArea (vtx d (sA d c j)) (vtx d (sB d c j)) (vtx d (sO d c' j')) < 0) (k : Nat) : out2 d c j k = - out2 d c' j' k := by
  rw [sid2_eq, sid2_eq] at hp
  have e : out2 d c' j' = orientedNormal2 (vtx d) (center2 (vtx d) (row2 d c').1 (row2 d c').2.1 (row2 d c').2.2) (sA d c j) (sB d c j) :=
    (orientedNormal2_perm _ _ _ _ _ _ hp (tst_side_ne d hc' hne hj')).symm
  have hp3 : [sA d c j, sB d c j, sO d c' j'].Perm [(row2 d c').1, (row2 d c').2.1, (row2 d c').2.2] := by
    refine List.Perm.trans ?_ (side_perm d hc' hj')
    have : ∀ x y z : Nat, [x, y, z] = [x, y] ++ [z] := fun _ _ _ => rfl
    rw [this, this]; exact hp.append_right _
  rw [e]
  unfold out2
  rw [orientedNormal2_eq, orientedNormal2_eq, tst_side d hc hj, tst_center _ _ _ _ _ _ _ hp3]
  rcases mul_neg_iff.mp hopp with ⟨h1, h2⟩ | ⟨h1, h2⟩
  · rw [if_pos (by linarith), if_neg (by linarith)]; ring
  · rw [if_neg (by linarith), if_pos (by linarith)]; ring

/-! ### the same cell on a rank and in serial -/

/-- Cell `c` of `dL` is cell `C` of `dG`, its nodes being renamed by `g`. -/
structure SameCell (dL dG : RankData K) (g : Nat → Nat) (c C : Nat) : Prop where
  lt : c < dL.nodeid.length
  Lt : C < dG.nodeid.length
  row : row2 dG C = (g (row2 dL c).1, g (row2 dL c).2.1, g (row2 dL c).2.2)
  vert : ∀ s ∈ [(row2 dL c).1, (row2 dL c).2.1, (row2 dL c).2.2], ∀ k < 4, vtx dL s k = vtx dG (g s) k

theorem SameCell.orow {dL dG : RankData K} {g : Nat → Nat} {c C : Nat} (h : SameCell dL dG g c C) :
    orow2 dG C = (g (orow2 dL c).1, g (orow2 dL c).2.1, g (orow2 dL c).2.2) := by
  rw [orow2_eq dG h.Lt, orow2_eq dL h.lt, h.row]
  have hv := h.vert
  simp only [List.mem_cons, List.not_mem_nil, or_false, forall_eq_or_imp, forall_eq] at hv
  obtain ⟨v1, v2, v3⟩ := hv
  unfold orient2
  simp only
  rw [v1 0 (by omega), v1 1 (by omega), v2 0 (by omega), v2 1 (by omega), v3 0 (by omega), v3 1 (by omega)]
  split <;> rfl

theorem SameCell.side {dL dG : RankData K} {g : Nat → Nat} {c C : Nat} (h : SameCell dL dG g c C) (j : Nat) :
    sid2 dG C j = (sid2 dL c j).map g := by
  unfold sid2
  rw [h.orow]
  unfold side2; split <;> rfl

theorem SameCell.sA {dL dG : RankData K} {g : Nat → Nat} {c C : Nat} (h : SameCell dL dG g c C) (j : Nat) :
    sA dG C j = g (sA dL c j) ∧ sB dG C j = g (sB dL c j) := by
  have := h.side j
  rw [sid2_eq, sid2_eq] at this
  simpa using this

theorem SameCell.center {dL dG : RankData K} {g : Nat → Nat} {c C : Nat} (h : SameCell dL dG g c C) :
    center2 (vtx dL) (row2 dL c).1 (row2 dL c).2.1 (row2 dL c).2.2 = center2 (vtx dG) (row2 dG C).1 (row2 dG C).2.1 (row2 dG C).2.2 := by
  rw [h.row]
  have hv := h.vert
  simp only [List.mem_cons, List.not_mem_nil, or_false, forall_eq_or_imp, forall_eq] at hv
  obtain ⟨v1, v2, v3⟩ := hv
  funext k
  match k with
  | 0 => simp only [center2]; rw [v1 0 (by omega), v2 0 (by omega), v3 0 (by omega)]
  | 1 => simp only [center2]; rw [v1 1 (by omega), v2 1 (by omega), v3 1 (by omega)]
  | _ + 2 => rfl

theorem SameCell.volume {dL dG : RankData K} {g : Nat → Nat} {c C : Nat} (h : SameCell dL dG g c C) :
    volume2 (vtx dL) (row2 dL c).1 (row2 dL c).2.1 (row2 dL c).2.2 = volume2 (vtx dG) (row2 dG C).1 (row2 dG C).2.1 (row2 dG C).2.2 := by
  rw [h.row]
  have hv := h.vert
  simp only [List.mem_cons, List.not_mem_nil, or_false, forall_eq_or_imp, forall_eq] at hv
  obtain ⟨v1, v2, v3⟩ := hv
  simp only [volume2]
  rw [v1 0 (by omega), v2 0 (by omega), v3 0 (by omega), v1 1 (by omega), v2 1 (by omega), v3 1 (by omega)]

theorem SameCell.vertS {dL dG : RankData K} {g : Nat → Nat} {c C : Nat} (h : SameCell dL dG g c C) {j : Nat} (hj : j < 3) :
    (∀ k < 4, vtx dL (Par.sA dL c j) k = vtx dG (Par.sA dG C j) k) ∧ (∀ k < 4, vtx dL (Par.sB dL c j) k = vtx dG (Par.sB dG C j) k) := by
  rw [(h.sA j).1, (h.sA j).2]
  have hp := side_perm dL h.lt hj
  exact ⟨h.vert _ (hp.subset (by simp)), h.vert _ (hp.subset (by simp))⟩

theorem SameCell.nonFlat {dL dG : RankData K} {g : Nat → Nat} {c C : Nat} (h : SameCell dL dG g c C) : NonFlat dL c ↔ NonFlat dG C := by
  unfold NonFlat signedArea
  rw [h.row]
  have hv := h.vert
  simp only [List.mem_cons, List.not_mem_nil, or_false, forall_eq_or_imp, forall_eq] at hv
  obtain ⟨v1, v2, v3⟩ := hv
  rw [v1 0 (by omega), v2 0 (by omega), v3 0 (by omega), v1 1 (by omega), v2 1 (by omega), v3 1 (by omega)]

theorem SameCell.fcenter {dL dG : RankData K} {g : Nat → Nat} {c C : Nat} (h : SameCell dL dG g c C) {j : Nat} (hj : j < 3) (k : Nat)
    (hk : k < 3) : centerf2 (vtx dL) (Par.sA dL c j) (Par.sB dL c j) k = centerf2 (vtx dG) (Par.sA dG C j) (Par.sB dG C j) k := by
  obtain ⟨v1, v2⟩ := h.vertS hj
  simp only [centerf2]; rw [v1 k (by omega), v2 k (by omega)]

theorem SameCell.out {dL dG : RankData K} {g : Nat → Nat} {c C : Nat} (h : SameCell dL dG g c C) {j : Nat} (hj : j < 3) :
    out2 dL c j = out2 dG C j := by
  obtain ⟨v1, v2⟩ := h.vertS hj
  unfold out2
  rw [h.center]
  have hr : ∀ k, rawNormal2 (vtx dL) (Par.sA dL c j) (Par.sB dL c j) k = rawNormal2 (vtx dG) (Par.sA dG C j) (Par.sB dG C j) k := by
    intro k
    match k with
    | 0 => simp only [rawNormal2]; rw [v1 1 (by omega), v2 1 (by omega)]
    | 1 => simp only [rawNormal2]; rw [v1 0 (by omega), v2 0 (by omega)]
    | _ + 2 => rfl
  rw [orientedNormal2_eq, orientedNormal2_eq]
  have ht : tst (vtx dL) (center2 (vtx dG) (row2 dG C).1 (row2 dG C).2.1 (row2 dG C).2.2) (Par.sA dL c j) (Par.sB dL c j) =
      tst (vtx dG) (center2 (vtx dG) (row2 dG C).1 (row2 dG C).2.1 (row2 dG C).2.2) (Par.sA dG C j) (Par.sB dG C j) := by
    unfold tst
    rw [h.fcenter hj 0 (by omega), h.fcenter hj 1 (by omega), hr, hr]
  rw [ht]
  have : rawNormal2 (vtx dL) (Par.sA dL c j) (Par.sB dL c j) = rawNormal2 (vtx dG) (Par.sA dG C j) (Par.sB dG C j) := funext hr
  rw [this]

end Verif.Props.Par
