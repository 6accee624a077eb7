import Verif.Props.ParBuild3
import Verif.Props.ParGeom2

/-! Helper lemmas for the parallel theorems: normals and centres of the faces of a 3D Domain, on a rank and in serial. -/
set_option linter.unusedSectionVars false
set_option linter.unusedVariables false
set_option linter.unusedSimpArgs false
namespace Verif.Props.Par
open Verif.Fvm Verif.Spec Verif.Conn Verif.Dom Verif.Geo Verif.Names Verif.MeshFile
variable {K : Type*} [Field K] [LinearOrder K] [IsStrictOrderedRing K]

/-- The three nodes of side `j` of cell `c`, and the opposite node. -/
def tA (d : RankData K) (c j : Nat) : Nat := (sid3 d c j).getD 0 0
def tB (d : RankData K) (c j : Nat) : Nat := (sid3 d c j).getD 1 0
def tC (d : RankData K) (c j : Nat) : Nat := (sid3 d c j).getD 2 0
def tO (d : RankData K) (c j : Nat) : Nat :=
  match j with | 0 => (row3 d c).2.2.2 | 1 => (row3 d c).2.1 | 2 => (row3 d c).2.2.1 | _ => (row3 d c).1

/-- The node list of a cell. -/
def lst3 (d : RankData K) (c : Nat) : List Nat := [(row3 d c).1, (row3 d c).2.1, (row3 d c).2.2.1, (row3 d c).2.2.2]

theorem sid3_eq (d : RankData K) (c j : Nat) : sid3 d c j = [tA d c j, tB d c j, tC d c j] := by
  unfold tA tB tC sid3 side3; split <;> rfl

theorem side_perm3 (d : RankData K) (c : Nat) {j : Nat} (hj : j < 4) : [tA d c j, tB d c j, tC d c j, tO d c j].Perm (lst3 d c) := by
  unfold lst3
  generalize ha : (row3 d c).1 = a
  generalize hb : (row3 d c).2.1 = b
  generalize hc : (row3 d c).2.2.1 = e
  generalize hd : (row3 d c).2.2.2 = f
  interval_cases j <;> simp only [tA, tB, tC, tO, sid3, side3, ha, hb, hc, hd, List.getD_cons_zero, List.getD_cons_succ] <;>
    (apply List.perm_iff_count.mpr; intro x; simp only [List.count_cons, List.count_nil] <;> omega)

theorem center_build3 (sqrt : K → K) (trunc : K → Int) (size : Nat) (d : RankData K) {c : Nat} (hc : c < d.nodeid.length) :
    (build3 sqrt trunc size d).center c = center3 (vtx d) (row3 d c).1 (row3 d c).2.1 (row3 d c).2.2.1 (row3 d c).2.2.2 := by
  show writeRows d.nodeid.length _ _ c = _
  rw [writeRows_apply, if_pos hc]; rfl

theorem volume_build3 (sqrt : K → K) (trunc : K → Int) (size : Nat) (d : RankData K) {c : Nat} (hc : c < d.nodeid.length) :
    (build3 sqrt trunc size d).volume c = volume3 (vtx d) (row3 d c).1 (row3 d c).2.1 (row3 d c).2.2.1 (row3 d c).2.2.2 := by
  show writeRows d.nodeid.length _ _ c = _
  rw [writeRows_apply, if_pos hc]; rfl

theorem normal_build3 (sqrt : K → K) (trunc : K → Int) (size : Nat) (d : RankData K) {f : Nat} (hf : f < (fac3 d).length) :
    (build3 sqrt trunc size d).normal f = orientedNormal3 (vtx d)
      ((build3 sqrt trunc size d).center (idx ((build3 sqrt trunc size d).cellid f 0))) (at2 0 (fac3 d) f 0) (at2 0 (fac3 d) f 1)
      (at2 0 (fac3 d) f 2) := by
  show writeRows (fac3 d).length _ _ f = _
  rw [writeRows_apply, if_pos hf]; rfl

theorem fcenter_build3 (sqrt : K → K) (trunc : K → Int) (size : Nat) (d : RankData K) {f : Nat} (hf : f < (fac3 d).length) :
    (build3 sqrt trunc size d).fcenter f = centerf3 (vtx d) (at2 0 (fac3 d) f 0) (at2 0 (fac3 d) f 1) (at2 0 (fac3 d) f 2) := by
  show writeRows (fac3 d).length _ _ f = _
  rw [writeRows_apply, if_pos hf]; rfl

theorem mesure_build3 (sqrt : K → K) (trunc : K → Int) (size : Nat) (d : RankData K) {f : Nat} (hf : f < (fac3 d).length) :
    (build3 sqrt trunc size d).mesure f = mesure3 sqrt ((build3 sqrt trunc size d).normal f) := by
  rw [normal_build3 _ _ _ _ hf]
  show writeRows (fac3 d).length _ _ f = _
  rw [writeRows_apply, if_pos hf]; rfl

/-- Which side of the triangle `p q r` the point `g` lies on. -/
def tst3 (v : Nat → Vec K) (g : Vec K) (p q r : Nat) : K :=
  (g 0 - centerf3 v p q r 0) * rawNormal3 v p q r 0 + (g 1 - centerf3 v p q r 1) * rawNormal3 v p q r 1 +
    (g 2 - centerf3 v p q r 2) * rawNormal3 v p q r 2

theorem orientedNormal3_eq (v : Nat → Vec K) (g : Vec K) (p q r : Nat) :
    orientedNormal3 v g p q r = if tst3 v g p q r > 0 then fun k => -1 * rawNormal3 v p q r k else rawNormal3 v p q r := rfl

theorem centerf3_perm (v : Nat → Vec K) (x y z p q r : Nat) (hp : [x, y, z].Perm [p, q, r]) : centerf3 v x y z = centerf3 v p q r := by
  funext k
  rcases perm3 hp with h | h | h | h | h | h <;> obtain ⟨rfl, rfl, rfl⟩ := h <;> simp only [centerf3] <;> ring

theorem rawNormal3_perm (v : Nat → Vec K) (x y z p q r : Nat) (hp : [x, y, z].Perm [p, q, r]) :
    (∀ k, rawNormal3 v x y z k = rawNormal3 v p q r k) ∨ (∀ k, rawNormal3 v x y z k = - rawNormal3 v p q r k) := by
  have sw : ∀ p q r k, rawNormal3 v p r q k = - rawNormal3 v p q r k := by
    intro p q r k
    match k with
    | 0 => simp only [rawNormal3]; ring
    | 1 => simp only [rawNormal3]; ring
    | _ + 2 => simp only [rawNormal3]; ring
  have ro : ∀ p q r k, rawNormal3 v q r p k = rawNormal3 v p q r k := by
    intro p q r k
    match k with
    | 0 => simp only [rawNormal3]; ring
    | 1 => simp only [rawNormal3]; ring
    | _ + 2 => simp only [rawNormal3]; ring
  rcases perm3 hp with h | h | h | h | h | h <;> obtain ⟨rfl, rfl, rfl⟩ := h
  · exact Or.inl fun k => rfl
  · exact Or.inr fun k => by rw [← ro, sw]
  · exact Or.inl fun k => ro _ _ _ _
  · exact Or.inr fun k => sw _ _ _ _
  · exact Or.inl fun k => (ro _ _ _ _).symm
  · exact Or.inr fun k => by rw [← ro, ← ro, sw, ← ro]

theorem orientedNormal3_perm (v : Nat → Vec K) (g : Vec K) (x y z p q r : Nat) (hp : [x, y, z].Perm [p, q, r]) (h : tst3 v g p q r ≠ 0) :
    orientedNormal3 v g x y z = orientedNormal3 v g p q r := by
  rw [orientedNormal3_eq, orientedNormal3_eq]
  have hc := centerf3_perm v x y z p q r hp
  rcases rawNormal3_perm v x y z p q r hp with hr | hr
  · have ht : tst3 v g x y z = tst3 v g p q r := by unfold tst3; rw [hc, hr, hr, hr]
    rw [ht]; simp only [funext hr]
  · have ht : tst3 v g x y z = - tst3 v g p q r := by unfold tst3; rw [hc, hr, hr, hr]; ring
    rw [ht]
    funext k
    rcases lt_or_gt_of_ne h with h | h
    · rw [if_pos (by linarith), if_neg (by linarith)]
      show -1 * rawNormal3 v x y z k = _
      rw [hr]; ring
    · rw [if_neg (by linarith), if_pos h]
      show rawNormal3 v x y z k = -1 * _
      rw [hr]; ring

theorem center3_perm (v : Nat → Vec K) (l : List Nat) (p q r o : Nat) (a b c e : Nat) (h : [p, q, r, o].Perm [a, b, c, e]) (k : Nat) :
    center3 v a b c e k = (v p k + v q k + v r k + v o k) / 4 := by
  have := (h.map (fun s => v s k)).sum_eq
  simp only [List.map_cons, List.map_nil, List.sum_cons, List.sum_nil] at this
  simp only [center3]
  linear_combination (-1 / 4) * this

theorem tst3_center (v : Nat → Vec K) (a b c e p q r o : Nat) (h : [p, q, r, o].Perm [a, b, c, e]) :
    tst3 v (center3 v a b c e) p q r = 3 / 4 * signedVol (v p) (v q) (v r) (v o) := by
  have hc := center3_perm v [] p q r o a b c e h
  unfold tst3
  rw [hc 0, hc 1, hc 2]
  simp only [rawNormal3, centerf3, signedVol]; ring

theorem signedVol_perm_ne (v : Nat → Vec K) (a b c e p q r o : Nat) (h : [p, q, r, o].Perm [a, b, c, e])
    (hne : signedVol (v a) (v b) (v c) (v e) ≠ 0) : signedVol (v p) (v q) (v r) (v o) ≠ 0 := by
  have := signedVol_perm v a b c e p q r o h
  intro h0
  rw [h0, abs_zero] at this
  exact hne (abs_eq_zero.mp this.symm)

/-- Nonzero volume of cell `c`. -/
def NonFlat3 (d : RankData K) (c : Nat) : Prop :=
  signedVol (vtx d (row3 d c).1) (vtx d (row3 d c).2.1) (vtx d (row3 d c).2.2.1) (vtx d (row3 d c).2.2.2) ≠ 0

/-- Centre of cell `c`. -/
def cen3 (d : RankData K) (c : Nat) : Vec K := center3 (vtx d) (row3 d c).1 (row3 d c).2.1 (row3 d c).2.2.1 (row3 d c).2.2.2

/-- The outward normal of side `j` of cell `c`. -/
def out3 (d : RankData K) (c j : Nat) : Vec K := orientedNormal3 (vtx d) (cen3 d c) (tA d c j) (tB d c j) (tC d c j)

theorem tst3_side (d : RankData K) (c : Nat) {j : Nat} (hj : j < 4) :
    tst3 (vtx d) (cen3 d c) (tA d c j) (tB d c j) (tC d c j) =
      3 / 4 * signedVol (vtx d (tA d c j)) (vtx d (tB d c j)) (vtx d (tC d c j)) (vtx d (tO d c j)) :=
  tst3_center _ _ _ _ _ _ _ _ _ (side_perm3 d c hj)

theorem tst3_side_ne (d : RankData K) {c : Nat} (hne : NonFlat3 d c) {j : Nat} (hj : j < 4) :
    tst3 (vtx d) (cen3 d c) (tA d c j) (tB d c j) (tC d c j) ≠ 0 := by
  rw [tst3_side d c hj]
  exact mul_ne_zero (by norm_num) (signedVol_perm_ne _ _ _ _ _ _ _ _ _ (side_perm3 d c hj) hne)

theorem face_perm3 (sqrt : K → K) (trunc : K → Int) (size : Nat) (d : RankData K) {c j : Nat} (hc : c < d.nodeid.length) (hj : j < 4) :
    (build3 sqrt trunc size d).faceid c j < (fac3 d).length ∧
    [at2 0 (fac3 d) ((build3 sqrt trunc size d).faceid c j) 0, at2 0 (fac3 d) ((build3 sqrt trunc size d).faceid c j) 1,
      at2 0 (fac3 d) ((build3 sqrt trunc size d).faceid c j) 2].Perm [tA d c j, tB d c j, tC d c j] := by
  have spec := facesSpec3 sqrt trunc size d
  obtain ⟨h1, h2⟩ := spec.2.2.2 c hc j hj
  refine ⟨h1, ?_⟩
  have := list3_eta (facesSpec_len spec (sid3_length d) h1)
  show [((fac3 d).getD _ []).getD 0 0, ((fac3 d).getD _ []).getD 1 0, ((fac3 d).getD _ []).getD 2 0].Perm _
  rw [this, ← sid3_eq]; exact h2

/-- The stored normal of a face is the outward normal of its first cell. -/
theorem normal_first3 (sqrt : K → K) (trunc : K → Int) (size : Nat) (d : RankData K) {c j : Nat} (hc : c < d.nodeid.length) (hj : j < 4)
    (hne : NonFlat3 d c) (h0 : (build3 sqrt trunc size d).cellid ((build3 sqrt trunc size d).faceid c j) 0 = (c : Int)) :
    (build3 sqrt trunc size d).normal ((build3 sqrt trunc size d).faceid c j) = out3 d c j := by
  obtain ⟨hf, hp⟩ := face_perm3 sqrt trunc size d hc hj
  rw [normal_build3 _ _ _ _ hf, h0]
  rw [show idx ((c : Nat) : Int) = c by simp [idx], center_build3 _ _ _ _ hc]
  exact orientedNormal3_perm _ _ _ _ _ _ _ _ hp (tst3_side_ne d hne hj)

theorem fcenter_side3 (sqrt : K → K) (trunc : K → Int) (size : Nat) (d : RankData K) {c j : Nat} (hc : c < d.nodeid.length) (hj : j < 4) :
    (build3 sqrt trunc size d).fcenter ((build3 sqrt trunc size d).faceid c j) = centerf3 (vtx d) (tA d c j) (tB d c j) (tC d c j) := by
  obtain ⟨hf, hp⟩ := face_perm3 sqrt trunc size d hc hj
  rw [fcenter_build3 _ _ _ _ hf]
  exact centerf3_perm _ _ _ _ _ _ _ hp

theorem append3 (x y z w : Nat) : [x, y, z, w] = [x, y, z] ++ [w] := rfl

/-- Two cells on opposite sides of a common face have opposite outward normals. -/
theorem out3_opp (d : RankData K) {c c' j j' : Nat} (hj : j < 4) (hj' : j' < 4)
    (hne : NonFlat3 d c') (hp : (sid3 d c j).Perm (sid3 d c' j'))
    (hopp : signedVol (vtx d (tA d c j)) (vtx d (tB d c j)) (vtx d (tC d c j)) (vtx d (tO d c j)) *
      signedVol (vtx d (tA d c j)) (vtx d (tB d c j)) (vtx d (tC d c j)) (vtx d (tO d c' j')) < 0) (k : Nat) :
    out3 d c j k = - out3 d c' j' k := by
  rw [sid3_eq, sid3_eq] at hp
  have e : out3 d c' j' = orientedNormal3 (vtx d) (cen3 d c') (tA d c j) (tB d c j) (tC d c j) :=
    (orientedNormal3_perm _ _ _ _ _ _ _ _ hp (tst3_side_ne d hne hj')).symm
  have hp4 : [tA d c j, tB d c j, tC d c j, tO d c' j'].Perm (lst3 d c') := by
    refine List.Perm.trans ?_ (side_perm3 d c' hj')
    rw [append3, append3]; exact hp.append_right _
  have t2 : tst3 (vtx d) (cen3 d c') (tA d c j) (tB d c j) (tC d c j) = _ := tst3_center _ _ _ _ _ _ _ _ _ hp4
  rw [e]
  unfold out3
  rw [orientedNormal3_eq, orientedNormal3_eq, tst3_side d c hj, t2]
  rcases mul_neg_iff.mp hopp with ⟨h1, h2⟩ | ⟨h1, h2⟩
  · rw [if_pos (by linarith), if_neg (by linarith)]; ring
  · rw [if_neg (by linarith), if_pos (by linarith)]; ring

/-! ### the same cell on a rank and in serial -/

/-- Cell `c` of `dL` is cell `C` of `dG`, its nodes being renamed by `g`. -/
structure SameCell3 (dL dG : RankData K) (g : Nat → Nat) (c C : Nat) : Prop where
  lt : c < dL.nodeid.length
  Lt : C < dG.nodeid.length
  row : row3 dG C = (g (row3 dL c).1, g (row3 dL c).2.1, g (row3 dL c).2.2.1, g (row3 dL c).2.2.2)
  vert : ∀ s ∈ lst3 dL c, ∀ k < 4, vtx dL s k = vtx dG (g s) k

section
variable {dL dG : RankData K} {g : Nat → Nat} {c C : Nat}

theorem SameCell3.side (h : SameCell3 dL dG g c C) (j : Nat) : sid3 dG C j = (sid3 dL c j).map g := by
  unfold sid3
  rw [h.row]
  unfold side3; split <;> rfl

theorem SameCell3.nodes (h : SameCell3 dL dG g c C) (j : Nat) :
    tA dG C j = g (tA dL c j) ∧ tB dG C j = g (tB dL c j) ∧ tC dG C j = g (tC dL c j) := by
  have := h.side j
  rw [sid3_eq, sid3_eq] at this
  simpa using this

theorem SameCell3.verts (h : SameCell3 dL dG g c C) : (∀ k < 4, vtx dL (row3 dL c).1 k = vtx dG (g (row3 dL c).1) k) ∧
    (∀ k < 4, vtx dL (row3 dL c).2.1 k = vtx dG (g (row3 dL c).2.1) k) ∧
    (∀ k < 4, vtx dL (row3 dL c).2.2.1 k = vtx dG (g (row3 dL c).2.2.1) k) ∧
    (∀ k < 4, vtx dL (row3 dL c).2.2.2 k = vtx dG (g (row3 dL c).2.2.2) k) :=
  ⟨h.vert _ (by simp [lst3]), h.vert _ (by simp [lst3]), h.vert _ (by simp [lst3]), h.vert _ (by simp [lst3])⟩

theorem SameCell3.cen (h : SameCell3 dL dG g c C) (k : Nat) (hk : k < 3) : cen3 dL c k = cen3 dG C k := by
  obtain ⟨v1, v2, v3, v4⟩ := h.verts
  unfold cen3
  rw [h.row]
  simp only [center3]
  rw [v1 k (by omega), v2 k (by omega), v3 k (by omega), v4 k (by omega)]

theorem SameCell3.volume (h : SameCell3 dL dG g c C) :
    volume3 (vtx dL) (row3 dL c).1 (row3 dL c).2.1 (row3 dL c).2.2.1 (row3 dL c).2.2.2 =
      volume3 (vtx dG) (row3 dG C).1 (row3 dG C).2.1 (row3 dG C).2.2.1 (row3 dG C).2.2.2 := by
  obtain ⟨v1, v2, v3, v4⟩ := h.verts
  rw [h.row]
  simp only [volume3, wedge]
  rw [v1 0 (by omega), v2 0 (by omega), v3 0 (by omega), v4 0 (by omega), v1 1 (by omega), v2 1 (by omega), v3 1 (by omega),
    v4 1 (by omega), v1 2 (by omega), v2 2 (by omega), v3 2 (by omega), v4 2 (by omega)]

theorem SameCell3.nonFlat (h : SameCell3 dL dG g c C) : NonFlat3 dL c ↔ NonFlat3 dG C := by
  obtain ⟨v1, v2, v3, v4⟩ := h.verts
  unfold NonFlat3 signedVol
  rw [h.row]
  simp only
  rw [v1 0 (by omega), v2 0 (by omega), v3 0 (by omega), v4 0 (by omega), v1 1 (by omega), v2 1 (by omega), v3 1 (by omega),
    v4 1 (by omega), v1 2 (by omega), v2 2 (by omega), v3 2 (by omega), v4 2 (by omega)]

theorem SameCell3.vertS (h : SameCell3 dL dG g c C) {j : Nat} (hj : j < 4) :
    (∀ k < 4, vtx dL (tA dL c j) k = vtx dG (tA dG C j) k) ∧ (∀ k < 4, vtx dL (tB dL c j) k = vtx dG (tB dG C j) k) ∧
    (∀ k < 4, vtx dL (tC dL c j) k = vtx dG (tC dG C j) k) := by
  obtain ⟨e1, e2, e3⟩ := h.nodes j
  rw [e1, e2, e3]
  have hp := side_perm3 dL c hj
  exact ⟨h.vert _ (hp.subset (by simp)), h.vert _ (hp.subset (by simp)), h.vert _ (hp.subset (by simp))⟩

theorem SameCell3.fcenter (h : SameCell3 dL dG g c C) {j : Nat} (hj : j < 4) (k : Nat) (hk : k < 3) :
    centerf3 (vtx dL) (tA dL c j) (tB dL c j) (tC dL c j) k = centerf3 (vtx dG) (tA dG C j) (tB dG C j) (tC dG C j) k := by
  obtain ⟨v1, v2, v3⟩ := h.vertS hj
  simp only [centerf3]; rw [v1 k (by omega), v2 k (by omega), v3 k (by omega)]

theorem SameCell3.out (h : SameCell3 dL dG g c C) {j : Nat} (hj : j < 4) : out3 dL c j = out3 dG C j := by
  obtain ⟨v1, v2, v3⟩ := h.vertS hj
  have hr : rawNormal3 (vtx dL) (tA dL c j) (tB dL c j) (tC dL c j) = rawNormal3 (vtx dG) (tA dG C j) (tB dG C j) (tC dG C j) := by
    funext k
    match k with
    | 0 => simp only [rawNormal3]; rw [v1 1 (by omega), v2 1 (by omega), v3 1 (by omega), v1 2 (by omega), v2 2 (by omega), v3 2 (by omega)]
    | 1 => simp only [rawNormal3]; rw [v1 0 (by omega), v2 0 (by omega), v3 0 (by omega), v1 2 (by omega), v2 2 (by omega), v3 2 (by omega)]
    | _ + 2 => simp only [rawNormal3]; rw [v1 1 (by omega), v2 1 (by omega), v3 1 (by omega), v1 0 (by omega), v2 0 (by omega), v3 0 (by omega)]
  unfold out3
  rw [orientedNormal3_eq, orientedNormal3_eq, hr]
  have ht : tst3 (vtx dL) (cen3 dL c) (tA dL c j) (tB dL c j) (tC dL c j) = tst3 (vtx dG) (cen3 dG C) (tA dG C j) (tB dG C j) (tC dG C j) := by
    unfold tst3
    rw [h.fcenter hj 0 (by omega), h.fcenter hj 1 (by omega), h.fcenter hj 2 (by omega), hr, h.cen 0 (by omega), h.cen 1 (by omega),
      h.cen 2 (by omega)]
  rw [ht]
end

end Verif.Props.Par
