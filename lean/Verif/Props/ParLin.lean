import Mathlib.Algebra.BigOperators.Field
import Verif.Props.ParDiff
import Verif.Props.LinSys3
import Verif.Model.LinRun

/-! Helper lemmas for the parallel theorems: the assembly of the linear system, on a rank and in the serial run. -/
set_option linter.unusedSectionVars false
set_option linter.unusedVariables false
set_option linter.unusedSimpArgs false
namespace Verif.Props.Par
open Verif.Fvm Verif.Spec Verif.Conn Verif.Dom Verif.Geo Verif.Names Verif.MeshFile Verif.Part Verif.Comm Verif.Run Verif.HaloGhost Verif.Interp Verif.Props.HG
variable {K : Type*} [Field K] [LinearOrder K] [IsStrictOrderedRing K]

/-! ### the tables of one process -/

/-- What the assembly needs of the tables of one process. -/
structure LinOk (dim size : Nat) (d : RankData K) (D : Tables K) (hg : HGResult K) (B : List Int) : Prop where
  hd : dim = 2 ∨ dim = 3
  cons : Consistent D (dim + 1) B
  hBe : B = if dim = 2 then [1, 2, 3, 4] else [1, 2, 3, 4, 5, 6]
  names : ∀ f < D.nbfaces, D.name f = 0 ∨ D.name f = 10 ∨ D.name f ∈ B
  len : ∀ f < D.nbfaces, (D.fnode f).length = dim
  node : ∀ f < D.nbfaces, ∀ i ∈ D.fnode f, i < D.nbnodes
  own : ∀ i < D.nbnodes, ∃ m, hg.ghosts i = (bf D i).map (rowOf dim D) ++ List.replicate m (HaloGhost.padRow dim)
  rem : ∀ i < D.nbnodes, ∀ r ∈ hg.haloghosts i, r.last ≠ -1 → (size > 1 ∧ D.nodename i = 10) ∧
    ∀ whalo g0 : Nat → K, updateHaloghosts dim D hg (halonodes D) whalo (fun _ => .neumann) g0 r.last.toNat = whalo (idx r.cell)
  inj : ∀ a < D.nbcells, ∀ b < D.nbcells, (linMesh dim size d D hg).loctoglob a = (linMesh dim size d D hg).loctoglob b → a = b
  wedge : dim = 3 → WedgeOk D

/-- The fields of one process when the global cell values are `P` and all sides are Neumann sides. -/
def linW (dim size : Nat) (d : RankData K) (D : Tables K) (hg : HGResult K) (P : Nat → K) : Interp.Fields K :=
  let c := fun c => P ((linMesh dim size d D hg).loctoglob c)
  let h := fun k => P ((linMesh dim size d D hg).haloext k)
  { c := c, ghost := updateGhosts dim D c (fun _ => .neumann) (fun _ => 0), halo := h
    haloghost := updateHaloghosts dim D hg (halonodes D) h (fun _ => .neumann) (fun _ => 0) }

section
variable {dim size : Nat} {d : RankData K} {D : Tables K} {hg : HGResult K} {B : List Int}

theorem LinOk.loc (h : LinOk dim size d D hg B) (b : Int) : b ∈ B ↔ b ∈ locNames dim := by
  rw [h.hBe]; rcases h.hd with rfl | rfl <;> simp [locNames] <;> omega

theorem LinOk.fieldsOf (h : LinOk dim size d D hg B) (P : Nat → K) : LinSys.FieldsOf (linMesh dim size d D hg) P (linW dim size d D hg P) := by
  refine ⟨fun _ => rfl, fun _ => rfl, ?_, ?_⟩
  · intro i g hgm hl
    simp only [linMesh] at hgm
    split_ifs at hgm with hi
    · obtain ⟨m, e⟩ := h.own i hi
      obtain ⟨r, hr, rfl⟩ := List.mem_map.mp hgm
      rw [e] at hr
      rcases List.mem_append.mp hr with hr | hr
      · obtain ⟨f, hf, rfl⟩ := List.mem_map.mp hr
        obtain ⟨f1, f2, _⟩ := (mem_bf D i f).mp hf
        have hB := ((h.cons.bnd.2 f).mp f2).2
        show updateGhosts dim D _ _ _ (Int.toNat (f : Int)) = _
        rw [Int.toNat_natCast, updateGhosts_apply _ _ _ _ _ f1 ((h.loc _).mp hB)]
        rfl
      · rw [(List.mem_replicate.mp hr).2] at hl
        exact absurd rfl hl
    · simp at hgm
  · intro i g hgm hl
    simp only [linMesh] at hgm
    split_ifs at hgm with hi
    · obtain ⟨r, hr, rfl⟩ := List.mem_map.mp hgm
      exact (h.rem i hi r hr hl).2 _ _
    · simp at hgm

theorem LinOk.nodeOk (h : LinOk dim size d D hg B) {i : Nat} (hi : i < D.nbnodes) : LinSys.NodeOk dim (linMesh dim size d D hg) i := by
  refine ⟨?_, ?_, ?_, ?_, ?_⟩
  · simp only [linMesh, if_pos hi, nodeTabs, List.map_map]; rfl
  · simp only [linMesh, if_pos hi, nodeTabs, List.map_map]; rfl
  · intro h1 g hgm
    simp only [linMesh, if_pos hi] at hgm
    simp only [linMesh, nodeTabs] at h1
    obtain ⟨m, e⟩ := h.own i hi
    rw [e] at hgm h1
    cases hb : bf D i with
    | nil =>
      rw [hb] at hgm
      obtain ⟨r, hr, rfl⟩ := List.mem_map.mp hgm
      simp only [List.map_nil, List.nil_append] at hr
      rw [(List.mem_replicate.mp hr).2]; rfl
    | cons f l =>
      rw [hb] at h1
      simp only [List.map_cons, List.cons_append, firstGhost, rowPt, rowOf] at h1
      simp at h1
  · intro hn
    have hn : D.nodename i ≠ 10 := hn
    refine ⟨?_, ?_⟩
    · simp [linMesh, nodeTabs, haloidn, hn]
    · intro g hgm
      simp only [linMesh, if_pos hi] at hgm
      obtain ⟨r, hr, rfl⟩ := List.mem_map.mp hgm
      by_contra hne
      exact hn (h.rem i hi r hr hne).1.2
  · intro hp; exact absurd rfl hp

theorem LinOk.fnode_lt (h : LinOk dim size d D hg B) {f : Nat} (hf : f < D.nbfaces) {j : Nat} (hj : j < dim) :
    (linMesh dim size d D hg).F.nodeid f j ∈ D.fnode f ∧ (linMesh dim size d D hg).F.nodeid f j < D.nbnodes := by
  have e : (linMesh dim size d D hg).F.nodeid f j ∈ D.fnode f := by
    show (D.fnode f).getD j 0 ∈ _
    rw [List.getD_eq_getElem _ _ (by rw [h.len f hf]; exact hj)]
    exact List.getElem_mem _
  exact ⟨e, h.node f hf _ e⟩

theorem mem_dirFaces (dim : Nat) (D : Tables K) (bc : Int → BCond K) (f : Nat) : f ∈ (linLists dim D bc).dirichlet ↔
    f < D.nbfaces ∧ D.name f ∈ locNames dim ∧ (bc (D.name f)).isDirichlet = true := by
  simp only [linLists, varFaces, List.mem_flatMap]
  constructor
  · rintro ⟨l, hl, hm⟩
    split_ifs at hm with hb
    · obtain ⟨hf, e⟩ : f < D.nbfaces ∧ D.name f = l := by simpa [Var.facesNamed] using hm
      rw [e]; exact ⟨hf, hl, hb⟩
    · simp at hm
  · rintro ⟨hf, hl, hb⟩
    exact ⟨_, hl, by rw [if_pos hb]; simp [Var.facesNamed, hf]⟩

theorem nodup_dirFaces (dim : Nat) (hd : dim = 2 ∨ dim = 3) (D : Tables K) (bc : Int → BCond K) : (linLists dim D bc).dirichlet.Nodup := by
  simp only [linLists, varFaces]
  rw [List.nodup_flatMap]
  constructor
  · intro l _
    split_ifs
    · exact List.nodup_range.filter _
    · exact List.nodup_nil
  · have hl : (locNames dim).Nodup := by rcases hd with rfl | rfl <;> decide
    refine hl.imp ?_
    intro a b hab
    intro f h1 h2
    dsimp only at h1 h2
    split_ifs at h1 h2
    · have e1 : f < D.nbfaces ∧ D.name f = a := by simpa [Var.facesNamed] using h1
      have e2 : f < D.nbfaces ∧ D.name f = b := by simpa [Var.facesNamed] using h2
      exact hab (e1.2.symm.trans e2.2)
    all_goals simp_all

theorem LinOk.first (h : LinOk dim size d D hg B) {f : Nat} (hf : f < D.nbfaces) : ∃ a < D.nbcells, D.cellid f 0 = (a : Int) ∧ ∃ j < dim + 1, D.faceid a j = f := by
  obtain ⟨a, ha, h2, j, hj, e⟩ := users_first (h.cons.users_ne hf)
  exact ⟨a, ha, by rw [h.cons.cell0 f hf, h2], j, hj, e⟩

theorem LinOk.second (h : LinOk dim size d D hg B) {f : Nat} (hf : f < D.nbfaces) (h0 : D.name f = 0) :
    ∃ a < D.nbcells, D.cellid f 1 = (a : Int) ∧ ∃ j < dim + 1, D.faceid a j = f := by
  obtain ⟨a, ha, h2, j, hj, e⟩ := users_second (h.cons.name0 f hf h0)
  exact ⟨a, ha, by rw [h.cons.cell1 f hf h0, h2], j, hj, e⟩

theorem LinOk.ok (h : LinOk dim size d D hg B) (bc : Int → BCond K) : LinSys.Ok dim (linMesh dim size d D hg) (linLists dim D bc) D.nbcells := by
  have lt : ∀ i ∈ (linLists dim D bc).inner ++ (linLists dim D bc).halo ++ (linLists dim D bc).dirichlet, i < D.nbfaces := by
    intro i hi
    rcases List.mem_append.mp hi with hi | hi
    · rcases List.mem_append.mp hi with hi | hi
      · exact ((h.cons.inner.2 i).mp hi).1
      · exact ((h.cons.halo.2 i).mp hi).1
    · exact ((mem_dirFaces _ _ _ _).mp hi).1
  refine ⟨h.inj, ?_, ?_, ?_, fun _ _ _ _ => rfl, ?_⟩
  · intro i hi
    obtain ⟨a, ha, e, _⟩ := h.first (lt i hi)
    show idx (D.cellid i 0) < _
    rw [e, idx_cast]; exact ha
  · intro i hi
    obtain ⟨h1, h2⟩ := (h.cons.inner.2 i).mp hi
    obtain ⟨a, ha, e, _⟩ := h.second h1 h2
    show idx (D.cellid i 1) < _
    rw [e, idx_cast]; exact ha
  · intro i hi j hj
    exact h.nodeOk (h.fnode_lt (lt i (List.mem_append_left _ hi)) hj).2
  · intro f hf j hj
    obtain ⟨h1, h2, h3⟩ := (mem_dirFaces _ _ _ _).mp hf
    obtain ⟨m1, m2⟩ := h.fnode_lt h1 hj
    obtain ⟨m, e⟩ := h.own _ m2
    have hb : f ∈ bf D ((linMesh dim size d D hg).F.nodeid f j) := (mem_bf _ _ _).mpr ⟨h1, (h.cons.bnd.2 f).mpr ⟨h1, (h.loc _).mpr h2⟩, m1⟩
    show firstGhost ((hg.ghosts _).map rowPt) ≠ -1
    rw [e]
    cases hbe : bf D ((linMesh dim size d D hg).F.nodeid f j) with
    | nil => rw [hbe] at hb; simp at hb
    | cons g l =>
      simp [firstGhost, rowPt, rowOf]


/-! ### the balance of a cell as a dissipative residual -/

/-- The gradient on the diamond of face `f` with the given node values and side points. -/
def gradD (dim : Nat) (D : Tables K) (node : Nat → K) (f : Nat) (l r : Vec K × K) : Vec K :=
  if dim = 2 then gradPts2 (cut 2 (nodePt D node f 0)) (cut 2 (nodePt D node f 1)) l r
  else gradPts3 (cut 3 (nodePt D node f 0)) (cut 3 (nodePt D node f 1)) (cut 3 (nodePt D node f 2)) l r

theorem gradD_sides (dim : Nat) (D : Tables K) (node : Nat → K) (f : Nat) (l r : Vec K × K) : gradD dim D node f r l = gradD dim D node f l r := by
  unfold gradD; rw [gradPts2_sides, gradPts3_sides]

/-- Unit diffusion. -/
def unitD : Setup K := ⟨fun _ => .neumann, fun _ _ _ _ => 0, fun _ _ _ _ => 0, fun _ _ _ _ => 0, 0, 0, 1, 1, 1⟩

/-- The value at a vertex in the scheme. -/
def vertD (dim size : Nat) (d : RankData K) (D : Tables K) (hg : HGResult K) (bc : Int → BCond K) (w : Interp.Fields K) (i : Nat) : K :=
  if D.oldname i ∈ bcDirichlet dim bc then pbordNode dim D bc i else nodeValues dim size d D hg w i

/-- The gradient on face `f` in the scheme. -/
def linGrad (dim size : Nat) (d : RankData K) (D : Tables K) (hg : HGResult K) (bc : Int → BCond K) (w : Interp.Fields K) (f : Nat) : Vec K :=
  if D.name f = 0 ∨ D.name f = 10 then gradD dim D (vertD dim size d D hg bc w) f (sideL dim D w f) (sideR dim D w f)
  else if (bc (D.name f)).isDirichlet = true then
    gradD dim D (pbordNode dim D bc) f (sideL dim D w f) (cut dim (otherPt dim D f, 2 * pbordFace dim D bc f - w.c (idx (D.cellid f 0))))
  else fun _ => 0

/-- The flux of a gradient through face `f`. -/
def fluxG (D : Tables K) (g : Vec K) (f : Nat) : K := g 0 * D.normal f 0 + g 1 * D.normal f 1 + g 2 * D.normal f 2

theorem LinOk.flux2 (h : LinOk 2 size d D hg B) (val : Nat → K) {f : Nat} (hf : f < D.nbfaces) (vL vR : K) :
    LinSys.flux2 (linMesh 2 size d D hg) f (val ((linMesh 2 size d D hg).F.nodeid f 0)) (val ((linMesh 2 size d D hg).F.nodeid f 1)) vL vR =
      fluxG D (gradD 2 D val f (cut 2 (D.center (idx (D.cellid f 0)), vL)) (cut 2 (otherPt 2 D f, vR))) f := by
  obtain ⟨e1, e2⟩ := diamondGrad2_pts (faceTabs 2 D) f (val ((faceTabs 2 D).nodeid f 0)) (val ((faceTabs 2 D).nodeid f 1)) vL vR
  have er := right_eq (dim := 2) D f (by have := h.names f hf; rw [h.hBe] at this; exact this) (Or.inl rfl)
  rw [if_pos rfl] at er
  rw [er] at e1 e2
  unfold LinSys.flux2 fluxG gradD
  rw [if_pos rfl, gradPts2_cut]
  show (diamondGrad2 (faceGradientInfo2 (faceTabs 2 D) f) (val ((faceTabs 2 D).nodeid f 0)) (val ((faceTabs 2 D).nodeid f 1)) vL vR).1 * D.normal f 0 +
    (diamondGrad2 (faceGradientInfo2 (faceTabs 2 D) f) (val ((faceTabs 2 D).nodeid f 0)) (val ((faceTabs 2 D).nodeid f 1)) vL vR).2 * D.normal f 1 = _
  rw [e1, e2]
  have : ∀ a b l r : Vec K × K, gradPts2 a b l r 2 = 0 := fun _ _ _ _ => rfl
  rw [this]
  simp only [zero_mul, add_zero]
  rfl

theorem LinOk.flux3 (h : LinOk 3 size d D hg B) (val : Nat → K) {f : Nat} (hf : f < D.nbfaces) (vL vR : K) :
    LinSys.flux3 (linMesh 3 size d D hg) f (val ((linMesh 3 size d D hg).F.nodeid f 0)) (val ((linMesh 3 size d D hg).F.nodeid f 1))
      (val ((linMesh 3 size d D hg).F.nodeid f 2)) vL vR =
      fluxG D (gradD 3 D val f (cut 3 (D.center (idx (D.cellid f 0)), vL)) (cut 3 (otherPt 3 D f, vR))) f := by
  have e1 := fun k hk => diamondGrad3_pts (faceTabs 3 D) f (val ((faceTabs 3 D).nodeid f 0)) (val ((faceTabs 3 D).nodeid f 1)) (val ((faceTabs 3 D).nodeid f 2)) vL vR
    (fun k hk => h.wedge rfl f hf k hk) (k := k) hk
  have er := right_eq (dim := 3) D f (by have := h.names f hf; rw [h.hBe] at this; exact this) (Or.inr rfl)
  rw [if_neg (by decide)] at er
  rw [er] at e1
  unfold LinSys.flux3 fluxG gradD
  rw [if_neg (by decide), gradPts3_cut, gradPts3_cut, gradPts3_cut]
  show dot3 (diamondGrad3 (faceGradientInfo3 (faceTabs 3 D) f) ((faceTabs 3 D).normal f) (val ((faceTabs 3 D).nodeid f 0)) (val ((faceTabs 3 D).nodeid f 1))
    (val ((faceTabs 3 D).nodeid f 2)) (val ((faceTabs 3 D).nodeid f 2)) vL vR) (D.normal f) = _
  simp only [dot3]
  rw [e1 0 (by omega), e1 1 (by omega), e1 2 (by omega)]
  rfl

open Classical in
theorem sum_sides (l : List Nat) (hl : l.Nodup) (F : Nat → K) (d1 : Nat) (fc : Nat → Nat)
    (hinj : ∀ j < d1, ∀ j' < d1, fc j = fc j' → j = j') (hex : ∀ f ∈ l, (∀ j < d1, fc j ≠ f) → F f = 0) :
    (l.map F).sum = ∑ j ∈ Finset.range d1, if fc j ∈ l then F (fc j) else 0 := by
  have h1 := sumAt_sides l hl (fun f => if ∃ j < d1, fc j = f then 0 else 1) F 0 d1 fc hinj (by
    intro f _ h0
    by_contra hne
    simp only [if_neg hne] at h0
    omega)
  have h2 : (l.map F).sum = sumAt l (fun f => if ∃ j < d1, fc j = f then 0 else 1) F 0 := by
    unfold sumAt
    clear h1
    induction l with
    | nil => rfl
    | cons f l ih =>
      have ih := ih (List.nodup_cons.mp hl).2 (fun f hf => hex f (List.mem_cons_of_mem _ hf))
      rw [List.map_cons, List.sum_cons, ih, List.filter_cons]
      by_cases hj : ∃ j < d1, fc j = f
      · simp [hj]
      · rw [hex f List.mem_cons_self (fun j hj' e => hj ⟨j, hj', e⟩)]
        simp [hj]
  rw [h2, h1]
  apply Finset.sum_congr rfl
  intro j hj
  have : ∃ j' < d1, fc j' = fc j := ⟨j, Finset.mem_range.mp hj, rfl⟩
  simp [this]

/-- The balance of a cell. -/
def balanceD (dim : Nat) (M : LinSys.Mesh K) (w : Interp.Fields K) (BC : List Int) (Ls : LinSys.Lists) (pn pf : Nat → K) (c : Nat) : K :=
  if dim = 2 then LinSys.balance2 M w BC Ls pn pf c else LinSys.balance3 M w BC Ls pn pf c

/-- The three kinds of faces. -/
theorem LinOk.balance_shape (h : LinOk dim size d D hg B) (bc : Int → BCond K) (w : Interp.Fields K) {c : Nat} (hc : c < D.nbcells) :
    balanceD dim (linMesh dim size d D hg) w (bcDirichlet dim bc) (linLists dim D bc) (pbordNode dim D bc) (pbordFace dim D bc) c =
    (D.innerfaces.map (fun f => (if idx (D.cellid f 0) = c then fluxG D (linGrad dim size d D hg bc w f) f / D.volume c else 0) -
        (if idx (D.cellid f 1) = c then fluxG D (linGrad dim size d D hg bc w f) f / D.volume c else 0))).sum +
    (D.halofaces.map (fun f => if idx (D.cellid f 0) = c then fluxG D (linGrad dim size d D hg bc w f) f / D.volume c else 0)).sum +
    ((linLists dim D bc).dirichlet.map (fun f => if idx (D.cellid f 0) = c then fluxG D (linGrad dim size d D hg bc w f) f / D.volume c else 0)).sum := by
  have hB0 := h.cons.B0
  have hB10 := h.cons.B10
  unfold balanceD
  rcases h.hd with rfl | rfl
  · rw [if_pos rfl]
    unfold LinSys.balance2
    dsimp only
    congr 1
    · congr 1
      · refine congrArg List.sum (List.map_congr_left fun f hf => ?_)
        obtain ⟨f1, f2⟩ := (h.cons.inner.2 f).mp hf
        rw [h.flux2 (LinSys.vertexValue2 (linMesh 2 size d D hg) w (bcDirichlet 2 bc) (pbordNode 2 D bc)) f1]
        simp only [linGrad, f2, true_or, if_true, sideL, sideR, otherVal]
        rfl
      · refine congrArg List.sum (List.map_congr_left fun f hf => ?_)
        obtain ⟨f1, f2⟩ := (h.cons.halo.2 f).mp hf
        rw [h.flux2 (LinSys.vertexValue2 (linMesh 2 size d D hg) w (bcDirichlet 2 bc) (pbordNode 2 D bc)) f1]
        simp only [linGrad, f2, or_true, if_true, sideL, sideR, otherVal, show ¬ ((10 : Int) = 0) by decide, if_false]
        rfl
    · refine congrArg List.sum (List.map_congr_left fun f hf => ?_)
      obtain ⟨f1, f2, f3⟩ := (mem_dirFaces _ _ _ _).mp hf
      have f2' := (h.loc _).mpr f2
      have n0 : D.name f ≠ 0 := fun x => hB0 (x ▸ f2')
      have n10 : D.name f ≠ 10 := fun x => hB10 (x ▸ f2')
      by_cases hcc : idx (D.cellid f 0) = c
      · rw [if_pos hcc]
        show (if idx (D.cellid f 0) = c then _ else _) = _
        rw [if_pos hcc, h.flux2 (pbordNode 2 D bc) f1]
        simp only [linGrad, n0, n10, f3, false_or, if_false, if_true, sideL, hcc]
        rfl
      · rw [if_neg hcc]
        show (if idx (D.cellid f 0) = c then _ else _) = _
        rw [if_neg hcc]
  · rw [if_neg (by decide)]
    unfold LinSys.balance3
    dsimp only
    congr 1
    · congr 1
      · refine congrArg List.sum (List.map_congr_left fun f hf => ?_)
        obtain ⟨f1, f2⟩ := (h.cons.inner.2 f).mp hf
        rw [h.flux3 (LinSys.vertexValue3 (linMesh 3 size d D hg) w (bcDirichlet 3 bc) (pbordNode 3 D bc)) f1]
        simp only [linGrad, f2, true_or, if_true, sideL, sideR, otherVal]
        rfl
      · refine congrArg List.sum (List.map_congr_left fun f hf => ?_)
        obtain ⟨f1, f2⟩ := (h.cons.halo.2 f).mp hf
        rw [h.flux3 (LinSys.vertexValue3 (linMesh 3 size d D hg) w (bcDirichlet 3 bc) (pbordNode 3 D bc)) f1]
        simp only [linGrad, f2, or_true, if_true, sideL, sideR, otherVal, show ¬ ((10 : Int) = 0) by decide, if_false]
        rfl
    · refine congrArg List.sum (List.map_congr_left fun f hf => ?_)
      obtain ⟨f1, f2, f3⟩ := (mem_dirFaces _ _ _ _).mp hf
      have f2' := (h.loc _).mpr f2
      have n0 : D.name f ≠ 0 := fun x => hB0 (x ▸ f2')
      have n10 : D.name f ≠ 10 := fun x => hB10 (x ▸ f2')
      by_cases hcc : idx (D.cellid f 0) = c
      · rw [if_pos hcc]
        show (if idx (D.cellid f 0) = c then _ else _) = _
        rw [if_pos hcc, h.flux3 (pbordNode 3 D bc) f1]
        simp only [linGrad, n0, n10, f3, false_or, if_false, if_true, sideL, hcc]
        rfl
      · rw [if_neg hcc]
        show (if idx (D.cellid f 0) = c then _ else _) = _
        rw [if_neg hcc]

theorem LinOk.balance_dissip (h : LinOk dim size d D hg B) (bc : Int → BCond K) (w : Interp.Fields K) {c : Nat} (hc : c < D.nbcells) :
    balanceD dim (linMesh dim size d D hg) w (bcDirichlet dim bc) (linLists dim D bc) (pbordNode dim D bc) (pbordFace dim D bc) c =
      Run.dissip D unitD (linGrad dim size d D hg bc w) c / D.volume c := by
  rw [h.balance_shape bc w hc, h.cons.dissip _ _ hc]
  obtain ⟨g, hg'⟩ : ∃ g, g = linGrad dim size d D hg bc w := ⟨_, rfl⟩
  have hz : ∀ f < D.nbfaces, D.name f ∈ B → f ∉ (linLists dim D bc).dirichlet → fluxG D (g f) f = 0 := by
    intro f hf hn hd
    have n0 : D.name f ≠ 0 := fun x => h.cons.B0 (x ▸ hn)
    have n10 : D.name f ≠ 10 := fun x => h.cons.B10 (x ▸ hn)
    have : ¬ (bc (D.name f)).isDirichlet = true := fun x => hd ((mem_dirFaces _ _ _ _).mpr ⟨hf, (h.loc _).mp hn, x⟩)
    rw [hg']
    simp [fluxG, linGrad, n0, n10, this]
  rw [← hg']
  have side0 : ∀ f < D.nbfaces, (∀ j < dim + 1, D.faceid c j ≠ f) → ¬ idx (D.cellid f 0) = c := by
    intro f hf hne e
    obtain ⟨a, _, e0, j, hj, ej⟩ := h.first hf
    rw [e0, idx_cast] at e
    exact hne j hj (e ▸ ej)
  have side1 : ∀ f < D.nbfaces, D.name f = 0 → (∀ j < dim + 1, D.faceid c j ≠ f) → ¬ idx (D.cellid f 1) = c := by
    intro f hf h0 hne e
    obtain ⟨a, _, e0, j, hj, ej⟩ := h.second hf h0
    rw [e0, idx_cast] at e
    exact hne j hj (e ▸ ej)
  rw [sum_sides D.innerfaces h.cons.inner.1 _ (dim + 1) (D.faceid c) (h.cons.inj c hc) ?_,
    sum_sides D.halofaces h.cons.halo.1 _ (dim + 1) (D.faceid c) (h.cons.inj c hc) ?_,
    sum_sides (linLists dim D bc).dirichlet (nodup_dirFaces dim h.hd D bc) _ (dim + 1) (D.faceid c) (h.cons.inj c hc) ?_,
    ← Finset.sum_add_distrib, ← Finset.sum_add_distrib, Finset.sum_div]
  · apply Finset.sum_congr rfl
    intro j hj
    have hj := Finset.mem_range.mp hj
    have hf := h.cons.flt c hc j hj
    obtain ⟨f, hfe⟩ : ∃ f, f = D.faceid c j := ⟨_, rfl⟩
    rw [← hfe] at hf ⊢
    have hfl : diffFlux (fun f => g f 0) (fun f => g f 1) (fun f => g f 2) D.normal (unitD : Setup K).Dxx (unitD : Setup K).Dyy (unitD : Setup K).Dzz f =
        fluxG D (g f) f := by
      simp only [diffFlux, unitD, fluxG, one_mul]
    unfold diffTerm
    rw [hfl]
    have i0 := h.cons.inner.2 f
    have i1 := h.cons.halo.2 f
    have i2 := mem_dirFaces dim D bc f
    obtain ⟨a, _, e0, _⟩ := h.first hf
    rcases h.names f hf with e | e | e
    · obtain ⟨b, _, e1, _⟩ := h.second hf e
      have m0 : f ∈ D.innerfaces := i0.mpr ⟨hf, e⟩
      have m1 : f ∉ D.halofaces := fun x => by have := (i1.mp x).2; rw [e] at this; exact absurd this (by decide)
      have m2 : f ∉ (linLists dim D bc).dirichlet := fun x => h.cons.B0 (e ▸ (h.loc _).mpr (i2.mp x).2.1)
      simp only [m0, m1, m2, if_true, if_false, add_zero, e0, e1, idx_cast, Int.toNat_natCast, e, true_and]
      split_ifs <;> simp [sub_div, neg_div]
    · have m0 : f ∉ D.innerfaces := fun x => by have := (i0.mp x).2; rw [e] at this; exact absurd this (by decide)
      have m1 : f ∈ D.halofaces := i1.mpr ⟨hf, e⟩
      have m2 : f ∉ (linLists dim D bc).dirichlet := fun x => h.cons.B10 (e ▸ (h.loc _).mpr (i2.mp x).2.1)
      simp only [m0, m1, m2, if_true, if_false, add_zero, zero_add, e0, idx_cast, Int.toNat_natCast, e, show ¬ ((10 : Int) = 0) by decide, false_and, sub_zero]
      split_ifs <;> simp
    · have n0 : D.name f ≠ 0 := fun x => h.cons.B0 (x ▸ e)
      have n10 : D.name f ≠ 10 := fun x => h.cons.B10 (x ▸ e)
      have m0 : f ∉ D.innerfaces := fun x => n0 (i0.mp x).2
      have m1 : f ∉ D.halofaces := fun x => n10 (i1.mp x).2
      simp only [m0, m1, if_true, if_false, add_zero, zero_add, e0, idx_cast, Int.toNat_natCast, n0, false_and, sub_zero]
      by_cases m2 : f ∈ (linLists dim D bc).dirichlet
      · rw [if_pos m2]; split_ifs <;> simp
      · rw [if_neg m2, hz f hf e m2]; simp
  · intro f hf hne
    exact if_neg (side0 f ((mem_dirFaces _ _ _ _).mp hf).1 hne)
  · intro f hf hne
    exact if_neg (side0 f ((h.cons.halo.2 f).mp hf).1 hne)
  · intro f hf hne
    obtain ⟨f1, f2⟩ := (h.cons.inner.2 f).mp hf
    rw [if_neg (side0 f f1 hne), if_neg (side1 f f1 f2 hne), sub_zero]

end
end Verif.Props.Par
