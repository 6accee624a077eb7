import Verif.Props.ParallelLin

/-!
C99: `compute_Sol_gradient` on several processes: the field on every face is that of the serial run.
-/
set_option linter.unusedSectionVars false
set_option linter.unusedVariables false
set_option linter.unusedSimpArgs false
namespace Verif.Props.Par
open Verif.Fvm Verif.Spec Verif.Conn Verif.Dom Verif.Geo Verif.Names Verif.MeshFile Verif.Part Verif.Comm Verif.Run Verif.HaloGhost Verif.Interp
open Verif.LinSolve (ReadsRows SolvedWith)
variable {K : Type*} [Field K] [LinearOrder K] [IsStrictOrderedRing K]

/-- Face `f` lies on a Dirichlet location. -/
def dirFace (dim : Nat) (D : Tables K) (bc : Int → BCond K) (f : Nat) : Prop := D.name f ∈ locNames dim ∧ (bc (D.name f)).isDirichlet = true

/-- The potential at the nodes of face `f`. -/
noncomputable def solNode (dim : Nat) (D : Tables K) (bc : Int → BCond K) (node : Nat → K) (f i : Nat) : K :=
  open Classical in if dirFace dim D bc f then pbordNode dim D bc i else nodeValue node (pbordNode dim D bc) D.oldname (bcDirichlet dim bc) i

/-- The potential across face `f`. -/
noncomputable def solR (dim : Nat) (D : Tables K) (bc : Int → BCond K) (w : Interp.Fields K) (f : Nat) : Vec K × K :=
  open Classical in cut dim (otherPt dim D f, if dirFace dim D bc f then 2 * pbordFace dim D bc f - w.c (idx (D.cellid f 0)) else otherVal D w f)

theorem solKind {D : Tables K} {d1 : Nat} {B : List Int} (h : Consistent D d1 B) {dim : Nat} (hB : ∀ b ∈ B, b ∈ locNames dim)
    (hBn : ∀ l ∈ locNames dim, l ≠ 0 ∧ l ≠ 10) (bc : Int → BCond K) (w : Interp.Fields K) (node : Nat → K) {f : Nat} (hf : f < D.nbfaces)
    (hn : D.name f = 0 ∨ D.name f = 10 ∨ D.name f ∈ B) :
    ∃ kind, (varFaces dim D bc).HasKind f kind ∧
      (∀ j, potNode node (pbordNode dim D bc) D.oldname (bcDirichlet dim bc) ((faceTabs dim D).nodeid f j) kind =
        solNode dim D bc node f ((D.fnode f).getD j 0)) ∧
      cut dim (otherPt dim D f, potOther (faceTabs dim D) w (pbordFace dim D bc) f kind) = solR dim D bc w f := by
  obtain ⟨kind, hk, ho⟩ := hasKind_of h hB hBn bc w hf hn
  have hd : dirFace dim D bc f ↔ f ∈ (varFaces dim D bc).dirichlet := by
    have := mem_dirFaces dim D bc f
    unfold dirFace
    constructor
    · rintro ⟨a, b⟩; exact this.mpr ⟨hf, a, b⟩
    · intro x; exact (this.mp x).2
  refine ⟨kind, hk, fun j => ?_, ?_⟩
  · unfold solNode
    rw [show ((faceTabs dim D).nodeid f j) = (D.fnode f).getD j 0 from rfl]
    cases kind
    case dirichlet => rw [if_pos (hd.mpr hk.1)]; rfl
    case inner => rw [if_neg (fun x => hk.2.2.2.1 (hd.mp x))]; rfl
    case periodic => rw [if_neg (fun x => hk.2.2.2.1 (hd.mp x))]; rfl
    case halo => rw [if_neg (fun x => hk.2.2.2.1 (hd.mp x))]; rfl
    case neumann => rw [if_neg (fun x => hk.2.2.2.2 (hd.mp x))]; rfl
  · unfold solR
    rw [← ho]
    cases kind
    case dirichlet => rw [if_pos (hd.mpr hk.1)]; rfl
    case inner => rw [if_neg (fun x => hk.2.2.2.1 (hd.mp x))]; rfl
    case periodic => rw [if_neg (fun x => hk.2.2.2.1 (hd.mp x))]; rfl
    case halo => rw [if_neg (fun x => hk.2.2.2.1 (hd.mp x))]; rfl
    case neumann => rw [if_neg (fun x => hk.2.2.2.2 (hd.mp x))]; rfl

theorem solGrads_pts {D : Tables K} {B : List Int} {dim : Nat} (hd : dim = 2 ∨ dim = 3) (h : Consistent D (dim + 1) B)
    (hB : B = if dim = 2 then [1, 2, 3, 4] else [1, 2, 3, 4, 5, 6]) (hw : dim = 3 → WedgeOk D) (bc : Int → BCond K)
    (w : Interp.Fields K) (node : Nat → K) {f : Nat} (hf : f < D.nbfaces) (hn : D.name f = 0 ∨ D.name f = 10 ∨ D.name f ∈ B) {k : Nat} (hk3 : k < 3) :
    solGrads dim D bc w node f k = - gradD dim D (solNode dim D bc node f) f (sideL dim D w f) (solR dim D bc w f) k := by
  subst hB
  rcases hd with rfl | rfl
  · obtain ⟨kind, hk, hp, hr⟩ := solKind h (dim := 2) (by decide) (by decide) bc w node hf hn
    obtain ⟨E, hE⟩ : ∃ E, E = computePGradient2 (faceTabs 2 D) (varFaces 2 D bc) w node (pbordNode 2 D bc) (pbordFace 2 D bc) D.oldname
      (bcDirichlet 2 bc) (fun _ => (0, 0)) f := ⟨_, rfl⟩
    have hE2 : (-E.1, -E.2) = diamondGrad2 (faceGradientInfo2 (faceTabs 2 D) f) (solNode 2 D bc node f ((D.fnode f).getD 0 0))
        (solNode 2 D bc node f ((D.fnode f).getD 1 0)) (w.c ((faceTabs 2 D).cellid0 f)) (potOther (faceTabs 2 D) w (pbordFace 2 D bc) f kind) := by
      rw [← hp 0, ← hp 1, hE]
      simp only [computePGradient2, writeList_apply, diamondGrad2]
      cases kind <;> obtain ⟨h1, h2, h3, h4, h5⟩ := hk <;>
        simp only [h1, h2, h3, h4, h5, otherValue, if_true, if_false, potNode, potOther, nodeValue] <;>
        refine Prod.ext ?_ ?_ <;> simp only [neg_div, neg_mul, neg_neg]
    obtain ⟨e1, e2⟩ := diamondGrad2_pts (faceTabs 2 D) f (solNode 2 D bc node f ((D.fnode f).getD 0 0)) (solNode 2 D bc node f ((D.fnode f).getD 1 0))
      (w.c ((faceTabs 2 D).cellid0 f)) (potOther (faceTabs 2 D) w (pbordFace 2 D bc) f kind)
    have er := right_eq (dim := 2) D f (by simpa using hn) (Or.inl rfl)
    rw [if_pos rfl] at er
    rw [er, ← hE2] at e1 e2
    unfold solGrads gradD sideL
    rw [if_pos rfl, if_pos rfl, ← hr, gradPts2_cut]
    match k with
    | 0 =>
      show (computePGradient2 _ _ _ _ _ _ _ _ _ f).1 = _
      rw [← hE]
      have e1' : -E.1 = _ := e1
      rw [show E.1 = - -E.1 by ring, e1']; rfl
    | 1 =>
      show (computePGradient2 _ _ _ _ _ _ _ _ _ f).2 = _
      rw [← hE]
      have e2' : -E.2 = _ := e2
      rw [show E.2 = - -E.2 by ring, e2']; rfl
    | k + 2 => exact (neg_zero (G := K)).symm
  · obtain ⟨kind, hk, hp, hr⟩ := solKind h (dim := 3) (by decide) (by decide) bc w node hf hn
    obtain ⟨E, hE⟩ : ∃ E, E = computePGradient3 (faceTabs 3 D) (varFaces 3 D bc) w node (pbordNode 3 D bc) (pbordFace 3 D bc) D.oldname
      (bcDirichlet 3 bc) (fun _ _ => 0) f := ⟨_, rfl⟩
    have hE2 : (fun k => -E k) = diamondGrad3 (faceGradientInfo3 (faceTabs 3 D) f) ((faceTabs 3 D).normal f) (solNode 3 D bc node f ((D.fnode f).getD 0 0))
        (solNode 3 D bc node f ((D.fnode f).getD 1 0)) (solNode 3 D bc node f ((D.fnode f).getD 2 0)) (solNode 3 D bc node f ((D.fnode f).getD 2 0))
        (w.c ((faceTabs 3 D).cellid0 f)) (potOther (faceTabs 3 D) w (pbordFace 3 D bc) f kind) := by
      rw [← hp 0, ← hp 1, ← hp 2, hE]
      simp only [computePGradient3, writeList_apply]
      funext k
      simp only [diamondGrad3]
      cases kind <;> obtain ⟨h1, h2, h3, h4, h5⟩ := hk <;>
        simp only [h1, h2, h3, h4, h5, otherValue, if_true, if_false, potNode, potOther, nodeValue] <;>
        rw [← neg_div] <;> congr 1 <;> ring
    have e1 := diamondGrad3_pts (faceTabs 3 D) f (solNode 3 D bc node f ((D.fnode f).getD 0 0)) (solNode 3 D bc node f ((D.fnode f).getD 1 0))
      (solNode 3 D bc node f ((D.fnode f).getD 2 0)) (w.c ((faceTabs 3 D).cellid0 f)) (potOther (faceTabs 3 D) w (pbordFace 3 D bc) f kind)
      (fun k hk => hw rfl f hf k hk) hk3
    have er := right_eq (dim := 3) D f (by simpa using hn) (Or.inr rfl)
    rw [if_neg (by decide)] at er
    rw [er, ← hE2] at e1
    unfold solGrads gradD sideL
    rw [if_neg (by decide), if_neg (by decide), ← hr, gradPts3_cut]
    show computePGradient3 _ _ _ _ _ _ _ _ _ f k = _
    rw [← hE]
    have e1' : -E k = _ := e1
    rw [show E k = - -E k by ring, e1']; rfl

section
variable {dim : Nat} {nodeid : Nat → Nat → Nat} {node : Nat → K × K × K × Nat} {cv : Nat → List K} {npart0 epart : Nat → Nat}
  {nbnodes n SIZE : Nat} {data : Nat → RankData K} {serial : RankData K} {L : Nat → Tables K} {G : Tables K} {B : List Int}
  {out : Nat → Nat → Vec K} {trunc : K → Int}

/-- The field on a face of a rank is the field on the same face in the serial run. -/
theorem NodePair.solGrads_eq (h : NodePair dim nodeid node cv npart0 epart nbnodes n SIZE data serial L G B out trunc)
    (hw : dim = 3 → WedgeOk G ∧ ∀ p < SIZE, WedgeOk (L p))
    (bc : Int → BCond K) {p : Nat} (hp : p < SIZE) {hg : HGResult K} {wL wG : Interp.Fields K}
    (vL : ValuesOk dim SIZE data L G wG.c bc p hg wL) (vG : ValuesG dim G bc wG) (nL nG : Nat → K)
    (hN : ∀ i < (L p).nbnodes, (L p).oldname i ∉ bcDirichlet dim bc → nL i = nG (gOf (data p) i)) {c : Nat} (hc : c < (L p).nbcells) {j : Nat} (hj : j < dim + 1) {k : Nat} (hk : k < 3) :
    solGrads dim (L p) bc wL nL ((L p).faceid c j) k = solGrads dim G bc wG nG (G.faceid (phi (data p) c) j) k := by
  have R := h.run.rank p hp
  have hC := (R.sub.lt c hc).1
  have hf := R.cL.flt c hc j hj
  have hFF := R.cG.flt (phi (data p) c) hC j hj
  have nmL : (L p).name ((L p).faceid c j) = 0 ∨ (L p).name ((L p).faceid c j) = 10 ∨ (L p).name ((L p).faceid c j) ∈ B := by
    rcases R.kinds hc hj with ⟨_, _, hB, _⟩ | ⟨_, _, _, hLn, _⟩ | ⟨_, _, _, _, hLn, _⟩
    · exact Or.inr (Or.inr hB)
    · exact Or.inl hLn
    · exact Or.inr (Or.inl hLn)
  have nmG : G.name (G.faceid (phi (data p) c) j) = 0 ∨ G.name (G.faceid (phi (data p) c) j) = 10 ∨ G.name (G.faceid (phi (data p) c) j) ∈ B := by
    rcases R.kinds hc hj with ⟨_, _, hB, hnm, _⟩ | ⟨_, _, _, _, hGn, _⟩ | ⟨_, _, _, _, _, hGn, _⟩
    · exact Or.inr (Or.inr (hnm ▸ hB))
    · exact Or.inl hGn
    · exact Or.inl hGn
  have noLoc : ∀ b : Int, b = 0 ∨ b = 10 → b ∉ locNames dim := by
    rcases h.run.hd with rfl | rfl <;> rintro b (rfl | rfl) <;> decide
  have hB : B = if dim = 2 then [1, 2, 3, 4] else [1, 2, 3, 4, 5, 6] := h.hBe
  rw [solGrads_pts h.run.hd R.cL hB (fun e => (hw e).2 p hp) bc wL nL hf nmL hk, solGrads_pts h.run.hd R.cG hB (fun e => (hw e).1) bc wG nG hFF nmG hk]
  congr 1
  have ac := h.across bc hp vL vG hc hj
  have hv : ∀ i < (L p).nbnodes, nodeValue nL (pbordNode dim (L p) bc) (L p).oldname (bcDirichlet dim bc) i =
      nodeValue nG (pbordNode dim G bc) G.oldname (bcDirichlet dim bc) (gOf (data p) i) := by
    intro i hi
    unfold nodeValue
    rw [← h.oldname_eq hp hi, h.pbordNode_eq bc hp hi]
    split_ifs with hx
    · rfl
    · exact hN i hi hx
  by_cases hd : dirFace dim (L p) bc ((L p).faceid c j)
  · rcases R.kinds hc hj with ⟨hbL, hbG, hBm, hnm, l0, g0⟩ | ⟨e, he, hne, hLn, hGn, hk⟩ | ⟨E, hE, row, hm, hLn, hGn, hrow, hhead, l0, hk⟩
    · have n0 : (L p).name ((L p).faceid c j) ≠ 0 := fun x => R.cL.B0 (x ▸ hBm)
      have n10 : (L p).name ((L p).faceid c j) ≠ 10 := fun x => R.cL.B10 (x ▸ hBm)
      have hdG : dirFace dim G bc (G.faceid (phi (data p) c) j) := by unfold dirFace; rw [hnm]; exact hd
      have s1 : solNode dim (L p) bc nL ((L p).faceid c j) = pbordNode dim (L p) bc := by
        funext i; unfold solNode; rw [if_pos hd]
      have s2 : solNode dim G bc nG (G.faceid (phi (data p) c) j) = pbordNode dim G bc := by
        funext i; unfold solNode; rw [if_pos hdG]
      rw [s1, s2]
      rw [h.gradD_eq hp _ (pbordNode dim G bc) hc hj (fun i hi => h.pbordNode_eq bc hp hi)]
      obtain ⟨v, hv⟩ := (isDirichlet_iff _).mp hd.2
      have hl := h.run.hB _ hBm
      have hcell : wL.c c = wG.c (phi (data p) c) := vL.cell c hc
      have e1 : sideL dim (L p) wL ((L p).faceid c j) = sideL dim G wG (G.faceid (phi (data p) c) j) := by
        unfold sideL
        rw [l0, g0, idx_cast, idx_cast]
        exact cut_eq (fun k hk => R.center c hc k (by have := h.run.hd; omega)) hcell
      have e2 : otherPt dim (L p) ((L p).faceid c j) = otherPt dim G (G.faceid (phi (data p) c) j) := by
        unfold otherPt
        rw [hnm, if_neg n0, if_neg n10, if_neg n0, if_neg n10, h.ghostPt p hp c hc j hj hbL]
      have e3 : solR dim (L p) bc wL ((L p).faceid c j) = solR dim G bc wG (G.faceid (phi (data p) c) j) := by
        unfold solR
        rw [if_pos hd, if_pos hdG, e2, l0, g0, idx_cast, idx_cast, hcell, pbordFace_apply _ _ _ hf hl hv,
          pbordFace_apply _ _ _ hFF (by rw [hnm]; exact hl) (by rw [hnm]; exact hv)]
        simp only [R.fcenter c hc j hj 0 (by omega), R.fcenter c hc j hj 1 (by omega), R.fcenter c hc j hj 2 (by omega)]
      rw [e1, e3]
    · exact absurd hd.1 (noLoc _ (Or.inl hLn))
    · exact absurd hd.1 (noLoc _ (Or.inr hLn))
  · have hdG : ¬ dirFace dim G bc (G.faceid (phi (data p) c) j) := by
      rcases R.kinds hc hj with ⟨hbL, hbG, hBm, hnm, l0, g0⟩ | ⟨e, he, hne, hLn, hGn, hk⟩ | ⟨E, hE, row, hm, hLn, hGn, hrow, hhead, l0, hk⟩
      · unfold dirFace at hd ⊢; rw [hnm]; exact hd
      · exact fun x => noLoc _ (Or.inl hGn) x.1
      · exact fun x => noLoc _ (Or.inl hGn) x.1
    have s1 : solNode dim (L p) bc nL ((L p).faceid c j) = nodeValue nL (pbordNode dim (L p) bc) (L p).oldname (bcDirichlet dim bc) := by
      funext i; unfold solNode; rw [if_neg hd]
    have s2 : solNode dim G bc nG (G.faceid (phi (data p) c) j) = nodeValue nG (pbordNode dim G bc) G.oldname (bcDirichlet dim bc) := by
      funext i; unfold solNode; rw [if_neg hdG]
    have s3 : solR dim (L p) bc wL ((L p).faceid c j) = sideR dim (L p) wL ((L p).faceid c j) := by unfold solR sideR; rw [if_neg hd]
    have s4 : solR dim G bc wG (G.faceid (phi (data p) c) j) = sideR dim G wG (G.faceid (phi (data p) c) j) := by unfold solR sideR; rw [if_neg hdG]
    rw [s1, s2, s3, s4, h.gradD_eq hp _ _ hc hj hv]
    rcases ac with ⟨a1, a2⟩ | ⟨a1, a2⟩
    · rw [a1, a2]
    · rw [a1, a2, gradD_sides]

theorem mem_bcDirichlet (bc : Int → BCond K) (b : Int) : b ∈ bcDirichlet dim bc ↔ b ∈ locNames dim ∧ (bc b).isDirichlet = true := by
  unfold bcDirichlet; rw [List.mem_filter]

theorem solGradient_match (h : NodePair dim nodeid node cv npart0 epart nbnodes n SIZE data serial L G B out trunc) {hgL hgG : Nat → HGResult K}
    (hw : dim = 3 → WedgeOk G ∧ ∀ p < SIZE, WedgeOk (L p))
    (sL : ∀ p < SIZE, ∃ rows, HGSpec dim SIZE data L p (hgL p) rows) (sG : HGSerial dim G nbnodes (hgG 0))
    (bc : Int → BCond K) (star : StarConnected dim nodeid n) (hbc : FieldCornersOk dim nodeid epart n G bc) (V U : Nat → Vari K)
    (hm : VMatch SIZE data L V U) :
    ∃ V' nL fL U' nG fG, solGradient (parW dim SIZE data L hgL) bc V = some (V', nL, fL) ∧
      solGradient (serW dim serial G hgG) bc U = some (U', nG, fG) ∧
      VMatch SIZE data L V' U' ∧ (∀ p, (V' p).cell = (V p).cell) ∧ (∀ p, (U' p).cell = (U p).cell) ∧
      ∀ p < SIZE, ∀ c < (L p).nbcells, ∀ j < dim + 1, ∀ k < 3, fL p ((L p).faceid c j) k = fG 0 (G.faceid (phi (data p) c) j) k := by
  obtain ⟨V', U', e1, e2, m, c1, c2, vL, vG⟩ := update_match h hgL hgG bc V U hm
  refine ⟨V', fun p => nodeValues dim SIZE (data p) (L p) (hgL p) (V' p).fields, fun p => solGrads dim (L p) bc (V' p).fields (nodeValues dim SIZE (data p) (L p) (hgL p) (V' p).fields), U',
    fun p => nodeValues dim 1 serial G (hgG p) (U' p).fields, fun p => solGrads dim G bc (U' p).fields (nodeValues dim 1 serial G (hgG p) (U' p).fields), ?_, ?_, m, c1, c2, ?_⟩
  · unfold solGradient celltonode; rw [e1]; rfl
  · unfold solGradient celltonode; rw [e2]; rfl
  · intro p hp c hc j hj k hk
    refine h.solGrads_eq hw bc hp (vL p hp) vG _ _ (fun i hi hx => ?_) hc hj hk
    obtain ⟨rows, s⟩ := sL p hp
    refine nodeValue_match_at h bc star hp s sG (vL p hp) vG hi fun F hF hs hsh => ?_
    rcases hbc F hF _ hs hsh with hd | hn
    · rw [← h.oldname_eq hp hi] at hd
      exact absurd ((mem_bcDirichlet bc _).mpr hd) hx
    · exact Or.inl hn

end

section
variable {nodeid : Nat → Nat → Nat} {node : Nat → K × K × K × Nat} {npart0 epart : Nat → Nat}
  {nbnodes n SIZE : Nat} {data : Nat → RankData K} {serial : RankData K}

/-- C99 (2D): `compute_Sol_gradient` gives every face of every rank the field of the serial run. -/
theorem C99_field_2d_partial (h : Launched 3 nodeid node (centvol2 node nodeid) npart0 epart nbnodes n SIZE data serial)
    (vm : ValidMesh2 nodeid node nbnodes n) (sqrt : K → K) (trunc : K → Int) (htr : ∀ m : Nat, trunc (m : K) = m)
    (star : StarConnected 2 nodeid n) :
    ∃ WL WG, mkWorld 2 SIZE data (fun p => build2 sqrt trunc SIZE (data p)) = some WL ∧
      mkWorld 2 1 (fun _ => serial) (fun _ => build2 sqrt trunc 1 serial) = some WG ∧
      ∀ (bc : Int → BCond K), FieldCornersOk 2 nodeid epart n (build2 sqrt trunc 1 serial) bc →
        ∀ V U : Nat → Vari K, CellsAgree SIZE data (fun p => (V p).cell) (U 0).cell →
        ∃ V' nL fL U' nG fG, solGradient WL bc V = some (V', nL, fL) ∧ solGradient WG bc U = some (U', nG, fG) ∧
          (∀ k < 3, FacesAgree SIZE data (fun p => build2 sqrt trunc SIZE (data p)) (build2 sqrt trunc 1 serial)
            (fun p f => fL p f k) (fun F => fG 0 F k)) := by
  have np := h.nodePair2 vm sqrt trunc htr
  obtain ⟨hgL, hgG, w1, w2, sL, sG⟩ := np.worlds
  refine ⟨_, _, w1, w2, fun bc hbc V U hm => ?_⟩
  obtain ⟨V', nL, fL, U', nG, fG, e1, e2, _, _, _, hf⟩ := solGradient_match np (by omega) sL sG bc star hbc V U ((np.cellsAgree _ _).mp hm)
  exact ⟨V', nL, fL, U', nG, fG, e1, e2, fun k hk => np.facesAgree _ _ fun p hp c hc j hj => hf p hp c hc j hj k hk⟩

/-- C99 (3D). -/
theorem C99_field_3d_partial (h : Launched 4 nodeid node (centvol3 node nodeid) npart0 epart nbnodes n SIZE data serial)
    (vm : ValidMesh3 nodeid node nbnodes n) (sqrt : K → K) (trunc : K → Int) (htr : ∀ m : Nat, trunc (m : K) = m)
    (star : StarConnected 3 nodeid n) :
    ∃ WL WG, mkWorld 3 SIZE data (fun p => build3 sqrt trunc SIZE (data p)) = some WL ∧
      mkWorld 3 1 (fun _ => serial) (fun _ => build3 sqrt trunc 1 serial) = some WG ∧
      ∀ (bc : Int → BCond K), FieldCornersOk 3 nodeid epart n (build3 sqrt trunc 1 serial) bc →
        ∀ V U : Nat → Vari K, CellsAgree SIZE data (fun p => (V p).cell) (U 0).cell →
        ∃ V' nL fL U' nG fG, solGradient WL bc V = some (V', nL, fL) ∧ solGradient WG bc U = some (U', nG, fG) ∧
          (∀ k < 3, FacesAgree SIZE data (fun p => build3 sqrt trunc SIZE (data p)) (build3 sqrt trunc 1 serial)
            (fun p f => fL p f k) (fun F => fG 0 F k)) := by
  have np := h.nodePair3 vm sqrt trunc htr
  obtain ⟨hgL, hgG, w1, w2, sL, sG⟩ := np.worlds
  refine ⟨_, _, w1, w2, fun bc hbc V U hm => ?_⟩
  obtain ⟨V', nL, fL, U', nG, fG, e1, e2, _, _, _, hf⟩ := solGradient_match np
    (fun _ => ⟨wedge_build3 sqrt trunc 1 serial, fun p hp => wedge_build3 sqrt trunc SIZE (data p)⟩) sL sG bc star hbc V U ((np.cellsAgree _ _).mp hm)
  exact ⟨V', nL, fL, U', nG, fG, e1, e2, fun k hk => np.facesAgree _ _ fun p hp c hc j hj => hf p hp c hc j hj k hk⟩

/-- C99 (2D, with C98): solving the system in parallel and serially with the same source, with MUMPS or PETSc on either
side (solvers that fill the array the boundary conditions read, cf. C32) and whatever the history, and then computing the field gives every face of every rank the field of the serial run. -/
theorem C99_solve_field_2d_partial (h : Launched 3 nodeid node (centvol2 node nodeid) npart0 epart nbnodes n SIZE data serial)
    (vm : ValidMesh2 nodeid node nbnodes n) (sqrt : K → K) (trunc : K → Int) (htr : ∀ m : Nat, trunc (m : K) = m)
    (star : StarConnected 2 nodeid n) :
    ∃ WL WG, mkWorld 2 SIZE data (fun p => build2 sqrt trunc SIZE (data p)) = some WL ∧
      mkWorld 2 1 (fun _ => serial) (fun _ => build2 sqrt trunc 1 serial) = some WG ∧
      ∀ (bc : Int → BCond K), FieldCornersOk 2 nodeid epart n (build2 sqrt trunc 1 serial) bc →
        ∀ (direct : (Nat → Nat → K) → (Nat → K) → Nat → K), ReadsRows n direct →
        ∀ (svL svG : LinSolve.Solver), LinSolve.InPlace svL → LinSolve.InPlace svG → ∀ (r : Nat → K) (s t : LinSolve.St K),
          SolvedWith (linEnv WL bc svL direct) (linBnd WL bc svL) r s → SolvedWith (linEnv WG bc svG direct) (linBnd WG bc svG) r t →
          ∀ V U : Nat → Vari K, (∀ p, (V p).cell = s.cells p) → (U 0).cell = t.cells 0 →
          ∃ V' nL fL U' nG fG, solGradient WL bc V = some (V', nL, fL) ∧ solGradient WG bc U = some (U', nG, fG) ∧
            (∀ k < 3, FacesAgree SIZE data (fun p => build2 sqrt trunc SIZE (data p)) (build2 sqrt trunc 1 serial)
              (fun p f => fL p f k) (fun F => fG 0 F k)) := by
  have np := h.nodePair2 vm sqrt trunc htr
  obtain ⟨hgL, hgG, w1, w2, sL, sG⟩ := np.worlds
  refine ⟨_, _, w1, w2, fun bc hbc direct hdir svL svG _ _ r s t hs ht V U hV hU => ?_⟩
  have hm := np.lin_solve (by omega) star bc sL sG direct hdir svL svG r s t hs ht
  have hm' : CellsAgree SIZE data (fun p => (V p).cell) (U 0).cell := by
    rw [hU, show (fun p => (V p).cell) = s.cells from funext hV]; exact hm
  obtain ⟨V', nL, fL, U', nG, fG, e1, e2, _, _, _, hf⟩ := solGradient_match np (by omega) sL sG bc star hbc V U ((np.cellsAgree _ _).mp hm')
  exact ⟨V', nL, fL, U', nG, fG, e1, e2, fun k hk => np.facesAgree _ _ fun p hp c hc j hj => hf p hp c hc j hj k hk⟩

/-- C99 (3D, with C98): solving the system in parallel and serially with the same source, with MUMPS or PETSc on either
side (solvers that fill the array the boundary conditions read, cf. C32) and whatever the history, and then computing the field gives every face of every rank the field of the serial run. -/
theorem C99_solve_field_3d_partial (h : Launched 4 nodeid node (centvol3 node nodeid) npart0 epart nbnodes n SIZE data serial)
    (vm : ValidMesh3 nodeid node nbnodes n) (sqrt : K → K) (trunc : K → Int) (htr : ∀ m : Nat, trunc (m : K) = m)
    (star : StarConnected 3 nodeid n) :
    ∃ WL WG, mkWorld 3 SIZE data (fun p => build3 sqrt trunc SIZE (data p)) = some WL ∧
      mkWorld 3 1 (fun _ => serial) (fun _ => build3 sqrt trunc 1 serial) = some WG ∧
      ∀ (bc : Int → BCond K), FieldCornersOk 3 nodeid epart n (build3 sqrt trunc 1 serial) bc →
        ∀ (direct : (Nat → Nat → K) → (Nat → K) → Nat → K), ReadsRows n direct →
        ∀ (svL svG : LinSolve.Solver), LinSolve.InPlace svL → LinSolve.InPlace svG → ∀ (r : Nat → K) (s t : LinSolve.St K),
          SolvedWith (linEnv WL bc svL direct) (linBnd WL bc svL) r s → SolvedWith (linEnv WG bc svG direct) (linBnd WG bc svG) r t →
          ∀ V U : Nat → Vari K, (∀ p, (V p).cell = s.cells p) → (U 0).cell = t.cells 0 →
          ∃ V' nL fL U' nG fG, solGradient WL bc V = some (V', nL, fL) ∧ solGradient WG bc U = some (U', nG, fG) ∧
            (∀ k < 3, FacesAgree SIZE data (fun p => build3 sqrt trunc SIZE (data p)) (build3 sqrt trunc 1 serial)
              (fun p f => fL p f k) (fun F => fG 0 F k)) := by
  have np := h.nodePair3 vm sqrt trunc htr
  obtain ⟨hgL, hgG, w1, w2, sL, sG⟩ := np.worlds
  refine ⟨_, _, w1, w2, fun bc hbc direct hdir svL svG _ _ r s t hs ht V U hV hU => ?_⟩
  have hm := np.lin_solve (fun _ => ⟨wedge_build3 sqrt trunc 1 serial, fun p hp => wedge_build3 sqrt trunc SIZE (data p)⟩) star bc sL sG direct hdir svL svG r s t hs ht
  have hm' : CellsAgree SIZE data (fun p => (V p).cell) (U 0).cell := by
    rw [hU, show (fun p => (V p).cell) = s.cells from funext hV]; exact hm
  obtain ⟨V', nL, fL, U', nG, fG, e1, e2, _, _, _, hf⟩ := solGradient_match np (fun _ => ⟨wedge_build3 sqrt trunc 1 serial, fun p hp => wedge_build3 sqrt trunc SIZE (data p)⟩) sL sG bc star hbc V U ((np.cellsAgree _ _).mp hm')
  exact ⟨V', nL, fL, U', nG, fG, e1, e2, fun k hk => np.facesAgree _ _ fun p hp c hc j hj => hf p hp c hc j hj k hk⟩

end

/-- C99, special case: when all locations are Dirichlet nothing is required at the corners. -/
theorem NodePair.dirichlet_corners {dim : Nat} {nodeid : Nat → Nat → Nat} {node : Nat → K × K × K × Nat} {cv : Nat → List K} {npart0 epart : Nat → Nat}
    {nbnodes n SIZE : Nat} {data : Nat → RankData K} {serial : RankData K} {L : Nat → Tables K} {G : Tables K} {B : List Int}
    {out : Nat → Nat → Vec K} {trunc : K → Int} (h : NodePair dim nodeid node cv npart0 epart nbnodes n SIZE data serial L G B out trunc)
    (v : Int → K → K → K → K) : FieldCornersOk dim nodeid epart n G (fun b => BCond.dirichlet (v b)) :=
  fun F hF s hs _ => Or.inl ⟨h.run.hB _ (h.labelG F hF s hs), rfl⟩

/-- C99: with Dirichlet conditions on the whole boundary (any values) the corner condition of `C99_field_2d_partial` and
`C99_solve_field_2d_partial` holds. -/
theorem C99_dirichlet_corners_2d {nodeid : Nat → Nat → Nat} {node : Nat → K × K × K × Nat} {npart0 epart : Nat → Nat}
    {nbnodes n SIZE : Nat} {data : Nat → RankData K} {serial : RankData K}
    (h : Launched 3 nodeid node (centvol2 node nodeid) npart0 epart nbnodes n SIZE data serial)
    (vm : ValidMesh2 nodeid node nbnodes n) (sqrt : K → K) (trunc : K → Int) (htr : ∀ m : Nat, trunc (m : K) = m) (v : Int → K → K → K → K) :
    FieldCornersOk 2 nodeid epart n (build2 sqrt trunc 1 serial) (fun b => BCond.dirichlet (v b)) :=
  (h.nodePair2 vm sqrt trunc htr).dirichlet_corners v

/-- C99 (3D). -/
theorem C99_dirichlet_corners_3d {nodeid : Nat → Nat → Nat} {node : Nat → K × K × K × Nat} {npart0 epart : Nat → Nat}
    {nbnodes n SIZE : Nat} {data : Nat → RankData K} {serial : RankData K}
    (h : Launched 4 nodeid node (centvol3 node nodeid) npart0 epart nbnodes n SIZE data serial)
    (vm : ValidMesh3 nodeid node nbnodes n) (sqrt : K → K) (trunc : K → Int) (htr : ∀ m : Nat, trunc (m : K) = m) (v : Int → K → K → K → K) :
    FieldCornersOk 3 nodeid epart n (build3 sqrt trunc 1 serial) (fun b => BCond.dirichlet (v b)) :=
  (h.nodePair3 vm sqrt trunc htr).dirichlet_corners v

/-! ### meshes meeting the hypotheses -/
theorem neumann_field_corners {dim n : Nat} {nodeid : Nat → Nat → Nat} {epart : Nat → Nat} (G : Tables ℚ) :
    FieldCornersOk dim nodeid epart n G (fun _ => BCond.neumann) := fun _ _ _ _ _ => Or.inr rfl

example := C99_field_2d_partial stripLaunched stripValid (fun x => x) Rat.floor floor_nat (run_star 2 4)
example : FieldCornersOk 2 exStrip exE 4 (build2 (fun x => x) Rat.floor 1 stripSerial) (fun _ => BCond.neumann) := neumann_field_corners _
example := C99_dirichlet_corners_2d stripLaunched stripValid (fun x => x) Rat.floor floor_nat (fun b x y _ => b * x + y)
example := C99_dirichlet_corners_3d chainLaunched chainValid (fun x => x) Rat.floor floor_nat (fun b x y z => b * x + y - z)
example := C99_solve_field_2d_partial stripLaunched stripValid (fun x => x) Rat.floor floor_nat (run_star 2 4)
example := C99_field_3d_partial chainLaunched chainValid (fun x => x) Rat.floor floor_nat (run_star 3 3)
example := C99_solve_field_3d_partial chainLaunched chainValid (fun x => x) Rat.floor floor_nat (run_star 3 3)

end Verif.Props.Par
