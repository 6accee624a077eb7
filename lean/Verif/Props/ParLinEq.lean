import Verif.Props.ParLin
import Verif.Props.ParFlow

/-! Helper lemmas for the parallel theorems: the rows of the linear system, on a rank and in the serial run. -/
set_option linter.unusedSectionVars false
set_option linter.unusedVariables false
set_option linter.unusedSimpArgs false
namespace Verif.Props.Par
open Verif.Fvm Verif.Spec Verif.Conn Verif.Dom Verif.Geo Verif.Names Verif.MeshFile Verif.Part Verif.Comm Verif.Run Verif.HaloGhost Verif.Interp Verif.Props.HG
variable {K : Type*} [Field K] [LinearOrder K] [IsStrictOrderedRing K]

/-! ### boundary data -/

/-- The value of `Pbordnode` at a node of a location. -/
def pnVal (D : Tables K) (i : Nat) (old : K) : BCond K → K
  | .dirichlet v => v (D.vertex i 0) (D.vertex i 1) (D.vertex i 2)
  | .neumann => 1
  | .nonslip => old

theorem pbordNode_apply (dim : Nat) (D : Tables K) (bc : Int → BCond K) {i : Nat} (hi : i < D.nbnodes) :
    pbordNode dim D bc i = if D.oldname i ∈ locNames dim then pnVal D i 0 (bc (D.oldname i)) else 0 := by
  unfold pbordNode
  have key : ∀ (locs : List Int) (a : Nat → K), (locs.foldl (fun a loc =>
      match bc loc with
      | .dirichlet v => ((List.range D.nbnodes).filter (fun i => D.oldname i = loc)).foldl (fun a i => setAt a i (v (D.vertex i 0) (D.vertex i 1) (D.vertex i 2))) a
      | .neumann => ((List.range D.nbnodes).filter (fun i => D.oldname i = loc)).foldl (fun a i => setAt a i 1) a
      | .nonslip => a) a) i = if D.oldname i ∈ locs then pnVal D i (a i) (bc (D.oldname i)) else a i := by
    intro locs
    induction locs with
    | nil => intro a; simp
    | cons l ls ih =>
      intro a
      rw [List.foldl_cons, ih]
      have hm : i ∈ (List.range D.nbnodes).filter (fun i => D.oldname i = l) ↔ D.oldname i = l := by simp [hi]
      cases hb : bc l with
      | dirichlet v =>
        dsimp only
        rw [Var.foldl_setAt_val (fun i => v (D.vertex i 0) (D.vertex i 1) (D.vertex i 2))]
        simp only [hm, List.mem_cons]
        by_cases e : D.oldname i = l
        · subst e; simp [hb, pnVal]
        · simp [e]
      | neumann =>
        dsimp only
        rw [Var.foldl_setAt_val (fun i => 1)]
        simp only [hm, List.mem_cons]
        by_cases e : D.oldname i = l
        · subst e; simp [hb, pnVal]
        · simp [e]
      | nonslip =>
        dsimp only
        simp only [List.mem_cons]
        by_cases e : D.oldname i = l
        · subst e; simp [hb, pnVal]
        · simp [e]
  exact key _ _

theorem pbordFace_apply (dim : Nat) (D : Tables K) (bc : Int → BCond K) {f : Nat} (hf : f < D.nbfaces) (hl : D.name f ∈ locNames dim)
    {v : K → K → K → K} (hb : bc (D.name f) = .dirichlet v) : pbordFace dim D bc f = v (D.fcenter f 0) (D.fcenter f 1) (D.fcenter f 2) := by
  unfold pbordFace
  have key : ∀ (locs : List Int) (a : Nat → K), (locs.foldl (fun a loc =>
      match bc loc with
      | .dirichlet v => (Var.facesNamed D.name D.nbfaces loc).foldl (fun a f => setAt a f (v (D.fcenter f 0) (D.fcenter f 1) (D.fcenter f 2))) a
      | _ => a) a) f = if D.name f ∈ locs then v (D.fcenter f 0) (D.fcenter f 1) (D.fcenter f 2) else a f := by
    intro locs
    induction locs with
    | nil => intro a; simp
    | cons l ls ih =>
      intro a
      rw [List.foldl_cons, ih]
      have hm : f ∈ Var.facesNamed D.name D.nbfaces l ↔ D.name f = l := by simp [Var.facesNamed, hf]
      cases hb' : bc l with
      | dirichlet u =>
        dsimp only
        rw [Var.foldl_setAt_val (fun f => u (D.fcenter f 0) (D.fcenter f 1) (D.fcenter f 2))]
        simp only [hm, List.mem_cons]
        by_cases e : D.name f = l
        · subst e
          rw [hb] at hb'; injection hb' with hb'; subst hb'
          simp
        · simp [e]
      | neumann =>
        dsimp only
        simp only [List.mem_cons]
        by_cases e : D.name f = l
        · subst e; rw [hb] at hb'; exact absurd hb' (by simp)
        · simp [e]
      | nonslip =>
        dsimp only
        simp only [List.mem_cons]
        by_cases e : D.name f = l
        · subst e; rw [hb] at hb'; exact absurd hb' (by simp)
        · simp [e]
  refine (key _ _).trans ?_
  rw [if_pos hl]

section
variable {dim : Nat} {nodeid : Nat → Nat → Nat} {node : Nat → K × K × K × Nat} {cv : Nat → List K} {npart0 epart : Nat → Nat}
  {nbnodes n SIZE : Nat} {data : Nat → RankData K} {serial : RankData K} {L : Nat → Tables K} {G : Tables K} {B : List Int}
  {out : Nat → Nat → Vec K} {trunc : K → Int}

theorem NodePair.fnodeL_lt (h : NodePair dim nodeid node cv npart0 epart nbnodes n SIZE data serial L G B out trunc) {p : Nat} (hp : p < SIZE)
    {f : Nat} (hf : f < (L p).nbfaces) : ∀ i ∈ (L p).fnode f, i < (L p).nbnodes := by
  intro i hi
  obtain ⟨c, hc, j, hj, rfl⟩ := (h.run.rank p hp).cL.fsurj f hf
  obtain ⟨x, hx, rfl⟩ := h.fnodeL p hp c hc j hj i hi
  rw [h.nbL p hp]; exact h.hl.node_lt hp (by rw [← h.nL hp]; exact hc) hx

theorem NodePair.linOkL (h : NodePair dim nodeid node cv npart0 epart nbnodes n SIZE data serial L G B out trunc)
    (hw : dim = 3 → WedgeOk G ∧ ∀ p < SIZE, WedgeOk (L p)) {p : Nat} (hp : p < SIZE) {hg : HGResult K} {rows : Nat → List (GRow K)}
    (s : HGSpec dim SIZE data L p hg rows) : LinOk dim SIZE (data p) (L p) hg B := by
  have R := h.run.rank p hp
  have hS := h.run.hS
  refine ⟨h.run.hd, R.cL, h.hBe, ?_, fun f hf => (h.fnodeL_ok hp hf).2, fun f hf => h.fnodeL_lt hp hf, s.own, ?_, ?_, fun e => (hw e).2 p hp⟩
  · intro f hf
    obtain ⟨c, hc, j, hj, rfl⟩ := R.cL.fsurj f hf
    rcases R.kinds hc hj with ⟨_, _, hB, _⟩ | ⟨_, _, _, hLn, _⟩ | ⟨_, _, _, _, hLn, _⟩
    · exact Or.inr (Or.inr hB)
    · exact Or.inl hLn
    · exact Or.inr (Or.inl hLn)
  · intro i hi r hr hl
    by_cases hm : i ∈ halonodes (L p)
    · refine ⟨⟨hS, ((mem_halonodes _ _).mp hm).2⟩, ?_⟩
      intro whalo g0
      obtain ⟨m, e, _⟩ := s.halo i hm
      rw [e] at hr
      rcases List.mem_append.mp hr with hr | hr
      · obtain ⟨e', he', d1, d2, d3, k, d4, d5, d6⟩ := forall2_left (s.desc i hm) hr
        obtain ⟨hq, _, j', hj', _, _, hb⟩ := (mem_remPairs p _ e').mp he'
        have hB := (((h.run.rank e'.1 hq).cL.bnd.2 _).mp ((mem_bf _ _ _).mp hb).2.1).2
        rw [s.update whalo _ g0 hm hr (by rw [d2]; exact h.run.hB _ hB)]
        rfl
      · rw [(List.mem_replicate.mp hr).2] at hl
        exact absurd rfl hl
    · obtain ⟨m, e⟩ := s.other i hi hm
      rw [e] at hr
      rw [(List.mem_replicate.mp hr).2] at hl
      exact absurd rfl hl
  · intro a ha b hb e
    simp only [linMesh, show ¬ SIZE = 1 by omega, if_false] at e
    exact R.sub.inj ha hb e

theorem NodePair.linOkG (h : NodePair dim nodeid node cv npart0 epart nbnodes n SIZE data serial L G B out trunc)
    (hw : dim = 3 → WedgeOk G ∧ ∀ p < SIZE, WedgeOk (L p)) {hgG : HGResult K} (sG : HGSerial dim G nbnodes hgG) : LinOk dim 1 serial G hgG B := by
  have h0 : 0 < SIZE := by have := h.run.hS; omega
  have R := h.run.rank 0 h0
  refine ⟨h.run.hd, R.cG, h.hBe, ?_, fun f hf => (h.fnodeG_ok hf).2, ?_, ?_, ?_, ?_, fun e => (hw e).1⟩
  · intro f hf
    obtain ⟨c, hc, j, hj, rfl⟩ := R.cG.fsurj f hf
    rcases R.gkinds hc hj with ⟨hB, _⟩ | ⟨_, _, _, hn, _⟩
    · exact Or.inr (Or.inr hB)
    · exact Or.inl hn
  · intro f hf i hi
    obtain ⟨C, hC, j, hj, rfl⟩ := R.cG.fsurj f hf
    rw [h.run.nG] at hC
    obtain ⟨x, hx, rfl⟩ := (h.fnodeG C hC j hj).2.2 i hi
    rw [h.nbG]; exact h.hl.hnode C hC x hx
  · intro i hi; exact sG.own i (by rw [← h.nbG]; exact hi)
  · intro i hi r hr hl
    obtain ⟨m, e⟩ := sG.other i (by rw [← h.nbG]; exact hi)
    rw [e] at hr
    rw [(List.mem_replicate.mp hr).2] at hl
    exact absurd rfl hl
  · intro a _ b _ e
    simpa [linMesh] using e

theorem NodePair.linVals (h : NodePair dim nodeid node cv npart0 epart nbnodes n SIZE data serial L G B out trunc) (P : Nat → K) {p : Nat} (hp : p < SIZE)
    (hg hgG : HGResult K) : ValuesOk dim SIZE data L G (linW dim 1 serial G hgG P).c (fun _ => .neumann) p hg (linW dim SIZE (data p) (L p) hg P) ∧
      ValuesG dim G (fun _ => .neumann) (linW dim 1 serial G hgG P) := by
  have hS := h.run.hS
  refine ⟨⟨?_, ?_, ⟨_, rfl⟩, ⟨_, rfl⟩⟩, ⟨_, rfl⟩⟩
  · intro c hc
    simp [linW, linMesh, show ¬ SIZE = 1 by omega, phi]
  · intro k hk
    simp [linW, linMesh, ext0]

theorem NodePair.pbordNode_eq (h : NodePair dim nodeid node cv npart0 epart nbnodes n SIZE data serial L G B out trunc) (bc : Int → BCond K) {p : Nat} (hp : p < SIZE)
    {i : Nat} (hi : i < (L p).nbnodes) : pbordNode dim (L p) bc i = pbordNode dim G bc (gOf (data p) i) := by
  have hg : gOf (data p) i < G.nbnodes := by
    obtain ⟨c, hc, j, hj, e1, e2⟩ := h.hl.node_used hp (by rw [← h.nbL p hp]; exact hi)
    rw [h.nbG, ← e2]
    exact h.hl.hnode _ (h.hl.phi_lt hp hc).1 j hj
  rw [pbordNode_apply _ _ _ hi, pbordNode_apply _ _ _ hg, ← h.oldname_eq hp hi]
  have hv : ∀ k < 4, (L p).vertex i k = G.vertex (gOf (data p) i) k := by
    intro k hk
    rw [h.vertexL p hp, h.vertexG]
    exact h.hl.vertex_eq hp (by rw [← h.nbL p hp]; exact hi) k hk
  cases bc ((L p).oldname i) <;> simp only [pnVal, hv 0 (by omega), hv 1 (by omega), hv 2 (by omega)]

/-- The gradient on the diamond of a face of a rank is that of the serial face. -/
theorem NodePair.gradD_eq (h : NodePair dim nodeid node cv npart0 epart nbnodes n SIZE data serial L G B out trunc)
    {p : Nat} (hp : p < SIZE) (nL nG : Nat → K) {c : Nat} (hc : c < (L p).nbcells) {j : Nat} (hj : j < dim + 1)
    (hN : ∀ i < (L p).nbnodes, nL i = nG (gOf (data p) i)) (l r : Vec K × K) :
    gradD dim (L p) nL ((L p).faceid c j) l r = gradD dim G nG (G.faceid (phi (data p) c) j) l r := by
  have R := h.run.rank p hp
  have hC := (R.sub.lt c hc).1
  have hf := R.cL.flt c hc j hj
  have hlen := (h.fnodeG_ok (R.cG.flt (phi (data p) c) hC j hj)).2
  have sf := h.sameFace p hp c hc j hj
  have hlenL := (h.fnodeL_ok hp hf).2
  have pt : ∀ i ∈ (L p).fnode ((L p).faceid c j), cut dim ((L p).vertex i, nL i) = cut dim (G.vertex (gOf (data p) i), nG (gOf (data p) i)) := by
    intro i hi
    have hlt := h.fnodeL_lt hp hf i hi
    refine cut_eq (fun k hk => ?_) (hN _ hlt)
    rw [h.vertexL p hp, h.vertexG]
    exact h.hl.vertex_eq hp (by rw [← h.nbL p hp]; exact hlt) k (by have := h.run.hd; omega)
  unfold gradD
  rcases h.run.hd with rfl | rfl
  · rw [if_pos rfl, if_pos rfl]
    have eL := list2 _ hlenL
    have eG := list2 _ hlen
    have p0 := pt ((L p).fnode ((L p).faceid c j) |>.getD 0 0) (by rw [eL]; simp)
    have p1 := pt ((L p).fnode ((L p).faceid c j) |>.getD 1 0) (by rw [eL]; simp)
    have hpm : [gOf (data p) ((L p).fnode ((L p).faceid c j) |>.getD 0 0), gOf (data p) ((L p).fnode ((L p).faceid c j) |>.getD 1 0)].Perm
        [(G.fnode (G.faceid (phi (data p) c) j)).getD 0 0, (G.fnode (G.faceid (phi (data p) c) j)).getD 1 0] := by
      rw [← eG]
      refine List.Perm.trans (List.Perm.of_eq ?_) sf
      conv_rhs => rw [eL]
      rfl
    unfold nodePt
    rw [p0, p1]
    rcases perm_two hpm with e | e
    · rw [e.1, e.2]
    · rw [e.1, e.2, gradPts2_swap]
  · rw [if_neg (by decide), if_neg (by decide)]
    have eL := list3 _ hlenL
    have eG := list3 _ hlen
    have p0 := pt ((L p).fnode ((L p).faceid c j) |>.getD 0 0) (by rw [eL]; simp)
    have p1 := pt ((L p).fnode ((L p).faceid c j) |>.getD 1 0) (by rw [eL]; simp)
    have p2 := pt ((L p).fnode ((L p).faceid c j) |>.getD 2 0) (by rw [eL]; simp)
    have hpm : [gOf (data p) ((L p).fnode ((L p).faceid c j) |>.getD 0 0), gOf (data p) ((L p).fnode ((L p).faceid c j) |>.getD 1 0),
        gOf (data p) ((L p).fnode ((L p).faceid c j) |>.getD 2 0)].Perm
        [(G.fnode (G.faceid (phi (data p) c) j)).getD 0 0, (G.fnode (G.faceid (phi (data p) c) j)).getD 1 0,
          (G.fnode (G.faceid (phi (data p) c) j)).getD 2 0] := by
      rw [← eG]
      refine List.Perm.trans (List.Perm.of_eq ?_) sf
      conv_rhs => rw [eL]
      rfl
    unfold nodePt
    rw [p0, p1, p2]
    rcases perm3 hpm with e | e | e | e | e | e <;> obtain ⟨e0, e1, e2⟩ := e <;> rw [e0, e1, e2]
    all_goals first
      | rfl
      | exact gradPts3_swap _ _ _ _ _
      | exact gradPts3_cycle _ _ _ _ _
      | exact (gradPts3_cycle _ _ _ _ _).symm
      | exact (gradPts3_cycle _ _ _ _ _).trans (gradPts3_swap _ _ _ _ _)
      | exact (gradPts3_cycle _ _ _ _ _).trans (gradPts3_cycle _ _ _ _ _)
      | exact (gradPts3_swap _ _ _ _ _).trans (gradPts3_cycle _ _ _ _ _)

theorem isDirichlet_iff (b : BCond K) : b.isDirichlet = true ↔ ∃ v, b = .dirichlet v := by
  cases b <;> simp [BCond.isDirichlet]

theorem NodePair.linGrad_eq (h : NodePair dim nodeid node cv npart0 epart nbnodes n SIZE data serial L G B out trunc)
    (star : StarConnected dim nodeid n) (bc : Int → BCond K) {p : Nat} (hp : p < SIZE) {hg : HGResult K} {rows : Nat → List (GRow K)}
    (s : HGSpec dim SIZE data L p hg rows) {hgG : HGResult K} (sG : HGSerial dim G nbnodes hgG) (P : Nat → K)
    {c : Nat} (hc : c < (L p).nbcells) {j : Nat} (hj : j < dim + 1) :
    linGrad dim SIZE (data p) (L p) hg bc (linW dim SIZE (data p) (L p) hg P) ((L p).faceid c j) =
      linGrad dim 1 serial G hgG bc (linW dim 1 serial G hgG P) (G.faceid (phi (data p) c) j) := by
  have R := h.run.rank p hp
  have hC := (R.sub.lt c hc).1
  obtain ⟨vL, vG⟩ := h.linVals P hp hg hgG
  have hvert : ∀ i < (L p).nbnodes, vertD dim SIZE (data p) (L p) hg bc (linW dim SIZE (data p) (L p) hg P) i =
      vertD dim 1 serial G hgG bc (linW dim 1 serial G hgG P) (gOf (data p) i) := by
    intro i hi
    unfold vertD
    rw [← h.oldname_eq hp hi, h.pbordNode_eq bc hp hi, nodeValue_match h (fun _ => .neumann) ⟨star, fun _ _ _ _ _ => by simp [CornerOk]⟩ hp s sG vL vG hi]
  have ac := h.across (fun _ => .neumann) hp vL vG hc hj
  have inner : gradD dim (L p) (vertD dim SIZE (data p) (L p) hg bc (linW dim SIZE (data p) (L p) hg P)) ((L p).faceid c j)
        (sideL dim (L p) (linW dim SIZE (data p) (L p) hg P) ((L p).faceid c j)) (sideR dim (L p) (linW dim SIZE (data p) (L p) hg P) ((L p).faceid c j)) =
      gradD dim G (vertD dim 1 serial G hgG bc (linW dim 1 serial G hgG P)) (G.faceid (phi (data p) c) j)
        (sideL dim G (linW dim 1 serial G hgG P) (G.faceid (phi (data p) c) j)) (sideR dim G (linW dim 1 serial G hgG P) (G.faceid (phi (data p) c) j)) := by
    rw [h.gradD_eq hp _ _ hc hj hvert]
    rcases ac with ⟨a1, a2⟩ | ⟨a1, a2⟩
    · rw [a1, a2]
    · rw [a1, a2, gradD_sides]
  unfold linGrad
  rcases R.kinds hc hj with ⟨hbL, hbG, hB, hnm, l0, g0⟩ | ⟨e, he, hne, hLn, hGn, hk⟩ | ⟨E, hE, row, hm, hLn, hGn, hrow, hhead, l0, hk⟩
  · have n0 : (L p).name ((L p).faceid c j) ≠ 0 := fun x => R.cL.B0 (x ▸ hB)
    have n10 : (L p).name ((L p).faceid c j) ≠ 10 := fun x => R.cL.B10 (x ▸ hB)
    have nn : ¬ ((L p).name ((L p).faceid c j) = 0 ∨ (L p).name ((L p).faceid c j) = 10) := fun x => x.elim n0 n10
    rw [hnm, if_neg nn, if_neg nn]
    by_cases hd : (bc ((L p).name ((L p).faceid c j))).isDirichlet = true
    · rw [if_pos hd, if_pos hd]
      obtain ⟨v, hv⟩ := (isDirichlet_iff _).mp hd
      rw [h.gradD_eq hp _ (pbordNode dim G bc) hc hj (fun i hi => h.pbordNode_eq bc hp hi)]
      have hl := h.run.hB _ hB
      rw [pbordFace_apply _ _ _ (R.cL.flt c hc j hj) hl hv, pbordFace_apply _ _ _ (R.cG.flt _ hC j hj) (by rw [hnm]; exact hl) (by rw [hnm]; exact hv)]
      have hcell : (linW dim SIZE (data p) (L p) hg P).c c = (linW dim 1 serial G hgG P).c (phi (data p) c) := vL.cell c hc
      have e1 : sideL dim (L p) (linW dim SIZE (data p) (L p) hg P) ((L p).faceid c j) = sideL dim G (linW dim 1 serial G hgG P) (G.faceid (phi (data p) c) j) := by
        unfold sideL
        rw [l0, g0, idx_cast, idx_cast]
        exact cut_eq (fun k hk => R.center c hc k (by have := h.run.hd; omega)) hcell
      have e2 : otherPt dim (L p) ((L p).faceid c j) = otherPt dim G (G.faceid (phi (data p) c) j) := by
        unfold otherPt
        rw [hnm, if_neg n0, if_neg n10, if_neg n0, if_neg n10, h.ghostPt p hp c hc j hj hbL]
      rw [e1, e2, l0, g0, idx_cast, idx_cast, hcell]
      simp only [R.fcenter c hc j hj 0 (by omega), R.fcenter c hc j hj 1 (by omega), R.fcenter c hc j hj 2 (by omega)]
    · rw [if_neg hd, if_neg hd]
  · rw [hLn, hGn, if_pos (Or.inl rfl), if_pos (Or.inl rfl)]; exact inner
  · rw [hLn, hGn, if_pos (Or.inr rfl), if_pos (Or.inl rfl)]; exact inner

/-- The balance of a cell on its rank is its balance in the serial run. -/
theorem NodePair.balanceD_eq (h : NodePair dim nodeid node cv npart0 epart nbnodes n SIZE data serial L G B out trunc)
    (hw : dim = 3 → WedgeOk G ∧ ∀ p < SIZE, WedgeOk (L p))
    (star : StarConnected dim nodeid n) (bc : Int → BCond K) {p : Nat} (hp : p < SIZE) {hg : HGResult K} {rows : Nat → List (GRow K)}
    (s : HGSpec dim SIZE data L p hg rows) {hgG : HGResult K} (sG : HGSerial dim G nbnodes hgG) (P : Nat → K)
    {c : Nat} (hc : c < (L p).nbcells) :
    balanceD dim (linMesh dim SIZE (data p) (L p) hg) (linW dim SIZE (data p) (L p) hg P) (bcDirichlet dim bc) (linLists dim (L p) bc)
        (pbordNode dim (L p) bc) (pbordFace dim (L p) bc) c =
      balanceD dim (linMesh dim 1 serial G hgG) (linW dim 1 serial G hgG P) (bcDirichlet dim bc) (linLists dim G bc)
        (pbordNode dim G bc) (pbordFace dim G bc) (phi (data p) c) := by
  rw [(h.linOkL hw hp s).balance_dissip bc _ hc, (h.linOkG hw sG).balance_dissip bc _ ((h.run.rank p hp).sub.lt c hc).1, h.run.volume p hp c hc]
  congr 1
  exact h.dissip_eq unitD hp _ _ (fun c hc j hj k _ => by rw [h.linGrad_eq star bc hp s sG P hc hj]) hc

end

/-! ### rows -/
section
variable {dim size : Nat} {d : RankData K} {D : Tables K} {hg : HGResult K} {B : List Int}

/-- The triplets of one process. -/
def tripletsD (dim size : Nat) (d : RankData K) (D : Tables K) (hg : HGResult K) (bc : Int → BCond K) : List (LinSys.Triplet K) :=
  if dim = 2 then LinSys.getTriplet2 (linMesh dim size d D hg) (bcDirichlet dim bc) (linLists dim D bc)
  else (LinSys.getTriplet3 (linMesh dim size d D hg) (bcDirichlet dim bc) (linLists dim D bc)).out

/-- The global right-hand side of one process. -/
def rhsD (dim size : Nat) (d : RankData K) (D : Tables K) (hg : HGResult K) (bc : Int → BCond K) : Nat → K :=
  if dim = 2 then LinSys.getRhsGlob2 (linMesh dim size d D hg) (bcDirichlet dim bc) (linLists dim D bc) (pbordNode dim D bc) (pbordFace dim D bc) (fun _ => 0)
  else LinSys.getRhsGlob3 (linMesh dim size d D hg) (bcDirichlet dim bc) (linLists dim D bc) (pbordNode dim D bc) (pbordFace dim D bc) (fun _ => 0)

/-- The local right-hand side of one process. -/
def rhsLocD (dim size : Nat) (d : RankData K) (D : Tables K) (hg : HGResult K) (bc : Int → BCond K) : Nat → K :=
  if dim = 2 then LinSys.getRhsLoc2 (linMesh dim size d D hg) (bcDirichlet dim bc) (linLists dim D bc) (pbordNode dim D bc) (pbordFace dim D bc) (fun _ => 0)
  else LinSys.getRhsLoc3 (linMesh dim size d D hg) (bcDirichlet dim bc) (linLists dim D bc) (pbordNode dim D bc) (pbordFace dim D bc) (fun _ => 0)

theorem LinOk.row (h : LinOk dim size d D hg B) (bc : Int → BCond K) (P : Nat → K) {c : Nat} (hc : c < D.nbcells) :
    LinSys.applyT (tripletsD dim size d D hg bc) P ((linMesh dim size d D hg).loctoglob c) - rhsD dim size d D hg bc ((linMesh dim size d D hg).loctoglob c) =
      balanceD dim (linMesh dim size d D hg) (linW dim size d D hg P) (bcDirichlet dim bc) (linLists dim D bc) (pbordNode dim D bc) (pbordFace dim D bc) c := by
  have hok := h.ok bc
  have hf := h.fieldsOf P
  unfold tripletsD rhsD balanceD
  rcases h.hd with rfl | rfl
  · rw [if_pos rfl, if_pos rfl, if_pos rfl]
    exact LinSys.C48_balance_2d _ _ _ _ _ P _ _ hok hf c hc
  · rw [if_neg (by decide), if_neg (by decide), if_neg (by decide)]
    exact LinSys.C48_balance_3d_partial _ _ _ _ _ P _ _ hok (fun _ _ _ _ => rfl) hf c hc

theorem LinOk.no_row (h : LinOk dim size d D hg B) (bc : Int → BCond K) (P : Nat → K) (r : Nat) (hr : ∀ c < D.nbcells, (linMesh dim size d D hg).loctoglob c ≠ r) :
    LinSys.applyT (tripletsD dim size d D hg bc) P r = 0 ∧ rhsD dim size d D hg bc r = 0 := by
  have hok := h.ok bc
  have hf := h.fieldsOf P
  unfold tripletsD rhsD
  rcases h.hd with rfl | rfl
  · rw [if_pos rfl, if_pos rfl]
    refine ⟨LinSys.applyT_no_row _ _ _ ?_, LinSys.rhsGlob2_no_row _ _ _ _ _ _ _ hok.cell0 hok.cell1 hr⟩
    intro t ht e
    obtain ⟨⟨b, hb, h'⟩, _⟩ := LinSys.C46_rows_2d _ _ _ _ hok.cell0 hok.cell1 t ht
    exact hr b hb (h'.symm.trans e)
  · rw [if_neg (by decide), if_neg (by decide)]
    exact ⟨LinSys.triplet3_no_row _ _ _ P _ _ _ hok (fun _ _ _ _ => rfl) hf hr, LinSys.rhsGlob3_no_row _ _ _ _ _ _ _ hok.cell0 hok.cell1 hr⟩

theorem LinOk.rhsLoc (h : LinOk dim size d D hg B) (bc : Int → BCond K) {c : Nat} (hc : c < D.nbcells) :
    rhsLocD dim size d D hg bc c = rhsD dim size d D hg bc ((linMesh dim size d D hg).loctoglob c) := by
  have hok := h.ok bc
  unfold rhsLocD rhsD
  rcases h.hd with rfl | rfl
  · rw [if_pos rfl, if_pos rfl]
    exact (LinSys.C50_local_global_2d _ _ _ _ _ _ _ _ h.inj hok.cell0 hok.cell1 c hc rfl).symm
  · rw [if_neg (by decide), if_neg (by decide)]
    exact (LinSys.C50_local_global_3d _ _ _ _ _ _ _ _ h.inj hok.cell0 hok.cell1 c hc rfl).symm

end

theorem applyT_single (ts : List (LinSys.Triplet K)) (i j : Nat) : LinSys.applyT ts (fun k => if k = j then 1 else 0) i = LinSys.entryT ts i j := by
  unfold LinSys.applyT LinSys.entryT
  congr 1
  apply List.map_congr_left
  intro t _
  by_cases h1 : t.1 = i <;> by_cases h2 : t.2.1 = j <;> simp [h1, h2]

theorem applyT_zero (ts : List (LinSys.Triplet K)) (i : Nat) : LinSys.applyT ts (fun _ => 0) i = 0 := by
  unfold LinSys.applyT
  have : ts.map (fun t => if t.1 = i then t.2.2 * (0 : K) else 0) = ts.map (fun _ => 0) := List.map_congr_left fun t _ => by simp
  rw [this]; simp

section
variable {dim : Nat} {nodeid : Nat → Nat → Nat} {node : Nat → K × K × K × Nat} {cv : Nat → List K} {npart0 epart : Nat → Nat}
  {nbnodes n SIZE : Nat} {data : Nat → RankData K} {serial : RankData K} {L : Nat → Tables K} {G : Tables K} {B : List Int}
  {out : Nat → Nat → Vec K} {trunc : K → Int}

/-- The rows of a rank are the serial rows. -/
theorem NodePair.lin_row (h : NodePair dim nodeid node cv npart0 epart nbnodes n SIZE data serial L G B out trunc)
    (hw : dim = 3 → WedgeOk G ∧ ∀ p < SIZE, WedgeOk (L p))
    (star : StarConnected dim nodeid n) (bc : Int → BCond K) {p : Nat} (hp : p < SIZE) {hg : HGResult K} {rows : Nat → List (GRow K)}
    (s : HGSpec dim SIZE data L p hg rows) {hgG : HGResult K} (sG : HGSerial dim G nbnodes hgG) {c : Nat} (hc : c < (L p).nbcells) :
    rhsD dim SIZE (data p) (L p) hg bc (phi (data p) c) = rhsD dim 1 serial G hgG bc (phi (data p) c) ∧
      ∀ P, LinSys.applyT (tripletsD dim SIZE (data p) (L p) hg bc) P (phi (data p) c) =
        LinSys.applyT (tripletsD dim 1 serial G hgG bc) P (phi (data p) c) := by
  have hS := h.run.hS
  have oL := h.linOkL hw hp s
  have oG := h.linOkG hw sG
  have hC := ((h.run.rank p hp).sub.lt c hc).1
  have eL : (linMesh dim SIZE (data p) (L p) hg).loctoglob c = phi (data p) c := by simp [linMesh, show ¬ SIZE = 1 by omega, phi]
  have eG : (linMesh dim 1 serial G hgG).loctoglob (phi (data p) c) = phi (data p) c := by simp [linMesh]
  have key : ∀ P, LinSys.applyT (tripletsD dim SIZE (data p) (L p) hg bc) P (phi (data p) c) - rhsD dim SIZE (data p) (L p) hg bc (phi (data p) c) =
      LinSys.applyT (tripletsD dim 1 serial G hgG bc) P (phi (data p) c) - rhsD dim 1 serial G hgG bc (phi (data p) c) := by
    intro P
    have r1 := oL.row bc P hc
    have r2 := oG.row bc P hC
    rw [eL] at r1
    rw [eG] at r2
    rw [r1, r2]
    exact h.balanceD_eq hw star bc hp s sG P hc
  have k0 := key (fun _ => 0)
  rw [applyT_zero, applyT_zero, zero_sub, zero_sub, neg_inj] at k0
  refine ⟨k0, fun P => ?_⟩
  have := key P
  rw [k0] at this
  exact sub_left_inj.mp this

/-- Summed over the ranks. -/
theorem NodePair.lin_sum (h : NodePair dim nodeid node cv npart0 epart nbnodes n SIZE data serial L G B out trunc)
    (hw : dim = 3 → WedgeOk G ∧ ∀ p < SIZE, WedgeOk (L p)) (star : StarConnected dim nodeid n) (bc : Int → BCond K) {hgL : Nat → HGResult K}
    (sL : ∀ p < SIZE, ∃ rows, HGSpec dim SIZE data L p (hgL p) rows) {hgG : HGResult K} (sG : HGSerial dim G nbnodes hgG) (r : Nat) :
    ((List.range SIZE).map (fun p => rhsD dim SIZE (data p) (L p) (hgL p) bc r)).sum = rhsD dim 1 serial G hgG bc r ∧
      ∀ P, ((List.range SIZE).map (fun p => LinSys.applyT (tripletsD dim SIZE (data p) (L p) (hgL p) bc) P r)).sum =
        LinSys.applyT (tripletsD dim 1 serial G hgG bc) P r := by
  have hS := h.run.hS
  have oG := h.linOkG hw sG
  by_cases hr : r < n
  · have hp := h.run.he r hr
    obtain ⟨c, hc, e⟩ := h.hl.phi_surj hp r hr rfl
    rw [← h.nL hp] at hc
    obtain ⟨rows, s⟩ := sL _ hp
    obtain ⟨k1, k2⟩ := h.lin_row hw star bc hp s sG hc
    rw [e] at k1 k2
    have hno : ∀ q < SIZE, q ≠ epart r → ∀ c < (L q).nbcells, (linMesh dim SIZE (data q) (L q) (hgL q)).loctoglob c ≠ r := by
      intro q hq hne c' hc' e'
      simp only [linMesh, show ¬ SIZE = 1 by omega, if_false] at e'
      have := (h.hl.phi_lt hq (c := c') (by rw [← h.nL hq]; exact hc')).2
      unfold phi at this
      rw [e'] at this
      exact hne this.symm
    have hz : ∀ F : Nat → K, (∀ q < SIZE, q ≠ epart r → F q = 0) → ((List.range SIZE).map F).sum = F (epart r) := by
      intro F hF
      rw [List.sum_map_eq_nsmul_single (epart r) _ (fun q hne hq => hF q (List.mem_range.mp hq) hne),
        List.count_eq_one_of_mem List.nodup_range (List.mem_range.mpr hp), one_smul]
    have hnr : ∀ P, ∀ q < SIZE, q ≠ epart r → LinSys.applyT (tripletsD dim SIZE (data q) (L q) (hgL q) bc) P r = 0 ∧
        rhsD dim SIZE (data q) (L q) (hgL q) bc r = 0 := by
      intro P q hq hne
      obtain ⟨rows, s⟩ := sL q hq
      exact (h.linOkL hw hq s).no_row bc P r (hno q hq hne)
    refine ⟨?_, fun P => ?_⟩
    · rw [hz _ (fun q hq hne => (hnr (fun _ => 0) q hq hne).2)]; exact k1
    · rw [hz _ (fun q hq hne => (hnr P q hq hne).1)]; exact k2 P
  · have hG : ∀ P, LinSys.applyT (tripletsD dim 1 serial G hgG bc) P r = 0 ∧ rhsD dim 1 serial G hgG bc r = 0 := by
      intro P
      refine oG.no_row bc P r fun c hc e => hr ?_
      simp only [linMesh, if_true] at e
      rw [← e, ← h.run.nG]; exact hc
    have hL : ∀ P, ∀ q < SIZE, LinSys.applyT (tripletsD dim SIZE (data q) (L q) (hgL q) bc) P r = 0 ∧ rhsD dim SIZE (data q) (L q) (hgL q) bc r = 0 := by
      intro P q hq
      obtain ⟨rows, s⟩ := sL q hq
      refine (h.linOkL hw hq s).no_row bc P r fun c hc e => hr ?_
      simp only [linMesh, show ¬ SIZE = 1 by omega, if_false] at e
      rw [← e]
      exact (h.hl.phi_lt hq (c := c) (by rw [← h.nL hq]; exact hc)).1
    refine ⟨?_, fun P => ?_⟩
    · rw [(hG (fun _ => 0)).2]
      exact Verif.list_map_sum_zero _ _ fun q hq => (hL (fun _ => 0) q (List.mem_range.mp hq)).2
    · rw [(hG P).1]
      exact Verif.list_map_sum_zero _ _ fun q hq => (hL P q (List.mem_range.mp hq)).1

end
end Verif.Props.Par
