import Verif.Props.LinSys
import Verif.Props.Interp3

/-!
# C46-C50, C71 (3D): the matrix and the right-hand side
-/
set_option linter.unusedSectionVars false
set_option linter.unusedSimpArgs false
namespace Verif.LinSys
open Verif Verif.Geo Verif.Interp

variable {K : Type*} [Field K] [LinearOrder K] [IsStrictOrderedRing K]

/-- The mesh arrays are unchanged. -/
def Unch (M : Mesh K) (s : St3 K) : Prop := s.centerc = M.T.centerc ∧ s.centerh = M.T.centerh

/-- `s'` is `s` with `ts` appended to the output and unchanged mesh arrays. -/
def Emits (M : Mesh K) (s s' : St3 K) (ts : List (Triplet K)) : Prop := Unch M s' ∧ s'.out = s.out ++ ts

theorem Emits.trans {M : Mesh K} {s s' s'' : St3 K} {ts us : List (Triplet K)} (h : Emits M s s' ts) (h' : Emits M s' s'' us) :
    Emits M s s'' (ts ++ us) := ⟨h'.1, by rw [h'.2, h.2, List.append_assoc]⟩

theorem emits_foldl {ι : Type*} (M : Mesh K) (l : List ι) (step : St3 K → ι → St3 K) (T : ι → List (Triplet K))
    (h : ∀ s, Unch M s → ∀ i ∈ l, Emits M s (step s i) (T i)) (s : St3 K) (hs : Unch M s) : Emits M s (l.foldl step s) (l.flatMap T) := by
  induction l generalizing s with
  | nil => exact ⟨hs, by simp⟩
  | cons a l ih =>
    rw [List.foldl_cons, List.flatMap_cons]
    exact (h s hs a (by simp)).trans (ih (fun s hs i hi => h s hs i (by simp [hi])) _ (h s hs a (by simp)).1)

/-- Stencil points of a node in the order of the 3D kernel, without periodic neighbours. -/
def nodePts3 (M : Mesh K) (nod : Nat) : List (Vec K × Nat) :=
  (M.T.cellidn nod).map (fun c => (M.T.centerc c, M.loctoglob c)) ++ (M.T.haloidn nod).map (fun h => (M.T.centerh h, M.haloext h))
    ++ (rowPts M.loctoglob (M.ghostrows nod) ++ rowPts M.haloext (M.haloghostrows nod))

theorem cellHaloLoops3_emits (M : Mesh K) (emit : Vec K → Nat → List (Triplet K)) (nod : Nat) (s : St3 K) (hs : Unch M s) :
    Emits M s (cellHaloLoops3 M emit nod s) (((M.T.cellidn nod).map (fun c => (M.T.centerc c, M.loctoglob c))
      ++ (M.T.haloidn nod).map (fun h => (M.T.centerh h, M.haloext h))).flatMap (fun p => emit p.1 p.2)) := by
  rw [List.flatMap_append, List.flatMap_map, List.flatMap_map]
  simp only [cellHaloLoops3]
  have k1 : ∀ s, Unch M s → ∀ c ∈ M.T.cellidn nod, Emits M s ((fun (s : St3 K) c =>
    let s := { s with ref := .cell c }
    { s with out := s.out ++ emit s.center (M.loctoglob c) }) s c) (emit (M.T.centerc c) (M.loctoglob c)) := by
    intro s hs c _; exact ⟨hs, by simp only [St3.center, hs.1]⟩
  have k2 : ∀ s, Unch M s → ∀ c ∈ M.T.haloidn nod, Emits M s ((fun (s : St3 K) h =>
    let s := { s with ref := .halo h }
    { s with out := s.out ++ emit s.center (M.haloext h) }) s c) (emit (M.T.centerh c) (M.haloext c)) := by
    intro s hs c _; exact ⟨hs, by simp only [St3.center, hs.2]⟩
  have e1 := emits_foldl M _ _ _ k1 s hs
  exact e1.trans (emits_foldl M _ _ _ k2 _ e1.1)

theorem ghostLoops3_emits (M : Mesh K) (emit : Vec K → Nat → List (Triplet K)) (nod : Nat) (s : St3 K) (hs : Unch M s) :
    Emits M s (ghostLoops3 M emit nod s) ((rowPts M.loctoglob (M.ghostrows nod) ++ rowPts M.haloext (M.haloghostrows nod)).flatMap (fun p => emit p.1 p.2)) := by
  rw [List.flatMap_append, ← rowPts_flatMap, ← rowPts_flatMap]
  simp only [ghostLoops3]
  have key : ∀ (col : Nat → Nat) (s : St3 K), Unch M s → ∀ g : GhostRow K,
      Emits M s (if g.last ≠ -1 then { s with ref := .other, out := s.out ++ emit g.point (col g.cell) } else s)
        (if g.last ≠ -1 then emit g.point (col g.cell) else []) := by
    intro col s hs g
    split_ifs
    · exact ⟨hs, rfl⟩
    · exact ⟨hs, by simp⟩
  have e1 := emits_foldl M (M.ghostrows nod) _ _ (fun s hs g _ => key M.loctoglob s hs g) s hs
  exact e1.trans (emits_foldl M (M.haloghostrows nod) _ _ (fun s hs g _ => key M.haloext s hs g) _ e1.1)

theorem innerNode3_emits (M : Mesh K) (i nod : Nat) (par : K) (s : St3 K) (hs : Unch M s) (hp : M.T.periodicn nod = []) :
    Emits M s (innerNode3 M i nod par s) ((nodePts3 M nod).flatMap (fun p => pair3 M i nod par p.1 p.2)) := by
  simp only [innerNode3, hp, List.foldl_nil, nodePts3]
  rw [List.flatMap_append]
  have e1 := cellHaloLoops3_emits M (pair3 M i nod par) nod s hs
  exact e1.trans (ghostLoops3_emits M _ nod _ e1.1)

theorem haloNode3_emits (M : Mesh K) (i nod : Nat) (par : K) (s : St3 K) (hs : Unch M s) :
    Emits M s (haloNode3 M i nod par s) ((nodePts3 M nod).flatMap (fun p => single3 M i nod par p.1 p.2)) := by
  simp only [haloNode3, nodePts3]
  rw [List.flatMap_append]
  have e1 := cellHaloLoops3_emits M (single3 M i nod par) nod s hs
  exact e1.trans (ghostLoops3_emits M _ nod _ e1.1)

/-- Triplets of a node. -/
def nodeT3 (M : Mesh K) (BCd : List Int) (emit : Nat → Nat → K → Vec K → Nat → List (Triplet K)) (i k nod : Nat) : List (Triplet K) :=
  if M.oldnamen nod ∈ BCd then [] else (nodePts3 M nod).flatMap (fun p => emit i nod (parameters3 M i k) p.1 p.2)

/-- Triplets of the four vertex slots. -/
def nodesT3 (M : Mesh K) (BCd : List Int) (emit : Nat → Nat → K → Vec K → Nat → List (Triplet K)) (i : Nat) : List (Triplet K) :=
  nodeT3 M BCd emit i 0 (M.F.nodeid i 0) ++ (nodeT3 M BCd emit i 1 (M.F.nodeid i 1) ++ (nodeT3 M BCd emit i 2 (M.F.nodeid i 2)
    ++ nodeT3 M BCd emit i 3 (M.F.nodeid i 2)))

def inner3T (M : Mesh K) (BCd : List Int) (i : Nat) : List (Triplet K) :=
  let d := faceGradientInfo3 M.F i
  let gl := M.loctoglob (M.F.cellid0 i)
  let gr := M.loctoglob (M.F.cellid1 i)
  let vl := M.volume (M.F.cellid0 i)
  let vr := M.volume (M.F.cellid1 i)
  [(gl, gl, -1 * d.param3 / vl)] ++ (nodesT3 M BCd (pair3 M) i
    ++ [(gl, gr, d.param3 / vl), (gr, gl, d.param3 / vr), (gr, gr, -1 * d.param3 / vr)])

def halo3T (M : Mesh K) (BCd : List Int) (i : Nat) : List (Triplet K) :=
  let d := faceGradientInfo3 M.F i
  let gl := M.loctoglob (M.F.cellid0 i)
  let gr := M.haloext (M.F.halofid i)
  let vl := M.volume (M.F.cellid0 i)
  nodesT3 M BCd (single3 M) i ++ [(gl, gl, -1 * d.param3 / vl), (gl, gr, d.param3 / vl)]

def dir3T (M : Mesh K) (i : Nat) : List (Triplet K) :=
  let d := faceGradientInfo3 M.F i
  let gl := M.loctoglob (M.F.cellid0 i)
  let vl := M.volume (M.F.cellid0 i)
  [(gl, gl, -1 * d.param3 / vl), (gl, gl, -1 * d.param3 / vl)]

theorem inner3_emits (M : Mesh K) (BCd : List Int) (i : Nat) (s : St3 K) (hs : Unch M s) (hp : ∀ j < 3, M.T.periodicn (M.F.nodeid i j) = []) :
    Emits M s (inner3 M BCd s i) (inner3T M BCd i) := by
  have node : ∀ (k nod : Nat), M.T.periodicn nod = [] → ∀ s, Unch M s → Emits M s
      (if M.oldnamen nod ∈ BCd then s else innerNode3 M i nod (parameters3 M i k) s) (nodeT3 M BCd (pair3 M) i k nod) := by
    intro k nod h s hs
    unfold nodeT3
    split_ifs
    · exact ⟨hs, by simp⟩
    · exact innerNode3_emits M i nod _ s hs h
  simp only [inner3, inner3T, nodes3, List.foldl_cons, List.foldl_nil, nodesT3]
  have e0 : Emits M s { s with out := s.out ++ [(M.loctoglob (M.F.cellid0 i), M.loctoglob (M.F.cellid0 i), -1 * (faceGradientInfo3 M.F i).param3 / M.volume (M.F.cellid0 i))] }
      [(M.loctoglob (M.F.cellid0 i), M.loctoglob (M.F.cellid0 i), -1 * (faceGradientInfo3 M.F i).param3 / M.volume (M.F.cellid0 i))] := ⟨hs, rfl⟩
  have e1 := node 0 _ (hp 0 (by omega)) _ e0.1
  have e2 := node 1 _ (hp 1 (by omega)) _ e1.1
  have e3 := node 2 _ (hp 2 (by omega)) _ e2.1
  have e4 := node 3 _ (hp 2 (by omega)) _ e3.1
  have e := e0.trans ((e1.trans (e2.trans (e3.trans e4))))
  refine ⟨e.1, ?_⟩
  have := e.2
  simp only [zero_add, Nat.reduceAdd] at this ⊢
  rw [this]
  simp only [List.append_assoc]

theorem halo3_emits (M : Mesh K) (BCd : List Int) (i : Nat) (s : St3 K) (hs : Unch M s) : Emits M s (halo3 M BCd s i) (halo3T M BCd i) := by
  have node : ∀ (k nod : Nat), ∀ s, Unch M s → Emits M s
      (if M.oldnamen nod ∈ BCd then s else haloNode3 M i nod (parameters3 M i k) s) (nodeT3 M BCd (single3 M) i k nod) := by
    intro k nod s hs
    unfold nodeT3
    split_ifs
    · exact ⟨hs, by simp⟩
    · exact haloNode3_emits M i nod _ s hs
  simp only [halo3, halo3T, nodes3, List.foldl_cons, List.foldl_nil, nodesT3]
  have e1 := node 0 (M.F.nodeid i 0) _ hs
  have e2 := node 1 (M.F.nodeid i 1) _ e1.1
  have e3 := node 2 (M.F.nodeid i 2) _ e2.1
  have e4 := node 3 (M.F.nodeid i 2) _ e3.1
  have e := (e1.trans (e2.trans (e3.trans e4)))
  refine ⟨e.1, ?_⟩
  have := e.2
  simp only [zero_add, Nat.reduceAdd] at this ⊢
  rw [this]
  simp only [List.append_assoc]

theorem getTriplet3_emits (M : Mesh K) (BCd : List Int) (L : Lists) (hp : ∀ i ∈ L.inner, ∀ j < 3, M.T.periodicn (M.F.nodeid i j) = []) :
    Unch M (getTriplet3 M BCd L) ∧ (getTriplet3 M BCd L).out
      = L.inner.flatMap (inner3T M BCd) ++ L.halo.flatMap (halo3T M BCd) ++ L.dirichlet.flatMap (dir3T M) := by
  simp only [getTriplet3]
  have e1 := emits_foldl M L.inner (inner3 M BCd) (inner3T M BCd) (fun s hs i hi => inner3_emits M BCd i s hs (hp i hi))
    ⟨M.T.centerc, M.T.centerh, .other, []⟩ ⟨rfl, rfl⟩
  have e2 := emits_foldl M L.halo (halo3 M BCd) (halo3T M BCd) (fun s hs i _ => halo3_emits M BCd i s hs) _ e1.1
  have e3 := emits_foldl M L.dirichlet (dirichlet3 M) (dir3T M) (fun s hs i _ => ⟨hs, rfl⟩) _ e2.1
  have e := (e1.trans e2).trans e3
  exact ⟨e.1, by rw [e.2]; simp⟩

/-! ## The product -/

theorem vertex_lsum3 (M : Mesh K) (P : Nat → K) (w : Fields K) (hw : FieldsOf M P w) (nod : Nat) (hn : NodeOk 3 M nod)
    (hp : M.T.periodicn nod = []) :
    lsum (nodePts3 M nod) (fun p => wgt3 M nod p.1 * P p.2) = centertovertex3 M.T w nod := by
  rw [centertovertex3_stencil, stencil_lsum 3 (fun _ _ => 0) M P w hw nod hn (by intro f; simp [periodicPart, hp])]
  simp only [nodePts3, nodePts, lsum_append, hp, List.map_nil, lsum_nil, wgt3]
  ring

def matV3 (M : Mesh K) (w : Fields K) (BCd : List Int) (n : Nat) : K :=
  if M.oldnamen n ∈ BCd then 0 else centertovertex3 M.T w n

theorem applyT_node_pair3 (M : Mesh K) (BCd : List Int) (P : Nat → K) (w : Fields K) (hw : FieldsOf M P w) (i k nod : Nat)
    (hn : NodeOk 3 M nod) (hp : M.T.periodicn nod = []) (r : Nat) :
    applyT (nodeT3 M BCd (pair3 M) i k nod) P r
      = (if M.loctoglob (M.F.cellid0 i) = r then matV3 M w BCd nod / M.volume (M.F.cellid0 i) * parameters3 M i k else 0)
        - (if M.loctoglob (M.F.cellid1 i) = r then matV3 M w BCd nod / M.volume (M.F.cellid1 i) * parameters3 M i k else 0) := by
  unfold nodeT3 matV3
  by_cases h : M.oldnamen nod ∈ BCd
  · simp [h, applyT]
  · rw [if_neg h, if_neg h]
    have := applyT_pairs (M.loctoglob (M.F.cellid0 i)) (M.loctoglob (M.F.cellid1 i)) (M.volume (M.F.cellid0 i)) (M.volume (M.F.cellid1 i))
      (parameters3 M i k) (wgt3 M nod) (nodePts3 M nod) P r
    rw [vertex_lsum3 M P w hw nod hn hp] at this
    exact this

theorem applyT_node_single3 (M : Mesh K) (BCd : List Int) (P : Nat → K) (w : Fields K) (hw : FieldsOf M P w) (i k nod : Nat)
    (hn : NodeOk 3 M nod) (hp : M.T.periodicn nod = []) (r : Nat) :
    applyT (nodeT3 M BCd (single3 M) i k nod) P r
      = (if M.loctoglob (M.F.cellid0 i) = r then matV3 M w BCd nod / M.volume (M.F.cellid0 i) * parameters3 M i k else 0) := by
  unfold nodeT3 matV3
  by_cases h : M.oldnamen nod ∈ BCd
  · simp [h, applyT]
  · rw [if_neg h, if_neg h]
    have := applyT_singles (M.loctoglob (M.F.cellid0 i)) (M.volume (M.F.cellid0 i))
      (parameters3 M i k) (wgt3 M nod) (nodePts3 M nod) P r
    rw [vertex_lsum3 M P w hw nod hn hp] at this
    rw [← this]
    congr 1
    have hp : ∀ Q : List (Vec K × Nat), Q.flatMap (fun p => single3 M i nod (parameters3 M i k) p.1 p.2)
      = Q.map (fun p => (M.loctoglob (M.F.cellid0 i), p.2, wgt3 M nod p.1 / M.volume (M.F.cellid0 i) * parameters3 M i k)) := by
      intro Q
      induction Q with
      | nil => rfl
      | cons p Q ih => rw [List.flatMap_cons, ih]; rfl
    exact hp _

theorem flux3_params (M : Mesh K) (i : Nat) (vA vB vC vL vR : K) : flux3 M i vA vB vC vL vR =
    parameters3 M i 0 * vA + parameters3 M i 1 * vB + parameters3 M i 2 * vC + parameters3 M i 3 * vC
      + (faceGradientInfo3 M.F i).param3 * (vR - vL) := by
  simp only [flux3, diamondGrad3, parameters3, faceGradientInfo3, dot3]
  norm_num
  ring

theorem applyT_inner3 (M : Mesh K) (BCd : List Int) (P : Nat → K) (w : Fields K) (hw : FieldsOf M P w) (i : Nat)
    (hn : ∀ j < 3, NodeOk 3 M (M.F.nodeid i j)) (hp : ∀ j < 3, M.T.periodicn (M.F.nodeid i j) = []) (r : Nat) :
    applyT (inner3T M BCd i) P r =
      (if M.loctoglob (M.F.cellid0 i) = r then flux3 M i (matV3 M w BCd (M.F.nodeid i 0)) (matV3 M w BCd (M.F.nodeid i 1)) (matV3 M w BCd (M.F.nodeid i 2))
          (w.c (M.F.cellid0 i)) (w.c (M.F.cellid1 i)) / M.volume (M.F.cellid0 i) else 0)
      - (if M.loctoglob (M.F.cellid1 i) = r then flux3 M i (matV3 M w BCd (M.F.nodeid i 0)) (matV3 M w BCd (M.F.nodeid i 1)) (matV3 M w BCd (M.F.nodeid i 2))
          (w.c (M.F.cellid0 i)) (w.c (M.F.cellid1 i)) / M.volume (M.F.cellid1 i) else 0) := by
  simp only [inner3T, nodesT3, applyT_append, applyT_cons, applyT_nil]
  rw [applyT_node_pair3 M BCd P w hw i 0 _ (hn 0 (by omega)) (hp 0 (by omega)), applyT_node_pair3 M BCd P w hw i 1 _ (hn 1 (by omega)) (hp 1 (by omega)),
    applyT_node_pair3 M BCd P w hw i 2 _ (hn 2 (by omega)) (hp 2 (by omega)), applyT_node_pair3 M BCd P w hw i 3 _ (hn 2 (by omega)) (hp 2 (by omega))]
  simp only [flux3_params, hw.c]
  split_ifs <;> ring

theorem applyT_halo3 (M : Mesh K) (BCd : List Int) (P : Nat → K) (w : Fields K) (hw : FieldsOf M P w) (i : Nat)
    (hn : ∀ j < 3, NodeOk 3 M (M.F.nodeid i j)) (hp : ∀ j < 3, M.T.periodicn (M.F.nodeid i j) = []) (r : Nat) :
    applyT (halo3T M BCd i) P r =
      (if M.loctoglob (M.F.cellid0 i) = r then flux3 M i (matV3 M w BCd (M.F.nodeid i 0)) (matV3 M w BCd (M.F.nodeid i 1)) (matV3 M w BCd (M.F.nodeid i 2))
          (w.c (M.F.cellid0 i)) (w.halo (M.F.halofid i)) / M.volume (M.F.cellid0 i) else 0) := by
  simp only [halo3T, nodesT3, applyT_append, applyT_cons, applyT_nil]
  rw [applyT_node_single3 M BCd P w hw i 0 _ (hn 0 (by omega)) (hp 0 (by omega)), applyT_node_single3 M BCd P w hw i 1 _ (hn 1 (by omega)) (hp 1 (by omega)),
    applyT_node_single3 M BCd P w hw i 2 _ (hn 2 (by omega)) (hp 2 (by omega)), applyT_node_single3 M BCd P w hw i 3 _ (hn 2 (by omega)) (hp 2 (by omega))]
  simp only [flux3_params, hw.c, hw.halo]
  split_ifs <;> ring

theorem applyT_dirichlet3 (M : Mesh K) (P : Nat → K) (w : Fields K) (hw : FieldsOf M P w) (i : Nat) (r : Nat) :
    applyT (dir3T M i) P r =
      (if M.loctoglob (M.F.cellid0 i) = r then flux3 M i 0 0 0 (w.c (M.F.cellid0 i)) (- w.c (M.F.cellid0 i)) / M.volume (M.F.cellid0 i) else 0) := by
  simp only [dir3T, applyT_cons, applyT_nil, flux3_params, hw.c]
  split_ifs <;> ring

/-! ## The right-hand side -/

def rhsInner3 (M : Mesh K) (g : Nat → Nat) (BCd : List Int) (Pb : Nat → K) (i r : Nat) : K :=
  (if g (M.F.cellid1 i) = r then flux3 M i (rhsV2 M BCd Pb (M.F.nodeid i 0)) (rhsV2 M BCd Pb (M.F.nodeid i 1)) (rhsV2 M BCd Pb (M.F.nodeid i 2)) 0 0 / M.volume (M.F.cellid1 i) else 0)
  - (if g (M.F.cellid0 i) = r then flux3 M i (rhsV2 M BCd Pb (M.F.nodeid i 0)) (rhsV2 M BCd Pb (M.F.nodeid i 1)) (rhsV2 M BCd Pb (M.F.nodeid i 2)) 0 0 / M.volume (M.F.cellid0 i) else 0)

def rhsHalo3 (M : Mesh K) (g : Nat → Nat) (BCd : List Int) (Pb : Nat → K) (i r : Nat) : K :=
  - (if g (M.F.cellid0 i) = r then flux3 M i (rhsV2 M BCd Pb (M.F.nodeid i 0)) (rhsV2 M BCd Pb (M.F.nodeid i 1)) (rhsV2 M BCd Pb (M.F.nodeid i 2)) 0 0 / M.volume (M.F.cellid0 i) else 0)

def rhsDir3 (M : Mesh K) (g : Nat → Nat) (Pb Pf : Nat → K) (i r : Nat) : K :=
  - (if g (M.F.cellid0 i) = r then flux3 M i (ghostV M Pb (M.F.nodeid i 0)) (ghostV M Pb (M.F.nodeid i 1)) (ghostV M Pb (M.F.nodeid i 2)) 0 (2 * Pf i) / M.volume (M.F.cellid0 i) else 0)

theorem addAt_if (c : Prop) [Decidable c] (rhs : Nat → K) (a r : Nat) (x : K) :
    (if c then addAt rhs a x else rhs) r = rhs r + if a = r then (if c then x else 0) else 0 := by
  split_ifs <;> simp_all [addAt_apply]

theorem addAt_if2 (c : Prop) [Decidable c] (rhs : Nat → K) (a b r : Nat) (x y : K) :
    (if c then addAt (addAt rhs a x) b y else rhs) r = rhs r + (if a = r then (if c then x else 0) else 0) + if b = r then (if c then y else 0) else 0 := by
  split_ifs <;> simp_all [addAt_apply]

theorem getRhsGlob3_apply (M : Mesh K) (BCd : List Int) (L : Lists) (Pb Pf rhs : Nat → K) (r : Nat) :
    getRhsGlob3 M BCd L Pb Pf rhs r = rhs r + (L.inner.map (fun i => rhsInner3 M M.loctoglob BCd Pb i r)).sum
      + (L.halo.map (fun i => rhsHalo3 M M.loctoglob BCd Pb i r)).sum + (L.dirichlet.map (fun i => rhsDir3 M M.loctoglob Pb Pf i r)).sum := by
  simp only [getRhsGlob3]
  rw [foldl_contrib L.dirichlet _ (fun i r => rhsDir3 M M.loctoglob Pb Pf i r), foldl_contrib L.halo _ (fun i r => rhsHalo3 M M.loctoglob BCd Pb i r),
    foldl_contrib L.inner _ (fun i r => rhsInner3 M M.loctoglob BCd Pb i r)]
  all_goals
    intro rhs i _ j
    simp only [nodes3, List.foldl_cons, List.foldl_nil, addAt_if, addAt_if2, addAt_apply, rhsInner3, rhsHalo3, rhsDir3, flux3_params, rhsV2, ghostV, zero_add, Nat.reduceAdd]
    by_cases ha : M.loctoglob (M.F.cellid0 i) = j <;> by_cases hb : M.loctoglob (M.F.cellid1 i) = j <;> simp only [ha, hb, if_true, if_false] <;> (try split_ifs) <;> ring1

theorem getRhsLoc3_apply (M : Mesh K) (BCd : List Int) (L : Lists) (Pb Pf rhs : Nat → K) (r : Nat) :
    getRhsLoc3 M BCd L Pb Pf rhs r = rhs r + (L.inner.map (fun i => rhsInner3 M id BCd Pb i r)).sum
      + (L.halo.map (fun i => rhsHalo3 M id BCd Pb i r)).sum + (L.dirichlet.map (fun i => rhsDir3 M id Pb Pf i r)).sum := by
  simp only [getRhsLoc3]
  rw [foldl_contrib L.dirichlet _ (fun i r => rhsDir3 M id Pb Pf i r), foldl_contrib L.halo _ (fun i r => rhsHalo3 M id BCd Pb i r),
    foldl_contrib L.inner _ (fun i r => rhsInner3 M id BCd Pb i r)]
  all_goals
    intro rhs i _ j
    simp only [nodes3, List.foldl_cons, List.foldl_nil, addAt_if, addAt_if2, addAt_apply, rhsInner3, rhsHalo3, rhsDir3, flux3_params, rhsV2, ghostV, id, zero_add, Nat.reduceAdd]
    by_cases ha : M.F.cellid0 i = j <;> by_cases hb : M.F.cellid1 i = j <;> simp only [ha, hb, if_true, if_false] <;> (try split_ifs) <;> ring1

theorem matV3_add_rhsV (M : Mesh K) (w : Fields K) (BCd : List Int) (Pb : Nat → K) (n : Nat) :
    vertexValue3 M w BCd Pb n = matV3 M w BCd n + rhsV2 M BCd Pb n := by
  simp only [vertexValue3, matV3, rhsV2]; split_ifs <;> simp

/-- **C48** (3D), for meshes without periodic neighbours: `A·P - rhs` is, cell by cell, the balance of the diamond fluxes.  Missing:
periodic meshes, for which the assembly overwrites the cell centres (C71). -/
theorem C48_balance_3d_partial (M : Mesh K) (BCdirichlet : List Int) (L : Lists) (Pbordnode Pbordface P : Nat → K) (w : Fields K) (n : Nat)
    (hok : Ok 3 M L n) (hper : ∀ i ∈ L.inner, ∀ j < 3, M.T.periodicn (M.F.nodeid i j) = []) (hw : FieldsOf M P w) (c : Nat) (hc : c < n) :
    applyT (getTriplet3 M BCdirichlet L).out P (M.loctoglob c) - getRhsGlob3 M BCdirichlet L Pbordnode Pbordface (fun _ => 0) (M.loctoglob c)
      = balance3 M w BCdirichlet L Pbordnode Pbordface c := by
  have hinj : ∀ a < n, (M.loctoglob a = M.loctoglob c ↔ a = c) := fun a ha => ⟨hok.inj a ha c hc, fun h => by rw [h]⟩
  rw [getRhsGlob3_apply, (getTriplet3_emits M BCdirichlet L hper).2]
  simp only [applyT_append, applyT_flatMap, balance3]
  have e1 : (L.inner.map (fun i => applyT (inner3T M BCdirichlet i) P (M.loctoglob c))).sum
      - (L.inner.map (fun i => rhsInner3 M M.loctoglob BCdirichlet Pbordnode i (M.loctoglob c))).sum
      = (L.inner.map (fun i => (if M.F.cellid0 i = c then flux3 M i (vertexValue3 M w BCdirichlet Pbordnode (M.F.nodeid i 0)) (vertexValue3 M w BCdirichlet Pbordnode (M.F.nodeid i 1)) (vertexValue3 M w BCdirichlet Pbordnode (M.F.nodeid i 2)) (w.c (M.F.cellid0 i)) (w.c (M.F.cellid1 i)) / M.volume c else 0)
      - (if M.F.cellid1 i = c then flux3 M i (vertexValue3 M w BCdirichlet Pbordnode (M.F.nodeid i 0)) (vertexValue3 M w BCdirichlet Pbordnode (M.F.nodeid i 1)) (vertexValue3 M w BCdirichlet Pbordnode (M.F.nodeid i 2)) (w.c (M.F.cellid0 i)) (w.c (M.F.cellid1 i)) / M.volume c else 0))).sum := by
    rw [← list_map_sum_sub]
    apply list_map_sum_congr
    intro i hi
    have h0 := hinj _ (hok.cell0 i (by simp [hi]))
    have h1 := hinj _ (hok.cell1 i hi)
    rw [applyT_inner3 M BCdirichlet P w hw i (hok.node i (by simp [hi])) (hper i hi)]
    simp only [rhsInner3, h0, h1, flux3_params, matV3_add_rhsV]
    split_ifs with a b b <;> (try rw [a]) <;> (try rw [b]) <;> ring
  have e2 : (L.halo.map (fun i => applyT (halo3T M BCdirichlet i) P (M.loctoglob c))).sum
      - (L.halo.map (fun i => rhsHalo3 M M.loctoglob BCdirichlet Pbordnode i (M.loctoglob c))).sum
      = (L.halo.map (fun i => if M.F.cellid0 i = c then flux3 M i (vertexValue3 M w BCdirichlet Pbordnode (M.F.nodeid i 0)) (vertexValue3 M w BCdirichlet Pbordnode (M.F.nodeid i 1)) (vertexValue3 M w BCdirichlet Pbordnode (M.F.nodeid i 2)) (w.c (M.F.cellid0 i)) (w.halo (M.F.halofid i)) / M.volume c else 0)).sum := by
    rw [← list_map_sum_sub]
    apply list_map_sum_congr
    intro i hi
    have h0 := hinj _ (hok.cell0 i (by simp [hi]))
    rw [applyT_halo3 M BCdirichlet P w hw i (hok.node i (by simp [hi])) (hok.haloper i hi)]
    simp only [rhsHalo3, h0, flux3_params, matV3_add_rhsV]
    split_ifs with a <;> (try rw [a]) <;> ring
  have e3 : (L.dirichlet.map (fun i => applyT (dir3T M i) P (M.loctoglob c))).sum
      - (L.dirichlet.map (fun i => rhsDir3 M M.loctoglob Pbordnode Pbordface i (M.loctoglob c))).sum
      = (L.dirichlet.map (fun i => if M.F.cellid0 i = c then
        flux3 M i (Pbordnode (M.F.nodeid i 0)) (Pbordnode (M.F.nodeid i 1)) (Pbordnode (M.F.nodeid i 2)) (w.c c) (2 * Pbordface i - w.c c) / M.volume c else 0)).sum := by
    rw [← list_map_sum_sub]
    apply list_map_sum_congr
    intro i hi
    have h0 := hinj _ (hok.cell0 i (by simp [hi]))
    have g0 := hok.dir i hi 0 (by omega)
    have g1 := hok.dir i hi 1 (by omega)
    have g2 := hok.dir i hi 2 (by omega)
    rw [applyT_dirichlet3 M P w hw i]
    simp only [rhsDir3, h0, flux3_params, ghostV, if_pos g0, if_pos g1, if_pos g2]
    split_ifs with a <;> (try rw [a]) <;> ring
  rw [← e1, ← e2, ← e3]
  ring

/-- **C50** (3D): entry `loctoglob[c]` of the global right-hand side of a process is entry `c` of its local one. -/
theorem C50_local_global_3d (M : Mesh K) (BCdirichlet : List Int) (L : Lists) (Pbordnode Pbordface rl rg : Nat → K) (n : Nat)
    (hinj : ∀ a < n, ∀ b < n, M.loctoglob a = M.loctoglob b → a = b)
    (h0 : ∀ i ∈ L.inner ++ L.halo ++ L.dirichlet, M.F.cellid0 i < n) (h1 : ∀ i ∈ L.inner, M.F.cellid1 i < n)
    (c : Nat) (hc : c < n) (hr : rg (M.loctoglob c) = rl c) :
    getRhsGlob3 M BCdirichlet L Pbordnode Pbordface rg (M.loctoglob c) = getRhsLoc3 M BCdirichlet L Pbordnode Pbordface rl c := by
  have hi : ∀ a < n, (M.loctoglob a = M.loctoglob c ↔ a = c) := fun a ha => ⟨hinj a ha c hc, fun h => by rw [h]⟩
  rw [getRhsGlob3_apply, getRhsLoc3_apply, hr]
  congr 1
  · congr 1
    · congr 1
      apply list_map_sum_congr
      intro i hm
      simp only [rhsInner3, id, hi _ (h0 i (by simp [hm])), hi _ (h1 i hm)]
    · apply list_map_sum_congr
      intro i hm
      simp only [rhsHalo3, id, hi _ (h0 i (by simp [hm]))]
  · apply list_map_sum_congr
    intro i hm
    simp only [rhsDir3, id, hi _ (h0 i (by simp [hm]))]

/-! ## Constants -/

theorem flux3_const (M : Mesh K) (i : Nat) (a : K) : flux3 M i a a a a a = 0 := by
  simp [flux3, diamondGrad3, dot3]

theorem vertex_const3 (M : Mesh K) (a : K) (n : Nat) (h : WellPosed 3 M n) :
    centertovertex3 M.T ⟨fun _ => a, fun _ => a, fun _ => a, fun _ => a⟩ n = a := by
  apply C39_constant
  · rw [stencil_points 3 M.T _ ⟨fun _ => 0, fun _ => 0, fun _ => 0, fun _ => 0⟩ n]; exact h
  · exact stencil_const 3 M.T a n

/-- **C47** (3D, no periodic neighbours): without Dirichlet boundaries every row sums to zero. -/
theorem C47_row_sums_3d_partial (M : Mesh K) (L : Lists) (a : K) (r : Nat) (hd : L.dirichlet = [])
    (hnode : ∀ i ∈ L.inner ++ L.halo, ∀ j < 3, NodeOk 3 M (M.F.nodeid i j) ∧ WellPosed 3 M (M.F.nodeid i j))
    (hper : ∀ i ∈ L.inner ++ L.halo, ∀ j < 3, M.T.periodicn (M.F.nodeid i j) = []) :
    applyT (getTriplet3 M [] L).out (fun _ => a) r = 0 := by
  rw [(getTriplet3_emits M [] L (fun i hi => hper i (by simp [hi]))).2]
  simp only [applyT_append, applyT_flatMap, hd, List.map_nil, List.sum_nil, add_zero]
  rw [list_map_sum_zero, list_map_sum_zero, add_zero]
  · intro i hi
    rw [applyT_halo3 M [] _ _ (fieldsOf_const M a) i (fun j hj => (hnode i (by simp [hi]) j hj).1) (hper i (by simp [hi]))]
    simp only [matV3, List.not_mem_nil, if_false]
    rw [vertex_const3 M a _ (hnode i (by simp [hi]) 0 (by omega)).2, vertex_const3 M a _ (hnode i (by simp [hi]) 1 (by omega)).2,
      vertex_const3 M a _ (hnode i (by simp [hi]) 2 (by omega)).2, flux3_const]
    simp
  · intro i hi
    rw [applyT_inner3 M [] _ _ (fieldsOf_const M a) i (fun j hj => (hnode i (by simp [hi]) j hj).1) (hper i (by simp [hi]))]
    simp only [matV3, List.not_mem_nil, if_false]
    rw [vertex_const3 M a _ (hnode i (by simp [hi]) 0 (by omega)).2, vertex_const3 M a _ (hnode i (by simp [hi]) 1 (by omega)).2,
      vertex_const3 M a _ (hnode i (by simp [hi]) 2 (by omega)).2, flux3_const]
    simp

theorem orthogonal_params3 (M : Mesh K) (i : Nat) (h : Orthogonal3 M.F i) (k : Nat) : parameters3 M i k = 0 := by
  obtain ⟨t, h⟩ := h
  have p0 := h 0 (by omega)
  have p1 := h 1 (by omega)
  have p2 := h 2 (by omega)
  have a1 : dot3 (faceGradientInfo3 M.F i).n1 (M.F.normal i) = 0 := by
    simp only [faceGradientInfo3, dot3, wedge]
    norm_num
    rw [eq_add_of_sub_eq p0, eq_add_of_sub_eq p1, eq_add_of_sub_eq p2]
    ring
  have a2 : dot3 (faceGradientInfo3 M.F i).n2 (M.F.normal i) = 0 := by
    simp only [faceGradientInfo3, dot3, wedge]
    norm_num
    rw [eq_add_of_sub_eq p0, eq_add_of_sub_eq p1, eq_add_of_sub_eq p2]
    ring
  have b1 : (faceGradientInfo3 M.F i).param1 = dot3 (faceGradientInfo3 M.F i).n1 (M.F.normal i) / (faceGradientInfo3 M.F i).airDiamond := rfl
  have b2 : (faceGradientInfo3 M.F i).param2 = dot3 (faceGradientInfo3 M.F i).n2 (M.F.normal i) / (faceGradientInfo3 M.F i).airDiamond := rfl
  simp [parameters3, b1, b2, a1, a2]

/-- **C49** (3D, no periodic neighbours): constant Dirichlet data are solved by the constant. -/
theorem C49_constant_3d_partial (M : Mesh K) (BCdirichlet : List Int) (L : Lists) (Pbordnode Pbordface : Nat → K) (a : K) (n : Nat) (hok : Ok 3 M L n)
    (hper : ∀ i ∈ L.inner, ∀ j < 3, M.T.periodicn (M.F.nodeid i j) = [])
    (hwp : ∀ i ∈ L.inner ++ L.halo, ∀ j < 3, WellPosed 3 M (M.F.nodeid i j))
    (hnode : ∀ i ∈ L.inner ++ L.halo, ∀ j < 3, M.oldnamen (M.F.nodeid i j) ∈ BCdirichlet → Pbordnode (M.F.nodeid i j) = a)
    (hface : ∀ i ∈ L.dirichlet, Pbordface i = a ∧ Orthogonal3 M.F i) (c : Nat) (hc : c < n) :
    applyT (getTriplet3 M BCdirichlet L).out (fun _ => a) (M.loctoglob c)
      = getRhsGlob3 M BCdirichlet L Pbordnode Pbordface (fun _ => 0) (M.loctoglob c) := by
  rw [← sub_eq_zero, C48_balance_3d_partial M BCdirichlet L Pbordnode Pbordface (fun _ => a) _ n hok hper (fieldsOf_const M a) c hc]
  have hv : ∀ i ∈ L.inner ++ L.halo, ∀ j < 3,
      vertexValue3 M ⟨fun _ => a, fun _ => a, fun _ => a, fun _ => a⟩ BCdirichlet Pbordnode (M.F.nodeid i j) = a := by
    intro i hi j hj
    unfold vertexValue3
    split_ifs with h
    · exact hnode i hi j hj h
    · exact vertex_const3 M a _ (hwp i hi j hj)
  simp only [balance3]
  rw [list_map_sum_zero, list_map_sum_zero, list_map_sum_zero]
  · simp
  · intro i hi
    rw [flux3_params, (hface i hi).1, orthogonal_params3 M i (hface i hi).2, orthogonal_params3 M i (hface i hi).2,
      orthogonal_params3 M i (hface i hi).2, orthogonal_params3 M i (hface i hi).2]
    split_ifs <;> ring
  · intro i hi
    rw [hv i (by simp [hi]) 0 (by omega), hv i (by simp [hi]) 1 (by omega), hv i (by simp [hi]) 2 (by omega), flux3_const]; simp
  · intro i hi
    rw [hv i (by simp [hi]) 0 (by omega), hv i (by simp [hi]) 1 (by omega), hv i (by simp [hi]) 2 (by omega), flux3_const]; simp

/-- **C71** (partial): assembling the 3D matrix leaves the cell centres and halo centres of the mesh unchanged if no vertex has
periodic neighbours.  In general it is false: `C71_assembly_moves_centres_counterexample`. -/
theorem C71_assembly_pure_partial (M : Mesh K) (BCdirichlet : List Int) (L : Lists)
    (hper : ∀ i ∈ L.inner, ∀ j < 3, M.T.periodicn (M.F.nodeid i j) = []) :
    (getTriplet3 M BCdirichlet L).centerc = M.T.centerc ∧ (getTriplet3 M BCdirichlet L).centerh = M.T.centerh :=
  (getTriplet3_emits M BCdirichlet L hper).1

/-! ## Sizes (periodic meshes included) -/

/-- `step` appends `k` triplets. -/
theorem len_foldl {ι : Type*} (l : List ι) (step : St3 K → ι → St3 K) (c : ι → Nat)
    (h : ∀ s, ∀ i ∈ l, (step s i).out.length = s.out.length + c i) (s : St3 K) :
    (l.foldl step s).out.length = s.out.length + (l.map c).sum := by
  induction l generalizing s with
  | nil => rfl
  | cons a l ih => rw [List.foldl_cons, ih (fun s i hi => h s i (by simp [hi])), h s a (by simp)]; simp [add_assoc]

theorem write_out (s : St3 K) (k : Nat) (x : K) : (s.write k x).out = s.out := by
  unfold St3.write; split <;> rfl

theorem periodicWrite3_out (M : Mesh K) (nod c : Nat) (s : St3 K) : (periodicWrite3 M nod c s).out = s.out := by
  simp only [periodicWrite3]; split_ifs <;> simp [write_out]

theorem sum_map_const {ι : Type*} (l : List ι) (k : Nat) : (l.map (fun _ => k)).sum = k * l.length := by
  induction l with
  | nil => rfl
  | cons a l ih => simp only [List.map_cons, List.sum_cons, ih, List.length_cons]; ring

theorem sum_map_rows (g : List (GhostRow K)) (k : Nat) : (g.map (fun r => if r.last ≠ -1 then k else 0)).sum = k * nRows g := by
  rw [nRows_eq id]
  induction g with
  | nil => rfl
  | cons r g ih => rw [List.map_cons, List.sum_cons, ih]; by_cases h : r.last = -1 <;> simp [rowPts, h]; ring

theorem cellHaloLoops3_length (M : Mesh K) (emit : Vec K → Nat → List (Triplet K)) (e : Nat) (he : ∀ p c, (emit p c).length = e) (nod : Nat) (s : St3 K) :
    (cellHaloLoops3 M emit nod s).out.length = s.out.length + e * (M.T.cellidn nod).length + e * (M.T.haloidn nod).length := by
  simp only [cellHaloLoops3]
  rw [len_foldl _ _ (fun _ => e), len_foldl _ _ (fun _ => e), sum_map_const, sum_map_const]
  · intro s i _; simp [he]
  · intro s i _; simp [he]

theorem ghostLoops3_length (M : Mesh K) (emit : Vec K → Nat → List (Triplet K)) (e : Nat) (he : ∀ p c, (emit p c).length = e) (nod : Nat) (s : St3 K) :
    (ghostLoops3 M emit nod s).out.length = s.out.length + e * nRows (M.ghostrows nod) + e * nRows (M.haloghostrows nod) := by
  simp only [ghostLoops3]
  rw [len_foldl _ _ (fun r => if r.last ≠ -1 then e else 0), len_foldl _ _ (fun r => if r.last ≠ -1 then e else 0), sum_map_rows, sum_map_rows]
  · intro s r _; split_ifs <;> simp_all
  · intro s r _; split_ifs <;> simp_all

theorem innerNode3_length (M : Mesh K) (i nod : Nat) (par : K) (s : St3 K) : (innerNode3 M i nod par s).out.length = s.out.length
    + (2 * (M.T.cellidn nod).length + 2 * nRows (M.ghostrows nod) + 2 * nRows (M.haloghostrows nod) + 2 * (M.T.periodicn nod).length
      + 2 * (M.T.haloidn nod).length) := by
  simp only [innerNode3]
  rw [ghostLoops3_length M _ 2 (fun _ _ => rfl), len_foldl _ _ (fun _ => 2), sum_map_const, cellHaloLoops3_length M _ 2 (fun _ _ => rfl)]
  · omega
  · intro s c _; simp [periodicWrite3_out, pair3]

theorem haloNode3_length (M : Mesh K) (i nod : Nat) (par : K) (s : St3 K) : (haloNode3 M i nod par s).out.length = s.out.length
    + ((M.T.cellidn nod).length + nRows (M.ghostrows nod) + nRows (M.haloghostrows nod) + (M.T.haloidn nod).length) := by
  simp only [haloNode3]
  rw [ghostLoops3_length M _ 1 (fun _ _ => rfl), cellHaloLoops3_length M _ 1 (fun _ _ => rfl)]
  omega

def nodeLen3 (M : Mesh K) (BCd : List Int) (nod : Nat) : Nat := if M.oldnamen nod ∈ BCd then 0 else
  2 * (M.T.cellidn nod).length + 2 * nRows (M.ghostrows nod) + 2 * nRows (M.haloghostrows nod) + 2 * (M.T.periodicn nod).length
      + 2 * (M.T.haloidn nod).length
def nodeLenH3 (M : Mesh K) (BCd : List Int) (nod : Nat) : Nat := if M.oldnamen nod ∈ BCd then 0 else
  (M.T.cellidn nod).length + nRows (M.ghostrows nod) + nRows (M.haloghostrows nod) + (M.T.haloidn nod).length

/-- **C46** (3D): the sizing pass counts exactly the emitted triplets (periodic meshes included). -/
theorem C46_size_3d (M : Mesh K) (BCdirichlet : List Int) (L : Lists) :
    (getTriplet3 M BCdirichlet L).out.length = matrixSize3 M BCdirichlet L := by
  simp only [matrixSize3, getTriplet3]
  rw [foldl_size L.dirichlet _ (fun _ => 2), foldl_size L.halo _ (fun i => 2 + ((nodes3 M i).map (nodeLenH3 M BCdirichlet)).sum),
    foldl_size L.inner _ (fun i => 4 + ((nodes3 M i).map (nodeLen3 M BCdirichlet)).sum),
    len_foldl L.dirichlet _ (fun _ => 2), len_foldl L.halo _ (fun i => 2 + ((nodes3 M i).map (nodeLenH3 M BCdirichlet)).sum),
    len_foldl L.inner _ (fun i => 4 + ((nodes3 M i).map (nodeLen3 M BCdirichlet)).sum)]
  · simp
  · intro s i _
    have node : ∀ (k nod : Nat) (s : St3 K), (if M.oldnamen nod ∈ BCdirichlet then s else innerNode3 M i nod (parameters3 M i k) s).out.length
        = s.out.length + nodeLen3 M BCdirichlet nod := by
      intro k nod s; unfold nodeLen3; split_ifs
      · rfl
      · rw [innerNode3_length]
    simp only [inner3, nodes3, List.foldl_cons, List.foldl_nil, List.length_append, node, List.map_cons, List.map_nil, List.sum_cons,
      List.sum_nil, List.length_cons, List.length_nil]
    omega
  · intro s i _
    have node : ∀ (k nod : Nat) (s : St3 K), (if M.oldnamen nod ∈ BCdirichlet then s else haloNode3 M i nod (parameters3 M i k) s).out.length
        = s.out.length + nodeLenH3 M BCdirichlet nod := by
      intro k nod s; unfold nodeLenH3; split_ifs
      · rfl
      · rw [haloNode3_length]
    simp only [halo3, nodes3, List.foldl_cons, List.foldl_nil, List.length_append, node, List.map_cons, List.map_nil, List.sum_cons,
      List.sum_nil, List.length_cons, List.length_nil]
    omega
  · intro s i _; simp [dirichlet3]
  · intro k i _
    simp only [nodes3, List.foldl_cons, List.foldl_nil, List.map_cons, List.map_nil, List.sum_cons, List.sum_nil, nodeLen3]
    split_ifs <;> omega
  · intro k i _
    simp only [nodes3, List.foldl_cons, List.foldl_nil, List.map_cons, List.map_nil, List.sum_cons, List.sum_nil, nodeLenH3]
    split_ifs <;> omega
  · intro k i _; omega

/-! ## Several processes -/

/-- A process contributes nothing outside its own rows (3D). -/
theorem triplet3_no_row (M : Mesh K) (BCd : List Int) (L : Lists) (P : Nat → K) (w : Fields K) (n r : Nat) (hok : Ok 3 M L n)
    (hper : ∀ i ∈ L.inner, ∀ j < 3, M.T.periodicn (M.F.nodeid i j) = []) (hw : FieldsOf M P w) (hr : ∀ c < n, M.loctoglob c ≠ r) :
    applyT (getTriplet3 M BCd L).out P r = 0 := by
  rw [(getTriplet3_emits M BCd L hper).2]
  simp only [applyT_append, applyT_flatMap]
  rw [list_map_sum_zero, list_map_sum_zero, list_map_sum_zero]
  · simp
  · intro i hi; rw [applyT_dirichlet3 M P w hw, if_neg (hr _ (hok.cell0 i (by simp [hi])))]
  · intro i hi
    rw [applyT_halo3 M BCd P w hw i (hok.node i (by simp [hi])) (hok.haloper i hi), if_neg (hr _ (hok.cell0 i (by simp [hi])))]
  · intro i hi
    rw [applyT_inner3 M BCd P w hw i (hok.node i (by simp [hi])) (hper i hi), if_neg (hr _ (hok.cell0 i (by simp [hi]))),
      if_neg (hr _ (hok.cell1 i hi)), sub_zero]

theorem rhsGlob3_no_row (M : Mesh K) (BCd : List Int) (L : Lists) (Pb Pf : Nat → K) (n r : Nat)
    (h0 : ∀ i ∈ L.inner ++ L.halo ++ L.dirichlet, M.F.cellid0 i < n) (h1 : ∀ i ∈ L.inner, M.F.cellid1 i < n)
    (hr : ∀ c < n, M.loctoglob c ≠ r) : getRhsGlob3 M BCd L Pb Pf (fun _ => 0) r = 0 := by
  rw [getRhsGlob3_apply, list_map_sum_zero, list_map_sum_zero, list_map_sum_zero]
  · simp
  · intro i hi; simp [rhsDir3, hr _ (h0 i (by simp [hi]))]
  · intro i hi; simp [rhsHalo3, hr _ (h0 i (by simp [hi]))]
  · intro i hi; simp [rhsInner3, hr _ (h0 i (by simp [hi])), hr _ (h1 i hi)]

/-- **C48** (all processes, 3D, no periodic neighbours): the sum of the processes' systems has, in row `loctoglob[c]`, the balance of
cell `c` of the owner. -/
theorem C48_global_3d_partial {ι : Type*} [DecidableEq ι] (ranks : List ι) (hnd : ranks.Nodup) (M : ι → Mesh K) (L : ι → Lists) (n : ι → Nat)
    (BCdirichlet : List Int) (Pbordnode Pbordface : ι → Nat → K) (P : Nat → K) (w : ι → Fields K)
    (hok : ∀ p ∈ ranks, Ok 3 (M p) (L p) (n p)) (hw : ∀ p ∈ ranks, FieldsOf (M p) P (w p))
    (hper : ∀ p ∈ ranks, ∀ i ∈ (L p).inner, ∀ j < 3, (M p).T.periodicn ((M p).F.nodeid i j) = [])
    (hdisj : ∀ p ∈ ranks, ∀ q ∈ ranks, p ≠ q → ∀ a < n p, ∀ b < n q, (M p).loctoglob a ≠ (M q).loctoglob b)
    (p : ι) (hp : p ∈ ranks) (c : Nat) (hc : c < n p) :
    (ranks.map (fun q => applyT (getTriplet3 (M q) BCdirichlet (L q)).out P ((M p).loctoglob c))).sum
      - (ranks.map (fun q => getRhsGlob3 (M q) BCdirichlet (L q) (Pbordnode q) (Pbordface q) (fun _ => 0) ((M p).loctoglob c))).sum
      = balance3 (M p) (w p) BCdirichlet (L p) (Pbordnode p) (Pbordface p) c := by
  rw [← C48_balance_3d_partial (M p) BCdirichlet (L p) (Pbordnode p) (Pbordface p) P (w p) (n p) (hok p hp) (hper p hp) (hw p hp) c hc,
    ← list_map_sum_sub]
  rw [List.sum_map_eq_nsmul_single p _ (fun q hq hqm => ?_), List.count_eq_one_of_mem hnd hp, one_smul]
  have hne : ∀ b < n q, (M q).loctoglob b ≠ (M p).loctoglob c := fun b hb => hdisj q hqm p hp hq b hb c hc
  rw [rhsGlob3_no_row _ _ _ _ _ (n q) _ (hok q hqm).cell0 (hok q hqm).cell1 hne, sub_zero,
    triplet3_no_row (M q) BCdirichlet (L q) P (w q) (n q) _ (hok q hqm) (hper q hqm) (hw q hqm) hne]

/-! ## Non-vacuity and the periodic case -/

def vec3 (x y z : ℚ) : Vec ℚ := fun k => if k = 0 then x else if k = 1 then y else if k = 2 then z else 0

/-- Two tetrahedra O A B C and A B C D with A, B, C the unit points and D = (1,1,1); vertices A = 0, B = 1, C = 2, O = 3.
Face 0: A B C; face 1: O A B, on the boundary. -/
def tetMesh : Mesh ℚ :=
  let cc : Nat → Vec ℚ := fun c => if c = 0 then vec3 (1/4) (1/4) (1/4) else vec3 (1/2) (1/2) (1/2)
  let vx : Nat → Vec ℚ := fun n => match n with | 0 => vec3 1 0 0 | 1 => vec3 0 1 0 | 2 => vec3 0 0 1 | _ => vec3 0 0 0
  let gc : Nat → Vec ℚ := fun i => match i with | 1 => vec3 (1/4) (1/4) (-1/4) | 2 => vec3 (1/4) (-1/4) (1/4) | _ => vec3 (-1/4) (1/4) (1/4)
  let rows : Nat → List (GhostRow ℚ) := fun n => match n with
    | 0 => [⟨gc 1, 0, 1⟩, ⟨gc 2, 0, 2⟩] | 1 => [⟨gc 1, 0, 1⟩, ⟨gc 3, 0, 3⟩] | 2 => [⟨gc 2, 0, 2⟩, ⟨gc 3, 0, 3⟩]
    | _ => [⟨gc 1, 0, 1⟩, ⟨gc 2, 0, 2⟩, ⟨gc 3, 0, 3⟩]
  { T := { centerc := cc, centerh := fun _ _ => 0, cellidn := fun _ => [0, 1]
           haloidn := fun _ => [], periodicn := fun _ => [], vertexn := vx, oldname := fun n => if n < 2 then 1 else 2
           namen := fun n => if n < 2 then 1 else 2, ghosts := fun n => (rows n).map (fun g => (g.point, g.last))
           haloghosts := fun _ => [], shift := fun _ _ => 0 }
    F := { cellid0 := fun _ => 0, cellid1 := fun _ => 1, nodeid := fun i j => match i, j with
             | 0, j => j | _, 0 => 3 | _, 1 => 0 | _, _ => 1
           name := fun i => match i with | 0 => 0 | _ => 1
           halofid := fun _ => 0
           normal := fun i => match i with | 0 => vec3 (1/2) (1/2) (1/2) | _ => vec3 0 0 (-1/2)
           ghostcenter := gc, centerc := cc, centerh := fun _ _ => 0, shift := fun _ _ => 0, vertexn := vx }
    ghostrows := rows, haloghostrows := fun _ => [], oldnamen := fun n => if n < 2 then 1 else 2, volume := fun c => if c = 0 then 1/6 else 1/3
    loctoglob := fun c => c, haloext := fun h => h }

theorem tet_ok : Ok 3 tetMesh ⟨[0], [], [1]⟩ 2 where
  inj := fun a _ b _ h => h
  cell0 := by decide
  cell1 := by decide
  node := by
    have : ∀ n, NodeOk 3 tetMesh n := fun n => ⟨rfl, rfl, by
        intro h; exfalso; revert h
        match n with
        | 0 => decide | 1 => decide | 2 => decide | n + 3 => simp [tetMesh, firstGhost],
      fun _ => ⟨rfl, by simp [tetMesh]⟩, fun h => absurd rfl h⟩
    exact fun i _ j _ => this _
  haloper := by simp
  dir := by decide
example : ∀ i ∈ [0], ∀ j < 3, tetMesh.T.periodicn (tetMesh.F.nodeid i j) = [] := fun _ _ _ _ => rfl
example : FieldsOf tetMesh (fun g => (g : ℚ) + 1) ⟨fun c => c + 1, fun _ => 1, fun h => h + 1, fun _ => 0⟩ := by
  refine ⟨fun _ => rfl, fun _ => rfl, fun n => ?_, fun n => by simp [tetMesh]⟩
  match n with
  | 0 => simp [tetMesh]
  | 1 => simp [tetMesh]
  | 2 => simp [tetMesh]
  | n + 3 => simp [tetMesh]
example : WellPosed 3 tetMesh 0 := by
  rintro ⟨u, c, ⟨k, hk, hu⟩, h⟩
  have hk' : k = 0 ∨ k = 1 ∨ k = 2 := by omega
  have h0 := h (vec3 (1/4) (1/4) (1/4)) (by simp [nodeStencil, tetMesh])
  have h1 := h (vec3 (1/2) (1/2) (1/2)) (by simp [nodeStencil, tetMesh])
  have h2 := h (vec3 (1/4) (1/4) (-1/4)) (by simp [nodeStencil, tetMesh, firstGhost, ghostPart])
  have h3 := h (vec3 (1/4) (-1/4) (1/4)) (by simp [nodeStencil, tetMesh, firstGhost, ghostPart])
  simp [vec3, Finset.sum_range_succ] at h0 h1 h2 h3
  rcases hk' with rfl | rfl | rfl <;> (apply hu; linarith)
example : Orthogonal3 tetMesh.F 1 := ⟨1, by decide +kernel⟩
example : (getTriplet3 tetMesh [1] ⟨[0], [], [1]⟩).out.length = 22 ∧
    applyT (getTriplet3 tetMesh [1] ⟨[0], [], [1]⟩).out (fun g => g + 1) 0
      - getRhsGlob3 tetMesh [1] ⟨[0], [], [1]⟩ (fun _ => 5) (fun _ => 5) (fun _ => 0) 0 ≠ 0 ∧
    getRhsGlob3 tetMesh [1] ⟨[0], [], [1]⟩ (fun _ => 5) (fun _ => 5) (fun _ => 0) 0 ≠ 0 ∧
    applyT (getTriplet3 tetMesh [1] ⟨[0], [], [1]⟩).out (fun _ => 5) 0 = getRhsGlob3 tetMesh [1] ⟨[0], [], [1]⟩ (fun _ => 5) (fun _ => 5) (fun _ => 0) 0 := by
  decide +kernel

/-- The two tetrahedra with vertex 0 on a boundary that is periodic in `x`, and a third cell at `(2, 1/4, 1/4)` across it, shifted by -1. -/
def tetPerMesh : Mesh ℚ :=
  { tetMesh with T := { tetMesh.T with
      centerc := fun c => if c = 2 then vec3 2 (1/4) (1/4) else tetMesh.T.centerc c
      periodicn := fun n => if n = 0 then [2] else []
      oldname := fun n => if n = 0 then 11 else 2
      shift := fun c => if c = 2 then vec3 (-1) 0 0 else vec3 0 0 0 } }

/-- **C71** is false for periodic 3D meshes: assembling the matrix of one inner face moves the centre of cell 1 (the last cell of the
vertex) from `(1/2, 1/2, 1/2)` to the shifted centre `(1, 1/4, 1/4)` of its periodic neighbour. -/
theorem C71_assembly_moves_centres_counterexample :
    tetPerMesh.T.centerc 1 0 = 1/2 ∧ tetPerMesh.T.centerc 1 1 = 1/2 ∧
    (getTriplet3 tetPerMesh [] ⟨[0], [], []⟩).centerc 1 0 = 1 ∧ (getTriplet3 tetPerMesh [] ⟨[0], [], []⟩).centerc 1 1 = 1/4 := by
  decide +kernel

end Verif.LinSys
