import Verif.Spec.LinSys
import Verif.Props.Interp
import Verif.Props.Diamond

/-!
# C46-C50 (2D): the matrix and the right-hand side
-/
set_option linter.unusedSectionVars false
set_option linter.unusedSimpArgs false
namespace Verif.LinSys
open Verif Verif.Geo Verif.Interp

variable {K : Type*} [Field K] [LinearOrder K] [IsStrictOrderedRing K]

/-! ## Matrix-vector product -/

theorem applyT_nil (P : Nat → K) (r : Nat) : applyT [] P r = 0 := rfl

theorem applyT_cons (t : Triplet K) (ts : List (Triplet K)) (P : Nat → K) (r : Nat) :
    applyT (t :: ts) P r = (if t.1 = r then t.2.2 * P t.2.1 else 0) + applyT ts P r := by simp [applyT]

theorem applyT_append (ts us : List (Triplet K)) (P : Nat → K) (r : Nat) :
    applyT (ts ++ us) P r = applyT ts P r + applyT us P r := by simp [applyT]

theorem applyT_flatMap {ι : Type*} (l : List ι) (f : ι → List (Triplet K)) (P : Nat → K) (r : Nat) :
    applyT (l.flatMap f) P r = (l.map (fun i => applyT (f i) P r)).sum := by
  induction l with
  | nil => simp [applyT]
  | cons a l ih => rw [List.flatMap_cons, applyT_append, ih]; simp

theorem lsum_append {α : Type*} (L L' : List α) (f : α → K) : lsum (L ++ L') f = lsum L f + lsum L' f := by simp [lsum]

/-! ## Stencil points with their columns -/

/-- Ghost rows in use with their columns. -/
def rowPts (col : Nat → Nat) (g : List (GhostRow K)) : List (Vec K × Nat) :=
  (g.filter (fun r => decide (r.last ≠ -1))).map (fun r => (r.point, col r.cell))

/-- The stencil points of a node with their global columns, in the order of the 2D kernel. -/
def nodePts (per : Nat → Vec K) (M : Mesh K) (nod : Nat) : List (Vec K × Nat) :=
  (M.T.cellidn nod).map (fun c => (M.T.centerc c, M.loctoglob c))
    ++ rowPts M.loctoglob (M.ghostrows nod)
    ++ rowPts M.haloext (M.haloghostrows nod)
    ++ (M.T.periodicn nod).map (fun c => (per c, M.loctoglob c))
    ++ (M.T.haloidn nod).map (fun h => (M.T.centerh h, M.haloext h))

theorem rowPts_flatMap {β : Type*} (col : Nat → Nat) (g : List (GhostRow K)) (body : Vec K → Nat → List β) :
    g.flatMap (fun r => if r.last ≠ -1 then body r.point (col r.cell) else []) = (rowPts col g).flatMap (fun p => body p.1 p.2) := by
  induction g with
  | nil => rfl
  | cons r g ih => 
    rw [List.flatMap_cons, ih]
    by_cases h : r.last = -1 <;> simp [rowPts, h]

theorem ghost_lsum (g : List (GhostRow K)) (val P : Nat → K) (col : Nat → Nat) (f : Vec K × K → K)
    (h : ∀ r ∈ g, r.last ≠ -1 → val r.last.toNat = P (col r.cell)) :
    lsum (ghostPart (g.map (fun r => (r.point, r.last))) val) f = lsum (rowPts col g) (fun p => f (p.1, P p.2)) := by
  induction g with
  | nil => rfl
  | cons r g ih =>
    have ih := ih (fun r' hr' => h r' (by simp [hr']))
    by_cases hr : r.last = -1
    · simp only [ghostPart, rowPts, List.map_cons] at ih ⊢
      rw [List.filter_cons_of_neg (by simp [hr]), List.filter_cons_of_neg (by simp [hr])]; exact ih
    · simp only [ghostPart, rowPts, List.map_cons] at ih ⊢
      rw [List.filter_cons_of_pos (by simp [hr]), List.filter_cons_of_pos (by simp [hr])]
      simp only [List.map_cons, lsum_cons]; rw [ih, h r (by simp) hr]

theorem rowPts_empty (col : Nat → Nat) (g : List (GhostRow K)) (h : ∀ r ∈ g, r.last = -1) : rowPts col g = [] := by
  simp only [rowPts, List.map_eq_nil_iff, List.filter_eq_nil_iff]; intro r hr; simp [h r hr]

theorem lsum_map {α β : Type*} (L : List α) (g : α → β) (f : β → K) : lsum (L.map g) f = lsum L (fun a => f (g a)) := by
  simp [lsum, Function.comp_def]

/-- The stencil of the interpolation and the columns of the matrix are the same points. -/
theorem stencil_lsum (dim : Nat) (per : Nat → Vec K) (M : Mesh K) (P : Nat → K) (w : Fields K) (hw : FieldsOf M P w) (nod : Nat)
    (hn : NodeOk dim M nod)
    (hper : ∀ f : Vec K × K → K, lsum (periodicPart dim M.T w nod) f = lsum (M.T.periodicn nod) (fun c => f (per c, P (M.loctoglob c))))
    (f : Vec K × K → K) :
    lsum (nodeStencil dim M.T w nod) f = lsum (nodePts per M nod) (fun p => f (p.1, P p.2)) := by
  have hg : lsum (if firstGhost (M.T.ghosts nod) ≠ -1 then ghostPart (M.T.ghosts nod) w.ghost else []) f
      = lsum (rowPts M.loctoglob (M.ghostrows nod)) (fun p => f (p.1, P p.2)) := by
    split_ifs with h
    · rw [hn.ghosts_eq]
      exact ghost_lsum _ _ _ _ _ (fun r hr hl => by rw [hw.ghost nod r hr hl, hw.c])
    · rw [rowPts_empty _ _ (hn.first (by simpa using h))]; rfl
  have hh : lsum (if M.T.namen nod = 10 then ghostPart (M.T.haloghosts nod) w.haloghost ++ (M.T.haloidn nod).map (fun c => (M.T.centerh c, w.halo c)) else []) f
      = lsum (rowPts M.haloext (M.haloghostrows nod)) (fun p => f (p.1, P p.2))
        + lsum ((M.T.haloidn nod).map (fun h => (M.T.centerh h, M.haloext h))) (fun p => f (p.1, P p.2)) := by
    split_ifs with h
    · rw [lsum_append, hn.haloghosts_eq,
        ghost_lsum _ _ _ _ _ (fun r hr hl => by rw [hw.haloghost nod r hr hl, hw.halo]), lsum_map, lsum_map]
      simp only [hw.halo]
    · rw [rowPts_empty _ _ (hn.halo h).2, (hn.halo h).1]; simp
  simp only [nodeStencil, nodePts, lsum_append]
  rw [hg, hh, hper, lsum_map, lsum_map, lsum_map, lsum_map]
  simp only [hw.c]
  ring

theorem per2 (M : Mesh K) (P : Nat → K) (w : Fields K) (hw : FieldsOf M P w) (nod : Nat) (hn : NodeOk 2 M nod) (f : Vec K × K → K) :
    lsum (periodicPart 2 M.T w nod) f = lsum (M.T.periodicn nod) (fun c => f (periodicPoint2 M nod c, P (M.loctoglob c))) := by
  by_cases he : M.T.periodicn nod = []
  · simp [periodicPart, he]
  · rcases hn.per he with h | h | h | h | h
    · simp [periodicPart, periodicPoint2, h, lsum_map, hw.c]
    · simp [periodicPart, periodicPoint2, h, lsum_map, hw.c]
    · simp [periodicPart, periodicPoint2, h, lsum_map, hw.c]
    · simp [periodicPart, periodicPoint2, h, lsum_map, hw.c]
    · exact absurd h.1 (by omega)

theorem vertex_lsum2 (M : Mesh K) (P : Nat → K) (w : Fields K) (hw : FieldsOf M P w) (nod : Nat) (hn : NodeOk 2 M nod) :
    lsum (nodePts (periodicPoint2 M nod) M nod) (fun p => wgt2 M nod p.1 * P p.2) = centertovertex2 M.T w nod := by
  rw [centertovertex2_stencil, stencil_lsum 2 (periodicPoint2 M nod) M P w hw nod hn (per2 M P w hw nod hn)]
  rfl

/-! ## Triplets of a node -/

/-- Two triplets per stencil point. -/
def pairT (gl gr : Nat) (vl vr par : K) (wt : Vec K → K) (p : Vec K × Nat) : List (Triplet K) :=
  [(gl, p.2, wt p.1 / vl * par), (gr, p.2, -1 * wt p.1 / vr * par)]

theorem applyT_pairs (gl gr : Nat) (vl vr par : K) (wt : Vec K → K) (Q : List (Vec K × Nat)) (P : Nat → K) (r : Nat) :
    applyT (Q.flatMap (pairT gl gr vl vr par wt)) P r
      = (if gl = r then lsum Q (fun p => wt p.1 * P p.2) / vl * par else 0) - (if gr = r then lsum Q (fun p => wt p.1 * P p.2) / vr * par else 0) := by
  induction Q with
  | nil => simp [applyT]
  | cons p Q ih =>
    rw [List.flatMap_cons, applyT_append, ih]
    simp only [pairT, applyT_cons, applyT_nil, lsum_cons]
    split_ifs <;> ring

theorem applyT_singles (gl : Nat) (vl par : K) (wt : Vec K → K) (Q : List (Vec K × Nat)) (P : Nat → K) (r : Nat) :
    applyT (Q.map (fun p => (gl, p.2, wt p.1 / vl * par))) P r
      = if gl = r then lsum Q (fun p => wt p.1 * P p.2) / vl * par else 0 := by
  induction Q with
  | nil => simp [applyT]
  | cons p Q ih =>
    rw [List.map_cons, applyT_cons, ih]
    simp only [lsum_cons]
    split_ifs <;> ring

theorem innerNode2_pairs (M : Mesh K) (i nod : Nat) (par : K) : innerNode2 M i nod par
    = (nodePts (periodicPoint2 M nod) M nod).flatMap
      (pairT (M.loctoglob (M.F.cellid0 i)) (M.loctoglob (M.F.cellid1 i)) (M.volume (M.F.cellid0 i)) (M.volume (M.F.cellid1 i)) par (wgt2 M nod)) := by
  simp only [innerNode2, nodePts, List.flatMap_append]
  rw [rowPts_flatMap M.loctoglob (M.ghostrows nod) (fun p col => [(M.loctoglob (M.F.cellid0 i), col, wgt2 M nod p / M.volume (M.F.cellid0 i) * par), (M.loctoglob (M.F.cellid1 i), col, -1 * wgt2 M nod p / M.volume (M.F.cellid1 i) * par)]),
    rowPts_flatMap M.haloext (M.haloghostrows nod) (fun p col => [(M.loctoglob (M.F.cellid0 i), col, wgt2 M nod p / M.volume (M.F.cellid0 i) * par), (M.loctoglob (M.F.cellid1 i), col, -1 * wgt2 M nod p / M.volume (M.F.cellid1 i) * par)])]
  simp only [List.flatMap_map]
  rfl

theorem haloNode2_singles (M : Mesh K) (i nod : Nat) (par : K) (h : M.T.periodicn nod = []) : haloNode2 M i nod par
    = (nodePts (periodicPoint2 M nod) M nod).map
      (fun p => (M.loctoglob (M.F.cellid0 i), p.2, wgt2 M nod p.1 / M.volume (M.F.cellid0 i) * par)) := by
  simp only [haloNode2, nodePts, List.map_append, h, List.map_nil, List.append_nil, List.map_map]
  have hp : ∀ (Q : List (Vec K × Nat)), Q.flatMap (fun p => [(M.loctoglob (M.F.cellid0 i), p.2, wgt2 M nod p.1 / M.volume (M.F.cellid0 i) * par)])
      = Q.map (fun p => (M.loctoglob (M.F.cellid0 i), p.2, wgt2 M nod p.1 / M.volume (M.F.cellid0 i) * par)) := by
    intro Q; induction Q with
    | nil => rfl
    | cons p Q ih => simp [ih]
  rw [rowPts_flatMap M.loctoglob (M.ghostrows nod) (fun p col => [(M.loctoglob (M.F.cellid0 i), col, wgt2 M nod p / M.volume (M.F.cellid0 i) * par)]),
    rowPts_flatMap M.haloext (M.haloghostrows nod) (fun p col => [(M.loctoglob (M.F.cellid0 i), col, wgt2 M nod p / M.volume (M.F.cellid0 i) * par)]),
    hp, hp]
  rfl

theorem flux2_params (M : Mesh K) (i : Nat) (v1 v2 vL vR : K) : flux2 M i v1 v2 vL vR =
    (faceGradientInfo2 M.F i).param1 * vL + (faceGradientInfo2 M.F i).param4 * v1 + (faceGradientInfo2 M.F i).param2 * v2
      + (faceGradientInfo2 M.F i).param3 * vR := by
  simp only [flux2, diamondGrad2, faceGradientInfo2]; ring

/-- Value at a vertex as seen by the matrix (Dirichlet vertices contribute through the right-hand side). -/
def matV2 (M : Mesh K) (w : Fields K) (BCd : List Int) (n : Nat) : K :=
  if M.oldnamen n ∈ BCd then 0 else centertovertex2 M.T w n

/-- Value at a vertex as seen by the right-hand side. -/
def rhsV2 (M : Mesh K) (BCd : List Int) (Pb : Nat → K) (n : Nat) : K := if M.oldnamen n ∈ BCd then Pb n else 0

theorem applyT_inner2 (M : Mesh K) (BCd : List Int) (P : Nat → K) (w : Fields K) (hw : FieldsOf M P w) (i : Nat)
    (hn : ∀ j < 2, NodeOk 2 M (M.F.nodeid i j)) (r : Nat) :
    applyT (inner2 M BCd i) P r =
      (if M.loctoglob (M.F.cellid0 i) = r then flux2 M i (matV2 M w BCd (M.F.nodeid i 0)) (matV2 M w BCd (M.F.nodeid i 1))
          (w.c (M.F.cellid0 i)) (w.c (M.F.cellid1 i)) / M.volume (M.F.cellid0 i) else 0)
      - (if M.loctoglob (M.F.cellid1 i) = r then flux2 M i (matV2 M w BCd (M.F.nodeid i 0)) (matV2 M w BCd (M.F.nodeid i 1))
          (w.c (M.F.cellid0 i)) (w.c (M.F.cellid1 i)) / M.volume (M.F.cellid1 i) else 0) := by
  have node : ∀ (j : Nat) (par : K), j < 2 → applyT (if M.oldnamen (M.F.nodeid i j) ∈ BCd then [] else innerNode2 M i (M.F.nodeid i j) par) P r
      = (if M.loctoglob (M.F.cellid0 i) = r then matV2 M w BCd (M.F.nodeid i j) / M.volume (M.F.cellid0 i) * par else 0)
        - (if M.loctoglob (M.F.cellid1 i) = r then matV2 M w BCd (M.F.nodeid i j) / M.volume (M.F.cellid1 i) * par else 0) := by
    intro j par hj
    by_cases h : M.oldnamen (M.F.nodeid i j) ∈ BCd
    · simp [h, matV2, applyT]
    · rw [if_neg h, innerNode2_pairs, applyT_pairs, vertex_lsum2 M P w hw _ (hn j hj)]; simp [matV2, h]
  simp only [inner2, List.foldl_cons, List.foldl_nil, List.nil_append, applyT_append, applyT_cons, applyT_nil]
  rw [node 0 _ (by omega), node 1 _ (by omega)]
  simp only [flux2_params, hw.c]
  simp only [if_true, one_ne_zero, if_false]
  split_ifs <;> ring

theorem applyT_halo2 (M : Mesh K) (BCd : List Int) (P : Nat → K) (w : Fields K) (hw : FieldsOf M P w) (i : Nat)
    (hn : ∀ j < 2, NodeOk 2 M (M.F.nodeid i j)) (hp : ∀ j < 2, M.T.periodicn (M.F.nodeid i j) = []) (r : Nat) :
    applyT (halo2 M BCd i) P r =
      (if M.loctoglob (M.F.cellid0 i) = r then flux2 M i (matV2 M w BCd (M.F.nodeid i 0)) (matV2 M w BCd (M.F.nodeid i 1))
          (w.c (M.F.cellid0 i)) (w.halo (M.F.halofid i)) / M.volume (M.F.cellid0 i) else 0) := by
  have node : ∀ (j : Nat) (par : K), j < 2 → applyT (if M.oldnamen (M.F.nodeid i j) ∈ BCd then [] else haloNode2 M i (M.F.nodeid i j) par) P r
      = (if M.loctoglob (M.F.cellid0 i) = r then matV2 M w BCd (M.F.nodeid i j) / M.volume (M.F.cellid0 i) * par else 0) := by
    intro j par hj
    by_cases h : M.oldnamen (M.F.nodeid i j) ∈ BCd
    · simp [h, matV2, applyT]
    · rw [if_neg h, haloNode2_singles M i _ par (hp j hj), applyT_singles, vertex_lsum2 M P w hw _ (hn j hj)]; simp [matV2, h]
  simp only [halo2, List.foldl_cons, List.foldl_nil, List.nil_append, applyT_append, applyT_cons, applyT_nil]
  rw [node 0 _ (by omega), node 1 _ (by omega)]
  simp only [flux2_params, hw.c, hw.halo]
  simp only [if_true, one_ne_zero, if_false, zero_add]
  split_ifs <;> ring

theorem applyT_dirichlet2 (M : Mesh K) (P : Nat → K) (w : Fields K) (hw : FieldsOf M P w) (i : Nat) (r : Nat) :
    applyT (dirichlet2 M i) P r =
      (if M.loctoglob (M.F.cellid0 i) = r then flux2 M i 0 0 (w.c (M.F.cellid0 i)) (- w.c (M.F.cellid0 i)) / M.volume (M.F.cellid0 i) else 0) := by
  simp only [dirichlet2, applyT_cons, applyT_nil, flux2_params, hw.c]
  split_ifs <;> ring

/-! ## The right-hand side -/

/-- Contribution of a face of each family to entry `r` of the right-hand side, with row numbering `g`. -/
def rhsInner2 (M : Mesh K) (g : Nat → Nat) (BCd : List Int) (Pb : Nat → K) (i r : Nat) : K :=
  (if g (M.F.cellid1 i) = r then flux2 M i (rhsV2 M BCd Pb (M.F.nodeid i 0)) (rhsV2 M BCd Pb (M.F.nodeid i 1)) 0 0 / M.volume (M.F.cellid1 i) else 0)
  - (if g (M.F.cellid0 i) = r then flux2 M i (rhsV2 M BCd Pb (M.F.nodeid i 0)) (rhsV2 M BCd Pb (M.F.nodeid i 1)) 0 0 / M.volume (M.F.cellid0 i) else 0)

def rhsHalo2 (M : Mesh K) (g : Nat → Nat) (BCd : List Int) (Pb : Nat → K) (i r : Nat) : K :=
  - (if g (M.F.cellid0 i) = r then flux2 M i (rhsV2 M BCd Pb (M.F.nodeid i 0)) (rhsV2 M BCd Pb (M.F.nodeid i 1)) 0 0 / M.volume (M.F.cellid0 i) else 0)

def ghostV (M : Mesh K) (Pb : Nat → K) (n : Nat) : K := if firstGhost (M.T.ghosts n) ≠ -1 then Pb n else 0

def rhsDir2 (M : Mesh K) (g : Nat → Nat) (Pb Pf : Nat → K) (i r : Nat) : K :=
  - (if g (M.F.cellid0 i) = r then flux2 M i (ghostV M Pb (M.F.nodeid i 0)) (ghostV M Pb (M.F.nodeid i 1)) 0 (2 * Pf i) / M.volume (M.F.cellid0 i) else 0)

theorem getRhsGlob2_apply (M : Mesh K) (BCd : List Int) (L : Lists) (Pb Pf rhs : Nat → K) (r : Nat) :
    getRhsGlob2 M BCd L Pb Pf rhs r = rhs r + (L.inner.map (fun i => rhsInner2 M M.loctoglob BCd Pb i r)).sum
      + (L.halo.map (fun i => rhsHalo2 M M.loctoglob BCd Pb i r)).sum + (L.dirichlet.map (fun i => rhsDir2 M M.loctoglob Pb Pf i r)).sum := by
  simp only [getRhsGlob2]
  rw [foldl_contrib L.dirichlet _ (fun i r => rhsDir2 M M.loctoglob Pb Pf i r), foldl_contrib L.halo _ (fun i r => rhsHalo2 M M.loctoglob BCd Pb i r),
    foldl_contrib L.inner _ (fun i r => rhsInner2 M M.loctoglob BCd Pb i r)]
  all_goals
    intro rhs i _ j
    simp only [rhsInner2, rhsHalo2, rhsDir2, flux2_params, rhsV2, ghostV]
    split_ifs <;> (try simp only [addAt_apply]) <;> (try split_ifs) <;> ring1

theorem getRhsLoc2_apply (M : Mesh K) (BCd : List Int) (L : Lists) (Pb Pf rhs : Nat → K) (r : Nat) :
    getRhsLoc2 M BCd L Pb Pf rhs r = rhs r + (L.inner.map (fun i => rhsInner2 M id BCd Pb i r)).sum
      + (L.halo.map (fun i => rhsHalo2 M id BCd Pb i r)).sum + (L.dirichlet.map (fun i => rhsDir2 M id Pb Pf i r)).sum := by
  simp only [getRhsLoc2]
  rw [foldl_contrib L.dirichlet _ (fun i r => rhsDir2 M id Pb Pf i r), foldl_contrib L.halo _ (fun i r => rhsHalo2 M id BCd Pb i r),
    foldl_contrib L.inner _ (fun i r => rhsInner2 M id BCd Pb i r)]
  all_goals
    intro rhs i _ j
    simp only [rhsInner2, rhsHalo2, rhsDir2, flux2_params, rhsV2, ghostV, id]
    split_ifs <;> (try simp only [addAt_apply]) <;> (try split_ifs) <;> ring1

theorem matV2_add_rhsV2 (M : Mesh K) (w : Fields K) (BCd : List Int) (Pb : Nat → K) (n : Nat) :
    vertexValue2 M w BCd Pb n = matV2 M w BCd n + rhsV2 M BCd Pb n := by
  simp only [vertexValue2, matV2, rhsV2]; split_ifs <;> simp

/-- **C48** (2D): for every global cell vector `P` and all Dirichlet data, row `loctoglob[c]` of `A·P - rhs` is the balance of cell `c`:
the sum over its faces of the normal component of the diamond gradient of the interpolated vertex values and the two cell values,
divided by the volume. -/
theorem C48_balance_2d (M : Mesh K) (BCdirichlet : List Int) (L : Lists) (Pbordnode Pbordface P : Nat → K) (w : Fields K) (n : Nat)
    (hok : Ok 2 M L n) (hw : FieldsOf M P w) (c : Nat) (hc : c < n) :
    applyT (getTriplet2 M BCdirichlet L) P (M.loctoglob c) - getRhsGlob2 M BCdirichlet L Pbordnode Pbordface (fun _ => 0) (M.loctoglob c)
      = balance2 M w BCdirichlet L Pbordnode Pbordface c := by
  have hinj : ∀ a < n, (M.loctoglob a = M.loctoglob c ↔ a = c) := fun a ha => ⟨hok.inj a ha c hc, fun h => by rw [h]⟩
  rw [getRhsGlob2_apply]
  simp only [getTriplet2, applyT_append, applyT_flatMap, balance2]
  have e1 : (L.inner.map (fun i => applyT (inner2 M BCdirichlet i) P (M.loctoglob c))).sum
      - (L.inner.map (fun i => rhsInner2 M M.loctoglob BCdirichlet Pbordnode i (M.loctoglob c))).sum
      = (L.inner.map (fun i => (if M.F.cellid0 i = c then flux2 M i (vertexValue2 M w BCdirichlet Pbordnode (M.F.nodeid i 0)) (vertexValue2 M w BCdirichlet Pbordnode (M.F.nodeid i 1)) (w.c (M.F.cellid0 i)) (w.c (M.F.cellid1 i)) / M.volume c else 0)
      - (if M.F.cellid1 i = c then flux2 M i (vertexValue2 M w BCdirichlet Pbordnode (M.F.nodeid i 0)) (vertexValue2 M w BCdirichlet Pbordnode (M.F.nodeid i 1)) (w.c (M.F.cellid0 i)) (w.c (M.F.cellid1 i)) / M.volume c else 0))).sum := by
    rw [← list_map_sum_sub]
    apply list_map_sum_congr
    intro i hi
    have h0 := hinj _ (hok.cell0 i (by simp [hi]))
    have h1 := hinj _ (hok.cell1 i hi)
    rw [applyT_inner2 M BCdirichlet P w hw i (hok.node i (by simp [hi]))]
    simp only [rhsInner2, h0, h1, flux2_params, matV2_add_rhsV2]
    split_ifs with a b b <;> (try rw [a]) <;> (try rw [b]) <;> ring
  have e2 : (L.halo.map (fun i => applyT (halo2 M BCdirichlet i) P (M.loctoglob c))).sum
      - (L.halo.map (fun i => rhsHalo2 M M.loctoglob BCdirichlet Pbordnode i (M.loctoglob c))).sum
      = (L.halo.map (fun i => if M.F.cellid0 i = c then flux2 M i (vertexValue2 M w BCdirichlet Pbordnode (M.F.nodeid i 0)) (vertexValue2 M w BCdirichlet Pbordnode (M.F.nodeid i 1)) (w.c (M.F.cellid0 i)) (w.halo (M.F.halofid i)) / M.volume c else 0)).sum := by
    rw [← list_map_sum_sub]
    apply list_map_sum_congr
    intro i hi
    have h0 := hinj _ (hok.cell0 i (by simp [hi]))
    rw [applyT_halo2 M BCdirichlet P w hw i (hok.node i (by simp [hi])) (hok.haloper i hi)]
    simp only [rhsHalo2, h0, flux2_params, matV2_add_rhsV2]
    split_ifs with a <;> (try rw [a]) <;> ring
  have e3 : (L.dirichlet.map (fun i => applyT (dirichlet2 M i) P (M.loctoglob c))).sum
      - (L.dirichlet.map (fun i => rhsDir2 M M.loctoglob Pbordnode Pbordface i (M.loctoglob c))).sum
      = (L.dirichlet.map (fun i => if M.F.cellid0 i = c then
        flux2 M i (Pbordnode (M.F.nodeid i 0)) (Pbordnode (M.F.nodeid i 1)) (w.c c) (2 * Pbordface i - w.c c) / M.volume c else 0)).sum := by
    rw [← list_map_sum_sub]
    apply list_map_sum_congr
    intro i hi
    have h0 := hinj _ (hok.cell0 i (by simp [hi]))
    have g0 := hok.dir i hi 0 (by omega)
    have g1 := hok.dir i hi 1 (by omega)
    rw [applyT_dirichlet2 M P w hw i]
    simp only [rhsDir2, h0, flux2_params, ghostV, if_pos g0, if_pos g1]
    split_ifs with a <;> (try rw [a]) <;> ring
  rw [← e1, ← e2, ← e3]
  ring

/-- **C50** (2D): entry `loctoglob[c]` of the global right-hand side of a process is entry `c` of its local one (both starting from the
same initial contents). -/
theorem C50_local_global_2d (M : Mesh K) (BCdirichlet : List Int) (L : Lists) (Pbordnode Pbordface rl rg : Nat → K) (n : Nat)
    (hinj : ∀ a < n, ∀ b < n, M.loctoglob a = M.loctoglob b → a = b)
    (h0 : ∀ i ∈ L.inner ++ L.halo ++ L.dirichlet, M.F.cellid0 i < n) (h1 : ∀ i ∈ L.inner, M.F.cellid1 i < n)
    (c : Nat) (hc : c < n) (hr : rg (M.loctoglob c) = rl c) :
    getRhsGlob2 M BCdirichlet L Pbordnode Pbordface rg (M.loctoglob c) = getRhsLoc2 M BCdirichlet L Pbordnode Pbordface rl c := by
  have hi : ∀ a < n, (M.loctoglob a = M.loctoglob c ↔ a = c) := fun a ha => ⟨hinj a ha c hc, fun h => by rw [h]⟩
  rw [getRhsGlob2_apply, getRhsLoc2_apply, hr]
  congr 1
  · congr 1
    · congr 1
      apply list_map_sum_congr
      intro i hm
      simp only [rhsInner2, id, hi _ (h0 i (by simp [hm])), hi _ (h1 i hm)]
    · apply list_map_sum_congr
      intro i hm
      simp only [rhsHalo2, id, hi _ (h0 i (by simp [hm]))]
  · apply list_map_sum_congr
    intro i hm
    simp only [rhsDir2, id, hi _ (h0 i (by simp [hm]))]

/-! ## Several processes -/

/-- Rows and columns of the emitted triplets: every row is the global number of a local cell, every column that of a local or halo cell. -/
theorem C46_rows_2d (M : Mesh K) (BCdirichlet : List Int) (L : Lists) (n : Nat)
    (h0 : ∀ i ∈ L.inner ++ L.halo ++ L.dirichlet, M.F.cellid0 i < n) (h1 : ∀ i ∈ L.inner, M.F.cellid1 i < n)
    (t : Triplet K) (ht : t ∈ getTriplet2 M BCdirichlet L) :
    (∃ c < n, t.1 = M.loctoglob c) ∧ ((∃ c, t.2.1 = M.loctoglob c) ∨ ∃ h, t.2.1 = M.haloext h) := by
  have hpts : ∀ nod, ∀ p ∈ nodePts (periodicPoint2 M nod) M nod, (∃ c, p.2 = M.loctoglob c) ∨ ∃ h, p.2 = M.haloext h := by
    intro nod p hp
    simp only [nodePts, rowPts, List.mem_append, List.mem_map] at hp
    rcases hp with (((⟨c, _, rfl⟩ | ⟨g, _, rfl⟩) | ⟨g, _, rfl⟩) | ⟨c, _, rfl⟩) | ⟨h, _, rfl⟩
    · exact .inl ⟨_, rfl⟩
    · exact .inl ⟨_, rfl⟩
    · exact .inr ⟨_, rfl⟩
    · exact .inl ⟨_, rfl⟩
    · exact .inr ⟨_, rfl⟩
  have hinn : ∀ i nod par, (M.F.cellid0 i < n ∧ M.F.cellid1 i < n) → t ∈ innerNode2 M i nod par →
      (∃ c < n, t.1 = M.loctoglob c) ∧ ((∃ c, t.2.1 = M.loctoglob c) ∨ ∃ h, t.2.1 = M.haloext h) := by
    intro i nod par hi hm
    rw [innerNode2_pairs, List.mem_flatMap] at hm
    obtain ⟨p, hp, hm⟩ := hm
    simp only [pairT, List.mem_cons, List.not_mem_nil, or_false] at hm
    rcases hm with rfl | rfl
    · exact ⟨⟨_, hi.1, rfl⟩, hpts nod p hp⟩
    · exact ⟨⟨_, hi.2, rfl⟩, hpts nod p hp⟩
  have hhal : ∀ i nod par, M.F.cellid0 i < n → t ∈ haloNode2 M i nod par →
      (∃ c < n, t.1 = M.loctoglob c) ∧ ((∃ c, t.2.1 = M.loctoglob c) ∨ ∃ h, t.2.1 = M.haloext h) := by
    intro i nod par hi hm
    simp only [haloNode2, List.mem_append, List.mem_map, List.mem_flatMap] at hm
    rcases hm with ((⟨c, _, rfl⟩ | ⟨g, _, hm⟩) | ⟨g, _, hm⟩) | ⟨h, _, rfl⟩
    · exact ⟨⟨_, hi, rfl⟩, .inl ⟨_, rfl⟩⟩
    · split_ifs at hm
      · simp only [List.mem_cons, List.not_mem_nil, or_false] at hm; subst hm; exact ⟨⟨_, hi, rfl⟩, .inl ⟨_, rfl⟩⟩
      · simp at hm
    · split_ifs at hm
      · simp only [List.mem_cons, List.not_mem_nil, or_false] at hm; subst hm; exact ⟨⟨_, hi, rfl⟩, .inr ⟨_, rfl⟩⟩
      · simp at hm
    · exact ⟨⟨_, hi, rfl⟩, .inr ⟨_, rfl⟩⟩
  simp only [getTriplet2, List.mem_append, List.mem_flatMap] at ht
  rcases ht with (⟨i, hi, ht⟩ | ⟨i, hi, ht⟩) | ⟨i, hi, ht⟩
  · have a := h0 i (by simp [hi])
    have b := h1 i hi
    simp only [inner2, List.foldl_cons, List.foldl_nil, List.nil_append, List.mem_append, List.mem_cons, List.not_mem_nil, or_false] at ht
    rcases ht with (rfl | ht | ht) | rfl | rfl | rfl
    · exact ⟨⟨_, a, rfl⟩, .inl ⟨_, rfl⟩⟩
    · split_ifs at ht <;> first | exact hinn _ _ _ ⟨a, b⟩ ht | simp at ht
    · split_ifs at ht <;> first | exact hinn _ _ _ ⟨a, b⟩ ht | simp at ht
    · exact ⟨⟨_, a, rfl⟩, .inl ⟨_, rfl⟩⟩
    · exact ⟨⟨_, b, rfl⟩, .inl ⟨_, rfl⟩⟩
    · exact ⟨⟨_, b, rfl⟩, .inl ⟨_, rfl⟩⟩
  · have a := h0 i (by simp [hi])
    simp only [halo2, List.foldl_cons, List.foldl_nil, List.nil_append, List.mem_append, List.mem_cons, List.not_mem_nil, or_false] at ht
    rcases ht with (rfl | rfl) | ht | ht
    · exact ⟨⟨_, a, rfl⟩, .inl ⟨_, rfl⟩⟩
    · exact ⟨⟨_, a, rfl⟩, .inr ⟨_, rfl⟩⟩
    · split_ifs at ht <;> first | exact hhal _ _ _ a ht | simp at ht
    · split_ifs at ht <;> first | exact hhal _ _ _ a ht | simp at ht
  · have a := h0 i (by simp [hi])
    simp only [dirichlet2, List.mem_cons, List.not_mem_nil, or_false] at ht
    rcases ht with rfl | rfl
    · exact ⟨⟨_, a, rfl⟩, .inl ⟨_, rfl⟩⟩
    · exact ⟨⟨_, a, rfl⟩, .inl ⟨_, rfl⟩⟩

theorem applyT_no_row (ts : List (Triplet K)) (P : Nat → K) (r : Nat) (h : ∀ t ∈ ts, t.1 ≠ r) : applyT ts P r = 0 := by
  apply list_map_sum_zero; intro t ht; rw [if_neg (h t ht)]

/-- A process contributes nothing to the right-hand side outside its own rows. -/
theorem rhsGlob2_no_row (M : Mesh K) (BCd : List Int) (L : Lists) (Pb Pf : Nat → K) (n r : Nat)
    (h0 : ∀ i ∈ L.inner ++ L.halo ++ L.dirichlet, M.F.cellid0 i < n) (h1 : ∀ i ∈ L.inner, M.F.cellid1 i < n)
    (hr : ∀ c < n, M.loctoglob c ≠ r) : getRhsGlob2 M BCd L Pb Pf (fun _ => 0) r = 0 := by
  rw [getRhsGlob2_apply, list_map_sum_zero, list_map_sum_zero, list_map_sum_zero]
  · simp
  · intro i hi; simp [rhsDir2, hr _ (h0 i (by simp [hi]))]
  · intro i hi; simp [rhsHalo2, hr _ (h0 i (by simp [hi]))]
  · intro i hi; simp [rhsInner2, hr _ (h0 i (by simp [hi])), hr _ (h1 i hi)]

/-- **C48** (all processes, 2D): adding up the triplets and the right-hand sides of all processes (as MUMPS, PETSc and `comm.reduce` do),
row `loctoglob[c]` of the global system is the balance of cell `c` of the process that owns it. -/
theorem C48_global_2d {ι : Type*} [DecidableEq ι] (ranks : List ι) (hnd : ranks.Nodup) (M : ι → Mesh K) (L : ι → Lists) (n : ι → Nat)
    (BCdirichlet : List Int) (Pbordnode Pbordface : ι → Nat → K) (P : Nat → K) (w : ι → Fields K)
    (hok : ∀ p ∈ ranks, Ok 2 (M p) (L p) (n p)) (hw : ∀ p ∈ ranks, FieldsOf (M p) P (w p))
    (hdisj : ∀ p ∈ ranks, ∀ q ∈ ranks, p ≠ q → ∀ a < n p, ∀ b < n q, (M p).loctoglob a ≠ (M q).loctoglob b)
    (p : ι) (hp : p ∈ ranks) (c : Nat) (hc : c < n p) :
    (ranks.map (fun q => applyT (getTriplet2 (M q) BCdirichlet (L q)) P ((M p).loctoglob c))).sum
      - (ranks.map (fun q => getRhsGlob2 (M q) BCdirichlet (L q) (Pbordnode q) (Pbordface q) (fun _ => 0) ((M p).loctoglob c))).sum
      = balance2 (M p) (w p) BCdirichlet (L p) (Pbordnode p) (Pbordface p) c := by
  rw [← C48_balance_2d (M p) BCdirichlet (L p) (Pbordnode p) (Pbordface p) P (w p) (n p) (hok p hp) (hw p hp) c hc, ← list_map_sum_sub]
  rw [List.sum_map_eq_nsmul_single p _ (fun q hq hqm => ?_), List.count_eq_one_of_mem hnd hp, one_smul]
  have hne : ∀ b < n q, (M q).loctoglob b ≠ (M p).loctoglob c := fun b hb => hdisj q hqm p hp hq b hb c hc
  rw [rhsGlob2_no_row _ _ _ _ _ (n q) _ (hok q hqm).cell0 (hok q hqm).cell1 hne, sub_zero]
  apply applyT_no_row
  intro t ht
  obtain ⟨⟨b, hb, h⟩, _⟩ := C46_rows_2d (M q) BCdirichlet (L q) (n q) (hok q hqm).cell0 (hok q hqm).cell1 t ht
  rw [h]; exact hne b hb

/-! ## Constants -/

theorem flux2_const (M : Mesh K) (i : Nat) (a : K) : flux2 M i a a a a = 0 := by
  simp only [flux2, diamondGrad2, faceGradientInfo2]; ring

theorem fieldsOf_const (M : Mesh K) (a : K) : FieldsOf M (fun _ => a) ⟨fun _ => a, fun _ => a, fun _ => a, fun _ => a⟩ :=
  ⟨fun _ => rfl, fun _ => rfl, fun _ _ _ _ => rfl, fun _ _ _ _ => rfl⟩

theorem stencil_points (dim : Nat) (T : NodeTabs K) (w w' : Fields K) (n : Nat) :
    (nodeStencil dim T w n).map Prod.fst = (nodeStencil dim T w' n).map Prod.fst := by
  simp only [nodeStencil, periodicPart, ghostPart]
  split_ifs <;> simp [Function.comp_def]

theorem stencil_const (dim : Nat) (T : NodeTabs K) (a : K) (n : Nat) :
    ∀ p ∈ nodeStencil dim T ⟨fun _ => a, fun _ => a, fun _ => a, fun _ => a⟩ n, p.2 = a := by
  intro p hp
  simp only [nodeStencil, periodicPart, ghostPart] at hp
  split_ifs at hp <;> simp only [List.mem_append, List.mem_map, List.not_mem_nil, or_false] at hp <;> (rcases hp with h) <;> grind

theorem vertex_const2 (M : Mesh K) (a : K) (n : Nat) (h : WellPosed 2 M n) :
    centertovertex2 M.T ⟨fun _ => a, fun _ => a, fun _ => a, fun _ => a⟩ n = a := by
  apply C38_constant
  · rw [stencil_points 2 M.T _ ⟨fun _ => 0, fun _ => 0, fun _ => 0, fun _ => 0⟩ n]; exact h
  · exact stencil_const 2 M.T a n

/-- **C47** (2D): without Dirichlet boundaries the matrix annihilates constants: every row sums to zero.  (Only faces whose vertices
have no periodic neighbours are covered on subdomain boundaries, see `C47_halo_periodic_counterexample`.) -/
theorem C47_row_sums_2d (M : Mesh K) (L : Lists) (a : K) (r : Nat) (hd : L.dirichlet = [])
    (hnode : ∀ i ∈ L.inner ++ L.halo, ∀ j < 2, NodeOk 2 M (M.F.nodeid i j) ∧ WellPosed 2 M (M.F.nodeid i j))
    (hper : ∀ i ∈ L.halo, ∀ j < 2, M.T.periodicn (M.F.nodeid i j) = []) :
    applyT (getTriplet2 M [] L) (fun _ => a) r = 0 := by
  simp only [getTriplet2, applyT_append, applyT_flatMap, hd, List.map_nil, List.sum_nil, add_zero]
  rw [list_map_sum_zero, list_map_sum_zero, add_zero]
  · intro i hi
    rw [applyT_halo2 M [] _ _ (fieldsOf_const M a) i (fun j hj => (hnode i (by simp [hi]) j hj).1) (hper i hi)]
    simp only [matV2, List.not_mem_nil, if_false]
    rw [vertex_const2 M a _ (hnode i (by simp [hi]) 0 (by omega)).2, vertex_const2 M a _ (hnode i (by simp [hi]) 1 (by omega)).2, flux2_const]
    simp
  · intro i hi
    rw [applyT_inner2 M [] _ _ (fieldsOf_const M a) i (fun j hj => (hnode i (by simp [hi]) j hj).1)]
    simp only [matV2, List.not_mem_nil, if_false]
    rw [vertex_const2 M a _ (hnode i (by simp [hi]) 0 (by omega)).2, vertex_const2 M a _ (hnode i (by simp [hi]) 1 (by omega)).2, flux2_const]
    simp

theorem orthogonal_params2 (F : FaceTabs K) (i : Nat) (h : Orthogonal2 F i) :
    (faceGradientInfo2 F i).param2 = 0 ∧ (faceGradientInfo2 F i).param4 = 0 := by
  unfold Orthogonal2 at h
  constructor
  · simp only [faceGradientInfo2]; linear_combination (1 / (2 * (1 / 2 * ((F.vertexn (F.nodeid i 1) 0 - F.vertexn (F.nodeid i 0) 0) * (right2 F i 1 - F.centerc (F.cellid0 i) 1) + (F.centerc (F.cellid0 i) 0 - right2 F i 0) * (F.vertexn (F.nodeid i 1) 1 - F.vertexn (F.nodeid i 0) 1))))) * h
  · simp only [faceGradientInfo2]; linear_combination (-1 / (2 * (1 / 2 * ((F.vertexn (F.nodeid i 1) 0 - F.vertexn (F.nodeid i 0) 0) * (right2 F i 1 - F.centerc (F.cellid0 i) 1) + (F.centerc (F.cellid0 i) 0 - right2 F i 0) * (F.vertexn (F.nodeid i 1) 1 - F.vertexn (F.nodeid i 0) 1))))) * h

theorem params_sum2 (F : FaceTabs K) (i : Nat) : (faceGradientInfo2 F i).param1 + (faceGradientInfo2 F i).param2
    + (faceGradientInfo2 F i).param3 + (faceGradientInfo2 F i).param4 = 0 := by
  simp only [faceGradientInfo2]; ring

/-- **C49** (2D): if the Dirichlet value is `a` on every Dirichlet face and at every vertex with a Dirichlet label, the constant vector
`a` solves the assembled system exactly. -/
theorem C49_constant_2d (M : Mesh K) (BCdirichlet : List Int) (L : Lists) (Pbordnode Pbordface : Nat → K) (a : K) (n : Nat) (hok : Ok 2 M L n)
    (hwp : ∀ i ∈ L.inner ++ L.halo, ∀ j < 2, WellPosed 2 M (M.F.nodeid i j))
    (hnode : ∀ i ∈ L.inner ++ L.halo, ∀ j < 2, M.oldnamen (M.F.nodeid i j) ∈ BCdirichlet → Pbordnode (M.F.nodeid i j) = a)
    (hface : ∀ i ∈ L.dirichlet, Pbordface i = a ∧ Orthogonal2 M.F i) (c : Nat) (hc : c < n) :
    applyT (getTriplet2 M BCdirichlet L) (fun _ => a) (M.loctoglob c)
      = getRhsGlob2 M BCdirichlet L Pbordnode Pbordface (fun _ => 0) (M.loctoglob c) := by
  rw [← sub_eq_zero, C48_balance_2d M BCdirichlet L Pbordnode Pbordface (fun _ => a) _ n hok (fieldsOf_const M a) c hc]
  have hv : ∀ i ∈ L.inner ++ L.halo, ∀ j < 2,
      vertexValue2 M ⟨fun _ => a, fun _ => a, fun _ => a, fun _ => a⟩ BCdirichlet Pbordnode (M.F.nodeid i j) = a := by
    intro i hi j hj
    unfold vertexValue2
    split_ifs with h
    · exact hnode i hi j hj h
    · exact vertex_const2 M a _ (hwp i hi j hj)
  simp only [balance2]
  rw [list_map_sum_zero, list_map_sum_zero, list_map_sum_zero]
  · simp
  · intro i hi
    have h2 := orthogonal_params2 M.F i (hface i hi).2
    have h3 := params_sum2 M.F i
    have h4 : (faceGradientInfo2 M.F i).param3 = -(faceGradientInfo2 M.F i).param1 := by rw [h2.1, h2.2] at h3; linear_combination h3
    rw [flux2_params, h2.1, h2.2, (hface i hi).1, h4]
    split_ifs <;> ring
  · intro i hi
    rw [hv i (by simp [hi]) 0 (by omega), hv i (by simp [hi]) 1 (by omega), flux2_const]; simp
  · intro i hi
    rw [hv i (by simp [hi]) 0 (by omega), hv i (by simp [hi]) 1 (by omega), flux2_const]; simp

/-! ## Sizes -/

theorem nRows_eq (col : Nat → Nat) (g : List (GhostRow K)) : nRows g = (rowPts col g).length := by
  have : ∀ (g : List (GhostRow K)) (k : Nat), g.foldl (fun n r => if r.last ≠ -1 then n + 1 else n) k = k + (rowPts col g).length := by
    intro g
    induction g with
    | nil => intro k; rfl
    | cons r g ih =>
      intro k
      rw [List.foldl_cons, ih]
      by_cases h : r.last = -1 <;> simp [rowPts, h]; omega
  rw [nRows, this, zero_add]

theorem foldl_size {ι : Type*} (l : List ι) (step : Nat → ι → Nat) (c : ι → Nat) (h : ∀ k, ∀ i ∈ l, step k i = k + c i) (k : Nat) :
    l.foldl step k = k + (l.map c).sum := by
  induction l generalizing k with
  | nil => rfl
  | cons a l ih =>
    rw [List.foldl_cons, ih (fun k i hi => h k i (by simp [hi])), h k a (by simp)]
    simp [add_assoc]

theorem innerNode2_length (M : Mesh K) (i nod : Nat) (par : K) : (innerNode2 M i nod par).length
    = 2 * (M.T.cellidn nod).length + 2 * nRows (M.ghostrows nod) + 2 * nRows (M.haloghostrows nod) + 2 * (M.T.periodicn nod).length
      + 2 * (M.T.haloidn nod).length := by
  rw [innerNode2_pairs, nRows_eq M.loctoglob, nRows_eq M.haloext]
  have : ∀ (Q : List (Vec K × Nat)) gl gr (vl vr par : K) wt, (Q.flatMap (pairT gl gr vl vr par wt)).length = 2 * Q.length := by
    intro Q gl gr vl vr par wt
    induction Q with
    | nil => rfl
    | cons p Q ih => rw [List.flatMap_cons, List.length_append, ih]; simp [pairT]; omega
  rw [this]; simp [nodePts]; omega

theorem haloNode2_length (M : Mesh K) (i nod : Nat) (par : K) : (haloNode2 M i nod par).length
    = (M.T.cellidn nod).length + nRows (M.ghostrows nod) + nRows (M.haloghostrows nod) + (M.T.haloidn nod).length := by
  have hr : ∀ (g : List (GhostRow K)) (f : GhostRow K → Triplet K), (g.flatMap (fun r => if r.last ≠ -1 then [f r] else [])).length = nRows g := by
    intro g f
    rw [nRows_eq id]
    induction g with
    | nil => rfl
    | cons r g ih => rw [List.flatMap_cons, List.length_append, ih]; by_cases h : r.last = -1 <;> simp [rowPts, h]; omega
  simp only [haloNode2, List.length_append, List.length_map]
  rw [hr, hr]

/-- **C46** (2D): the sizing pass counts every emitted triplet, and one more per halo face: the storage is never overrun. -/
theorem C46_size_2d (M : Mesh K) (BCdirichlet : List Int) (L : Lists) :
    (getTriplet2 M BCdirichlet L).length + L.halo.length = matrixSize2 M BCdirichlet L := by
  simp only [matrixSize2]
  rw [foldl_size L.dirichlet _ (fun i => (dirichlet2 M i).length), foldl_size L.halo _ (fun i => (halo2 M BCdirichlet i).length + 1),
    foldl_size L.inner _ (fun i => (inner2 M BCdirichlet i).length)]
  · simp only [getTriplet2, List.length_append, List.length_flatMap]
    have : ∀ l : List Nat, (l.map (fun i => (halo2 M BCdirichlet i).length + 1)).sum = (l.map (fun i => (halo2 M BCdirichlet i).length)).sum + l.length := by
      intro l; induction l with
      | nil => rfl
      | cons a l ih => simp only [List.map_cons, List.sum_cons, List.length_cons, ih]; omega
    rw [this]; omega
  · intro k i _
    simp only [inner2, List.foldl_cons, List.foldl_nil, List.nil_append, List.length_append, List.length_cons, List.length_nil]
    split_ifs <;> simp only [innerNode2_length, List.length_nil] <;> omega
  · intro k i _
    simp only [halo2, List.foldl_cons, List.foldl_nil, List.nil_append, List.length_append, List.length_cons, List.length_nil]
    split_ifs <;> simp only [haloNode2_length, List.length_nil] <;> omega
  · intro k i _; simp [dirichlet2]

/-- **C46** (surplus storage): the entries of the zero-initialised storage that are never written are triplets `(0, 0, 0.0)`, which
leave the matrix unchanged. -/
theorem C46_surplus (ts : List (Triplet K)) (k : Nat) (P : Nat → K) (r : Nat) :
    applyT (ts ++ List.replicate k (0, 0, 0)) P r = applyT ts P r := by
  rw [applyT_append]
  have : applyT (List.replicate k ((0, 0, 0) : Triplet K)) P r = 0 := by
    apply list_map_sum_zero; intro t ht; rw [List.eq_of_mem_replicate ht]; simp
  rw [this, add_zero]

/-! ## Non-vacuity -/

def vec2 (x y : ℚ) : Vec ℚ := fun k => if k = 0 then x else if k = 1 then y else 0

/-- The unit square cut into two triangles along the diagonal (0,0)-(1,1); cell 0 below it, cell 1 above it.  Faces: 0 diagonal, 1 bottom,
2 right, 3 top, 4 left.  The vertices 0 and 1 carry label 1, the others label 2. -/
def sqMesh : Mesh ℚ :=
  let cc : Nat → Vec ℚ := fun c => if c = 0 then vec2 (2/3) (1/3) else vec2 (1/3) (2/3)
  let vx : Nat → Vec ℚ := fun n => match n with | 0 => vec2 0 0 | 1 => vec2 1 0 | 2 => vec2 1 1 | _ => vec2 0 1
  let gc : Nat → Vec ℚ := fun i => match i with | 1 => vec2 (2/3) (-1/3) | 2 => vec2 (4/3) (1/3) | 3 => vec2 (1/3) (4/3) | _ => vec2 (-1/3) (2/3)
  let c0 : Nat → Nat := fun i => match i with | 3 => 1 | 4 => 1 | _ => 0
  let rows : Nat → List (GhostRow ℚ) := fun n => match n with
    | 0 => [⟨gc 1, 0, 1⟩, ⟨gc 4, 1, 4⟩] | 1 => [⟨gc 1, 0, 1⟩, ⟨gc 2, 0, 2⟩] | 2 => [⟨gc 2, 0, 2⟩, ⟨gc 3, 1, 3⟩] | _ => [⟨gc 3, 1, 3⟩, ⟨gc 4, 1, 4⟩]
  { T := { centerc := cc, centerh := fun _ _ => 0, cellidn := fun n => match n with | 0 => [0, 1] | 1 => [0] | 2 => [0, 1] | _ => [1]
           haloidn := fun _ => [], periodicn := fun _ => [], vertexn := vx, oldname := fun n => if n < 2 then 1 else 2
           namen := fun n => if n < 2 then 1 else 2, ghosts := fun n => (rows n).map (fun g => (g.point, g.last))
           haloghosts := fun _ => [], shift := fun _ _ => 0 }
    F := { cellid0 := c0, cellid1 := fun _ => 1, nodeid := fun i j => match i, j with
             | 0, 0 => 0 | 0, _ => 2 | 1, 0 => 0 | 1, _ => 1 | 2, 0 => 1 | 2, _ => 2 | 3, 0 => 2 | 3, _ => 3 | _, 0 => 3 | _, _ => 0
           name := fun i => match i with | 0 => 0 | 1 => 1 | _ => 2
           halofid := fun _ => 0
           normal := fun i => match i with | 0 => vec2 (-1) 1 | 1 => vec2 0 (-1) | 2 => vec2 1 0 | 3 => vec2 0 1 | _ => vec2 (-1) 0
           ghostcenter := gc, centerc := cc, centerh := fun _ _ => 0, shift := fun _ _ => 0, vertexn := vx }
    ghostrows := rows, haloghostrows := fun _ => [], oldnamen := fun n => if n < 2 then 1 else 2, volume := fun _ => 1/2
    loctoglob := fun c => c, haloext := fun h => h }

/-- Non-vacuity of C48-C50: Dirichlet on the bottom, Neumann elsewhere. -/
theorem sq_ok : Ok 2 sqMesh ⟨[0], [], [1]⟩ 2 where
  inj := fun a _ b _ h => h
  cell0 := by decide
  cell1 := by decide
  node := by
    have : ∀ n, NodeOk 2 sqMesh n := fun n => ⟨rfl, rfl, by
        intro h; exfalso; revert h
        match n with
        | 0 => decide | 1 => decide | 2 => decide | n + 3 => simp [sqMesh, firstGhost],
      fun _ => ⟨rfl, by simp [sqMesh]⟩, fun h => absurd rfl h⟩
    exact fun i _ j _ => this _
  haloper := by simp
  dir := by decide
example : FieldsOf sqMesh (fun g => (g : ℚ) + 1) ⟨fun c => c + 1, fun f => if f = 1 ∨ f = 2 then 1 else 2, fun h => h + 1, fun _ => 0⟩ := by
  refine ⟨fun _ => rfl, fun _ => rfl, fun n => ?_, fun n => by simp [sqMesh]⟩
  match n with
  | 0 => simp [sqMesh]; norm_num
  | 1 => simp [sqMesh]
  | 2 => simp [sqMesh]; norm_num
  | n + 3 => simp [sqMesh]; norm_num
theorem sq_wellposed (n : Nat) : WellPosed 2 sqMesh n := by
  rintro ⟨u, c, ⟨k, hk, hu⟩, h⟩
  have hk' : k = 0 ∨ k = 1 := by omega
  match n, h with
  | 0, h =>
    have h0 := h (vec2 (2/3) (1/3)) (by simp [nodeStencil, sqMesh])
    have h1 := h (vec2 (1/3) (2/3)) (by simp [nodeStencil, sqMesh])
    have h2 := h (vec2 (2/3) (-1/3)) (by simp [nodeStencil, sqMesh, firstGhost, ghostPart])
    simp [vec2, Finset.sum_range_succ] at h0 h1 h2
    rcases hk' with rfl | rfl <;> (apply hu; linarith)
  | 1, h =>
    have h0 := h (vec2 (2/3) (1/3)) (by simp [nodeStencil, sqMesh])
    have h1 := h (vec2 (4/3) (1/3)) (by simp [nodeStencil, sqMesh, firstGhost, ghostPart])
    have h2 := h (vec2 (2/3) (-1/3)) (by simp [nodeStencil, sqMesh, firstGhost, ghostPart])
    simp [vec2, Finset.sum_range_succ] at h0 h1 h2
    rcases hk' with rfl | rfl <;> (apply hu; linarith)
  | 2, h =>
    have h0 := h (vec2 (2/3) (1/3)) (by simp [nodeStencil, sqMesh])
    have h1 := h (vec2 (4/3) (1/3)) (by simp [nodeStencil, sqMesh, firstGhost, ghostPart])
    have h2 := h (vec2 (1/3) (2/3)) (by simp [nodeStencil, sqMesh])
    simp [vec2, Finset.sum_range_succ] at h0 h1 h2
    rcases hk' with rfl | rfl <;> (apply hu; linarith)
  | n + 3, h =>
    have h0 := h (vec2 (1/3) (2/3)) (by simp [nodeStencil, sqMesh])
    have h1 := h (vec2 (-1/3) (2/3)) (by simp [nodeStencil, sqMesh, firstGhost, ghostPart])
    have h2 := h (vec2 (1/3) (4/3)) (by simp [nodeStencil, sqMesh, firstGhost, ghostPart])
    simp [vec2, Finset.sum_range_succ] at h0 h1 h2
    rcases hk' with rfl | rfl <;> (apply hu; linarith)
example : Orthogonal2 sqMesh.F 1 := by unfold Orthogonal2; decide +kernel
example : (getTriplet2 sqMesh [1] ⟨[0], [], [1]⟩).length = 14 ∧
    applyT (getTriplet2 sqMesh [1] ⟨[0], [], [1]⟩) (fun g => g + 1) 0
      - getRhsGlob2 sqMesh [1] ⟨[0], [], [1]⟩ (fun _ => 5) (fun _ => 5) (fun _ => 0) 0 ≠ 0 ∧
    getRhsGlob2 sqMesh [1] ⟨[0], [], [1]⟩ (fun _ => 5) (fun _ => 5) (fun _ => 0) 0 ≠ 0 ∧
    applyT (getTriplet2 sqMesh [1] ⟨[0], [], [1]⟩) (fun _ => 5) 0 = getRhsGlob2 sqMesh [1] ⟨[0], [], [1]⟩ (fun _ => 5) (fun _ => 5) (fun _ => 0) 0 := by
  decide +kernel

/-- A subdomain `[0,1]×[0,1]` of a mesh periodic in `x`; its upper face 0 (vertices 2, 3) is on the subdomain boundary and its two
vertices have a periodic neighbour. -/
def haloPerMesh : Mesh ℚ :=
  let cc : Nat → Vec ℚ := fun c => if c = 0 then vec2 (2/3) (1/3) else vec2 (1/3) (2/3)
  let ch : Nat → Vec ℚ := fun h => if h = 0 then vec2 (2/3) (5/3) else vec2 (1/2) (4/3)
  let vx : Nat → Vec ℚ := fun n => match n with | 2 => vec2 1 1 | _ => vec2 0 1
  let sh : Nat → Vec ℚ := fun c => if c = 0 then vec2 (-1) 0 else vec2 1 0
  { T := { centerc := cc, centerh := ch, cellidn := fun n => match n with | 2 => [0, 1] | _ => [1]
           haloidn := fun n => match n with | 2 => [0] | _ => [0, 1]
           periodicn := fun n => match n with | 2 => [1] | _ => [0], vertexn := vx, oldname := fun n => if n = 2 then 22 else 11
           namen := fun _ => 10, ghosts := fun _ => [], haloghosts := fun _ => [], shift := sh }
    F := { cellid0 := fun _ => 1, cellid1 := fun _ => 1, nodeid := fun _ j => match j with | 0 => 2 | _ => 3
           name := fun _ => 10, halofid := fun _ => 0, normal := fun _ => vec2 0 1
           ghostcenter := cc, centerc := cc, centerh := ch, shift := sh, vertexn := vx }
    ghostrows := fun _ => [], haloghostrows := fun _ => [], oldnamen := fun n => if n = 2 then 22 else 11, volume := fun _ => 1/2
    loctoglob := fun c => c, haloext := fun h => h + 2 }

/-- **C47** fails for subdomain-boundary faces with a periodic vertex: the loop of the halo faces has no periodic neighbours although
the weights were normalised with them, so the row sum is not zero. -/
theorem C47_halo_periodic_counterexample : NodeOk 2 haloPerMesh 2 ∧ NodeOk 2 haloPerMesh 3 ∧
    applyT (getTriplet2 haloPerMesh [] ⟨[], [0], []⟩) (fun _ => 1) (haloPerMesh.loctoglob 1) ≠ 0 := by
  refine ⟨⟨rfl, rfl, by simp [haloPerMesh], by simp [haloPerMesh], by simp [haloPerMesh]⟩,
    ⟨rfl, rfl, by simp [haloPerMesh], by simp [haloPerMesh], by simp [haloPerMesh]⟩, by decide +kernel⟩

end Verif.LinSys
