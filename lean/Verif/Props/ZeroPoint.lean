import Verif.Spec.ZeroPoint
import Verif.Props.MovedVar
import Verif.Props.Diffusion

/-!
# C131: the zero of the transported quantity does not matter
-/
set_option linter.unusedSectionVars false
set_option linter.unusedSimpArgs false
set_option linter.unusedVariables false

namespace Verif.Props.Par
open Verif.Fvm Verif.Spec Verif.Conn Verif.Dom Verif.Geo Verif.Names Verif.MeshFile Verif.Part Verif.Comm Verif.Run Verif.HaloGhost Verif.Interp
variable {K : Type*} [Field K] [LinearOrder K] [IsStrictOrderedRing K]

/-! ### kernels -/

/-- A point with its value raised by `β`. -/
def raise (β : K) (e : Vec K × K) : Vec K × K := (e.1, e.2 + β)

theorem cut_map_lsum (d : Nat) {l l' : List (Vec K × K)} {g : Vec K × K → Vec K × K} (h : l'.map (cut d) = (l.map (cut d)).map g)
    (f f' : Vec K × K → K) (hf : ∀ e, f' (cut d e) = f' e) (hff : ∀ e, f' (g (cut d e)) = f e) : lsum l' f' = lsum l f := by
  rw [← cut_lsum l' f' hf, h]
  unfold lsum
  rw [List.map_map, List.map_map]
  congr 1
  apply List.map_congr_left
  intro e _
  exact hff e

theorem raised_momM {d : Nat} {l l' : List (Vec K × K)} {β : K} (h : l'.map (cut d) = (l.map (cut d)).map (raise β)) (v : Vec K) :
    momM d v l' = momM d v l := by
  unfold momM
  ext i j
  simp only [Matrix.of_apply]
  refine cut_map_lsum d h _ _ (fun e => ?_) (fun e => ?_)
  · simp only [cut_coord]
  · simp only [raise, cut_coord]

theorem raised_gradFit {d : Nat} {l l' : List (Vec K × K)} {β : K} (h : l'.map (cut d) = (l.map (cut d)).map (raise β)) (v : Vec K) (w : K) :
    gradFit d v (w + β) l' = gradFit d v w l := by
  unfold gradFit
  rw [raised_momM h]
  congr 1
  funext i
  unfold momV
  refine cut_map_lsum d h _ _ (fun e => ?_) (fun e => ?_)
  · simp only [cut_coord]; rfl
  · simp only [raise, cut_coord]
    show _ * (e.2 + β - (w + β)) = _
    ring

theorem raised_nodeFit {d : Nat} {l l' lc : List (Vec K × K)} {β : K} (h : l'.map (cut d) = (l.map (cut d)).map (raise β))
    (hc : lc.map (cut d) = (l.map (cut d)).map (fun e => (e.1, β))) (v : Vec K) : nodeFit d v l' = nodeFit d v l + nodeFit d v lc := by
  have hz : ∀ e : Vec K × K, cut d (e.1, (0 : K)) = ((cut d e).1, 0) := fun e => rfl
  have m' := raised_momM h v
  have mc : momM d v lc = momM d v l := by
    unfold momM
    ext i j
    simp only [Matrix.of_apply]
    exact cut_map_lsum d hc _ _ (fun e => by simp only [cut_coord]) (fun e => by simp only [cut_coord])
  have v' : momV d v l' (fun _ => 1) = momV d v l fun _ => 1 := by
    unfold momV; funext i
    exact cut_map_lsum d h _ _ (fun e => by simp only [cut_coord]) (fun e => by simp only [raise, cut_coord])
  have vc : momV d v lc (fun _ => 1) = momV d v l fun _ => 1 := by
    unfold momV; funext i
    exact cut_map_lsum d hc _ _ (fun e => by simp only [cut_coord]) (fun e => by simp only [cut_coord])
  have n' : lsum l' (fun _ => (1 : K)) = lsum l (fun _ => 1) := cut_map_lsum d h _ _ (fun _ => rfl) (fun _ => rfl)
  have nc : lsum lc (fun _ => (1 : K)) = lsum l (fun _ => 1) := cut_map_lsum d hc _ _ (fun _ => rfl) (fun _ => rfl)
  unfold nodeFit
  rw [m', mc, v', vc, n', nc]
  generalize lsolve : lsSolve (momM d v l) (momV d v l fun _ => 1) = x
  generalize (lsum l (fun _ => (1 : K)) - ∑ i : Fin d, x i * momV d v l (fun _ => 1) i) = D
  rw [cut_map_lsum d h (fun e => (1 - ∑ i : Fin d, x i * (e.1 i - v i)) / D * (e.2 + β)) _ (fun e => by simp only [cut_coord]; rfl)
      (fun e => by simp only [raise, cut_coord]; rfl),
    cut_map_lsum d hc (fun e => (1 - ∑ i : Fin d, x i * (e.1 i - v i)) / D * β) _ (fun e => by simp only [cut_coord]; rfl)
      (fun e => by simp only [cut_coord])]
  unfold lsum
  rw [← List.sum_map_add]
  congr 1
  apply List.map_congr_left
  intro e _
  ring

theorem gradPts2_raise (β : K) (a b l r : Vec K × K) : gradPts2 (raise β a) (raise β b) (raise β l) (raise β r) = gradPts2 a b l r := by
  funext k
  unfold gradPts2 raise
  match k with
  | 0 => simp only [add_sub_add_right_eq_sub]
  | 1 => simp only [add_sub_add_right_eq_sub]
  | k + 2 => rfl

theorem gradPts3_raise (β : K) (a b c l r : Vec K × K) :
    gradPts3 (raise β a) (raise β b) (raise β c) (raise β l) (raise β r) = gradPts3 a b c l r := by
  funext k
  unfold gradPts3 raise
  simp only [add_sub_add_right_eq_sub]

theorem upwind_raise (x a b β : K) : upwind x (a + β) (b + β) = upwind x a b + β * x := by
  unfold upwind
  rcases le_total 0 x with h | h
  · rw [max_eq_left h, min_eq_right h]; ring
  · rw [max_eq_right h, min_eq_left h]; ring

theorem extrap_raise (dim : Nat) (o : Int) (q ψ β : K) (g r : Nat → K) : extrap dim o (q + β) ψ g r = extrap dim o q ψ g r + β := by
  unfold extrap; ring

/-! ### the tables of one process -/

section
variable {dim : Nat} {nodeid : Nat → Nat → Nat} {node : Nat → K × K × K × Nat} {cv : Nat → List K} {npart0 epart : Nat → Nat}
  {nbnodes n SIZE : Nat} {data : Nat → RankData K} {serial : RankData K} {L : Nat → Tables K} {G : Tables K} {B : List Int}
  {out : Nat → Nat → Vec K} {trunc : K → Int} {β : K} {bc bc' : Int → BCond K} {wG wL : Interp.Fields K}

theorem raised_ghostVal (c : Consistent G (dim + 1) B) {W W' : Nat → K} (hW : ∀ C < G.nbcells, W' C = W C + β) {b b' : BCond K}
    (hb : RaisedBC β b b') {f : Nat} (hf : f < G.nbfaces) : ghostVal G W' f b' = ghostVal G W f b + β := by
  cases hb with
  | neumann => exact hW _ (c.left_lt hf)
  | dirichlet h => exact h _ _ _

theorem raised_ghost (c : Consistent G (dim + 1) B) (hB : ∀ b ∈ B, b ∈ locNames dim) (hb : ∀ loc, RaisedBC β (bc loc) (bc' loc))
    (vG : ValuesG dim G bc wG) (vL : ValuesG dim G bc' wL) (hW : ∀ C < G.nbcells, wL.c C = wG.c C + β) {f : Nat} (hf : f ∈ G.boundaryfaces) :
    wL.ghost f = wG.ghost f + β := by
  obtain ⟨g1, e1⟩ := vG.ghost
  obtain ⟨g2, e2⟩ := vL.ghost
  obtain ⟨h1, h2⟩ := (c.bnd.2 f).mp hf
  rw [e1, e2, updateGhosts_apply _ _ _ _ _ h1 (hB _ h2), updateGhosts_apply _ _ _ _ _ h1 (hB _ h2)]
  exact raised_ghostVal c hW (hb _) h1

/-- The value of a node. -/
theorem raised_node (h : NodePair dim nodeid node cv npart0 epart nbnodes n SIZE data serial L G B out trunc) {hgG : Nat → HGResult K}
    (sG : HGSerial dim G nbnodes (hgG 0)) (hb : ∀ loc, RaisedBC β (bc loc) (bc' loc)) (vG : ValuesG dim G bc wG) (vL : ValuesG dim G bc' wL)
    (hW : ∀ C < G.nbcells, wL.c C = wG.c C + β) {s : Nat} (hi : s < nbnodes) (hsur : Surrounded dim nodeid n G s) :
    nodeValues dim 1 serial G (hgG 0) wL s = nodeValues dim 1 serial G (hgG 0) wG s + β := by
  have R := h.run.rank 0 (by have := h.run.hS; omega)
  obtain ⟨U, _, cU, vU⟩ := serial_update (dim := dim) serial G hgG (fun _ => BCond.neumann) (fun _ => ⟨fun _ => β, fun _ => 0, fun _ => 0, []⟩)
  have hU : ∀ C < G.nbcells, (U 0).fields.c C = β := fun C _ => by show (U 0).cell C = β; rw [cU]
  have nc := node_const h sG (vU 0) β hU (fun _ => trivial) hi hsur
  have sl := h.node_stencilG sG vL hi
  have sg := h.node_stencilG sG vG hi
  have sc := h.node_stencilG sG (vU 0) hi
  have e1 : (nodeStencil dim (nodeTabs dim 1 serial G (hgG 0)) wL s).map (cut dim) =
      ((nodeStencil dim (nodeTabs dim 1 serial G (hgG 0)) wG s).map (cut dim)).map (raise β) := by
    rw [sl, sg, List.map_append, List.map_map, List.map_map]
    congr 1
    · apply List.map_congr_left
      intro C hC
      show cut dim (G.center C, wL.c C) = raise β (cut dim (G.center C, wG.c C))
      rw [hW C (by rw [h.run.nG]; exact ((mem_users _ _ _ _ _).mp hC).1)]; rfl
    · apply List.map_congr_left
      intro f hf
      have hf' := ((mem_bf _ _ _).mp hf).1
      show cut dim (_, ghostVal G wL.c f (bc' (G.name f))) = raise β (cut dim (_, ghostVal G wG.c f (bc (G.name f))))
      rw [raised_ghostVal R.cG hW (hb _) hf']; rfl
  have e2 : (nodeStencil dim (nodeTabs dim 1 serial G (hgG 0)) (U 0).fields s).map (cut dim) =
      ((nodeStencil dim (nodeTabs dim 1 serial G (hgG 0)) wG s).map (cut dim)).map (fun e => (e.1, β)) := by
    rw [sc, sg, List.map_append, List.map_map, List.map_map]
    congr 1
    · apply List.map_congr_left
      intro C hC
      show cut dim (G.center C, (U 0).fields.c C) = ((cut dim (G.center C, wG.c C)).1, β)
      rw [hU C (by rw [h.run.nG]; exact ((mem_users _ _ _ _ _).mp hC).1)]; rfl
    · apply List.map_congr_left
      intro f hf
      show cut dim (_, ghostVal G (U 0).fields.c f .neumann) = ((cut dim (_, ghostVal G wG.c f (bc (G.name f)))).1, β)
      rw [show ghostVal G (U 0).fields.c f .neumann = β from hU _ (R.cG.left_lt ((mem_bf _ _ _).mp hf).1)]; rfl
  unfold nodeValues at nc ⊢
  rcases h.run.hd with rfl | rfl
  · rw [if_pos rfl] at nc ⊢
    rw [if_pos rfl]
    rw [nodeFit2] at nc ⊢
    rw [nodeFit2, raised_nodeFit e1 e2, nc]
  · rw [if_neg (by decide)] at nc ⊢
    rw [if_neg (by decide)]
    rw [nodeFit3] at nc ⊢
    rw [nodeFit3, raised_nodeFit e1 e2, nc]

/-- The gradient of a cell. -/
theorem raised_cellGrad (h : NodePair dim nodeid node cv npart0 epart nbnodes n SIZE data serial L G B out trunc) {hgG : HGResult K}
    (sG : HGSerial dim G nbnodes hgG) (hb : ∀ loc, RaisedBC β (bc loc) (bc' loc)) (vG : ValuesG dim G bc wG) (vL : ValuesG dim G bc' wL)
    (hW : ∀ C < G.nbcells, wL.c C = wG.c C + β) {C : Nat} (hC : C < G.nbcells) :
    cellGrads dim 1 serial G hgG wL C = cellGrads dim 1 serial G hgG wG C := by
  have R := h.run.rank 0 (by have := h.run.hS; omega)
  have hn : ∀ j < dim + 1, G.cnode C j < nbnodes := by
    intro j hj
    have hC' : C < n := h.run.nG ▸ hC
    have := (h.cnodeG C hC').subset (List.mem_map.mpr ⟨j, List.mem_range.mpr hj, rfl⟩)
    obtain ⟨i, hi, e⟩ := List.mem_map.mp this
    rw [← e]
    exact h.hl.hnode _ hC' i (List.mem_range.mp hi)
  have st : ∀ m : Int, (∀ b ∈ B, b ≤ m) → (cellStencil m (nodeTabs dim 1 serial G hgG) (cellTabs dim 1 serial G) wL [] C).map (cut dim) =
      ((cellStencil m (nodeTabs dim 1 serial G hgG) (cellTabs dim 1 serial G) wG [] C).map (cut dim)).map (raise β) := by
    intro m hm
    rw [ser_cellStencil R.cG h.run.hB bc' serial h.labelG sG vL hn m hm, ser_cellStencil R.cG h.run.hB bc serial h.labelG sG vG hn m hm,
      List.map_append, List.map_map, List.map_flatMap]
    congr 1
    · apply List.map_congr_left
      intro x hx
      show cut dim (G.center x, wL.c x) = raise β (cut dim (G.center x, wG.c x))
      rw [hW x ((mem_cellNeigh _ _ _ _ _).mp hx).1]; rfl
    · apply List.flatMap_congr
      intro s hs
      rw [List.map_map]
      apply List.map_congr_left
      intro f hf
      show cut dim (_, ghostVal G wL.c f (bc' (G.name f))) = raise β (cut dim (_, ghostVal G wG.c f (bc (G.name f))))
      rw [raised_ghostVal R.cG hW (hb _) ((mem_bf _ _ _).mp hf).1]; rfl
  have hB := h.hBe
  unfold cellGrads
  rcases h.run.hd with rfl | rfl
  · have st := st 4 (by rw [hB]; decide)
    have e : ∀ w, cellPeriodic2 (nodeTabs 2 1 serial G hgG) (cellTabs 2 1 serial G) w C = [] := by
      intro w; simp [cellPeriodic2, periodicPart, nodeTabs, cellTabs]
    rw [if_pos rfl, if_pos rfl, gradFit2, gradFit2, e, e, hW C hC, raised_gradFit st]
  · have st := st 6 (by rw [hB]; decide)
    rw [if_neg (by decide), if_neg (by decide), gradFit3 _ _ _ _ rfl, gradFit3 _ _ _ _ rfl, hW C hC, raised_gradFit st]

/-- The sides of a face. -/
theorem raised_sides (h : NodePair dim nodeid node cv npart0 epart nbnodes n SIZE data serial L G B out trunc)
    (hb : ∀ loc, RaisedBC β (bc loc) (bc' loc)) (vG : ValuesG dim G bc wG) (vL : ValuesG dim G bc' wL)
    (hW : ∀ C < G.nbcells, wL.c C = wG.c C + β) {f : Nat} (hf : f < G.nbfaces) :
    sideL dim G wL f = raise β (sideL dim G wG f) ∧ sideR dim G wL f = raise β (sideR dim G wG f) := by
  have R := h.run.rank 0 (by have := h.run.hS; omega)
  constructor
  · unfold sideL; rw [hW _ (R.cG.left_lt hf)]; rfl
  · have e : otherVal G wL f = otherVal G wG f + β := by
      unfold otherVal
      by_cases h0 : G.name f = 0
      · rw [if_pos h0, if_pos h0]; exact hW _ (R.cG.right_lt hf h0)
      · rcases h.nameG_cases hf with e | e
        · exact absurd e h0
        · have hne : G.name f ≠ 10 := fun x => R.cG.B10 (x ▸ e)
          rw [if_neg h0, if_neg h0, if_neg hne, if_neg hne]
          exact raised_ghost R.cG h.run.hB hb vG vL hW ((R.cG.bnd.2 f).mpr ⟨hf, e⟩)
    unfold sideR; rw [e]; rfl

/-- The limiter of a cell. -/
theorem raised_limiter (h : NodePair dim nodeid node cv npart0 epart nbnodes n SIZE data serial L G B out trunc)
    (hb : ∀ loc, RaisedBC β (bc loc) (bc' loc)) (vG : ValuesG dim G bc wG) (vL : ValuesG dim G bc' wL)
    (hW : ∀ C < G.nbcells, wL.c C = wG.c C + β) (eps : K) (gL gG : Nat → K × K × K) {C : Nat} (hC : C < G.nbcells) (hg : gL C = gG C) :
    limiter dim eps G wL gL C = limiter dim eps G wG gG C := by
  have R := h.run.rank 0 (by have := h.run.hS; omega)
  have flt : ∀ f ∈ (List.range (dim + 1)).map (G.faceid C), f < G.nbfaces := by
    intro f hf
    obtain ⟨j, hj, rfl⟩ := List.mem_map.mp hf
    exact R.cG.flt C hC j (List.mem_range.mp hj)
  have nmG : ∀ f ∈ (List.range (dim + 1)).map (G.faceid C), G.name f = 0 ∨ G.name f = 10 ∨
      G.name f ∈ (if dim = 2 then [1, 2, 3, 4] else [1, 2, 3, 4, 5, 6] : List Int) := by
    intro f hf
    rw [← h.hBe]; exact (h.nameG_cases (flt f hf)).imp id Or.inr
  unfold limiter barthLimiter
  rw [limiterBounds_eq dim h.run.hd G wL _ C nmG, limiterBounds_eq dim h.run.hd G wG _ C nmG, hg, hW C hC]
  have hbd : ∀ (l : List Nat), (∀ f ∈ l, f < G.nbfaces) → ∀ b : K × K, l.foldl (fun b f => (max b.1 (max (sideL dim G wL f).2 (sideR dim G wL f).2),
        min b.2 (min (sideL dim G wL f).2 (sideR dim G wL f).2))) (b.1 + β, b.2 + β) =
      ((l.foldl (fun b f => (max b.1 (max (sideL dim G wG f).2 (sideR dim G wG f).2), min b.2 (min (sideL dim G wG f).2 (sideR dim G wG f).2))) b).1 + β,
        (l.foldl (fun b f => (max b.1 (max (sideL dim G wG f).2 (sideR dim G wG f).2), min b.2 (min (sideL dim G wG f).2 (sideR dim G wG f).2))) b).2 + β) := by
    intro l
    induction l with
    | nil => intro _ b; rfl
    | cons f l ih =>
      intro hl b
      obtain ⟨e1, e2⟩ := raised_sides h hb vG vL hW (hl f List.mem_cons_self)
      rw [List.foldl_cons, List.foldl_cons, ← ih (fun x hx => hl x (List.mem_cons_of_mem _ hx)), e1, e2]
      simp only [raise, max_add_add_right, min_add_add_right]
  rw [hbd _ flt (wG.c C, wG.c C)]
  apply List.foldl_ext
  intro b f hf
  dsimp only
  congr 1
  unfold psiFace
  simp only [add_sub_add_right_eq_sub]

/-- The gradient on a face. -/
theorem raised_faceGrads (h : NodePair dim nodeid node cv npart0 epart nbnodes n SIZE data serial L G B out trunc) (hw3 : dim = 3 → WedgeOk G)
    (hb : ∀ loc, RaisedBC β (bc loc) (bc' loc)) (vG : ValuesG dim G bc wG) (vL : ValuesG dim G bc' wL)
    (hW : ∀ C < G.nbcells, wL.c C = wG.c C + β) (nL nG : Nat → K) (hN : ∀ s < nbnodes, nL s = nG s + β) {f : Nat} (hf : f < G.nbfaces) {k : Nat}
    (hk : k < 3) : faceGrads dim G bc' wL nL f k = faceGrads dim G bc wG nG f k := by
  have R := h.run.rank 0 (by have := h.run.hS; omega)
  have nm : G.name f = 0 ∨ G.name f = 10 ∨ G.name f ∈ B := (h.nameG_cases hf).imp id Or.inr
  obtain ⟨sl, sr⟩ := raised_sides h hb vG vL hW hf
  have pt : ∀ j < dim, cut dim (nodePt G nL f j) = raise β (cut dim (nodePt G nG f j)) := by
    intro j hj
    obtain ⟨C, hC, i, hi, rfl⟩ := R.cG.fsurj f hf
    rw [h.run.nG] at hC
    obtain ⟨f1, f2, f3⟩ := h.fnodeG _ hC i hi
    have hm : (G.fnode (G.faceid C i)).getD j 0 ∈ G.fnode (G.faceid C i) := by
      rw [List.getD_eq_getElem?_getD, List.getElem?_eq_getElem (by omega)]
      exact List.getElem_mem _
    obtain ⟨i', hi', e⟩ := f3 _ hm
    have := hN ((G.fnode (G.faceid C i)).getD j 0) (by rw [← e]; exact h.hl.hnode _ hC i' hi')
    unfold nodePt
    rw [this]; rfl
  have hBe := h.hBe
  rcases h.run.hd with rfl | rfl
  · rw [faceGrads_pts2 R.cG (by simpa using hBe) bc' wL nL hf nm, faceGrads_pts2 R.cG (by simpa using hBe) bc wG nG hf nm, pt 0 (by omega), pt 1 (by omega),
      sl, sr, gradPts2_raise]
  · rw [faceGrads_pts3 R.cG (by simpa using hBe) (hw3 rfl) bc' wL nL hf nm hk, faceGrads_pts3 R.cG (by simpa using hBe) (hw3 rfl) bc wG nG hf nm hk,
      pt 0 (by omega), pt 1 (by omega), pt 2 (by omega), sl, sr, gradPts3_raise]

theorem raised_dissip (c : Consistent G (dim + 1) B) (S : Setup K) (bc' : Int → BCond K) (gL gG : Nat → Vec K)
    (hg : ∀ f < G.nbfaces, ∀ k < 3, gL f k = gG f k) {C : Nat} (hC : C < G.nbcells) :
    Run.dissip G { S with bc := bc' } gL C = Run.dissip G S gG C := by
  rw [c.dissip _ gL hC, c.dissip S gG hC]
  apply Finset.sum_congr rfl
  intro j hj
  have hf := c.flt C hC j (Finset.mem_range.mp hj)
  generalize G.faceid C j = f at hf
  unfold diffTerm diffFlux
  simp only [hg f hf 0 (by omega), hg f hf 1 (by omega), hg f hf 2 (by omega)]

/-- The convective residual of a cell, the gradients and the limiter being the same. -/
theorem raised_conv (h : NodePair dim nodeid node cv npart0 epart nbnodes n SIZE data serial L G B out trunc) (hs : Solid G dim out)
    {S S' : Setup K} (hu : S'.u = S.u) (hv : S'.v = S.v) (hw : S'.w = S.w) (hvel : UniformVelocity S) (it : Nat) (cL cG gL gG : Nat → K) (hL hG : List K)
    (rL rG : Grads K) (hc : ∀ C < G.nbcells, cL C = cG C + β) (hg : ∀ f ∈ G.boundaryfaces, gL f = gG f + β)
    (hr : ∀ C < G.nbcells, rL.wx C = rG.wx C ∧ rL.wy C = rG.wy C ∧ rL.wz C = rG.wz C ∧ rL.psi C = rG.psi C) (o : Int) {C : Nat} (hC : C < G.nbcells) :
    conv dim (convArgs G (fieldsOf S' G it cL gL hL rL) o) C = conv dim (convArgs G (fieldsOf S G it cG gG hG rG) o) C := by
  have R := h.run.rank 0 (by have := h.run.hS; omega)
  have hS' : fieldsOf S' G it cL gL hL rL = fieldsOf S G it cL gL hL rL := by
    simp only [fieldsOf, hu, hv, hw]
  rw [hS', conv_balance R.cG _ _ h.run.hd, conv_balance R.cG _ _ h.run.hd]
  obtain ⟨F, hF⟩ : ∃ F, F = fieldsOf S G it cG gG hG rG := ⟨_, rfl⟩
  obtain ⟨F', hF'⟩ : ∃ F, F = fieldsOf S G it cL gL hL rL := ⟨_, rfl⟩
  rw [← hF, ← hF']
  obtain ⟨a, b, d, huv⟩ := hvel it
  have vel : ∀ i, (convArgs G F o).u_face i = a ∧ (convArgs G F o).v_face i = b ∧ (convArgs G F o).w_face i = d := by
    intro i; rw [hF]; exact huv _ _ _
  have hcl := R.closed rfl hs F o hC
  have hz : outSum (convArgs G F o) (vn (convArgs G F o)) C = 0 := by
    rw [outSum_lin _ _ a b d vel, hcl 0 (by omega), hcl 1 (by omega), hcl 2 (by omega)]; ring
  have ok := R.facesOK F o dim
  have hper : (convArgs G F o).periodicboundaryfaces = [] := R.cG.per
  have hhal : (convArgs G F o).halofaces = [] := R.halo_nil
  have cf : ∀ k < G.nbcells, ∀ i, cellAtFace (convArgs G F' o) dim k i = cellAtFace (convArgs G F o) dim k i + β := by
    intro k hk i
    obtain ⟨x, y, z, p⟩ := hr k hk
    have e1 : F'.w k = F.w k + β := by rw [hF, hF']; exact hc k hk
    have e2 : F'.psi k = F.psi k := by rw [hF, hF']; exact p
    have e3 : cellGrad (convArgs G F' o) k = cellGrad (convArgs G F o) k := by
      funext m
      rw [hF, hF']
      match m with
      | 0 => exact x
      | 1 => exact y
      | m + 2 => exact z
    unfold cellAtFace
    rw [e3]
    show extrap dim o (F'.w k) (F'.psi k) _ _ = extrap dim o (F.w k) (F.psi k) _ _ + β
    rw [e1, e2, extrap_raise]; rfl
  have vv : ∀ i, vn (convArgs G F' o) i = vn (convArgs G F o) i := by intro i; rw [hF, hF']; rfl
  have e1 : ∀ i ∈ (convArgs G F o).innerfaces, innerFlux (convArgs G F' o) dim i = innerFlux (convArgs G F o) dim i + β * vn (convArgs G F o) i := by
    intro i hi
    unfold innerFlux
    show upwind _ (cellAtFace _ dim (left (convArgs G F o) i) i) (cellAtFace _ dim (right (convArgs G F o) i) i) = _
    rw [cf (left (convArgs G F o) i) (idx_lt (ok.inner_l i hi)), cf (right (convArgs G F o) i) (idx_lt (ok.inner_r i hi)), vv, upwind_raise]
  have e4 : ∀ i ∈ (convArgs G F o).boundaryfaces, boundaryFlux (convArgs G F' o) dim i = boundaryFlux (convArgs G F o) dim i + β * vn (convArgs G F o) i := by
    intro i hi
    have eg : F'.ghost i = F.ghost i + β := by rw [hF, hF']; exact hg i hi
    unfold boundaryFlux
    show upwind _ (cellAtFace _ dim (left (convArgs G F o) i) i) (F'.ghost i) = upwind _ _ (F.ghost i) + _
    rw [cf (left (convArgs G F o) i) (idx_lt (ok.bnd_l i hi)), eg, vv, upwind_raise]
  have add : ∀ (l : List Nat) (s : Nat → Nat) (A A' V : Nat → K), (∀ i ∈ l, A' i = A i + β * V i) → sumAt l s A' C = sumAt l s A C + β * sumAt l s V C := by
    intro l s A A' V hA
    unfold sumAt
    rw [← List.sum_map_mul_left, ← List.sum_map_add]
    congr 1
    apply List.map_congr_left
    intro i hi
    exact hA i (List.mem_filter.mp hi).1
  unfold outSum at hz
  unfold balance
  rw [show (convArgs G F' o).innerfaces = (convArgs G F o).innerfaces from rfl, show (convArgs G F' o).boundaryfaces = (convArgs G F o).boundaryfaces from rfl,
    show (convArgs G F' o).periodicboundaryfaces = (convArgs G F o).periodicboundaryfaces from rfl,
    show (convArgs G F' o).halofaces = (convArgs G F o).halofaces from rfl, show left (convArgs G F' o) = left (convArgs G F o) from rfl,
    show right (convArgs G F' o) = right (convArgs G F o) from rfl, hper, hhal]
  rw [hper, hhal] at hz
  have nil : ∀ (s : Nat → Nat) (A : Nat → K), sumAt [] s A C = 0 := fun _ _ => rfl
  rw [add _ (left (convArgs G F o)) _ _ _ e1, add _ (right (convArgs G F o)) _ _ _ e1, add _ (left (convArgs G F o)) _ _ _ e4]
  simp only [nil] at hz ⊢
  linear_combination (-β) * hz

/-! ### the run -/

/-- The two runs on the same tables agree, up to the shift of the values of the cells. -/
structure ZMatch (β : K) (n : Nat) (s t : TState K) : Prop where
  cell : ∀ c < n, (s.V 0).cell c = (t.V 0).cell c + β
  time : s.time = t.time
  iter : s.iter = t.iter

theorem raised_tstep (h : NodePair dim nodeid node cv npart0 epart nbnodes n SIZE data serial L G B out trunc) (hs : Solid G dim out)
    {hgG : Nat → HGResult K} (sG : HGSerial dim G nbnodes (hgG 0)) (hw : dim = 3 → WedgeOk G) (S : Setup K) {bc' : Int → BCond K}
    (hvel : UniformVelocity S) (hb : ∀ loc, RaisedBC β (S.bc loc) (bc' loc)) (order : Int) (diff : Bool)
    (hsur : diff = true → ∀ s < nbnodes, Surrounded dim nodeid n G s) (s u : TState K) (hm : ZMatch β G.nbcells s u) :
    ∃ s' u', tstep (serW dim serial G hgG) { S with bc := bc' } order diff s = some s' ∧ tstep (serW dim serial G hgG) S order diff u = some u' ∧
      ZMatch β G.nbcells s' u' := by
  have ar : ∀ x : K, allreduceMin 1 (fun _ => x) = x := fun x => by unfold allreduceMin; simp
  have R := h.run.rank 0 (by have := h.run.hS; omega)
  obtain ⟨V1, u1, cu1, _⟩ := serial_update (dim := dim) serial G hgG bc' s.V
  obtain ⟨U1, u2, cu2, _⟩ := serial_update (dim := dim) serial G hgG S.bc u.V
  obtain ⟨V2, gL, c1, cc1, vL, grL⟩ := ser_cellGradient (dim := dim) serial G hgG bc' V1
  obtain ⟨U2, gG, c2, cc2, vG, grG⟩ := ser_cellGradient (dim := dim) serial G hgG S.bc U1
  have m2 : ∀ c < G.nbcells, (V2 0).cell c = (U2 0).cell c + β := by
    intro c hc; rw [cc1, cu1, cc2, cu2]; exact hm.cell c hc
  have hcg := fun c (hc : c < G.nbcells) => raised_cellGrad h sG hb (vG 0) (vL 0) m2 hc
  have hgr : ∀ c < G.nbcells, (gL 0).wx c = (gG 0).wx c ∧ (gL 0).wy c = (gG 0).wy c ∧ (gL 0).wz c = (gG 0).wz c ∧ (gL 0).psi c = (gG 0).psi c := by
    intro c hc
    have a1 := (grL 0 c).1
    have b1 := (grG 0 c).1
    have e := hcg c hc
    rw [← a1, ← b1] at e
    have e' := Prod.mk.inj e
    have e'' := Prod.mk.inj e'.2
    refine ⟨e'.1, e''.1, e''.2, ?_⟩
    rw [(grL 0 c).2, (grG 0 c).2]
    exact raised_limiter h hb (vG 0) (vL 0) m2 _ _ _ hc (hcg c hc)
  have hgh : ∀ f ∈ G.boundaryfaces, (V2 0).ghost f = (U2 0).ghost f + β :=
    fun f hf => raised_ghost R.cG h.run.hB hb (vG 0) (vL 0) m2 hf
  have rez : ∀ c < G.nbcells, conv dim (convArgs G (fieldsOf { S with bc := bc' } G s.iter (V2 0).cell (V2 0).ghost (V2 0).halo (gL 0)) order) c =
      conv dim (convArgs G (fieldsOf S G u.iter (U2 0).cell (U2 0).ghost (U2 0).halo (gG 0)) order) c := by
    intro c hc
    rw [hm.iter]
    exact raised_conv h hs rfl rfl rfl hvel u.iter _ _ _ _ _ _ _ _ m2 hgh hgr order hc
  have hdt : localStep dim { S with bc := bc' } G s.iter = localStep dim S G u.iter := by rw [hm.iter]; rfl
  unfold Run.tstep
  rw [u1, u2]
  simp only [Option.bind_some]
  rw [c1, c2]
  simp only [Option.bind_some]
  cases diff with
  | false =>
    refine ⟨_, _, rfl, rfl, ⟨?_, ?_, ?_⟩⟩
    · intro c hc
      dsimp only [serW, updateNewValue, id]
      rw [ar, ar, hdt, m2 c hc, rez c hc]
      ring
    · show s.time + _ = u.time + _
      rw [ar, ar, hm.time, hdt]
    · show s.iter + 1 = u.iter + 1
      rw [hm.iter]
  | true =>
    obtain ⟨V3, nL, fL, f1, cf1, vL3, hnL, hfL⟩ := ser_faceGradient (dim := dim) serial G hgG bc' V2
    obtain ⟨U3, nG, fG, f2, cf2, vG3, hnG, hfG⟩ := ser_faceGradient (dim := dim) serial G hgG S.bc U2
    have m3 : ∀ c < G.nbcells, (V3 0).cell c = (U3 0).cell c + β := by
      intro c hc; rw [cf1, cf2]; exact m2 c hc
    have hN : ∀ i < nbnodes, nL 0 i = nG 0 i + β := by
      intro i hi
      rw [hnL, hnG]
      exact raised_node h sG hb (vG3 0) (vL3 0) m3 hi (hsur rfl i hi)
    have hfg : ∀ f < G.nbfaces, ∀ k < 3, fL 0 f k = fG 0 f k := by
      intro f hf k hk
      rw [hfL, hfG]
      exact raised_faceGrads h hw hb (vG3 0) (vL3 0) m3 _ _ hN hf hk
    have hdi : ∀ c < G.nbcells, Run.dissip G { S with bc := bc' } (fL 0) c = Run.dissip G S (fG 0) c := by
      intro c hc
      exact raised_dissip R.cG S bc' (fL 0) (fG 0) hfg hc
    rw [if_pos rfl, if_pos rfl, f1, f2]
    simp only [Option.bind_some]
    obtain ⟨V4, n4, g1, cg1, vL4, hn4⟩ := ser_celltonode (dim := dim) serial G hgG bc'
      (fun p => { V3 p with cell := (updateNewValue (V3 p).cell (conv dim (convArgs G (fieldsOf { S with bc := bc' } G s.iter (V2 p).cell (V2 p).ghost (V2 p).halo (gL p)) order))
        (Run.dissip G { S with bc := bc' } (fL p)) (fun _ => 0) (allreduceMin 1 (fun _ => localStep dim { S with bc := bc' } G s.iter)) G.volume) })
    obtain ⟨U4, k4, g2, cg2, vG4, hk4⟩ := ser_celltonode (dim := dim) serial G hgG S.bc
      (fun p => { U3 p with cell := (updateNewValue (U3 p).cell (conv dim (convArgs G (fieldsOf S G u.iter (U2 p).cell (U2 p).ghost (U2 p).halo (gG p)) order))
        (Run.dissip G S (fG p)) (fun _ => 0) (allreduceMin 1 (fun _ => localStep dim S G u.iter)) G.volume) })
    have m4 : ∀ c < G.nbcells, (V4 0).cell c = (U4 0).cell c + β := by
      intro c hc
      rw [cg1, cg2]
      dsimp only [updateNewValue]
      rw [ar, ar, hdt, m3 c hc, rez c hc, hdi c hc]
      ring
    rw [g1, g2]
    refine ⟨_, _, rfl, rfl, ⟨m4, ?_, ?_⟩⟩
    · show s.time + _ = u.time + _
      rw [ar, ar, hm.time, hdt]
    · show s.iter + 1 = u.iter + 1
      rw [hm.iter]

theorem raised_tloop (h : NodePair dim nodeid node cv npart0 epart nbnodes n SIZE data serial L G B out trunc) (hs : Solid G dim out)
    {hgG : Nat → HGResult K} (sG : HGSerial dim G nbnodes (hgG 0)) (hw : dim = 3 → WedgeOk G) (S : Setup K) {bc' : Int → BCond K}
    (hvel : UniformVelocity S) (hb : ∀ loc, RaisedBC β (S.bc loc) (bc' loc)) (order : Int) (diff : Bool)
    (hsur : diff = true → ∀ s < nbnodes, Surrounded dim nodeid n G s) (f : K → K → K → K) (N : Nat) :
    ∃ s u, tloop (serW dim serial G hgG) { S with bc := bc' } order diff (tstart (serW dim serial G hgG) (fun x y z => f x y z + β)) N = some s ∧
      tloop (serW dim serial G hgG) S order diff (tstart (serW dim serial G hgG) f) N = some u ∧ ZMatch β G.nbcells s u := by
  induction N with
  | zero => exact ⟨_, _, rfl, rfl, ⟨fun c hc => rfl, rfl, rfl⟩⟩
  | succ N ih =>
    obtain ⟨s1, t1, e1, e2, m1⟩ := ih
    simp only [Run.tloop, e1, e2, Option.bind_some]
    rw [m1.time]
    by_cases ht : t1.time < S.tfinal
    · simp only [if_pos ht]; exact raised_tstep h hs sG hw S hvel hb order diff hsur s1 t1 m1
    · simp only [if_neg ht]; exact ⟨s1, t1, rfl, rfl, m1⟩

theorem raised_par (h : NodePair dim nodeid node cv npart0 epart nbnodes n SIZE data serial L G B out trunc) (hs : Solid G dim out)
    {hgL hgG : Nat → HGResult K} (hw : dim = 3 → WedgeOk G ∧ ∀ p < SIZE, WedgeOk (L p))
    (sL : ∀ p < SIZE, ∃ rows, HGSpec dim SIZE data L p (hgL p) rows) (sG : HGSerial dim G nbnodes (hgG 0)) (S : Setup K) {bc' : Int → BCond K}
    (hvel : UniformVelocity S) (hb : ∀ loc, RaisedBC β (S.bc loc) (bc' loc)) (so : StencilOk dim nodeid epart n G S.bc)
    (so' : StencilOk dim nodeid epart n G bc') (order : Int) (diff : Bool)
    (hsur : diff = true → ∀ s < nbnodes, Surrounded dim nodeid n G s) (f : K → K → K → K) (N : Nat) :
    ∃ s u, tloop (parW dim SIZE data L hgL) { S with bc := bc' } order diff (tstart (parW dim SIZE data L hgL) (fun x y z => f x y z + β)) N = some s ∧
      tloop (parW dim SIZE data L hgL) S order diff (tstart (parW dim SIZE data L hgL) f) N = some u ∧
      (∀ p < SIZE, ∀ c < (L p).nbcells, (s.V p).cell c = (u.V p).cell c + β) ∧ s.time = u.time := by
  obtain ⟨s, t, e1, e2, m⟩ := tloop_match h hw sL sG { S with bc := bc' } so' order diff _ _ (tstart_match h hgL hgG (fun x y z => f x y z + β)) N
  obtain ⟨s2, t2, e3, e4, m2⟩ := tloop_match h hw sL sG S so order diff _ _ (tstart_match h hgL hgG f) N
  obtain ⟨a, b, e5, e6, z⟩ := raised_tloop h hs sG (fun e => (hw e).1) S hvel hb order diff hsur f N
  rw [e2] at e5
  rw [e4] at e6
  obtain rfl := Option.some.inj e5
  obtain rfl := Option.some.inj e6
  refine ⟨s, s2, e1, e3, fun p hp c hc => ?_, ?_⟩
  · rw [m.cell p hp c hc, m2.cell p hp c hc]
    exact z.cell _ ((h.run.rank p hp).sub.lt c hc).1
  · rw [m.time, m2.time]; exact z.time

end

section
variable {nodeid : Nat → Nat → Nat} {node : Nat → K × K × K × Nat} {npart0 epart : Nat → Nat}
  {nbnodes n SIZE : Nat} {data : Nat → RankData K} {serial : RankData K}

/-- **C131** (2D, one process): on every valid mesh, with a uniform velocity, Neumann or Dirichlet sides, any order, with or without diffusion
(then: the triangles around every node spread in the plane), the run started from `init + β` with the prescribed values raised by `β` holds after
any number of iterations the values of the run started from `init`, raised by `β`, at the same time. -/
theorem C131_zero_serial_2d (vm : ValidMesh2 nodeid node nbnodes n)
    (hr : readMeshFile 1 0 (writeSerial (serialWrite nodeid node nbnodes n 3)) [] = some serial)
    (sqrt : K → K) (hs : ∀ x, 0 < x → sqrt x ≠ 0) (trunc : K → Int) (htr : ∀ m : Nat, trunc (m : K) = m) :
    ∃ W, mkWorld 2 1 (fun _ => serial) (fun _ => build2 sqrt trunc 1 serial) = some W ∧
      ∀ (S : Setup K) (β : K) (bc' : Int → BCond K), UniformVelocity S → (∀ loc, RaisedBC β (S.bc loc) (bc' loc)) →
        ∀ (order : Int) (diff : Bool), (diff = true → ∀ s < nbnodes, Spread2 nodeid node n s) → ∀ (init : K → K → K → K) N,
          ∃ s t, tloop W { S with bc := bc' } order diff (tstart W (fun x y z => init x y z + β)) N = some s ∧
            tloop W S order diff (tstart W init) N = some t ∧
            (∀ c < (W.D 0).nbcells, (s.V 0).cell c = (t.V 0).cell c + β) ∧ s.time = t.time := by
  obtain ⟨data, h⟩ := launched_of_serial (centvol2 node nodeid) (by omega) vm.nodes vm.used hr
  have np := h.nodePair2 vm sqrt trunc htr
  obtain ⟨hgL, hgG, w1, w2, sL, sG⟩ := np.worlds
  refine ⟨_, w2, fun S β bc' hv hb order diff hsur init N => ?_⟩
  obtain ⟨s, t, e1, e2, m⟩ := raised_tloop np (h.solid2 vm sqrt hs trunc htr) sG (by omega) S hv hb order diff
    (fun hd s hs' => surrounded2 h vm sqrt trunc htr (hsur hd s hs')) init N
  exact ⟨s, t, e1, e2, m.cell, m.time⟩

/-- C131 (3D, one process). -/
theorem C131_zero_serial_3d (vm : ValidMesh3 nodeid node nbnodes n)
    (hr : readMeshFile 1 0 (writeSerial (serialWrite nodeid node nbnodes n 4)) [] = some serial)
    (sqrt : K → K) (hs : ∀ x, 0 < x → sqrt x ≠ 0) (trunc : K → Int) (htr : ∀ m : Nat, trunc (m : K) = m) :
    ∃ W, mkWorld 3 1 (fun _ => serial) (fun _ => build3 sqrt trunc 1 serial) = some W ∧
      ∀ (S : Setup K) (β : K) (bc' : Int → BCond K), UniformVelocity S → (∀ loc, RaisedBC β (S.bc loc) (bc' loc)) →
        ∀ (order : Int) (diff : Bool), (diff = true → ∀ s < nbnodes, Spread3 nodeid node n s) → ∀ (init : K → K → K → K) N,
          ∃ s t, tloop W { S with bc := bc' } order diff (tstart W (fun x y z => init x y z + β)) N = some s ∧
            tloop W S order diff (tstart W init) N = some t ∧
            (∀ c < (W.D 0).nbcells, (s.V 0).cell c = (t.V 0).cell c + β) ∧ s.time = t.time := by
  obtain ⟨data, h⟩ := launched_of_serial (centvol3 node nodeid) (by omega) vm.nodes vm.used hr
  have np := h.nodePair3 vm sqrt trunc htr
  obtain ⟨hgL, hgG, w1, w2, sL, sG⟩ := np.worlds
  refine ⟨_, w2, fun S β bc' hv hb order diff hsur init N => ?_⟩
  obtain ⟨s, t, e1, e2, m⟩ := raised_tloop np (h.solid3 vm sqrt hs trunc htr) sG (fun _ => wedge_build3 sqrt trunc 1 serial) S hv hb order diff
    (fun hd s hs' => surrounded3 h vm sqrt hs trunc htr (hsur hd s hs')) init N
  exact ⟨s, t, e1, e2, m.cell, m.time⟩

/-- C131 (2D, any number of processes, any partition).  Partial: the cells around a node must be connected through faces and the conditions
must agree at the corners shared by ranks. -/
theorem C131_zero_2d_partial (h : Launched 3 nodeid node (centvol2 node nodeid) npart0 epart nbnodes n SIZE data serial)
    (vm : ValidMesh2 nodeid node nbnodes n) (sqrt : K → K) (hs : ∀ x, 0 < x → sqrt x ≠ 0) (trunc : K → Int) (htr : ∀ m : Nat, trunc (m : K) = m)
    (star : StarConnected 2 nodeid n) :
    ∃ W, mkWorld 2 SIZE data (fun p => build2 sqrt trunc SIZE (data p)) = some W ∧
      ∀ (S : Setup K) (β : K) (bc' : Int → BCond K), UniformVelocity S → (∀ loc, RaisedBC β (S.bc loc) (bc' loc)) →
        CornersOk 2 nodeid epart n (build2 sqrt trunc 1 serial) S.bc → CornersOk 2 nodeid epart n (build2 sqrt trunc 1 serial) bc' →
        ∀ (order : Int) (diff : Bool), (diff = true → ∀ s < nbnodes, Spread2 nodeid node n s) → ∀ (init : K → K → K → K) N,
          ∃ s t, tloop W { S with bc := bc' } order diff (tstart W (fun x y z => init x y z + β)) N = some s ∧
            tloop W S order diff (tstart W init) N = some t ∧
            (∀ p < SIZE, ∀ c < (W.D p).nbcells, (s.V p).cell c = (t.V p).cell c + β) ∧ s.time = t.time := by
  have np := h.nodePair2 vm sqrt trunc htr
  obtain ⟨hgL, hgG, w1, w2, sL, sG⟩ := np.worlds
  refine ⟨_, w1, fun S β bc' hv hb hco hco' order diff hsur init N => ?_⟩
  exact raised_par np (h.solid2 vm sqrt hs trunc htr) (by omega) sL sG S hv hb ⟨star, hco⟩ ⟨star, hco'⟩ order diff
    (fun hd s hs' => surrounded2 h vm sqrt trunc htr (hsur hd s hs')) init N

/-- C131 (3D, any number of processes, any partition). -/
theorem C131_zero_3d_partial (h : Launched 4 nodeid node (centvol3 node nodeid) npart0 epart nbnodes n SIZE data serial)
    (vm : ValidMesh3 nodeid node nbnodes n) (sqrt : K → K) (hs : ∀ x, 0 < x → sqrt x ≠ 0) (trunc : K → Int) (htr : ∀ m : Nat, trunc (m : K) = m)
    (star : StarConnected 3 nodeid n) :
    ∃ W, mkWorld 3 SIZE data (fun p => build3 sqrt trunc SIZE (data p)) = some W ∧
      ∀ (S : Setup K) (β : K) (bc' : Int → BCond K), UniformVelocity S → (∀ loc, RaisedBC β (S.bc loc) (bc' loc)) →
        CornersOk 3 nodeid epart n (build3 sqrt trunc 1 serial) S.bc → CornersOk 3 nodeid epart n (build3 sqrt trunc 1 serial) bc' →
        ∀ (order : Int) (diff : Bool), (diff = true → ∀ s < nbnodes, Spread3 nodeid node n s) → ∀ (init : K → K → K → K) N,
          ∃ s t, tloop W { S with bc := bc' } order diff (tstart W (fun x y z => init x y z + β)) N = some s ∧
            tloop W S order diff (tstart W init) N = some t ∧
            (∀ p < SIZE, ∀ c < (W.D p).nbcells, (s.V p).cell c = (t.V p).cell c + β) ∧ s.time = t.time := by
  have np := h.nodePair3 vm sqrt trunc htr
  obtain ⟨hgL, hgG, w1, w2, sL, sG⟩ := np.worlds
  refine ⟨_, w1, fun S β bc' hv hb hco hco' order diff hsur init N => ?_⟩
  exact raised_par np (h.solid3 vm sqrt hs trunc htr) (fun _ => ⟨wedge_build3 sqrt trunc 1 serial, fun p hp => wedge_build3 sqrt trunc SIZE (data p)⟩)
    sL sG S hv hb ⟨star, hco⟩ ⟨star, hco'⟩ order diff
    (fun hd s hs' => surrounded3 h vm sqrt hs trunc htr (hsur hd s hs')) init N

end
/-! ### the hypotheses are met -/

/-- `flowSetup` with its prescribed values raised by 273. -/
def warmBc (loc : Int) : BCond ℚ := match (flowSetup : Setup ℚ).bc loc with
  | .dirichlet v => .dirichlet (fun x y z => v x y z + 273)
  | b => b

theorem warm_raised (loc : Int) : RaisedBC 273 ((flowSetup : Setup ℚ).bc loc) (warmBc loc) := by
  unfold warmBc
  by_cases h : loc = 1
  · simp only [flowSetup, h, if_true]; first | exact .dirichlet (fun _ _ _ => rfl) | exact .neumann
  · simp only [flowSetup, h, if_false]; first | exact .neumann | exact .dirichlet (fun _ _ _ => rfl)

example : ∃ W, mkWorld 2 1 (fun _ => stripSerial) (fun _ => build2 (fun x => x) Rat.floor 1 stripSerial) = some W ∧
    ∀ N, ∃ s t, tloop W { flowSetup with bc := warmBc } 2 true (tstart W (fun x _ _ => x ^ 2 + 273)) N = some s ∧
      tloop W flowSetup 2 true (tstart W (fun x _ _ => x ^ 2)) N = some t ∧
      (∀ c < (W.D 0).nbcells, (s.V 0).cell c = (t.V 0).cell c + 273) ∧ s.time = t.time := by
  obtain ⟨W, e, h⟩ := C131_zero_serial_2d stripValid stripLaunched.hserial (fun x => x) (fun x hx => ne_of_gt hx) Rat.floor floor_nat
  exact ⟨W, e, h flowSetup 273 warmBc (flowSetup_ok 2).1 warm_raised 2 true (fun _ => stripSpread) _⟩

example : ∃ W, mkWorld 3 1 (fun _ => chainSerial) (fun _ => build3 (fun x => x) Rat.floor 1 chainSerial) = some W ∧
    ∀ N, ∃ s t, tloop W { flowSetup with bc := warmBc } 1 true (tstart W (fun x y _ => x * y + 273)) N = some s ∧
      tloop W flowSetup 1 true (tstart W (fun x y _ => x * y)) N = some t ∧
      (∀ c < (W.D 0).nbcells, (s.V 0).cell c = (t.V 0).cell c + 273) ∧ s.time = t.time := by
  obtain ⟨W, e, h⟩ := C131_zero_serial_3d chainValid chainLaunched.hserial (fun x => x) (fun x hx => ne_of_gt hx) Rat.floor floor_nat
  exact ⟨W, e, h flowSetup 273 warmBc (flowSetup_ok 3).1 warm_raised 1 true (fun _ => chainSpread) _⟩

example : ∃ W, mkWorld 2 2 stripData (fun p => build2 (fun x => x) Rat.floor 2 (stripData p)) = some W ∧
    ∀ N, ∃ s t, tloop W { flowSetup with bc := fun _ => BCond.neumann } 2 true (tstart W (fun x _ _ => x ^ 2 + 273)) N = some s ∧
      tloop W { flowSetup with bc := fun _ => BCond.neumann } 2 true (tstart W (fun x _ _ => x ^ 2)) N = some t ∧
      (∀ p < 2, ∀ c < (W.D p).nbcells, (s.V p).cell c = (t.V p).cell c + 273) ∧ s.time = t.time := by
  obtain ⟨W, e, h⟩ := C131_zero_2d_partial stripLaunched stripValid (fun x => x) (fun x hx => ne_of_gt hx) Rat.floor floor_nat (run_star 2 4)
  exact ⟨W, e, h { flowSetup with bc := fun _ => BCond.neumann } 273 (fun _ => .neumann) (flowSetup_ok 2).1 (fun _ => .neumann) (neumann_corners _)
    (neumann_corners _) 2 true (fun _ => stripSpread) _⟩

example : ∃ W, mkWorld 3 2 chainData (fun p => build3 (fun x => x) Rat.floor 2 (chainData p)) = some W ∧
    ∀ N, ∃ s t, tloop W { flowSetup with bc := fun _ => BCond.neumann } 2 true (tstart W (fun x _ _ => x ^ 2 + 273)) N = some s ∧
      tloop W { flowSetup with bc := fun _ => BCond.neumann } 2 true (tstart W (fun x _ _ => x ^ 2)) N = some t ∧
      (∀ p < 2, ∀ c < (W.D p).nbcells, (s.V p).cell c = (t.V p).cell c + 273) ∧ s.time = t.time := by
  obtain ⟨W, e, h⟩ := C131_zero_3d_partial chainLaunched chainValid (fun x => x) (fun x hx => ne_of_gt hx) Rat.floor floor_nat (run_star 3 3)
  exact ⟨W, e, h { flowSetup with bc := fun _ => BCond.neumann } 273 (fun _ => .neumann) (flowSetup_ok 3).1 (fun _ => .neumann) (neumann_corners _)
    (neumann_corners _) 2 true (fun _ => chainSpread) _⟩

end Verif.Props.Par
