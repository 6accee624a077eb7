import Verif.Spec.ParallelRun
import Verif.Props.ParDiff
import Verif.Props.ParNodePair2
import Verif.Props.ParNodePair3
import Verif.Props.Parallel3

/-!
C87–C90: the update methods of a variable (`update_values`, `interpolate_celltonode`, `compute_cell_gradient`, `compute_face_gradient`),
the dissipative residual and the second-order / diffusive transport driver compute on several processes what the serial run computes.
-/
set_option linter.unusedSectionVars false
set_option linter.unusedVariables false
set_option linter.unusedSimpArgs false
namespace Verif.Props.Par
open Verif.Fvm Verif.Spec Verif.Conn Verif.Dom Verif.Geo Verif.Names Verif.MeshFile Verif.Part Verif.Comm Verif.Run Verif.HaloGhost
variable {K : Type*} [Field K] [LinearOrder K] [IsStrictOrderedRing K]

section
variable {dim : Nat} {nodeid : Nat → Nat → Nat} {node : Nat → K × K × K × Nat} {cv : Nat → List K} {npart0 epart : Nat → Nat}
  {nbnodes n SIZE : Nat} {data : Nat → RankData K} {serial : RankData K} {L : Nat → Tables K} {G : Tables K} {B : List Int}
  {out : Nat → Nat → Vec K} {trunc : K → Int}

theorem NodePair.cellsAgree (h : NodePair dim nodeid node cv npart0 epart nbnodes n SIZE data serial L G B out trunc) {α : Type*} (a : Nat → Nat → α)
    (b : Nat → α) : CellsAgree SIZE data a b ↔ ∀ p < SIZE, ∀ c < (L p).nbcells, a p c = b (phi (data p) c) :=
  forall₂_congr fun p hp => restricts_iff h.run hp _ _

theorem NodePair.nodesAgree (h : NodePair dim nodeid node cv npart0 epart nbnodes n SIZE data serial L G B out trunc) {α : Type*} (a : Nat → Nat → α)
    (b : Nat → α) (hab : ∀ p < SIZE, ∀ i < (L p).nbnodes, a p i = b (gOf (data p) i)) : NodesAgree SIZE data a b := by
  intro p hp j g hg
  have hj : j < (data p).nodeloctoglob.length := (List.getElem?_eq_some_iff.mp hg).1
  have := hab p hp j (by rw [h.nbL p hp, (h.hl.nodes hp).2.1]; exact hj)
  rw [this]
  congr 1
  unfold gOf
  rw [List.getD_eq_getElem?_getD, hg]; rfl

theorem NodePair.facesAgree (h : NodePair dim nodeid node cv npart0 epart nbnodes n SIZE data serial L G B out trunc) {α : Type*} (a : Nat → Nat → α)
    (b : Nat → α) (hab : ∀ p < SIZE, ∀ c < (L p).nbcells, ∀ j < dim + 1, a p ((L p).faceid c j) = b (G.faceid (phi (data p) c) j)) :
    FacesAgree SIZE data L G a b := by
  intro p hp f hf F hF hs
  have R := h.run.rank p hp
  obtain ⟨c, hc, j, hj, rfl⟩ := R.cL.fsurj f hf
  obtain ⟨C, hC, J, hJ, rfl⟩ := R.cG.fsurj F hF
  have hC' : phi (data p) c < n := h.run.nG ▸ (R.sub.lt c hc).1
  have e := h.faceG_eq C (h.run.nG ▸ hC) _ hC' J hJ j hj (hs.symm.trans (h.sameFace p hp c hc j hj))
  rw [hab p hp c hc j hj, e]

theorem NodePair.halosAgree (h : NodePair dim nodeid node cv npart0 epart nbnodes n SIZE data serial L G B out trunc) (a : Nat → List K) (b : Nat → K)
    (hab : ∀ p < SIZE, ∀ k < (data p).halosext.length, (a p).getD k 0 = b (ext0 (data p) k)) : HalosAgree SIZE data a b := by
  intro p hp k row E hk hE
  have hkl : k < (data p).halosext.length := (List.getElem?_eq_some_iff.mp hk).1
  have e0 := (h.hl.ext_get hp hkl).1
  rw [hk] at e0
  obtain rfl : ext0 (data p) k = E := by
    injection e0 with e0
    rw [e0] at hE
    simpa using hE
  exact hab p hp k hkl

/-- The boundary ghosts agree, face by face. -/
theorem NodePair.ghostsAgree (h : NodePair dim nodeid node cv npart0 epart nbnodes n SIZE data serial L G B out trunc) (bc : Int → BCond K)
    {hgL : Nat → HGResult K} {V U : Nat → Vari K} (vL : ∀ p < SIZE, ValuesOk dim SIZE data L G (U 0).fields.c bc p (hgL p) (V p).fields)
    (vG : ValuesG dim G bc (U 0).fields) : ∀ p < SIZE, ∀ f ∈ (L p).boundaryfaces, ∀ F < G.nbfaces,
      SameFace (data p).nodeloctoglob ((L p).fnode f) (G.fnode F) → (V p).ghost f = (U 0).ghost F := by
  intro p hp f hb F hF hs
  have R := h.run.rank p hp
  have hfl : f < (L p).nbfaces := ((R.cL.bnd.2 f).mp hb).1
  obtain ⟨c, hc, j, hj, rfl⟩ := R.cL.fsurj f hfl
  obtain ⟨C, hC, J, hJ, rfl⟩ := R.cG.fsurj F hF
  have hC' : phi (data p) c < n := h.run.nG ▸ (R.sub.lt c hc).1
  have e := h.faceG_eq C (h.run.nG ▸ hC) _ hC' J hJ j hj (hs.symm.trans (h.sameFace p hp c hc j hj))
  rw [e]
  obtain ⟨e1, e2, _, _⟩ := R.boundary hc hj hb
  obtain ⟨g1, eg1⟩ := (vL p hp).ghost
  obtain ⟨g2, eg2⟩ := vG.ghost
  show (V p).fields.ghost _ = (U 0).fields.ghost _
  rw [eg1, eg2, updateGhosts_apply _ _ _ _ _ (R.cL.flt c hc j hj) (h.run.hB _ e2),
    updateGhosts_apply _ _ _ _ _ (R.cG.flt _ (R.sub.lt c hc).1 j hj) (h.run.hB _ (e1 ▸ e2)), ← e1]
  exact ghostVal_match h.run hp _ _ (vL p hp).cell hc hj hb _

end

section
variable {nodeid : Nat → Nat → Nat} {node : Nat → K × K × K × Nat} {npart0 epart : Nat → Nat}
  {nbnodes n SIZE : Nat} {data : Nat → RankData K} {serial : RankData K}

/-! ### C87: values in the halo, on the boundary and at the nodes -/

/-- C87 (2D): the ghost tables can be exchanged, `update_values` succeeds and leaves in every halo slot and in every boundary ghost the
value of the serial run — for every boundary condition. -/
theorem C87_update_values_2d (h : Launched 3 nodeid node (centvol2 node nodeid) npart0 epart nbnodes n SIZE data serial)
    (vm : ValidMesh2 nodeid node nbnodes n) (sqrt : K → K) (trunc : K → Int) (htr : ∀ m : Nat, trunc (m : K) = m) :
    ∃ WL WG, mkWorld 2 SIZE data (fun p => build2 sqrt trunc SIZE (data p)) = some WL ∧
      mkWorld 2 1 (fun _ => serial) (fun _ => build2 sqrt trunc 1 serial) = some WG ∧
      ∀ (bc : Int → BCond K) (V U : Nat → Vari K), CellsAgree SIZE data (fun p => (V p).cell) (U 0).cell →
        ∃ V' U', updateValues WL bc V = some V' ∧ updateValues WG bc U = some U' ∧
          (∀ p, (V' p).cell = (V p).cell) ∧ (∀ p, (U' p).cell = (U p).cell) ∧
          HalosAgree SIZE data (fun p => (V' p).halo) (U 0).cell ∧
          ∀ p < SIZE, ∀ f ∈ (build2 sqrt trunc SIZE (data p)).boundaryfaces, ∀ F < (build2 sqrt trunc 1 serial).nbfaces,
            SameFace (data p).nodeloctoglob ((build2 sqrt trunc SIZE (data p)).fnode f) ((build2 sqrt trunc 1 serial).fnode F) →
            (V' p).ghost f = (U' 0).ghost F := by
  have np := h.nodePair2 vm sqrt trunc htr
  obtain ⟨hgL, hgG, w1, w2, _, _⟩ := np.worlds
  refine ⟨_, _, w1, w2, fun bc V U hm => ?_⟩
  obtain ⟨V', U', e1, e2, m, c1, c2, vL, vG⟩ := update_match np hgL hgG bc V U ((np.cellsAgree _ _).mp hm)
  refine ⟨V', U', e1, e2, c1, c2, np.halosAgree _ _ fun p hp k hk => ?_, np.ghostsAgree bc vL vG⟩
  have := (vL p hp).halo k hk
  rw [← c2 0]; exact this

/-- C87 (3D). -/
theorem C87_update_values_3d (h : Launched 4 nodeid node (centvol3 node nodeid) npart0 epart nbnodes n SIZE data serial)
    (vm : ValidMesh3 nodeid node nbnodes n) (sqrt : K → K) (trunc : K → Int) (htr : ∀ m : Nat, trunc (m : K) = m) :
    ∃ WL WG, mkWorld 3 SIZE data (fun p => build3 sqrt trunc SIZE (data p)) = some WL ∧
      mkWorld 3 1 (fun _ => serial) (fun _ => build3 sqrt trunc 1 serial) = some WG ∧
      ∀ (bc : Int → BCond K) (V U : Nat → Vari K), CellsAgree SIZE data (fun p => (V p).cell) (U 0).cell →
        ∃ V' U', updateValues WL bc V = some V' ∧ updateValues WG bc U = some U' ∧
          (∀ p, (V' p).cell = (V p).cell) ∧ (∀ p, (U' p).cell = (U p).cell) ∧
          HalosAgree SIZE data (fun p => (V' p).halo) (U 0).cell ∧
          ∀ p < SIZE, ∀ f ∈ (build3 sqrt trunc SIZE (data p)).boundaryfaces, ∀ F < (build3 sqrt trunc 1 serial).nbfaces,
            SameFace (data p).nodeloctoglob ((build3 sqrt trunc SIZE (data p)).fnode f) ((build3 sqrt trunc 1 serial).fnode F) →
            (V' p).ghost f = (U' 0).ghost F := by
  have np := h.nodePair3 vm sqrt trunc htr
  obtain ⟨hgL, hgG, w1, w2, _, _⟩ := np.worlds
  refine ⟨_, _, w1, w2, fun bc V U hm => ?_⟩
  obtain ⟨V', U', e1, e2, m, c1, c2, vL, vG⟩ := update_match np hgL hgG bc V U ((np.cellsAgree _ _).mp hm)
  refine ⟨V', U', e1, e2, c1, c2, np.halosAgree _ _ fun p hp k hk => ?_, np.ghostsAgree bc vL vG⟩
  have := (vL p hp).halo k hk
  rw [← c2 0]; exact this

/-- C88 (2D): `interpolate_celltonode` gives every node of every rank the value of the serial run. -/
theorem C88_node_values_2d_partial (h : Launched 3 nodeid node (centvol2 node nodeid) npart0 epart nbnodes n SIZE data serial)
    (vm : ValidMesh2 nodeid node nbnodes n) (sqrt : K → K) (trunc : K → Int) (htr : ∀ m : Nat, trunc (m : K) = m)
    (star : StarConnected 2 nodeid n) :
    ∃ WL WG, mkWorld 2 SIZE data (fun p => build2 sqrt trunc SIZE (data p)) = some WL ∧
      mkWorld 2 1 (fun _ => serial) (fun _ => build2 sqrt trunc 1 serial) = some WG ∧
      ∀ (bc : Int → BCond K), CornersOk 2 nodeid epart n (build2 sqrt trunc 1 serial) bc →
        ∀ V U : Nat → Vari K, CellsAgree SIZE data (fun p => (V p).cell) (U 0).cell →
        ∃ V' nL U' nG, celltonode WL bc V = some (V', nL) ∧ celltonode WG bc U = some (U', nG) ∧ NodesAgree SIZE data nL (nG 0) := by
  have np := h.nodePair2 vm sqrt trunc htr
  obtain ⟨hgL, hgG, w1, w2, sL, sG⟩ := np.worlds
  refine ⟨_, _, w1, w2, fun bc hbc V U hm => ?_⟩
  obtain ⟨V', nL, U', nG, e1, e2, _, _, _, _, _, hN⟩ := celltonode_match np sL sG bc ⟨star, hbc⟩ V U ((np.cellsAgree _ _).mp hm)
  exact ⟨V', nL, U', nG, e1, e2, np.nodesAgree _ _ hN⟩

/-- C88 (3D). -/
theorem C88_node_values_3d_partial (h : Launched 4 nodeid node (centvol3 node nodeid) npart0 epart nbnodes n SIZE data serial)
    (vm : ValidMesh3 nodeid node nbnodes n) (sqrt : K → K) (trunc : K → Int) (htr : ∀ m : Nat, trunc (m : K) = m)
    (star : StarConnected 3 nodeid n) :
    ∃ WL WG, mkWorld 3 SIZE data (fun p => build3 sqrt trunc SIZE (data p)) = some WL ∧
      mkWorld 3 1 (fun _ => serial) (fun _ => build3 sqrt trunc 1 serial) = some WG ∧
      ∀ (bc : Int → BCond K), CornersOk 3 nodeid epart n (build3 sqrt trunc 1 serial) bc →
        ∀ V U : Nat → Vari K, CellsAgree SIZE data (fun p => (V p).cell) (U 0).cell →
        ∃ V' nL U' nG, celltonode WL bc V = some (V', nL) ∧ celltonode WG bc U = some (U', nG) ∧ NodesAgree SIZE data nL (nG 0) := by
  have np := h.nodePair3 vm sqrt trunc htr
  obtain ⟨hgL, hgG, w1, w2, sL, sG⟩ := np.worlds
  refine ⟨_, _, w1, w2, fun bc hbc V U hm => ?_⟩
  obtain ⟨V', nL, U', nG, e1, e2, _, _, _, _, _, hN⟩ := celltonode_match np sL sG bc ⟨star, hbc⟩ V U ((np.cellsAgree _ _).mp hm)
  exact ⟨V', nL, U', nG, e1, e2, np.nodesAgree _ _ hN⟩

/-! ### C89: gradients -/

/-- The gradient arrays of all ranks (cells and halo) against the serial ones. -/
def GradsAgree (SIZE : Nat) (data : Nat → RankData K) (g : Nat → Grads K) (G : Grads K) : Prop :=
  (CellsAgree SIZE data (fun p => (g p).wx) G.wx ∧ CellsAgree SIZE data (fun p => (g p).wy) G.wy ∧
    CellsAgree SIZE data (fun p => (g p).wz) G.wz ∧ CellsAgree SIZE data (fun p => (g p).psi) G.psi) ∧
  HalosAgree SIZE data (fun p => (g p).wx_halo) G.wx ∧ HalosAgree SIZE data (fun p => (g p).wy_halo) G.wy ∧
    HalosAgree SIZE data (fun p => (g p).wz_halo) G.wz ∧ HalosAgree SIZE data (fun p => (g p).psi_halo) G.psi

theorem NodePair.gradsAgree {dim : Nat} {cv : Nat → List K} {L : Nat → Tables K} {G : Tables K} {B : List Int}
    {out : Nat → Nat → Vec K} {trunc : K → Int} (h : NodePair dim nodeid node cv npart0 epart nbnodes n SIZE data serial L G B out trunc)
    (gL : Nat → Grads K) (gG : Grads K) (hg : ∀ p < SIZE, GradMatch (data p) (L p).nbcells (gL p) gG) : GradsAgree SIZE data gL gG := by
  refine ⟨⟨?_, ?_, ?_, ?_⟩, ?_, ?_, ?_, ?_⟩
  · exact (h.cellsAgree _ _).mpr fun p hp c hc => ((hg p hp).cell c hc).1
  · exact (h.cellsAgree _ _).mpr fun p hp c hc => ((hg p hp).cell c hc).2.1
  · exact (h.cellsAgree _ _).mpr fun p hp c hc => ((hg p hp).cell c hc).2.2.1
  · exact (h.cellsAgree _ _).mpr fun p hp c hc => ((hg p hp).cell c hc).2.2.2
  · exact h.halosAgree _ _ fun p hp k hk => ((hg p hp).halo k hk).1
  · exact h.halosAgree _ _ fun p hp k hk => ((hg p hp).halo k hk).2.1
  · exact h.halosAgree _ _ fun p hp k hk => ((hg p hp).halo k hk).2.2.1
  · exact h.halosAgree _ _ fun p hp k hk => ((hg p hp).halo k hk).2.2.2

/-- C89 (2D): `compute_cell_gradient` gives every cell of every rank the gradient and the limiter of the serial run, and the halo
arrays hold those of the owners. -/
theorem C89_cell_gradient_2d_partial (h : Launched 3 nodeid node (centvol2 node nodeid) npart0 epart nbnodes n SIZE data serial)
    (vm : ValidMesh2 nodeid node nbnodes n) (sqrt : K → K) (trunc : K → Int) (htr : ∀ m : Nat, trunc (m : K) = m)
    (star : StarConnected 2 nodeid n) :
    ∃ WL WG, mkWorld 2 SIZE data (fun p => build2 sqrt trunc SIZE (data p)) = some WL ∧
      mkWorld 2 1 (fun _ => serial) (fun _ => build2 sqrt trunc 1 serial) = some WG ∧
      ∀ (bc : Int → BCond K), CornersOk 2 nodeid epart n (build2 sqrt trunc 1 serial) bc →
        ∀ V U : Nat → Vari K, CellsAgree SIZE data (fun p => (V p).cell) (U 0).cell →
        ∃ V' gL U' gG, cellGradient WL bc V = some (V', gL) ∧ cellGradient WG bc U = some (U', gG) ∧ GradsAgree SIZE data gL (gG 0) := by
  have np := h.nodePair2 vm sqrt trunc htr
  obtain ⟨hgL, hgG, w1, w2, sL, sG⟩ := np.worlds
  refine ⟨_, _, w1, w2, fun bc hbc V U hm => ?_⟩
  obtain ⟨V', gL, U', gG, e1, e2, _, _, _, _, _, hg⟩ := cellGradient_match np sL sG bc ⟨star, hbc⟩ V U ((np.cellsAgree _ _).mp hm)
  exact ⟨V', gL, U', gG, e1, e2, np.gradsAgree _ _ hg⟩

/-- C89 (3D). -/
theorem C89_cell_gradient_3d_partial (h : Launched 4 nodeid node (centvol3 node nodeid) npart0 epart nbnodes n SIZE data serial)
    (vm : ValidMesh3 nodeid node nbnodes n) (sqrt : K → K) (trunc : K → Int) (htr : ∀ m : Nat, trunc (m : K) = m)
    (star : StarConnected 3 nodeid n) :
    ∃ WL WG, mkWorld 3 SIZE data (fun p => build3 sqrt trunc SIZE (data p)) = some WL ∧
      mkWorld 3 1 (fun _ => serial) (fun _ => build3 sqrt trunc 1 serial) = some WG ∧
      ∀ (bc : Int → BCond K), CornersOk 3 nodeid epart n (build3 sqrt trunc 1 serial) bc →
        ∀ V U : Nat → Vari K, CellsAgree SIZE data (fun p => (V p).cell) (U 0).cell →
        ∃ V' gL U' gG, cellGradient WL bc V = some (V', gL) ∧ cellGradient WG bc U = some (U', gG) ∧ GradsAgree SIZE data gL (gG 0) := by
  have np := h.nodePair3 vm sqrt trunc htr
  obtain ⟨hgL, hgG, w1, w2, sL, sG⟩ := np.worlds
  refine ⟨_, _, w1, w2, fun bc hbc V U hm => ?_⟩
  obtain ⟨V', gL, U', gG, e1, e2, _, _, _, _, _, hg⟩ := cellGradient_match np sL sG bc ⟨star, hbc⟩ V U ((np.cellsAgree _ _).mp hm)
  exact ⟨V', gL, U', gG, e1, e2, np.gradsAgree _ _ hg⟩

/-- C89 (2D): `compute_face_gradient` gives every face of every rank the gradient of the serial run, and the dissipative residual built
from it (with any diffusion coefficients) is, cell by cell, that of the serial run. -/
theorem C89_face_gradient_2d_partial (h : Launched 3 nodeid node (centvol2 node nodeid) npart0 epart nbnodes n SIZE data serial)
    (vm : ValidMesh2 nodeid node nbnodes n) (sqrt : K → K) (trunc : K → Int) (htr : ∀ m : Nat, trunc (m : K) = m)
    (star : StarConnected 2 nodeid n) :
    ∃ WL WG, mkWorld 2 SIZE data (fun p => build2 sqrt trunc SIZE (data p)) = some WL ∧
      mkWorld 2 1 (fun _ => serial) (fun _ => build2 sqrt trunc 1 serial) = some WG ∧
      ∀ (S : Setup K), CornersOk 2 nodeid epart n (build2 sqrt trunc 1 serial) S.bc →
        ∀ V U : Nat → Vari K, CellsAgree SIZE data (fun p => (V p).cell) (U 0).cell →
        ∃ V' nL fL U' nG fG, faceGradient WL S.bc V = some (V', nL, fL) ∧ faceGradient WG S.bc U = some (U', nG, fG) ∧
          (∀ k < 3, FacesAgree SIZE data (fun p => build2 sqrt trunc SIZE (data p)) (build2 sqrt trunc 1 serial)
            (fun p f => fL p f k) (fun F => fG 0 F k)) ∧
          CellsAgree SIZE data (fun p => dissip (build2 sqrt trunc SIZE (data p)) S (fL p)) (dissip (build2 sqrt trunc 1 serial) S (fG 0)) := by
  have np := h.nodePair2 vm sqrt trunc htr
  obtain ⟨hgL, hgG, w1, w2, sL, sG⟩ := np.worlds
  refine ⟨_, _, w1, w2, fun S hbc V U hm => ?_⟩
  obtain ⟨V', nL, fL, U', nG, fG, e1, e2, _, _, _, _, hf⟩ := faceGradient_match np (by omega) sL sG S.bc ⟨star, hbc⟩ V U ((np.cellsAgree _ _).mp hm)
  refine ⟨V', nL, fL, U', nG, fG, e1, e2, fun k hk => np.facesAgree _ _ fun p hp c hc j hj => hf p hp c hc j hj k hk, ?_⟩
  exact (np.cellsAgree _ _).mpr fun p hp c hc => np.dissip_eq S hp _ _ (hf p hp) hc

/-- C89 (3D). -/
theorem C89_face_gradient_3d_partial (h : Launched 4 nodeid node (centvol3 node nodeid) npart0 epart nbnodes n SIZE data serial)
    (vm : ValidMesh3 nodeid node nbnodes n) (sqrt : K → K) (trunc : K → Int) (htr : ∀ m : Nat, trunc (m : K) = m)
    (star : StarConnected 3 nodeid n) :
    ∃ WL WG, mkWorld 3 SIZE data (fun p => build3 sqrt trunc SIZE (data p)) = some WL ∧
      mkWorld 3 1 (fun _ => serial) (fun _ => build3 sqrt trunc 1 serial) = some WG ∧
      ∀ (S : Setup K), CornersOk 3 nodeid epart n (build3 sqrt trunc 1 serial) S.bc →
        ∀ V U : Nat → Vari K, CellsAgree SIZE data (fun p => (V p).cell) (U 0).cell →
        ∃ V' nL fL U' nG fG, faceGradient WL S.bc V = some (V', nL, fL) ∧ faceGradient WG S.bc U = some (U', nG, fG) ∧
          (∀ k < 3, FacesAgree SIZE data (fun p => build3 sqrt trunc SIZE (data p)) (build3 sqrt trunc 1 serial)
            (fun p f => fL p f k) (fun F => fG 0 F k)) ∧
          CellsAgree SIZE data (fun p => dissip (build3 sqrt trunc SIZE (data p)) S (fL p)) (dissip (build3 sqrt trunc 1 serial) S (fG 0)) := by
  have np := h.nodePair3 vm sqrt trunc htr
  obtain ⟨hgL, hgG, w1, w2, sL, sG⟩ := np.worlds
  refine ⟨_, _, w1, w2, fun S hbc V U hm => ?_⟩
  obtain ⟨V', nL, fL, U', nG, fG, e1, e2, _, _, _, _, hf⟩ := faceGradient_match np
    (fun _ => ⟨wedge_build3 sqrt trunc 1 serial, fun p hp => wedge_build3 sqrt trunc SIZE (data p)⟩) sL sG S.bc ⟨star, hbc⟩ V U ((np.cellsAgree _ _).mp hm)
  refine ⟨V', nL, fL, U', nG, fG, e1, e2, fun k hk => np.facesAgree _ _ fun p hp c hc j hj => hf p hp c hc j hj k hk, ?_⟩
  exact (np.cellsAgree _ _).mpr fun p hp c hc => np.dissip_eq S hp _ _ (hf p hp) hc

/-! ### C90: the second-order and diffusive drivers -/

/-- C90 (2D): after any number of iterations of the transport driver, with any order and with or without diffusion, the parallel run
has reached the time of the serial run, and its cells and nodes hold the values of the serial run. -/
theorem C90_run_2d_partial (h : Launched 3 nodeid node (centvol2 node nodeid) npart0 epart nbnodes n SIZE data serial)
    (vm : ValidMesh2 nodeid node nbnodes n) (sqrt : K → K) (trunc : K → Int) (htr : ∀ m : Nat, trunc (m : K) = m)
    (star : StarConnected 2 nodeid n) :
    ∃ WL WG, mkWorld 2 SIZE data (fun p => build2 sqrt trunc SIZE (data p)) = some WL ∧
      mkWorld 2 1 (fun _ => serial) (fun _ => build2 sqrt trunc 1 serial) = some WG ∧
      ∀ (S : Setup K), CornersOk 2 nodeid epart n (build2 sqrt trunc 1 serial) S.bc →
        ∀ (order : Int) (diff : Bool) (init : K → K → K → K) (N : Nat),
        ∃ s t, tloop WL S order diff (tstart WL init) N = some s ∧ tloop WG S order diff (tstart WG init) N = some t ∧
          s.time = t.time ∧ s.iter = t.iter ∧ CellsAgree SIZE data (fun p => (s.V p).cell) (t.V 0).cell ∧
          NodesAgree SIZE data s.node (t.node 0) := by
  have np := h.nodePair2 vm sqrt trunc htr
  obtain ⟨hgL, hgG, w1, w2, sL, sG⟩ := np.worlds
  refine ⟨_, _, w1, w2, fun S hbc order diff init N => ?_⟩
  obtain ⟨s, t, e1, e2, m⟩ := tloop_match np (by omega) sL sG S ⟨star, hbc⟩ order diff _ _ (tstart_match np hgL hgG init) N
  exact ⟨s, t, e1, e2, m.time, m.iter, (np.cellsAgree _ _).mpr m.cell, np.nodesAgree _ _ m.node⟩

/-- C90 (3D). -/
theorem C90_run_3d_partial (h : Launched 4 nodeid node (centvol3 node nodeid) npart0 epart nbnodes n SIZE data serial)
    (vm : ValidMesh3 nodeid node nbnodes n) (sqrt : K → K) (trunc : K → Int) (htr : ∀ m : Nat, trunc (m : K) = m)
    (star : StarConnected 3 nodeid n) :
    ∃ WL WG, mkWorld 3 SIZE data (fun p => build3 sqrt trunc SIZE (data p)) = some WL ∧
      mkWorld 3 1 (fun _ => serial) (fun _ => build3 sqrt trunc 1 serial) = some WG ∧
      ∀ (S : Setup K), CornersOk 3 nodeid epart n (build3 sqrt trunc 1 serial) S.bc →
        ∀ (order : Int) (diff : Bool) (init : K → K → K → K) (N : Nat),
        ∃ s t, tloop WL S order diff (tstart WL init) N = some s ∧ tloop WG S order diff (tstart WG init) N = some t ∧
          s.time = t.time ∧ s.iter = t.iter ∧ CellsAgree SIZE data (fun p => (s.V p).cell) (t.V 0).cell ∧
          NodesAgree SIZE data s.node (t.node 0) := by
  have np := h.nodePair3 vm sqrt trunc htr
  obtain ⟨hgL, hgG, w1, w2, sL, sG⟩ := np.worlds
  refine ⟨_, _, w1, w2, fun S hbc order diff init N => ?_⟩
  obtain ⟨s, t, e1, e2, m⟩ := tloop_match np
    (fun _ => ⟨wedge_build3 sqrt trunc 1 serial, fun p hp => wedge_build3 sqrt trunc SIZE (data p)⟩) sL sG S ⟨star, hbc⟩ order diff _ _
    (tstart_match np hgL hgG init) N
  exact ⟨s, t, e1, e2, m.time, m.iter, (np.cellsAgree _ _).mpr m.cell, np.nodesAgree _ _ m.node⟩

end

/-! ### meshes meeting the hypotheses -/

theorem run_star (d n : Nat) : StarConnected d (fun c k => c + k) n := by
  have up : ∀ (k m a : Nat), a + m < n → a + m ≤ k → k ≤ a + d →
      Relation.ReflTransGen (fun x y => x < n ∧ y < n ∧ ShareFaceAt d (fun c k => c + k) k x y) a (a + m) := by
    intro k m
    induction m with
    | zero => intro a _ _ _; exact Relation.ReflTransGen.refl
    | succ m ih =>
      intro a h1 h2 h3
      refine Relation.ReflTransGen.tail (ih a (by omega) (by omega) h3) ⟨by omega, by omega, ?_⟩
      refine ⟨(List.range d).map (fun j => a + m + 1 + j), by simp, ?_, ?_, ?_⟩
      · exact List.Nodup.map (fun x y e => by simpa using e) List.nodup_range
      · exact List.mem_map.mpr ⟨k - (a + m + 1), List.mem_range.mpr (by omega), by omega⟩
      · intro x hx
        obtain ⟨j, hj, rfl⟩ := List.mem_map.mp hx
        have := List.mem_range.mp hj
        exact ⟨⟨j + 1, by omega, show a + m + (j + 1) = _ by omega⟩, ⟨j, by omega, show a + (m + 1) + j = _ by omega⟩⟩
  have sym : ∀ k, Std.Symm (fun x y => x < n ∧ y < n ∧ ShareFaceAt d (fun c k => c + k) k x y) := by
    intro k
    exact ⟨fun x y h => ⟨h.2.1, h.1, let ⟨f, a, b, c, e⟩ := h.2.2; ⟨f, a, b, c, fun x hx => (e x hx).symm⟩⟩⟩
  intro k a ha b hb ⟨i, hi, ei⟩ ⟨j, hj, ej⟩
  have ei : a + i = k := ei
  have ej : b + j = k := ej
  rcases Nat.le_total a b with hab | hab
  · obtain ⟨m, rfl⟩ := Nat.exists_eq_add_of_le hab
    exact up k m a hb (by omega) (by omega)
  · obtain ⟨m, rfl⟩ := Nat.exists_eq_add_of_le hab
    have h := up k m b ha (by omega) (by omega)
    have := sym k
    exact Relation.ReflTransGen.stdSymm.symm _ _ h

theorem neumann_corners {dim n : Nat} {nodeid : Nat → Nat → Nat} {epart : Nat → Nat} (G : Tables ℚ) :
    CornersOk dim nodeid epart n G (fun _ => BCond.neumann) := fun _ _ _ _ _ => Or.inl rfl

/-- The hypotheses of the theorems in 2D are met by the strip on two ranks, with Neumann conditions. -/
example := (C90_run_2d_partial stripLaunched stripValid (fun x => x) Rat.floor floor_nat (run_star 2 4))
example (order : Int) (diff : Bool) (init : ℚ → ℚ → ℚ → ℚ) (N : Nat) (S : Setup ℚ) (hS : S.bc = fun _ => BCond.neumann) :
    CornersOk 2 exStrip exE 4 (build2 (fun x => x) Rat.floor 1 stripSerial) S.bc := hS ▸ neumann_corners _

/-- The hypotheses in 3D are met by the chain of tetrahedra. -/
example := (C90_run_3d_partial chainLaunched chainValid (fun x => x) Rat.floor floor_nat (run_star 3 3))
example : CornersOk 3 chainCell chainPart 3 (build3 (fun x => x) Rat.floor 1 chainSerial) (fun _ => BCond.neumann) := neumann_corners _

end Verif.Props.Par
