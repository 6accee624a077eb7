import Verif.Props.PeriodicExample
import Verif.Props.ParInsul
import Verif.Spec.PeriodicDiff

/-! # Runs with diffusion on triangular meshes with periodic sides, one process (C101, C102) -/
set_option linter.unusedSectionVars false
set_option linter.unusedVariables false
set_option linter.unusedSimpArgs false
set_option synthInstance.maxHeartbeats 1000000
set_option synthInstance.maxSize 1000
set_option maxRecDepth 4000
namespace Verif.Props.Par
open Verif.Fvm Verif.Spec Verif.Conn Verif.Dom Verif.Geo Verif.Names Verif.MeshFile Verif.Part Verif.Comm Verif.Run Verif.Periodic Verif.Props.Per
open Verif.HaloGhost Verif.Interp Verif.Props.HG
variable {K : Type*} [Field K] [LinearOrder K] [IsStrictOrderedRing K]

section
variable {n nbnodes : Nat} {W : PWorld K} {out : Nat → Nat → Vec K} {p : Nat → Nat}

/-- The positions of the points around a node do not depend on the values. -/
theorem nodePoints_eq (W : PWorld K) (w : Interp.Fields K) (i : Nat) : (nodeStencil 2 W.nodeTabs w i).map Prod.fst = nodePoints W i := by
  unfold nodePoints nodeStencil periodicPart ghostPart
  simp only [List.map_append, List.map_map]
  congr 1
  · congr 1
    · congr 1
      split <;> simp [Function.comp_def]
    · split
      · simp [Function.comp_def]
      · split
        · simp [Function.comp_def]
        · split <;> simp [Function.comp_def]
  · split <;> simp [Function.comp_def]

/-- All values around a node are `q`. -/
theorem GradOk.nodeVals (h : GradOk n nbnodes W) (n0 : 0 < n) (hn : W.D.nbcells = n) (h2 : W.dim = 2) (v : Vari K) (q : K) (hc : ∀ c < n, v.cell c = q)
    (hg : ∀ f ∈ W.D.boundaryfaces, v.ghost f = q) {i : Nat} (hi : i < nbnodes) : ∀ x ∈ nodeStencil 2 W.nodeTabs v.fields i, x.2 = q := by
  intro x hx
  unfold nodeStencil at hx
  have haloN : W.nodeTabs.haloidn i = [] := by
    show haloidn 1 W.data W.D i = []
    unfold haloidn; simp
  rw [haloN] at hx
  simp only [List.append_nil, List.map_nil, List.mem_append] at hx
  rcases hx with ((hx | hx) | hx) | hx
  · obtain ⟨a, ha, rfl⟩ := List.mem_map.mp hx
    exact hc a (hn ▸ ((mem_nodeCells _ _ _ _ _).mp ha).1)
  · split at hx
    · obtain ⟨m, e⟩ := h.ghosts i hi
      have e' : W.nodeTabs.ghosts i = ((domGhosts W.dim W.D).1 i ++ List.replicate m (HaloGhost.padRow W.dim)).map rowPt := by
        show (W.hg.ghosts i).map rowPt = _
        rw [e]
      rw [e'] at hx
      unfold ghostPart at hx
      obtain ⟨y, hy, rfl⟩ := List.mem_map.mp hx
      obtain ⟨hy1, hy2⟩ := List.mem_filter.mp hy
      obtain ⟨row, hrow, rfl⟩ := List.mem_map.mp hy1
      rcases List.mem_append.mp hrow with hrow | hrow
      · obtain ⟨f, hf, hb, hl⟩ := nodeGhosts_rows _ _ _ _ _ _ _ i row hrow
        show v.ghost row.last.toNat = q
        rw [hl, Int.toNat_natCast]
        exact hg f (h.bnd f hf hb)
      · rw [List.eq_of_mem_replicate hrow] at hy2
        simp [rowPt, HaloGhost.padRow] at hy2
    · simp at hx
  · have hI : ∀ a ∈ W.nodeTabs.periodicn i, a < n := by
      intro a ha
      obtain ⟨z, hz, rfl⟩ := List.mem_map.mp ha
      obtain ⟨z1, z2⟩ := h.nper i z hz
      unfold pyIndex
      rw [hn]
      split <;> omega
    unfold periodicPart at hx
    split at hx
    · obtain ⟨a, ha, rfl⟩ := List.mem_map.mp hx; exact hc a (hI a ha)
    split at hx
    · obtain ⟨a, ha, rfl⟩ := List.mem_map.mp hx; exact hc a (hI a ha)
    split at hx
    · obtain ⟨a, ha, rfl⟩ := List.mem_map.mp hx; exact hc a (hI a ha)
    · simp at hx
  · split at hx
    · obtain ⟨m, e⟩ := h.haloghosts i hi
      have e' : W.nodeTabs.haloghosts i = (List.replicate m (HaloGhost.padRow W.dim)).map rowPt := by
        show (W.hg.haloghosts i).map rowPt = _
        rw [e]
      rw [e', ghostPart_nil] at hx
      simp at hx
    · simp at hx

theorem GradOk.node (h : GradOk n nbnodes W) (n0 : 0 < n) (hn : W.D.nbcells = n) (h2 : W.dim = 2) (v : Vari K) (q : K) (hc : ∀ c < n, v.cell c = q)
    (hg : ∀ f ∈ W.D.boundaryfaces, v.ghost f = q) {i : Nat} (hi : i < nbnodes) (hfl : ¬ Flat 2 (nodePoints W i)) :
    W.nodeValues v.fields i = q := by
  unfold PWorld.nodeValues
  rw [if_pos h2]
  refine C38_constant _ _ _ _ ?_ (h.nodeVals n0 hn h2 v q hc hg hi)
  rw [nodePoints_eq]; exact hfl

/-- The diamond gradient of a constant. -/
theorem diamond_const (F : FaceTabs K) (f : Nat) (q : K) : diamondGrad2 (faceGradientInfo2 F f) q q q q = (0, 0) := by
  unfold diamondGrad2 faceGradientInfo2
  refine Prod.ext ?_ ?_
  · dsimp only; ring
  · dsimp only; ring

theorem per_faceGrads_const (h : PerOk W.dim n W.D out p) (h2 : W.dim = 2) (S : Setup K) (v : Vari K) (q : K) (hc : ∀ c < n, v.cell c = q)
    (hg : ∀ f < W.D.nbfaces, W.D.name f ∈ locNames 2 → v.ghost f = q) (nd : Nat → K)
    (hnd : ∀ f < W.D.nbfaces, nd ((W.D.fnode f).getD 0 0) = q ∧ nd ((W.D.fnode f).getD 1 0) = q) {f : Nat} (hf : f < W.D.nbfaces) (k : Nat) :
    W.faceGrads S.bc v.fields nd f k = 0 := by
  have key : Interp.faceGradient2 W.faceTabs (varFaces W.dim W.D S.bc) v.fields nd (fun _ => (0, 0)) f = (0, 0) := by
    obtain ⟨n0, n1⟩ := hnd f hf
    have hl : v.fields.c (W.faceTabs.cellid0 f) = q := by
      obtain ⟨C, hC, _, _, e, _⟩ := h.left f hf
      show v.cell (idx (W.D.cellid f 0)) = q
      rw [e, idx_cast]; exact hc C hC
    have g0 : ∀ x, x = q → diamondGrad2 (faceGradientInfo2 W.faceTabs f) (nd (W.faceTabs.nodeid f 0)) (nd (W.faceTabs.nodeid f 1))
        (v.fields.c (W.faceTabs.cellid0 f)) x = (0, 0) := by
      intro x hx
      rw [hx, hl, show nd (W.faceTabs.nodeid f 0) = q from n0, show nd (W.faceTabs.nodeid f 1) = q from n1]
      exact diamond_const _ _ _
    have hgh : ∀ l : Int → Bool, f ∈ (locNames W.dim).flatMap (fun loc => if l loc then Var.facesNamed W.D.name W.D.nbfaces loc else []) → v.ghost f = q := by
      intro l hm
      obtain ⟨loc, hloc, hm⟩ := List.mem_flatMap.mp hm
      split at hm
      · have : W.D.name f = loc := by simpa [Var.facesNamed] using (List.mem_filter.mp hm).2
        exact hg f hf (this ▸ h2 ▸ hloc)
      · simp at hm
    unfold Interp.faceGradient2
    simp only [writeList_apply]
    split
    · rename_i hm
      refine g0 _ (hgh (fun loc => !(S.bc loc).isDirichlet) ?_)
      have hm' : f ∈ (locNames W.dim).flatMap (fun loc => if (S.bc loc).isDirichlet then [] else Var.facesNamed W.D.name W.D.nbfaces loc) := hm
      convert hm' using 3
      rename_i loc
      cases (S.bc loc).isDirichlet <;> simp
    split
    · rename_i hm
      exact g0 _ (hgh (fun loc => (S.bc loc).isDirichlet) hm)
    split
    · rename_i hm
      have hm' : f ∈ W.D.halofaces := hm
      rw [h.halo] at hm'; simp at hm'
    split
    · rename_i hm
      refine g0 _ ?_
      have hm' : f ∈ W.D.periodicboundaryfaces := hm
      obtain ⟨a, b⟩ := h.per_range hm'
      show v.cell (idx (W.D.cellid f 1)) = q
      obtain ⟨c, e⟩ : ∃ c : Nat, W.D.cellid f 1 = c := ⟨_, (Int.toNat_of_nonneg a).symm⟩
      rw [e, idx_cast]; exact hc c (by omega)
    split
    · rename_i hm
      refine g0 _ ?_
      have hm' : f ∈ W.D.innerfaces := hm
      obtain ⟨C, hC, _, _, e, _⟩ := h.right f hm'
      show v.cell (idx (W.D.cellid f 1)) = q
      rw [e, idx_cast]; exact hc C hC
    · rfl
  unfold PWorld.faceGrads
  rw [if_pos h2]
  match k with
  | 0 => simp only [key]
  | 1 => simp only [key]
  | k + 2 => rfl

/-- `update_values` twice is `update_values` once. -/
theorem values_cell (W : PWorld K) (bc : Int → BCond K) (v : Vari K) : (W.values bc v).cell = v.cell := rfl

theorem values_ghost (W : PWorld K) (bc : Int → BCond K) (v : Vari K) {f : Nat} (hf : f < W.D.nbfaces) (hn : W.D.name f ∈ locNames W.dim) :
    (W.values bc v).ghost f = ghostVal W.D v.cell f (bc (W.D.name f)) := by
  have : (W.values bc v).ghost = updateGhosts W.dim W.D v.cell bc v.ghost := rfl
  rw [this, updateGhosts_apply _ _ _ _ _ hf hn]

/-- One iteration with diffusion: the one without, plus the dissipative term. -/
theorem pstep_true (W : PWorld K) (S : Setup K) (o : Int) (s : QState K) : ∃ v : Vari K, v.cell = s.v.cell ∧
    (∀ f < W.D.nbfaces, W.D.name f ∈ locNames W.dim → v.ghost f = ghostVal W.D s.v.cell f (S.bc (W.D.name f))) ∧
    (pstep W S o true s).time = (pstep W S o false s).time ∧ (pstep W S o true s).iter = s.iter + 1 ∧
    ∀ C, (pstep W S o true s).v.cell C = (pstep W S o false s).v.cell C +
      localStep W.dim S W.D s.iter * (Run.dissip W.D S (W.faceGrads S.bc v.fields (W.nodeValues v.fields)) C / W.D.volume C) := by
  refine ⟨W.values S.bc (W.values S.bc (W.values S.bc s.v)), rfl, fun f hf hn => values_ghost _ _ _ hf hn, rfl, rfl, fun C => ?_⟩
  have e1 : (pstep W S o true s).v.cell C = updateNewValue s.v.cell
      (conv W.dim (W.convArgs (fieldsOf S W.D s.iter s.v.cell (W.values S.bc (W.values S.bc s.v)).ghost [] (W.grads (W.values S.bc (W.values S.bc s.v)))) o))
      (Run.dissip W.D S (W.faceGrads S.bc (W.values S.bc (W.values S.bc (W.values S.bc s.v))).fields
        (W.nodeValues (W.values S.bc (W.values S.bc (W.values S.bc s.v))).fields))) (fun _ => 0) (localStep W.dim S W.D s.iter) W.D.volume C := rfl
  have e2 : (pstep W S o false s).v.cell C = updateNewValue s.v.cell
      (conv W.dim (W.convArgs (fieldsOf S W.D s.iter s.v.cell (W.values S.bc (W.values S.bc s.v)).ghost [] (W.grads (W.values S.bc (W.values S.bc s.v)))) o))
      (fun _ => 0) (fun _ => 0) (localStep W.dim S W.D s.iter) W.D.volume C := rfl
  rw [e1, e2]
  unfold updateNewValue
  ring

/-- A constant state, one iteration with diffusion. -/
theorem WorldOk.freestream_diff {m : Mesh K} {L : Nat → K} {r : K → K} {d : RankData K} {D : Tables K}
    (h : WorldOk m L r d D out W p) (h2 : W.dim = 2) (S : Setup K) (q : K) (hv : UniformVelocity S) (hb : ∀ loc, BcIn q q (S.bc loc)) (o : Int)
    (hfn : ∀ f < W.D.nbfaces, (W.D.fnode f).getD 0 0 < m.nbnodes ∧ (W.D.fnode f).getD 1 0 < m.nbnodes)
    (hfl : ∀ i < m.nbnodes, ¬ Flat 2 (nodePoints W i)) (s : QState K) (hin : ∀ c < m.n, s.v.cell c = q) (N : Nat) :
    ∀ c < m.n, (ploop W S o true s N).v.cell c = q := by
  refine ploop_inv W S o true (fun t => ∀ c < m.n, t.v.cell c = q) ?_ s hin N
  intro t ht c hc
  have hconv : (pstep W S o false t).v.cell c = q := h.freestream S q hv hb o (Or.inr h2) t ht 1 c hc |> fun e => by
    unfold ploop ploop at e
    dsimp only at e
    by_cases hlt : t.time < S.tfinal
    · rw [if_pos hlt] at e; exact e
    · -- the step itself does not depend on the final time
      have := h.freestream { S with tfinal := t.time + 1 } q hv hb o (Or.inr h2) t ht 1 c hc
      unfold ploop ploop at this
      dsimp only at this
      rw [if_pos (by linarith)] at this
      exact this
  obtain ⟨v, v1, v2, _, _, hnew⟩ := pstep_true W S o t
  have hvc : ∀ c < m.n, v.cell c = q := fun c hc => by rw [v1]; exact ht c hc
  have hgh : ∀ f < W.D.nbfaces, W.D.name f ∈ locNames 2 → v.ghost f = q := by
    intro f hf hn
    rw [v2 f hf (h2 ▸ hn)]
    obtain ⟨C, hC, _, _, e, _⟩ := h.ok.left f hf
    have := ghostVal_in W.D t.v.cell f (S.bc (W.D.name f)) q q (hb _) (by
      rw [e]
      have := ht C hC
      rw [idx_cast, this]
      exact ⟨le_refl _, le_refl _⟩)
    exact le_antisymm this.2 this.1
  have hn0 : 0 < m.n := by omega
  have hbd : ∀ f ∈ W.D.boundaryfaces, v.ghost f = q := fun f hf => hgh f (h.ok.mem f (Or.inr (Or.inl hf))) (h2 ▸ h.ok.wall f hf)
  have hnode : ∀ i < m.nbnodes, W.nodeValues v.fields i = q := fun i hi => (h.grad h2).node hn0 h.ok.nb h2 v q hvc hbd hi (hfl i hi)
  have hz : ∀ f < W.D.nbfaces, ∀ k, W.faceGrads S.bc v.fields (W.nodeValues v.fields) f k = 0 := fun f hf k =>
    per_faceGrads_const h.ok h2 S v q hvc hgh _ (fun f hf => ⟨hnode _ (hfn f hf).1, hnode _ (hfn f hf).2⟩) hf k
  have hdis : Run.dissip W.D S (W.faceGrads S.bc v.fields (W.nodeValues v.fields)) c = 0 := by
    unfold Run.dissip
    rw [C04_dissipative_balance]
    have z : ∀ f < W.D.nbfaces, diffFlux (fun f => W.faceGrads S.bc v.fields (W.nodeValues v.fields) f 0)
        (fun f => W.faceGrads S.bc v.fields (W.nodeValues v.fields) f 1) (fun f => W.faceGrads S.bc v.fields (W.nodeValues v.fields) f 2)
        W.D.normal S.Dxx S.Dyy S.Dzz f = 0 := by
      intro f hf
      unfold diffFlux
      simp only [hz f hf]; ring
    have sz : ∀ (l : List Nat) (cell : Nat → Nat), (∀ f ∈ l, f < W.D.nbfaces) → sumAt l cell (diffFlux (fun f => W.faceGrads S.bc v.fields (W.nodeValues v.fields) f 0)
        (fun f => W.faceGrads S.bc v.fields (W.nodeValues v.fields) f 1) (fun f => W.faceGrads S.bc v.fields (W.nodeValues v.fields) f 2)
        W.D.normal S.Dxx S.Dyy S.Dzz) c = 0 := by
      intro l cell hl
      unfold sumAt
      apply List.sum_eq_zero
      intro x hx
      obtain ⟨f, hf, rfl⟩ := List.mem_map.mp hx
      exact z f (hl f (List.mem_filter.mp hf).1)
    rw [sz _ _ (fun f hf => List.mem_range.mp hf), sz _ _ (fun f hf => List.mem_range.mp (List.mem_filter.mp hf).1)]
    ring
  rw [hnew c, hconv, hdis]; ring

/-- The mass, one first-order iteration with diffusion. -/
theorem WorldOk.mass_step_diff {m : Mesh K} {L : Nat → K} {r : K → K} {d : RankData K} {D : Tables K}
    (h : WorldOk m L r d D out W p) (S : Setup K) (hv : PeriodicVelocity W.D W.dim L S)
    (hnm : ∀ f < W.D.nbfaces, W.D.name f = 0 → f ∈ W.D.innerfaces) (hal : ∀ f < W.D.nbfaces, W.D.name f ≠ 0 → f ∈ W.D.boundaryfaces ∨ f ∈ W.D.periodicboundaryfaces) 
    (hne : ∀ f, f ∈ W.D.boundaryfaces ∨ f ∈ W.D.periodicboundaryfaces → W.D.name f ≠ 0) (hdj : ∀ f ∈ W.D.boundaryfaces, f ∉ W.D.periodicboundaryfaces) (s : QState K) :
    ∃ v : Vari K, v.cell = s.v.cell ∧ (∀ f ∈ W.D.boundaryfaces, v.ghost f = ghostVal W.D s.v.cell f (S.bc (W.D.name f))) ∧
    massOf W.D (pstep W S 1 true s).v.cell = massOf W.D s.v.cell - ((pstep W S 1 true s).time - s.time) * (wallOutflow W.D S s.iter s.v.cell
      - diffusedIn W.D S (W.faceGrads S.bc v.fields (W.nodeValues v.fields)) W.D.boundaryfaces
      - diffusedIn W.D S (W.faceGrads S.bc v.fields (W.nodeValues v.fields)) W.D.periodicboundaryfaces) := by
  obtain ⟨v, v1, v2, ht, _, hnew⟩ := pstep_true W S 1 s
  refine ⟨v, v1, fun f hf => v2 f (h.ok.mem f (Or.inr (Or.inl hf))) (h.ok.wall f hf), ?_⟩
  obtain ⟨g, hg⟩ : ∃ g, g = W.faceGrads S.bc v.fields (W.nodeValues v.fields) := ⟨_, rfl⟩
  rw [← hg] at hnew ⊢
  have e0 := h.mass_step S hv s
  have et : (pstep W S 1 false s).time - s.time = localStep W.dim S W.D s.iter := by
    show s.time + _ - s.time = _
    ring
  have e1 : ∀ C ∈ Finset.range W.D.nbcells, W.D.volume C * (pstep W S 1 true s).v.cell C =
      W.D.volume C * (pstep W S 1 false s).v.cell C + localStep W.dim S W.D s.iter * Run.dissip W.D S g C := by
    intro C hC
    have hv := (h.ok.solid.vpos C (Finset.mem_range.mp hC)).ne'
    rw [hnew C]
    field_simp
  have e2 : ∑ c ∈ Finset.range W.D.nbcells, Run.dissip W.D S g c = diffusedIn W.D S g W.D.boundaryfaces + diffusedIn W.D S g W.D.periodicboundaryfaces := by
    unfold Run.dissip
    rw [C04_dissipative_conservative W.D.nbcells]
    · have hp : ((List.range W.D.nbfaces).filter (fun i => W.D.name i ≠ 0)).Perm (W.D.boundaryfaces ++ W.D.periodicboundaryfaces) := by
        rw [List.perm_ext_iff_of_nodup (List.nodup_range.filter _) (List.nodup_append.mpr ⟨h.ok.nodup.2.1, h.ok.nodup.2.2, fun a ha b hb e => hdj a ha (e ▸ hb)⟩)]
        intro f
        simp only [List.mem_filter, List.mem_range, List.mem_append, decide_eq_true_eq, ne_eq]
        exact ⟨fun ⟨a, b⟩ => hal f a b, fun x => ⟨h.ok.mem f (Or.inr x), hne f x⟩⟩
      rw [(hp.map _).sum_eq, List.map_append, List.sum_append]
      rfl
    · intro f hf
      obtain ⟨C, hC, _, _, e, _⟩ := h.ok.left f hf
      rw [e, h.ok.nb]; exact ⟨by omega, by omega⟩
    · intro f hf hn
      obtain ⟨C, hC, _, _, e, _⟩ := h.ok.right f (hnm f hf hn)
      rw [e, h.ok.nb]; exact ⟨by omega, by omega⟩
  have e3 : massOf W.D (pstep W S 1 true s).v.cell = massOf W.D (pstep W S 1 false s).v.cell + localStep W.dim S W.D s.iter *
      (diffusedIn W.D S g W.D.boundaryfaces + diffusedIn W.D S g W.D.periodicboundaryfaces) := by
    unfold massOf
    rw [Finset.sum_congr rfl e1, Finset.sum_add_distrib, ← Finset.mul_sum, e2]
  rw [e3, e0, ht, et]; ring

end
section
variable {m : Mesh K} {serial : RankData K} {L : Nat → K} {r : K → K}

/-- The world, with what the dissipative term reads. -/
theorem world_diff (hv : m.Valid2 L r) (hr : m.Read serial) (sqrt : K → K) (hs : ∀ x, 0 < x → sqrt x ≠ 0) (trunc : K → Int)
    (htr : ∀ i : Nat, trunc (i : K) = i) : ∃ W p, mkPWorld 2 r serial (build2 sqrt trunc 1 serial) = some W ∧
      WorldOk m L r serial (build2 sqrt trunc 1 serial) (out2 serial) W p ∧ PeriodicDomain m L W.D ∧ W.dim = 2 ∧
      (∀ f < W.D.nbfaces, (W.D.fnode f).getD 0 0 < m.nbnodes ∧ (W.D.fnode f).getD 1 0 < m.nbnodes) ∧
      (∀ f < W.D.nbfaces, W.D.name f = 0 → f ∈ W.D.innerfaces) ∧
      (∀ f < W.D.nbfaces, W.D.name f ≠ 0 → f ∈ W.D.boundaryfaces ∨ f ∈ W.D.periodicboundaryfaces) ∧
      (∀ f, f ∈ W.D.boundaryfaces ∨ f ∈ W.D.periodicboundaryfaces → W.D.name f ≠ 0) ∧ (∀ f ∈ W.D.boundaryfaces, f ∉ W.D.periodicboundaryfaces) ∧
      (∀ s < m.nbnodes, m.ManyTriangles s → ¬ Flat 2 (nodePoints W s)) := by
  have h := sdom2 hv hr sqrt hs trunc htr
  have hl : serial.vertex.length = m.nbnodes := (read_cells hr).2.1
  obtain ⟨W, p, e, ok⟩ := h.world hv.toValid hl
  have hd : m.dim = 2 := hv.two
  have pdom := h.periodicDomain hv.toValid ok.pd
  rw [hd] at e
  obtain ⟨c1, hD⟩ := ok.pd.eq
  have hW2 : W.dim = 2 := ok.dim.trans hd
  refine ⟨W, p, e, ok, pdom, hW2, ?_, ?_, ?_, ?_, ?_, ?_⟩
  · intro f hf
    rw [hD] at hf ⊢
    obtain ⟨C, hC, j, hj, rfl⟩ := h.fsurj f hf
    obtain ⟨hlt, hp⟩ := h.built.faces.2.2.2 C (h.nb ▸ hC) j hj
    have hsd := h.sd C hC j hj
    have hlen : (sid2 serial C j).length = 2 := by
      have := hsd.length_eq
      simp [nodesOf, hd] at this
      omega
    have hrow : ∀ k < 2, ((build2 sqrt trunc 1 serial).fnode ((build2 sqrt trunc 1 serial).faceid C j)).getD k 0 ∈ sid2 serial C j := by
      intro k hk
      have e1 : ((build2 sqrt trunc 1 serial).fnode ((build2 sqrt trunc 1 serial).faceid C j)).getD k 0 =
          ((fac2 serial).getD ((build2 sqrt trunc 1 serial).faceid C j) []).getD k 0 := by
        interval_cases k <;> rfl
      rw [e1]
      apply hp.subset
      have hkl : k < ((fac2 serial).getD ((build2 sqrt trunc 1 serial).faceid C j) []).length := by rw [hp.length_eq, hlen]; exact hk
      rw [List.getD_eq_getElem _ _ hkl]
      exact List.getElem_mem _
    have hin : ∀ a ∈ sid2 serial C j, a < m.nbnodes := by
      intro a ha
      have : a ∈ nodesOf m.nodeid (m.dim + 1) C := hsd.subset (List.mem_append_left _ ha)
      unfold nodesOf at this
      obtain ⟨i, hi, e⟩ := List.mem_map.mp this
      rw [← e]; exact hv.nodes C hC i (List.mem_range.mp hi)
    exact ⟨hin _ (hrow 0 (by omega)), hin _ (hrow 1 (by omega))⟩
  · intro f hf hn
    rw [hD] at hf hn ⊢
    exact (h.built.inner.2 f).mpr ⟨hf, hn⟩
  · intro f hf hn
    rw [hD] at hf hn ⊢
    obtain ⟨s, hs, e⟩ := name_zero_or h hv.toValid hf hn
    rcases List.mem_append.mp hs with hs | hs
    · exact Or.inl ((h.built.bnd.2 f).mpr ⟨hf, by rw [e]; exact mem_wallNames.mpr hs⟩)
    · exact Or.inr ((h.per.2 f).mpr ⟨hf, by rw [e]; exact mem_perNames.mpr hs⟩)
  · intro f hf hn
    rw [hD] at hf hn
    rcases hf with hf | hf
    · have := ((h.built.bnd.2 f).mp hf).2
      rw [show (build2 sqrt trunc 1 serial).name f = 0 from hn, hd] at this
      simp [wallNames, wallSides] at this
    · have := ((h.per.2 f).mp hf).2
      rw [show (build2 sqrt trunc 1 serial).name f = 0 from hn, hd] at this
      simp [perNames, perSides] at this
  · intro f hf hf'
    rw [hD] at hf hf'
    obtain ⟨s, hs, e1⟩ := List.mem_map.mp ((h.built.bnd.2 f).mp hf).2
    have h2 := ((h.per.2 f).mp hf').2
    rw [← e1] at h2
    exact wall_per_disjoint hs (mem_perNames.mp h2)
  · rintro s hs hsp ⟨u, c, ⟨k, hk, hu⟩, hall⟩
    obtain ⟨z0, z1⟩ := hsp u c (fun C hC huse => by
      have hmem : W.D.center C ∈ nodePoints W s := by
        rw [← nodePoints_eq W ⟨fun _ => 0, fun _ => 0, fun _ => 0, fun _ => 0⟩ s]
        unfold nodeStencil
        refine List.mem_map.mpr ⟨(W.D.center C, 0), ?_, rfl⟩
        refine List.mem_append_left _ (List.mem_append_left _ (List.mem_append_left _ (List.mem_map.mpr ⟨C, ?_, rfl⟩)))
        refine (mem_nodeCells _ _ _ _ _).mpr ⟨by rw [ok.ok.nb]; exact hC, ?_⟩
        obtain ⟨j, hj, e⟩ := huse
        have h1 : s ∈ nodesOf m.nodeid (m.dim + 1) C := by
          unfold nodesOf; exact List.mem_map.mpr ⟨j, List.mem_range.mpr (by omega), e⟩
        have h2 := (h.cnode C hC).mem_iff.mpr h1
        unfold nodesOf at h2
        obtain ⟨i, hi, e⟩ := List.mem_map.mp h2
        exact ⟨i, by have := List.mem_range.mp hi; rw [hW2]; omega, by rw [hD]; exact e⟩
      have hc := hall _ hmem
      have hcen : ∀ k < 2, W.D.center C k = m.centroid C k := by
        intro k hk
        rw [hD]
        have hrc := read_cells hr
        have hCs : C < serial.nodeid.length := by rw [hrc.1]; exact hC
        show (build2 sqrt trunc 1 serial).center C k = _
        rw [center_build2 _ _ _ _ hCs]
        have vA : ∀ j < 3, ∀ k < 3, vtx serial (at2 0 serial.nodeid C j) k = pos m.node (m.nodeid C j) k := by
          intro j hj k hk
          rw [hrc.2.2.1 C hC j (by omega)]
          exact (hrc.2.2.2.1 _ (hv.nodes C hC j (by omega))).1 k hk
        have r0 : (row2 serial C).1 = at2 0 serial.nodeid C 0 := rfl
        have r1 : (row2 serial C).2.1 = at2 0 serial.nodeid C 1 := rfl
        have r2 : (row2 serial C).2.2 = at2 0 serial.nodeid C 2 := rfl
        unfold Mesh.centroid
        rw [r0, r1, r2, ← vA 0 (by omega) k (by omega), ← vA 1 (by omega) k (by omega), ← vA 2 (by omega) k (by omega)]
        interval_cases k <;> rfl
      rw [← hcen 0 (by omega), ← hcen 1 (by omega), ← hc]
      simp [Finset.sum_range_succ])
    interval_cases k
    · exact hu z0
    · exact hu z1

/-- **C102** (2D, with diffusion): a constant state stays constant over a whole run of any order with diffusion and a uniform velocity, when
the boundary values on the walls are the constant and the points around every node are not on a line.  Partial: that last condition;
one process. -/
theorem C102_constant_diffusion_2d_partial (hv : m.Valid2 L r) (hr : m.Read serial) (sqrt : K → K) (hs : ∀ x, 0 < x → sqrt x ≠ 0) (trunc : K → Int)
    (htr : ∀ i : Nat, trunc (i : K) = i) : ∃ W, mkPWorld 2 r serial (build2 sqrt trunc 1 serial) = some W ∧
      ((∀ s < m.nbnodes, ¬ Flat 2 (nodePoints W s)) → ∀ (S : Setup K) (q : K), UniformVelocity S → (∀ loc, BcIn q q (S.bc loc)) →
        ∀ (order : Int) N, ∀ c < m.n, (ploop W S order true (pstart W (fun _ _ _ => q)) N).v.cell c = q) := by
  obtain ⟨W, p, e, ok, _, h2, hfn, _⟩ := world_diff hv hr sqrt hs trunc htr
  exact ⟨W, e, fun hfl S q hS hb o N => ok.freestream_diff h2 S q hS hb o hfn hfl _ (fun _ _ => rfl) N⟩

/-- C102 (2D, with diffusion), with a condition on the mesh only: the centroids of the triangles at every node are not on a line. -/
theorem C102_constant_diffusion_mesh_2d_partial (hv : m.Valid2 L r) (hr : m.Read serial) (sqrt : K → K) (hs : ∀ x, 0 < x → sqrt x ≠ 0) (trunc : K → Int)
    (htr : ∀ i : Nat, trunc (i : K) = i) (hm : ∀ s < m.nbnodes, m.ManyTriangles s) : ∃ W, mkPWorld 2 r serial (build2 sqrt trunc 1 serial) = some W ∧
      ∀ (S : Setup K) (q : K), UniformVelocity S → (∀ loc, BcIn q q (S.bc loc)) →
        ∀ (order : Int) N, ∀ c < m.n, (ploop W S order true (pstart W (fun _ _ _ => q)) N).v.cell c = q := by
  obtain ⟨W, p, e, ok, _, h2, hfn, _, _, _, _, hfl⟩ := world_diff hv hr sqrt hs trunc htr
  exact ⟨W, e, fun S q hS hb o N => ok.freestream_diff h2 S q hS hb o hfn (fun s hs => hfl s hs (hm s hs)) _ (fun _ _ => rfl) N⟩

/-- **C101** (2D, with diffusion): from any state, one first-order iteration with a periodic velocity changes the integral of the variable by
the time step times what enters through the walls by advection and diffusion, plus what the face gradients of the periodic faces
let in.  Partial: the last term is not shown to vanish: each periodic face has its own gradient, and the code gives partner faces
different ones (C68). -/
theorem C101_mass_diffusion_2d_partial (hv : m.Valid2 L r) (hr : m.Read serial) (sqrt : K → K) (hs : ∀ x, 0 < x → sqrt x ≠ 0) (trunc : K → Int)
    (htr : ∀ i : Nat, trunc (i : K) = i) : ∃ W, mkPWorld 2 r serial (build2 sqrt trunc 1 serial) = some W ∧
      ∀ S : Setup K, PeriodicVelocity W.D 2 L S → ∀ s : QState K, ∃ v : Vari K, v.cell = s.v.cell ∧
        (∀ f ∈ W.D.boundaryfaces, v.ghost f = ghostVal W.D s.v.cell f (S.bc (W.D.name f))) ∧
        massOf W.D (pstep W S 1 true s).v.cell = massOf W.D s.v.cell - ((pstep W S 1 true s).time - s.time) * (wallOutflow W.D S s.iter s.v.cell
          - diffusedIn W.D S (W.faceGrads S.bc v.fields (W.nodeValues v.fields)) W.D.boundaryfaces
          - diffusedIn W.D S (W.faceGrads S.bc v.fields (W.nodeValues v.fields)) W.D.periodicboundaryfaces) := by
  obtain ⟨W, p, e, ok, _, h2, hfn, h3, h4, h5, h6, _⟩ := world_diff hv hr sqrt hs trunc htr
  exact ⟨W, e, fun S hS s => ok.mass_step_diff S (h2 ▸ hS) h3 h4 h5 h6 s⟩

end
/-- Three triangles at node `s` whose centroids are not on a line. -/
theorem many_of_three (m : Mesh K) (s a b c : Nat) (ha : a < m.n ∧ Uses m.nodeid 3 a s) (hb : b < m.n ∧ Uses m.nodeid 3 b s)
    (hc : c < m.n ∧ Uses m.nodeid 3 c s)
    (hx : (m.centroid b 0 - m.centroid a 0) * (m.centroid c 1 - m.centroid a 1) - (m.centroid b 1 - m.centroid a 1) * (m.centroid c 0 - m.centroid a 0) ≠ 0) :
    m.ManyTriangles s := by
  intro u k h
  have e1 := h a ha.1 ha.2
  have e2 := h b hb.1 hb.2
  have e3 := h c hc.1 hc.2
  constructor
  · apply mul_right_cancel₀ hx
    linear_combination (e2 - e1) * (m.centroid c 1 - m.centroid a 1) - (e3 - e1) * (m.centroid b 1 - m.centroid a 1)
  · apply mul_right_cancel₀ hx
    linear_combination (e3 - e1) * (m.centroid b 0 - m.centroid a 0) - (e2 - e1) * (m.centroid c 0 - m.centroid a 0)

/-! ## Example: a square cut into 16 triangles, periodic in `x`, walls at the top and the bottom, at least three triangles at every node -/

def quiltCell (c j : Nat) : Nat :=
  ([[0, 4, 6], [4, 7, 6], [4, 1, 7], [1, 8, 7], [1, 2, 8], [2, 9, 8], [2, 5, 9], [5, 10, 9], [5, 3, 10], [3, 11, 10], [3, 0, 11], [0, 6, 11],
    [6, 7, 8], [6, 8, 11], [11, 8, 9], [11, 9, 10]].getD c []).getD j 0
def quiltNode (i : Nat) : ℚ × ℚ × ℚ × Nat :=
  [((0, 0, 0, 11) : ℚ × ℚ × ℚ × Nat), (6, 0, 0, 22), (6, 6, 0, 22), (0, 6, 0, 11), (3, 0, 0, 4), (3, 6, 0, 3), (2, 1, 0, 0), (4, 1, 0, 0), (5, 3, 0, 0),
    (4, 5, 0, 0), (2, 5, 0, 0), (1, 3, 0, 0)].getD i (0, 0, 0, 0)
def quilt : Mesh ℚ := ⟨2, quiltCell, quiltNode, 12, 16⟩

theorem quilt_nodup : ∀ c < quilt.n, (nodesOf quilt.nodeid (quilt.dim + 1) c).Nodup := by decide +kernel

theorem quilt_x : quilt.Facing 0 11 22 6 := by
  refine FacingCheck.facing (up := fun a => if a = 0 then 1 else 2) (dn := fun a => if a = 1 then 0 else 3) ⟨?_, ?_, ?_, ?_, ?_, ?_⟩ quilt_nodup <;> decide +kernel


theorem quiltValid : quilt.Valid2 (fun _ => 6) (fun x => x) := by
  have hO := fun {c x l} (h : quilt.Outer c l x) => outer_side quilt quilt_nodup h
  refine ⟨⟨by decide +kernel, by decide +kernel, ?_, quilt_x, facing_absent _ _ _ _ _ (by decide +kernel) (by decide +kernel), fun h => absurd h (by decide),
    by decide +kernel, ?_, fun _ _ _ _ _ => rfl, fun _ _ _ _ _ _ _ => rfl⟩, rfl, by decide +kernel, ?_⟩
  · intro c l x ho
    obtain ⟨j, hj, hp, hOj⟩ := hO ho
    have D : ∀ c < quilt.n, ∀ j < quilt.dim + 1, OuterAt quilt c j → ∃ s ∈ wallSides quilt.dim ++ perSides quilt.dim, quilt.On s (sdOf quilt c j) := by decide +kernel
    obtain ⟨s, hs, hon⟩ := D c ho.1 j hj hOj
    exact ⟨s, hs, on_perm hon hp.symm⟩
  · intro c l x c' l' x' ho ho' e
    obtain ⟨j, hj, hp, hOj⟩ := hO ho
    obtain ⟨j', hj', hp', hOj'⟩ := hO ho'
    have D : ∀ c < quilt.n, ∀ j < quilt.dim + 1, OuterAt quilt c j → ∀ c' < quilt.n, ∀ j' < quilt.dim + 1, OuterAt quilt c' j' → SameFace quilt c j c' j' := by decide +kernel
    exact hp.trans ((D c ho.1 j hj hOj c' ho'.1 j' hj' hOj' (fun k hk => by rw [← centre_perm _ hp, ← centre_perm _ hp', e k hk])).trans hp'.symm)
  · intro c hc c' hc' hne a b x y h1 h2
    have D : ∀ c < 16, ∀ c' < 16, c ≠ c' → ∀ a ∈ nodesOf quiltCell 3 c, ∀ b ∈ nodesOf quiltCell 3 c, ∀ x ∈ nodesOf quiltCell 3 c, [a, b, x].Perm (nodesOf quiltCell 3 c) →
      ∀ y ∈ nodesOf quiltCell 3 c', [a, b, y].Perm (nodesOf quiltCell 3 c') →
      signedArea (pos quiltNode a) (pos quiltNode b) (pos quiltNode x) * signedArea (pos quiltNode a) (pos quiltNode b) (pos quiltNode y) < 0 := by decide +kernel
    exact D c hc c' hc' hne a (h1.subset (by simp)) b (h1.subset (by simp)) x (h1.subset (by simp)) h1 y (h2.subset (by simp)) h2

theorem quiltMany : ∀ s < quilt.nbnodes, quilt.ManyTriangles s := by
  have D : ∀ s < quilt.nbnodes, ∃ t ∈ [((0 : Nat), (11 : Nat), (10 : Nat)), (2, 3, 4), (4, 5, 6), (8, 9, 10), (0, 1, 2), (6, 7, 8), (0, 1, 13), (1, 2, 3), (3, 4, 14), (5, 6, 7), (7, 8, 9), (9, 10, 11)],
      (t.1 < quilt.n ∧ Uses quilt.nodeid 3 t.1 s) ∧ (t.2.1 < quilt.n ∧ Uses quilt.nodeid 3 t.2.1 s) ∧ (t.2.2 < quilt.n ∧ Uses quilt.nodeid 3 t.2.2 s) ∧
      (quilt.centroid t.2.1 0 - quilt.centroid t.1 0) * (quilt.centroid t.2.2 1 - quilt.centroid t.1 1) -
        (quilt.centroid t.2.1 1 - quilt.centroid t.1 1) * (quilt.centroid t.2.2 0 - quilt.centroid t.1 0) ≠ 0 := by decide +kernel
  intro s hs
  obtain ⟨t, _, a, b, c, e⟩ := D s hs
  exact many_of_three quilt s _ _ _ a b c e

def quiltSerial : RankData ℚ := expected 1 0 (serialWrite quiltCell quiltNode 12 16 3)
theorem quiltRead : quilt.Read quiltSerial := C25_round_trip_serial (K := ℚ) _ _

/-- The hypotheses of the theorems are met by this mesh. -/
example := C102_constant_diffusion_mesh_2d_partial quiltValid quiltRead (fun x => x) (fun x hx => hx.ne') Rat.floor floor_nat quiltMany
example := C101_mass_diffusion_2d_partial quiltValid quiltRead (fun x => x) (fun x hx => hx.ne') Rat.floor floor_nat
/-- So does the general form: the points around no node of this mesh are on a line. -/
example : ∃ W, mkPWorld 2 (fun x : ℚ => x) quiltSerial (build2 (fun x => x) Rat.floor 1 quiltSerial) = some W ∧
    ∀ s < quilt.nbnodes, ¬ Flat 2 (nodePoints W s) := by
  obtain ⟨W, p, e, _, _, _, _, _, _, _, _, h⟩ := world_diff quiltValid quiltRead (fun x => x) (fun x hx => hx.ne') Rat.floor floor_nat
  exact ⟨W, e, fun s hs => h s hs (quiltMany s hs)⟩

end Verif.Props.Par
