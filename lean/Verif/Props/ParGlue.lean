import Verif.Props.ParFlow
import Verif.Props.ParNodePair2
import Verif.Props.ParNodePair3

/-! Helper lemmas for the run theorems: an iteration of the convective driver on all ranks is one finite-volume update of the whole mesh,
whatever the gradients are. -/
set_option linter.unusedSectionVars false
set_option linter.unusedVariables false
set_option linter.unusedSimpArgs false
namespace Verif.Props.Par
open Verif.Fvm Verif.Spec Verif.Conn Verif.Dom Verif.Geo Verif.Names Verif.MeshFile Verif.Part Verif.Comm Verif.Run Verif.HaloGhost
variable {K : Type*} [Field K] [LinearOrder K] [IsStrictOrderedRing K]

section
variable {dim : Nat} {nodeid : Nat → Nat → Nat} {node : Nat → K × K × K × Nat} {cv : Nat → List K} {npart0 epart : Nat → Nat}
  {nbnodes n SIZE : Nat} {data : Nat → RankData K} {serial : RankData K} {L : Nat → Tables K} {G : Tables K} {B : List Int}
  {out : Nat → Nat → Vec K} {trunc : K → Int}

/-- Arrays of the ranks are the restrictions of one array on the cells of the mesh. -/
theorem RunPair.glue (h : RunPair dim SIZE n epart data L G B out) (a : Nat → Nat → K) :
    ∃ A : Nat → K, ∀ p < SIZE, ∀ c < (L p).nbcells, a p c = A (phi (data p) c) := by
  classical
  refine ⟨fun C => if hC : ∃ c < (L (epart C)).nbcells, phi (data (epart C)) c = C then a (epart C) hC.choose else 0, ?_⟩
  intro p hp c hc
  have R := h.rank p hp
  have hm : epart (phi (data p) c) = p := (R.sub.lt c hc).2
  have hex : ∃ c' < (L (epart (phi (data p) c))).nbcells, phi (data (epart (phi (data p) c))) c' = phi (data p) c := by
    rw [hm]; exact ⟨c, hc, rfl⟩
  dsimp only
  rw [dif_pos hex]
  have h1 := hex.choose_spec
  generalize hex.choose = c' at h1
  rw [hm] at h1 ⊢
  rw [R.sub.inj h1.1 hc h1.2]

theorem cellGradient_glue (h : NodePair dim nodeid node cv npart0 epart nbnodes n SIZE data serial L G B out trunc) (hgL hgG : Nat → HGResult K)
    (bc : Int → BCond K) (V U : Nat → Vari K) (hm : VMatch SIZE data L V U) :
    ∃ V' gL U' gG, cellGradient (parW dim SIZE data L hgL) bc V = some (V', gL) ∧ VMatch SIZE data L V' U' ∧
      (∀ p, (V' p).cell = (V p).cell) ∧ (∀ p, (U' p).cell = (U p).cell) ∧
      (∀ p < SIZE, ValuesOk dim SIZE data L G (U' 0).fields.c bc p (hgL p) (V' p).fields) ∧ ValuesG dim G bc (U' 0).fields ∧
      (∀ p < SIZE, GradMatch (data p) (L p).nbcells (gL p) gG) ∧
      ∀ p < SIZE, ∀ c < (L p).nbcells, (gG.wx (phi (data p) c), gG.wy (phi (data p) c), gG.wz (phi (data p) c)) =
        cellGrads dim SIZE (data p) (L p) (hgL p) (V' p).fields c := by
  obtain ⟨V', U', e1, _, m, c1, c2, vL, vG⟩ := update_match h hgL hgG bc V U hm
  obtain ⟨g, eg⟩ : ∃ g, g = fun p => cellGrads dim SIZE (data p) (L p) (hgL p) (V' p).fields := ⟨_, rfl⟩
  obtain ⟨psi, ep⟩ : ∃ psi, psi = fun p => limiter dim (limEps dim) (L p) (V' p).fields (g p) := ⟨_, rfl⟩
  obtain ⟨A1, a1⟩ := h.run.glue (fun p c => (g p c).1)
  obtain ⟨A2, a2⟩ := h.run.glue (fun p c => (g p c).2.1)
  obtain ⟨A3, a3⟩ := h.run.glue (fun p c => (g p c).2.2)
  obtain ⟨A4, a4⟩ := h.run.glue psi
  obtain ⟨H1, x1, y1⟩ := exchange_match h hgL _ _ a1
  obtain ⟨H2, x2, y2⟩ := exchange_match h hgL _ _ a2
  obtain ⟨H3, x3, y3⟩ := exchange_match h hgL _ _ a3
  obtain ⟨H4, x4, y4⟩ := exchange_match h hgL _ _ a4
  refine ⟨V', fun p => ⟨fun c => (g p c).1, fun c => (g p c).2.1, fun c => (g p c).2.2, psi p, H1 p, H2 p, H3 p, H4 p⟩, U',
    ⟨A1, A2, A3, A4, [], [], [], []⟩, ?_, m, c1, c2, vL, vG, ?_, ?_⟩
  · unfold cellGradient
    rw [e1]
    simp only [Option.bind_some]
    subst ep
    subst eg
    dsimp only at x1 x2 x3 x4 ⊢
    rw [x1, x2, x3]
    simp only [Option.bind_some]
    rw [x4]; rfl
  · intro p hp
    exact ⟨fun c hc => ⟨a1 p hp c hc, a2 p hp c hc, a3 p hp c hc, a4 p hp c hc⟩,
      fun k hk => ⟨y1 p hp k hk, y2 p hp k hk, y3 p hp k hk, y4 p hp k hk⟩⟩
  · intro p hp c hc
    dsimp only
    rw [← a1 p hp c hc, ← a2 p hp c hc, ← a3 p hp c hc, eg]

/-- The arrays of the whole mesh that correspond to an iteration of the ranks. -/
structure Glued (dim SIZE : Nat) (data : Nat → RankData K) (L : Nat → Tables K) (G : Tables K) (hgL : Nat → HGResult K) (S : Setup K) (s : TState K)
    (F : Fields K) : Prop where
  cell : ∀ p < SIZE, ∀ c < (L p).nbcells, (s.V p).cell c = F.w (phi (data p) c)
  ghost : ∀ f ∈ G.boundaryfaces, F.ghost f = ghostVal G F.w f (S.bc (G.name f))
  u : F.u_face = atFaces G (S.u s.iter)
  v : F.v_face = atFaces G (S.v s.iter)
  w : F.w_face = atFaces G (S.w s.iter)
  grad : ∃ wG : Interp.Fields K, wG.c = F.w ∧ ValuesG dim G S.bc wG ∧ ∀ p < SIZE, ∃ wL, ValuesOk dim SIZE data L G wG.c S.bc p (hgL p) wL ∧
    ∀ c < (L p).nbcells, (F.wx (phi (data p) c), F.wy (phi (data p) c), F.wz (phi (data p) c)) = cellGrads dim SIZE (data p) (L p) (hgL p) wL c

/-- One iteration without the diffusive term: every rank updates its cells by the balance of the whole mesh. -/
theorem tstep_glue (h : NodePair dim nodeid node cv npart0 epart nbnodes n SIZE data serial L G B out trunc) (hgL : Nat → HGResult K)
    (S : Setup K) (order : Int) (s : TState K) :
    ∃ s' F, tstep (parW dim SIZE data L hgL) S order false s = some s' ∧ Glued dim SIZE data L G hgL S s F ∧
      s'.time = s.time + localStep dim S G s.iter ∧ s'.iter = s.iter + 1 ∧
      ∀ p < SIZE, ∀ c < (L p).nbcells, (s'.V p).cell c = (s.V p).cell c +
        localStep dim S G s.iter * (balance (convArgs G F order) dim (phi (data p) c) / G.volume (phi (data p) c)) := by
  obtain ⟨A, hA⟩ := h.run.glue (fun p => (s.V p).cell)
  obtain ⟨V1, U1, u1, _, m1, d1, d2, _, _⟩ := update_match h hgL (fun _ => ⟨fun _ => [], fun _ => [], fun _ => [], fun _ => [], 0⟩) S.bc s.V
    (fun _ => ⟨A, fun _ => 0, fun _ => 0, []⟩) hA
  obtain ⟨V2, gL, U2, gG, c1, m2, e1, e2, vL, vG, hgm, hgr⟩ := cellGradient_glue h hgL (fun _ => ⟨fun _ => [], fun _ => [], fun _ => [], fun _ => [], 0⟩)
    S.bc V1 U1 m1
  have hdt := dt_match h.run S s.iter
  rw [show allreduceMin 1 (fun _ => localStep dim S G s.iter) = localStep dim S G s.iter by unfold allreduceMin; simp] at hdt
  have hUA : (U2 0).cell = A := (e2 0).trans (d2 0)
  refine ⟨{ V := fun p => { V2 p with cell := (updateNewValue (V2 p).cell (conv dim (convArgs (L p) (fieldsOf S (L p) s.iter (V2 p).cell (V2 p).ghost (V2 p).halo (gL p)) order))
        (fun _ => 0) (fun _ => 0) (allreduceMin SIZE (fun p => localStep dim S (L p) s.iter)) (L p).volume) }, node := s.node, time := s.time + allreduceMin SIZE (fun p => localStep dim S (L p) s.iter), iter := s.iter + 1 },
    fieldsOf S G s.iter (U2 0).cell (U2 0).ghost (U2 0).halo gG, ?_, ⟨?_, ?_, rfl, rfl, rfl, ⟨(U2 0).fields, rfl, vG, fun p hp => ⟨(V2 p).fields, vL p hp, hgr p hp⟩⟩⟩, ?_, ?_, ?_⟩
  · unfold tstep
    rw [u1]
    simp only [Option.bind_some]
    rw [c1]
    simp only [Option.bind_some]
    rfl
  · intro p hp c hc
    show _ = (U2 0).cell _
    rw [hUA]; exact hA p hp c hc
  · intro f hf
    obtain ⟨g2, eg2⟩ := vG.ghost
    have h0 : 0 < SIZE := by have := h.run.hS; omega
    have R := h.run.rank 0 h0
    obtain ⟨f1, f2⟩ := (R.cG.bnd.2 f).mp hf
    show (U2 0).fields.ghost f = _
    rw [eg2, updateGhosts_apply _ _ _ _ _ f1 (h.run.hB _ f2)]; rfl
  · show s.time + _ = _
    rw [hdt]
  · rfl
  · intro p hp c hc
    have R := h.run.rank p hp
    have := conv_eq h S order s.iter hp (vL p hp) vG (hgm p hp) hc
    rw [conv_balance R.cG _ _ h.run.hd] at this
    dsimp only [parW, updateNewValue]
    rw [this, hdt, h.run.volume p hp c hc, e1 p, d1 p]
    ring

end
end Verif.Props.Par
