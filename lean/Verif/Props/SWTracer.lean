import Verif.Props.Linear
import Verif.Props.SWRun

/-!
# A tracer of uniform concentration keeps it in shallow-water runs (C120)
-/
set_option linter.unusedSectionVars false
set_option linter.unusedSimpArgs false
set_option linter.unusedVariables false
namespace Verif.Props.Par
open Verif Verif.Dom Verif.Fvm Verif.Geo Verif.MeshFile Verif.HaloGhost Verif.Run Verif.Spec Verif.Conn Verif.Part

theorem roeAvg_uniform (hl hr κ : ℝ) (h1 : 0 < hl) (h2 : 0 < hr) : SW.roeAvg hl hr (κ * hl) (κ * hr) = κ := by
  have s1 := Real.sqrt_pos.mpr h1
  have s2 := Real.sqrt_pos.mpr h2
  unfold SW.roeAvg
  rw [mul_div_assoc, div_self h1.ne', mul_div_assoc, div_self h2.ne', mul_one, ← mul_add, mul_div_assoc, div_self (by positivity), mul_one]

theorem predict_uniform (l r : SW.W5) (n : Nat → ℝ) (mes g κ : ℝ) (h1 : 0 < l 0) (h2 : 0 < r 0) (e1 : l 3 = κ * l 0) (e2 : r 3 = κ * r 0) :
    SW.predict l r n mes g 3 = κ * SW.predict l r n mes g 0 := by
  have hc : SW.roeAvg (l 0) (r 0) (l 3) (r 3) = κ := by rw [e1, e2]; exact roeAvg_uniform _ _ _ h1 h2
  simp only [SW.predict, hc, SW.beta_zero, Fin.sum_univ_five]
  generalize SW.eigs g ((l 0 + r 0) / 2) (SW.uRoe l r n mes) (SW.vRoe l r n mes) = e
  obtain ⟨x, y, z⟩ := e
  simp only [SW.rmat, SW.rotate]
  simp [e1, e2]
  ring

theorem flux_uniform (l r : SW.W5) (n : Nat → ℝ) (mes g κ : ℝ) (h1 : 0 < l 0) (h2 : 0 < r 0) (e1 : l 3 = κ * l 0) (e2 : r 3 = κ * r 0)
    (hw : SW.predict l r n mes g 0 ≠ 0) : SW.srnh l r n mes g 3 = κ * SW.srnh l r n mes g 0 := by
  have e : SW.srnh l r n mes g 3 = SW.srnh l r n mes g 0 * SW.predict l r n mes g 3 / SW.predict l r n mes g 0 := rfl
  rw [e, predict_uniform l r n mes g κ h1 h2 e1 e2]
  field_simp

/-- Pairs `(x, κ x)`. -/
def pairRel (κ : ℝ) : Submodule ℝ (Fin 2 → ℝ) where
  carrier := {x | x 1 = κ * x 0}
  add_mem' := by intro a b ha hb; simp only [Set.mem_ofPred_eq, Pi.add_apply] at *; rw [ha, hb]; ring
  zero_mem' := by simp
  smul_mem' := by intro c a ha; simp only [Set.mem_ofPred_eq, Pi.smul_apply, smul_eq_mul] at *; rw [ha]; ring

theorem mem_pair {κ : ℝ} {x : Fin 2 → ℝ} : x ∈ pairRel κ ↔ x 1 = κ * x 0 := Iff.rfl

/-- The residual of the tracer is `κ` times the one of the depth. -/
theorem conv_uniform (a : SW.Args) (κ : ℝ) (hw : WetFaces a) (hc : ∀ c f, a.fromCell c f 3 = κ * a.fromCell c f 0)
    (hh : ∀ c f, a.fromHalo c f 3 = κ * a.fromHalo c f 0) (hg : ∀ f, a.ghost f 3 = κ * a.ghost f 0) (C : Nat) :
    a.convective C 3 = κ * a.convective C 0 := by
  have keep : ∀ (l : List Nat) (st : (Nat → SW.W5) → Nat → Nat → SW.W5),
      (∀ f ∈ l, ∀ rez : Nat → SW.W5, (∀ c, rez c 3 = κ * rez c 0) → ∀ c, st rez f c 3 = κ * st rez f c 0) →
      ∀ rez : Nat → SW.W5, (∀ c, rez c 3 = κ * rez c 0) → ∀ c, l.foldl st rez c 3 = κ * l.foldl st rez c 0 := by
    intro l st
    induction l with
    | nil => intro _ rez h0 c; exact h0 c
    | cons f t ih => intro h rez h0 c; exact ih (fun g hg => h g (by simp [hg])) (st rez f) (h f (by simp) rez h0) c
  have sub : ∀ (rez : Nat → SW.W5) (k : Nat) (x : SW.W5), (∀ c, rez c 3 = κ * rez c 0) → x 3 = κ * x 0 → ∀ c, subAt rez k x c 3 = κ * subAt rez k x c 0 := by
    intro rez k x h0 hx c
    unfold subAt
    by_cases h : c = k
    · simp only [h, if_true, Pi.sub_apply, h0, hx]; ring
    · simp only [h, if_false, h0]
  have add : ∀ (rez : Nat → SW.W5) (k : Nat) (x : SW.W5), (∀ c, rez c 3 = κ * rez c 0) → x 3 = κ * x 0 → ∀ c, addAt rez k x c 3 = κ * addAt rez k x c 0 := by
    intro rez k x h0 hx c
    unfold addAt
    by_cases h : c = k
    · simp only [h, if_true, Pi.add_apply, h0, hx]; ring
    · simp only [h, if_false, h0]
  unfold SW.Args.convective
  refine keep _ _ (fun f hf rez h0 => ?_) _ (keep _ _ (fun f hf rez h0 => ?_) _ (keep _ _ (fun f hf rez h0 => ?_) _ (fun c => ?_))) C
  · obtain ⟨w1, w2, w3⟩ := hw.boundary f hf
    exact sub _ _ _ h0 (flux_uniform _ _ _ _ _ κ w1 w2 (hc _ _) (hg _) w3)
  · obtain ⟨w1, w2, w3⟩ := hw.halo f hf
    exact sub _ _ _ h0 (flux_uniform _ _ _ _ _ κ w1 w2 (hc _ _) (hh _ _) w3)
  · obtain ⟨w1, w2, w3⟩ := hw.inner f hf
    have := flux_uniform _ _ _ _ _ κ w1 w2 (hc _ _) (hc _ _) w3
    exact add _ _ _ (sub _ _ _ h0 this) this
  · simp

/-- What an iteration does, step by step. -/
theorem swStep_parts {W : World ℝ} {S : SSetup} {s s' : SState} (h : swStep W S s = some s') :
    ∃ V1 V2 r q o, updateAll W S.bc s.V = some V1 ∧ frictionAll W S s.dt V1 = some V2 ∧ gradsAll W S V2 = some r ∧
      faceGradient W (S.bc 3) (r.1 3) = some q ∧
      celltonode W (S.bc 0) (setCells ![r.1 0, r.1 1, r.1 2, q.1, r.1 4] (swNews W S s.dt r.1 r.2.1 r.2.2 q.2.2) 0) = some o ∧
      s' = { V := ![o.1, setCells ![r.1 0, r.1 1, r.1 2, q.1, r.1 4] (swNews W S s.dt r.1 r.2.1 r.2.2 q.2.2) 1,
               setCells ![r.1 0, r.1 1, r.1 2, q.1, r.1 4] (swNews W S s.dt r.1 r.2.1 r.2.2 q.2.2) 2,
               setCells ![r.1 0, r.1 1, r.1 2, q.1, r.1 4] (swNews W S s.dt r.1 r.2.1 r.2.2 q.2.2) 3,
               setCells ![r.1 0, r.1 1, r.1 2, q.1, r.1 4] (swNews W S s.dt r.1 r.2.1 r.2.2 q.2.2) 4]
             node := o.2, dt := swTimeStep W S (swNews W S s.dt r.1 r.2.1 r.2.2 q.2.2), time := s.time + s.dt } := by
  unfold swStep at h
  obtain ⟨V1, e1, h⟩ := Option.bind_eq_some_iff.mp h
  obtain ⟨V2, e2, h⟩ := Option.bind_eq_some_iff.mp h
  obtain ⟨r, e3, h⟩ := Option.bind_eq_some_iff.mp h
  obtain ⟨q, e4, h⟩ := Option.bind_eq_some_iff.mp h
  obtain ⟨o, e5, h⟩ := Option.map_eq_some_iff.mp h
  exact ⟨V1, V2, r, q, o, e1, e2, e3, e4, e5, h.symm⟩

theorem updateAll_parts {W : World ℝ} {bc : Fin 5 → Int → BCond ℝ} {V V' : Fin 5 → Nat → Vari ℝ} (h : updateAll W bc V = some V') (k : Fin 5) :
    updateValues W (bc k) (V k) = some (V' k) := by
  unfold updateAll at h
  obtain ⟨a, e1, h⟩ := Option.bind_eq_some_iff.mp h
  obtain ⟨b, e2, h⟩ := Option.bind_eq_some_iff.mp h
  obtain ⟨c, e3, h⟩ := Option.bind_eq_some_iff.mp h
  obtain ⟨d, e4, h⟩ := Option.bind_eq_some_iff.mp h
  obtain ⟨e, e5, rfl⟩ := Option.map_eq_some_iff.mp h
  fin_cases k
  exacts [e1, e2, e3, e4, e5]

theorem frictionAll_parts {W : World ℝ} {S : SSetup} {dt : ℝ} {V V' : Fin 5 → Nat → Vari ℝ} (h : frictionAll W S dt V = some V') :
    V' 0 = V 0 ∧ V' 3 = V 3 := by
  unfold frictionAll at h
  obtain ⟨a, e1, h⟩ := Option.bind_eq_some_iff.mp h
  obtain ⟨b, e2, rfl⟩ := Option.map_eq_some_iff.mp h
  exact ⟨rfl, rfl⟩

theorem cellGradient_parts {W : World ℝ} {bc : Int → BCond ℝ} {V : Nat → Vari ℝ} {r : (Nat → Vari ℝ) × (Nat → Grads ℝ)} (h : cellGradient W bc V = some r) :
    updateValues W bc V = some r.1 ∧
      (∀ p c, (r.2 p).wx c = (cellGrads W.dim W.SIZE (W.data p) (W.D p) (W.hg p) (r.1 p).fields c).1) ∧
      (∀ p c, (r.2 p).wy c = (cellGrads W.dim W.SIZE (W.data p) (W.D p) (W.hg p) (r.1 p).fields c).2.1) ∧
      exchangeAll W (fun p => (r.2 p).wx) = some (fun p => (r.2 p).wx_halo) ∧ exchangeAll W (fun p => (r.2 p).wy) = some (fun p => (r.2 p).wy_halo) := by
  unfold cellGradient at h
  obtain ⟨U, e0, h⟩ := Option.bind_eq_some_iff.mp h
  dsimp only at h
  obtain ⟨hx, e1, h⟩ := Option.bind_eq_some_iff.mp h
  obtain ⟨hy, e2, h⟩ := Option.bind_eq_some_iff.mp h
  obtain ⟨hz, e3, h⟩ := Option.bind_eq_some_iff.mp h
  obtain ⟨hp, e4, rfl⟩ := Option.map_eq_some_iff.mp h
  exact ⟨e0, fun _ _ => rfl, fun _ _ => rfl, e1, e2⟩

/-- The two variables `h`, `hc`. -/
def waterTracer (V : Fin 5 → Nat → Vari ℝ) : Fin 2 → Nat → Vari ℝ := ![V 0, V 3]

theorem tracer_bc {κ : ℝ} {bc : Fin 5 → Int → BCond ℝ} (h : TracerSides κ bc) (loc : Int) : BcRel (pairRel κ) ![bc 0, bc 3] loc := by
  rcases h loc with ⟨a, b⟩ | ⟨a, b⟩ | ⟨v, v', a, b, e⟩
  · exact .inl (by rw [Fin.forall_fin_two]; exact ⟨a, b⟩)
  · exact .inr (.inl (by rw [Fin.forall_fin_two]; exact ⟨a, b⟩))
  · exact .inr (.inr ⟨![v, v'], by rw [Fin.forall_fin_two]; exact ⟨a, b⟩, fun x y z => e x y z⟩)

/-- The gradients of `h` and `hc`. -/
theorem gradsAll_uniform {W : World ℝ} (hd : W.dim = 2) {S : SSetup} {κ : ℝ} (hb : TracerSides κ S.bc) {V : Fin 5 → Nat → Vari ℝ}
    {r : (Fin 5 → Nat → Vari ℝ) × (Nat → Grads ℝ) × (Nat → Grads ℝ)} (h : gradsAll W S V = some r) (hV : Related (pairRel κ) W.SIZE (waterTracer V)) :
    Related (pairRel κ) W.SIZE (waterTracer r.1) ∧ ∀ p < W.SIZE, (∀ c, (r.2.2 p).wx c = κ * (r.2.1 p).wx c) ∧ (∀ c, (r.2.2 p).wy c = κ * (r.2.1 p).wy c) ∧
      (∀ k, (r.2.2 p).wx_halo.getD k 0 = κ * (r.2.1 p).wx_halo.getD k 0) ∧ (∀ k, (r.2.2 p).wy_halo.getD k 0 = κ * (r.2.1 p).wy_halo.getD k 0) := by
  unfold gradsAll at h
  split at h
  · obtain ⟨a, e1, h⟩ := Option.bind_eq_some_iff.mp h
    obtain ⟨b, e2, rfl⟩ := Option.map_eq_some_iff.mp h
    obtain ⟨a1, a2, a3, a4, a5⟩ := cellGradient_parts e1
    obtain ⟨b1, b2, b3, b4, b5⟩ := cellGradient_parts e2
    have hR : Related (pairRel κ) W.SIZE ![a.1, b.1] := updateValues_rel (pairRel κ) (bc := ![S.bc 0, S.bc 3]) (U := waterTracer V) (tracer_bc hb)
      (hV.weak (pairRel κ)) (by rw [Fin.forall_fin_two]; exact ⟨a1, b1⟩)
    have hg := fun p (hp : p < W.SIZE) c => cellGradient2_rel (pairRel κ) (nodeTabs W.dim W.SIZE (W.data p) (W.D p) (W.hg p))
      (cellTabs W.dim W.SIZE (W.data p) (W.D p)) _ (hR.fields (pairRel κ) hp) c
    have hx : ∀ p < W.SIZE, ∀ c, (b.2 p).wx c = κ * (a.2 p).wx c := by
      intro p hp c
      rw [a2, b2]; unfold cellGrads; rw [if_pos hd, if_pos hd]
      exact (hg p hp c).1
    have hy : ∀ p < W.SIZE, ∀ c, (b.2 p).wy c = κ * (a.2 p).wy c := by
      intro p hp c
      rw [a3, b3]; unfold cellGrads; rw [if_pos hd, if_pos hd]
      exact (hg p hp c).2
    refine ⟨hR, fun p hp => ⟨hx p hp, hy p hp, fun k => ?_, fun k => ?_⟩⟩
    · exact exchangeAll_rel (pairRel κ) (a := ![fun p => (a.2 p).wx, fun p => (b.2 p).wx]) (b := ![fun p => (a.2 p).wx_halo, fun p => (b.2 p).wx_halo])
        (fun p hp c => hx p hp c) (by rw [Fin.forall_fin_two]; exact ⟨a4, b4⟩) p k
    · exact exchangeAll_rel (pairRel κ) (a := ![fun p => (a.2 p).wy, fun p => (b.2 p).wy]) (b := ![fun p => (a.2 p).wy_halo, fun p => (b.2 p).wy_halo])
        (fun p hp c => hy p hp c) (by rw [Fin.forall_fin_two]; exact ⟨a5, b5⟩) p k
  · injection h with h
    subst h
    exact ⟨hV, fun p hp => ⟨fun c => by simp [zeroGrads], fun c => by simp [zeroGrads], fun k => by simp [zeroGrads], fun k => by simp [zeroGrads]⟩⟩

/-- One iteration keeps the concentration. -/
theorem swStep_uniform {W : World ℝ} (hd : W.dim = 2) {S : SSetup} {κ : ℝ} (hx : S.Dx = 0) (hy : S.Dy = 0) (hb : TracerSides κ S.bc) {s s' : SState}
    (h : swStep W S s = some s') (hw : WetIteration W S s) (h0 : Relat0 (pairRel κ) W (waterTracer s.V)) : Relat0 (pairRel κ) W (waterTracer s'.V) := by
  obtain ⟨V1, V2, r, q, o, e1, e2, e3, e4, e5, rfl⟩ := swStep_parts h
  have hwet := hw V1 V2 r e1 e2 e3
  have r1 : Related (pairRel κ) W.SIZE (waterTracer V1) := updateValues_rel (pairRel κ) (bc := ![S.bc 0, S.bc 3]) (U := waterTracer s.V) (tracer_bc hb) h0
    (by rw [Fin.forall_fin_two]; exact ⟨updateAll_parts e1 0, updateAll_parts e1 3⟩)
  have r2 : waterTracer V2 = waterTracer V1 := by unfold waterTracer; rw [(frictionAll_parts e2).1, (frictionAll_parts e2).2]
  obtain ⟨r3, hg⟩ := gradsAll_uniform hd hb e3 (r2 ▸ r1)
  have q1 : updateValues W (S.bc 3) (r.1 3) = some q.1 := by
    unfold faceGradient celltonode at e4
    rw [Option.map_map] at e4
    obtain ⟨U, e, rfl⟩ := Option.map_eq_some_iff.mp e4
    exact e
  have o1 : updateValues W (S.bc 0) (setCells ![r.1 0, r.1 1, r.1 2, q.1, r.1 4] (swNews W S s.dt r.1 r.2.1 r.2.2 q.2.2) 0) = some o.1 := by
    unfold celltonode at e5
    obtain ⟨U, e, rfl⟩ := Option.map_eq_some_iff.mp e5
    exact e
  have hnew : ∀ p < W.SIZE, ∀ c, swNews W S s.dt r.1 r.2.1 r.2.2 q.2.2 p c 3 = κ * swNews W S s.dt r.1 r.2.1 r.2.2 q.2.2 p c 0 := by
    intro p hp c
    obtain ⟨gx, gy, gxh, gyh⟩ := hg p hp
    have hconv := conv_uniform _ κ (hwet p hp) (by
        intro c f
        have : (r.1 3 p).cell c = κ * (r.1 0 p).cell c := r3.cell p hp c
        show (r.1 3 p).cell c + _ * (r.2.2 p).psi c * ((r.2.2 p).wx c * _ + (r.2.2 p).wy c * _) = κ * ((r.1 0 p).cell c + _ * (r.2.2 p).psi c * ((r.2.1 p).wx c * _ + (r.2.1 p).wy c * _))
        rw [this, gx, gy]; ring) (by
        intro c f
        have : (r.1 3 p).halo.getD c 0 = κ * (r.1 0 p).halo.getD c 0 := r3.halo p hp c
        show (r.1 3 p).halo.getD c 0 + _ * (r.2.2 p).psi_halo.getD c 0 * ((r.2.2 p).wx_halo.getD c 0 * _ + (r.2.2 p).wy_halo.getD c 0 * _) = κ * ((r.1 0 p).halo.getD c 0 + _ * (r.2.2 p).psi_halo.getD c 0 * ((r.2.1 p).wx_halo.getD c 0 * _ + (r.2.1 p).wy_halo.getD c 0 * _))
        rw [this, gxh, gyh]; ring) (fun f => r3.ghost p hp f) c
    have hcell : (r.1 3 p).cell c = κ * (r.1 0 p).cell c := r3.cell p hp c
    have hdis : dissip (W.D p) (swDiff S) (q.2.2 p) c = 0 := dissip_zero _ _ _ hx hy rfl c
    unfold swNews swNew
    dsimp only [SW.updateCell]
    show (r.1 3 p).cell c + s.dt * ((swArgs (W.D p) (fun k => r.1 k p) (r.2.1 p) (r.2.2 p) S.order).convective c 3 + SW.source _ _ _ _ c 3 - dissip (W.D p) (swDiff S) (q.2.2 p) c) / (W.D p).volume c =
      κ * ((r.1 0 p).cell c + s.dt * ((swArgs (W.D p) (fun k => r.1 k p) (r.2.1 p) (r.2.2 p) S.order).convective c 0 + SW.source _ _ _ _ c 0) / (W.D p).volume c)
    rw [source_other_comp _ _ _ _ _ 3 (by decide) (by decide), source_other_comp _ _ _ _ _ 0 (by decide) (by decide), hconv, hcell, hdis]
    ring
  refine ⟨fun p hp c => ?_, fun p hp j hj => ?_, fun p hp j hj => ?_⟩
  · show swNews W S s.dt r.1 r.2.1 r.2.2 q.2.2 p c 3 = κ * (o.1 p).cell c
    rw [(updateValues_keep o1 p).1]
    exact hnew p hp c
  · show (q.1 p).ghost j = κ * (o.1 p).ghost j
    rw [(updateValues_keep o1 p).2.1 j hj, (updateValues_keep q1 p).2.1 j hj]
    exact r3.ghost p hp j
  · show (q.1 p).haloghost j = κ * (o.1 p).haloghost j
    rw [(updateValues_keep o1 p).2.2 j hj, (updateValues_keep q1 p).2.2 j hj]
    exact r3.haloghost p hp j

theorem swLoop_uniform {W : World ℝ} (hd : W.dim = 2) {S : SSetup} {κ : ℝ} (hx : S.Dx = 0) (hy : S.Dy = 0) (hb : TracerSides κ S.bc)
    {init : Fin 5 → ℝ → ℝ → ℝ → ℝ} (hi : ∀ x y z, init 3 x y z = κ * init 0 x y z) (N : Nat)
    (hw : ∀ M < N, ∀ t, swLoop W S (swStart W S init) M = some t → t.time < S.tfinal → WetIteration W S t) {s : SState}
    (h : swLoop W S (swStart W S init) N = some s) : Relat0 (pairRel κ) W (waterTracer s.V) := by
  induction N generalizing s with
  | zero =>
    injection h with h
    subst h
    refine ⟨fun p hp c => hi _ _ _, fun p hp j _ => ?_, fun p hp j _ => ?_⟩
    · show (0 : ℝ) = κ * 0; simp
    · show (0 : ℝ) = κ * 0; simp
  | succ N ih =>
    obtain ⟨t, e, h⟩ := Option.bind_eq_some_iff.mp h
    have h0 := ih (fun M hM => hw M (by omega)) e
    split at h
    case isTrue ht => exact swStep_uniform hd hx hy hb h (hw N (by omega) t e ht) h0
    case isFalse ht => injection h with h; subst h; exact h0


section
variable {nodeid : Nat → Nat → Nat} {node : Nat → ℝ × ℝ × ℝ × Nat} {npart0 epart : Nat → Nat}
  {nbnodes n SIZE : Nat} {data : Nat → RankData ℝ} {serial : RankData ℝ}

/-- **C120**: a tracer of uniform concentration `κ` (`hc = κ h` everywhere) keeps it in a shallow-water run without dispersion, at order 1 or 2,
with friction, bottom and Coriolis force, on any number of processes and any partition, as long as the sides bring water of the same
concentration and no iteration divides by a zero depth. -/
theorem C120_uniform_tracer (h : Launched 3 nodeid node (centvol2 node nodeid) npart0 epart nbnodes n SIZE data serial)
    (vm : ValidMesh2 nodeid node nbnodes n) (sqrt : ℝ → ℝ) (trunc : ℝ → Int) (htr : ∀ m : Nat, trunc (m : ℝ) = m) :
    ∃ W, mkWorld 2 SIZE data (fun p => build2 sqrt trunc SIZE (data p)) = some W ∧
      ∀ (S : SSetup) (κ : ℝ), S.Dx = 0 → S.Dy = 0 → TracerSides κ S.bc → ∀ init : Fin 5 → ℝ → ℝ → ℝ → ℝ, (∀ x y z, init 3 x y z = κ * init 0 x y z) →
        ∀ N, (∀ M < N, ∀ t, swLoop W S (swStart W S init) M = some t → t.time < S.tfinal → WetIteration W S t) →
          ∃ s, swLoop W S (swStart W S init) N = some s ∧ Concentration W s κ := by
  have np := h.nodePair2 vm sqrt trunc htr
  obtain ⟨hgL, hgG, w1, w2, sL, sG⟩ := np.worlds
  refine ⟨_, w1, fun S κ hx hy hb init hi N hw => ?_⟩
  obtain ⟨w, hw'⟩ := glueCells np.run (swStart (parW 2 SIZE data (fun p => build2 sqrt trunc SIZE (data p)) hgL) S init)
  obtain ⟨s, new, e, -, -⟩ := swLoop_inv np (h.outward vm sqrt trunc) (h.vertex1 vm sqrt trunc) hgL S (fun _ => True) (fun _ _ _ _ _ => trivial) _ w hw' trivial N
  exact ⟨s, e, fun p hp c hc => (swLoop_uniform rfl hx hy hb hi N hw e).cell p hp c⟩

/-- C120 on one process (every valid mesh). -/
theorem C120_uniform_tracer_serial (vm : ValidMesh2 nodeid node nbnodes n)
    (hr : readMeshFile 1 0 (writeSerial (serialWrite nodeid node nbnodes n 3)) [] = some serial)
    (sqrt : ℝ → ℝ) (trunc : ℝ → Int) (htr : ∀ m : Nat, trunc (m : ℝ) = m) :
    ∃ W, mkWorld 2 1 (fun _ => serial) (fun _ => build2 sqrt trunc 1 serial) = some W ∧
      ∀ (S : SSetup) (κ : ℝ), S.Dx = 0 → S.Dy = 0 → TracerSides κ S.bc → ∀ init : Fin 5 → ℝ → ℝ → ℝ → ℝ, (∀ x y z, init 3 x y z = κ * init 0 x y z) →
        ∀ N, (∀ M < N, ∀ t, swLoop W S (swStart W S init) M = some t → t.time < S.tfinal → WetIteration W S t) →
          ∃ s, swLoop W S (swStart W S init) N = some s ∧ Concentration W s κ := by
  obtain ⟨data, h⟩ := launched_of_serial (centvol2 node nodeid) (by omega) vm.nodes vm.used hr
  have np := h.nodePair2 vm sqrt trunc htr
  obtain ⟨hgL, hgG, w1, w2, sL, sG⟩ := np.worlds
  refine ⟨_, w2, fun S κ hx hy hb init hi N hw => ?_⟩
  obtain ⟨s, e, -⟩ := swLoop_serial_inv np hgG S (fun _ => True) (fun _ _ _ _ _ => trivial) (swStart (serW 2 serial (build2 sqrt trunc 1 serial) hgG) S init) trivial N
  exact ⟨s, e, fun p hp c hc => (swLoop_uniform rfl hx hy hb hi N hw e).cell p hp c⟩

end

/-! ### the hypotheses can be met: a dam break -/

/-- Between two still states over a flat bottom the predicted depth is the mean. -/
theorem predict_still (l r : SW.W5) (n : Nat → ℝ) (mes g : ℝ) (hg : 0 < g) (hl : 0 < l 0) (hr : 0 < r 0) (l1 : l 1 = 0) (l2 : l 2 = 0) (r1 : r 1 = 0)
    (r2 : r 2 = 0) (l4 : l 4 = 0) (r4 : r 4 = 0) (hc : 1e-10 ≤ Real.sqrt (g * ((l 0 + r 0) / 2))) : SW.predict l r n mes g 0 = (l 0 + r 0) / 2 := by
  have hh : 0 < g * ((l 0 + r 0) / 2) := by positivity
  have hu : SW.uRoe l r n mes = 0 := by simp [SW.uRoe, SW.roeAvg, l1, l2, r1, r2]
  have hv : SW.vRoe l r n mes = 0 := by simp [SW.vRoe, SW.roeAvg, l1, l2, r1, r2]
  have he := SW.C53_eigenvalues g ((l 0 + r 0) / 2) 0 0 hh
  have hc0 := Real.sqrt_pos.2 hh
  simp only [SW.predict, SW.beta_zero, hu, hv, he]
  generalize Real.sqrt (g * ((l 0 + r 0) / 2)) = c at *
  rw [SW.rmat_mul]
  have e1 : max 0 (0 + c) = c := by rw [zero_add, max_eq_right hc0.le]
  have e2 : min 0 (0 - c) = -c := by rw [zero_sub, min_eq_right (by linarith)]
  rw [e1, e2]
  have e3 : (2 : ℝ) * 0 - c - -c = 0 := by ring
  rw [e3, SW.sgn_neg, SW.sgn_zero]
  have hs : SW.sgn c = 1 := by rw [SW.sgn, abs_of_pos hc0, if_neg (by linarith), div_self hc0.ne']
  rw [hs]
  have z1 : ∑ j, SW.leftVec (-c) 0 0 c ((c - -c) * (c - 0)) j * (SW.rotate r n mes j - SW.rotate l n mes j) = (r 0 - l 0) / 2 := by
    simp only [Fin.sum_univ_five, SW.leftVec, SW.rotate]
    simp [l1, l2, r1, r2, l4, r4]
    field_simp
    ring
  have z2 : ∑ j, SW.leftVec c 0 0 c ((c - -c) * (-c - 0)) j * (SW.rotate r n mes j - SW.rotate l n mes j) = -((r 0 - l 0) / 2) := by
    simp only [Fin.sum_univ_five, SW.leftVec, SW.rotate]
    simp [l1, l2, r1, r2, l4, r4]
    field_simp
    ring
  rw [z1, z2]
  simp [SW.eigVec, SW.rotate, l1, l2, r1, r2]
  try ring

theorem wet_still {l r : SW.W5} (n : Nat → ℝ) (mes : ℝ) (hl : 1 ≤ l 0 ∧ l 1 = 0 ∧ l 2 = 0 ∧ l 4 = 0) (hr : 1 ≤ r 0 ∧ r 1 = 0 ∧ r 2 = 0 ∧ r 4 = 0) :
    WetPair l r n mes := by
  obtain ⟨a0, a1, a2, a4⟩ := hl
  obtain ⟨b0, b1, b2, b4⟩ := hr
  refine ⟨by linarith, by linarith, ?_⟩
  have hg : (1 : ℝ) ≤ SW.g0 := by unfold SW.g0; norm_num
  rw [predict_still l r n mes SW.g0 (by linarith) (by linarith) (by linarith) a1 a2 b1 b2 a4 b4 (by
    have : (1 : ℝ) ≤ SW.g0 * ((l 0 + r 0) / 2) := by nlinarith
    exact le_trans (by norm_num) (Real.one_le_sqrt.mpr this))]
  linarith

/-- Still water of varying depth, carrying a tracer of concentration 3, in a closed basin with friction and Coriolis force. -/
noncomputable def damBreak : SSetup :=
  ⟨![fun _ => .neumann, fun _ => .nonslip, fun _ => .nonslip, fun _ => .neumann, fun _ => .neumann], 1 / 2, 10, 0, 0, 1 / 50, 1 / 10, 1⟩

noncomputable def damInit : Fin 5 → ℝ → ℝ → ℝ → ℝ := ![fun x _ _ => 1 + x ^ 2, fun _ _ _ => 0, fun _ _ _ => 0, fun x _ _ => 3 * (1 + x ^ 2), fun _ _ _ => 0]

theorem dam_sides : TracerSides 3 damBreak.bc := fun _ => .inl ⟨rfl, rfl⟩

/-- The first iteration of the dam break computes its fluxes, on one process. -/
theorem dam_wet {nodeid : Nat → Nat → Nat} {node : Nat → ℝ × ℝ × ℝ × Nat} {cv : Nat → List ℝ} {npart0 epart : Nat → Nat} {nbnodes n SIZE : Nat} {data : Nat → RankData ℝ} {serial : RankData ℝ}
    {L : Nat → Tables ℝ} {G : Tables ℝ} {B : List Int} {out : Nat → Nat → Vec ℝ} {trunc : ℝ → Int}
    (h : NodePair 2 nodeid node cv npart0 epart nbnodes n SIZE data serial L G B out trunc) (hgG : Nat → HGResult ℝ) :
    WetIteration (serW 2 serial G hgG) damBreak (swStart (serW 2 serial G hgG) damBreak damInit) := by
  intro V1 V2 r e1 e2 e3 p hp
  obtain ⟨U1, f1, c1, v1⟩ := serial_updateAll serial G hgG damBreak.bc (swStart (serW 2 serial G hgG) damBreak damInit).V
  obtain rfl : U1 = V1 := Option.some.inj (f1.symm.trans e1)
  obtain ⟨U2, f2, v2⟩ := serial_frictionAll serial G hgG damBreak (swStart (serW 2 serial G hgG) damBreak damInit).dt v1
  obtain rfl : U2 = V2 := Option.some.inj (f2.symm.trans e2)
  have hr : r = (U2, fun _ => zeroGrads, fun _ => zeroGrads) := by
    unfold gradsAll at e3
    rw [if_neg (show ¬ damBreak.order = 2 by unfold damBreak; decide)] at e3
    exact (Option.some.inj e3).symm
  subst hr
  have hp0 : p = 0 := by have : p < 1 := hp; omega
  subst hp0
  have R := h.run.rank 0 (by have := h.run.hS; omega)
  have hcell : ∀ c, 1 ≤ (U2 0 0).cell c ∧ (U2 1 0).cell c = 0 ∧ (U2 2 0).cell c = 0 ∧ (U2 4 0).cell c = 0 := by
    intro c
    have hk : ∀ k, (U2 k 0).cell c = damInit k (G.center c 0) (G.center c 1) (G.center c 2) := by
      intro k
      rw [frictionAll_cell f2 k 0 c]
      have : cellsOf (fun k => U1 k 0) c = fun k => damInit k (G.center c 0) (G.center c 1) (G.center c 2) := by
        funext k; exact congrFun (c1 k 0) c
      rw [this, SW.friction_rest _ _ _ _ rfl rfl]
    rw [hk 0, hk 1, hk 2, hk 4]
    exact ⟨by show 1 ≤ 1 + (G.center c 0) ^ 2; nlinarith [sq_nonneg (G.center c 0)], rfl, rfl, rfl⟩
  have hfrom : ∀ c f, 1 ≤ (swArgs G (fun k => U2 k 0) zeroGrads zeroGrads 1).fromCell c f 0 ∧ (swArgs G (fun k => U2 k 0) zeroGrads zeroGrads 1).fromCell c f 1 = 0 ∧
      (swArgs G (fun k => U2 k 0) zeroGrads zeroGrads 1).fromCell c f 2 = 0 ∧ (swArgs G (fun k => U2 k 0) zeroGrads zeroGrads 1).fromCell c f 4 = 0 := by
    intro c f
    obtain ⟨a, b, d, e⟩ := hcell c
    refine ⟨?_, b, d, e⟩
    show 1 ≤ (U2 0 0).cell c + _ * (0 : ℝ) * (0 * _ + 0 * _)
    simpa using a
  refine ⟨fun f hf => wet_still _ _ (hfrom _ _) (hfrom _ _), fun f hf => ?_, fun f hf => wet_still _ _ (hfrom _ _) ?_⟩
  · have hf : f ∈ G.halofaces := hf; rw [R.halo_nil] at hf; exact absurd hf List.not_mem_nil
  · have hg : ∀ k, (U2 k 0).ghost f = ghostVal G (U2 k 0).cell f (damBreak.bc k (G.name f)) := by
      intro k
      obtain ⟨g2, eg2⟩ := (v2 k 0).ghost
      obtain ⟨f1, f2⟩ := (R.cG.bnd.2 f).mp hf
      show (U2 k 0).fields.ghost f = _
      rw [eg2, updateGhosts_apply _ _ _ _ _ f1 (h.run.hB _ f2)]; rfl
    obtain ⟨a, b, d, e⟩ := hcell (idx (G.cellid f 0))
    refine ⟨?_, ?_, ?_, ?_⟩
    · show 1 ≤ (U2 0 0).ghost f; rw [hg 0]; exact a
    · show (U2 1 0).ghost f = 0; rw [hg 1]; show -1 * (U2 1 0).cell _ = 0; rw [b, mul_zero]
    · show (U2 2 0).ghost f = 0; rw [hg 2]; show -1 * (U2 2 0).cell _ = 0; rw [d, mul_zero]
    · show (U2 4 0).ghost f = 0; rw [hg 4]; exact e

/-- C120 at work: the water of the dam break moves, its concentration stays 3. -/
example : ∃ (serial : RankData ℝ) (W : World ℝ), mkWorld 2 1 (fun _ => serial) (fun _ => build2 Real.sqrt Int.floor 1 serial) = some W ∧
    ∃ s, swLoop W damBreak (swStart W damBreak damInit) 1 = some s ∧ Concentration W s 3 := by
  obtain ⟨data, serial, h⟩ := realStripLaunched
  have np := h.nodePair2 (validReal stripValid) Real.sqrt Int.floor floor_real
  obtain ⟨hgL, hgG, w1, w2, sL, sG⟩ := np.worlds
  obtain ⟨W, e, hW⟩ := C120_uniform_tracer_serial (validReal stripValid) h.hserial Real.sqrt Int.floor floor_real
  obtain rfl : _ = W := Option.some.inj (w2.symm.trans e)
  refine ⟨serial, _, e, hW damBreak 3 rfl rfl dam_sides damInit (fun _ _ _ => rfl) 1 (fun M hM t ht _ => ?_)⟩
  obtain rfl : M = 0 := by omega
  obtain rfl : _ = t := Option.some.inj ht
  exact dam_wet np hgG

end Verif.Props.Par
