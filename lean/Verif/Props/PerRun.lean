import Verif.Props.PerFlow

/-! Helper lemmas for the runs on meshes with periodic sides: one iteration. -/
set_option linter.unusedSectionVars false
set_option linter.unusedVariables false
set_option linter.unusedSimpArgs false
namespace Verif.Props.Par
open Verif.Fvm Verif.Spec Verif.Conn Verif.Dom Verif.Geo Verif.Names Verif.MeshFile Verif.Part Verif.Comm Verif.Run Verif.Periodic Verif.Props.Per
variable {K : Type*} [Field K] [LinearOrder K] [IsStrictOrderedRing K]

/-- The sum of a quantity that is opposite on paired faces vanishes. -/
theorem sum_pair_zero (l : List Nat) (hl : l.Nodup) (p : Nat → Nat) (hm : ∀ f ∈ l, p f ∈ l) (hi : ∀ f ∈ l, p (p f) = f) (X : Nat → K)
    (hX : ∀ f ∈ l, X (p f) = - X f) : (l.map X).sum = 0 := by
  have hnd : (l.map p).Nodup := by
    rw [List.nodup_map_iff_inj_on hl]
    intro x hx y hy e
    rw [← hi x hx, e, hi y hy]
  have hperm : (l.map p).Perm l := by
    rw [List.perm_ext_iff_of_nodup hnd hl]
    intro f
    rw [List.mem_map]
    exact ⟨fun ⟨a, ha, e⟩ => e ▸ hm a ha, fun hf => ⟨p f, hm f hf, hi f hf⟩⟩
  have e1 : ((l.map p).map X).sum = (l.map X).sum := (hperm.map X).sum_eq
  have e2 : ((l.map p).map X).sum = - (l.map X).sum := by
    rw [List.map_map, ← neg_eq_iff_eq_neg]
    have : (l.map (X ∘ p)).sum = (l.map (fun f => (-1) * X f)).sum := by
      congr 1
      apply List.map_congr_left
      intro f hf
      show X (p f) = _
      rw [hX f hf]; ring
    rw [this, List.sum_map_mul_left]; ring
  linarith

section
variable {dim n : Nat} {W : PWorld K} {out : Nat → Nat → Vec K} {p : Nat → Nat}

/-- The arrays of the convective scheme in one iteration. -/
structure Stepped (W : PWorld K) (S : Setup K) (s : QState K) (F : Dom.Fields K) : Prop where
  w : F.w = s.v.cell
  u : F.u_face = atFaces W.D (S.u s.iter)
  v : F.v_face = atFaces W.D (S.v s.iter)
  w_face : F.w_face = atFaces W.D (S.w s.iter)
  ghost : ∃ g, F.ghost = updateGhosts W.dim W.D s.v.cell S.bc g
  grad : ∃ v : Vari K, v.cell = s.v.cell ∧ v.ghost = F.ghost ∧ v.halo = [] ∧ ∀ c, F.wx c = (W.cellGrads v.fields c).1 ∧ F.wy c = (W.cellGrads v.fields c).2.1 ∧ F.wz c = (W.cellGrads v.fields c).2.2

theorem pstep_false (h : PerOk W.dim n W.D out p) (S : Setup K) (o : Int) (s : QState K) : ∃ F, Stepped W S s F ∧
    (pstep W S o false s).iter = s.iter + 1 ∧ (pstep W S o false s).time = s.time + localStep W.dim S W.D s.iter ∧
    ∀ C, (pstep W S o false s).v.cell C = s.v.cell C + localStep W.dim S W.D s.iter * (balance (pargs W.D F o W.P.shift) W.dim C / W.D.volume C) := by
  obtain ⟨v, hv⟩ : ∃ v, v = W.values S.bc (W.values S.bc s.v) := ⟨_, rfl⟩
  have hc : v.cell = s.v.cell := by rw [hv]; rfl
  have hh : v.halo = [] := by rw [hv]; rfl
  have hg : ∃ g, v.ghost = updateGhosts W.dim W.D s.v.cell S.bc g := by rw [hv]; exact ⟨_, rfl⟩
  refine ⟨fieldsOf S W.D s.iter v.cell v.ghost v.halo (W.grads v), ⟨hc, rfl, rfl, rfl, hg, v, hc, rfl, hh, fun c => ⟨rfl, rfl, rfl⟩⟩, rfl, rfl, fun C => ?_⟩
  have hb : conv W.dim (W.convArgs (fieldsOf S W.D s.iter v.cell v.ghost v.halo (W.grads v)) o) C =
      balance (pargs W.D (fieldsOf S W.D s.iter v.cell v.ghost v.halo (W.grads v)) o W.P.shift) W.dim C := by
    have ok := h.facesOK (fieldsOf S W.D s.iter v.cell v.ghost v.halo (W.grads v)) o W.P.shift
    rcases h.hd with e | e
    · unfold conv
      rw [if_pos e, e]
      rw [e] at ok
      exact C02_convective2d_balance _ _ ok C
    · unfold conv
      rw [if_neg (by omega), e]
      rw [e] at ok
      exact C02_convective3d_balance _ _ ok C
  have : (pstep W S o false s).v.cell C = updateNewValue v.cell (conv W.dim (W.convArgs (fieldsOf S W.D s.iter v.cell v.ghost v.halo (W.grads v)) o))
      (fun _ => 0) (fun _ => 0) (localStep W.dim S W.D s.iter) W.D.volume C := by rw [hv]; rfl
  rw [this]
  unfold updateNewValue
  rw [hb, hc]; simp

theorem Stepped.vel {S : Setup K} {s : QState K} {F : Dom.Fields K} (h : Stepped W S s F) (o : Int) (sh : Nat → Nat → K) (f : Nat) :
    vn (pargs W.D F o sh) f = normalVel W.D S s.iter f := by
  unfold vn normalVel
  show F.u_face f * _ + F.v_face f * _ + F.w_face f * _ = _
  rw [h.u, h.v, h.w_face]; rfl

theorem Stepped.ghost_eq {S : Setup K} {s : QState K} {F : Dom.Fields K} (h : Stepped W S s F) (hp : PerOk W.dim n W.D out p) {f : Nat}
    (hf : f ∈ W.D.boundaryfaces) : F.ghost f = ghostVal W.D s.v.cell f (S.bc (W.D.name f)) := by
  obtain ⟨g, e⟩ := h.ghost
  rw [e, updateGhosts_apply _ _ _ _ _ (hp.mem f (Or.inr (Or.inl hf))) (hp.wall f hf)]

theorem Stepped.ghostIn {S : Setup K} {s : QState K} {F : Dom.Fields K} (h : Stepped W S s F) (hp : PerOk W.dim n W.D out p) {m M : K}
    (hin : ∀ c < n, m ≤ s.v.cell c ∧ s.v.cell c ≤ M) (hb : ∀ loc, BcIn m M (S.bc loc)) : ∀ f ∈ W.D.boundaryfaces, m ≤ F.ghost f ∧ F.ghost f ≤ M := by
  intro f hf
  rw [h.ghost_eq hp hf]
  obtain ⟨C, hC, _, _, e, _⟩ := hp.left f (hp.mem f (Or.inr (Or.inl hf)))
  refine ghostVal_in _ _ _ _ _ _ (hb _) ?_
  rw [e]; exact hin C hC

/-- Mass: one iteration of any order whose periodic fluxes cancel. -/
theorem per_mass_step (h : PerOk W.dim n W.D out p) (S : Setup K) (o : Int) (s : QState K)
    (hper : ∀ F, Stepped W S s F → (W.D.periodicboundaryfaces.map (periodicFlux (pargs W.D F o W.P.shift) W.dim)).sum = 0) :
    ∃ F, Stepped W S s F ∧ massOf W.D (pstep W S o false s).v.cell = massOf W.D s.v.cell -
      localStep W.dim S W.D s.iter * (W.D.boundaryfaces.map (boundaryFlux (pargs W.D F o W.P.shift) W.dim)).sum := by
  obtain ⟨F, hF, _, _, hnew⟩ := pstep_false h S o s
  refine ⟨F, hF, ?_⟩
  have hb := sum_balance (pargs W.D F o W.P.shift) W.dim n (h.facesOK _ _ _)
  rw [show (pargs W.D F o W.P.shift).halofaces = [] from h.halo,
    show (pargs W.D F o W.P.shift).periodicboundaryfaces = W.D.periodicboundaryfaces from rfl,
    show (pargs W.D F o W.P.shift).boundaryfaces = W.D.boundaryfaces from rfl, hper F hF] at hb
  simp only [List.map_nil, List.sum_nil, zero_add] at hb
  unfold massOf
  have e1 : ∀ C ∈ Finset.range W.D.nbcells, W.D.volume C * (pstep W S o false s).v.cell C =
      W.D.volume C * s.v.cell C + localStep W.dim S W.D s.iter * balance (pargs W.D F o W.P.shift) W.dim C := by
    intro C hC
    have hv := (h.solid.vpos C (Finset.mem_range.mp hC)).ne'
    rw [hnew C]
    field_simp
  rw [Finset.sum_congr rfl e1, Finset.sum_add_distrib, ← Finset.mul_sum, h.nb, hb]
  ring

/-- First order: the periodic fluxes cancel when the velocity is periodic. -/
theorem per_flux_cancel (h : PerOk W.dim n W.D out p) {L : Nat → K} (hp : ∀ f ∈ W.D.periodicboundaryfaces, PartnerFaces W.D W.dim L f (p f))
    (S : Setup K) (hv : PeriodicVelocity W.D W.dim L S) (s : QState K) (F : Dom.Fields K) (hF : Stepped W S s F) (sh : Nat → Nat → K) :
    (W.D.periodicboundaryfaces.map (periodicFlux (pargs W.D F 1 sh) W.dim)).sum = 0 := by
  refine sum_pair_zero _ h.nodup.2.2 p h.pmem h.pinvol _ ?_
  intro f hf
  have evn : vn (pargs W.D F 1 sh) (p f) = - vn (pargs W.D F 1 sh) f := by
    rw [hF.vel, hF.vel]
    unfold normalVel
    obtain ⟨e1, e2, e3⟩ := hv s.iter f (p f) (hp f hf)
    rw [← e1, ← e2, ← e3, h.pnormal f hf 0 (by omega), h.pnormal f hf 1 (by omega), h.pnormal f hf 2 (by omega)]
    ring
  have l1 : left (pargs W.D F 1 sh) (p f) = right (pargs W.D F 1 sh) f := by
    show (W.D.cellid (p f) 0).toNat = (W.D.cellid f 1).toNat
    rw [h.pcell f hf]
  have l2 : right (pargs W.D F 1 sh) (p f) = left (pargs W.D F 1 sh) f := by
    show (W.D.cellid (p f) 1).toNat = (W.D.cellid f 0).toNat
    rw [h.pcell (p f) (h.pmem f hf), h.pinvol f hf]
  unfold periodicFlux cellAtFace imageAtFace
  rw [show (pargs W.D F 1 sh).order = 1 from rfl]
  simp only [extrap_one]
  rw [evn, l1, l2]
  unfold upwind
  rcases le_total 0 (vn (pargs W.D F 1 sh) f) with hv | hv
  · rw [max_eq_right (neg_nonpos.mpr hv), min_eq_left (neg_nonpos.mpr hv), max_eq_left hv, min_eq_right hv]
    ring
  · rw [max_eq_left (neg_nonneg.mpr hv), min_eq_right (neg_nonneg.mpr hv), max_eq_right hv, min_eq_left hv]
    ring

theorem per_outflow (h : PerOk W.dim n W.D out p) (S : Setup K) (s : QState K) (F : Dom.Fields K) (hF : Stepped W S s F) (sh : Nat → Nat → K) :
    (W.D.boundaryfaces.map (boundaryFlux (pargs W.D F 1 sh) W.dim)).sum = wallOutflow W.D S s.iter s.v.cell := by
  unfold wallOutflow
  congr 1
  apply List.map_congr_left
  intro f hf
  unfold boundaryFlux outflow cellAtFace
  rw [show (pargs W.D F 1 sh).order = 1 from rfl, extrap_one, hF.vel]
  have e1 : (pargs W.D F 1 sh).w_c (left (pargs W.D F 1 sh) f) = s.v.cell (W.D.cellid f 0).toNat := by
    show F.w (W.D.cellid f 0).toNat = _
    rw [hF.w]
  have e2 : (pargs W.D F 1 sh).w_ghost f = outsideValue W.D S s.v.cell f := by
    show F.ghost f = _
    rw [hF.ghost_eq h hf]
    unfold outsideValue
    cases S.bc (W.D.name f) <;> simp [ghostVal, idx]
  rw [e1, e2]

/-- Any order: nothing leaves through walls without normal velocity. -/
theorem per_no_outflow (S : Setup K) (s : QState K) (F : Dom.Fields K) (hF : Stepped W S s F) (o : Int) (sh : Nat → Nat → K)
    (hv : ∀ f ∈ W.D.boundaryfaces, normalVel W.D S s.iter f = 0) : (W.D.boundaryfaces.map (boundaryFlux (pargs W.D F o sh) W.dim)).sum = 0 := by
  apply List.sum_eq_zero
  intro x hx
  obtain ⟨f, hf, rfl⟩ := List.mem_map.mp hx
  unfold boundaryFlux
  rw [hF.vel, hv f hf]; simp [upwind]

theorem ploop_inv (W : PWorld K) (S : Setup K) (order : Int) (diff : Bool) (P : QState K → Prop) (hstep : ∀ s, P s → P (pstep W S order diff s))
    (s : QState K) (h0 : P s) (N : Nat) : P (ploop W S order diff s N) := by
  induction N with
  | zero => exact h0
  | succ N ih =>
    unfold ploop
    dsimp only
    split
    · exact hstep _ ih
    · exact ih

/-- A constant state stays constant in one iteration in which the gradients vanish or are not used. -/
theorem per_freestream (h : PerOk W.dim n W.D out p) (S : Setup K) (q : K) (hv : UniformVelocity S) (hb : ∀ loc, BcIn q q (S.bc loc)) (o : Int) (s : QState K)
    (hin : ∀ c < n, s.v.cell c = q) (hgrad : ∀ F, Stepped W S s F → o = 1 ∨ ∀ c < n, F.wx c = 0 ∧ F.wy c = 0 ∧ F.wz c = 0) :
    ∀ c < n, (pstep W S o false s).v.cell c = q := by
  obtain ⟨F, hF, _, _, hnew⟩ := pstep_false h S o s
  obtain ⟨u, v, w, huv⟩ := hv s.iter
  have hin2 : ∀ c < n, q ≤ s.v.cell c ∧ s.v.cell c ≤ q := fun c hc => by rw [hin c hc]; exact ⟨le_refl _, le_refl _⟩
  have main : ∀ F' : Dom.Fields K, F'.w = F.w → F'.ghost = F.ghost → F'.u_face = F.u_face → F'.v_face = F.v_face → F'.w_face = F.w_face →
      (∀ c < n, F'.wx c = 0 ∧ F'.wy c = 0 ∧ F'.wz c = 0) → ∀ C < n, balance (pargs W.D F' o W.P.shift) W.dim C = 0 := by
    intro F' f1 f2 f3 f4 f5 f6 C hC
    have hvel : ∀ i, (pargs W.D F' o W.P.shift).u_face i = u ∧ (pargs W.D F' o W.P.shift).v_face i = v ∧ (pargs W.D F' o W.P.shift).w_face i = w := by
      intro i
      refine ⟨?_, ?_, ?_⟩
      · show F'.u_face i = u; rw [f3, hF.u]; exact (huv _ _ _).1
      · show F'.v_face i = v; rw [f4, hF.v]; exact (huv _ _ _).2.1
      · show F'.w_face i = w; rw [f5, hF.w_face]; exact (huv _ _ _).2.2
    have hfs : FreeStream (pargs W.D F' o W.P.shift) n q u v w := by
      refine ⟨?_, ?_, ?_, fun f hf => h.per_range hf, f6, ?_, hvel⟩
      · intro C hC; show F'.w C = q; rw [f1, hF.w, hin C hC]
      · intro f hf; show F'.ghost f = q; rw [f2]
        have := hF.ghostIn h hin2 hb f hf
        exact le_antisymm this.2 this.1
      · intro f hf
        rw [show (pargs W.D F' o W.P.shift).halofaces = [] from h.halo] at hf; simp at hf
      · intro f hf
        rw [show (pargs W.D F' o W.P.shift).halofaces = [] from h.halo] at hf; simp at hf
    have hcl := h.closed F' o W.P.shift hC
    rw [balance_freestream _ W.dim n h.hd (h.facesOK _ _ _) q u v w hfs, outSum_lin _ _ u v w hvel, hcl 0 (by omega), hcl 1 (by omega), hcl 2 (by omega)]
    ring
  intro c hc
  have hz : balance (pargs W.D F o W.P.shift) W.dim c = 0 := by
    rcases hgrad F hF with rfl | hz
    · rw [← main (noGrads F) rfl rfl rfl rfl rfl (fun _ _ => ⟨rfl, rfl, rfl⟩) c hc]
      have e1 : innerFlux (pargs W.D F 1 W.P.shift) W.dim = innerFlux (pargs W.D (noGrads F) 1 W.P.shift) W.dim := by
        funext f; unfold innerFlux cellAtFace
        rw [show (pargs W.D F 1 W.P.shift).order = 1 from rfl, show (pargs W.D (noGrads F) 1 W.P.shift).order = 1 from rfl]
        simp only [extrap_one]; rfl
      have e2 : periodicFlux (pargs W.D F 1 W.P.shift) W.dim = periodicFlux (pargs W.D (noGrads F) 1 W.P.shift) W.dim := by
        funext f; unfold periodicFlux cellAtFace imageAtFace
        rw [show (pargs W.D F 1 W.P.shift).order = 1 from rfl, show (pargs W.D (noGrads F) 1 W.P.shift).order = 1 from rfl]
        simp only [extrap_one]; rfl
      have e3 : boundaryFlux (pargs W.D F 1 W.P.shift) W.dim = boundaryFlux (pargs W.D (noGrads F) 1 W.P.shift) W.dim := by
        funext f; unfold boundaryFlux cellAtFace
        rw [show (pargs W.D F 1 W.P.shift).order = 1 from rfl, show (pargs W.D (noGrads F) 1 W.P.shift).order = 1 from rfl]
        simp only [extrap_one]; rfl
      unfold balance
      rw [e1, e2, e3, show (pargs W.D F 1 W.P.shift).halofaces = [] from h.halo, show (pargs W.D (noGrads F) 1 W.P.shift).halofaces = [] from h.halo]
      rfl
    · exact main F rfl rfl rfl rfl rfl hz c hc
  rw [hnew c, hz, hin c hc]; simp

/-- Bounds are kept in one first-order iteration. -/
theorem per_bounds_step (h : PerOk W.dim n W.D out p) (S : Setup K) (m M : K) (hv : UniformVelocity S) (hr : NotAtRest W.dim S)
    (hD : 0 ≤ S.Dxx + S.Dyy + S.Dzz) (hc0 : 0 < S.cfl) (hc2 : S.cfl ≤ 2) (hb : ∀ loc, BcIn m M (S.bc loc)) (s : QState K)
    (hin : ∀ c < n, m ≤ s.v.cell c ∧ s.v.cell c ≤ M) : ∀ c < n, m ≤ (pstep W S 1 false s).v.cell c ∧ (pstep W S 1 false s).v.cell c ≤ M := by
  obtain ⟨F, hF, _, _, hnew⟩ := pstep_false h S 1 s
  intro C hC
  obtain ⟨u, v, w, huv⟩ := hv s.iter
  have hvel : ∀ i, (pargs W.D F 1 W.P.shift).u_face i = u ∧ (pargs W.D F 1 W.P.shift).v_face i = v ∧ (pargs W.D F 1 W.P.shift).w_face i = w := by
    intro i
    refine ⟨?_, ?_, ?_⟩
    · show F.u_face i = u; rw [hF.u]; exact (huv _ _ _).1
    · show F.v_face i = v; rw [hF.v]; exact (huv _ _ _).2.1
    · show F.w_face i = w; rw [hF.w_face]; exact (huv _ _ _).2.2
  have hcl := h.closed F 1 W.P.shift hC
  have hdiv : DivFree (pargs W.D F 1 W.P.shift) C := by
    unfold DivFree
    rw [outSum_lin _ _ u v w hvel, hcl 0 (by omega), hcl 1 (by omega), hcl 2 (by omega)]; ring
  have hdata : DataIn (pargs W.D F 1 W.P.shift) n m M := by
    refine ⟨?_, hF.ghostIn h hin hb, ?_⟩
    · intro c hc; show m ≤ F.w c ∧ F.w c ≤ M; rw [hF.w]; exact hin c hc
    · intro f hf
      rw [show (pargs W.D F 1 W.P.shift).halofaces = [] from h.halo] at hf; simp at hf
  obtain ⟨b1, b2⟩ := balance_bounds (pargs W.D F 1 W.P.shift) W.dim n (h.facesOK _ _ _) (fun f hf => h.per_range hf) rfl m M hdata _ hdiv
  have hpos : 0 < S.Dxx + S.Dyy + S.Dzz ∨ u ≠ 0 ∨ v ≠ 0 ∨ (W.dim = 3 ∧ w ≠ 0) := by
    rcases hr with hr | hr
    · exact Or.inl hr
    · have := hr s.iter 0 0 0
      rw [(huv 0 0 0).1, (huv 0 0 0).2.1, (huv 0 0 0).2.2] at this
      exact Or.inr this
  obtain ⟨t0, t1⟩ := C07_cfl_step_admissible (pargs W.D F 1 W.P.shift) W.dim n u v w S.cfl W.D.volume W.D.mesure W.D.faceid S.Dxx S.Dyy S.Dzz hvel
    (fun C hC => h.incident F 1 _ hC) (fun C hC => h.closed F 1 _ hC) hD (fun C hC => h.solid.vpos C (h.nb.symm ▸ hC)) (fun C hC => h.solid.mes C (h.nb.symm ▸ hC))
    (fun C hC => h.rate_pos u v w _ _ _ hD hpos hC) hc0 hc2 _ hC
  have edt : localStep W.dim S W.D s.iter
      = timeStep n (fun _ => u) (fun _ => v) (fun _ => w) S.cfl (pargs W.D F 1 W.P.shift).normalf W.D.mesure W.D.volume W.D.faceid W.dim S.Dxx S.Dyy S.Dzz := by
    unfold localStep
    rw [toCells_const W.dim W.D (atFaces W.D (S.u s.iter)) u (fun f => (huv _ _ _).1), toCells_const W.dim W.D (atFaces W.D (S.v s.iter)) v (fun f => (huv _ _ _).2.1),
      toCells_const W.dim W.D (atFaces W.D (S.w s.iter)) w (fun f => (huv _ _ _).2.2), h.nb]
    rfl
  have e0 : (pargs W.D F 1 W.P.shift).w_c C = s.v.cell C := by show F.w C = _; rw [hF.w]
  have := update_bounds (s.v.cell C) _ _ (W.D.volume C) _ m M t0 (h.solid.vpos _ (h.nb.symm ▸ hC)) t1 (hin C hC).1 (hin C hC).2 (e0 ▸ b1) (e0 ▸ b2)
  rw [← edt] at this
  rw [hnew C]
  simpa using this

end
end Verif.Props.Par
