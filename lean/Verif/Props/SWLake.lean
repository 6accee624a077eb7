import Verif.Props.SWGlue
import Verif.Props.SWFlux
import Verif.Spec.SWRun

/-!
# The shallow-water model on the tables of the Domain (towards C107, C108)
-/
set_option linter.unusedSectionVars false
set_option linter.unusedSimpArgs false
set_option linter.unusedVariables false
namespace Verif.Props.Par
open Verif Verif.Dom Verif.Fvm Verif.Geo Verif.MeshFile Verif.HaloGhost Verif.Run Verif.Spec Verif.Conn

section
variable {L G : Tables ℝ} {φ : Nat → Nat} {mine : Nat → Prop} {ext : List (List Nat)} {B : List Int} {out : Nat → Nat → Vec ℝ}

theorem RankOf.swDistinct {d1 : Nat} (h : RankOf L G d1 φ mine ext B out) {f : Nat} (hf : f ∈ G.innerfaces) :
    ∃ a < G.nbcells, ∃ b < G.nbcells, a ≠ b ∧ G.cellid f 0 = (a : Int) ∧ G.cellid f 1 = (b : Int) := by
  obtain ⟨hf1, hn⟩ := (h.cG.inner.2 f).mp hf
  obtain ⟨a, ha, e, j, hj, hfe⟩ := users_first (h.cG.users_ne hf1)
  rw [← h.cG.cell0 f hf1] at e
  rcases h.gkinds ha hj with ⟨_, b1, b2, b3⟩ | ⟨E, hE, hne, hn, b1, b2, ⟨c0, c1⟩ | ⟨c0, c1⟩⟩
  · rw [hfe] at b2; exact absurd hf b2
  · rw [hfe] at c0 c1; exact ⟨a, ha, E, hE, fun x => hne x.symm, c0, c1⟩
  · rw [hfe, e] at c0; exact absurd (by exact_mod_cast c0.symm) hne

theorem RankOf.swFaces (h : RankOf L G 3 φ mine ext B out) {C : Nat} (hC : C < G.nbcells) :
    (G.innerfaces.filter (fun i => idx (G.cellid i 0) = C ∨ idx (G.cellid i 1) = C) ++ G.halofaces.filter (fun i => idx (G.cellid i 0) = C)
      ++ G.boundaryfaces.filter (fun i => idx (G.cellid i 0) = C)).Perm [G.faceid C 0, G.faceid C 1, G.faceid C 2] := by
  rw [h.halo_nil, List.filter_nil, List.append_nil]
  have hinj := h.cG.inj C hC
  have e : [G.faceid C 0, G.faceid C 1, G.faceid C 2] = (List.range 3).map (G.faceid C) := by simp [List.range_succ]
  rw [e, List.perm_ext_iff_of_nodup]
  · intro f
    simp only [List.mem_map, List.mem_range, List.mem_append, List.mem_filter, decide_eq_true_eq]
    constructor
    · rintro (⟨h1, h2 | h2⟩ | ⟨h1, h2⟩)
      · exact h.cG.first_mem ((h.cG.inner.2 f).mp h1).1 h2
      · exact h.cG.second_mem ((h.cG.inner.2 f).mp h1).1 ((h.cG.inner.2 f).mp h1).2 h2
      · exact h.cG.first_mem ((h.cG.bnd.2 f).mp h1).1 h2
    · rintro ⟨j, hj, rfl⟩
      rcases h.gkinds hC hj with ⟨_, b1, b2, b3⟩ | ⟨E, hE, hne, hn, b1, b2, ⟨c0, c1⟩ | ⟨c0, c1⟩⟩
      · right; exact ⟨b1, by rw [b3]; simp [idx]⟩
      · left; exact ⟨b1, .inl (by rw [c0]; simp [idx])⟩
      · left; exact ⟨b1, .inr (by rw [c1]; simp [idx])⟩
  · refine List.Nodup.append (h.cG.inner.1.filter _) (h.cG.bnd.1.filter _) ?_
    intro f h1 h2
    have hi := (List.mem_filter.mp h1).1
    have hb := (List.mem_filter.mp h2).1
    have := ((h.cG.bnd.2 f).mp hb).2
    rw [((h.cG.inner.2 f).mp hi).2] at this
    exact h.cG.B0 this
  · rw [List.nodup_map_iff_inj_on List.nodup_range]
    intro j hj j' hj' e
    exact hinj j (List.mem_range.mp hj) j' (List.mem_range.mp hj') e

/-- The tables of the Domain are a triangulation in the sense of C56. -/
theorem RankOf.triMesh (h : RankOf L G 3 φ mine ext B out) (ho : Outward G out) (hs : Solid G 2 out) (h2 : ∀ C < G.nbcells, ∀ j < 3, out C j 2 = 0)
    (V : Fin 5 → Vari ℝ) (gh gc : Grads ℝ) (o : Int) : SW.TriMesh (swArgs G V gh gc o) (swCells G) G.nbcells := by
  have hnil := h.halo_nil
  refine ⟨⟨?_, ?_, ?_, ?_⟩, ?_, fun C hC => h.swFaces hC, ?_, ?_, ?_, ?_, fun _ _ => rfl, ?_, ?_, ?_⟩
  · intro i hi; obtain ⟨a, ha, b, hb, hne, e0, e1⟩ := h.swDistinct hi
    show idx (G.cellid i 0) < _; rw [e0]; simpa [idx] using ha
  · intro i hi; obtain ⟨a, ha, b, hb, hne, e0, e1⟩ := h.swDistinct hi
    show idx (G.cellid i 1) < _; rw [e1]; simpa [idx] using hb
  · intro i hi; have hi : i ∈ G.halofaces := hi; rw [hnil] at hi; exact absurd hi List.not_mem_nil
  · intro i hi; obtain ⟨a, ha, e⟩ := h.first_lt ((h.cG.bnd.2 i).mp hi).1
    show idx (G.cellid i 0) < _; rw [e]; simpa [idx] using ha
  · intro i hi; obtain ⟨a, ha, b, hb, hne, e0, e1⟩ := h.swDistinct hi
    show idx (G.cellid i 0) ≠ idx (G.cellid i 1); rw [e0, e1]; simpa [idx] using hne
  · intro C hC j hj k hk
    rw [h.nfG ho hC hj k (by omega)]
    show out C j k = if idx (G.cellid (G.faceid C j) 0) = C then G.normal (G.faceid C j) k else -G.normal (G.faceid C j) k
    obtain ⟨a, ha, e⟩ := h.first_lt (h.cG.flt C hC j hj)
    by_cases hc : a = C
    · subst hc
      rw [if_pos (by rw [e]; simp [idx]), h.normalG a hC j hj e k (by omega)]
    · rw [if_neg (by rw [e]; simpa [idx] using hc), h.normalG_other hC hj (by rw [e]; exact_mod_cast hc) k (by omega), neg_neg]
  · intro i hi; exact ((h.cG.inner.2 i).mp hi).2
  · intro i hi; exact ((h.cG.halo.2 i).mp hi).2
  · intro i hi
    have := ((h.cG.bnd.2 i).mp hi).2
    exact ⟨fun x => h.cG.B0 (x ▸ this), fun x => h.cG.B10 (x ▸ this)⟩
  · intro C hC j hj hn
    have hn : G.name (G.faceid C j) = 0 := hn
    show (swCells G).cellfid C j = if idx (G.cellid (G.faceid C j) 0) = C then idx (G.cellid (G.faceid C j) 1) else idx (G.cellid (G.faceid C j) 0)
    rcases h.gkinds hC hj with ⟨hB, _⟩ | ⟨E, hE, hne, hn, b1, b2, ⟨c0, c1⟩ | ⟨c0, c1⟩⟩
    · rw [hn] at hB; exact absurd hB h.cG.B0
    · rw [cellfid_first hC hj c0 c1, c0, c1]; simp [idx]
    · rw [cellfid_second hC hj hne c0 c1, c0, c1]
      simp [idx, hne]
  · intro C hC k hk
    rw [h.nfG ho hC (by omega) k (by omega), h.nfG ho hC (by omega) k (by omega), h.nfG ho hC (by omega) k (by omega)]
    have := hs.closed C hC k (by omega)
    simp only [Finset.sum_range_succ, Finset.sum_range_zero, zero_add] at this
    linear_combination this
  · intro C hC hz
    rw [h.nfG ho hC (by omega) 0 (by omega), h.nfG ho hC (by omega) 1 (by omega), h.nfG ho hC (by omega) 1 (by omega),
      h.nfG ho hC (by omega) 0 (by omega)] at hz
    have c0 := hs.closed C hC 0 (by omega)
    have c1 := hs.closed C hC 1 (by omega)
    simp only [Finset.sum_range_succ, Finset.sum_range_zero, zero_add] at c0 c1
    have hb := hs.big C hC 0 (by omega)
    have hp := hs.span C hC (fun k => if k = 0 then - out C 0 1 else if k = 1 then out C 0 0 else 0) (by
      intro j hj
      simp only [if_pos, if_neg, one_ne_zero, if_false, if_true]
      have : j = 0 ∨ j = 1 ∨ j = 2 := by omega
      rcases this with rfl | rfl | rfl
      · simp; ring
      · simp; linear_combination hz
      · simp; linear_combination (-hz) - out C 0 1 * c0 + out C 0 0 * c1)
    have p0 := hp 0 (by omega)
    have p1 := hp 1 (by omega)
    simp only [if_pos, if_neg, one_ne_zero, if_false, if_true] at p0 p1
    rw [h2 C hC 0 (by omega), p1] at hb
    have : out C 0 1 = 0 := by linarith
    rw [this] at hb
    norm_num at hb

/-! ### what one iteration keeps -/

theorem friction_other_comp (w : SW.W5) (g eta dt : ℝ) (k : Fin 5) (h1 : k ≠ 1) (h2 : k ≠ 2) : SW.friction w g eta dt k = w k := by
  unfold SW.friction
  fin_cases k
  · rfl
  · exact absurd rfl h1
  · exact absurd rfl h2
  · rfl
  · rfl

theorem source_other_comp (t : SW.CellTabs) (c ghost halo : Nat → SW.W5) (i : Nat) (k : Fin 5) (h1 : k ≠ 1) (h2 : k ≠ 2) : SW.source t c ghost halo i k = 0 := by
  unfold SW.source
  fin_cases k
  · rfl
  · exact absurd rfl h1
  · exact absurd rfl h2
  · rfl
  · rfl

/-- The bottom. -/
theorem swStep_bottom {S : SSetup} {dt : ℝ} {w new : Nat → SW.W5} (h : SwStepOf G S dt w new) {C : Nat} (hC : C < G.nbcells) : new C 4 = w C 4 := by
  obtain ⟨U, hG, cG, dis, h1, h2, h3, h4⟩ := h
  rw [h4 C hC]
  have hb := SW.convective_bottom (swArgs G U hG cG S.order) C
  have hs := source_other_comp (swCells G) (swArgs G U hG cG S.order).c (swArgs G U hG cG S.order).ghost (swArgs G U hG cG S.order).halo C 4 (by decide) (by decide)
  have hc : (swArgs G U hG cG S.order).c C = SW.friction (w C) SW.g0 S.mann dt := h1 C hC
  have hf := friction_other_comp (w C) SW.g0 S.mann dt 4 (by decide) (by decide)
  unfold swNew
  dsimp only [SW.updateCell]
  show (swArgs G U hG cG S.order).c C 4 + dt * ((swArgs G U hG cG S.order).convective C 4 + SW.source (swCells G) _ _ _ C 4) / G.volume C = _
  rw [hb, hs, hc, hf]; ring

/-- The lake. -/
theorem swStep_lake (R : RankOf L G 3 φ mine ext B out) (ho : Outward G out) (hs : Solid G 2 out) (h2 : ∀ C < G.nbcells, ∀ j < 3, out C j 2 = 0)
    {S : SSetup} (h1 : S.order = 1) (hq : QuietSides S.bc) {dt : ℝ} {w new : Nat → SW.W5} (h : SwStepOf G S dt w new) {H : ℝ}
    (hw : ∀ C < G.nbcells, SW.Rest H (w C)) {C : Nat} (hC : C < G.nbcells) (k : Fin 5) (hk : k ≠ 3) : new C k = w C k := by
  obtain ⟨U, hG, cG, dis, u1, u2, u3, u4⟩ := h
  have hfr : ∀ i < G.nbcells, (swArgs G U hG cG S.order).c i = w i := fun i hi => (u1 i hi).trans (SW.friction_rest _ _ _ _ (hw i hi).2.1 (hw i hi).2.2.1)
  have hlake : SW.LakeAtRest (swArgs G U hG cG S.order) (swArgs G U hG cG S.order).c G.nbcells H := by
    refine ⟨fun i hi => by rw [hfr i hi]; exact hw i hi, fun i hi => ?_, fun i hi => ?_⟩
    · obtain ⟨a, ha, e⟩ := R.first_lt ((R.cG.bnd.2 i).mp hi).1
      have hwa := hw a ha
      have hg : ∀ k, (swArgs G U hG cG S.order).ghost i k = ghostVal G (U k).cell i (S.bc k (G.name i)) := fun k => u2 i hi k
      have hi0 : idx (G.cellid i 0) = a := by rw [e]; simp [idx]
      have hca : ∀ k, (U k).cell (idx (G.cellid i 0)) = w a k := fun k => by rw [hi0]; exact congrFun (hfr a ha) k
      have hflow : ∀ k ∈ [(1 : Fin 5), 2], (swArgs G U hG cG S.order).ghost i k = 0 := by
        intro k hk
        have hz : w a k = 0 := by
          simp only [List.mem_cons, List.not_mem_nil, or_false] at hk
          rcases hk with rfl | rfl
          exacts [hwa.2.1, hwa.2.2.1]
        rw [hg k]
        rcases hq.flow k hk (G.name i) with e | e | ⟨v, e, hv⟩
        · rw [e]; exact (hca k).trans hz
        · rw [e]; show -1 * (U k).cell (idx (G.cellid i 0)) = 0; rw [hca k, hz, mul_zero]
        · rw [e]; exact hv _ _ _
      have g0 : (swArgs G U hG cG S.order).ghost i 0 = w a 0 := by rw [hg 0, hq.depth]; exact hca 0
      have g4 : (swArgs G U hG cG S.order).ghost i 4 = w a 4 := by rw [hg 4, hq.bottom]; exact hca 4
      exact ⟨by rw [g0]; exact hwa.1, hflow 1 (by simp), hflow 2 (by simp), by rw [g0, g4]; exact hwa.2.2.2⟩
    · have hi : i ∈ G.halofaces := hi; rw [R.halo_nil] at hi; exact absurd hi List.not_mem_nil
  have hb := SW.residual_balances_source _ (swCells G) G.nbcells H (R.triMesh ho hs h2 U hG cG S.order) (.inl h1) hlake C hC
  have hstep : new C = SW.updateCell ((swArgs G U hG cG S.order).c C) ((swArgs G U hG cG S.order).convective C)
      (SW.source (swCells G) (swArgs G U hG cG S.order).c (swArgs G U hG cG S.order).ghost (swArgs G U hG cG S.order).halo C) (dis C)
      (SW.coriolis ((swArgs G U hG cG S.order).c C) S.fc) (0, 0) dt (G.volume C) := u4 C hC
  rw [hstep, hfr C hC]
  have r1 := (hw C hC).2.1
  have r2 := (hw C hC).2.2.1
  have b0 := hb 0; have b1 := hb 1; have b2 := hb 2; have b4 := hb 4
  simp only [SW.updateCell, SW.coriolis]
  fin_cases k
  · simp [b0]
  · simp [b1, r1]
  · simp [b2, r2]
  · exact absurd rfl hk
  · simp [b4]

/-! ### water -/

/-- The discharges reversed. -/
def mirror (w : SW.W5) : SW.W5 := ![w 0, - w 1, - w 2, w 3, w 4]

theorem predict_mirror (l r : SW.W5) (n : Nat → ℝ) (mes g : ℝ) : SW.predict (mirror l) (mirror r) (SW.flipN n) mes g = SW.predict l r n mes g := by
  have r1 : ∀ w i, SW.rotate (mirror w) (SW.flipN n) mes i = SW.rotate w n mes i := by
    intro w i
    unfold SW.rotate mirror SW.flipN
    fin_cases i <;> simp
  have u1 : SW.uRoe (mirror l) (mirror r) (SW.flipN n) mes = SW.uRoe l r n mes := by
    simp only [SW.uRoe, mirror, SW.flipN, SW.roeAvg]; simp; ring
  have v1 : SW.vRoe (mirror l) (mirror r) (SW.flipN n) mes = SW.vRoe l r n mes := by
    simp only [SW.vRoe, mirror, SW.flipN, SW.roeAvg]; simp; ring
  funext i
  simp only [SW.predict, u1, v1, r1]
  rfl

theorem mass_mirror (l r : SW.W5) (n : Nat → ℝ) (mes g : ℝ) : SW.srnh (mirror l) (mirror r) (SW.flipN n) mes g 0 = SW.srnh l r n mes g 0 := by
  simp only [SW.srnh, predict_mirror, SW.flipN]
  simp
  ring

/-- The flux of water does not depend on the tracer. -/
theorem mass_tracer (l r l' r' : SW.W5) (n : Nat → ℝ) (mes g : ℝ) (hl : ∀ k, k ≠ 3 → l' k = l k) (hr : ∀ k, k ≠ 3 → r' k = r k) :
    SW.srnh l' r' n mes g 0 = SW.srnh l r n mes g 0 := by
  have l0 := hl 0 (by decide)
  have l1 := hl 1 (by decide)
  have l2 := hl 2 (by decide)
  have l4 := hl 4 (by decide)
  have r0 := hr 0 (by decide)
  have r1 := hr 1 (by decide)
  have r2 := hr 2 (by decide)
  have r4 := hr 4 (by decide)
  have p : ∀ i : Fin 5, i = 1 ∨ i = 2 → SW.predict l' r' n mes g i = SW.predict l r n mes g i := by
    intro i hi
    simp only [SW.predict, SW.uRoe, SW.vRoe, SW.rotate, Fin.sum_univ_five, l0, l1, l2, l4, r0, r1, r2, r4]
    rcases hi with rfl | rfl <;> simp [SW.rmat]
  simp only [SW.srnh, p 1 (.inl rfl), p 2 (.inr rfl)]
  simp

/-- No water passes a wall. -/
theorem mass_wall (l r : SW.W5) (n : Nat → ℝ) (mes g : ℝ) (h0 : r 0 = l 0) (h1 : r 1 = - l 1) (h2 : r 2 = - l 2) (h4 : r 4 = l 4) :
    SW.srnh l r n mes g 0 = 0 := by
  have e1 := mass_mirror l r n mes g
  have e2 : SW.srnh (mirror l) (mirror r) (SW.flipN n) mes g 0 = SW.srnh r l (SW.flipN n) mes g 0 := by
    apply mass_tracer
    · intro k hk; fin_cases k <;> simp [mirror, h0, h1, h2, h4] at hk ⊢
    · intro k hk; fin_cases k <;> simp [mirror, h0, h1, h2, h4] at hk ⊢
  have e3 : SW.srnh r l (SW.flipN n) mes g 0 = - SW.srnh l r n mes g 0 := by
    have := congrFun (SW.C74_flux_antisymmetric l r n mes g) 0
    simpa using this
  linarith

theorem tracer_wall (l r : SW.W5) (n : Nat → ℝ) (mes g : ℝ) (h : SW.srnh l r n mes g 0 = 0) : SW.srnh l r n mes g 3 = 0 := by
  have e : SW.srnh l r n mes g 3 = SW.srnh l r n mes g 0 * SW.predict l r n mes g 3 / SW.predict l r n mes g 0 := rfl
  rw [e, h, zero_mul, zero_div]

/-- One iteration changes the integral of depth and tracer by the fluxes through the sides. -/
theorem swStep_total (R : RankOf L G 3 φ mine ext B out) (ho : Outward G out) (hs : Solid G 2 out) (h2 : ∀ C < G.nbcells, ∀ j < 3, out C j 2 = 0)
    {S : SSetup} {dt : ℝ} (U : Fin 5 → Vari ℝ) (hG cG : Grads ℝ) (dis : Nat → ℝ) (w new : Nat → SW.W5)
    (u1 : ∀ C < G.nbcells, cellsOf U C = SW.friction (w C) SW.g0 S.mann dt) (u4 : ∀ C < G.nbcells, new C = swNew G S dt U hG cG dis C)
    (k : Fin 5) (hk : k = 0 ∨ (k = 3 ∧ ∀ C < G.nbcells, dis C = 0)) :
    ∑ C ∈ Finset.range G.nbcells, G.volume C * new C k = ∑ C ∈ Finset.range G.nbcells, G.volume C * w C k
      - dt * (G.boundaryfaces.map (fun i => SW.boundaryFlux (swArgs G U hG cG S.order) i k)).sum := by
  have hk1 : k ≠ 1 := by rcases hk with rfl | ⟨rfl, _⟩ <;> decide
  have hk2 : k ≠ 2 := by rcases hk with rfl | ⟨rfl, _⟩ <;> decide
  have hstep : ∀ C ∈ Finset.range G.nbcells, G.volume C * new C k = G.volume C * w C k + dt * (swArgs G U hG cG S.order).convective C k := by
    intro C hC
    have hC := Finset.mem_range.mp hC
    have hv := (hs.vpos C hC).ne'
    have hc : (swArgs G U hG cG S.order).c C k = w C k :=
      (congrFun (u1 C hC) k).trans (friction_other_comp (w C) SW.g0 S.mann dt k hk1 hk2)
    have hsrc := source_other_comp (swCells G) (swArgs G U hG cG S.order).c (swArgs G U hG cG S.order).ghost (swArgs G U hG cG S.order).halo C k hk1 hk2
    have : new C k = w C k + dt * (swArgs G U hG cG S.order).convective C k / G.volume C := by
      rw [u4 C hC]
      rcases hk with rfl | ⟨rfl, hd⟩
      · show (swArgs G U hG cG S.order).c C 0 + dt * ((swArgs G U hG cG S.order).convective C 0 + SW.source (swCells G) _ _ _ C 0) / G.volume C = _
        rw [hc, hsrc, add_zero]
      · show (swArgs G U hG cG S.order).c C 3 + dt * ((swArgs G U hG cG S.order).convective C 3 + SW.source (swCells G) _ _ _ C 3 - dis C) / G.volume C = _
        rw [hc, hsrc, hd C hC, add_zero, sub_zero]
    rw [this]; field_simp
  rw [Finset.sum_congr rfl hstep, Finset.sum_add_distrib, ← Finset.mul_sum]
  have := congrFun (SW.C55_residual_conservative (swArgs G U hG cG S.order) G.nbcells (R.triMesh ho hs h2 U hG cG S.order).cells) k
  rw [Finset.sum_apply] at this
  rw [this]
  have hnil : (swArgs G U hG cG S.order).halofaces = [] := R.halo_nil
  have hb : (swArgs G U hG cG S.order).boundaryfaces = G.boundaryfaces := rfl
  simp only [Pi.neg_apply, Pi.add_apply, SW.sum_apply, hnil, hb]
  simp
  ring

/-- In a closed basin, at order 1, nothing passes the sides. -/
theorem swStep_closed (R : RankOf L G 3 φ mine ext B out) (ho : Outward G out) (hs : Solid G 2 out) (h2 : ∀ C < G.nbcells, ∀ j < 3, out C j 2 = 0)
    {S : SSetup} (h1 : S.order = 1) (hq : ClosedBasin S.bc) {dt : ℝ} {w new : Nat → SW.W5} (h : SwStepOf G S dt w new)
    (k : Fin 5) (hk : k = 0 ∨ (k = 3 ∧ S.Dx = 0 ∧ S.Dy = 0)) :
    ∑ C ∈ Finset.range G.nbcells, G.volume C * new C k = ∑ C ∈ Finset.range G.nbcells, G.volume C * w C k := by
  obtain ⟨U, hG, cG, dis, u1, u2, u3, u4⟩ := h
  rw [swStep_total R ho hs h2 U hG cG dis w new u1 u4 k (by rcases hk with rfl | ⟨rfl, hx, hy⟩; exacts [.inl rfl, .inr ⟨rfl, u3 hx hy⟩])]
  have hz : ∀ i ∈ G.boundaryfaces, SW.boundaryFlux (swArgs G U hG cG S.order) i k = 0 := by
    intro i hi
    have hg : ∀ k, (swArgs G U hG cG S.order).ghost i k = ghostVal G (U k).cell i (S.bc k (G.name i)) := fun k => u2 i hi k
    have hf : ∀ k, (swArgs G U hG cG S.order).fromCell ((swArgs G U hG cG S.order).cell0 i) i k = (U k).cell (idx (G.cellid i 0)) := by
      intro k
      have ho : (swArgs G U hG cG S.order).order = 1 := h1
      simp only [SW.Args.fromCell, SW.Args.recon, ho]
      fin_cases k
      · show (U 0).cell (idx (G.cellid i 0)) + _ = _; simp
      · rfl
      · rfl
      · show (U 3).cell (idx (G.cellid i 0)) + _ = _; simp
      · rfl
    have h0 : SW.boundaryFlux (swArgs G U hG cG S.order) i 0 = 0 := by
      unfold SW.boundaryFlux
      apply mass_wall
      · rw [hg, hf, hq.depth]; rfl
      · rw [hg, hf, hq.hu]; show -1 * _ = _; ring
      · rw [hg, hf, hq.hv]; show -1 * _ = _; ring
      · rw [hg, hf, hq.bottom]; rfl
    rcases hk with rfl | ⟨rfl, _⟩
    · exact h0
    · exact tracer_wall _ _ _ _ _ h0
  rw [List.map_congr_left hz]
  simp

end
end Verif.Props.Par
