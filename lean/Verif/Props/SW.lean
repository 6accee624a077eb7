import Verif.Props.SWFlux
import Verif.Model.Fvm
import Mathlib.Tactic.IntervalCases
import Mathlib.Data.List.Perm.Basic
import Mathlib.Analysis.SpecialFunctions.Pow.Real

/-!
# The shallow-water model: bottom, conservation, lake at rest, friction, Coriolis, time step (C54-C60, C74, C76, C77)
-/
set_option linter.unusedSectionVars false
set_option linter.unusedSimpArgs false
set_option linter.unusedVariables false
set_option linter.unnecessarySeqFocus false
set_option linter.unusedTactic false
set_option linter.unreachableTactic false
namespace Verif.SW
open Verif

/-! ## The residual -/

theorem convective_eq (a : Args) (c : Nat) : a.convective c =
    (a.innerfaces.map (fun i => (if a.cell1 i = c then innerFlux a i else 0) - (if a.cell0 i = c then innerFlux a i else 0))).sum
    + (a.halofaces.map (fun i => -(if a.cell0 i = c then haloFlux a i else 0))).sum
    + (a.boundaryfaces.map (fun i => -(if a.cell0 i = c then boundaryFlux a i else 0))).sum := by
  simp only [Args.convective]
  rw [foldl_contrib a.boundaryfaces a.boundaryStep (fun i c => -(if a.cell0 i = c then boundaryFlux a i else 0)),
    foldl_contrib a.halofaces a.haloStep (fun i c => -(if a.cell0 i = c then haloFlux a i else 0)),
    foldl_contrib a.innerfaces a.innerStep (fun i c => (if a.cell1 i = c then innerFlux a i else 0) - (if a.cell0 i = c then innerFlux a i else 0))]
  · rw [zero_add]
  · intro r i _ j; simp only [Args.innerStep, addAt_apply, subAt_apply, innerFlux]; abel
  · intro r i _ j; simp only [Args.haloStep, subAt_apply, haloFlux, sub_eq_add_neg]
  · intro r i _ j; simp only [Args.boundaryStep, subAt_apply, boundaryFlux, sub_eq_add_neg]

theorem sum_apply (l : List Nat) (F : Nat → W5) (k : Fin 5) : (l.map F).sum k = (l.map (fun i => F i k)).sum := by
  induction l with
  | nil => rfl
  | cons a l ih => simp only [List.map_cons, List.sum_cons, Pi.add_apply, ih]

theorem convective_bottom (a : Args) (c : Nat) : a.convective c 4 = 0 := by
  rw [convective_eq]
  simp only [Pi.add_apply, sum_apply]
  have hi : ∀ i, innerFlux a i 4 = 0 := fun i => C53_bottom_flux_zero _ _ _ _ _
  have hh : ∀ i, haloFlux a i 4 = 0 := fun i => C53_bottom_flux_zero _ _ _ _ _
  have hb : ∀ i, boundaryFlux a i 4 = 0 := fun i => C53_bottom_flux_zero _ _ _ _ _
  rw [list_map_sum_zero, list_map_sum_zero, list_map_sum_zero]
  · ring
  all_goals intro i _; simp only [Pi.sub_apply, Pi.neg_apply]; split_ifs <;> simp [hi, hh, hb]

/-! ## C54 the bottom -/

/-- One step leaves the bottom unchanged. -/
theorem step_bottom (w : Nat → W5) (d : StepData) (i : Nat) : step w d i 4 = w i 4 := by
  simp only [step, updateCell, friction, source]
  simp [convective_bottom]

/-- **C54**: over any history of steps (any boundary data, gradients, orders, coefficients and time steps) the bottom never changes. -/
theorem C54_bottom_fixed (ds : List StepData) (w : Nat → W5) (i : Nat) : (ds.foldl step w) i 4 = w i 4 := by
  induction ds generalizing w with
  | nil => rfl
  | cons d ds ih => rw [List.foldl_cons, ih, step_bottom]

/-! ## C55 conservation -/

/-- **C55**: the residuals of all cells add up to minus the fluxes through halo and boundary faces, in every component. -/
theorem C55_residual_conservative (a : Args) (n : Nat) (h : CellsOK a n) :
    ∑ c ∈ Finset.range n, a.convective c = -((a.halofaces.map (haloFlux a)).sum + (a.boundaryfaces.map (boundaryFlux a)).sum) := by
  simp only [convective_eq, Finset.sum_add_distrib]
  rw [sum_list_sum n a.innerfaces (fun i c => (if a.cell1 i = c then innerFlux a i else 0) - (if a.cell0 i = c then innerFlux a i else 0)),
    sum_list_sum n a.halofaces (fun i c => -(if a.cell0 i = c then haloFlux a i else 0)),
    sum_list_sum n a.boundaryfaces (fun i c => -(if a.cell0 i = c then boundaryFlux a i else 0)),
    list_map_sum_zero a.innerfaces, list_map_sum_congr a.halofaces _ (fun i => -haloFlux a i),
    list_map_sum_congr a.boundaryfaces _ (fun i => -boundaryFlux a i), list_map_sum_neg, list_map_sum_neg]
  · abel
  · intro i hi; rw [Finset.sum_neg_distrib, sum_ite_idx n _ _ (h.bnd0 i hi)]
  · intro i hi; rw [Finset.sum_neg_distrib, sum_ite_idx n _ _ (h.halo0 i hi)]
  · intro i hi; rw [Finset.sum_sub_distrib, sum_ite_idx n _ _ (h.inner0 i hi), sum_ite_idx n _ _ (h.inner1 i hi), sub_self]

/-- The water volume of a rank changes only by the fluxes through its halo and boundary faces (`w'` are the cells after friction, which does
not change depths). -/
theorem C55_mass_balance (w : Nat → W5) (d : StepData) (n : Nat) (h : CellsOK d.ext n) (hv : ∀ c < n, d.volume c ≠ 0) :
    let a := { d.ext with c := fun i => friction (w i) g0 d.mann d.time_step }
    ∑ c ∈ Finset.range n, d.volume c * step w d c 0
      = ∑ c ∈ Finset.range n, d.volume c * w c 0
        - d.time_step * ((a.halofaces.map (fun i => haloFlux a i 0)).sum + (a.boundaryfaces.map (fun i => boundaryFlux a i 0)).sum) := by
  intro a
  have hs : ∀ c ∈ Finset.range n, d.volume c * step w d c 0 = d.volume c * w c 0 + d.time_step * a.convective c 0 := by
    intro c hc
    have hvc := hv c (Finset.mem_range.1 hc)
    have : step w d c 0 = w c 0 + d.time_step * (a.convective c 0 + 0) / d.volume c := rfl
    rw [this]
    field_simp
    ring
  rw [Finset.sum_congr rfl hs, Finset.sum_add_distrib, ← Finset.mul_sum]
  have := congrFun (C55_residual_conservative a n ⟨h.inner0, h.inner1, h.halo0, h.bnd0⟩) 0
  rw [Finset.sum_apply] at this
  rw [this]
  simp only [Pi.neg_apply, Pi.add_apply, sum_apply]
  ring

/-! ## C74 several ranks -/

theorem perm_of_invol {α : Type*} (l : List α) (hn : l.Nodup) (p : α → α) (hm : ∀ x ∈ l, p x ∈ l) (hi : ∀ x ∈ l, p (p x) = x) :
    (l.map p).Perm l := by
  classical
  have hnd : (l.map p).Nodup := by
    rw [List.nodup_map_iff_inj_on hn]
    intro x hx y hy hxy
    rw [← hi x hx, ← hi y hy, hxy]
  rw [List.perm_ext_iff_of_nodup hnd hn]
  intro x
  rw [List.mem_map]
  constructor
  · rintro ⟨y, hy, rfl⟩; exact hm y hy
  · intro hx; exact ⟨p x, hm x hx, hi x hx⟩

/-- All halo faces of all ranks. -/
def allHalo (R : Nat) (A : Nat → Args) : List (Nat × Nat) := (List.range R).flatMap (fun q => (A q).halofaces.map (fun f => (q, f)))

theorem mem_allHalo {R : Nat} {A : Nat → Args} {x : Nat × Nat} : x ∈ allHalo R A ↔ x.1 < R ∧ x.2 ∈ (A x.1).halofaces := by
  obtain ⟨q, f⟩ := x
  simp only [allHalo, List.mem_flatMap, List.mem_range, List.mem_map]
  constructor
  · rintro ⟨q', hq, f', hf, e⟩; injection e with e1 e2; subst e1; subst e2; exact ⟨hq, hf⟩
  · rintro ⟨hq, hf⟩; exact ⟨q, hq, f, hf, rfl⟩

theorem allHalo_nodup (R : Nat) (A : Nat → Args) (h : ∀ q < R, (A q).halofaces.Nodup) : (allHalo R A).Nodup := by
  rw [allHalo, List.nodup_flatMap]
  refine ⟨fun q hq => (h q (List.mem_range.1 hq)).map (fun a b e => by injection e), ?_⟩
  refine List.Pairwise.imp ?_ (List.nodup_range (n := R))
  intro q q' hne x hx hx'
  simp only [List.mem_map] at hx hx'
  obtain ⟨_, _, rfl⟩ := hx
  obtain ⟨_, _, e⟩ := hx'
  injection e with e _
  exact hne e.symm

theorem sum_allHalo (R : Nat) (A : Nat → Args) (F : Nat → Nat → W5) :
    ((allHalo R A).map (fun x => F x.1 x.2)).sum = ∑ q ∈ Finset.range R, ((A q).halofaces.map (F q)).sum := by
  rw [← list_sum_range]
  simp only [allHalo]
  induction List.range R with
  | nil => rfl
  | cons q l ih => simp only [List.flatMap_cons, List.map_append, List.sum_append, ih, List.map_map, List.map_cons, List.sum_cons]; rfl

/-- On matched halo faces the reconstruction from the halo cell is the reconstruction of the other rank from its own cell. -/
theorem RankPairing.state {R : Nat} {A : Nat → Args} {p : Nat × Nat → Nat × Nat} (h : RankPairing R A p) (q : Nat) (hq : q < R) (f : Nat)
    (hf : f ∈ (A q).halofaces) :
    (A q).fromHalo ((A q).halofid f) f = (A (p (q, f)).1).fromCell ((A (p (q, f)).1).cell0 (p (q, f)).2) (p (q, f)).2 := by
  obtain ⟨e1, e2, e3, e4, e5, e6, e7⟩ := h.seen q hq f hf
  simp only [Args.fromHalo, Args.fromCell, Args.recon, e1, e2, e3, e4, e5, e6, e7, h.order q hq f hf, h.point q hq f hf]

/-- **C74** (halo fluxes cancel): over all ranks the halo fluxes add up to zero in every component. -/
theorem C74_halo_fluxes_cancel (R : Nat) (A : Nat → Args) (p : Nat × Nat → Nat × Nat) (h : RankPairing R A p) :
    ∑ q ∈ Finset.range R, ((A q).halofaces.map (haloFlux (A q))).sum = 0 := by
  rw [← sum_allHalo R A (fun q => haloFlux (A q))]
  have hperm := perm_of_invol (allHalo R A) (allHalo_nodup R A h.nodup) p
    (fun x hx => by obtain ⟨h1, h2⟩ := mem_allHalo.1 hx; exact mem_allHalo.2 ⟨h.rank _ h1 _ h2, h.mem _ h1 _ h2⟩)
    (fun x hx => by obtain ⟨h1, h2⟩ := mem_allHalo.1 hx; exact h.invol _ h1 _ h2)
  have hflux : ∀ x ∈ allHalo R A, ((fun x : Nat × Nat => haloFlux (A x.1) x.2) ∘ p) x = -haloFlux (A x.1) x.2 := by
    rintro ⟨q, f⟩ hx
    obtain ⟨h1, h2⟩ := mem_allHalo.1 hx
    simp only at h1 h2
    have m1 := h.rank _ h1 _ h2
    have m2 := h.mem _ h1 _ h2
    have s1 := h.state _ h1 _ h2
    have s2 := h.state _ m1 _ m2
    have hin := h.invol _ h1 _ h2
    simp only [Prod.mk.eta] at s2
    rw [hin] at s2
    simp only [Function.comp, haloFlux]
    rw [s2, h.normal _ h1 _ h2, h.length _ h1 _ h2, s1]
    exact C74_flux_antisymmetric _ _ _ _ _
  have e := (hperm.map (fun x : Nat × Nat => haloFlux (A x.1) x.2)).sum_eq
  rw [List.map_map, list_map_sum_congr _ _ _ hflux, list_map_sum_neg] at e
  funext k
  have := congrFun e k
  simp only [Pi.neg_apply] at this
  show _ = (0 : ℝ)
  linarith

/-- **C74** (global conservation): the residuals of all cells of all ranks add up to minus the physical boundary fluxes: partitioning neither
creates nor destroys water. -/
theorem C74_global_conservative (R : Nat) (A : Nat → Args) (n : Nat → Nat) (p : Nat × Nat → Nat × Nat) (hc : ∀ q < R, CellsOK (A q) (n q))
    (h : RankPairing R A p) :
    ∑ q ∈ Finset.range R, ∑ c ∈ Finset.range (n q), (A q).convective c
      = -∑ q ∈ Finset.range R, ((A q).boundaryfaces.map (boundaryFlux (A q))).sum := by
  rw [Finset.sum_congr rfl (fun q hq => C55_residual_conservative (A q) (n q) (hc q (Finset.mem_range.1 hq))), Finset.sum_neg_distrib,
    Finset.sum_add_distrib, C74_halo_fluxes_cancel R A p h, zero_add]

/-! ## C56 lake at rest -/

/-- Flux between two states at rest with the same free surface: pressure of the mean depth. -/
theorem srnh_rest (l r : W5) (n : Nat → ℝ) (mes g H : ℝ) (hg : 0 < g)
    (hl : Rest H l) (hr : Rest H r) :
    srnh l r n mes g = ![0, g / 2 * ((l 0 + r 0) / 2) ^ 2 * n 0, g / 2 * ((l 0 + r 0) / 2) ^ 2 * n 1, 0, 0] := by
  obtain ⟨l0, l1, l2, l4⟩ := hl
  obtain ⟨r0, r1, r2, r4⟩ := hr
  have hh : 0 < g * ((l 0 + r 0) / 2) := by positivity
  have hu : uRoe l r n mes = 0 := by simp [uRoe, roeAvg, l1, l2, r1, r2]
  have hv : vRoe l r n mes = 0 := by simp [vRoe, roeAvg, l1, l2, r1, r2]
  have he := C53_eigenvalues g ((l 0 + r 0) / 2) 0 0 hh
  have hc := Real.sqrt_pos.2 hh
  have hpred : ∀ i, predict l r n mes g i = (rotate l n mes i + rotate r n mes i) / 2 := by
    intro i
    simp only [predict, beta_zero, hu, hv, he]
    generalize Real.sqrt (g * ((l 0 + r 0) / 2)) = c at *
    rw [rmat_mul]
    have e1 : max 0 (0 + c) = c := by rw [zero_add, max_eq_right hc.le]
    have e2 : min 0 (0 - c) = -c := by rw [zero_sub, min_eq_right (by linarith)]
    rw [e1, e2]
    have e3 : (2 : ℝ) * 0 - c - -c = 0 := by ring
    rw [e3, sgn_zero]
    have h4 : r 4 - l 4 = -(r 0 - l 0) := by linarith
    have z1 : ∑ j, leftVec (-c) 0 0 c ((c - -c) * (c - 0)) j * (rotate r n mes j - rotate l n mes j) = 0 := by
      simp only [Fin.sum_univ_five, leftVec, rotate]
      simp [l1, l2, r1, r2]
      rw [h4]
      ring
    have z2 : ∑ j, leftVec c 0 0 c ((c - -c) * (-c - 0)) j * (rotate r n mes j - rotate l n mes j) = 0 := by
      simp only [Fin.sum_univ_five, leftVec, rotate]
      simp [l1, l2, r1, r2]
      rw [h4]
      ring
    rw [z1, z2]
    ring
  have p0 : predict l r n mes g 0 = (l 0 + r 0) / 2 := by rw [hpred]; rfl
  have p1 : predict l r n mes g 1 = 0 := by rw [hpred]; simp [rotate, l1, l2, r1, r2]
  have p2 : predict l r n mes g 2 = 0 := by rw [hpred]; simp [rotate, l1, l2, r1, r2]
  simp only [srnh, p0, p1, p2]
  funext i
  fin_cases i
  · simp
  · simp only [zero_mul, mul_zero, add_zero, zero_add, zero_div]; simp; left; ring
  · simp only [zero_mul, mul_zero, add_zero, zero_add, zero_div]; simp; left; ring
  · simp
  · simp

/-- Source in a triangle with free surface `H` everywhere. -/
theorem source_rest (t : CellTabs) (c ghost halo : Nat → W5) (i : Nat) (H : ℝ) (k : Nat) (hk : k < 2)
    (hi : Rest H (c i)) (ho : ∀ j < 3, Rest H (srcOther t c ghost halo i j))
    (hclosed : ∀ k < 2, t.nf i 0 k + t.nf i 1 k + t.nf i 2 k = 0)
    (harea : t.nf i 0 0 * t.nf i 1 1 - t.nf i 0 1 * t.nf i 1 0 ≠ 0) :
    srcMomentum t c ghost halo i k
      = g0 / 2 * (((c i 0 + srcOther t c ghost halo i 0 0) / 2) ^ 2 * t.nf i 0 k
        + ((c i 0 + srcOther t c ghost halo i 1 0) / 2) ^ 2 * t.nf i 1 k
        + ((c i 0 + srcOther t c ghost halo i 2 0) / 2) ^ 2 * t.nf i 2 k) := by
  obtain ⟨i0, -, -, i4⟩ := hi
  obtain ⟨a0, -, -, a4⟩ := ho 0 (by norm_num)
  obtain ⟨b0, -, -, b4⟩ := ho 1 (by norm_num)
  obtain ⟨d0, -, -, d4⟩ := ho 2 (by norm_num)
  have hx := hclosed 0 (by norm_num)
  have hy := hclosed 1 (by norm_num)
  have hkk := hclosed k hk
  simp only [srcMomentum]
  have z0 : srcOther t c ghost halo i 0 4 = H - srcOther t c ghost halo i 0 0 := by linarith
  have z1 : srcOther t c ghost halo i 1 4 = H - srcOther t c ghost halo i 1 0 := by linarith
  have z2 : srcOther t c ghost halo i 2 4 = H - srcOther t c ghost halo i 2 0 := by linarith
  have zi : c i 4 = H - c i 0 := by linarith
  rw [z0, z1, z2, zi]
  generalize srcOther t c ghost halo i 0 0 = p0 at *
  generalize srcOther t c ghost halo i 1 0 = p1 at *
  generalize srcOther t c ghost halo i 2 0 = p2 at *
  generalize c i 0 = q at *
  have x2 : t.nf i 2 0 = -t.nf i 0 0 - t.nf i 1 0 := by linarith
  have y2 : t.nf i 2 1 = -t.nf i 0 1 - t.nf i 1 1 := by linarith
  obtain ⟨D, hD⟩ : ∃ D, D = (p1 * t.nf i 1 0 * (p2 * t.nf i 2 1) - p2 * t.nf i 2 0 * (p1 * t.nf i 1 1))
      - (p0 * t.nf i 0 0 * (p2 * t.nf i 2 1) - p0 * t.nf i 0 1 * (p2 * t.nf i 2 0))
      + (p0 * t.nf i 0 0 * (p1 * t.nf i 1 1) - p0 * t.nf i 0 1 * (p1 * t.nf i 1 0)) := ⟨_, rfl⟩
  have hDne : D ≠ 0 := by
    have : D = (t.nf i 0 0 * t.nf i 1 1 - t.nf i 0 1 * t.nf i 1 0) * (p1 * p2 + p0 * p2 + p0 * p1) := by rw [hD, x2, y2]; ring
    rw [this]; exact mul_ne_zero harea (by positivity)
  rw [← hD]
  obtain ⟨c1, hc1⟩ : ∃ c1, c1 = 0 + 0.5 * (q + p0) * 0.5 * (q + p0) * t.nf i 0 0 + 0.5 * (q + p1) * 0.5 * (q + p1) * t.nf i 1 0
      + 0.5 * (q + p2) * 0.5 * (q + p2) * t.nf i 2 0 := ⟨_, rfl⟩
  obtain ⟨c2, hc2⟩ : ∃ c2, c2 = 0 + 0.5 * (q + p0) * 0.5 * (q + p0) * t.nf i 0 1 + 0.5 * (q + p1) * 0.5 * (q + p1) * t.nf i 1 1
      + 0.5 * (q + p2) * 0.5 * (q + p2) * t.nf i 2 1 := ⟨_, rfl⟩
  rw [← hc1, ← hc2]
  obtain ⟨X, hX⟩ : ∃ X, X = 3 * q * (p1 * t.nf i 1 0 * (p2 * t.nf i 2 1) - p2 * t.nf i 2 0 * (p1 * t.nf i 1 1))
      - (c1 * (p2 * t.nf i 2 1) - c2 * (p2 * t.nf i 2 0)) + (c1 * (p1 * t.nf i 1 1) - c2 * (p1 * t.nf i 1 0)) := ⟨_, rfl⟩
  obtain ⟨Y, hY⟩ : ∃ Y, Y = (c1 * (p2 * t.nf i 2 1) - c2 * (p2 * t.nf i 2 0))
      - 3 * q * (p0 * t.nf i 0 0 * (p2 * t.nf i 2 1) - p0 * t.nf i 0 1 * (p2 * t.nf i 2 0)) + (p0 * t.nf i 0 0 * c2 - p0 * t.nf i 0 1 * c1) := ⟨_, rfl⟩
  obtain ⟨Z, hZ⟩ : ∃ Z, Z = (p1 * t.nf i 1 0 * c2 - p1 * t.nf i 1 1 * c1) - (p0 * t.nf i 0 0 * c2 - p0 * t.nf i 0 1 * c1)
      + 3 * q * (p0 * t.nf i 0 0 * (p1 * t.nf i 1 1) - p0 * t.nf i 0 1 * (p1 * t.nf i 1 0)) := ⟨_, rfl⟩
  rw [← hX, ← hY, ← hZ]
  have cramer0 : X / D * p0 * t.nf i 0 0 + Y / D * p1 * t.nf i 1 0 + Z / D * p2 * t.nf i 2 0 = c1 := by
    apply mul_right_cancel₀ hDne
    have : (X / D * p0 * t.nf i 0 0 + Y / D * p1 * t.nf i 1 0 + Z / D * p2 * t.nf i 2 0) * D
        = X * p0 * t.nf i 0 0 + Y * p1 * t.nf i 1 0 + Z * p2 * t.nf i 2 0 := by field_simp
    rw [this, hX, hY, hZ, hD]; ring
  have cramer1 : X / D * p0 * t.nf i 0 1 + Y / D * p1 * t.nf i 1 1 + Z / D * p2 * t.nf i 2 1 = c2 := by
    apply mul_right_cancel₀ hDne
    have : (X / D * p0 * t.nf i 0 1 + Y / D * p1 * t.nf i 1 1 + Z / D * p2 * t.nf i 2 1) * D
        = X * p0 * t.nf i 0 1 + Y * p1 * t.nf i 1 1 + Z * p2 * t.nf i 2 1 := by field_simp
    rw [this, hX, hY, hZ, hD]; ring
  generalize X / D = x at *
  generalize Y / D = y at *
  generalize Z / D = z at *
  have hsk : t.nf i 2 k = -t.nf i 0 k - t.nf i 1 k := by linarith
  have cramer : x * p0 * t.nf i 0 k + y * p1 * t.nf i 1 k + z * p2 * t.nf i 2 k
      = ((q + p0) / 2) ^ 2 * t.nf i 0 k + ((q + p1) / 2) ^ 2 * t.nf i 1 k + ((q + p2) / 2) ^ 2 * t.nf i 2 k := by
    interval_cases k
    · rw [cramer0, hc1]; ring
    · rw [cramer1, hc2]; ring
  rw [← cramer]
  generalize (if k = 0 then t.center i 1 - t.vertex1 i 1 else if k = 1 then -(t.center i 0 - t.vertex1 i 0) else 0) = N
  rw [hsk]
  ring

/-- The flux a face carries, by its label. -/
noncomputable def faceFlux (a : Args) (t : CellTabs) (i : Nat) : W5 :=
  if t.namef i = 10 then haloFlux a i else if t.namef i = 0 then innerFlux a i else boundaryFlux a i

theorem sum_filter_ite (l : List Nat) (P : Nat → Prop) [DecidablePred P] (F : Nat → W5) :
    (l.map (fun i => if P i then F i else 0)).sum = ((l.filter (fun i => P i)).map F).sum := by
  induction l with
  | nil => rfl
  | cons a l ih => by_cases h : P a <;> simp [h, ih]

/-- On a triangulation the residual of a cell is minus the outward fluxes of its three faces. -/
theorem convective_three (a : Args) (t : CellTabs) (n : Nat) (h : TriMesh a t n) (c : Nat) (hc : c < n) :
    a.convective c = -((if a.cell0 (t.faceid c 0) = c then faceFlux a t (t.faceid c 0) else -faceFlux a t (t.faceid c 0))
      + (if a.cell0 (t.faceid c 1) = c then faceFlux a t (t.faceid c 1) else -faceFlux a t (t.faceid c 1))
      + (if a.cell0 (t.faceid c 2) = c then faceFlux a t (t.faceid c 2) else -faceFlux a t (t.faceid c 2))) := by
  obtain ⟨G, hG⟩ : ∃ G : Nat → W5, G = fun i => if a.cell0 i = c then -faceFlux a t i else faceFlux a t i := ⟨_, rfl⟩
  have hp := ((h.faces c hc).map G).sum_eq
  rw [List.map_append, List.map_append, List.sum_append, List.sum_append, ← sum_filter_ite, ← sum_filter_ite, ← sum_filter_ite] at hp
  have e1 : (a.innerfaces.map (fun i => if a.cell0 i = c ∨ a.cell1 i = c then G i else 0)).sum
      = (a.innerfaces.map (fun i => (if a.cell1 i = c then innerFlux a i else 0) - (if a.cell0 i = c then innerFlux a i else 0))).sum := by
    apply list_map_sum_congr
    intro i hi
    have hn := h.nameInner i hi
    have hd := h.distinct i hi
    have hf : faceFlux a t i = innerFlux a i := by simp [faceFlux, hn]
    rw [hG]
    simp only [hf]
    by_cases h0 : a.cell0 i = c
    · have h1 : a.cell1 i ≠ c := fun e => hd (by rw [h0, e])
      simp [h0, h1]
    · by_cases h1 : a.cell1 i = c <;> simp [h0, h1]
  have e2 : (a.halofaces.map (fun i => if a.cell0 i = c then G i else 0)).sum
      = (a.halofaces.map (fun i => -(if a.cell0 i = c then haloFlux a i else 0))).sum := by
    apply list_map_sum_congr
    intro i hi
    have hf : faceFlux a t i = haloFlux a i := by simp [faceFlux, h.nameHalo i hi]
    rw [hG]
    simp only [hf]
    by_cases h0 : a.cell0 i = c <;> simp [h0]
  have e3 : (a.boundaryfaces.map (fun i => if a.cell0 i = c then G i else 0)).sum
      = (a.boundaryfaces.map (fun i => -(if a.cell0 i = c then boundaryFlux a i else 0))).sum := by
    apply list_map_sum_congr
    intro i hi
    have hf : faceFlux a t i = boundaryFlux a i := by simp [faceFlux, h.nameBnd i hi]
    rw [hG]
    simp only [hf]
    by_cases h0 : a.cell0 i = c <;> simp [h0]
  rw [convective_eq, ← e1, ← e2, ← e3, hp, hG]
  simp only [List.map_cons, List.map_nil, List.sum_cons, List.sum_nil, add_zero]
  split_ifs <;> abel

/-- The reconstruction does not change depth, momentum and bottom: order 1, or zero gradients of the depth. -/
def NoRecon (a : Args) : Prop := a.order = 1 ∨ ((∀ c, a.h_x c = 0 ∧ a.h_y c = 0) ∧ ∀ h, a.hx_halo h = 0 ∧ a.hy_halo h = 0)

theorem fromCell_rest (a : Args) (h : NoRecon a) (c i : Nat) (H : ℝ) (hr : Rest H (a.c c)) :
    Rest H (a.fromCell c i) ∧ a.fromCell c i 0 = a.c c 0 := by
  have e : a.fromCell c i 0 = a.c c 0 := by
    simp only [Args.fromCell, Args.recon]
    rcases h with h | ⟨h, -⟩
    · simp [h]
    · simp [(h c).1, (h c).2]
  exact ⟨⟨by rw [e]; exact hr.1, hr.2.1, hr.2.2.1, by rw [e]; exact hr.2.2.2⟩, e⟩

theorem fromHalo_rest (a : Args) (h : NoRecon a) (c i : Nat) (H : ℝ) (hr : Rest H (a.halo c)) :
    Rest H (a.fromHalo c i) ∧ a.fromHalo c i 0 = a.halo c 0 := by
  have e : a.fromHalo c i 0 = a.halo c 0 := by
    simp only [Args.fromHalo, Args.recon]
    rcases h with h | ⟨-, h⟩
    · simp [h]
    · simp [(h c).1, (h c).2]
  exact ⟨⟨by rw [e]; exact hr.1, hr.2.1, hr.2.2.1, by rw [e]; exact hr.2.2.2⟩, e⟩

theorem faceid_mem (a : Args) (t : CellTabs) (n : Nat) (h : TriMesh a t n) (c : Nat) (hc : c < n) (j : Nat) (hj : j < 3) :
    (t.faceid c j ∈ a.innerfaces ∧ (a.cell0 (t.faceid c j) = c ∨ a.cell1 (t.faceid c j) = c))
    ∨ (t.faceid c j ∈ a.halofaces ∧ a.cell0 (t.faceid c j) = c) ∨ (t.faceid c j ∈ a.boundaryfaces ∧ a.cell0 (t.faceid c j) = c) := by
  have : t.faceid c j ∈ [t.faceid c 0, t.faceid c 1, t.faceid c 2] := by interval_cases j <;> simp
  have := (h.faces c hc).mem_iff.2 this
  simpa [List.mem_append, List.mem_filter, or_assoc] using this

/-- Outward flux through face `j` of a cell of a lake at rest: pressure of the mean depth on the outward normal. -/
theorem faceFlux_rest (a : Args) (t : CellTabs) (n : Nat) (H : ℝ) (h : TriMesh a t n) (ho : NoRecon a) (hr : LakeAtRest a a.c n H)
    (c : Nat) (hc : c < n) (j : Nat) (hj : j < 3) :
    Rest H (srcOther t a.c a.ghost a.halo c j) ∧
    (if a.cell0 (t.faceid c j) = c then faceFlux a t (t.faceid c j) else -faceFlux a t (t.faceid c j))
      = ![0, g0 / 2 * ((a.c c 0 + srcOther t a.c a.ghost a.halo c j 0) / 2) ^ 2 * t.nf c j 0,
          g0 / 2 * ((a.c c 0 + srcOther t a.c a.ghost a.halo c j 0) / 2) ^ 2 * t.nf c j 1, 0, 0] := by
  have hg : (0 : ℝ) < g0 := by norm_num [g0]
  have hn0 := h.normal c hc j hj 0 (by norm_num)
  have hn1 := h.normal c hc j hj 1 (by norm_num)
  rcases faceid_mem a t n h c hc j hj with ⟨hi, hcc⟩ | ⟨hi, hcc⟩ | ⟨hi, hcc⟩
  · have hname := h.nameInner _ hi
    have hoth := h.other c hc j hj hname
    have hs : srcOther t a.c a.ghost a.halo c j = a.c (t.cellfid c j) := by simp [srcOther, hname]
    have hF : faceFlux a t (t.faceid c j) = innerFlux a (t.faceid c j) := by simp [faceFlux, hname]
    have c0 := hr.cell _ (h.cells.inner0 _ hi)
    have c1 := hr.cell _ (h.cells.inner1 _ hi)
    rw [hs, hF, hoth, hn0, hn1]
    obtain ⟨u0, v0⟩ := fromCell_rest a ho _ (t.faceid c j) H c0
    obtain ⟨u1, v1⟩ := fromCell_rest a ho _ (t.faceid c j) H c1
    have hflux := srnh_rest _ _ (a.normalf (t.faceid c j)) (a.mesuref (t.faceid c j)) g0 H hg u0 u1
    rw [v0, v1] at hflux
    by_cases h0 : a.cell0 (t.faceid c j) = c
    · simp only [h0, if_true]
      refine ⟨c1, ?_⟩
      rw [innerFlux, hflux, h0]
    · have h1 : a.cell1 (t.faceid c j) = c := hcc.resolve_left h0
      simp only [h0, if_false]
      refine ⟨c0, ?_⟩
      rw [innerFlux, hflux, h1, add_comm (a.c (a.cell0 (t.faceid c j)) 0) (a.c c 0)]
      funext k
      fin_cases k <;> simp
  · have hname := h.nameHalo _ hi
    have hs : srcOther t a.c a.ghost a.halo c j = a.halo (a.halofid (t.faceid c j)) := by simp [srcOther, hname, h.halofid _ hi]
    have hF : faceFlux a t (t.faceid c j) = haloFlux a (t.faceid c j) := by simp [faceFlux, hname]
    rw [hs, hF, hn0, hn1]
    simp only [hcc, if_true]
    refine ⟨hr.halo _ hi, ?_⟩
    obtain ⟨u0, v0⟩ := fromCell_rest a ho c (t.faceid c j) H (hr.cell c hc)
    obtain ⟨u1, v1⟩ := fromHalo_rest a ho _ (t.faceid c j) H (hr.halo _ hi)
    rw [haloFlux, hcc, srnh_rest _ _ _ _ g0 H hg u0 u1, v0, v1]
  · have hname := h.nameBnd _ hi
    have hs : srcOther t a.c a.ghost a.halo c j = a.ghost (t.faceid c j) := by simp [srcOther, hname]
    have hF : faceFlux a t (t.faceid c j) = boundaryFlux a (t.faceid c j) := by simp [faceFlux, hname]
    rw [hs, hF, hn0, hn1]
    simp only [hcc, if_true]
    refine ⟨hr.ghost _ hi, ?_⟩
    obtain ⟨u0, v0⟩ := fromCell_rest a ho c (t.faceid c j) H (hr.cell c hc)
    rw [boundaryFlux, hcc, srnh_rest _ _ _ _ g0 H hg u0 (hr.ghost _ hi), v0]

/-- On a triangulation, for a lake at rest without reconstruction, residual and bottom source cancel in every cell and component. -/
theorem residual_balances_source (a : Args) (t : CellTabs) (n : Nat) (H : ℝ) (h : TriMesh a t n) (ho : NoRecon a)
    (hr : LakeAtRest a a.c n H) (c : Nat) (hc : c < n) (k : Fin 5) :
    a.convective c k + source t a.c a.ghost a.halo c k = 0 := by
  have f0 := faceFlux_rest a t n H h ho hr c hc 0 (by norm_num)
  have f1 := faceFlux_rest a t n H h ho hr c hc 1 (by norm_num)
  have f2 := faceFlux_rest a t n H h ho hr c hc 2 (by norm_num)
  have hoth : ∀ j < 3, Rest H (srcOther t a.c a.ghost a.halo c j) := by
    intro j hj; interval_cases j
    exacts [f0.1, f1.1, f2.1]
  rw [convective_three a t n h c hc, f0.2, f1.2, f2.2]
  have s0 := source_rest t a.c a.ghost a.halo c H 0 (by norm_num) (hr.cell c hc) hoth (h.closed c hc) (h.area c hc)
  have s1 := source_rest t a.c a.ghost a.halo c H 1 (by norm_num) (hr.cell c hc) hoth (h.closed c hc) (h.area c hc)
  simp only [source, s0, s1]
  fin_cases k
  · simp
  · simp; ring
  · simp; ring
  · simp
  · simp

/-- Friction leaves a state at rest as it is. -/
theorem friction_rest (w : W5) (g eta time : ℝ) (h1 : w 1 = 0) (h2 : w 2 = 0) : friction w g eta time = w := by
  funext k; simp only [friction, h1, h2, zero_div]; fin_cases k <;> simp [h1, h2]

/-- **C56** (balance): on a triangulation, for a lake at rest at order 1, residual and bottom source cancel in every cell and component. -/
theorem C56_residual_balances_source (a : Args) (t : CellTabs) (n : Nat) (H : ℝ) (h : TriMesh a t n) (ho : a.order = 1)
    (hr : LakeAtRest a a.c n H) (c : Nat) (hc : c < n) (k : Fin 5) :
    a.convective c k + source t a.c a.ghost a.halo c k = 0 :=
  residual_balances_source a t n H h (.inl ho) hr c hc k

theorem lake_step (w : Nat → W5) (d : StepData) (n : Nat) (H : ℝ) (h : TriMesh d.ext d.cells n) (ho : NoRecon d.ext)
    (hr : LakeAtRest d.ext w n H) (c : Nat) (hc : c < n) (k : Fin 5) (hk : k ≠ 3) : step w d c k = w c k := by
  obtain ⟨a, ha⟩ : ∃ a, a = { d.ext with c := fun i => friction (w i) g0 d.mann d.time_step } := ⟨_, rfl⟩
  have hfr : ∀ i < n, a.c i = w i := by
    intro i hi
    rw [ha]
    exact friction_rest _ _ _ _ (hr.cell i hi).2.1 (hr.cell i hi).2.2.1
  have hlake : LakeAtRest a a.c n H := by
    refine ⟨fun i hi => by rw [hfr i hi]; exact hr.cell i hi, fun i hi => ?_, fun i hi => ?_⟩
    · rw [ha] at hi ⊢; exact hr.ghost i hi
    · rw [ha] at hi ⊢; exact hr.halo i hi
  have hmesh : TriMesh a d.cells n := by
    rw [ha]
    exact ⟨⟨h.cells.inner0, h.cells.inner1, h.cells.halo0, h.cells.bnd0⟩, h.distinct, h.faces, h.normal, h.nameInner, h.nameHalo, h.nameBnd,
      h.halofid, h.other, h.closed, h.area⟩
  have hb := residual_balances_source a d.cells n H hmesh (by rw [ha]; exact ho) hlake c hc
  have hstep : step w d c = updateCell (a.c c) (a.convective c) (source d.cells a.c a.ghost a.halo c) (d.dissip_hc c)
      (coriolis (a.c c) d.fc) (0, 0) d.time_step (d.volume c) := by rw [ha]; rfl
  rw [hstep, hfr c hc]
  have r1 := (hr.cell c hc).2.1
  have r2 := (hr.cell c hc).2.2.1
  have b0 := hb 0; have b1 := hb 1; have b2 := hb 2; have b4 := hb 4
  simp only [updateCell, coriolis, b0, b1, b2, b4]
  fin_cases k
  · simp [b0]
  · simp [b1, r1]
  · simp [b2, r2]
  · exact absurd rfl hk
  · simp [b4]

/-- **C56** (lake at rest): one step with bottom source, friction and Coriolis leaves depth, momentum and bottom of every cell unchanged, for
every bottom, every time step, every Manning and Coriolis coefficient. -/
theorem C56_lake_at_rest (w : Nat → W5) (d : StepData) (n : Nat) (H : ℝ) (h : TriMesh d.ext d.cells n) (ho : d.ext.order = 1)
    (hr : LakeAtRest d.ext w n H) (c : Nat) (hc : c < n) (k : Fin 5) (hk : k ≠ 3) : step w d c k = w c k :=
  lake_step w d n H h (.inl ho) hr c hc k hk

/-- **C78** (partial): at any order the lake stays at rest where the computed gradients of the depth vanish (flat bottom). -/
theorem C78_flat_bottom_partial (w : Nat → W5) (d : StepData) (n : Nat) (H : ℝ) (h : TriMesh d.ext d.cells n)
    (hg : (∀ c, d.ext.h_x c = 0 ∧ d.ext.h_y c = 0) ∧ ∀ i, d.ext.hx_halo i = 0 ∧ d.ext.hy_halo i = 0)
    (hr : LakeAtRest d.ext w n H) (c : Nat) (hc : c < n) (k : Fin 5) (hk : k ≠ 3) : step w d c k = w c k :=
  lake_step w d n H h (.inr hg) hr c hc k hk

/-- **C56** (any number of steps): a lake at rest stays at rest for ever, as long as ghosts and halo cells are at rest with the same free
surface (as they are when filled from the cells: Neumann, slip and wall conditions). -/
theorem C56_lake_at_rest_forever (n : Nat) (H : ℝ) (ds : List StepData)
    (hd : ∀ d ∈ ds, TriMesh d.ext d.cells n ∧ d.ext.order = 1 ∧ (∀ i ∈ d.ext.boundaryfaces, Rest H (d.ext.ghost i))
      ∧ (∀ i ∈ d.ext.halofaces, Rest H (d.ext.halo (d.ext.halofid i))))
    (w : Nat → W5) (hw : ∀ c < n, Rest H (w c)) (c : Nat) (hc : c < n) (k : Fin 5) (hk : k ≠ 3) : (ds.foldl step w) c k = w c k := by
  induction ds generalizing w with
  | nil => rfl
  | cons d ds ih =>
    obtain ⟨h1, h2, h3, h4⟩ := hd d (by simp)
    have hst : ∀ c < n, ∀ k : Fin 5, k ≠ 3 → step w d c k = w c k :=
      fun c hc k hk => C56_lake_at_rest w d n H h1 h2 ⟨hw, h3, h4⟩ c hc k hk
    rw [List.foldl_cons, ih (fun d' hd' => hd d' (by simp [hd'])) (step w d) ?_, hst c hc k hk]
    intro c hc
    obtain ⟨r0, r1, r2, r4⟩ := hw c hc
    refine ⟨?_, ?_, ?_, ?_⟩
    · rw [hst c hc 0 (by decide)]; exact r0
    · rw [hst c hc 1 (by decide)]; exact r1
    · rw [hst c hc 2 (by decide)]; exact r2
    · rw [hst c hc 0 (by decide), hst c hc 4 (by decide)]; exact r4

/-! ## C78 second order -/

/-- Mass flux between two states without velocity: `-½ c Δ(h + Z)` times the length of the face. -/
theorem srnh_still_mass (l r : W5) (n : Nat → ℝ) (mes g : ℝ) (hg : 0 < g) (hm : mes ≠ 0) (hmes : mes ^ 2 = n 0 ^ 2 + n 1 ^ 2)
    (hl : 0 < l 0) (hr : 0 < r 0) (l1 : l 1 = 0) (l2 : l 2 = 0) (r1 : r 1 = 0) (r2 : r 2 = 0)
    (hc : 1e-10 ≤ Real.sqrt (g * ((l 0 + r 0) / 2))) :
    srnh l r n mes g 0 = -(1 / 2) * Real.sqrt (g * ((l 0 + r 0) / 2)) * ((r 0 + r 4) - (l 0 + l 4)) * mes := by
  have hh : 0 < g * ((l 0 + r 0) / 2) := by positivity
  have hu : uRoe l r n mes = 0 := by simp [uRoe, roeAvg, l1, l2, r1, r2]
  have hv : vRoe l r n mes = 0 := by simp [vRoe, roeAvg, l1, l2, r1, r2]
  have he := C53_eigenvalues g ((l 0 + r 0) / 2) 0 0 hh
  have hc0 := Real.sqrt_pos.2 hh
  have key : predict l r n mes g 1 = -(1 / 2) * Real.sqrt (g * ((l 0 + r 0) / 2)) * ((r 0 + r 4) - (l 0 + l 4))
      ∧ predict l r n mes g 2 = 0 := by
    simp only [predict, beta_zero, hu, hv, he]
    generalize Real.sqrt (g * ((l 0 + r 0) / 2)) = c at *
    rw [rmat_mul, rmat_mul]
    have e1 : max 0 (0 + c) = c := by rw [zero_add, max_eq_right hc0.le]
    have e2 : min 0 (0 - c) = -c := by rw [zero_sub, min_eq_right (by linarith)]
    rw [e1, e2]
    have e3 : (2 : ℝ) * 0 - c - -c = 0 := by ring
    rw [e3, sgn_neg, sgn_zero]
    have hs : sgn c = 1 := by
      rw [sgn, abs_of_pos hc0, if_neg (by linarith), div_self hc0.ne']
    rw [hs]
    have z1 : ∑ j, leftVec (-c) 0 0 c ((c - -c) * (c - 0)) j * (rotate r n mes j - rotate l n mes j) = ((r 0 + r 4) - (l 0 + l 4)) / 2 := by
      simp only [Fin.sum_univ_five, leftVec, rotate]
      simp [l1, l2, r1, r2]
      field_simp
      ring
    have z2 : ∑ j, leftVec c 0 0 c ((c - -c) * (-c - 0)) j * (rotate r n mes j - rotate l n mes j) = -(((r 0 + r 4) - (l 0 + l 4)) / 2) := by
      simp only [Fin.sum_univ_five, leftVec, rotate]
      simp [l1, l2, r1, r2]
      field_simp
      ring
    rw [z1, z2]
    constructor
    · simp [eigVec, rotate, l1, l2, r1, r2]; ring
    · simp [eigVec, rotate, l1, l2, r1, r2]
  obtain ⟨k1, k2⟩ := key
  have : srnh l r n mes g 0 = n 0 * ((predict l r n mes g 1 * n 0 + predict l r n mes g 2 * -1 * n 1) / mes)
      + n 1 * ((predict l r n mes g 1 * -1 * (-1 * n 1) + predict l r n mes g 2 * n 0) / mes) := rfl
  rw [this, k2, k1]
  generalize Real.sqrt (g * ((l 0 + r 0) / 2)) = c
  field_simp
  linear_combination c * ((r 0 + r 4) - (l 0 + l 4)) * hmes

/-- **C78** (refutation): at order 2 the depth is reconstructed but the bottom is not.  With a lake at rest over a linear bottom, exact gradients
and an inactive limiter, there is a flow of water through every inner face whose two cells have different bottoms: the lake does not stay at rest. -/
theorem C78_order2_disturbs_lake (a : Args) (i : Nat) (H h0 gx gy : ℝ) (ho : a.order = 2)
    (hm : a.mesuref i ≠ 0) (hmes : a.mesuref i ^ 2 = a.normalf i 0 ^ 2 + a.normalf i 1 ^ 2)
    (hrest : ∀ c ∈ [a.cell0 i, a.cell1 i], Rest H (a.c c))
    (hlin : ∀ c ∈ [a.cell0 i, a.cell1 i], a.c c 0 = h0 + gx * a.centerc c 0 + gy * a.centerc c 1 ∧ a.h_x c = gx ∧ a.h_y c = gy ∧ a.psi c = 1)
    (hf : 1 ≤ h0 + gx * a.centerf i 0 + gy * a.centerf i 1) (hz : a.c (a.cell0 i) 4 ≠ a.c (a.cell1 i) 4) :
    innerFlux a i 0 ≠ 0 := by
  obtain ⟨l0, l1, l2, l4⟩ := hrest _ (by simp : a.cell0 i ∈ [a.cell0 i, a.cell1 i])
  obtain ⟨r0, r1, r2, r4⟩ := hrest _ (by simp : a.cell1 i ∈ [a.cell0 i, a.cell1 i])
  obtain ⟨la, lb, lc, ld⟩ := hlin _ (by simp : a.cell0 i ∈ [a.cell0 i, a.cell1 i])
  obtain ⟨ra, rb, rc, rd⟩ := hlin _ (by simp : a.cell1 i ∈ [a.cell0 i, a.cell1 i])
  obtain ⟨F, hF⟩ : ∃ F, F = h0 + gx * a.centerf i 0 + gy * a.centerf i 1 := ⟨_, rfl⟩
  have L0 : a.fromCell (a.cell0 i) i 0 = F := by
    simp only [Args.fromCell, Args.recon, ho, lb, lc, ld]; simp [la]; rw [hF]; ring
  have R0 : a.fromCell (a.cell1 i) i 0 = F := by
    simp only [Args.fromCell, Args.recon, ho, rb, rc, rd]; simp [ra]; rw [hF]; ring
  rw [← hF] at hf
  have hsq : (1 : ℝ) ≤ Real.sqrt (g0 * ((F + F) / 2)) := by
    rw [show (1 : ℝ) = Real.sqrt 1 by simp]
    apply Real.sqrt_le_sqrt
    rw [g0]; linarith
  have := srnh_still_mass (a.fromCell (a.cell0 i) i) (a.fromCell (a.cell1 i) i) (a.normalf i) (a.mesuref i) g0 (by norm_num [g0]) hm hmes
    (by rw [L0]; linarith) (by rw [R0]; linarith) l1 l2 r1 r2 (by rw [L0, R0]; linarith)
  rw [innerFlux, this, L0, R0]
  have z0 : a.fromCell (a.cell0 i) i 4 = a.c (a.cell0 i) 4 := rfl
  have z1 : a.fromCell (a.cell1 i) i 4 = a.c (a.cell1 i) 4 := rfl
  rw [z0, z1]
  refine mul_ne_zero (mul_ne_zero (mul_ne_zero (by norm_num) (by linarith)) ?_) hm
  intro e
  exact hz (by linarith)

/-! ### A concrete lake: the unit square cut into two triangles, bottoms 0 and 1, free surface 3 -/

/-- Unit square: cells `T0 = (0,1,2)`, `T1 = (0,2,3)`; faces 0 bottom, 1 right, 2 inner (from `T0` to `T1`), 3 top, 4 left. -/
noncomputable def exArgs : Args where
  c := fun i => if i = 0 then ![3, 0, 0, 0, 0] else ![2, 0, 0, 5, 1]
  ghost := fun f => if f = 0 ∨ f = 1 then ![3, 0, 0, 0, 0] else ![2, 0, 0, 5, 1]
  halo := fun _ => 0
  h_x := fun _ => 0
  h_y := fun _ => 0
  hc_x := fun _ => 0
  hc_y := fun _ => 0
  psi := fun _ => 1
  hx_halo := fun _ => 0
  hy_halo := fun _ => 0
  hcx_halo := fun _ => 0
  hcy_halo := fun _ => 0
  psi_halo := fun _ => 1
  centerc := fun c k => if k = 2 then 0 else if c = k then 2/3 else 1/3
  centerf := fun i k => match i, k with
    | 0, 0 => 1/2 | 1, 0 => 1 | 1, 1 => 1/2 | 2, 0 => 1/2 | 2, 1 => 1/2 | 3, 0 => 1/2 | 3, 1 => 1 | 4, 1 => 1/2 | _, _ => 0
  centerh := fun _ _ => 0
  cell0 := fun f => if f = 0 ∨ f = 1 ∨ f = 2 then 0 else 1
  cell1 := fun _ => 1
  mesuref := fun f => if f = 2 then Real.sqrt 2 else 1
  normalf := fun i k => match i, k with
    | 0, 1 => -1 | 1, 0 => 1 | 2, 0 => -1 | 2, 1 => 1 | 3, 1 => 1 | 4, 0 => -1 | _, _ => 0
  halofid := fun _ => 0
  innerfaces := [2]
  halofaces := []
  boundaryfaces := [0, 1, 3, 4]
  order := 1

noncomputable def exCells : CellTabs where
  faceid := fun c j => match c, j with | 0, 0 => 0 | 0, 1 => 1 | 0, 2 => 2 | 1, 0 => 2 | 1, 1 => 3 | 1, 2 => 4 | _, _ => 0
  cellfid := fun c _ => if c = 0 then 1 else 0
  nf := fun c j k => match c, j, k with
    | 0, 0, 1 => -1 | 0, 1, 0 => 1 | 0, 2, 0 => -1 | 0, 2, 1 => 1
    | 1, 0, 0 => 1 | 1, 0, 1 => -1 | 1, 1, 1 => 1 | 1, 2, 0 => -1 | _, _, _ => 0
  center := exArgs.centerc
  vertex1 := fun c k => if k = 0 ∨ (c = 1 ∧ k = 1) then 1 else 0
  namef := fun f => match f with | 0 => 3 | 1 => 2 | 3 => 4 | 4 => 1 | _ => 0
  halofid := fun _ => 0

theorem exMesh : TriMesh exArgs exCells 2 where
  cells := by constructor <;> simp [exArgs]
  distinct := by simp [exArgs]
  faces := by
    intro c hc
    interval_cases c
    · simp [exArgs, exCells]; decide
    · simp [exArgs, exCells]
  normal := by
    intro c hc j hj k hk
    interval_cases c <;> interval_cases j <;> interval_cases k <;> simp [exArgs, exCells]
  nameInner := by simp [exArgs, exCells]
  nameHalo := by simp [exArgs, exCells]
  nameBnd := by simp [exArgs, exCells]
  halofid := by simp [exArgs, exCells]
  other := by
    intro c hc j hj
    interval_cases c <;> interval_cases j <;> simp [exArgs, exCells]
  closed := by
    intro c hc k hk
    interval_cases c <;> interval_cases k <;> simp [exCells]
  area := by
    intro c hc
    interval_cases c <;> simp [exCells]

theorem exLake : LakeAtRest exArgs exArgs.c 2 3 where
  cell := by intro c hc; interval_cases c <;> simp [exArgs, Rest] <;> norm_num
  ghost := by
    intro i hi
    simp [exArgs] at hi
    rcases hi with rfl | rfl | rfl | rfl <;> simp [exArgs, Rest] <;> norm_num
  halo := by simp [exArgs]

/-- The hypotheses of C56 hold for the concrete lake with a step of 1/10 and friction, Coriolis and tracer dissipation switched on. -/
example : ∀ c < 2, ∀ k : Fin 5, k ≠ 3 →
    ([{ ext := exArgs, cells := exCells, volume := fun _ => 1/2, dissip_hc := fun _ => 7, mann := 2, fc := 3, time_step := 1/10 },
      { ext := exArgs, cells := exCells, volume := fun _ => 1/2, dissip_hc := fun _ => 1, mann := 2, fc := 3, time_step := 1/5 }].foldl
      step exArgs.c) c k = exArgs.c c k := by
  intro c hc k hk
  refine C56_lake_at_rest_forever 2 3 _ ?_ exArgs.c exLake.cell c hc k hk
  intro d hd
  simp only [List.mem_cons, List.not_mem_nil, or_false] at hd
  rcases hd with rfl | rfl <;> exact ⟨exMesh, rfl, exLake.ghost, exLake.halo⟩

/-- Two ranks, one triangle each: the diagonal is a halo face on both. -/
noncomputable def exRank (q : Nat) : Args :=
  { exArgs with
    c := fun _ => if q = 0 then ![3, 1, 2, 0, 0] else ![2, 4, -1, 5, 1]
    halo := fun _ => if q = 0 then ![2, 4, -1, 5, 1] else ![3, 1, 2, 0, 0]
    centerc := fun _ => exArgs.centerc q
    centerh := fun _ => exArgs.centerc (1 - q)
    cell0 := fun _ => 0
    normalf := fun i k => if q = 0 then exArgs.normalf i k else if i = 2 then -exArgs.normalf i k else exArgs.normalf i k
    innerfaces := []
    halofaces := [2]
    boundaryfaces := if q = 0 then [0, 1] else [3, 4] }

theorem exPairing : RankPairing 2 exRank (fun x => (1 - x.1, x.2)) where
  nodup := by intro q hq; simp [exRank]
  rank := by intro q hq f hf; simp
  mem := by intro q hq f hf; simpa [exRank] using hf
  invol := by intro q hq f hf; simp; omega
  order := by intro q hq f hf; simp [exRank]
  point := by intro q hq f hf; simp [exRank]
  seen := by
    intro q hq f hf
    simp [exRank] at hf; subst hf
    interval_cases q <;> constructor <;> simp [exRank, exArgs]
  normal := by
    intro q hq f hf
    simp [exRank] at hf; subst hf
    interval_cases q <;> (funext k; simp [exRank, flipN])
  length := by intro q hq f hf; simp [exRank]

example : ∀ q < 2, CellsOK (exRank q) 1 := by
  intro q hq
  constructor <;> simp [exRank]

/-! ## C57 friction -/

theorem friction_factor (w : W5) (g eta time : ℝ) (hg : 0 ≤ g) (ht : 0 ≤ time) (hh : 0 < w 0) :
    1 ≤ 1 + g * time * eta ^ 2 * Real.sqrt ((w 1 / w 0) ^ 2 + (w 2 / w 0) ^ 2) / (w 0 ^ ((4 : ℝ) / 3)) := by
  have : 0 ≤ g * time * eta ^ 2 * Real.sqrt ((w 1 / w 0) ^ 2 + (w 2 / w 0) ^ 2) / (w 0 ^ ((4 : ℝ) / 3)) := by
    have := Real.rpow_pos_of_pos hh ((4 : ℝ) / 3)
    positivity
  linarith

/-- **C57**: friction divides the momentum by one number `A ≥ 1` (same direction, not larger), and leaves depth, tracer and bottom alone. -/
theorem C57_friction_dissipative (w : W5) (g eta time : ℝ) (hg : 0 ≤ g) (ht : 0 ≤ time) (hh : 0 < w 0) :
    ∃ A : ℝ, 1 ≤ A ∧ friction w g eta time = ![w 0, w 1 / A, w 2 / A, w 3, w 4]
      ∧ |friction w g eta time 1| ≤ |w 1| ∧ |friction w g eta time 2| ≤ |w 2| := by
  have hA := friction_factor w g eta time hg ht hh
  refine ⟨_, hA, rfl, ?_, ?_⟩
  · show |w 1 / _| ≤ |w 1|
    rw [abs_div]; exact div_le_self (abs_nonneg _) (hA.trans (le_abs_self _))
  · show |w 2 / _| ≤ |w 2|
    rw [abs_div]; exact div_le_self (abs_nonneg _) (hA.trans (le_abs_self _))

/-- **C57**: friction is strictly dissipative on moving water with a nonzero Manning coefficient and time step. -/
theorem C57_friction_strict (w : W5) (g eta time : ℝ) (hg : 0 < g) (ht : 0 < time) (he : eta ≠ 0) (hh : 0 < w 0) (hm : w 1 ≠ 0) :
    |friction w g eta time 1| < |w 1| := by
  show |w 1 / _| < |w 1|
  have hs : 0 < Real.sqrt ((w 1 / w 0) ^ 2 + (w 2 / w 0) ^ 2) := by
    apply Real.sqrt_pos.2
    have : w 1 / w 0 ≠ 0 := div_ne_zero hm hh.ne'
    positivity
  have hp : 0 < g * time * eta ^ 2 * Real.sqrt ((w 1 / w 0) ^ 2 + (w 2 / w 0) ^ 2) / (w 0 ^ ((4 : ℝ) / 3)) := by
    have := Real.rpow_pos_of_pos hh ((4 : ℝ) / 3)
    have he2 : 0 < eta ^ 2 := by positivity
    positivity
  rw [abs_div]
  have h1 : (1 : ℝ) < |1 + g * time * eta ^ 2 * Real.sqrt ((w 1 / w 0) ^ 2 + (w 2 / w 0) ^ 2) / (w 0 ^ ((4 : ℝ) / 3))| := by
    rw [abs_of_pos (by linarith)]; linarith
  exact div_lt_self (abs_pos.2 hm) h1

/-! ## C58 Coriolis -/

/-- The power of the Coriolis term: `f (hu² - hv²)` per unit depth. -/
theorem C58_coriolis_power (w : W5) (f : ℝ) : (coriolis w f).1 * w 1 + (coriolis w f).2 * w 2 = f * (w 1 ^ 2 - w 2 ^ 2) := by
  simp [coriolis]; ring

/-- **C58** (refutation): the Coriolis term does work: a current in the `x` direction is accelerated exponentially instead of being turned. -/
theorem C58_coriolis_works_counterexample :
    ∃ (w : W5) (f : ℝ), 0 < w 0 ∧ (coriolis w f).1 * w 1 + (coriolis w f).2 * w 2 ≠ 0 :=
  ⟨![1, 1, 0, 0, 0], 1, by simp, by simp [coriolis]⟩

/-- **C58** (partial): the term does no work exactly when `f = 0` or `|hu| = |hv|`. -/
theorem C58_coriolis_no_work_partial (w : W5) (f : ℝ) :
    (coriolis w f).1 * w 1 + (coriolis w f).2 * w 2 = 0 ↔ f = 0 ∨ |w 1| = |w 2| := by
  rw [C58_coriolis_power, mul_eq_zero, sub_eq_zero, sq_eq_sq_iff_abs_eq_abs]

/-- **C58** (refutation): the Coriolis parameter given by the user is not used: the coefficient is the Manning number. -/
theorem C58_parameter_ignored {K : Type} [Zero K] (t : List String) (p : String → Option K) (c : Coeffs K)
    (h : initCoeffs t (some p) = .ok c) (ht : "coriolis" ∈ t) : p "Manning" = some c.fc ∧ (p "CoriolisForce").isSome := by
  simp only [initCoeffs, getParam, bind, Except.bind, pure, Except.pure] at h
  simp only [if_pos ht] at h
  by_cases hd : "dissipation" ∈ t <;> by_cases hf : "friction" ∈ t <;> rcases hM : p "Manning" with _ | m <;>
    rcases hC : p "CoriolisForce" with _ | f <;> rcases hX : p "Dx" with _ | x <;> rcases hY : p "Dy" with _ | y <;>
    simp [hd, hf, hM, hC, hX, hY] at h <;> simp [← h]

/-! ## C59 dissipation -/

/-- **C59** (refutation): the dissipation enters the tracer update with the opposite sign to the scalar update: the changes it makes are exactly
opposite. -/
theorem C59_dissipation_sign (w rez src : W5) (dis : Nat → ℝ) (co wi : ℝ × ℝ) (dt : ℝ) (vol : Nat → ℝ) (i : Nat) :
    updateCell w rez src (dis i) co wi dt (vol i) 3 - updateCell w rez src 0 co wi dt (vol i) 3
      = -(Fvm.updateNewValue (fun _ => w 3) (fun _ => rez 3) dis (fun _ => 0) dt vol i
          - Fvm.updateNewValue (fun _ => w 3) (fun _ => rez 3) (fun _ => 0) (fun _ => 0) dt vol i) := by
  simp [updateCell, Fvm.updateNewValue]; ring

/-- **C59** (refutation): a cell that loses tracer by diffusion (negative dissipation) gains it in the shallow-water model. -/
theorem C59_antidiffusive (w rez src : W5) (dis : ℝ) (co wi : ℝ × ℝ) (dt vol : ℝ) (hr : rez 3 = 0) (hs : src 3 = 0) (hdt : 0 < dt) (hv : 0 < vol)
    (hd : dis < 0) : w 3 < updateCell w rez src dis co wi dt vol 3 := by
  simp [updateCell, hr, hs]
  have := div_neg_of_neg_of_pos (mul_neg_of_pos_of_neg hdt hd) hv
  rw [neg_div]; linarith

/-- **C59** (partial): without dissipation (`Dx = Dy = 0` or constant tracer) the two agree. -/
theorem C59_no_dissipation_partial (w rez src : W5) (co wi : ℝ × ℝ) (dt vol : ℝ) (hs : src 3 = 0) :
    updateCell w rez src 0 co wi dt vol 3
      = Fvm.updateNewValue (fun _ => w 3) (fun _ => rez 3) (fun _ => 0) (fun _ => 0) dt (fun _ => vol) 0 := by
  simp [updateCell, Fvm.updateNewValue, hs]; ring

/-! ## C60 time step -/

theorem cellLam_eq (c : Nat → W5) (normal : Nat → Nat → ℝ) (mesure volume : Nat → ℝ) (faceid : Nat → Nat → Nat) (Dxx Dyy : ℝ) (i : Nat)
    (hm : ∀ j < 3, mesure (faceid i j) ≠ 0) :
    cellLam c normal mesure volume faceid Dxx Dyy i = cellRate c normal mesure volume faceid Dxx Dyy i := by
  have hsq : ∀ j, Real.sqrt (normal (faceid i j) 0 * normal (faceid i j) 0 + normal (faceid i j) 1 * normal (faceid i j) 1) ^ 2
      = normal (faceid i j) 0 ^ 2 + normal (faceid i j) 1 ^ 2 := by
    intro j; rw [Real.sq_sqrt (by nlinarith [mul_self_nonneg (normal (faceid i j) 0), mul_self_nonneg (normal (faceid i j) 1)])]; ring
  have h0 := hm 0 (by norm_num)
  have h1 := hm 1 (by norm_num)
  have h2 := hm 2 (by norm_num)
  have e : ∀ (x s m : ℝ), m ≠ 0 → (x / m + s) * m = x + s * m := by intro x s m hm; field_simp
  simp only [cellLam, cellRate, List.range_succ, List.range_zero, List.foldl_append, List.foldl_cons, List.foldl_nil, List.nil_append,
    Finset.sum_range_succ, Finset.sum_range_zero, hsq, e _ _ _ h0, e _ _ _ h1, e _ _ _ h2, g0]
  ring

theorem foldl_min_le (l : List Nat) (f : Nat → ℝ) (d : ℝ) :
    l.foldl (fun dt i => min dt (f i)) d ≤ d ∧ (∀ i ∈ l, l.foldl (fun dt i => min dt (f i)) d ≤ f i)
    ∧ (l.foldl (fun dt i => min dt (f i)) d = d ∨ ∃ i ∈ l, l.foldl (fun dt i => min dt (f i)) d = f i) := by
  induction l generalizing d with
  | nil => simp
  | cons a l ih =>
    obtain ⟨h1, h2, h3⟩ := ih (min d (f a))
    simp only [List.foldl_cons]
    refine ⟨h1.trans (min_le_left _ _), ?_, ?_⟩
    · intro i hi
      rcases List.mem_cons.1 hi with rfl | hi
      · exact h1.trans (min_le_right _ _)
      · exact h2 i hi
    · rcases h3 with h | ⟨i, hi, h⟩
      · rcases min_choice d (f a) with e | e
        · left; rw [h, e]
        · right; exact ⟨a, by simp, by rw [h, e]⟩
      · right; exact ⟨i, by simp [hi], h⟩

/-- **C60**: the time step is the largest number not above `1e6` nor above `cfl · volume / rate` in any cell. -/
theorem C60_time_step (n : Nat) (c : Nat → W5) (cfl : ℝ) (normal : Nat → Nat → ℝ) (mesure volume : Nat → ℝ) (faceid : Nat → Nat → Nat)
    (Dxx Dyy : ℝ) (hm : ∀ i < n, ∀ j < 3, mesure (faceid i j) ≠ 0) :
    IsGreatest {t | t ≤ 1e6 ∧ ∀ i < n, t ≤ cfl * volume i / cellRate c normal mesure volume faceid Dxx Dyy i}
      (timeStep n c cfl normal mesure volume faceid Dxx Dyy) := by
  obtain ⟨h1, h2, h3⟩ := foldl_min_le (List.range n) (fun i => cfl * volume i / cellLam c normal mesure volume faceid Dxx Dyy i) 1e6
  have he : ∀ i < n, cellLam c normal mesure volume faceid Dxx Dyy i = cellRate c normal mesure volume faceid Dxx Dyy i :=
    fun i hi => cellLam_eq c normal mesure volume faceid Dxx Dyy i (hm i hi)
  refine ⟨⟨h1, fun i hi => ?_⟩, fun t ht => ?_⟩
  · rw [← he i hi]; exact h2 i (List.mem_range.2 hi)
  · obtain ⟨t1, t2⟩ := ht
    show t ≤ (List.range n).foldl _ _
    rcases h3 with h | ⟨i, hi, h⟩
    · rw [h]; exact t1
    · rw [h, he i (List.mem_range.1 hi)]; exact t2 i (List.mem_range.1 hi)

/-- **C60** (positivity): with positive depths, lengths and volumes, non-negative diffusion and `cfl > 0` the time step is positive. -/
theorem C60_time_step_pos (n : Nat) (c : Nat → W5) (cfl : ℝ) (normal : Nat → Nat → ℝ) (mesure volume : Nat → ℝ) (faceid : Nat → Nat → Nat)
    (Dxx Dyy : ℝ) (hm : ∀ i < n, ∀ j < 3, 0 < mesure (faceid i j)) (hh : ∀ i < n, 0 < c i 0) (hv : ∀ i < n, 0 < volume i)
    (hD : 0 ≤ Dxx ∧ 0 ≤ Dyy) (hcfl : 0 < cfl) : 0 < timeStep n c cfl normal mesure volume faceid Dxx Dyy := by
  obtain ⟨-, -, h3⟩ := foldl_min_le (List.range n) (fun i => cfl * volume i / cellLam c normal mesure volume faceid Dxx Dyy i) 1e6
  show 0 < (List.range n).foldl _ _
  rcases h3 with h | ⟨i, hi, h⟩
  · rw [h]; norm_num
  · rw [h]
    have hi := List.mem_range.1 hi
    rw [cellLam_eq c normal mesure volume faceid Dxx Dyy i (fun j hj => (hm i hi j hj).ne')]
    refine div_pos (mul_pos hcfl (hv i hi)) ?_
    obtain ⟨hx, hy⟩ := hD
    have hvi := hv i hi
    have hs : 0 < Real.sqrt (9.81 * c i 0) := Real.sqrt_pos.2 (by have := hh i hi; positivity)
    have hterm : ∀ j < 3, 0 < |c i 1 / c i 0 * normal (faceid i j) 0 + c i 2 / c i 0 * normal (faceid i j) 1|
        + Real.sqrt (9.81 * c i 0) * mesure (faceid i j)
        + (Dxx + Dyy) * (normal (faceid i j) 0 ^ 2 + normal (faceid i j) 1 ^ 2) / volume i := by
      intro j hj
      have := hm i hi j hj
      have h1 := mul_pos hs this
      have h2 : 0 ≤ (Dxx + Dyy) * (normal (faceid i j) 0 ^ 2 + normal (faceid i j) 1 ^ 2) / volume i := by positivity
      have h3 := abs_nonneg (c i 1 / c i 0 * normal (faceid i j) 0 + c i 2 / c i 0 * normal (faceid i j) 1)
      linarith
    have t0 := hterm 0 (by norm_num); have t1 := hterm 1 (by norm_num); have t2 := hterm 2 (by norm_num)
    simp only [cellRate, Finset.sum_range_succ, Finset.sum_range_zero]
    linarith

/-! ## C76, C77 constructing the model -/

theorem useArray_ok (t : List String) (s : String) : useArray t s = .ok () ↔ s ∈ t := by
  unfold useArray; split_ifs with h <;> simp [h]

/-- **C76** (exact): a step can be made exactly when dissipation, source and Coriolis are all among the selected terms. -/
theorem C76_step_needs_all_terms (terms : List String) :
    updateArrays (initTerms (some terms)).1 = .ok () ↔ ∀ s ∈ needed, s ∈ terms := by
  simp only [updateArrays, initTerms, needed, useArray, bind, Except.bind]
  by_cases h1 : "dissipation" ∈ terms <;> by_cases h2 : "source" ∈ terms <;> by_cases h3 : "coriolis" ∈ terms <;> simp [h1, h2, h3]

/-- **C76** (refutation): a model with friction only, complete parameters, cannot make a step. -/
theorem C76_friction_only_counterexample :
    runModel (some ["friction"]) (some (fun k => if k = "Manning" then some (1 : ℚ) else none)) = .error (.attribute "dissipation") := by
  decide +kernel

/-- **C76** (refutation): Coriolis without a Manning number fails although the Coriolis force is given and friction is off. -/
theorem C76_coriolis_needs_manning_counterexample :
    runModel (some ["source", "dissipation", "coriolis"])
      (some (fun k => if k = "Dx" ∨ k = "Dy" ∨ k = "CoriolisForce" then some (1 : ℚ) else none)) = .error (.keyError "Manning") := by
  decide +kernel

/-- **C76** (partial): with the default terms and all parameters given the model is built and can make a step. -/
theorem C76_default_terms_partial {K : Type} [Zero K] (p : String → Option K) (dx dy m f : K) (h1 : p "Dx" = some dx) (h2 : p "Dy" = some dy)
    (h3 : p "Manning" = some m) (h4 : p "CoriolisForce" = some f) : runModel none (some p) = .ok ⟨dx, dy, m, m⟩ := by
  simp [runModel, initTerms, initCoeffs, getParam, updateArrays, useArray, h1, h2, h3, h4, bind, Except.bind, pure, Except.pure]

/-- The caller's list after `k` models have been built from it. -/
def callerAfter (k : Nat) (terms : List String) : List String :=
  (List.range k).foldl (fun t _ => ((initTerms (some t)).2).getD t) terms

/-- **C77** (refutation): each construction appends `"convective"` to the list object of the caller. -/
theorem C77_terms_argument_grows (k : Nat) (terms : List String) : callerAfter k terms = terms ++ List.replicate k "convective" := by
  induction k with
  | zero => simp [callerAfter]
  | succ k ih =>
    have : callerAfter (k + 1) terms = ((initTerms (some (callerAfter k terms))).2).getD (callerAfter k terms) := by
      simp only [callerAfter, List.range_succ, List.foldl_append, List.foldl_cons, List.foldl_nil]
    rw [this, ih]
    simp [initTerms, List.replicate_succ', List.append_assoc]

/-- **C77** (partial): the growth is harmless for the set of terms: a model built from the grown list has the same terms as the first one. -/
theorem C77_same_terms_partial (k : Nat) (terms : List String) (s : String) :
    s ∈ (initTerms (some (callerAfter k terms))).1 ↔ s ∈ (initTerms (some terms)).1 := by
  rw [C77_terms_argument_grows]
  simp only [initTerms, List.mem_append, List.mem_replicate, List.mem_singleton]
  tauto

/-- The hypotheses of C78 hold on the diagonal of the square with bottom `1 - x + y` under a lake of level 6. -/
example : innerFlux { exArgs with
    c := fun c => if c = 0 then ![6 - 2/3, 0, 0, 0, 2/3] else ![6 - 4/3, 0, 0, 0, 4/3]
    h_x := fun _ => 1
    h_y := fun _ => -1
    order := 2 } 2 0 ≠ 0 := by
  refine C78_order2_disturbs_lake _ 2 6 5 1 (-1) rfl ?_ ?_ ?_ ?_ ?_ ?_
  · simp [exArgs]
  · simp [exArgs]; norm_num
  · intro c hc; simp [exArgs] at hc; rcases hc with rfl | rfl <;> simp [exArgs, Rest] <;> norm_num
  · intro c hc; simp [exArgs] at hc; rcases hc with rfl | rfl <;> simp [exArgs] <;> norm_num
  · simp [exArgs]
  · simp [exArgs]

/-- The hypotheses of C60 hold on the square. -/
example : 0 < timeStep 2 exArgs.c (1/2) exArgs.normalf exArgs.mesuref (fun _ => 1/2) exCells.faceid 0 0 := by
  refine C60_time_step_pos 2 _ _ _ _ _ _ 0 0 ?_ ?_ (by norm_num) (by norm_num) (by norm_num)
  · intro i hi j hj; interval_cases i <;> interval_cases j <;> simp [exArgs, exCells]
  · intro i hi; interval_cases i <;> simp [exArgs]

/-- C57, C59 on concrete water. -/
example : |friction ![2, 3, -1, 0, 0] g0 (1/10) 1 1| < |(3 : ℝ)| :=
  C57_friction_strict ![2, 3, -1, 0, 0] g0 (1/10) 1 (by norm_num [g0]) (by norm_num) (by norm_num) (by simp) (by simp)

example : initCoeffs ["coriolis"] (some (fun k => if k = "Manning" then some (2 : ℚ) else if k = "CoriolisForce" then some 7 else none))
    = .ok ⟨0, 0, 0, 2⟩ := by decide +kernel

end Verif.SW
