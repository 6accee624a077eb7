import Verif.Lemmas.Fvm
import Verif.Props.ExampleMesh
import Mathlib.Algebra.Order.Field.Rat
import Mathlib.Tactic.IntervalCases

/-!
# Properties C01–C08: explicit finite-volume kernels
-/
set_option linter.unusedSectionVars false
namespace Verif.Props
open Verif.Fvm Verif.Spec
variable {K : Type*} [Field K] [LinearOrder K] [IsStrictOrderedRing K]

/-! ## C01 upwind flux -/

/-- C01: with equal states the flux is the exact advective flux. -/
theorem C01_upwind_consistent (q u v w : K) (n : Nat → K) :
    computeUpwindFlux q q u v w n = (u * n 0 + v * n 1 + w * n 2) * q := by
  rw [upwind_eq, upwind]
  rcases le_total 0 (u * n 0 + v * n 1 + w * n 2) with h | h
  · rw [max_eq_left h, min_eq_right h]; ring
  · rw [max_eq_right h, min_eq_left h]; ring

/-- C01: swapping the states and reversing the normal negates the flux. -/
theorem C01_upwind_antisymmetric (p q u v w : K) (n : Nat → K) :
    computeUpwindFlux q p u v w (fun k => - n k) = - computeUpwindFlux p q u v w n := by
  rw [upwind_eq, upwind_eq, upwind, upwind]
  have e : u * -n 0 + v * -n 1 + w * -n 2 = -(u * n 0 + v * n 1 + w * n 2) := by ring
  rw [e]
  rcases le_total 0 (u * n 0 + v * n 1 + w * n 2) with h | h
  · rw [max_eq_right (neg_nonpos.mpr h), min_eq_left (neg_nonpos.mpr h), max_eq_left h, min_eq_right h]; ring
  · rw [max_eq_left (neg_nonneg.mpr h), min_eq_right (neg_nonneg.mpr h), max_eq_right h, min_eq_left h]; ring

/-- C01: the flux is the value carried by the fluid: from the left cell when the fluid leaves it
(`v·n ≥ 0`), from the right cell when it enters (`v·n < 0`). -/
theorem C01_upwind_direction (p q u v w : K) (n : Nat → K) :
    (0 ≤ u * n 0 + v * n 1 + w * n 2 →
      computeUpwindFlux p q u v w n = (u * n 0 + v * n 1 + w * n 2) * p) ∧
    (u * n 0 + v * n 1 + w * n 2 < 0 →
      computeUpwindFlux p q u v w n = (u * n 0 + v * n 1 + w * n 2) * q) := by
  rw [upwind_eq, upwind]
  constructor
  · intro h; rw [max_eq_left h, min_eq_right h]; ring
  · intro h; rw [max_eq_right h.le, min_eq_left h.le]; ring

/-- C01: nondecreasing in the left state, nonincreasing in the right state. -/
theorem C01_upwind_monotone (p p' q q' u v w : K) (n : Nat → K) (hp : p ≤ p') (hq : q' ≤ q) :
    computeUpwindFlux p q u v w n ≤ computeUpwindFlux p' q' u v w n := by
  rw [upwind_eq, upwind_eq, upwind, upwind]
  have h1 := mul_le_mul_of_nonneg_left hp (le_max_right (u * n 0 + v * n 1 + w * n 2) 0)
  have h2 := mul_le_mul_of_nonpos_left hq (min_le_right (u * n 0 + v * n 1 + w * n 2) 0)
  linarith

/-- C01: the flux never leaves the interval spanned by the two one-sided fluxes. -/
theorem C01_upwind_between (p q u v w : K) (n : Nat → K) :
    min ((u * n 0 + v * n 1 + w * n 2) * p) ((u * n 0 + v * n 1 + w * n 2) * q)
        ≤ computeUpwindFlux p q u v w n ∧
    computeUpwindFlux p q u v w n
        ≤ max ((u * n 0 + v * n 1 + w * n 2) * p) ((u * n 0 + v * n 1 + w * n 2) * q) := by
  obtain ⟨h1, h2⟩ := C01_upwind_direction p q u v w n
  rcases le_or_gt 0 (u * n 0 + v * n 1 + w * n 2) with h | h
  · rw [h1 h]; exact ⟨min_le_left _ _, le_max_left _ _⟩
  · rw [h2 h]; exact ⟨min_le_right _ _, le_max_right _ _⟩

example : computeUpwindFlux (3 : ℚ) 5 1 2 0 (fun k => if k = 0 then -1 else if k = 1 then 1 else 0) = 3 ∧
    computeUpwindFlux (3 : ℚ) 5 1 2 0 (fun k => if k = 0 then -1 else 0) = -5 := by
  constructor <;> norm_num [computeUpwindFlux]

/-! ## C02 conservation of the convective schemes -/

/-- C02 (2D): in every cell the residual is the finite-volume balance of the textbook upwind fluxes of the
(order-dependent) limited linear reconstructions. -/
theorem C02_convective2d_balance (a : ConvArgs K) (n : Nat) (h : FacesOK a 2 n) (c : Nat) :
    a.explicitschemeConvective2d c = balance a 2 c :=
  conv2_eq_balance a (fun i hi => by rcases h.per_name i hi with h | h | h | h | ⟨h, _⟩ <;> simp_all) c

/-- C02 (3D). -/
theorem C02_convective3d_balance (a : ConvArgs K) (n : Nat) (h : FacesOK a 3 n) (c : Nat) :
    a.explicitschemeConvective3d c = balance a 3 c :=
  conv3_eq_balance a (fun i hi => by rcases h.per_name i hi with h | h | h | h | ⟨_, h⟩ <;> simp_all) c

/-- C02 (2D): the total residual is minus the total flux through the periodic, halo and boundary faces;
inner faces cancel exactly. -/
theorem C02_convective2d_conservative (a : ConvArgs K) (n : Nat) (h : FacesOK a 2 n) :
    ∑ c ∈ Finset.range n, a.explicitschemeConvective2d c
      = - ((a.periodicboundaryfaces.map (periodicFlux a 2)).sum
          + (a.halofaces.map (haloFlux a 2)).sum + (a.boundaryfaces.map (boundaryFlux a 2)).sum) := by
  rw [← sum_balance a 2 n h]
  exact Finset.sum_congr rfl (fun c _ => C02_convective2d_balance a n h c)

/-- C02 (3D). -/
theorem C02_convective3d_conservative (a : ConvArgs K) (n : Nat) (h : FacesOK a 3 n) :
    ∑ c ∈ Finset.range n, a.explicitschemeConvective3d c
      = - ((a.periodicboundaryfaces.map (periodicFlux a 3)).sum
          + (a.halofaces.map (haloFlux a 3)).sum + (a.boundaryfaces.map (boundaryFlux a 3)).sum) := by
  rw [← sum_balance a 3 n h]
  exact Finset.sum_congr rfl (fun c _ => C02_convective3d_balance a n h c)

/-- The example square satisfies the hypotheses of C02 (two cells), in 2D and in 3D. -/
theorem sq_FacesOK (dim : Nat) : FacesOK Ex.sq dim 2 := by
  constructor <;> simp [Ex.sq, InRange]

theorem torus_FacesOK (dim : Nat) : FacesOK Ex.torus dim 2 := by
  constructor <;> simp [Ex.torus, Ex.sq, InRange]

example : FacesOK Ex.sq 2 2 ∧ FacesOK Ex.torus 3 2 := ⟨sq_FacesOK 2, torus_FacesOK 3⟩

/-! ## C03 periodic faces -/

theorem imageAtFace_partner (a : ConvArgs K) (dim : Nat) (p : Nat → Nat)
    (h : PeriodicPairing a dim p) (i : Nat) (hi : i ∈ a.periodicboundaryfaces) :
    cellAtFace a dim (left a (p i)) (p i) = imageAtFace a dim (right a i) i := by
  rw [h.cells i hi]
  unfold cellAtFace imageAtFace extrap
  congr 1; congr 1
  apply Finset.sum_congr rfl
  intro k hk
  dsimp only
  rw [h.trans i hi k (Finset.mem_range.mp hk)]
  ring

/-- C03: paired periodic faces contribute nothing to the total, for every order of reconstruction. -/
theorem C03_periodic_flux_cancels (a : ConvArgs K) (dim : Nat) (p : Nat → Nat)
    (h : PeriodicPairing a dim p) :
    (a.periodicboundaryfaces.map (periodicFlux a dim)).sum = 0 := by
  have hflux : ∀ i ∈ a.periodicboundaryfaces, periodicFlux a dim (p i) = - periodicFlux a dim i := by
    intro i hi
    have e1 := imageAtFace_partner a dim p h i hi
    have e2 := imageAtFace_partner a dim p h (p i) (h.mem i hi)
    rw [h.invol i hi] at e2
    have e3 : vn a (p i) = - vn a i := by
      obtain ⟨hu, hv, hw⟩ := h.vel i hi
      unfold vn
      rw [hu, hv, hw, h.normal i hi 0 (by norm_num), h.normal i hi 1 (by norm_num),
        h.normal i hi 2 (by norm_num)]
      ring
    unfold periodicFlux
    rw [e1, ← e2, e3]
    unfold upwind
    rcases le_total 0 (vn a i) with hv | hv
    · rw [max_eq_right (neg_nonpos.mpr hv), min_eq_left (neg_nonpos.mpr hv), max_eq_left hv, min_eq_right hv]
      ring
    · rw [max_eq_left (neg_nonneg.mpr hv), min_eq_right (neg_nonneg.mpr hv), max_eq_right hv, min_eq_left hv]
      ring
  have hperm : (a.periodicboundaryfaces.map p).Perm a.periodicboundaryfaces := by
    have hnd : (a.periodicboundaryfaces.map p).Nodup := by
      rw [List.nodup_map_iff_inj_on h.nodup]
      intro x hx y hy hxy
      rw [← h.invol x hx, ← h.invol y hy, hxy]
    rw [List.perm_ext_iff_of_nodup hnd h.nodup]
    intro x
    rw [List.mem_map]
    constructor
    · rintro ⟨y, hy, rfl⟩; exact h.mem y hy
    · intro hx; exact ⟨p x, h.mem x hx, h.invol x hx⟩
  have e := (hperm.map (periodicFlux a dim)).sum_eq
  rw [List.map_map, list_map_sum_congr _ (periodicFlux a dim ∘ p) (fun i => - periodicFlux a dim i) hflux,
    list_map_sum_neg] at e
  linarith

/-- C03: on a domain all of whose non-inner faces are paired periodic faces, the 2D residual sums to 0. -/
theorem C03_fully_periodic_conserves2d (a : ConvArgs K) (n : Nat) (h : FacesOK a 2 n) (p : Nat → Nat)
    (hp : PeriodicPairing a 2 p) (hh : a.halofaces = []) (hb : a.boundaryfaces = []) :
    ∑ c ∈ Finset.range n, a.explicitschemeConvective2d c = 0 := by
  rw [C02_convective2d_conservative a n h, C03_periodic_flux_cancels a 2 p hp, hh, hb]
  simp

/-- C03 (3D). -/
theorem C03_fully_periodic_conserves3d (a : ConvArgs K) (n : Nat) (h : FacesOK a 3 n) (p : Nat → Nat)
    (hp : PeriodicPairing a 3 p) (hh : a.halofaces = []) (hb : a.boundaryfaces = []) :
    ∑ c ∈ Finset.range n, a.explicitschemeConvective3d c = 0 := by
  rw [C02_convective3d_conservative a n h, C03_periodic_flux_cancels a 3 p hp, hh, hb]
  simp

/-- The doubly periodic square with a second-order reconstruction meets the hypotheses. -/
theorem torus_pairing : PeriodicPairing Ex.torus 2 Ex.torusPair := by
  constructor <;> decide +kernel

example : ∑ c ∈ Finset.range 2, Ex.torus.explicitschemeConvective2d c = 0 :=
  C03_fully_periodic_conserves2d _ 2 (torus_FacesOK 2) _ torus_pairing rfl rfl

/-! ## C04 dissipative scheme -/

/-- C04: per cell, the dissipation is what enters through faces whose first cell it is minus what
leaves through inner faces whose second cell it is. -/
theorem C04_dissipative_balance (nb : Nat) (wx wy wz : Nat → K) (cellidf : Nat → Nat → Int)
    (normalf : Nat → Nat → K) (namef : Nat → Int) (Dxx Dyy Dzz : K) (c : Nat) :
    explicitschemeDissipative nb wx wy wz cellidf normalf namef Dxx Dyy Dzz c
      = sumAt (List.range nb) (fun i => (cellidf i 0).toNat) (diffFlux wx wy wz normalf Dxx Dyy Dzz) c
        - sumAt ((List.range nb).filter (fun i => namef i = 0)) (fun i => (cellidf i 1).toNat)
            (diffFlux wx wy wz normalf Dxx Dyy Dzz) c := by
  have hfilter : ∀ (l : List Nat) (F : Nat → K),
      ((l.filter (fun i => namef i = 0)).map F).sum = (l.map (fun i => if namef i = 0 then F i else 0)).sum := by
    intro l F
    induction l with
    | nil => simp
    | cons x l ih => by_cases h : namef x = 0 <;> simp [h, ih]
  unfold explicitschemeDissipative
  rw [foldl_contrib (List.range nb) _ (fun i j =>
      (if (cellidf i 0).toNat = j then diffFlux wx wy wz normalf Dxx Dyy Dzz i else 0)
      - (if namef i = 0 then (if (cellidf i 1).toNat = j then diffFlux wx wy wz normalf Dxx Dyy Dzz i else 0)
          else 0))]
  · rw [sumAt_eq, sumAt_eq, hfilter, list_map_sum_sub]; ring
  · intro r i _ j
    unfold dissipStep diffFlux
    by_cases h : namef i = 0
    · simp only [h, if_true, subAt_apply, addAt_apply, idx]
      ring_nf
    · simp only [h, if_false, addAt_apply, idx]
      ring_nf

/-- C04: the dissipation sums to the diffusive flux through the faces that are not inner. -/
theorem C04_dissipative_conservative (n nb : Nat) (wx wy wz : Nat → K) (cellidf : Nat → Nat → Int)
    (normalf : Nat → Nat → K) (namef : Nat → Int) (Dxx Dyy Dzz : K)
    (h0 : ∀ i < nb, InRange (cellidf i 0) n) (h1 : ∀ i < nb, namef i = 0 → InRange (cellidf i 1) n) :
    ∑ c ∈ Finset.range n, explicitschemeDissipative nb wx wy wz cellidf normalf namef Dxx Dyy Dzz c
      = (((List.range nb).filter (fun i => namef i ≠ 0)).map
          (diffFlux wx wy wz normalf Dxx Dyy Dzz)).sum := by
  have key : ∀ (l : List Nat) (F : Nat → K), (l.map F).sum - ((l.filter (fun i => namef i = 0)).map F).sum
      = ((l.filter (fun i => namef i ≠ 0)).map F).sum := by
    intro l F
    induction l with
    | nil => simp
    | cons x l ih =>
      by_cases h : namef x = 0
      · simp only [h, List.map_cons, List.sum_cons, List.filter_cons, decide_true, if_true, ne_eq,
          not_true_eq_false, decide_false, Bool.false_eq_true, if_false] at ih ⊢
        rw [← ih]; ring
      · simp only [h, List.map_cons, List.sum_cons, List.filter_cons, decide_true, if_true, ne_eq,
          not_false_eq_true, decide_false, Bool.false_eq_true, if_false] at ih ⊢
        rw [← ih]; ring
  simp only [C04_dissipative_balance]
  rw [Finset.sum_sub_distrib,
    sum_sumAt n _ (fun i => (cellidf i 0).toNat) _ (fun i hi => idx_lt (h0 i (List.mem_range.mp hi))),
    sum_sumAt n _ (fun i => (cellidf i 1).toNat) _ (fun i hi => ?_), key]
  rw [List.mem_filter, List.mem_range] at hi
  exact idx_lt (h1 i hi.1 (by simpa using hi.2))

example : (∀ i < 5, InRange (Ex.sq.cellidf i 0) 2) ∧
    (∀ i < 5, Ex.sq.name i = 0 → InRange (Ex.sq.cellidf i 1) 2) := by
  unfold InRange; decide +kernel

/-! ## C08 explicit update -/

/-- C08: exact mass balance of the explicit update. -/
theorem C08_update_mass_balance (n : Nat) (ne rez dissip src : Nat → K) (dt : K) (vol : Nat → K)
    (hv : ∀ c < n, vol c ≠ 0) :
    ∑ c ∈ Finset.range n, vol c * updateNewValue ne rez dissip src dt vol c
      = ∑ c ∈ Finset.range n, vol c * ne c
        + dt * (∑ c ∈ Finset.range n, rez c + ∑ c ∈ Finset.range n, dissip c
            + ∑ c ∈ Finset.range n, vol c * src c) := by
  rw [← Finset.sum_add_distrib, ← Finset.sum_add_distrib, Finset.mul_sum, ← Finset.sum_add_distrib]
  apply Finset.sum_congr rfl
  intro c hc
  have := hv c (Finset.mem_range.mp hc)
  unfold updateNewValue
  field_simp

/-- C08: with no residual, dissipation and source, or a zero step, nothing changes. -/
theorem C08_update_fixed (ne : Nat → K) (dt : K) (vol : Nat → K) (c : Nat) :
    updateNewValue ne (fun _ => 0) (fun _ => 0) (fun _ => 0) dt vol c = ne c := by
  simp [updateNewValue]

example : ∀ c < 2, (fun _ => (1/2 : ℚ)) c ≠ 0 := by norm_num

/-! ## C05 free-stream preservation -/

theorem upwind_same (x q : K) : upwind x q q = q * x := by
  unfold upwind
  rcases le_total 0 x with h | h
  · rw [max_eq_left h, min_eq_right h]; ring
  · rw [max_eq_right h, min_eq_left h]; ring

theorem outSum_lin (a : ConvArgs K) (c : Nat) (u v w : K) (hv : ∀ i, a.u_face i = u ∧ a.v_face i = v ∧ a.w_face i = w) :
    outSum a (vn a) c = u * outSum a (fun i => a.normalf i 0) c + v * outSum a (fun i => a.normalf i 1) c
      + w * outSum a (fun i => a.normalf i 2) c := by
  have e : vn a = fun i => (u * a.normalf i 0 + v * a.normalf i 1) + w * a.normalf i 2 := by
    funext i; obtain ⟨h1, h2, h3⟩ := hv i; simp [vn, h1, h2, h3]
  unfold outSum
  rw [e]
  simp only [sumAt_add, sumAt_mul]
  ring

theorem extrap_const (dim : Nat) (hd : dim = 2 ∨ dim = 3) (o : Int) (q ψ : K) (g r : Nat → K)
    (hg : ∀ k < 3, g k = 0) : extrap dim o q ψ g r = q := by
  have h0 := hg 0 (by norm_num); have h1 := hg 1 (by norm_num); have h2 := hg 2 (by norm_num)
  rcases hd with rfl | rfl
  · simp [extrap, Finset.sum_range_succ, h0, h1]
  · simp [extrap, Finset.sum_range_succ, h0, h1, h2]

theorem cellGrad_zero (a : ConvArgs K) (c : Nat) (h : a.w_x c = 0 ∧ a.w_y c = 0 ∧ a.w_z c = 0) :
    ∀ k < 3, cellGrad a c k = 0 := by
  intro k hk
  interval_cases k <;> simp [cellGrad, h]

theorem haloGrad_zero (a : ConvArgs K) (c : Nat) (h : a.wx_halo c = 0 ∧ a.wy_halo c = 0 ∧ a.wz_halo c = 0) :
    ∀ k < 3, haloGrad a c k = 0 := by
  intro k hk
  interval_cases k <;> simp [haloGrad, h]

theorem balance_freestream (a : ConvArgs K) (dim n : Nat) (hd : dim = 2 ∨ dim = 3) (h : FacesOK a dim n)
    (q u v w : K) (hf : FreeStream a n q u v w) (c : Nat) :
    balance a dim c = - (q * outSum a (vn a) c) := by
  have cf : ∀ k < n, ∀ i, cellAtFace a dim k i = q := by
    intro k hk i
    unfold cellAtFace
    rw [extrap_const dim hd _ _ _ _ _ (cellGrad_zero a k (hf.grad k hk)), hf.cell k hk]
  have im : ∀ k < n, ∀ i, imageAtFace a dim k i = q := by
    intro k hk i
    unfold imageAtFace
    rw [extrap_const dim hd _ _ _ _ _ (cellGrad_zero a k (hf.grad k hk)), hf.cell k hk]
  have e1 : ∀ i ∈ a.innerfaces, innerFlux a dim i = q * vn a i := by
    intro i hi
    unfold innerFlux
    rw [cf (left a i) (idx_lt (h.inner_l i hi)), cf (right a i) (idx_lt (h.inner_r i hi)), upwind_same]
  have e2 : ∀ i ∈ a.periodicboundaryfaces, periodicFlux a dim i = q * vn a i := by
    intro i hi
    unfold periodicFlux
    rw [cf (left a i) (idx_lt (h.per_l i hi)), im (right a i) (idx_lt (hf.perCell i hi)), upwind_same]
  have e3 : ∀ i ∈ a.halofaces, haloFlux a dim i = q * vn a i := by
    intro i hi
    unfold haloFlux haloAtFace
    rw [cf (left a i) (idx_lt (h.halo_l i hi)), extrap_const dim hd _ _ _ _ _ (haloGrad_zero a _ (hf.gradh i hi)),
      hf.halo i hi, upwind_same]
  have e4 : ∀ i ∈ a.boundaryfaces, boundaryFlux a dim i = q * vn a i := by
    intro i hi
    unfold boundaryFlux
    rw [cf (left a i) (idx_lt (h.bnd_l i hi)), hf.ghost i hi, upwind_same]
  unfold balance outSum
  rw [sumAt_congr _ _ _ _ c (fun i hi _ => e1 i hi), sumAt_congr _ (right a) _ _ c (fun i hi _ => e1 i hi),
    sumAt_congr _ _ _ _ c (fun i hi _ => e2 i hi), sumAt_congr _ _ _ _ c (fun i hi _ => e3 i hi),
    sumAt_congr _ _ _ _ c (fun i hi _ => e4 i hi)]
  simp only [sumAt_mul]
  ring

/-- C05 (2D): a constant field in a constant velocity field has zero residual in every closed cell. -/
theorem C05_freestream_residual2d (a : ConvArgs K) (n : Nat) (h : FacesOK a 2 n) (q u v w : K)
    (hf : FreeStream a n q u v w) (c : Nat) (hc : ClosedCell a c) :
    a.explicitschemeConvective2d c = 0 := by
  rw [C02_convective2d_balance a n h, balance_freestream a 2 n (Or.inl rfl) h q u v w hf,
    outSum_lin a c u v w hf.vel, hc 0 (by norm_num), hc 1 (by norm_num), hc 2 (by norm_num)]
  ring

/-- C05 (3D). -/
theorem C05_freestream_residual3d (a : ConvArgs K) (n : Nat) (h : FacesOK a 3 n) (q u v w : K)
    (hf : FreeStream a n q u v w) (c : Nat) (hc : ClosedCell a c) :
    a.explicitschemeConvective3d c = 0 := by
  rw [C02_convective3d_balance a n h, balance_freestream a 3 n (Or.inr rfl) h q u v w hf,
    outSum_lin a c u v w hf.vel, hc 0 (by norm_num), hc 1 (by norm_num), hc 2 (by norm_num)]
  ring

/-- C05: hence the explicit step (no source, zero face gradients so no dissipation) leaves the field
unchanged, for every time step and every diffusion coefficient. -/
theorem C05_freestream_step2d (a : ConvArgs K) (n nb : Nat) (h : FacesOK a 2 n) (q u v w : K)
    (hf : FreeStream a n q u v w) (Dxx Dyy Dzz dt : K) (vol : Nat → K) (c : Nat) (hcn : c < n)
    (hc : ClosedCell a c) :
    updateNewValue a.w_c a.explicitschemeConvective2d
      (explicitschemeDissipative nb (fun _ => 0) (fun _ => 0) (fun _ => 0) a.cellidf a.normalf a.name Dxx Dyy Dzz)
      (fun _ => 0) dt vol c = q := by
  have hz : ∀ i, diffFlux (fun _ => (0 : K)) (fun _ => 0) (fun _ => 0) a.normalf Dxx Dyy Dzz i = 0 := by
    intro i; simp [diffFlux]
  unfold updateNewValue
  rw [C05_freestream_residual2d a n h q u v w hf c hc, C04_dissipative_balance, hf.cell c hcn]
  simp only [sumAt_eq, hz]
  simp

/-- C05 (3D): hence the explicit step (no source, zero face gradients so no dissipation) leaves the field
unchanged, for every time step and every diffusion coefficient. -/
theorem C05_freestream_step3d (a : ConvArgs K) (n nb : Nat) (h : FacesOK a 3 n) (q u v w : K)
    (hf : FreeStream a n q u v w) (Dxx Dyy Dzz dt : K) (vol : Nat → K) (c : Nat) (hcn : c < n)
    (hc : ClosedCell a c) :
    updateNewValue a.w_c a.explicitschemeConvective3d
      (explicitschemeDissipative nb (fun _ => 0) (fun _ => 0) (fun _ => 0) a.cellidf a.normalf a.name Dxx Dyy Dzz)
      (fun _ => 0) dt vol c = q := by
  have hz : ∀ i, diffFlux (fun _ => (0 : K)) (fun _ => 0) (fun _ => 0) a.normalf Dxx Dyy Dzz i = 0 := by
    intro i; simp [diffFlux]
  unfold updateNewValue
  rw [C05_freestream_residual3d a n h q u v w hf c hc, C04_dissipative_balance, hf.cell c hcn]
  simp only [sumAt_eq, hz]
  simp

/-- Free stream on the example square. -/
def Ex.sqFree : ConvArgs ℚ := { Ex.sq with w_c := fun _ => 7, w_ghost := fun _ => 7, order := 2 }

theorem sqFree_closed : ∀ c < 2, ClosedCell Ex.sqFree c := by
  unfold ClosedCell; decide +kernel

example : FacesOK Ex.sqFree 2 2 ∧ FreeStream Ex.sqFree 2 7 1 2 0 ∧ ∀ c < 2, ClosedCell Ex.sqFree c := by
  refine ⟨?_, ?_, sqFree_closed⟩
  · constructor <;> simp [Ex.sqFree, Ex.sq, InRange]
  · constructor <;> simp [Ex.sqFree, Ex.sq]

end Verif.Props
