import Verif.Props.Fvm
import Mathlib.Algebra.Order.BigOperators.Group.Finset

/-!
# Properties C06, C07: CFL time step and discrete maximum principle
-/
set_option linter.unusedSectionVars false
namespace Verif.Props
open Verif.Fvm Verif.Spec
variable {K : Type*} [Field K] [LinearOrder K] [IsStrictOrderedRing K]

/-! ## C06 -/

theorem foldl_add_range (f : Nat → K) (n : Nat) (s : K) :
    (List.range n).foldl (fun acc j => acc + f j) s = s + ∑ j ∈ Finset.range n, f j := by
  induction n with
  | zero => simp
  | succ n ih => rw [List.range_succ, List.foldl_append, ih, Finset.sum_range_succ]; simp [add_assoc]

theorem cellLam_eq (u v w : Nat → K) (normal : Nat → Nat → K) (mesure volume : Nat → K)
    (faceid : Nat → Nat → Nat) (dim : Nat) (Dxx Dyy Dzz : K) (i : Nat)
    (hm : ∀ j < dim + 1, mesure (faceid i j) ≠ 0) :
    cellLam u v w normal mesure volume faceid dim Dxx Dyy Dzz i
      = cflRate u v w normal volume faceid dim Dxx Dyy Dzz i := by
  have key : ∀ (m : Nat) (s : K), m ≤ dim + 1 →
      (List.range m).foldl (fun lam j =>
        let norm := normal (faceid i j)
        let u_n := |u i * norm 0 + v i * norm 1 + w i * norm 2|
        let lam_convect := u_n / mesure (faceid i j)
        let lam := lam + lam_convect * mesure (faceid i j)
        let mes2 := norm 0 * norm 0 + norm 1 * norm 1 + norm 2 * norm 2
        let lam_diff := Dxx * mes2 + Dyy * mes2 + Dzz * mes2
        lam + lam_diff / volume i) s
      = s + ∑ j ∈ Finset.range m,
    (|u i * normal (faceid i j) 0 + v i * normal (faceid i j) 1 + w i * normal (faceid i j) 2|
      + (Dxx + Dyy + Dzz)
        * (normal (faceid i j) 0 ^ 2 + normal (faceid i j) 1 ^ 2 + normal (faceid i j) 2 ^ 2) / volume i) := by
    intro m
    induction m with
    | zero => intro s _; simp
    | succ m ih =>
      intro s hm'
      rw [List.range_succ, List.foldl_append, ih s (by omega), Finset.sum_range_succ]
      simp only [List.foldl_cons, List.foldl_nil]
      rw [div_mul_cancel₀ _ (hm m (by omega))]
      ring
  unfold cellLam cflRate
  rw [key (dim + 1) 0 (le_refl _)]
  simp

theorem foldl_min_le_init (l : List Nat) (f : Nat → K) (s : K) :
    l.foldl (fun dt i => min dt (f i)) s ≤ s := by
  induction l generalizing s with
  | nil => simp
  | cons a l ih => exact le_trans (ih _) (min_le_left _ _)

theorem foldl_min_le_mem (l : List Nat) (f : Nat → K) (s : K) (i : Nat) (hi : i ∈ l) :
    l.foldl (fun dt i => min dt (f i)) s ≤ f i := by
  induction l generalizing s with
  | nil => simp at hi
  | cons a l ih =>
    rw [List.foldl_cons]
    rcases List.mem_cons.mp hi with rfl | h
    · exact le_trans (foldl_min_le_init l f _) (min_le_right _ _)
    · exact ih _ h

theorem foldl_min_attained (l : List Nat) (f : Nat → K) (s : K) :
    l.foldl (fun dt i => min dt (f i)) s = s ∨ ∃ i ∈ l, l.foldl (fun dt i => min dt (f i)) s = f i := by
  induction l generalizing s with
  | nil => simp
  | cons a l ih =>
    rw [List.foldl_cons]
    rcases ih (min s (f a)) with h | ⟨i, hi, h⟩
    · rcases min_choice s (f a) with e | e
      · left; rw [h, e]
      · right; exact ⟨a, by simp, by rw [h, e]⟩
    · right; exact ⟨i, List.mem_cons_of_mem _ hi, h⟩

section
variable (n : Nat) (u v w : Nat → K) (cfl : K) (normal : Nat → Nat → K)
  (mesure volume : Nat → K) (faceid : Nat → Nat → Nat) (dim : Nat) (Dxx Dyy Dzz : K)

/-- C06: the time step never exceeds `1e6`. -/
theorem C06_timestep_le_max :
    timeStep n u v w cfl normal mesure volume faceid dim Dxx Dyy Dzz ≤ 1000000 :=
  foldl_min_le_init _ _ _

/-- C06: the CFL condition holds in every cell, `dt * λ_i ≤ cfl * volume_i` (here in quotient form). -/
theorem C06_timestep_cfl (hm : ∀ i < n, ∀ j < dim + 1, mesure (faceid i j) ≠ 0) (i : Nat) (hi : i < n) :
    timeStep n u v w cfl normal mesure volume faceid dim Dxx Dyy Dzz
      ≤ cfl * volume i / cflRate u v w normal volume faceid dim Dxx Dyy Dzz i := by
  rw [← cellLam_eq u v w normal mesure volume faceid dim Dxx Dyy Dzz i (hm i hi)]
  exact foldl_min_le_mem _ _ _ i (List.mem_range.mpr hi)

/-- C06: product form of the CFL condition for cells with a nonzero wave speed. -/
theorem C06_timestep_cfl_mul (hm : ∀ i < n, ∀ j < dim + 1, mesure (faceid i j) ≠ 0) (i : Nat) (hi : i < n)
    (hl : 0 < cflRate u v w normal volume faceid dim Dxx Dyy Dzz i) :
    timeStep n u v w cfl normal mesure volume faceid dim Dxx Dyy Dzz
      * cflRate u v w normal volume faceid dim Dxx Dyy Dzz i ≤ cfl * volume i :=
  (le_div_iff₀ hl).mp (C06_timestep_cfl n u v w cfl normal mesure volume faceid dim Dxx Dyy Dzz hm i hi)

/-- C06: the bound is sharp – the step is `1e6` or the CFL bound of one of the cells. -/
theorem C06_timestep_attained (hm : ∀ i < n, ∀ j < dim + 1, mesure (faceid i j) ≠ 0) :
    timeStep n u v w cfl normal mesure volume faceid dim Dxx Dyy Dzz = 1000000 ∨
    ∃ i < n, timeStep n u v w cfl normal mesure volume faceid dim Dxx Dyy Dzz
      = cfl * volume i / cflRate u v w normal volume faceid dim Dxx Dyy Dzz i := by
  rcases foldl_min_attained (List.range n) (fun i =>
    cfl * volume i / cellLam u v w normal mesure volume faceid dim Dxx Dyy Dzz i) 1000000 with h | ⟨i, hi, h⟩
  · left; exact h
  · right
    refine ⟨i, List.mem_range.mp hi, ?_⟩
    rw [← cellLam_eq u v w normal mesure volume faceid dim Dxx Dyy Dzz i (hm i (List.mem_range.mp hi))]
    exact h

/-- C06: the time step is positive when the CFL number, the volumes and the wave speeds are. -/
theorem C06_timestep_pos (hm : ∀ i < n, ∀ j < dim + 1, mesure (faceid i j) ≠ 0) (hc : 0 < cfl)
    (hv : ∀ i < n, 0 < volume i)
    (hl : ∀ i < n, 0 < cflRate u v w normal volume faceid dim Dxx Dyy Dzz i) :
    0 < timeStep n u v w cfl normal mesure volume faceid dim Dxx Dyy Dzz := by
  rcases C06_timestep_attained n u v w cfl normal mesure volume faceid dim Dxx Dyy Dzz hm with h | ⟨i, hi, h⟩
  · rw [h]; norm_num
  · rw [h]; exact div_pos (mul_pos hc (hv i hi)) (hl i hi)

/-- C06: the time step does not depend on the order in which the cells are numbered/visited. -/
theorem C06_timestep_order_independent (l₁ l₂ : List Nat) (h : l₁.Perm l₂) :
    timeStepOver l₁ u v w cfl normal mesure volume faceid dim Dxx Dyy Dzz
      = timeStepOver l₂ u v w cfl normal mesure volume faceid dim Dxx Dyy Dzz := by
  unfold timeStepOver
  apply h.foldl_eq'
  intro x _ y _ z
  rw [min_assoc, min_assoc, min_comm (cfl * volume x / _)]

/-- C06: renumbering the cells by any permutation `σ` of `0..n-1` leaves the time step unchanged. -/
theorem C06_timestep_renumbering (σ : Nat → Nat) (hσ : ((List.range n).map σ).Perm (List.range n)) :
    timeStep n (u ∘ σ) (v ∘ σ) (w ∘ σ) cfl normal mesure (volume ∘ σ) (faceid ∘ σ) dim Dxx Dyy Dzz
      = timeStep n u v w cfl normal mesure volume faceid dim Dxx Dyy Dzz := by
  have e : timeStep n (u ∘ σ) (v ∘ σ) (w ∘ σ) cfl normal mesure (volume ∘ σ) (faceid ∘ σ) dim Dxx Dyy Dzz
      = timeStepOver ((List.range n).map σ) u v w cfl normal mesure volume faceid dim Dxx Dyy Dzz := by
    unfold timeStep timeStepOver
    rw [List.foldl_map]
    rfl
  rw [e]
  exact C06_timestep_order_independent u v w cfl normal mesure volume faceid dim Dxx Dyy Dzz _ _ hσ

end

/-- Non-vacuity for C06: the example square, velocity (1,2), all face measures 1 (their value cancels). -/
example : (∀ i < 2, ∀ j < 3, (fun _ => (1:ℚ)) (Ex.sqFaceid i j) ≠ 0) ∧
    (∀ i < 2, 0 < cflRate (fun _ => (1:ℚ)) (fun _ => 2) (fun _ => 0) Ex.sq.normalf (fun _ => 1/2)
        Ex.sqFaceid 2 0 0 0 i) ∧
    timeStep 2 (fun _ => (1:ℚ)) (fun _ => 2) (fun _ => 0) (1/2) Ex.sq.normalf (fun _ => 1) (fun _ => 1/2)
        Ex.sqFaceid 2 0 0 0 = 1/16 := by
  refine ⟨by intros; norm_num, ?_, ?_⟩ <;> decide +kernel

/-! ## C07 maximum principle -/

/-- One explicit Euler step of pure advection (no dissipation, no source) from the cell values `w`. -/
def advStep2 (a : ConvArgs K) (dt : K) (vol w : Nat → K) : Nat → K :=
  updateNewValue w ({ a with w_c := w } : ConvArgs K).explicitschemeConvective2d (fun _ => 0) (fun _ => 0) dt vol
/-- 3D version. -/
def advStep3 (a : ConvArgs K) (dt : K) (vol w : Nat → K) : Nat → K :=
  updateNewValue w ({ a with w_c := w } : ConvArgs K).explicitschemeConvective3d (fun _ => 0) (fun _ => 0) dt vol

theorem extrap_order1 (dim : Nat) (w ψ : K) (g r : Nat → K) : extrap dim 1 w ψ g r = w := by
  simp [extrap]

theorem max_neg (x : K) : max (-x) 0 = - min x 0 := by
  rcases le_total 0 x with h | h
  · rw [max_eq_right (neg_nonpos.mpr h), min_eq_right h]; ring
  · rw [max_eq_left (neg_nonneg.mpr h), min_eq_left h]

theorem upwind_left (x wc wr : K) : upwind x wc wr = x * wc - max (-x) 0 * (wr - wc) := by
  unfold upwind
  rw [max_neg]
  have : max x 0 + min x 0 = x := by rw [max_add_min]; ring
  have h : max x 0 = x - min x 0 := by linarith
  rw [h]; ring

theorem upwind_right (x wl wc : K) : upwind x wl wc = x * wc + max x 0 * (wl - wc) := by
  unfold upwind
  have : max x 0 + min x 0 = x := by rw [max_add_min]; ring
  have h : min x 0 = x - max x 0 := by linarith
  rw [h]; ring

/-- Bounds of a sum of left-fluxes. -/
theorem left_bounds (l : List Nat) (side : Nat → Nat) (V W : Nat → K) (wc m M : K) (c : Nat)
    (hW : ∀ i ∈ l, side i = c → m ≤ W i ∧ W i ≤ M) :
    wc * sumAt l side V c + (wc - M) * sumAt l side (fun i => max (-V i) 0) c
        ≤ sumAt l side (fun i => upwind (V i) wc (W i)) c ∧
    sumAt l side (fun i => upwind (V i) wc (W i)) c
        ≤ wc * sumAt l side V c + (wc - m) * sumAt l side (fun i => max (-V i) 0) c := by
  rw [← sumAt_lin, ← sumAt_lin]
  constructor
  · apply sumAt_le
    intro i hi hs
    have h1 := mul_le_mul_of_nonneg_left (hW i hi hs).2 (le_max_right (-V i) 0)
    rw [upwind_left]
    linarith
  · apply sumAt_le
    intro i hi hs
    have h1 := mul_le_mul_of_nonneg_left (hW i hi hs).1 (le_max_right (-V i) 0)
    rw [upwind_left]
    linarith

/-- Bounds of a sum of right-fluxes. -/
theorem right_bounds (l : List Nat) (side : Nat → Nat) (V W : Nat → K) (wc m M : K) (c : Nat)
    (hW : ∀ i ∈ l, side i = c → m ≤ W i ∧ W i ≤ M) :
    wc * sumAt l side V c + (m - wc) * sumAt l side (fun i => max (V i) 0) c
        ≤ sumAt l side (fun i => upwind (V i) (W i) wc) c ∧
    sumAt l side (fun i => upwind (V i) (W i) wc) c
        ≤ wc * sumAt l side V c + (M - wc) * sumAt l side (fun i => max (V i) 0) c := by
  rw [← sumAt_lin, ← sumAt_lin]
  constructor
  · apply sumAt_le
    intro i hi hs
    have h1 := mul_le_mul_of_nonneg_left (hW i hi hs).1 (le_max_right (V i) 0)
    rw [upwind_right]
    linarith
  · apply sumAt_le
    intro i hi hs
    have h1 := mul_le_mul_of_nonneg_left (hW i hi hs).2 (le_max_right (V i) 0)
    rw [upwind_right]
    linarith

theorem balance_bounds (a : ConvArgs K) (dim n : Nat) (h : FacesOK a dim n)
    (hp : ∀ i ∈ a.periodicboundaryfaces, InRange (a.cellidf i 1) n) (ho : a.order = 1) (m M : K)
    (hd : DataIn a n m M) (c : Nat) (hdiv : DivFree a c) :
    (m - a.w_c c) * inflow a c ≤ balance a dim c ∧ balance a dim c ≤ (M - a.w_c c) * inflow a c := by
  have e1 : sumAt a.innerfaces (left a) (innerFlux a dim) c
      = sumAt a.innerfaces (left a) (fun i => upwind (vn a i) (a.w_c c) (a.w_c (right a i))) c := by
    apply sumAt_congr; intro i hi hs
    simp only [innerFlux, cellAtFace, ho, extrap_order1, hs]
  have e1' : sumAt a.innerfaces (right a) (innerFlux a dim) c
      = sumAt a.innerfaces (right a) (fun i => upwind (vn a i) (a.w_c (left a i)) (a.w_c c)) c := by
    apply sumAt_congr; intro i hi hs
    simp only [innerFlux, cellAtFace, ho, extrap_order1, hs]
  have e2 : sumAt a.periodicboundaryfaces (left a) (periodicFlux a dim) c
      = sumAt a.periodicboundaryfaces (left a) (fun i => upwind (vn a i) (a.w_c c) (a.w_c (right a i))) c := by
    apply sumAt_congr; intro i hi hs
    simp only [periodicFlux, cellAtFace, imageAtFace, ho, extrap_order1, hs]
  have e3 : sumAt a.halofaces (left a) (haloFlux a dim) c
      = sumAt a.halofaces (left a) (fun i => upwind (vn a i) (a.w_c c) (a.w_halo (a.halofid i))) c := by
    apply sumAt_congr; intro i hi hs
    simp only [haloFlux, cellAtFace, haloAtFace, ho, extrap_order1, hs]
  have e4 : sumAt a.boundaryfaces (left a) (boundaryFlux a dim) c
      = sumAt a.boundaryfaces (left a) (fun i => upwind (vn a i) (a.w_c c) (a.w_ghost i)) c := by
    apply sumAt_congr; intro i hi hs
    simp only [boundaryFlux, cellAtFace, ho, extrap_order1, hs]
  have b1 := left_bounds a.innerfaces (left a) (vn a) (fun i => a.w_c (right a i)) (a.w_c c) m M c
    (fun i hi _ => hd.cell _ (idx_lt (h.inner_r i hi)))
  have b1' := right_bounds a.innerfaces (right a) (vn a) (fun i => a.w_c (left a i)) (a.w_c c) m M c
    (fun i hi _ => hd.cell _ (idx_lt (h.inner_l i hi)))
  have b2 := left_bounds a.periodicboundaryfaces (left a) (vn a) (fun i => a.w_c (right a i)) (a.w_c c) m M c
    (fun i hi _ => hd.cell _ (idx_lt (hp i hi)))
  have b3 := left_bounds a.halofaces (left a) (vn a) (fun i => a.w_halo (a.halofid i)) (a.w_c c) m M c
    (fun i hi _ => hd.halo i hi)
  have b4 := left_bounds a.boundaryfaces (left a) (vn a) (fun i => a.w_ghost i) (a.w_c c) m M c
    (fun i hi _ => hd.ghost i hi)
  unfold DivFree outSum at hdiv
  have hw := congrArg (fun x => a.w_c c * x) hdiv
  simp only [mul_zero, mul_add, mul_sub] at hw
  unfold balance inflow
  rw [e1, e1', e2, e3, e4]
  simp only [mul_add]
  constructor
  · linarith [b1.2, b1'.1, b2.2, b3.2, b4.2]
  · linarith [b1.1, b1'.2, b2.1, b3.1, b4.1]

theorem inflow_nonneg (a : ConvArgs K) (c : Nat) : 0 ≤ inflow a c := by
  unfold inflow
  have := sumAt_nonneg a.innerfaces (left a) (fun i => max (- vn a i) 0) c (fun _ _ _ => le_max_right _ _)
  have := sumAt_nonneg a.innerfaces (right a) (fun i => max (vn a i) 0) c (fun _ _ _ => le_max_right _ _)
  have := sumAt_nonneg a.periodicboundaryfaces (left a) (fun i => max (- vn a i) 0) c (fun _ _ _ => le_max_right _ _)
  have := sumAt_nonneg a.halofaces (left a) (fun i => max (- vn a i) 0) c (fun _ _ _ => le_max_right _ _)
  have := sumAt_nonneg a.boundaryfaces (left a) (fun i => max (- vn a i) 0) c (fun _ _ _ => le_max_right _ _)
  linarith

theorem update_bounds (wc r dt vol I m M : K) (hdt : 0 ≤ dt) (hv : 0 < vol)
    (hcfl : dt * I ≤ vol) (hm : m ≤ wc) (hM : wc ≤ M)
    (h1 : (m - wc) * I ≤ r) (h2 : r ≤ (M - wc) * I) :
    m ≤ wc + dt * ((r + 0) / vol + 0) ∧ wc + dt * ((r + 0) / vol + 0) ≤ M := by
  have e : wc + dt * ((r + 0) / vol + 0) = wc + dt * r / vol := by ring
  rw [e]
  constructor
  · have : (m - wc) * vol ≤ dt * r := by
      have a1 := mul_le_mul_of_nonneg_left h1 hdt
      have a2 := mul_le_mul_of_nonpos_left hcfl (sub_nonpos.mpr hm)
      linarith [a1, a2, mul_comm dt ((m - wc) * I), mul_assoc (m-wc) dt I, mul_left_comm dt (m-wc) I]
    have := (le_div_iff₀ hv).mpr this
    linarith
  · have : dt * r ≤ (M - wc) * vol := by
      have a1 := mul_le_mul_of_nonneg_left h2 hdt
      have a2 := mul_le_mul_of_nonneg_left hcfl (sub_nonneg.mpr hM)
      linarith [a1, a2, mul_left_comm dt (M-wc) I]
    have := (div_le_iff₀ hv).mpr this
    linarith

/-- What one advection step needs: usable faces, first order, data in `[m,M]`, zero discrete divergence,
positive volumes and the CFL restriction `dt * inflow ≤ volume`. -/
structure StepOK (a : ConvArgs K) (dim n : Nat) (dt : K) (vol : Nat → K) : Prop where
  faces : FacesOK a dim n
  per_r : ∀ i ∈ a.periodicboundaryfaces, InRange (a.cellidf i 1) n
  order : a.order = 1
  divfree : ∀ c < n, DivFree a c
  dt_nonneg : 0 ≤ dt
  vol_pos : ∀ c < n, 0 < vol c
  cfl : ∀ c < n, dt * inflow a c ≤ vol c

/-- C07 (2D): discrete maximum principle for one step. -/
theorem C07_max_principle2d (a : ConvArgs K) (n : Nat) (dt : K) (vol : Nat → K) (m M : K)
    (h : StepOK a 2 n dt vol) (hd : DataIn a n m M) (c : Nat) (hc : c < n) :
    m ≤ advStep2 a dt vol a.w_c c ∧ advStep2 a dt vol a.w_c c ≤ M := by
  have hb := balance_bounds a 2 n h.faces h.per_r h.order m M hd c (h.divfree c hc)
  unfold advStep2 updateNewValue
  rw [C02_convective2d_balance a n h.faces]
  exact update_bounds _ _ dt (vol c) (inflow a c) m M h.dt_nonneg (h.vol_pos c hc)
    (h.cfl c hc) (hd.cell c hc).1 (hd.cell c hc).2 hb.1 hb.2

/-- C07 (3D). -/
theorem C07_max_principle3d (a : ConvArgs K) (n : Nat) (dt : K) (vol : Nat → K) (m M : K)
    (h : StepOK a 3 n dt vol) (hd : DataIn a n m M) (c : Nat) (hc : c < n) :
    m ≤ advStep3 a dt vol a.w_c c ∧ advStep3 a dt vol a.w_c c ≤ M := by
  have hb := balance_bounds a 3 n h.faces h.per_r h.order m M hd c (h.divfree c hc)
  unfold advStep3 updateNewValue
  rw [C02_convective3d_balance a n h.faces]
  exact update_bounds _ _ dt (vol c) (inflow a c) m M h.dt_nonneg (h.vol_pos c hc)
    (h.cfl c hc) (hd.cell c hc).1 (hd.cell c hc).2 hb.1 hb.2

/-- Ghost and halo values of a step lie in `[m,M]`. -/
structure ExtIn (a : ConvArgs K) (m M : K) : Prop where
  ghost : ∀ i ∈ a.boundaryfaces, m ≤ a.w_ghost i ∧ a.w_ghost i ≤ M
  halo : ∀ i ∈ a.halofaces, m ≤ a.w_halo (a.halofid i) ∧ a.w_halo (a.halofid i) ≤ M

/-- C07 (2D), any number of steps: along every history of steps (each with its own time step, ghosts,
halos and velocities) all cell values stay in `[m, M]`. -/
theorem C07_max_principle2d_run (n : Nat) (vol : Nat → K) (m M : K) (hist : List (ConvArgs K × K))
    (h : ∀ s ∈ hist, StepOK s.1 2 n s.2 vol ∧ ExtIn s.1 m M)
    (w0 : Nat → K) (h0 : ∀ c < n, m ≤ w0 c ∧ w0 c ≤ M) :
    ∀ c < n, m ≤ hist.foldl (fun w s => advStep2 s.1 s.2 vol w) w0 c ∧
      hist.foldl (fun w s => advStep2 s.1 s.2 vol w) w0 c ≤ M := by
  induction hist generalizing w0 with
  | nil => simpa using h0
  | cons s hist ih =>
    rw [List.foldl_cons]
    apply ih (fun t ht => h t (List.mem_cons_of_mem _ ht))
    intro c hc
    obtain ⟨hs, he⟩ := h s (by simp)
    have hs' : StepOK ({ s.1 with w_c := w0 } : ConvArgs K) 2 n s.2 vol :=
      ⟨⟨hs.faces.1, hs.faces.2, hs.faces.3, hs.faces.4, hs.faces.5, hs.faces.6⟩, hs.per_r, hs.order, hs.divfree,
        hs.dt_nonneg, hs.vol_pos, hs.cfl⟩
    exact C07_max_principle2d ({ s.1 with w_c := w0 } : ConvArgs K) n s.2 vol m M hs'
      ⟨h0, he.ghost, he.halo⟩ c hc

/-- C07 (3D), any number of steps. -/
theorem C07_max_principle3d_run (n : Nat) (vol : Nat → K) (m M : K) (hist : List (ConvArgs K × K))
    (h : ∀ s ∈ hist, StepOK s.1 3 n s.2 vol ∧ ExtIn s.1 m M)
    (w0 : Nat → K) (h0 : ∀ c < n, m ≤ w0 c ∧ w0 c ≤ M) :
    ∀ c < n, m ≤ hist.foldl (fun w s => advStep3 s.1 s.2 vol w) w0 c ∧
      hist.foldl (fun w s => advStep3 s.1 s.2 vol w) w0 c ≤ M := by
  induction hist generalizing w0 with
  | nil => simpa using h0
  | cons s hist ih =>
    rw [List.foldl_cons]
    apply ih (fun t ht => h t (List.mem_cons_of_mem _ ht))
    intro c hc
    obtain ⟨hs, he⟩ := h s (by simp)
    have hs' : StepOK ({ s.1 with w_c := w0 } : ConvArgs K) 3 n s.2 vol :=
      ⟨⟨hs.faces.1, hs.faces.2, hs.faces.3, hs.faces.4, hs.faces.5, hs.faces.6⟩, hs.per_r, hs.order, hs.divfree,
        hs.dt_nonneg, hs.vol_pos, hs.cfl⟩
    exact C07_max_principle3d ({ s.1 with w_c := w0 } : ConvArgs K) n s.2 vol m M hs'
      ⟨h0, he.ghost, he.halo⟩ c hc

/-- The rate of the CFL routine for cell `c` bounds twice the inflow (constant velocity, closed cell,
the faces of `c` are the ones listed in `faceid`). -/
theorem two_inflow_le_rate (a : ConvArgs K) (dim : Nat) (u v w : K) (vol : Nat → K)
    (faceid : Nat → Nat → Nat) (Dxx Dyy Dzz : K) (c : Nat)
    (hvel : ∀ i, a.u_face i = u ∧ a.v_face i = v ∧ a.w_face i = w)
    (hf : ((List.range (dim + 1)).map (faceid c)).Perm (incident a c))
    (hdiv : DivFree a c) (hD : 0 ≤ Dxx + Dyy + Dzz) (hv : 0 < vol c) :
    2 * inflow a c ≤ cflRate (fun _ => u) (fun _ => v) (fun _ => w) a.normalf vol faceid dim Dxx Dyy Dzz c := by
  have h1 : ∑ j ∈ Finset.range (dim + 1), |vn a (faceid c j)| = ((incident a c).map (fun i => |vn a i|)).sum := by
    rw [← (hf.map (fun i => |vn a i|)).sum_eq, List.map_map]
    exact (list_sum_range (dim + 1) (fun j => |vn a (faceid c j)|)).symm
  have h2 : ((incident a c).map (fun i => |vn a i|)).sum = 2 * inflow a c := by
    have habs : ∀ x : K, |x| = x + 2 * max (-x) 0 := by
      intro x
      rcases le_total 0 x with h | h
      · rw [abs_of_nonneg h, max_eq_right (neg_nonpos.mpr h)]; ring
      · rw [abs_of_nonpos h, max_eq_left (neg_nonneg.mpr h)]; ring
    have habs' : ∀ x : K, |x| = -x + 2 * max x 0 := by
      intro x
      rcases le_total 0 x with h | h
      · rw [abs_of_nonneg h, max_eq_left h]; ring
      · rw [abs_of_nonpos h, max_eq_right h]; ring
    unfold incident
    simp only [List.map_append, List.sum_append]
    have s1 : ∀ (l : List Nat) (side : Nat → Nat), ((l.filter (fun i => side i = c)).map (fun i => |vn a i|)).sum
        = sumAt l side (vn a) c + 2 * sumAt l side (fun i => max (- vn a i) 0) c := by
      intro l side
      have : (fun i => |vn a i|) = fun i => 1 * vn a i + 2 * max (- vn a i) 0 := by
        funext i; rw [habs]; ring
      rw [this]
      have e := sumAt_lin l side (vn a) (fun i => max (- vn a i) 0) 1 2 c
      rw [one_mul] at e
      exact e
    have s2 : ∀ (l : List Nat) (side : Nat → Nat), ((l.filter (fun i => side i = c)).map (fun i => |vn a i|)).sum
        = - sumAt l side (vn a) c + 2 * sumAt l side (fun i => max (vn a i) 0) c := by
      intro l side
      have : (fun i => |vn a i|) = fun i => (-1) * vn a i + 2 * max (vn a i) 0 := by
        funext i; rw [habs']; ring
      rw [this]
      have e := sumAt_lin l side (vn a) (fun i => max (vn a i) 0) (-1) 2 c
      rw [neg_one_mul] at e
      exact e
    rw [s1 _ (left a), s2 _ (right a), s1 _ (left a), s1 _ (left a), s1 _ (left a)]
    unfold DivFree outSum at hdiv
    unfold inflow
    linarith
  rw [← h2, ← h1]
  unfold cflRate
  apply Finset.sum_le_sum
  intro j _
  have e : vn a (faceid c j) = u * a.normalf (faceid c j) 0 + v * a.normalf (faceid c j) 1 + w * a.normalf (faceid c j) 2 := by
    obtain ⟨h1, h2, h3⟩ := hvel (faceid c j); simp [vn, h1, h2, h3]
  rw [e]
  have : 0 ≤ (Dxx + Dyy + Dzz) * (a.normalf (faceid c j) 0 ^ 2 + a.normalf (faceid c j) 1 ^ 2
      + a.normalf (faceid c j) 2 ^ 2) / vol c :=
    div_nonneg (mul_nonneg hD (by positivity)) hv.le
  linarith

/-- C07: a time step returned by the CFL routine with `cfl ≤ 2` (in particular `cfl ≤ 1`) satisfies the
restriction of the maximum principle, for a constant velocity on closed cells. -/
theorem C07_cfl_step_admissible (a : ConvArgs K) (dim n : Nat) (u v w : K) (cfl : K) (vol mesure : Nat → K)
    (faceid : Nat → Nat → Nat) (Dxx Dyy Dzz : K)
    (hvel : ∀ i, a.u_face i = u ∧ a.v_face i = v ∧ a.w_face i = w)
    (hf : ∀ c < n, ((List.range (dim + 1)).map (faceid c)).Perm (incident a c))
    (hclosed : ∀ c < n, ClosedCell a c) (hD : 0 ≤ Dxx + Dyy + Dzz) (hv : ∀ c < n, 0 < vol c)
    (hm : ∀ i < n, ∀ j < dim + 1, mesure (faceid i j) ≠ 0)
    (hl : ∀ i < n, 0 < cflRate (fun _ => u) (fun _ => v) (fun _ => w) a.normalf vol faceid dim Dxx Dyy Dzz i)
    (hc0 : 0 < cfl) (hc : cfl ≤ 2) (c : Nat) (hcn : c < n) :
    0 ≤ timeStep n (fun _ => u) (fun _ => v) (fun _ => w) cfl a.normalf mesure vol faceid dim Dxx Dyy Dzz ∧
    timeStep n (fun _ => u) (fun _ => v) (fun _ => w) cfl a.normalf mesure vol faceid dim Dxx Dyy Dzz
      * inflow a c ≤ vol c := by
  have hdiv : DivFree a c := by
    unfold DivFree
    rw [outSum_lin a c u v w hvel, hclosed c hcn 0 (by norm_num), hclosed c hcn 1 (by norm_num),
      hclosed c hcn 2 (by norm_num)]
    ring
  have hpos := C06_timestep_pos n (fun _ => u) (fun _ => v) (fun _ => w) cfl a.normalf mesure vol faceid dim
    Dxx Dyy Dzz hm hc0 hv hl
  refine ⟨hpos.le, ?_⟩
  have h1 := two_inflow_le_rate a dim u v w vol faceid Dxx Dyy Dzz c hvel (hf c hcn) hdiv hD (hv c hcn)
  have h2 := C06_timestep_cfl_mul n (fun _ => u) (fun _ => v) (fun _ => w) cfl a.normalf mesure vol faceid dim
    Dxx Dyy Dzz hm c hcn (hl c hcn)
  have h3 := mul_le_mul_of_nonneg_left h1 hpos.le
  have h4 := mul_le_mul_of_nonneg_right hc (hv c hcn).le
  linarith

/-- Non-vacuity for C07 on the example square (velocity (1,2), dt = 1/8, data in [3,5]). -/
example : StepOK Ex.sq 2 2 (1/8) (fun _ => 1/2) ∧ DataIn Ex.sq 2 3 5 ∧
    (∀ c < 2, ((List.range 3).map (Ex.sqFaceid c)).Perm (incident Ex.sq c)) ∧
    (∀ c < 2, ClosedCell Ex.sq c) := by
  refine ⟨⟨sq_FacesOK 2, by decide +kernel, rfl, ?_, by norm_num, by intros; norm_num, by decide +kernel⟩, ?_, ?_, ?_⟩
  · unfold DivFree; decide +kernel
  · constructor <;> decide +kernel
  · decide +kernel
  · unfold ClosedCell; decide +kernel

end Verif.Props
