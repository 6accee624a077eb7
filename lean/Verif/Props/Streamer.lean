import Verif.Spec.Streamer
import Mathlib.Algebra.Order.BigOperators.Group.Finset
import Mathlib.Tactic.Positivity
import Mathlib.Tactic.FinCases
import Mathlib.Tactic.IntervalCases

/-!
# Properties C61, C62, C79, C80: the streamer model
-/
set_option linter.unusedSectionVars false
set_option linter.unusedSimpArgs false
set_option linter.unusedVariables false
set_option linter.unnecessarySeqFocus false
set_option linter.unusedTactic false
set_option linter.unreachableTactic false
namespace Verif.Props
open Verif Verif.Streamer Verif.Spec.Streamer

theorem nGas_pos : 0 < nGas := by unfold nGas; norm_num

theorem norm3_nonneg (e : Fin 3 → ℝ) : 0 ≤ norm3 e := Real.sqrt_nonneg _

theorem norm3_sq (e : Fin 3 → ℝ) : norm3 e ^ 2 = dot3 e e := by
  unfold norm3 dot3
  rw [Real.sq_sqrt (by positivity)]; ring

theorem norm3_eq_zero (e : Fin 3 → ℝ) : norm3 e = 0 ↔ e = 0 := by
  constructor
  · intro h
    have := norm3_sq e
    rw [h] at this
    unfold dot3 at this
    have h0 : e 0 = 0 := by nlinarith [sq_nonneg (e 0), sq_nonneg (e 1), sq_nonneg (e 2)]
    have h1 : e 1 = 0 := by nlinarith [sq_nonneg (e 0), sq_nonneg (e 1), sq_nonneg (e 2)]
    have h2 : e 2 = 0 := by nlinarith [sq_nonneg (e 0), sq_nonneg (e 1), sq_nonneg (e 2)]
    funext k; fin_cases k <;> simp [h0, h1, h2]
  · rintro rfl; simp [norm3]

theorem norm3_smul (c : ℝ) (e : Fin 3 → ℝ) : norm3 (fun k => c * e k) = |c| * norm3 e := by
  unfold norm3
  rw [← Real.sqrt_sq_eq_abs, ← Real.sqrt_mul (sq_nonneg c)]
  congr 1; ring

/-! ## C61 -/

/-- **C61**: the drift speed is positive for every field strength. -/
theorem C61_speed_pos (x : ℝ) (hx : 0 ≤ x) : 0 < driftSpeed x := by
  unfold driftSpeed
  split_ifs <;> positivity

/-- **C61**: for every nonzero field, exactly one of the branches applies (the previous content of the array is never kept) and the
velocity is the unit vector opposite to the field times the drift speed of `E/n`. -/
theorem C61_velocity (e old : Fin 3 → ℝ) (h : e ≠ 0) (k : Fin 3) :
    faceVelocity e old k = - driftSpeed (norm3 e / nGas) * (e k / norm3 e) := by
  have hE : norm3 e ≠ 0 := fun h0 => h ((norm3_eq_zero e).1 h0)
  have hx : ∀ c : ℝ, c * norm3 e / nGas = c * (norm3 e / nGas) := fun c => by ring
  unfold faceVelocity driftSpeed
  simp only [hE, if_false, hx]
  obtain ⟨x, hxd⟩ : ∃ x, x = norm3 e / nGas := ⟨_, rfl⟩
  rw [← hxd]
  by_cases h1 : 2e-15 < x
  · rw [if_pos h1, if_pos h1]; ring
  · rw [if_neg h1, if_neg h1]
    by_cases h2 : 1e-16 < x
    · rw [if_pos ⟨h2, not_lt.1 h1⟩, if_pos h2]; ring
    · rw [if_neg (fun h => h2 h.1), if_neg h2]
      by_cases h3 : 2.6e-17 < x
      · rw [if_pos ⟨h3, not_lt.1 h2⟩, if_pos h3]; ring
      · rw [if_neg (fun h => h3 h.1), if_neg h3, if_pos (not_lt.1 h3)]; ring

/-- **C61**: zero field, zero velocity. -/
theorem C61_velocity_zero (old : Fin 3 → ℝ) : faceVelocity 0 old = 0 := by
  unfold faceVelocity
  rw [if_pos ((norm3_eq_zero 0).2 rfl)]; rfl

/-- **C61**: the modulus of the velocity is the drift speed. -/
theorem C61_speed (e old : Fin 3 → ℝ) (h : e ≠ 0) : norm3 (faceVelocity e old) = driftSpeed (norm3 e / nGas) := by
  have hE : norm3 e ≠ 0 := fun h0 => h ((norm3_eq_zero e).1 h0)
  have hp := C61_speed_pos (norm3 e / nGas) (div_nonneg (norm3_nonneg e) nGas_pos.le)
  have : faceVelocity e old = fun k => (- driftSpeed (norm3 e / nGas) / norm3 e) * e k := by
    funext k; rw [C61_velocity e old h]; ring
  rw [this, norm3_smul, abs_div, abs_neg, abs_of_pos hp, abs_of_nonneg (norm3_nonneg e), div_mul_cancel₀ _ hE]

/-- **C61**: electrons always drift against the field. -/
theorem C61_antiparallel (e old : Fin 3 → ℝ) (h : e ≠ 0) : dot3 (faceVelocity e old) e < 0 := by
  have hE : 0 < norm3 e := lt_of_le_of_ne (norm3_nonneg e) (fun h0 => h ((norm3_eq_zero e).1 h0.symm))
  have hp := C61_speed_pos (norm3 e / nGas) (div_nonneg (norm3_nonneg e) nGas_pos.le)
  have : dot3 (faceVelocity e old) e = - driftSpeed (norm3 e / nGas) * norm3 e := by
    unfold dot3
    rw [C61_velocity e old h, C61_velocity e old h, C61_velocity e old h]
    have := norm3_sq e
    unfold dot3 at this
    field_simp
    linear_combination this
  rw [this]
  nlinarith

theorem foldl_setAt_range {α : Type*} (n : Nat) (f : Nat → α → α) (a : Nat → α) (i : Nat) :
    (List.range n).foldl (fun u i => setAt u i (f i (u i))) a i = if i < n then f i (a i) else a i := by
  induction n with
  | zero => simp
  | succ n ih =>
    rw [List.range_succ, List.foldl_append, List.foldl_cons, List.foldl_nil]
    by_cases e : i = n
    · subst e
      rw [setAt_same]
      have : (List.range i).foldl (fun u i => setAt u i (f i (u i))) a i = a i := by simpa using ih
      rw [this]; simp
    · rw [setAt_ne _ _ e, ih]
      have : i < n + 1 ↔ i < n := by omega
      simp [this]

/-- **C61** (kernel): after `compute_velocity`, whatever the face arrays held before, every face has the velocity of its field. -/
theorem C61_compute_velocity (nb : Nat) (E old : VField) (i : Nat) (hi : i < nb) (k : Fin 3) :
    velocityFaces nb E old i k = if E i = 0 then 0 else - driftSpeed (norm3 (E i) / nGas) * (E i k / norm3 (E i)) := by
  unfold velocityFaces
  rw [foldl_setAt_range nb (fun i w => faceVelocity (E i) w) old i, if_pos hi]
  by_cases h : E i = 0
  · rw [if_pos h, h, C61_velocity_zero]; rfl
  · rw [if_neg h, C61_velocity _ _ h]

/-- **C61**: the cell values are the arithmetic means of the face values, for the velocity and for the field. -/
theorem C61_cell_average (u : VField) (faceid : Nat → Nat → Nat) (dim i : Nat) (k : Fin 3) :
    faceAverage u faceid dim i k = (∑ j ∈ Finset.range (dim + 1), u (faceid i j) k) / (dim + 1) := by
  have h : ∀ (l : List Nat) (s : Fin 3 → ℝ), (l.foldl (fun s j => s + u (faceid i j)) s) k = s k + (l.map (fun j => u (faceid i j) k)).sum := by
    intro l
    induction l with
    | nil => simp
    | cons a l ih => intro s; rw [List.foldl_cons, ih]; simp [add_assoc]
  simp only [faceAverage, h, list_sum_range, Pi.zero_apply, zero_add]

/-- Negative result: the drift speed is not a monotone function of the field strength; it drops at `E/n = 1e-16`. -/
theorem C61_speed_not_monotone : ¬ MonotoneOn driftSpeed (Set.Ici 0) := by
  intro h
  have := h (a := 1e-16) (b := 1.001e-16) (by norm_num [Set.mem_Ici]) (by norm_num [Set.mem_Ici]) (by norm_num)
  unfold driftSpeed at this
  norm_num at this

theorem norm3_x (a : ℝ) (ha : 0 ≤ a) : norm3 ![a, 0, 0] = a := by
  unfold norm3
  simp [Real.sqrt_sq ha]

theorem norm3_x_neg (a : ℝ) (ha : 0 ≤ a) : norm3 ![-a, 0, 0] = a := by
  unfold norm3
  simp [Real.sqrt_sq ha]

/-- A field of `2.5e4` along x (`E/n = 1e-15`) gives `u = -1.16e7`. -/
example : faceVelocity ![2.5e4, 0, 0] ![9, 9, 9] 0 = -1.16e7 := by
  rw [C61_velocity _ _ (by intro h; have := congrFun h 0; norm_num at this), norm3_x _ (by norm_num)]
  unfold driftSpeed nGas
  norm_num

/-! ## C62 -/

theorem alphaN_nonneg (E : ℝ) : 0 ≤ alphaN E := by
  unfold alphaN
  split_ifs <;> positivity

theorem seed_nonneg (x : Fin 3 → ℝ) (br : Int) : 0 ≤ seed x br := by
  unfold seed
  split_ifs <;> positivity

/-- **C62**: electrons and ions get the same source. -/
theorem C62_source_equal (ne : Nat → ℝ) (u E center : VField) (br : Int) (i : Nat) :
    (source ne u E center br i).1 = (source ne u E center br i).2 := rfl

/-- **C62** (the ionisation law): where there is a field, the source without branching is the ionisation coefficient at the reduced
field times drift speed, electron density and gas density; with branching the seed is added. -/
theorem C62_source_law (ne : Nat → ℝ) (u E center : VField) (br : Int) (i : Nat) (h : E i ≠ 0) :
    (source ne u E center br i).1 = ionisation (norm3 (E i) / nGas) * norm3 (u i) * ne i * nGas + seed (center i) br
    ∧ seed (center i) 0 = 0 := by
  have h0 : norm3 (E i) ≠ 0 := fun e => h ((norm3_eq_zero _).1 e)
  refine ⟨?_, by simp [seed]⟩
  simp only [source]
  congr 3
  unfold alphaN ionisation
  rw [if_neg h0]
  by_cases hx : norm3 (E i) / nGas ≤ 1.5e-15
  · rw [if_pos hx, if_neg (not_lt.2 hx), neg_div]
  · rw [if_neg hx, if_pos (not_le.1 hx), neg_div]

/-- **C62**: the source is nonnegative wherever the electron density is. -/
theorem C62_source_nonneg (ne : Nat → ℝ) (u E center : VField) (br : Int) (i : Nat) (h : 0 ≤ ne i) :
    0 ≤ (source ne u E center br i).1 := by
  simp only [source]
  have := mul_nonneg (mul_nonneg (mul_nonneg (alphaN_nonneg (norm3 (E i))) (norm3_nonneg (u i))) h) nGas_pos.le
  have := seed_nonneg (center i) br
  linarith

/-- **C62**: the source vanishes exactly where there is no field, no drift or no electron (without branching). -/
theorem C62_source_zero_iff (ne : Nat → ℝ) (u E center : VField) (i : Nat) :
    (source ne u E center 0 i).1 = 0 ↔ E i = 0 ∨ u i = 0 ∨ ne i = 0 := by
  have hs : seed (center i) 0 = 0 := by simp [seed]
  have ha : alphaN (norm3 (E i)) = 0 ↔ E i = 0 := by
    rw [← norm3_eq_zero]
    unfold alphaN
    constructor
    · intro h
      by_contra h0
      split_ifs at h with h1
      · have := Real.exp_pos (-7.248e-15 / (norm3 (E i) / nGas)); norm_num at h
      · have := Real.exp_pos (-5.593e-15 / (norm3 (E i) / nGas)); norm_num at h
    · intro h; rw [h]; norm_num
  simp only [source, hs, add_zero, mul_eq_zero, ha, norm3_eq_zero, nGas_pos.ne', or_false, or_assoc]

/-- **C62**: one step changes the charge of a cell only by the transport of electrons. -/
theorem C62_step_charge (s : Dens) (x : StepIn) (i : Nat) :
    (step s x).ne i - (step s x).ni i = s.ne i - s.ni i + x.dt * ((x.rez_ne i + x.dis_ne i) / x.vol i) := by
  simp only [step, updateFlux, source]
  ring

/-- **C62** (history): after any sequence of steps on a mesh with volumes `vol`, the charge of a cell times its volume is the initial one
plus the accumulated transport; no charge is created by ionisation. -/
theorem C62_charge_history (s : Dens) (xs : List StepIn) (vol : Nat → ℝ) (hv : ∀ x ∈ xs, x.vol = vol) (i : Nat) (h0 : vol i ≠ 0) :
    vol i * ((runSteps s xs).ne i - (runSteps s xs).ni i)
      = vol i * (s.ne i - s.ni i) + (xs.map (fun x => x.dt * (x.rez_ne i + x.dis_ne i))).sum := by
  induction xs generalizing s with
  | nil => simp [runSteps]
  | cons x xs ih =>
    have e : runSteps s (x :: xs) = runSteps (step s x) xs := rfl
    rw [e, ih (step s x) (fun y hy => hv y (List.mem_cons_of_mem _ hy)), C62_step_charge, hv x (by simp), List.map_cons, List.sum_cons]
    field_simp
    ring

/-- **C62** (history, whole domain): if the transport of every step is conservative over the cells, total charge is constant. -/
theorem C62_total_charge (s : Dens) (xs : List StepIn) (vol : Nat → ℝ) (hv : ∀ x ∈ xs, x.vol = vol) (n : Nat) (h0 : ∀ i < n, vol i ≠ 0)
    (hc : ∀ x ∈ xs, ∑ i ∈ Finset.range n, (x.rez_ne i + x.dis_ne i) = 0) :
    ∑ i ∈ Finset.range n, vol i * ((runSteps s xs).ne i - (runSteps s xs).ni i) = ∑ i ∈ Finset.range n, vol i * (s.ne i - s.ni i) := by
  rw [Finset.sum_congr rfl (fun i hi => C62_charge_history s xs vol hv i (h0 i (Finset.mem_range.1 hi))), Finset.sum_add_distrib, sum_list_sum]
  rw [list_map_sum_zero, add_zero]
  intro x hx
  rw [← Finset.mul_sum, hc x hx, mul_zero]

/-- **C62**: where electrons are nonnegative the ion density never decreases. -/
theorem C62_ions_grow (s : Dens) (x : StepIn) (i : Nat) (hdt : 0 ≤ x.dt) (h : 0 ≤ s.ne i) : s.ni i ≤ (step s x).ni i := by
  have := C62_source_nonneg s.ne x.u x.E x.center 0 i h
  rw [C62_source_equal] at this
  simp only [step, updateFlux, add_zero, zero_div, zero_add]
  nlinarith [mul_nonneg hdt this]

theorem dissip_contrib (u E gradne : VField) (cell0 cell1 : Nat → Nat) (normal : VField) (name : Nat → Int) (r : Nat → ℝ) (f c : Nat) :
    dissipStep u E gradne cell0 cell1 normal name r f c
      = r c + ((if cell0 f = c then diffFlux u E gradne normal f else 0)
          - (if name f = 0 then (if cell1 f = c then diffFlux u E gradne normal f else 0) else 0)) := by
  unfold dissipStep diffFlux dot3
  by_cases h : name f = 0
  · simp only [h, if_true]; rw [subAt_apply, addAt_apply]; ring
  · simp only [h, if_false]; rw [addAt_apply]; ring

/-- **C62** (diffusion): the diffusive term of a cell is the sum of the fluxes through its faces, outward for the first cell of a face and
inward for the second cell of an interior face. -/
theorem C62_dissipative_balance (nb : Nat) (u E gradne : VField) (cell0 cell1 : Nat → Nat) (normal : VField) (name : Nat → Int) (c : Nat) :
    dissipative nb u E gradne cell0 cell1 normal name c
      = ∑ f ∈ Finset.range nb, ((if cell0 f = c then diffFlux u E gradne normal f else 0)
          - (if name f = 0 then (if cell1 f = c then diffFlux u E gradne normal f else 0) else 0)) := by
  unfold dissipative
  rw [foldl_contrib _ _ _ (fun r f _ c => dissip_contrib u E gradne cell0 cell1 normal name r f c), list_sum_range]
  simp

/-- **C62** (diffusion): summed over the cells, only the faces with a label (boundary, halo, periodic) contribute. -/
theorem C62_dissipative_conservative (nb n : Nat) (u E gradne : VField) (cell0 cell1 : Nat → Nat) (normal : VField) (name : Nat → Int)
    (h0 : ∀ f < nb, cell0 f < n) (h1 : ∀ f < nb, name f = 0 → cell1 f < n) :
    ∑ c ∈ Finset.range n, dissipative nb u E gradne cell0 cell1 normal name c
      = ∑ f ∈ (Finset.range nb).filter (fun f => name f ≠ 0), diffFlux u E gradne normal f := by
  simp only [C62_dissipative_balance]
  rw [Finset.sum_comm, Finset.sum_filter]
  apply Finset.sum_congr rfl
  intro f hf
  have hf := Finset.mem_range.1 hf
  rw [Finset.sum_sub_distrib, sum_ite_idx n _ _ (h0 f hf)]
  by_cases h : name f = 0
  · simp only [h, if_true, ne_eq, not_true, if_false]
    rw [sum_ite_idx n _ _ (h1 f hf h), sub_self]
  · simp [h]

/-- One face between cells 0 and 1 with unit gradient: the hypotheses hold. -/
example : (∀ f < 1, (fun _ => 0 : Nat → Nat) f < 2) ∧ (∀ f < 1, (fun _ => 0 : Nat → Int) f = 0 → (fun _ => 1 : Nat → Nat) f < 2) := by simp

/-- A history satisfying the hypotheses of `C62_total_charge`: transport moves charge 3 from cell 0 to cell 1. -/
example : let x : StepIn := { u := fun _ _ => 1, E := fun _ _ => 1, center := fun _ _ => 0, rez_ne := fun i => if i = 0 then -3 else 3,
                              dis_ne := fun _ => 0, dt := 1, vol := fun _ => 2 }
    ∀ y ∈ [x, x], y.vol = (fun _ => 2) ∧ ∑ i ∈ Finset.range 2, (y.rez_ne i + y.dis_ne i) = 0 := by
  intro x y hy
  have : y = x := by simpa using hy
  subst this
  simp [x, Finset.sum_range_succ]

/-! ## C79 -/

theorem rhsGlob_other (n : Nat) (ne ni : Nat → ℝ) (l2g : Nat → Nat) (rhs : Nat → ℝ) (g : Nat) (h : ∀ i < n, l2g i ≠ g) :
    rhsGlob n ne ni l2g rhs g = rhs g := by
  unfold rhsGlob
  induction n with
  | zero => simp
  | succ n ih =>
    rw [List.range_succ, List.foldl_append, List.foldl_cons, List.foldl_nil, setAt_ne _ _ (fun e => h n (by omega) e.symm)]
    exact ih (fun i hi => h i (by omega))

theorem rhsGlob_own (n : Nat) (ne ni : Nat → ℝ) (l2g : Nat → Nat) (rhs : Nat → ℝ) (i : Nat) (hi : i < n)
    (hinj : ∀ i < n, ∀ j < n, l2g i = l2g j → i = j) : rhsGlob n ne ni l2g rhs (l2g i) = 1.8096e-8 * (ne i - ni i) := by
  unfold rhsGlob
  induction n with
  | zero => omega
  | succ n ih =>
    rw [List.range_succ, List.foldl_append, List.foldl_cons, List.foldl_nil]
    by_cases e : i = n
    · subst e; rw [setAt_same]
    · have hne : l2g i ≠ l2g n := fun h => e (hinj i (by omega) n (by omega) h)
      rw [setAt_ne _ _ hne]
      exact ih (by omega) (fun i hi j hj => hinj i (by omega) j (by omega))

theorem runRhs_other (n : Nat → Nat) (l2g : Nat → Nat → Nat) (hist : List ((Nat → Nat → ℝ) × (Nat → Nat → ℝ))) (q g : Nat)
    (h : ∀ i < n q, l2g q i ≠ g) : runRhs n l2g hist q g = 0 := by
  unfold runRhs
  induction hist using List.reverseRecOn with
  | nil => rfl
  | append_singleton l d ih =>
    rw [List.foldl_append, List.foldl_cons, List.foldl_nil, rhsGlob_other _ _ _ _ _ _ h]
    exact ih

/-- **C79**: at every step of a run, whatever the earlier steps were, the right-hand side reduced on rank 0 holds at the global index of
cell `i` of rank `q` the value `1.8096e-8 (ne - ni)` of that cell, with no contribution of other ranks or of earlier steps. -/
theorem C79_poisson_rhs (R : Nat) (n : Nat → Nat) (l2g : Nat → Nat → Nat)
    (hinj : ∀ p < R, ∀ q < R, ∀ i < n p, ∀ j < n q, l2g p i = l2g q j → p = q ∧ i = j)
    (hist : List ((Nat → Nat → ℝ) × (Nat → Nat → ℝ))) (ne ni : Nat → Nat → ℝ) (q i : Nat) (hq : q < R) (hi : i < n q) :
    rhsReduced R n ne ni l2g (runRhs n l2g hist) (l2g q i) = 1.8096e-8 * (ne q i - ni q i) := by
  unfold rhsReduced
  rw [Finset.sum_eq_single q]
  · exact rhsGlob_own _ _ _ _ _ i hi (fun a ha b hb e => (hinj q hq q hq a ha b hb e).2)
  · intro p hp hne
    have hp := Finset.mem_range.1 hp
    have ho : ∀ j < n p, l2g p j ≠ l2g q i := fun j hj e => hne (hinj p hp q hq j hj i hi e).1
    rw [rhsGlob_other _ _ _ _ _ _ ho, runRhs_other _ _ _ _ _ ho]
  · intro h; exact absurd (Finset.mem_range.2 hq) h

/-- **C79**: the charge seen by the Poisson solver is the total charge (per cell) over all ranks. -/
theorem C79_poisson_rhs_neutral (R : Nat) (n : Nat → Nat) (l2g : Nat → Nat → Nat)
    (hinj : ∀ p < R, ∀ q < R, ∀ i < n p, ∀ j < n q, l2g p i = l2g q j → p = q ∧ i = j)
    (hist : List ((Nat → Nat → ℝ) × (Nat → Nat → ℝ))) (ne : Nat → Nat → ℝ) (q i : Nat) (hq : q < R) (hi : i < n q) :
    rhsReduced R n ne ne l2g (runRhs n l2g hist) (l2g q i) = 0 := by
  rw [C79_poisson_rhs R n l2g hinj hist ne ne q i hq hi]; ring

/-- Two ranks with two cells each, global numbers interleaved. -/
example : ∀ p < 2, ∀ q < 2, ∀ i < 2, ∀ j < 2, (fun p i => 2 * i + p : Nat → Nat → Nat) p i = (fun p i => 2 * i + p) q j → p = q ∧ i = j := by intros; dsimp only at *; omega

/-! ## C80 -/

theorem streamerLam_eq (u E normal : VField) (mesure volume : Nat → ℝ) (faceid : Nat → Nat → Nat) (dim i : Nat) (hE : E i ≠ 0)
    (hm : ∀ j ≤ dim, mesure (faceid i j) ≠ 0) :
    cellLamOpt u E normal mesure volume faceid dim i = some (rate u E normal volume faceid dim i) := by
  have h0 : ¬ norm3 (E i) = 0 := fun h => hE ((norm3_eq_zero _).1 h)
  unfold cellLamOpt
  rw [if_neg h0]
  simp only [Option.some.injEq]
  have key : ∀ (l : List Nat) (a : ℝ), (∀ j ∈ l, mesure (faceid i j) ≠ 0) → l.foldl (fun lam j =>
      lam + |u i 0 * normal (faceid i j) 0 + u i 1 * normal (faceid i j) 1 + u i 2 * normal (faceid i j) 2| / mesure (faceid i j) * mesure (faceid i j)
        + 0.3341e9 * (norm3 (E i) / nGas) ^ (0.54069 : ℝ) * (norm3 (u i) / norm3 (E i))
          * Real.sqrt (normal (faceid i j) 0 * normal (faceid i j) 0 + normal (faceid i j) 1 * normal (faceid i j) 1
            + normal (faceid i j) 2 * normal (faceid i j) 2) ^ 2 / volume i) a
      = a + (l.map (fun j => |dot3 (u i) (normal (faceid i j))|
        + cellDe (u i) (E i) * dot3 (normal (faceid i j)) (normal (faceid i j)) / volume i)).sum := by
    intro l
    induction l with
    | nil => intro a _; simp
    | cons x l ih =>
      intro a hx
      rw [List.foldl_cons, ih _ (fun j hj => hx j (List.mem_cons_of_mem _ hj)), List.map_cons, List.sum_cons]
      rw [div_mul_cancel₀ _ (hx x (by simp)), Real.sq_sqrt (by nlinarith [mul_self_nonneg (normal (faceid i x) 0), mul_self_nonneg (normal (faceid i x) 1), mul_self_nonneg (normal (faceid i x) 2)])]
      simp only [dot3, cellDe]
      ring
  have := key (List.range (dim + 1)) 0 (fun j hj => hm j (by have := List.mem_range.1 hj; omega))
  rw [list_sum_range, zero_add] at this
  exact this

theorem streamerTimeStep_fold (n : Nat) (u E : VField) (cfl : ℝ) (normal : VField) (mesure volume : Nat → ℝ) (faceid : Nat → Nat → Nat) (dim : Nat)
    (hm : ∀ i < n, ∀ j ≤ dim, mesure (faceid i j) ≠ 0) (x : ℝ) :
    x ≤ timeStep n u E cfl normal mesure volume faceid dim ↔ x ≤ 1e6 ∧ ∀ i < n, E i ≠ 0 → rate u E normal volume faceid dim i ≠ 0 →
      x ≤ cfl * volume i / rate u E normal volume faceid dim i := by
  induction n with
  | zero => simp [timeStep]
  | succ n ih =>
    have ih := ih (fun i hi => hm i (by omega))
    unfold timeStep at ih ⊢
    rw [List.range_succ, List.foldl_append, List.foldl_cons, List.foldl_nil]
    have split : (∀ i < n + 1, E i ≠ 0 → rate u E normal volume faceid dim i ≠ 0 → x ≤ cfl * volume i / rate u E normal volume faceid dim i)
        ↔ (∀ i < n, E i ≠ 0 → rate u E normal volume faceid dim i ≠ 0 → x ≤ cfl * volume i / rate u E normal volume faceid dim i)
          ∧ (E n ≠ 0 → rate u E normal volume faceid dim n ≠ 0 → x ≤ cfl * volume n / rate u E normal volume faceid dim n) := by
      constructor
      · intro h; exact ⟨fun i hi => h i (by omega), h n (by omega)⟩
      · rintro ⟨h1, h2⟩ i hi
        rcases Nat.lt_succ_iff_lt_or_eq.1 hi with h | h
        · exact h1 i h
        · subst h; exact h2
    rw [split, ← and_assoc, ← ih]
    by_cases hE : E n = 0
    · have : cellLamOpt u E normal mesure volume faceid dim n = none := by
        unfold cellLamOpt; rw [if_pos ((norm3_eq_zero _).2 hE)]
      rw [this]; simp [hE]
    · rw [streamerLam_eq u E normal mesure volume faceid dim n hE (hm n (by omega))]
      by_cases h0 : rate u E normal volume faceid dim n = 0
      · simp [h0]
      · simp [h0, hE]

/-- **C80** (partial): the time step is the largest number, at most `1e6`, that satisfies the convection–diffusion bound of every cell with a
nonzero field.  Missing: the cells whose averaged field is exactly zero are skipped (their rate is nan in floats), see the counterexample. -/
theorem C80_time_step_partial (n : Nat) (u E : VField) (cfl : ℝ) (normal : VField) (mesure volume : Nat → ℝ) (faceid : Nat → Nat → Nat) (dim : Nat)
    (hm : ∀ i < n, ∀ j ≤ dim, mesure (faceid i j) ≠ 0) :
    IsGreatest {x | x ≤ 1e6 ∧ ∀ i < n, E i ≠ 0 → rate u E normal volume faceid dim i ≠ 0 → x ≤ cfl * volume i / rate u E normal volume faceid dim i}
      (timeStep n u E cfl normal mesure volume faceid dim) :=
  ⟨(streamerTimeStep_fold n u E cfl normal mesure volume faceid dim hm _).1 le_rfl, fun x hx => (streamerTimeStep_fold n u E cfl normal mesure volume faceid dim hm x).2 hx⟩

/-- **C80** (partial): hence the step times the rate of a cell with a field is at most `cfl` times its volume. -/
theorem C80_cfl_partial (n : Nat) (u E : VField) (cfl : ℝ) (normal : VField) (mesure volume : Nat → ℝ) (faceid : Nat → Nat → Nat) (dim : Nat)
    (hm : ∀ i < n, ∀ j ≤ dim, mesure (faceid i j) ≠ 0) (i : Nat) (hi : i < n) (hE : E i ≠ 0) (hv : 0 < volume i) (hc : 0 ≤ cfl) :
    timeStep n u E cfl normal mesure volume faceid dim * rate u E normal volume faceid dim i ≤ cfl * volume i := by
  have hr : 0 ≤ rate u E normal volume faceid dim i := by
    apply Finset.sum_nonneg
    intro j _
    have hn := norm3_nonneg (E i)
    have hu := norm3_nonneg (u i)
    have h1 : 0 ≤ cellDe (u i) (E i) := by
      unfold cellDe
      have := nGas_pos
      positivity
    have h2 : 0 ≤ dot3 (normal (faceid i j)) (normal (faceid i j)) := by unfold dot3; nlinarith [mul_self_nonneg (normal (faceid i j) 0), mul_self_nonneg (normal (faceid i j) 1), mul_self_nonneg (normal (faceid i j) 2)]
    have := div_nonneg (mul_nonneg h1 h2) hv.le
    positivity
  rcases hr.eq_or_lt with h | h
  · rw [← h, mul_zero]; positivity
  · exact (le_div_iff₀ h).1 ((streamerTimeStep_fold n u E cfl normal mesure volume faceid dim hm _).1 le_rfl |>.2 i hi hE h.ne')

/-- Face fields of a triangle: `E/n = 5e-16, 5e-16` and `1e-15` in the opposite direction. -/
noncomputable def balField : VField := fun f => if f = 2 then ![-(2.5e4), 0, 0] else ![1.25e4, 0, 0]

theorem balField_cell : faceAverage balField (fun _ j => j) 2 0 = 0 := by
  funext k
  rw [C61_cell_average]
  fin_cases k <;> simp [Finset.sum_range_succ, balField] <;> norm_num

theorem balField_vel (old : VField) : faceAverage (velocityFaces 3 balField old) (fun _ j => j) 2 0 0 = -1.3e6 / 3 := by
  rw [C61_cell_average]
  have h0 : (![1.25e4, 0, 0] : Fin 3 → ℝ) ≠ 0 := fun h => by have := congrFun h 0; norm_num at this
  have h2 : (![-(2.5e4), 0, 0] : Fin 3 → ℝ) ≠ 0 := fun h => by have := congrFun h 0; norm_num at this
  have e0 : balField 0 = ![1.25e4, 0, 0] := by simp [balField]
  have e1 : balField 1 = ![1.25e4, 0, 0] := by simp [balField]
  have e2 : balField 2 = ![-(2.5e4), 0, 0] := by simp [balField]
  simp only [Finset.sum_range_succ, Finset.sum_range_zero, zero_add, C61_compute_velocity 3 balField old 0 (by norm_num),
    C61_compute_velocity 3 balField old 1 (by norm_num), C61_compute_velocity 3 balField old 2 (by norm_num), e0, e1, e2, h0, h2, if_false,
    norm3_x 1.25e4 (by norm_num), norm3_x_neg 2.5e4 (by norm_num)]
  unfold driftSpeed nGas
  norm_num

/-- **C80** (refutation of the full claim): the field of a cell can average to zero although electrons drift through its faces and the
averaged velocity is not zero; the time step then ignores the cell and is `1e6` whatever the mesh size. -/
theorem C80_zero_field_counterexample (normal old : VField) (mesure volume : Nat → ℝ) (cfl : ℝ) :
    let uc : VField := fun i => faceAverage (velocityFaces 3 balField old) (fun _ j => j) 2 i
    let Ec : VField := fun i => faceAverage balField (fun _ j => j) 2 i
    uc 0 ≠ 0 ∧ Ec 0 = 0 ∧ timeStep 1 uc Ec cfl normal mesure volume (fun _ j => j) 2 = 1e6 := by
  intro uc Ec
  refine ⟨?_, balField_cell, ?_⟩
  · intro h
    have := congrFun h 0
    have h2 := balField_vel old
    rw [show faceAverage (velocityFaces 3 balField old) (fun _ j => j) 2 0 0 = 0 from this] at h2
    norm_num at h2
  · have : cellLamOpt uc Ec normal mesure volume (fun _ j => j) 2 0 = none := by
      unfold cellLamOpt
      rw [if_pos ((norm3_eq_zero _).2 balField_cell)]
    simp [timeStep, this]

/-- The hypotheses of the partial theorems are met by a cell with unit faces. -/
example : (∀ i < 1, ∀ j ≤ 2, (fun _ => 1 : Nat → ℝ) ((fun _ j => j : Nat → Nat → Nat) i j) ≠ 0) ∧ (fun _ _ => 1 : VField) 0 ≠ 0 := by
  constructor
  · intros; norm_num
  · intro h; have := congrFun h 0; norm_num at this

end Verif.Props
