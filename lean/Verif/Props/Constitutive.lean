import Verif.Spec.Constitutive
import Verif.Props.Streamer

/-!
# C85: the wind stress of the shallow-water model.  C86: the electron diffusion of the streamer model.
-/
set_option linter.unusedSectionVars false
set_option linter.unusedVariables false
namespace Verif.Props
open Verif Verif.Spec

/-! ## C85 -/

/-- **C85**: the stress is the wind vector times a factor that depends on the wind speed only. -/
theorem C85_wind_direction (u v : ℝ) :
    SW.wind u v = (dragCoefficient (len2 u v) * len2 u v * u, dragCoefficient (len2 u v) * len2 u v * v) := by
  unfold SW.wind dragCoefficient len2
  refine Prod.ext ?_ ?_ <;> dsimp only <;> ring

/-- **C85**: the modulus of the stress is the drag coefficient times the square of the wind speed. -/
theorem C85_wind_modulus (u v : ℝ) :
    len2 (SW.wind u v).1 (SW.wind u v).2 = dragCoefficient (len2 u v) * len2 u v ^ 2 := by
  rw [C85_wind_direction]
  have hl : 0 ≤ len2 u v := Real.sqrt_nonneg _
  have hc : 0 ≤ dragCoefficient (len2 u v) := by unfold dragCoefficient; positivity
  have hsq : len2 u v ^ 2 = u ^ 2 + v ^ 2 := Real.sq_sqrt (by positivity)
  have : len2 (dragCoefficient (len2 u v) * len2 u v * u) (dragCoefficient (len2 u v) * len2 u v * v)
      = Real.sqrt ((dragCoefficient (len2 u v) * len2 u v ^ 2) ^ 2) := by
    conv_lhs => unfold len2
    congr 1
    change (dragCoefficient (len2 u v) * len2 u v * u) ^ 2 + (dragCoefficient (len2 u v) * len2 u v * v) ^ 2 = _
    linear_combination (-(dragCoefficient (len2 u v) ^ 2 * len2 u v ^ 2)) * hsq
  rw [this, Real.sqrt_sq (by positivity)]

/-- **C85**: the wind does positive work on water moving with it, no stress without wind, and the stress does not depend on the
axes: turning the wind by a rotation turns the stress. -/
theorem C85_wind_rotation (u v a b : ℝ) (h : a ^ 2 + b ^ 2 = 1) :
    SW.wind (a * u - b * v) (b * u + a * v) =
      (a * (SW.wind u v).1 - b * (SW.wind u v).2, b * (SW.wind u v).1 + a * (SW.wind u v).2) := by
  have hl : len2 (a * u - b * v) (b * u + a * v) = len2 u v := by
    unfold len2; congr 1; linear_combination (u ^ 2 + v ^ 2) * h
  rw [C85_wind_direction, C85_wind_direction, hl]
  refine Prod.ext ?_ ?_ <;> dsimp only <;> ring

theorem C85_wind_zero_iff (u v : ℝ) : SW.wind u v = (0, 0) ↔ u = 0 ∧ v = 0 := by
  constructor
  · intro h
    have hm := C85_wind_modulus u v
    rw [h] at hm
    have h0 : len2 (0 : ℝ) 0 = 0 := by unfold len2; simp
    simp only [h0] at hm
    have hl : 0 ≤ len2 u v := Real.sqrt_nonneg _
    have hc : 0 < dragCoefficient (len2 u v) := by unfold dragCoefficient; positivity
    have hz : len2 u v = 0 := by
      rcases mul_eq_zero.1 hm.symm with h1 | h1
      · exact absurd h1 hc.ne'
      · exact pow_eq_zero_iff (two_ne_zero) |>.1 h1
    unfold len2 at hz
    have hz2 := (Real.sqrt_eq_zero (by positivity)).1 hz
    constructor <;> nlinarith [sq_nonneg u, sq_nonneg v]
  · rintro ⟨rfl, rfl⟩
    rw [C85_wind_direction]; simp

/-- A wind of 5 along (3, 4): modulus of the stress `1.28 · 1.085 · 10⁻³ · 25`. -/
example : len2 (SW.wind 3 4).1 (SW.wind 3 4).2 = 1.28 * (0.75 + 0.067 * 5) * 1e-3 * 5 ^ 2 := by
  have : len2 3 4 = 5 := by unfold len2; rw [show (3 : ℝ) ^ 2 + 4 ^ 2 = 5 ^ 2 by norm_num]; exact Real.sqrt_sq (by norm_num)
  rw [C85_wind_modulus, this]; rfl

/-! ## C86 -/
open Verif.Streamer Verif.Spec.Streamer

/-- **C86**: the diffusion coefficient of a face is nonnegative. -/
theorem C86_coefficient_nonneg (u E : Fin 3 → ℝ) : 0 ≤ faceDe u E := by
  unfold faceDe
  split
  · exact le_refl _
  · have h1 : 0 ≤ norm3 E := Real.sqrt_nonneg _
    have h2 : 0 ≤ norm3 u := Real.sqrt_nonneg _
    have h3 := nGas_pos
    have h4 : 0 ≤ norm3 E / nGas := div_nonneg h1 h3.le
    have h5 := Real.rpow_nonneg h4 0.54069
    positivity

/-- **C86**: it is positive exactly where the field and the electron velocity do not vanish. -/
theorem C86_coefficient_pos_iff (u E : Fin 3 → ℝ) : 0 < faceDe u E ↔ norm3 E ≠ 0 ∧ norm3 u ≠ 0 := by
  unfold faceDe
  split
  · next h => simp [h]
  · next h =>
    have h1 : 0 < norm3 E := lt_of_le_of_ne (Real.sqrt_nonneg _) (Ne.symm h)
    have h2 : 0 ≤ norm3 u := Real.sqrt_nonneg _
    have h3 : 0 < norm3 E / nGas := div_pos h1 nGas_pos
    have h5 := Real.rpow_pos_of_pos h3 0.54069
    constructor
    · intro hp
      refine ⟨h, fun h0 => ?_⟩
      rw [h0] at hp; simp at hp
    · rintro ⟨-, hu⟩
      have h6 : 0 < norm3 u := lt_of_le_of_ne h2 (Ne.symm hu)
      positivity

/-- **C86**: diffusion dissipates: if on every interior face the normal gradient has the sign of the difference of the two densities, and
no flux crosses the labelled faces, the diffusive term of a step never increases the `L²` norm (`∑ ne·diss ≤ 0`), and it keeps the
number of electrons. -/
theorem C86_diffusion_dissipates (nb n : Nat) (ne : Nat → ℝ) (u E gradne : VField) (cell0 cell1 : Nat → Nat) (normal : VField) (name : Nat → Int)
    (h0 : ∀ f < nb, cell0 f < n) (h1 : ∀ f < nb, name f = 0 → cell1 f < n)
    (hs : ∀ f < nb, name f = 0 → 0 ≤ dot3 (gradne f) (normal f) * (ne (cell1 f) - ne (cell0 f)))
    (hb : ∀ f < nb, name f ≠ 0 → dot3 (gradne f) (normal f) = 0) :
    ∑ c ∈ Finset.range n, ne c * dissipative nb u E gradne cell0 cell1 normal name c ≤ 0 ∧
      ∑ c ∈ Finset.range n, dissipative nb u E gradne cell0 cell1 normal name c = 0 := by
  constructor
  · have e : ∑ c ∈ Finset.range n, ne c * dissipative nb u E gradne cell0 cell1 normal name c
        = ∑ f ∈ Finset.range nb, (diffFlux u E gradne normal f * ne (cell0 f)
            - (if name f = 0 then diffFlux u E gradne normal f * ne (cell1 f) else 0)) := by
      simp only [C62_dissipative_balance, Finset.mul_sum]
      rw [Finset.sum_comm]
      apply Finset.sum_congr rfl
      intro f hf
      have hf := Finset.mem_range.1 hf
      simp only [mul_sub]
      rw [Finset.sum_sub_distrib]
      congr 1
      · rw [Finset.sum_eq_single (cell0 f)]
        · rw [if_pos rfl, mul_comm]
        · intro c _ hc; rw [if_neg (Ne.symm hc), mul_zero]
        · intro h; exact absurd (Finset.mem_range.2 (h0 f hf)) h
      · by_cases h : name f = 0
        · simp only [if_pos h]
          rw [Finset.sum_eq_single (cell1 f)]
          · rw [if_pos rfl, mul_comm]
          · intro c _ hc; rw [if_neg (Ne.symm hc), mul_zero]
          · intro h'; exact absurd (Finset.mem_range.2 (h1 f hf h)) h'
        · simp [h]
    rw [e]
    apply Finset.sum_nonpos
    intro f hf
    have hf := Finset.mem_range.1 hf
    by_cases h : name f = 0
    · rw [if_pos h]
      have := mul_nonneg (C86_coefficient_nonneg (u f) (E f)) (hs f hf h)
      unfold diffFlux
      nlinarith
    · rw [if_neg h]
      unfold diffFlux
      rw [hb f hf h]; simp
  · rw [C62_dissipative_conservative nb n u E gradne cell0 cell1 normal name h0 h1]
    apply Finset.sum_eq_zero
    intro f hf
    obtain ⟨hf, hn⟩ := Finset.mem_filter.1 hf
    unfold diffFlux
    rw [hb f (Finset.mem_range.1 hf) hn, mul_zero]

/-- Two cells with densities 1 and 3, one interior face with gradient (2, 0, 0) and a wall without gradient meet the hypotheses. -/
example : let ne : Nat → ℝ := fun c => if c = 0 then 1 else 3
    let gradne : VField := fun f => if f = 0 then ![2, 0, 0] else ![0, 0, 0]
    let normal : VField := fun _ => ![1, 0, 0]
    let name : Nat → Int := fun f => if f = 0 then 0 else 3
    (∀ f < 2, name f = 0 → 0 ≤ dot3 (gradne f) (normal f) * (ne 1 - ne 0)) ∧ (∀ f < 2, name f ≠ 0 → dot3 (gradne f) (normal f) = 0) := by
  intro ne gradne normal name
  constructor
  · intro f hf hn
    interval_cases f
    · simp [ne, gradne, normal, dot3]
    · simp [name] at hn
  · intro f hf hn
    interval_cases f
    · simp [name] at hn
    · simp [gradne, normal, dot3]

end Verif.Props
