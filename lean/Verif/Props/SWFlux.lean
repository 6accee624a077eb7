import Verif.Spec.SW
import Mathlib.Tactic.FinCases
import Mathlib.Tactic.Positivity
import Mathlib.Algebra.BigOperators.Fin
import Mathlib.Analysis.Calculus.Deriv.Inv
import Mathlib.Analysis.Calculus.Deriv.Pow
import Mathlib.Analysis.Calculus.Deriv.Add

/-!
# The shallow-water flux: eigenvalues, upwind matrix, consistency, symmetry (C53, C74, C75)
-/
set_option linter.unusedSectionVars false
set_option linter.unusedSimpArgs false
set_option linter.unusedVariables false
set_option linter.unnecessarySeqFocus false
set_option linter.unusedTactic false
set_option linter.unreachableTactic false
namespace Verif.SW
open Verif

/-! ## Eigenvalues -/

theorem eigQ_eq (g h u v : ℝ) : eigQ g h u v = -(u ^ 2 + 3 * (g * h)) / 9 := by simp [eigQ, srnhAs]; ring
theorem eigR_eq (g h u v : ℝ) : eigR g h u v = u * (9 * (g * h) - u ^ 2) / 27 := by simp [eigR, srnhAs]; ring

/-- **C53** (definedness): for positive depth the argument of the square roots is positive and the argument of `arccos` lies in `[-1, 1]`,
whatever the velocity. -/
theorem C53_arccos_defined (g h u v : ℝ) (hh : 0 < g * h) :
    0 < -(eigQ g h u v) ∧ 0 < -(eigQ g h u v ^ 3) ∧
    |eigR g h u v / Real.sqrt (-(eigQ g h u v ^ 3))| ≤ 1 := by
  have hQ : 0 < -(eigQ g h u v) := by rw [eigQ_eq]; have := sq_nonneg u; linarith
  have hQ3 : 0 < -(eigQ g h u v ^ 3) := by
    have : -(eigQ g h u v ^ 3) = (-(eigQ g h u v)) ^ 3 := by ring
    rw [this]; positivity
  refine ⟨hQ, hQ3, ?_⟩
  rw [abs_div, abs_of_pos (Real.sqrt_pos.2 hQ3), div_le_one (Real.sqrt_pos.2 hQ3)]
  apply Real.abs_le_sqrt
  rw [eigQ_eq, eigR_eq]
  have : -((-(u ^ 2 + 3 * (g * h)) / 9) ^ 3) - (u * (9 * (g * h) - u ^ 2) / 27) ^ 2 = (g * h) * (u ^ 2 - g * h) ^ 2 / 27 := by ring
  have h2 : 0 ≤ (g * h) * (u ^ 2 - g * h) ^ 2 / 27 := by positivity
  linarith

/-- Each computed number is a root of `λ (λ - u - c) (λ - u + c)`. -/
theorem eig_root (g h u v φ : ℝ) (hh : 0 < g * h)
    (hφ : Real.cos (3 * φ) = eigR g h u v / Real.sqrt (-(eigQ g h u v ^ 3))) (l : ℝ)
    (hl : l = 2 * Real.sqrt (-(eigQ g h u v)) * Real.cos φ + 2 / 3 * u) :
    l * (l - u - Real.sqrt (g * h)) * (l - u + Real.sqrt (g * h)) = 0 := by
  obtain ⟨hQ, hQ3, -⟩ := C53_arccos_defined g h u v hh
  have hs2 : Real.sqrt (-(eigQ g h u v)) ^ 2 = (u ^ 2 + 3 * (g * h)) / 9 := by
    rw [Real.sq_sqrt hQ.le, eigQ_eq]; ring
  have hs3 : Real.sqrt (-(eigQ g h u v ^ 3)) = Real.sqrt (-(eigQ g h u v)) ^ 3 := by
    have : -(eigQ g h u v ^ 3) = (-(eigQ g h u v)) ^ 2 * (-(eigQ g h u v)) := by ring
    rw [this, Real.sqrt_mul (by positivity), Real.sqrt_sq hQ.le]
    conv_lhs => rw [← Real.sq_sqrt hQ.le]
    rw [Real.sqrt_sq (Real.sqrt_nonneg _)]
    ring
  have hs : 0 < Real.sqrt (-(eigQ g h u v)) := Real.sqrt_pos.2 hQ
  have hc2 : Real.sqrt (g * h) ^ 2 = g * h := Real.sq_sqrt hh.le
  generalize Real.sqrt (-(eigQ g h u v)) = s at *
  generalize Real.sqrt (g * h) = c at *
  rw [hs3, Real.cos_three_mul, eq_div_iff (by positivity), eigR_eq, ← hc2] at hφ
  rw [← hc2] at hs2
  subst hl
  have h1 : (4 * Real.cos φ ^ 3 - 3 * Real.cos φ) * s ^ 3 = u * (9 * c ^ 2 - u ^ 2) / 27 := hφ
  linear_combination 2 * h1 + 6 * s * Real.cos φ * hs2

theorem cos_shift (θ k : ℝ) (n : ℤ) (h : k = 2 * n) : Real.cos (3 * ((θ + k * Real.pi) / 3)) = Real.cos θ := by
  have : 3 * ((θ + k * Real.pi) / 3) = θ + n * (2 * Real.pi) := by rw [h]; ring
  rw [this, Real.cos_add_int_mul_two_pi]

theorem sorted_roots (l1 l2 l3 u c : ℝ) (hc : 0 ≤ c) (r1 : l1 * (l1 - u - c) * (l1 - u + c) = 0) (r2 : l2 * (l2 - u - c) * (l2 - u + c) = 0)
    (hsum : l1 + l2 + l3 = 2 * u) (he2 : l1 * l2 + l1 * l3 + l2 * l3 = u ^ 2 - c ^ 2) (O1 : l3 ≤ l1) (O2 : l2 ≤ l3) :
    l1 = max 0 (u + c) ∧ l2 = min 0 (u - c) := by
  have cases3 : ∀ l, l * (l - u - c) * (l - u + c) = 0 → l = 0 ∨ l = u + c ∨ l = u - c := by
    intro l hl
    rcases mul_eq_zero.1 hl with hl | hl
    · rcases mul_eq_zero.1 hl with hl | hl
      · exact .inl hl
      · exact .inr (.inl (by linarith))
    · exact .inr (.inr (by linarith))
  have he3 : l1 * l2 * l3 = 0 := by linear_combination r1 - l1 ^ 2 * hsum + l1 * he2
  have poly : ∀ x, x * (x - u - c) * (x - u + c) = 0 → (x - l1) * (x - l2) * (x - l3) = 0 := by
    intro x hx; linear_combination hx - x ^ 2 * hsum + x * he2 - he3
  have mem : ∀ x, x * (x - u - c) * (x - u + c) = 0 → l2 ≤ x ∧ x ≤ l1 := by
    intro x hx
    rcases mul_eq_zero.1 (poly x hx) with h | h
    · rcases mul_eq_zero.1 h with h | h <;> constructor <;> linarith
    · constructor <;> linarith
  have m0 := mem 0 (by ring)
  have mp := mem (u + c) (by ring)
  have mm := mem (u - c) (by ring)
  constructor
  · apply le_antisymm
    · rcases cases3 _ r1 with h | h | h
      · rw [h]; exact le_max_left _ _
      · rw [h]; exact le_max_right _ _
      · rw [h]; exact le_max_of_le_right (by linarith)
    · exact max_le m0.2 mp.2
  · apply le_antisymm
    · exact le_min m0.1 mm.1
    · rcases cases3 _ r2 with h | h | h
      · rw [h]; exact min_le_left _ _
      · rw [h]; exact min_le_of_right_le (by linarith)
      · rw [h]; exact min_le_right _ _

/-- **C53** (eigenvalues): the three numbers are the eigenvalues `u + c`, `u - c`, `0` in decreasing order first, third, second
(`c = sqrt(g h)`). -/
theorem C53_eigenvalues (g h u v : ℝ) (hh : 0 < g * h) :
    eigs g h u v = (max 0 (u + Real.sqrt (g * h)), min 0 (u - Real.sqrt (g * h)),
      2 * u - max 0 (u + Real.sqrt (g * h)) - min 0 (u - Real.sqrt (g * h))) := by
  obtain ⟨hQ, hQ3, habs⟩ := C53_arccos_defined g h u v hh
  have hc : 0 < Real.sqrt (g * h) := Real.sqrt_pos.2 hh
  have hc2 : Real.sqrt (g * h) ^ 2 = g * h := Real.sq_sqrt hh.le
  obtain ⟨x, hx⟩ : ∃ x, x = eigR g h u v / Real.sqrt (-(eigQ g h u v ^ 3)) := ⟨_, rfl⟩
  obtain ⟨s, hs⟩ : ∃ s, s = Real.sqrt (-(eigQ g h u v)) := ⟨_, rfl⟩
  have hs0 : 0 < s := by rw [hs]; exact Real.sqrt_pos.2 hQ
  have hs2 : s ^ 2 = (u ^ 2 + 3 * (g * h)) / 9 := by rw [hs, Real.sq_sqrt hQ.le, eigQ_eq]; ring
  have hcos : Real.cos (Real.arccos x) = x := Real.cos_arccos (abs_le.1 (hx ▸ habs)).1 (abs_le.1 (hx ▸ habs)).2
  have ha0 := Real.arccos_nonneg x
  have hapi := Real.arccos_le_pi x
  obtain ⟨θ, hθ⟩ : ∃ θ, θ = Real.arccos x := ⟨_, rfl⟩
  rw [← hθ] at hcos ha0 hapi
  have r1 := eig_root g h u v (θ / 3) hh (by rw [← hx, ← hcos]; congr 1; ring) _ rfl
  have r2 := eig_root g h u v ((θ + 2 * Real.pi) / 3) hh (by rw [← hx, ← hcos]; exact cos_shift θ 2 1 (by norm_num)) _ rfl
  have r3 := eig_root g h u v ((θ + 4 * Real.pi) / 3) hh (by rw [← hx, ← hcos]; exact cos_shift θ 4 2 (by norm_num)) _ rfl
  have he : eigs g h u v = (2 * s * Real.cos (θ / 3) + 2 / 3 * u, 2 * s * Real.cos ((θ + 2 * Real.pi) / 3) + 2 / 3 * u,
      2 * s * Real.cos ((θ + 4 * Real.pi) / 3) + 2 / 3 * u) := by
    simp only [eigs, hs, hθ, hx]
  rw [he]
  rw [← hs] at r1 r2 r3
  have hpi := Real.pi_pos
  have c3 : Real.cos ((θ + 4 * Real.pi) / 3) = Real.cos ((2 * Real.pi - θ) / 3) := by
    rw [show (θ + 4 * Real.pi) / 3 = 2 * Real.pi - (2 * Real.pi - θ) / 3 by ring, Real.cos_two_pi_sub]
  have o1 : Real.cos ((θ + 4 * Real.pi) / 3) ≤ Real.cos (θ / 3) := by
    rw [c3]; apply Real.cos_le_cos_of_nonneg_of_le_pi <;> linarith
  have o2 : Real.cos ((θ + 2 * Real.pi) / 3) ≤ Real.cos ((θ + 4 * Real.pi) / 3) := by
    rw [c3]; apply Real.cos_le_cos_of_nonneg_of_le_pi <;> linarith
  have e23 : Real.cos (2 * Real.pi / 3) = -1 / 2 := by
    rw [show 2 * Real.pi / 3 = Real.pi - Real.pi / 3 by ring, Real.cos_pi_sub, Real.cos_pi_div_three]; norm_num
  have e43 : Real.cos (4 * Real.pi / 3) = -1 / 2 := by
    rw [show 4 * Real.pi / 3 = Real.pi / 3 + Real.pi by ring, Real.cos_add_pi, Real.cos_pi_div_three]; norm_num
  have s23 : Real.sin (2 * Real.pi / 3) = Real.sqrt 3 / 2 := by
    rw [show 2 * Real.pi / 3 = Real.pi - Real.pi / 3 by ring, Real.sin_pi_sub, Real.sin_pi_div_three]
  have s43 : Real.sin (4 * Real.pi / 3) = -(Real.sqrt 3 / 2) := by
    rw [show 4 * Real.pi / 3 = Real.pi / 3 + Real.pi by ring, Real.sin_add_pi, Real.sin_pi_div_three]
  have a2 : Real.cos ((θ + 2 * Real.pi) / 3) = -1 / 2 * Real.cos (θ / 3) - Real.sqrt 3 / 2 * Real.sin (θ / 3) := by
    rw [show (θ + 2 * Real.pi) / 3 = θ / 3 + 2 * Real.pi / 3 by ring, Real.cos_add, e23, s23]; ring
  have a3 : Real.cos ((θ + 4 * Real.pi) / 3) = -1 / 2 * Real.cos (θ / 3) + Real.sqrt 3 / 2 * Real.sin (θ / 3) := by
    rw [show (θ + 4 * Real.pi) / 3 = θ / 3 + 4 * Real.pi / 3 by ring, Real.cos_add, e43, s43]; ring
  have hsc := Real.sin_sq_add_cos_sq (θ / 3)
  have h3 : Real.sqrt 3 ^ 2 = 3 := Real.sq_sqrt (by norm_num)
  obtain ⟨l1, hl1⟩ : ∃ l1, l1 = 2 * s * Real.cos (θ / 3) + 2 / 3 * u := ⟨_, rfl⟩
  obtain ⟨l2, hl2⟩ : ∃ l2, l2 = 2 * s * Real.cos ((θ + 2 * Real.pi) / 3) + 2 / 3 * u := ⟨_, rfl⟩
  obtain ⟨l3, hl3⟩ : ∃ l3, l3 = 2 * s * Real.cos ((θ + 4 * Real.pi) / 3) + 2 / 3 * u := ⟨_, rfl⟩
  rw [← hl1] at r1; rw [← hl2] at r2; rw [← hl3] at r3
  rw [← hl1, ← hl2, ← hl3]
  have hsum : l1 + l2 + l3 = 2 * u := by rw [hl1, hl2, hl3, a2, a3]; ring
  have he2 : l1 * l2 + l1 * l3 + l2 * l3 = u ^ 2 - g * h := by
    rw [hl1, hl2, hl3, a2, a3]
    linear_combination (-3 * Real.cos (θ / 3) ^ 2 - Real.sin (θ / 3) ^ 2 * Real.sqrt 3 ^ 2) * hs2
      - (u ^ 2 + 3 * (g * h)) / 9 * (Real.sin (θ / 3) ^ 2) * h3 - 3 * ((u ^ 2 + 3 * (g * h)) / 9) * hsc
  have O1 : l3 ≤ l1 := by rw [hl1, hl3]; have := mul_le_mul_of_nonneg_left o1 hs0.le; linarith
  have O2 : l2 ≤ l3 := by rw [hl2, hl3]; have := mul_le_mul_of_nonneg_left o2 hs0.le; linarith
  rw [← hc2] at he2
  have main := sorted_roots l1 l2 l3 u (Real.sqrt (g * h)) hc.le r1 r2 hsum he2 O1 O2
  rw [← main.1, ← main.2]
  refine Prod.ext rfl (Prod.ext rfl ?_)
  show l3 = 2 * u - l1 - l2
  linarith

/-! ## The upwind matrix -/

theorem sgn_zero : sgn 0 = 0 := by simp [sgn]
theorem sgn_neg (x : ℝ) : sgn (-x) = -sgn x := by simp only [sgn, abs_neg]; split_ifs <;> ring

/-- The eigenvector of an eigenvalue `l`. -/
noncomputable def eigVec (l u v C c : ℝ) : Fin 5 → ℝ := ![1, l, v, C, (l - u) ^ 2 / c ^ 2 - 1]

/-- Left factor of eigenvalue `l`, the other two being `m`, `n`; `σ` its normalisation. -/
noncomputable def leftVec (m n u c σ : ℝ) : Fin 5 → ℝ :=
  ![(c ^ 2 - u ^ 2 + m * n) / σ, -((m - u) + (n - u)) / σ, 0, 0, c ^ 2 / σ]

/-- The part of the matrix carried by the tangential velocity and the concentration. -/
def tangPart (v C : ℝ) : Fin 5 → Fin 5 → ℝ := fun i j => match i, j with
  | 2, 0 => -v | 2, 2 => 1 | 3, 0 => -C | 3, 3 => 1 | _, _ => 0

theorem rmat_outer (c u v C l1 l2 l3 : ℝ) (i j : Fin 5) : rmat c u v C 0 l1 l2 l3 i j =
    sgn l1 * eigVec l1 u v C c i * leftVec l2 l3 u c ((l1 - l2) * (l1 - l3)) j
    - sgn l2 * eigVec l2 u v C c i * leftVec l1 l3 u c ((l1 - l2) * (l2 - l3)) j
    + sgn l3 * eigVec l3 u v C c i * leftVec l1 l2 u c ((l1 - l3) * (l2 - l3)) j + sgn u * tangPart v C i j := by
  have s1 : -(l1 - u) * (l2 - u) + (l2 - u) * (l3 - u) - (l1 - u) * (l3 - u) + (l1 - u) ^ 2 = (l1 - l2) * (l1 - l3) := by ring
  have s2 : (l1 - u) * (l2 - u) + (l2 - u) * (l3 - u) - (l1 - u) * (l3 - u) - (l2 - u) ^ 2 = (l1 - l2) * (l2 - l3) := by ring
  have s3 : (l1 - u) * (l2 - u) - (l2 - u) * (l3 - u) - (l1 - u) * (l3 - u) + (l3 - u) ^ 2 = (l1 - l3) * (l2 - l3) := by ring
  simp only [rmat, s1, s2, s3]
  generalize sgn l1 = S1
  generalize sgn l2 = S2
  generalize sgn l3 = S3
  generalize sgn u = Su
  generalize (l1 - l2) * (l1 - l3) = σ1
  generalize (l1 - l2) * (l2 - l3) = σ2
  generalize (l1 - l3) * (l2 - l3) = σ3
  fin_cases i <;> fin_cases j <;> simp only [eigVec, leftVec, tangPart] <;> simp <;> ring

theorem left_eig (l m n u v C c σ : ℝ) (hc : c ≠ 0) (hσ : σ ≠ 0) (x : ℝ) :
    ∑ j, leftVec m n u c σ j * eigVec x u v C c j = (x - m) * (x - n) / σ := by
  simp only [Fin.sum_univ_five, leftVec, eigVec]
  simp
  field_simp
  ring

theorem rmat_mul (c u v C l1 l2 l3 : ℝ) (x : Fin 5 → ℝ) (i : Fin 5) : ∑ j, rmat c u v C 0 l1 l2 l3 i j * x j =
    sgn l1 * eigVec l1 u v C c i * ∑ j, leftVec l2 l3 u c ((l1 - l2) * (l1 - l3)) j * x j
    - sgn l2 * eigVec l2 u v C c i * ∑ j, leftVec l1 l3 u c ((l1 - l2) * (l2 - l3)) j * x j
    + sgn l3 * eigVec l3 u v C c i * ∑ j, leftVec l1 l2 u c ((l1 - l3) * (l2 - l3)) j * x j + sgn u * ∑ j, tangPart v C i j * x j := by
  simp only [rmat_outer, Finset.mul_sum, ← Finset.sum_add_distrib, ← Finset.sum_sub_distrib]
  exact Finset.sum_congr rfl (fun j _ => by ring)

theorem left_tang (m n u c σ a b : ℝ) : ∑ j, leftVec m n u c σ j * (![0, 0, a, b, 0] : Fin 5 → ℝ) j = 0 := by
  simp [Fin.sum_univ_five, leftVec]

/-- The matrix scales each of its eigenvectors by the sign of the eigenvalue. -/
theorem rmat_eigVec (c u v C l1 l2 l3 : ℝ) (hc : c ≠ 0) (h12 : l1 ≠ l2) (h13 : l1 ≠ l3) (h23 : l2 ≠ l3) (i : Fin 5) :
    (∑ j, rmat c u v C 0 l1 l2 l3 i j * eigVec l1 u v C c j = sgn l1 * eigVec l1 u v C c i) ∧
    (∑ j, rmat c u v C 0 l1 l2 l3 i j * eigVec l2 u v C c j = sgn l2 * eigVec l2 u v C c i) ∧
    (∑ j, rmat c u v C 0 l1 l2 l3 i j * eigVec l3 u v C c j = sgn l3 * eigVec l3 u v C c i) := by
  have d12 : l1 - l2 ≠ 0 := sub_ne_zero.2 h12
  have d13 : l1 - l3 ≠ 0 := sub_ne_zero.2 h13
  have d23 : l2 - l3 ≠ 0 := sub_ne_zero.2 h23
  have ht : ∀ l, ∑ j, tangPart v C i j * eigVec l u v C c j = 0 := by
    intro l; fin_cases i <;> simp [Fin.sum_univ_five, tangPart, eigVec]
  refine ⟨?_, ?_, ?_⟩ <;> rw [rmat_mul, left_eig l1 _ _ _ _ _ _ _ hc (mul_ne_zero d12 d13), left_eig l2 _ _ _ _ _ _ _ hc (mul_ne_zero d12 d23),
    left_eig l3 _ _ _ _ _ _ _ hc (mul_ne_zero d13 d23), ht] <;> field_simp <;> ring

theorem eigs_mem (g h u v : ℝ) (hh : 0 < g * h) (l : ℝ) (hl : l = 0 ∨ l = u + Real.sqrt (g * h) ∨ l = u - Real.sqrt (g * h)) :
    l = (eigs g h u v).1 ∨ l = (eigs g h u v).2.1 ∨ l = (eigs g h u v).2.2 := by
  rw [C53_eigenvalues g h u v hh]
  have hc : 0 < Real.sqrt (g * h) := Real.sqrt_pos.2 hh
  generalize Real.sqrt (g * h) = c at *
  rcases le_total 0 (u + c) with hp | hp <;> rcases le_total 0 (u - c) with hm | hm <;>
    simp only [max_eq_right, max_eq_left, min_eq_left, min_eq_right, hp, hm] <;> rcases hl with rfl | rfl | rfl <;>
    first
    | exact .inl (by linarith)
    | exact .inr (.inl (by linarith))
    | exact .inr (.inr (by linarith))

theorem eigs_ne (g h u v : ℝ) (hh : 0 < g * h) (hcr : u ^ 2 ≠ g * h) :
    (eigs g h u v).1 ≠ (eigs g h u v).2.1 ∧ (eigs g h u v).1 ≠ (eigs g h u v).2.2 ∧ (eigs g h u v).2.1 ≠ (eigs g h u v).2.2 := by
  rw [C53_eigenvalues g h u v hh]
  have hc : 0 < Real.sqrt (g * h) := Real.sqrt_pos.2 hh
  rw [← Real.sq_sqrt hh.le] at hcr
  generalize Real.sqrt (g * h) = c at *
  have h1 : u ≠ c := fun e => hcr (by rw [e])
  have h2 : u ≠ -c := fun e => hcr (by rw [e]; ring)
  rcases le_total 0 (u + c) with hp | hp <;> rcases le_total 0 (u - c) with hm | hm <;>
    simp only [max_eq_right, max_eq_left, min_eq_left, min_eq_right, hp, hm] <;> refine ⟨?_, ?_, ?_⟩ <;> intro e <;>
    first
    | exact h1 (by linarith)
    | exact h2 (by linarith)
    | linarith

/-- **C75** (the upwind matrix is the sign of the Jacobian): for positive depth and non-critical flow, the matrix used by the flux
maps every eigenvector of the shallow-water matrix to itself times the sign of its eigenvalue (0 for eigenvalues below `1e-10`). -/
theorem C75_upwind_matrix (g h u v C : ℝ) (hh : 0 < g * h) (hcr : u ^ 2 ≠ g * h) (lam : ℝ) (r : Fin 5 → ℝ)
    (hr : ∀ i, ∑ j, jacobian u v C (Real.sqrt (g * h)) i j * r j = lam * r i) (i : Fin 5) :
    let e := eigs g h u v
    ∑ j, rmat (Real.sqrt (g * h)) u v C 0 e.1 e.2.1 e.2.2 i j * r j = sgn lam * r i := by
  intro e
  have hc : 0 < Real.sqrt (g * h) := Real.sqrt_pos.2 hh
  have hmem := eigs_mem g h u v hh lam
  obtain ⟨n12, n13, n23⟩ := eigs_ne g h u v hh hcr
  change (lam = 0 ∨ _ ∨ _) → (lam = e.1 ∨ lam = e.2.1 ∨ lam = e.2.2) at hmem
  change e.1 ≠ e.2.1 at n12
  change e.1 ≠ e.2.2 at n13
  change e.2.1 ≠ e.2.2 at n23
  obtain ⟨l1, l2, l3⟩ := e
  simp only at hmem n12 n13 n23 ⊢
  generalize Real.sqrt (g * h) = c at *
  have E0 := hr 0; have E1 := hr 1; have E2 := hr 2; have E3 := hr 3; have E4 := hr 4
  simp only [Fin.sum_univ_five, jacobian] at E0 E1 E2 E3 E4
  simp only [zero_mul, zero_add, add_zero, one_mul] at E0 E1 E2 E3 E4
  have hq : ∀ y s, (lam - u) * y = 0 → s = y → sgn u * y = sgn lam * y := by
    intro y s hy _
    rcases mul_eq_zero.1 hy with h | h
    · rw [sub_eq_zero.1 h]
    · rw [h]; ring
  have t2 : sgn u * (r 2 - v * r 0) = sgn lam * (r 2 - v * r 0) := hq _ _ (by linear_combination v * E0 - E2) rfl
  have t3 : sgn u * (r 3 - C * r 0) = sgn lam * (r 3 - C * r 0) := hq _ _ (by linear_combination C * E0 - E3) rfl
  -- decomposition
  have hdec : r = fun i => r 0 * eigVec lam u v C c i + (![0, 0, r 2 - v * r 0, r 3 - C * r 0, 0] : Fin 5 → ℝ) i := by
    have h4 : r 4 = r 0 * ((lam - u) ^ 2 / c ^ 2 - 1) := by
      have : c ^ 2 * r 4 = r 0 * ((lam - u) ^ 2 - c ^ 2) := by linear_combination E1 - (2 * u - lam) * E0
      field_simp
      linear_combination this
    funext k
    fin_cases k <;> simp [eigVec]
    · rw [E0]; ring
    · ring
    · ring
    · exact h4
  have hcase : r 0 = 0 ∨ lam = l1 ∨ lam = l2 ∨ lam = l3 := by
    by_cases h0 : lam = 0
    · exact .inr (hmem (.inl h0))
    · have h4 : r 4 = 0 := by rcases mul_eq_zero.1 E4.symm with h | h; exacts [absurd h h0, h]
      have : r 0 * ((lam - u - c) * (lam - u + c)) = 0 := by
        rw [h4] at E1; linear_combination (2 * u - lam) * E0 - E1
      rcases mul_eq_zero.1 this with h | h
      · exact .inl h
      · rcases mul_eq_zero.1 h with h | h
        · exact .inr (hmem (.inr (.inl (by linarith))))
        · exact .inr (hmem (.inr (.inr (by linarith))))
  have hE : r 0 * ∑ j, rmat c u v C 0 l1 l2 l3 i j * eigVec lam u v C c j = r 0 * (sgn lam * eigVec lam u v C c i) := by
    obtain ⟨k1, k2, k3⟩ := rmat_eigVec c u v C l1 l2 l3 hc.ne' n12 n13 n23 i
    rcases hcase with h | rfl | rfl | rfl
    · rw [h]; ring
    · rw [k1]
    · rw [k2]
    · rw [k3]
  have hT : ∑ j, rmat c u v C 0 l1 l2 l3 i j * (![0, 0, r 2 - v * r 0, r 3 - C * r 0, 0] : Fin 5 → ℝ) j
      = sgn lam * (![0, 0, r 2 - v * r 0, r 3 - C * r 0, 0] : Fin 5 → ℝ) i := by
    rw [rmat_mul, left_tang, left_tang, left_tang]
    fin_cases i <;> simp [Fin.sum_univ_five, tangPart, t2, t3]
  calc ∑ j, rmat c u v C 0 l1 l2 l3 i j * r j
      = r 0 * ∑ j, rmat c u v C 0 l1 l2 l3 i j * eigVec lam u v C c j
        + ∑ j, rmat c u v C 0 l1 l2 l3 i j * (![0, 0, r 2 - v * r 0, r 3 - C * r 0, 0] : Fin 5 → ℝ) j := by
        rw [Finset.mul_sum, ← Finset.sum_add_distrib]
        exact Finset.sum_congr rfl (fun j _ => by conv_lhs => rw [hdec]
                                                  ring)
    _ = sgn lam * r i := by rw [hE, hT]; conv_rhs => rw [hdec]
                            ring

/-! ## Consistency -/

theorem beta_zero (v h : ℝ) : 2 * srnhAs * srnhXi * v / h = 0 := by simp [srnhAs]

/-- **C75** (the predicted state is upwinded): if the jump between the two states, seen in the frame of the face, is an eigenvector of the
shallow-water matrix at the Roe average (mean depth; normal and tangential components of the average velocity; average concentration),
then the state used in the flux is the mean of the two states minus half the sign of the eigenvalue times the jump: the left state if the
wave moves along the normal, the right state if it moves against it. -/
theorem C75_predicted_state (l r : W5) (n : Nat → ℝ) (mes g lam : ℝ) (hh : 0 < g * ((l 0 + r 0) / 2))
    (hcr : (along n mes (roeMean l r 1) (roeMean l r 2)) ^ 2 ≠ g * ((l 0 + r 0) / 2))
    (hr : ∀ i, ∑ j, jacobian (along n mes (roeMean l r 1) (roeMean l r 2)) (across n mes (roeMean l r 1) (roeMean l r 2))
        (roeMean l r 3) (Real.sqrt (g * ((l 0 + r 0) / 2))) i j * (inFrame r n mes j - inFrame l n mes j)
      = lam * (inFrame r n mes i - inFrame l n mes i)) (i : Fin 5) :
    predict l r n mes g i = (inFrame l n mes i + inFrame r n mes i) / 2 - sgn lam * (inFrame r n mes i - inFrame l n mes i) / 2 := by
  have hm : ∀ k, roeAvg (l 0) (r 0) (l k) (r k) = roeMean l r k := by
    intro k; unfold roeAvg roeMean; rw [mul_comm (Real.sqrt (l 0)), mul_comm (Real.sqrt (r 0))]
  have hu : uRoe l r n mes = along n mes (roeMean l r 1) (roeMean l r 2) := by
    unfold uRoe along; rw [hm, hm]; ring
  have hv : vRoe l r n mes = across n mes (roeMean l r 1) (roeMean l r 2) := by
    unfold vRoe across; rw [hm, hm]; ring
  have hf : ∀ w, rotate w n mes = inFrame w n mes := by
    intro w; funext k
    fin_cases k <;> simp [rotate, inFrame, along, across] <;> ring
  simp only [predict, beta_zero, hu, hv, hm, hf]
  have := C75_upwind_matrix g ((l 0 + r 0) / 2) _ _ _ hh hcr lam (fun j => inFrame r n mes j - inFrame l n mes j) hr i
  simp only at this
  rw [this]

/-- Non-vacuity of C75: a shear wave (same depth, same normal velocity 1, tangential velocities 2 and 5) through the face with normal
(0, 2): eigenvalue 1, the predicted state is the left state. -/
example : predict ![1, -2, 1, 0, 0] ![1, -5, 1, 0, 0] (fun k => if k = 0 then 0 else 2) 2 9.81 2 = 2 := by
  have hs : Real.sqrt 1 = 1 := Real.sqrt_one
  have ha : along (fun k => if k = 0 then 0 else 2) 2 (roeMean ![1, -2, 1, 0, 0] ![1, -5, 1, 0, 0] 1)
      (roeMean ![1, -2, 1, 0, 0] ![1, -5, 1, 0, 0] 2) = 1 := by
    simp [along, roeMean]
  rw [C75_predicted_state _ _ _ _ _ 1 (by norm_num) (by rw [ha]; norm_num) (fun i => by
    rw [ha]
    fin_cases i <;> simp [Fin.sum_univ_five, jacobian, inFrame, along, across])]
  simp [inFrame, across, sgn]
  norm_num

/-- **C53** (consistency): with the same state on both sides the flux is the flux of the shallow-water equations through the face; its bottom
component is 0.  (`mesure` is the length of the normal.) -/
theorem C53_consistent (w : W5) (n : Nat → ℝ) (mes g : ℝ) (hm : mes ≠ 0) (hmes : mes ^ 2 = n 0 ^ 2 + n 1 ^ 2) (hw : w 0 ≠ 0) :
    srnh w w n mes g = physFlux w n g := by
  have hp : predict w w n mes g = rotate w n mes := by
    funext i; simp only [predict, sub_self, mul_zero, Finset.sum_const_zero]; ring
  have hu : (rotate w n mes 1 * n 0 + rotate w n mes 2 * -1 * n 1) / mes = w 1 := by
    simp only [rotate]; simp
    field_simp
    rw [hmes]; ring
  have hv : (rotate w n mes 1 * -1 * (-1 * n 1) + rotate w n mes 2 * n 0) / mes = w 2 := by
    simp only [rotate]; simp
    field_simp
    rw [hmes]; ring
  have h0 : rotate w n mes 0 = w 0 := rfl
  have h3 : rotate w n mes 3 = w 3 := rfl
  simp only [srnh, hp, hu, hv, h0, h3, physFlux]
  funext i
  fin_cases i <;> simp [srnhAs] <;> ring

/-- **C53**, **C54**: the bottom component of the flux is always 0. -/
theorem C53_bottom_flux_zero (l r : W5) (n : Nat → ℝ) (mes g : ℝ) : srnh l r n mes g 4 = 0 := by
  simp [srnh, srnhAs]

/-! ## The two sides of a face -/

theorem roeAvg_comm (hl hr ql qr : ℝ) : roeAvg hl hr ql qr = roeAvg hr hl qr ql := by
  simp only [roeAvg]; rw [add_comm, add_comm (Real.sqrt hl)]

theorem uRoe_flip (l r : W5) (n : Nat → ℝ) (mes : ℝ) : uRoe r l (flipN n) mes = -uRoe l r n mes := by
  simp only [uRoe, flipN, roeAvg_comm (r 0)]; ring

theorem vRoe_flip (l r : W5) (n : Nat → ℝ) (mes : ℝ) : vRoe r l (flipN n) mes = -vRoe l r n mes := by
  simp only [vRoe, flipN, roeAvg_comm (r 0)]; ring

theorem eigs_flip (g h u v v' : ℝ) :
    eigs g h (-u) v' = (-(eigs g h u v).2.1, -(eigs g h u v).1, -(eigs g h u v).2.2) := by
  have hQ : eigQ g h (-u) v' = eigQ g h u v := by rw [eigQ_eq, eigQ_eq]; ring
  have hR : eigR g h (-u) v' = -eigR g h u v := by rw [eigR_eq, eigR_eq]; ring
  simp only [eigs, hQ, hR, neg_div, Real.arccos_neg]
  generalize Real.arccos (eigR g h u v / Real.sqrt (-(eigQ g h u v ^ 3))) = θ
  have e1 : Real.cos ((Real.pi - θ) / 3) = -Real.cos ((θ + 2 * Real.pi) / 3) := by
    rw [← Real.cos_pi_sub]; congr 1; ring
  have e2 : Real.cos ((Real.pi - θ + 2 * Real.pi) / 3) = -Real.cos (θ / 3) := by
    rw [← Real.cos_pi_sub]; congr 1; ring
  have e3 : Real.cos ((Real.pi - θ + 4 * Real.pi) / 3) = -Real.cos ((θ + 4 * Real.pi) / 3) := by
    rw [show (Real.pi - θ + 4 * Real.pi) / 3 = 2 * Real.pi - (θ + Real.pi) / 3 by ring, Real.cos_two_pi_sub,
      show (θ + 4 * Real.pi) / 3 = (θ + Real.pi) / 3 + Real.pi by ring, Real.cos_add_pi, neg_neg]
  rw [e1, e2, e3]
  refine Prod.ext ?_ (Prod.ext ?_ ?_) <;> simp only <;> ring

/-- Sign of a component under reversal of the face frame. -/
def flipS : Fin 5 → ℝ := ![1, -1, -1, 1, 1]

theorem eigVec_flip (l u v C c : ℝ) (i : Fin 5) : eigVec (-l) (-u) (-v) C c i = flipS i * eigVec l u v C c i := by
  fin_cases i <;> simp [eigVec, flipS] <;> ring

theorem leftVec_flip (m n u c σ : ℝ) (j : Fin 5) : leftVec (-m) (-n) (-u) c σ j = flipS j * leftVec m n u c σ j := by
  fin_cases j <;> simp [leftVec, flipS] <;> ring

theorem tangPart_flip (v C : ℝ) (i j : Fin 5) : tangPart (-v) C i j = flipS i * tangPart v C i j * flipS j := by
  fin_cases i <;> fin_cases j <;> simp [tangPart, flipS]

theorem leftVec_comm (m n u c σ : ℝ) (j : Fin 5) : leftVec m n u c σ j = leftVec n m u c σ j := by
  fin_cases j <;> simp [leftVec] <;> ring

theorem leftVec_neg (m n u c σ : ℝ) (j : Fin 5) : leftVec m n u c (-σ) j = -leftVec m n u c σ j := by
  fin_cases j <;> simp [leftVec, div_neg, neg_div]

theorem rmat_flip (c u v C l1 l2 l3 : ℝ) (i j : Fin 5) :
    rmat c (-u) (-v) C 0 (-l2) (-l1) (-l3) i j = -(flipS i * rmat c u v C 0 l1 l2 l3 i j * flipS j) := by
  rw [rmat_outer, rmat_outer]
  simp only [sgn_neg, eigVec_flip, leftVec_flip, tangPart_flip]
  rw [show (-l2 - -l1) * (-l2 - -l3) = -((l1 - l2) * (l2 - l3)) by ring, show (-l2 - -l1) * (-l1 - -l3) = -((l1 - l2) * (l1 - l3)) by ring,
    show (-l2 - -l3) * (-l1 - -l3) = (l1 - l3) * (l2 - l3) by ring, leftVec_neg, leftVec_neg, leftVec_comm l2 l1]
  ring

theorem rotate_flip (w : W5) (n : Nat → ℝ) (mes : ℝ) (i : Fin 5) : rotate w (flipN n) mes i = flipS i * rotate w n mes i := by
  fin_cases i <;> simp [rotate, flipN, flipS] <;> ring

theorem flipS_sq (i : Fin 5) : flipS i * flipS i = 1 := by fin_cases i <;> simp [flipS]

theorem predict_flip (l r : W5) (n : Nat → ℝ) (mes g : ℝ) (i : Fin 5) :
    predict r l (flipN n) mes g i = flipS i * predict l r n mes g i := by
  simp only [predict, beta_zero, uRoe_flip, vRoe_flip, roeAvg_comm (r 0)]
  rw [add_comm (r 0) (l 0), eigs_flip g _ (uRoe l r n mes) (vRoe l r n mes) _]
  simp only [rmat_flip, rotate_flip]
  generalize eigs g ((l 0 + r 0) / 2) (uRoe l r n mes) (vRoe l r n mes) = e
  have : ∀ j, -(flipS i * rmat (Real.sqrt (g * ((l 0 + r 0) / 2))) (uRoe l r n mes) (vRoe l r n mes) (roeAvg (l 0) (r 0) (l 3) (r 3)) 0 e.1 e.2.1 e.2.2 i j * flipS j)
      * (flipS j * rotate l n mes j - flipS j * rotate r n mes j)
      = flipS i * (rmat (Real.sqrt (g * ((l 0 + r 0) / 2))) (uRoe l r n mes) (vRoe l r n mes) (roeAvg (l 0) (r 0) (l 3) (r 3)) 0 e.1 e.2.1 e.2.2 i j
        * (rotate r n mes j - rotate l n mes j)) := by
    intro j
    linear_combination (flipS i * rmat (Real.sqrt (g * ((l 0 + r 0) / 2))) (uRoe l r n mes) (vRoe l r n mes) (roeAvg (l 0) (r 0) (l 3) (r 3)) 0 e.1 e.2.1 e.2.2 i j
        * (rotate r n mes j - rotate l n mes j)) * flipS_sq j
  rw [Finset.sum_congr rfl (fun j _ => this j), ← Finset.mul_sum]
  ring

/-- **C74** (one flux per face): computing the flux from the other side of the face — exchanged states, opposite normal, as the other rank of a
halo face does — gives exactly the opposite flux, whatever the states. -/
theorem C74_flux_antisymmetric (l r : W5) (n : Nat → ℝ) (mes g : ℝ) :
    srnh r l (flipN n) mes g = fun i => -srnh l r n mes g i := by
  have hp := predict_flip l r n mes g
  have e0 : predict r l (flipN n) mes g 0 = predict l r n mes g 0 := by rw [hp]; simp [flipS]
  have e1 : predict r l (flipN n) mes g 1 = -predict l r n mes g 1 := by rw [hp]; simp [flipS]
  have e2 : predict r l (flipN n) mes g 2 = -predict l r n mes g 2 := by rw [hp]; simp [flipS]
  have e3 : predict r l (flipN n) mes g 3 = predict l r n mes g 3 := by rw [hp]; simp [flipS]
  funext i
  simp only [srnh, e0, e1, e2, e3]
  fin_cases i <;> simp [flipN, srnhAs] <;> ring

/-! ## The matrix of the specification is the derivative of the flux -/

/-- **C75** (the matrix is the right one): away from dry states the first four columns of the matrix are the partial derivatives of the flux
of the equations in the direction `x`; the fifth is the bottom slope term `g h ∂Z` of the momentum equation. -/
theorem C75_jacobian_is_derivative (w : W5) (g : ℝ) (hw : 0 < w 0) (hg : 0 < g) (i : Fin 5) (j : Fin 5) (hj : j ≠ 4) :
    HasDerivAt (fun t => physFlux (Function.update w j t) (fun k => if k = 0 then 1 else 0) g i)
      (jacobian (w 1 / w 0) (w 2 / w 0) (w 3 / w 0) (Real.sqrt (g * w 0)) i j) (w j) := by
  have hs : Real.sqrt (g * w 0) ^ 2 = g * w 0 := Real.sq_sqrt (by positivity)
  have hne := hw.ne'
  -- quotient by the depth
  have q0 : ∀ A : ℝ, HasDerivAt (fun t : ℝ => A / t) (-A / (w 0) ^ 2) (w 0) := by
    intro A
    have := (hasDerivAt_const (w 0) A).fun_div (hasDerivAt_id' (w 0)) hne
    exact HasDerivAt.congr_deriv this (by simp)
  fin_cases j
  · fin_cases i
    · simpa [physFlux, jacobian] using hasDerivAt_const (w 0) (w 1)
    · have h1 := (q0 (w 1)).const_mul (w 1)
      have h2 := ((hasDerivAt_id' (w 0)).fun_pow 2).const_mul (g / 2)
      have h := HasDerivAt.fun_add h1 h2
      simp only [jacobian, hs]
      refine (HasDerivAt.congr_deriv h ?_).congr_of_eventuallyEq (Filter.Eventually.of_forall fun t => ?_)
      · simp; field_simp; ring
      · simp [physFlux]; ring
    · have h1 := (q0 (w 2)).const_mul (w 1)
      refine (HasDerivAt.congr_deriv h1 ?_).congr_of_eventuallyEq (Filter.Eventually.of_forall fun t => ?_)
      · simp [jacobian]; field_simp
      · simp [physFlux]
    · have h1 := (q0 (w 3)).const_mul (w 1)
      refine (HasDerivAt.congr_deriv h1 ?_).congr_of_eventuallyEq (Filter.Eventually.of_forall fun t => ?_)
      · simp [jacobian]; field_simp
      · simp [physFlux]
    · simpa [physFlux, jacobian] using hasDerivAt_const (w 0) (0 : ℝ)
  · fin_cases i
    · simpa [physFlux, jacobian] using hasDerivAt_id' (w 1)
    · have h := ((hasDerivAt_id' (w 1)).fun_pow 2).div_const (w 0)
      have h := HasDerivAt.add_const (g * w 0 ^ 2 / 2) h
      refine (HasDerivAt.congr_deriv h ?_).congr_of_eventuallyEq (Filter.Eventually.of_forall fun t => ?_)
      · simp [jacobian]; ring
      · simp [physFlux]; ring
    · have h := (hasDerivAt_id' (w 1)).mul_const (w 2 / w 0)
      refine (HasDerivAt.congr_deriv h ?_).congr_of_eventuallyEq (Filter.Eventually.of_forall fun t => ?_)
      · simp [jacobian]
      · simp [physFlux]
    · have h := (hasDerivAt_id' (w 1)).mul_const (w 3 / w 0)
      refine (HasDerivAt.congr_deriv h ?_).congr_of_eventuallyEq (Filter.Eventually.of_forall fun t => ?_)
      · simp [jacobian]
      · simp [physFlux]
    · simpa [physFlux, jacobian] using hasDerivAt_const (w 1) (0 : ℝ)
  · fin_cases i
    · simpa [physFlux, jacobian] using hasDerivAt_const (w 2) (w 1)
    · simpa [physFlux, jacobian] using hasDerivAt_const (w 2) (w 1 * (w 1 / w 0))
    · have h := ((hasDerivAt_id' (w 2)).div_const (w 0)).const_mul (w 1)
      refine (HasDerivAt.congr_deriv h ?_).congr_of_eventuallyEq (Filter.Eventually.of_forall fun t => ?_)
      · simp [jacobian]; ring
      · simp [physFlux]
    · simpa [physFlux, jacobian] using hasDerivAt_const (w 2) (w 1 * (w 3 / w 0))
    · simpa [physFlux, jacobian] using hasDerivAt_const (w 2) (0 : ℝ)
  · fin_cases i
    · simpa [physFlux, jacobian] using hasDerivAt_const (w 3) (w 1)
    · simpa [physFlux, jacobian] using hasDerivAt_const (w 3) (w 1 * (w 1 / w 0))
    · simpa [physFlux, jacobian] using hasDerivAt_const (w 3) (w 1 * (w 2 / w 0))
    · have h := ((hasDerivAt_id' (w 3)).div_const (w 0)).const_mul (w 1)
      refine (HasDerivAt.congr_deriv h ?_).congr_of_eventuallyEq (Filter.Eventually.of_forall fun t => ?_)
      · simp [jacobian]; ring
      · simp [physFlux]
    · simpa [physFlux, jacobian] using hasDerivAt_const (w 3) (0 : ℝ)
  · exact absurd rfl hj

/-! ## Concrete cases -/

/-- C53 on moving water through a face of length 5. -/
example : srnh ![2, 3, -1, 4, 7] ![2, 3, -1, 4, 7] (fun k => if k = 0 then 3 else 4) 5 g0
    = physFlux ![2, 3, -1, 4, 7] (fun k => if k = 0 then 3 else 4) g0 :=
  C53_consistent _ _ _ _ (by norm_num) (by norm_num) (by simp)

/-- C75 on `g h = 4`, `u = 1`: `c = 2`, the eigenvalue `u - c = -1` and its eigenvector. -/
example : ∀ i, ∑ j, jacobian 1 5 6 (Real.sqrt (4 * 1)) i j * (![1, -1, 5, 6, 0] : Fin 5 → ℝ) j = -1 * (![1, -1, 5, 6, 0] : Fin 5 → ℝ) i := by
  have : Real.sqrt (4 * 1) = 2 := by rw [show (4 * 1 : ℝ) = 2 ^ 2 by norm_num, Real.sqrt_sq (by norm_num)]
  rw [this]
  intro i
  fin_cases i <;> simp [Fin.sum_univ_five, jacobian] <;> norm_num

/-- C53: at `g h = 4`, `u = 1` the three computed numbers are 3, -1 and 0. -/
example : eigs 4 1 1 0 = (3, -1, 0) := by
  have : Real.sqrt (4 * 1) = 2 := by rw [show (4 * 1 : ℝ) = 2 ^ 2 by norm_num, Real.sqrt_sq (by norm_num)]
  rw [C53_eigenvalues 4 1 1 0 (by norm_num), this]
  norm_num

end Verif.SW
