import Verif.Spec.Fvm
import Mathlib.Algebra.Order.BigOperators.Group.List

/-! Helper lemmas: the four face loops of the convective schemes add up to the balance. -/
set_option linter.unusedSectionVars false
namespace Verif.Fvm
open Verif.Spec
variable {K : Type*} [Field K] [LinearOrder K] [IsStrictOrderedRing K]

theorem upwind_eq (w_l w_r u v w : K) (n : Nat → K) :
    computeUpwindFlux w_l w_r u v w n = upwind (u * n 0 + v * n 1 + w * n 2) w_l w_r := by
  unfold computeUpwindFlux upwind
  by_cases h : u * n 0 + v * n 1 + w * n 2 ≥ 0
  · simp only [h, if_true, max_eq_left h, min_eq_right h]; ring
  · have h' := le_of_lt (not_le.mp h)
    simp only [h, if_false, max_eq_right h', min_eq_left h']; ring

theorem sumAt_eq (l : List Nat) (side : Nat → Nat) (F : Nat → K) (c : Nat) :
    sumAt l side F c = (l.map (fun i => if side i = c then F i else 0)).sum := by
  unfold sumAt
  induction l with
  | nil => simp
  | cons a l ih =>
    by_cases h : side a = c
    · simp [h, ih]
    · simp [h, ih]

theorem sumAt_congr (l : List Nat) (side : Nat → Nat) (F G : Nat → K) (c : Nat)
    (h : ∀ i ∈ l, side i = c → F i = G i) : sumAt l side F c = sumAt l side G c := by
  rw [sumAt_eq, sumAt_eq]
  apply list_map_sum_congr
  intro i hi
  by_cases hc : side i = c
  · simp [hc, h i hi hc]
  · simp [hc]

theorem sum_sumAt (n : Nat) (l : List Nat) (side : Nat → Nat) (F : Nat → K)
    (h : ∀ i ∈ l, side i < n) :
    ∑ c ∈ Finset.range n, sumAt l side F c = (l.map F).sum := by
  simp only [sumAt_eq]
  rw [sum_list_sum n l (fun i c => if side i = c then F i else 0)]
  apply list_map_sum_congr
  intro i hi
  rw [sum_ite_idx n (side i) (F i) (h i hi)]

section steps
variable (a : ConvArgs K)

theorem extrap2 (order : Int) (w ψ : K) (g r : Nat → K) :
    extrap 2 order w ψ g r = w + ((order - 1 : Int) : K) * ψ * (g 0 * r 0 + g 1 * r 1) := by
  simp [extrap, Finset.sum_range_succ]

theorem extrap3 (order : Int) (w ψ : K) (g r : Nat → K) :
    extrap 3 order w ψ g r = w + ((order - 1 : Int) : K) * ψ * (g 0 * r 0 + g 1 * r 1 + g 2 * r 2) := by
  simp [extrap, Finset.sum_range_succ]

theorem innerStep2_apply (r : Nat → K) (i j : Nat) :
    a.innerStep2 r i j = r j + (- (if left a i = j then innerFlux a 2 i else 0)
      + (if right a i = j then innerFlux a 2 i else 0)) := by
  unfold ConvArgs.innerStep2
  simp only [upwind_eq, addAt_apply, subAt_apply, innerFlux, cellAtFace, extrap2, cellGrad, vn, left, right,
    ConvArgs.cl, ConvArgs.cr, idx]
  ring

theorem innerStep3_apply (r : Nat → K) (i j : Nat) :
    a.innerStep3 r i j = r j + (- (if left a i = j then innerFlux a 3 i else 0)
      + (if right a i = j then innerFlux a 3 i else 0)) := by
  unfold ConvArgs.innerStep3
  simp only [upwind_eq, addAt_apply, subAt_apply, innerFlux, cellAtFace, extrap3, cellGrad, vn, left, right,
    ConvArgs.cl, ConvArgs.cr, idx]
  ring

theorem haloStep2_apply (r : Nat → K) (i j : Nat) :
    a.haloStep2 r i j = r j + - (if left a i = j then haloFlux a 2 i else 0) := by
  unfold ConvArgs.haloStep2
  simp only [upwind_eq, subAt_apply, haloFlux, cellAtFace, haloAtFace, extrap2, cellGrad, haloGrad, vn, left,
    ConvArgs.cl, idx]
  ring

theorem haloStep3_apply (r : Nat → K) (i j : Nat) :
    a.haloStep3 r i j = r j + - (if left a i = j then haloFlux a 3 i else 0) := by
  unfold ConvArgs.haloStep3
  simp only [upwind_eq, subAt_apply, haloFlux, cellAtFace, haloAtFace, extrap3, cellGrad, haloGrad, vn, left,
    ConvArgs.cl, idx]
  ring

theorem boundaryStep2_apply (r : Nat → K) (i j : Nat) :
    a.boundaryStep2 r i j = r j + - (if left a i = j then boundaryFlux a 2 i else 0) := by
  unfold ConvArgs.boundaryStep2
  simp only [upwind_eq, subAt_apply, boundaryFlux, cellAtFace, extrap2, cellGrad, vn, left,
    ConvArgs.cl, idx]
  ring

theorem boundaryStep3_apply (r : Nat → K) (i j : Nat) :
    a.boundaryStep3 r i j = r j + - (if left a i = j then boundaryFlux a 3 i else 0) := by
  unfold ConvArgs.boundaryStep3
  simp only [upwind_eq, subAt_apply, boundaryFlux, cellAtFace, extrap3, cellGrad, vn, left,
    ConvArgs.cl, idx]
  ring

theorem periodicStep2_apply (s : ConvArgs.PerState K) (i j : Nat)
    (hn : a.name i = 11 ∨ a.name i = 22 ∨ a.name i = 33 ∨ a.name i = 44) :
    (a.periodicStep2 s i).rez j = s.rez j + - (if left a i = j then periodicFlux a 2 i else 0) := by
  unfold ConvArgs.periodicStep2
  simp only [upwind_eq, subAt_apply, periodicFlux, cellAtFace, imageAtFace, extrap2, cellGrad, vn, left, right,
    ConvArgs.cl, ConvArgs.cr, idx, perDir]
  rcases hn with h | h | h | h <;> simp [h, setAt] <;> ring_nf

theorem periodicStep3_apply (s : ConvArgs.PerState K) (i j : Nat)
    (hn : a.name i = 11 ∨ a.name i = 22 ∨ a.name i = 33 ∨ a.name i = 44 ∨ a.name i = 55 ∨ a.name i = 66) :
    (a.periodicStep3 s i).rez j = s.rez j + - (if left a i = j then periodicFlux a 3 i else 0) := by
  unfold ConvArgs.periodicStep3
  simp only [upwind_eq, subAt_apply, periodicFlux, cellAtFace, imageAtFace, extrap3, cellGrad, vn, left, right,
    ConvArgs.cl, ConvArgs.cr, idx, perDir]
  rcases hn with h | h | h | h | h | h <;> simp [h, setAt] <;> ring_nf

theorem periodicFold2 (l : List Nat)
    (hn : ∀ i ∈ l, a.name i = 11 ∨ a.name i = 22 ∨ a.name i = 33 ∨ a.name i = 44)
    (s : ConvArgs.PerState K) (j : Nat) :
    (l.foldl a.periodicStep2 s).rez j
      = s.rez j + (l.map (fun i => - (if left a i = j then periodicFlux a 2 i else 0))).sum := by
  induction l generalizing s with
  | nil => simp
  | cons i l ih =>
    rw [List.foldl_cons, ih (fun k hk => hn k (List.mem_cons_of_mem _ hk)),
      periodicStep2_apply a s i j (hn i (by simp)), List.map_cons, List.sum_cons, add_assoc]

theorem periodicFold3 (l : List Nat)
    (hn : ∀ i ∈ l, a.name i = 11 ∨ a.name i = 22 ∨ a.name i = 33 ∨ a.name i = 44 ∨ a.name i = 55 ∨ a.name i = 66)
    (s : ConvArgs.PerState K) (j : Nat) :
    (l.foldl a.periodicStep3 s).rez j
      = s.rez j + (l.map (fun i => - (if left a i = j then periodicFlux a 3 i else 0))).sum := by
  induction l generalizing s with
  | nil => simp
  | cons i l ih =>
    rw [List.foldl_cons, ih (fun k hk => hn k (List.mem_cons_of_mem _ hk)),
      periodicStep3_apply a s i j (hn i (by simp)), List.map_cons, List.sum_cons, add_assoc]

theorem conv2_eq_balance (hn : ∀ i ∈ a.periodicboundaryfaces,
      a.name i = 11 ∨ a.name i = 22 ∨ a.name i = 33 ∨ a.name i = 44) (c : Nat) :
    a.explicitschemeConvective2d c = balance a 2 c := by
  unfold ConvArgs.explicitschemeConvective2d
  rw [foldl_contrib _ _ _ (fun r i _ j => boundaryStep2_apply a r i j),
    foldl_contrib _ _ _ (fun r i _ j => haloStep2_apply a r i j),
    periodicFold2 a _ hn]
  dsimp only
  rw [foldl_contrib _ _ _ (fun r i _ j => innerStep2_apply a r i j)]
  unfold balance
  simp only [sumAt_eq, list_map_sum_neg, list_map_sum_add]
  ring

theorem conv3_eq_balance (hn : ∀ i ∈ a.periodicboundaryfaces,
      a.name i = 11 ∨ a.name i = 22 ∨ a.name i = 33 ∨ a.name i = 44 ∨ a.name i = 55 ∨ a.name i = 66) (c : Nat) :
    a.explicitschemeConvective3d c = balance a 3 c := by
  unfold ConvArgs.explicitschemeConvective3d
  rw [foldl_contrib _ _ _ (fun r i _ j => boundaryStep3_apply a r i j),
    foldl_contrib _ _ _ (fun r i _ j => haloStep3_apply a r i j),
    periodicFold3 a _ hn]
  dsimp only
  rw [foldl_contrib _ _ _ (fun r i _ j => innerStep3_apply a r i j)]
  unfold balance
  simp only [sumAt_eq, list_map_sum_neg, list_map_sum_add]
  ring

end steps

theorem sumAt_le (l : List Nat) (side : Nat → Nat) (F G : Nat → K) (c : Nat)
    (h : ∀ i ∈ l, side i = c → F i ≤ G i) : sumAt l side F c ≤ sumAt l side G c := by
  rw [sumAt_eq, sumAt_eq]
  apply List.sum_le_sum
  intro i hi
  by_cases hc : side i = c
  · simp [hc, h i hi hc]
  · simp [hc]

theorem sumAt_nonneg (l : List Nat) (side : Nat → Nat) (F : Nat → K) (c : Nat)
    (h : ∀ i ∈ l, side i = c → 0 ≤ F i) : 0 ≤ sumAt l side F c := by
  have := sumAt_le l side (fun _ => 0) F c h
  rw [sumAt_eq] at this
  simpa using this

theorem sumAt_lin (l : List Nat) (side : Nat → Nat) (F G : Nat → K) (x y : K) (c : Nat) :
    sumAt l side (fun i => x * F i + y * G i) c = x * sumAt l side F c + y * sumAt l side G c := by
  unfold sumAt
  rw [list_map_sum_add, list_map_sum_mul, list_map_sum_mul]

theorem sumAt_mul (l : List Nat) (side : Nat → Nat) (F : Nat → K) (x : K) (c : Nat) :
    sumAt l side (fun i => x * F i) c = x * sumAt l side F c := by
  unfold sumAt
  rw [list_map_sum_mul]

theorem sumAt_neg (l : List Nat) (side : Nat → Nat) (F : Nat → K) (c : Nat) :
    sumAt l side (fun i => - F i) c = - sumAt l side F c := by
  unfold sumAt
  rw [list_map_sum_neg]

theorem sumAt_add (l : List Nat) (side : Nat → Nat) (F G : Nat → K) (c : Nat) :
    sumAt l side (fun i => F i + G i) c = sumAt l side F c + sumAt l side G c := by
  unfold sumAt
  rw [list_map_sum_add]

theorem sum_balance (a : ConvArgs K) (dim n : Nat) (h : FacesOK a dim n) :
    ∑ c ∈ Finset.range n, balance a dim c
      = - ((a.periodicboundaryfaces.map (periodicFlux a dim)).sum
          + (a.halofaces.map (haloFlux a dim)).sum
          + (a.boundaryfaces.map (boundaryFlux a dim)).sum) := by
  unfold balance
  simp only [Finset.sum_sub_distrib, Finset.sum_add_distrib, Finset.sum_neg_distrib]
  rw [sum_sumAt n _ (left a) _ (fun i hi => idx_lt (h.inner_l i hi)),
    sum_sumAt n _ (right a) _ (fun i hi => idx_lt (h.inner_r i hi)),
    sum_sumAt n _ (left a) _ (fun i hi => idx_lt (h.per_l i hi)),
    sum_sumAt n _ (left a) _ (fun i hi => idx_lt (h.halo_l i hi)),
    sum_sumAt n _ (left a) _ (fun i hi => idx_lt (h.bnd_l i hi))]
  ring

end Verif.Fvm
