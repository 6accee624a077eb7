import Verif.Spec.Interp
import Mathlib.LinearAlgebra.Matrix.ToLinearEquiv
import Mathlib.LinearAlgebra.Matrix.Determinant.Basic
import Mathlib.LinearAlgebra.Matrix.Notation
import Mathlib.Data.List.Perm.Basic

/-!
# C38-C43: interpolation and gradients
-/
set_option linter.unusedSectionVars false
set_option linter.unusedSimpArgs false
namespace Verif.Interp
open Verif Verif.Geo

variable {K : Type*} [Field K] [LinearOrder K] [IsStrictOrderedRing K]

/-- Sum over a list. -/
def lsum {α : Type*} (L : List α) (f : α → K) : K := (L.map f).sum

@[simp] theorem lsum_nil {α : Type*} (f : α → K) : lsum [] f = 0 := rfl
@[simp] theorem lsum_cons {α : Type*} (a : α) (L : List α) (f : α → K) : lsum (a :: L) f = f a + lsum L f := by simp [lsum]

theorem lsum_perm {α : Type*} {L L' : List α} (h : L.Perm L') (f : α → K) : lsum L f = lsum L' f := (h.map f).sum_eq

theorem lsum_sq_zero {α : Type*} (L : List α) (f : α → K) (h : lsum L (fun a => f a ^ 2) = 0) : ∀ a ∈ L, f a = 0 := by
  have nn : ∀ L : List α, 0 ≤ lsum L (fun a => f a ^ 2) := by
    intro L
    induction L with
    | nil => simp
    | cons a L ih => rw [lsum_cons]; positivity
  induction L with
  | nil => simp
  | cons a L ih =>
    rw [lsum_cons] at h
    have h1 : f a ^ 2 = 0 := le_antisymm (by linarith [nn L]) (sq_nonneg _)
    have h2 : lsum L (fun a => f a ^ 2) = 0 := by linarith
    intro b hb
    rcases List.mem_cons.1 hb with rfl | hb
    · exact pow_eq_zero_iff (two_ne_zero) |>.1 h1
    · exact ih h2 b hb

theorem lsum_congr {α : Type*} (L : List α) (f g : α → K) (h : ∀ a ∈ L, f a = g a) : lsum L f = lsum L g := by
  simp only [lsum]; rw [List.map_congr_left h]

/-! ## Moments of a stencil, 2D -/

/-- The accumulators hold the moments of the stencil. -/
structure IsMoments2 (a : Acc2 K) (v : Vec K) (L : List (Vec K × K)) : Prop where
  xx : a.xx = lsum L (fun p => (p.1 0 - v 0) * (p.1 0 - v 0))
  yy : a.yy = lsum L (fun p => (p.1 1 - v 1) * (p.1 1 - v 1))
  xy : a.xy = lsum L (fun p => (p.1 0 - v 0) * (p.1 1 - v 1))
  rx : a.rx = lsum L (fun p => p.1 0 - v 0)
  ry : a.ry = lsum L (fun p => p.1 1 - v 1)
  number : a.number = lsum L (fun _ => 1)

theorem acc2_moments (v : Vec K) (L : List (Vec K × K)) :
    IsMoments2 (L.foldl (fun a p => accStep2 v a p.1) ⟨0, 0, 0, 0, 0, 0⟩) v L := by
  have gen : ∀ (L : List (Vec K × K)) (a : Acc2 K), L.foldl (fun a p => accStep2 v a p.1) a =
      ⟨a.xx + lsum L (fun p => (p.1 0 - v 0) * (p.1 0 - v 0)), a.yy + lsum L (fun p => (p.1 1 - v 1) * (p.1 1 - v 1)),
        a.xy + lsum L (fun p => (p.1 0 - v 0) * (p.1 1 - v 1)), a.rx + lsum L (fun p => p.1 0 - v 0),
        a.ry + lsum L (fun p => p.1 1 - v 1), a.number + lsum L (fun _ => 1)⟩ := by
    intro L
    induction L with
    | nil => intro a; simp
    | cons p L ih => intro a; rw [List.foldl_cons, ih]; simp [accStep2, add_assoc]
  rw [gen]
  constructor <;> simp

/-- `variables` runs over the stencil. -/
theorem variables2_stencil (T : NodeTabs K) (w : Fields K) (i : Nat) :
    variables2 T i = (nodeStencil 2 T w i).foldl (fun a p => accStep2 (T.vertexn i) a p.1) ⟨0, 0, 0, 0, 0, 0⟩ := by
  simp only [variables2, nodeStencil, periodicPart, ghostPart, List.foldl_append, List.foldl_map]
  have hf : ∀ (gs : List (Vec K × Int)) (a : Acc2 K), (gs.filter (fun g => decide (g.2 ≠ -1))).foldl
      (fun a (g : Vec K × Int) => accStep2 (T.vertexn i) a g.1) a
      = gs.foldl (fun a g => if g.2 ≠ -1 then accStep2 (T.vertexn i) a g.1 else a) a := by
    intro gs a
    rw [List.foldl_filter]; simp
  split_ifs <;> simp_all [List.foldl_map]

theorem centertovertex2_stencil (T : NodeTabs K) (w : Fields K) (i : Nat) :
    centertovertex2 T w i = lsum (nodeStencil 2 T w i) (fun p => alpha2 (variables2 T i) (T.vertexn i) p.1 * p.2) := by
  have gen : ∀ (L : List (Vec K × K)) (s : K), L.foldl (fun s p => s + alpha2 (variables2 T i) (T.vertexn i) p.1 * p.2) s
      = s + lsum L (fun p => alpha2 (variables2 T i) (T.vertexn i) p.1 * p.2) := by
    intro L
    induction L with
    | nil => simp
    | cons p L ih => intro s; rw [List.foldl_cons, ih, lsum_cons, add_assoc]
  rw [← zero_add (lsum _ _), ← gen]
  clear gen
  simp only [centertovertex2, nodeStencil, periodicPart, ghostPart, List.foldl_append, List.foldl_map]
  have hf : ∀ (gs : List (Vec K × Int)) (val : Nat → K) (a : K), (gs.filter (fun g => decide (g.2 ≠ -1))).foldl
      (fun s (g : Vec K × Int) => s + alpha2 (variables2 T i) (T.vertexn i) g.1 * val g.2.toNat) a
      = gs.foldl (fun s g => if g.2 ≠ -1 then s + alpha2 (variables2 T i) (T.vertexn i) g.1 * val g.2.toNat else s) a := by
    intro gs val a
    rw [List.foldl_filter]; simp
  split_ifs <;> simp_all [List.foldl_map]

/-- The multipliers solve the 2x2 normal equations. -/
theorem lambda2_eqs (a : Acc2 K) (hD : a.xx * a.yy - a.xy * a.xy ≠ 0) :
    a.rx + (lambda2 a).1 * a.xx + (lambda2 a).2 * a.xy = 0 ∧ a.ry + (lambda2 a).1 * a.xy + (lambda2 a).2 * a.yy = 0 := by
  have h1 : (lambda2 a).1 * (a.xx * a.yy - a.xy * a.xy) = a.xy * a.ry - a.yy * a.rx := div_mul_cancel₀ _ hD
  have h2 : (lambda2 a).2 * (a.xx * a.yy - a.xy * a.xy) = a.xy * a.rx - a.xx * a.ry := div_mul_cancel₀ _ hD
  constructor
  · apply mul_right_cancel₀ hD; linear_combination a.xx * h1 + a.xy * h2
  · apply mul_right_cancel₀ hD; linear_combination a.xy * h1 + a.yy * h2

/-- A stencil that is not flat has a nonsingular moment matrix and a nonzero normalisation. -/
theorem nonflat2 (a : Acc2 K) (v : Vec K) (L : List (Vec K × K)) (h : IsMoments2 a v L) (hf : ¬ Flat 2 (L.map Prod.fst)) :
    a.xx * a.yy - a.xy * a.xy ≠ 0 ∧ a.number + (lambda2 a).1 * a.rx + (lambda2 a).2 * a.ry ≠ 0 := by
  have quad : ∀ (t p q : K), lsum L (fun x => (t + p * (x.1 0 - v 0) + q * (x.1 1 - v 1)) ^ 2)
      = t ^ 2 * a.number + 2 * t * p * a.rx + 2 * t * q * a.ry + p ^ 2 * a.xx + 2 * p * q * a.xy + q ^ 2 * a.yy := by
    intro t p q
    rw [h.xx, h.yy, h.xy, h.rx, h.ry, h.number]
    clear h hf
    induction L with
    | nil => simp
    | cons x L ih => simp only [lsum_cons]; rw [ih]; ring
  have flat : ∀ (t p q : K), (p ≠ 0 ∨ q ≠ 0) → (∀ x ∈ L, t + p * (x.1 0 - v 0) + q * (x.1 1 - v 1) = 0) → False := by
    intro t p q hpq hx
    apply hf
    refine ⟨fun k => if k = 0 then p else q, p * v 0 + q * v 1 - t, ?_, ?_⟩
    · rcases hpq with h | h
      · exact ⟨0, by omega, by simpa using h⟩
      · exact ⟨1, by omega, by simpa using h⟩
    · intro x hx'
      obtain ⟨y, hy, rfl⟩ := List.mem_map.1 hx'
      have := hx y hy
      simp [Finset.sum_range_succ]
      linear_combination this
  have hD : a.xx * a.yy - a.xy * a.xy ≠ 0 := by
    intro hD
    by_cases h0 : a.xx = 0 ∧ a.xy = 0
    · refine flat 0 1 0 (by simp) (lsum_sq_zero L _ ?_)
      rw [quad]; rw [h0.1]; ring
    · refine flat 0 (-a.xy) a.xx ?_ (lsum_sq_zero L _ ?_)
      · by_contra hc; push Not at hc; exact h0 ⟨hc.2, by simpa using hc.1⟩
      · rw [quad]; linear_combination a.xx * hD
  refine ⟨hD, ?_⟩
  obtain ⟨lx, hlx⟩ : ∃ lx, lx = (lambda2 a).1 := ⟨_, rfl⟩
  obtain ⟨ly, hly⟩ : ∃ ly, ly = (lambda2 a).2 := ⟨_, rfl⟩
  rw [← hlx, ← hly]
  obtain ⟨e1, e2⟩ := lambda2_eqs a hD
  rw [← hlx, ← hly] at e1 e2
  intro hN
  have hz : ∀ x ∈ L, 1 + lx * (x.1 0 - v 0) + ly * (x.1 1 - v 1) = 0 := by
    refine lsum_sq_zero L (fun x => 1 + lx * (x.1 0 - v 0) + ly * (x.1 1 - v 1)) ?_
    rw [quad]; linear_combination hN + lx * e1 + ly * e2
  by_cases hl : lx ≠ 0 ∨ ly ≠ 0
  · exact flat 1 lx ly hl hz
  · push Not at hl
    cases L with
    | nil => exact hf ⟨fun _ => 1, 0, ⟨0, by omega, by simp⟩, by simp⟩
    | cons x L => have := hz x (by simp); rw [hl.1, hl.2] at this; simp at this

/-- Least-squares weights reproduce affine functions (2D). -/
theorem weights2_affine (A : Acc2 K) (v : Vec K) (L : List (Vec K × K)) (h : IsMoments2 A v L)
    (hD : A.xx * A.yy - A.xy * A.xy ≠ 0) (hN : A.number + (lambda2 A).1 * A.rx + (lambda2 A).2 * A.ry ≠ 0)
    (a : K) (g : Vec K) (hs : ∀ p ∈ L, p.2 = affine 2 a g p.1) :
    lsum L (fun p => alpha2 A v p.1 * p.2) = affine 2 a g v := by
  obtain ⟨lx, hlx⟩ : ∃ lx, lx = (lambda2 A).1 := ⟨_, rfl⟩
  obtain ⟨ly, hly⟩ : ∃ ly, ly = (lambda2 A).2 := ⟨_, rfl⟩
  obtain ⟨N, hNd⟩ : ∃ N, N = A.number + lx * A.rx + ly * A.ry := ⟨_, rfl⟩
  have hal : ∀ p, alpha2 A v p = (1 + lx * (p 0 - v 0) + ly * (p 1 - v 1)) * N⁻¹ := by
    intro p; rw [hNd, hlx, hly]; exact div_eq_mul_inv _ _
  obtain ⟨e1, e2⟩ := lambda2_eqs A hD
  rw [← hlx, ← hly] at e1 e2
  have lin : lsum L (fun p => alpha2 A v p.1 * p.2)
      = (affine 2 a g v * N + g 0 * (A.rx + lx * A.xx + ly * A.xy) + g 1 * (A.ry + lx * A.xy + ly * A.yy)) * N⁻¹ := by
    have key : ∀ L' : List (Vec K × K), (∀ p ∈ L', p.2 = affine 2 a g p.1) → lsum L' (fun p => alpha2 A v p.1 * p.2)
      = (affine 2 a g v * (lsum L' (fun _ => 1) + lx * lsum L' (fun p => p.1 0 - v 0) + ly * lsum L' (fun p => p.1 1 - v 1))
        + g 0 * (lsum L' (fun p => p.1 0 - v 0) + lx * lsum L' (fun p => (p.1 0 - v 0) * (p.1 0 - v 0)) + ly * lsum L' (fun p => (p.1 0 - v 0) * (p.1 1 - v 1)))
        + g 1 * (lsum L' (fun p => p.1 1 - v 1) + lx * lsum L' (fun p => (p.1 0 - v 0) * (p.1 1 - v 1)) + ly * lsum L' (fun p => (p.1 1 - v 1) * (p.1 1 - v 1)))) * N⁻¹ := by
      intro L' hL
      induction L' with
      | nil => simp
      | cons p L' ih =>
        simp only [lsum_cons]
        rw [ih (fun q hq => hL q (by simp [hq])), hal, hL p (by simp)]
        simp only [affine, Finset.sum_range_succ, Finset.sum_range_zero]
        ring
    rw [key L hs, ← h.xx, ← h.yy, ← h.xy, ← h.rx, ← h.ry, ← h.number, ← hNd]
  rw [lin, e1, e2]
  have : N ≠ 0 := by rw [hNd, hlx, hly]; exact hN
  field_simp
  ring

/-- **C38**: at every node whose stencil points do not all lie on one line, if the cell, ghost, halo and halo-ghost values of the
stencil are the values of an affine function at the corresponding points, the interpolated vertex value is the value of that
function at the vertex. -/
theorem C38_affine_exact (T : NodeTabs K) (w : Fields K) (i : Nat) (a : K) (g : Vec K)
    (hflat : ¬ Flat 2 ((nodeStencil 2 T w i).map Prod.fst))
    (hs : ∀ p ∈ nodeStencil 2 T w i, p.2 = affine 2 a g p.1) :
    centertovertex2 T w i = affine 2 a g (T.vertexn i) := by
  have hm := acc2_moments (T.vertexn i) (nodeStencil 2 T w i)
  rw [← variables2_stencil T w i] at hm
  obtain ⟨hD, hN⟩ := nonflat2 _ _ _ hm hflat
  rw [centertovertex2_stencil]
  exact weights2_affine _ _ _ hm hD hN a g hs

/-- **C38** (weights): the weights of the vertex interpolation sum to one and their first moments vanish. -/
theorem C38_weights (T : NodeTabs K) (w : Fields K) (i : Nat) (hflat : ¬ Flat 2 ((nodeStencil 2 T w i).map Prod.fst)) :
    lsum (nodeStencil 2 T w i) (fun p => alpha2 (variables2 T i) (T.vertexn i) p.1) = 1 ∧
    lsum (nodeStencil 2 T w i) (fun p => alpha2 (variables2 T i) (T.vertexn i) p.1 * p.1 0) = T.vertexn i 0 ∧
    lsum (nodeStencil 2 T w i) (fun p => alpha2 (variables2 T i) (T.vertexn i) p.1 * p.1 1) = T.vertexn i 1 := by
  have hm := acc2_moments (T.vertexn i) (nodeStencil 2 T w i)
  rw [← variables2_stencil T w i] at hm
  obtain ⟨hD, hN⟩ := nonflat2 _ _ _ hm hflat
  have key : ∀ (f : Vec K → K) (a : K) (g : Vec K), (∀ p, f p = affine 2 a g p) →
      lsum (nodeStencil 2 T w i) (fun p => alpha2 (variables2 T i) (T.vertexn i) p.1 * f p.1) = affine 2 a g (T.vertexn i) := by
    intro f a g hf
    have hm' : IsMoments2 (variables2 T i) (T.vertexn i) ((nodeStencil 2 T w i).map (fun p => (p.1, f p.1))) := by
      constructor <;> simp [lsum, hm.xx, hm.yy, hm.xy, hm.rx, hm.ry, hm.number, Function.comp_def]
    have := weights2_affine _ _ _ hm' hD hN a g (by intro p hp; obtain ⟨q, _, rfl⟩ := List.mem_map.1 hp; exact hf _)
    rw [← this]; simp [lsum, Function.comp_def]
  refine ⟨?_, ?_, ?_⟩
  · have := key (fun _ => 1) 1 (fun _ => 0) (by intro p; simp [affine])
    simpa [affine] using this
  · have := key (fun p => p 0) 0 (fun k => if k = 0 then 1 else 0) (by intro p; simp [affine, Finset.sum_range_succ])
    simpa [affine, Finset.sum_range_succ] using this
  · have := key (fun p => p 1) 0 (fun k => if k = 1 then 1 else 0) (by intro p; simp [affine, Finset.sum_range_succ])
    simpa [affine, Finset.sum_range_succ] using this

/-- **C38** (linearity): the interpolation of constants is the constant. -/
theorem C38_constant (T : NodeTabs K) (w : Fields K) (i : Nat) (a : K)
    (hflat : ¬ Flat 2 ((nodeStencil 2 T w i).map Prod.fst)) (hs : ∀ p ∈ nodeStencil 2 T w i, p.2 = a) :
    centertovertex2 T w i = a := by
  have := C38_affine_exact T w i a (fun _ => 0) hflat (by intro p hp; rw [hs p hp]; simp [affine])
  simpa [affine] using this

/-- A node at the origin with three cells and one ghost around it. -/
def exTabs : NodeTabs ℚ where
  centerc := fun c k => match c, k with
    | 0, 0 => 1 | 0, 1 => 0 | 1, 0 => 0 | 1, 1 => 1 | 2, 0 => -1 | 2, 1 => 0 | _, _ => 0
  centerh := fun _ _ => 0
  cellidn := fun _ => [0, 1, 2]
  haloidn := fun _ => []
  periodicn := fun _ => []
  vertexn := fun _ _ => 0
  oldname := fun _ => 1
  namen := fun _ => 1
  ghosts := fun _ => [(fun k => if k = 1 then -1 else 1, 7), (fun _ => -1, -1)]
  haloghosts := fun _ => []
  shift := fun _ _ => 0

/-- Non-vacuity: the stencil is not flat, the data `2 + 3x - y` at cells and ghost give 2 at the vertex. -/
example : ¬ Flat 2 ((nodeStencil 2 exTabs ⟨fun c => if c = 0 then 5 else if c = 1 then 1 else -1, fun _ => 6, fun _ => 0, fun _ => 0⟩ 0).map Prod.fst) := by
  rintro ⟨u, c, ⟨k, hk, hu⟩, h⟩
  have h0 := h (exTabs.centerc 0) (by simp [nodeStencil, exTabs])
  have h1 := h (exTabs.centerc 1) (by simp [nodeStencil, exTabs])
  have h2 := h (exTabs.centerc 2) (by simp [nodeStencil, exTabs])
  simp [exTabs, Finset.sum_range_succ] at h0 h1 h2
  have : k = 0 ∨ k = 1 := by omega
  rcases this with rfl | rfl
  · apply hu; linarith
  · apply hu; linarith
example : centertovertex2 exTabs ⟨fun c => if c = 0 then 5 else if c = 1 then 1 else -1, fun _ => 6, fun _ => 0, fun _ => 0⟩ 0 = 2 := by
  decide +kernel

end Verif.Interp
