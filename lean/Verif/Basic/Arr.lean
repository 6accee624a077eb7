import Mathlib.Algebra.BigOperators.Group.Finset.Basic
import Mathlib.Algebra.BigOperators.Group.List.Basic
import Mathlib.Algebra.BigOperators.Ring.Finset
import Mathlib.Algebra.BigOperators.Ring.List
import Mathlib.Algebra.Order.Ring.Defs
import Mathlib.Algebra.Order.Field.Basic
import Mathlib.Tactic.Ring
import Mathlib.Tactic.Linarith
import Mathlib.Tactic.NormNum
import Mathlib.Tactic.FieldSimp
import Mathlib.Tactic.LinearCombination
import Mathlib.Tactic.Abel

/-!
Array conventions.  A numpy float array is a total function `Nat → K`; `addAt a i x` is `a[i] += x`,
`subAt a i x` is `a[i] -= x`, `setAt a i x` is `a[i] = x`.  No modelling content here.
-/
namespace Verif

variable {K : Type*}

/-- numpy `a[i] += x`. -/
def addAt [Add K] (a : Nat → K) (i : Nat) (x : K) : Nat → K :=
  fun j => if j = i then a j + x else a j

/-- numpy `a[i] -= x`. -/
def subAt [Sub K] (a : Nat → K) (i : Nat) (x : K) : Nat → K :=
  fun j => if j = i then a j - x else a j

/-- numpy `a[i] = x`. -/
def setAt {α : Type*} (a : Nat → α) (i : Nat) (x : α) : Nat → α :=
  fun j => if j = i then x else a j

@[simp] theorem setAt_same {α : Type*} (a : Nat → α) (i : Nat) (x : α) : setAt a i x i = x := by
  simp [setAt]

theorem setAt_ne {α : Type*} (a : Nat → α) {i j : Nat} (x : α) (h : j ≠ i) :
    setAt a i x j = a j := by simp [setAt, h]

/-- A table index read from an integer array (entries may be `-1`, which is never dereferenced
under the hypotheses of the theorems). -/
def idx (z : Int) : Nat := z.toNat

/-- `z` is a valid index of an array of length `n`. -/
def InRange (z : Int) (n : Nat) : Prop := 0 ≤ z ∧ z < n

instance (z : Int) (n : Nat) : Decidable (InRange z n) := by unfold InRange; infer_instance

theorem idx_lt {z : Int} {n : Nat} (h : InRange z n) : idx z < n := by
  have := h.1; have := h.2; simp [idx]; omega

section sums
variable [AddCommGroup K]

theorem addAt_apply (a : Nat → K) (i : Nat) (x : K) (j : Nat) :
    addAt a i x j = a j + if i = j then x else 0 := by
  unfold addAt; by_cases h : j = i
  · subst h; simp
  · have h' : ¬ i = j := fun e => h e.symm
    simp [h, h']

theorem subAt_apply (a : Nat → K) (i : Nat) (x : K) (j : Nat) :
    subAt a i x j = a j - if i = j then x else 0 := by
  unfold subAt; by_cases h : j = i
  · subst h; simp
  · have h' : ¬ i = j := fun e => h e.symm
    simp [h, h']

theorem sum_ite_idx (n i : Nat) (x : K) (h : i < n) :
    ∑ j ∈ Finset.range n, (if i = j then x else 0) = x := by
  rw [Finset.sum_ite_eq]; simp [h]

/-- Sum over a list of a pointwise-in-`j` family, exchanged with the sum over cells. -/
theorem sum_list_sum {ι : Type*} (n : Nat) (l : List ι) (f : ι → Nat → K) :
    ∑ j ∈ Finset.range n, (l.map (fun i => f i j)).sum
      = (l.map (fun i => ∑ j ∈ Finset.range n, f i j)).sum := by
  induction l with
  | nil => simp
  | cons a l ih => simp [Finset.sum_add_distrib, ih]

/-- A fold each of whose steps adds `c i j` to entry `j` adds up the contributions. -/
theorem foldl_contrib {ι : Type*} (l : List ι) (step : (Nat → K) → ι → (Nat → K)) (c : ι → Nat → K)
    (h : ∀ r, ∀ i ∈ l, ∀ j, step r i j = r j + c i j) (r : Nat → K) (j : Nat) :
    l.foldl step r j = r j + (l.map (fun i => c i j)).sum := by
  induction l generalizing r with
  | nil => simp
  | cons a l ih =>
    have h1 : ∀ r, ∀ i ∈ l, ∀ j, step r i j = r j + c i j :=
      fun r i hi j => h r i (List.mem_cons_of_mem _ hi) j
    rw [List.foldl_cons, ih h1, h r a (by simp), List.map_cons, List.sum_cons, add_assoc]

theorem list_map_sum_congr {ι : Type*} (l : List ι) (f g : ι → K) (h : ∀ i ∈ l, f i = g i) :
    (l.map f).sum = (l.map g).sum := by
  rw [List.map_congr_left h]

theorem list_map_sum_add {ι : Type*} (l : List ι) (f g : ι → K) :
    (l.map (fun i => f i + g i)).sum = (l.map f).sum + (l.map g).sum := by
  induction l with
  | nil => simp
  | cons a l ih => simp only [List.map_cons, List.sum_cons, ih]; abel

theorem list_map_sum_neg {ι : Type*} (l : List ι) (f : ι → K) :
    (l.map (fun i => - f i)).sum = - (l.map f).sum := by
  induction l with
  | nil => simp
  | cons a l ih => simp only [List.map_cons, List.sum_cons, ih]; abel

theorem list_map_sum_sub {ι : Type*} (l : List ι) (f g : ι → K) :
    (l.map (fun i => f i - g i)).sum = (l.map f).sum - (l.map g).sum := by
  induction l with
  | nil => simp
  | cons a l ih => simp only [List.map_cons, List.sum_cons, ih]; abel

theorem list_map_sum_zero {ι : Type*} (l : List ι) (f : ι → K) (h : ∀ i ∈ l, f i = 0) :
    (l.map f).sum = 0 := by
  rw [list_map_sum_congr l f (fun _ => 0) h]; simp

theorem list_sum_range (n : Nat) (f : Nat → K) :
    ((List.range n).map f).sum = ∑ j ∈ Finset.range n, f j := by
  induction n with
  | zero => simp
  | succ n ih => rw [List.range_succ, List.map_append, List.sum_append, ih, Finset.sum_range_succ]; simp

end sums

theorem list_map_sum_mul [Ring K] {ι : Type*} (l : List ι) (f : ι → K) (c : K) :
    (l.map (fun i => c * f i)).sum = c * (l.map f).sum := by
  induction l with
  | nil => simp
  | cons a l ih => simp only [List.map_cons, List.sum_cons, ih]; rw [mul_add]

end Verif
