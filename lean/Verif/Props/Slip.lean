import Verif.Props.Variable
import Mathlib.Tactic.Ring
import Mathlib.Tactic.LinearCombination
import Mathlib.Tactic.FieldSimp
import Mathlib.Tactic.NormNum

/-!
# C81, C84: slip walls, and user functions evaluated at halo ghosts
-/
set_option linter.unusedSectionVars false
set_option linter.unusedVariables false
namespace Verif.Var
open Verif
variable {K : Type*} [Field K]

/-- **C81** (partial: the velocity computed in `u_g`): for a face whose stored length is the length of its normal, `u_g` is the first
component of the cell velocity mirrored in the wall. -/
theorem C81_mirror_partial (u v n0 n1 m : K) (hm : m ≠ 0) (hlen : m * m = n0 * n0 + n1 * n1) :
    slipU u v n0 n1 m = mirror1 u v (n0 / m) (n1 / m) := by
  have h : (n0 / m) * (n0 / m) + (n1 / m) * (n1 / m) = 1 := by
    have hmm : m * m ≠ 0 := mul_ne_zero hm hm
    rw [div_mul_div_comm, div_mul_div_comm, ← add_div, ← hlen, div_self hmm]
  unfold slipU mirror1
  dsimp only
  linear_combination u * h

/-- The mirror image has no mean normal component: the specification is the impermeable wall. -/
theorem mirror_normal (u v a b : K) (h : a * a + b * b = 1) :
    (mirror1 u v a b) * a + (mirror2 u v a b) * b = -(u * a + v * b) := by
  unfold mirror1 mirror2; linear_combination (-2 * (u * a + v * b)) * h

/-- The mirror image keeps the tangential component. -/
theorem mirror_tangent (u v a b : K) : (mirror1 u v a b) * b - (mirror2 u v a b) * a = u * b - v * a := by
  unfold mirror1 mirror2; ring

/-- **C81** (what the code stores): the listed faces, and only they, receive the *product* of the cell value and the mirrored value. -/
theorem C81_stored (u_c v_c : Nat → K) (cellid0 : Nat → Nat) (normal : Nat → Nat → K) (mesure : Nat → K) (faces : List Nat) (g : Nat → K)
    (hm : ∀ i ∈ faces, mesure i ≠ 0 ∧ mesure i * mesure i = normal i 0 * normal i 0 + normal i 1 * normal i 1) (i : Nat) :
    ghostSlip u_c v_c cellid0 normal mesure faces g i =
      if i ∈ faces then u_c (cellid0 i) *
        mirror1 (u_c (cellid0 i)) (v_c (cellid0 i)) (normal i 0 / mesure i) (normal i 1 / mesure i)
      else g i := by
  unfold ghostSlip
  rw [foldl_setAt_val (fun i => u_c (cellid0 i) * slipU (u_c (cellid0 i)) (v_c (cellid0 i)) (normal i 0) (normal i 1) (mesure i)) faces g i]
  split
  · next h => rw [C81_mirror_partial _ _ _ _ _ (hm i h).1 (hm i h).2]
  · rfl

/-- **C81** (exactly when the stored value is right): the ghost of a listed face is the mirrored velocity iff the cell velocity is 1
or the mirrored velocity is 0. -/
theorem C81_right_iff (u_c v_c : Nat → K) (cellid0 : Nat → Nat) (normal : Nat → Nat → K) (mesure : Nat → K) (faces : List Nat)
    (g : Nat → K)
    (hm : ∀ i ∈ faces, mesure i ≠ 0 ∧ mesure i * mesure i = normal i 0 * normal i 0 + normal i 1 * normal i 1)
    (i : Nat) (hi : i ∈ faces) :
    ghostSlip u_c v_c cellid0 normal mesure faces g i =
        mirror1 (u_c (cellid0 i)) (v_c (cellid0 i)) (normal i 0 / mesure i) (normal i 1 / mesure i) ↔
      u_c (cellid0 i) = 1 ∨
        mirror1 (u_c (cellid0 i)) (v_c (cellid0 i)) (normal i 0 / mesure i) (normal i 1 / mesure i) = 0 := by
  rw [C81_stored u_c v_c cellid0 normal mesure faces g hm i, if_pos hi]
  generalize mirror1 (u_c (cellid0 i)) _ _ _ = r
  generalize u_c (cellid0 i) = u
  constructor
  · intro h
    by_cases hr : r = 0
    · exact Or.inr hr
    · exact Or.inl (mul_right_cancel₀ hr (by rw [h, one_mul]))
  · rintro (h | h)
    · rw [h, one_mul]
    · rw [h, mul_zero]

/-- **C81** is false of the kernel: a flow of speed 2 along a wall with normal (0, 1) must be mirrored to itself; the ghost is 4.
(Here the hypotheses of `C81_stored` hold: the normal has length 1.) -/
theorem C81_counterexample :
    ghostSlip (fun _ => (2 : ℚ)) (fun _ => 0) (fun _ => 0) (fun _ j => if j = 1 then 1 else 0) (fun _ => 1) [0] (fun _ => 0) 0 = 4 ∧
    mirror1 (2 : ℚ) 0 (0 / 1) (1 / 1) = 2 := by
  unfold ghostSlip slipU mirror1 setAt
  norm_num

/-- **C81** (the halo kernel): after `haloghost_value_slip` every changed entry is at the number of a halo node, not at the slot of a
ghost: an entry whose index is not a halo node is left alone even if it is the slot of a slip ghost. -/
theorem C81_halo_writes_nodes (sqrt : K → K) (u_halo v_halo : Nat → K) (table : Nat → List HG) (info : Nat → Nat → K × K) (bc : Int)
    (halonodes : List Nat) (w : Nat → K) (k : Nat) (hk : k ∉ halonodes) :
    haloghostSlip sqrt u_halo v_halo table info bc halonodes w k = w k := by
  unfold haloghostSlip
  induction halonodes generalizing w with
  | nil => rfl
  | cons i l ih =>
    rw [List.foldl_cons, ih _ (fun h => hk (List.mem_cons_of_mem _ h))]
    have hki : k ≠ i := fun h => hk (h ▸ List.mem_cons_self)
    generalize (table i).zipIdx = t
    induction t generalizing w with
    | nil => rfl
    | cons e t iht =>
      rw [List.foldl_cons, iht]
      split
      · split
        · exact if_neg hki
        · rfl
      · rfl

/-- **C81** (the halo kernel, what is stored): at the number of a halo node with slip ghosts, the product of the value read at the
slot number of its last slip ghost (from the *halo cell* array) and the mirrored value. -/
theorem C81_halo_stored (sqrt : K → K) (u_halo v_halo : Nat → K) (table : Nat → List HG) (info : Nat → Nat → K × K) (bc : Int)
    (halonodes : List Nat) (w : Nat → K) (k : Nat) (hk : k ∈ halonodes) (hn : halonodes.Nodup) (pre post : List HG) (e : HG)
    (ht : table k = pre ++ e :: post) (he : e.slot ≠ -1 ∧ e.bc = bc) (hpost : ∀ x ∈ post, ¬ (x.slot ≠ -1 ∧ x.bc = bc))
    (hs : ∀ n : K × K, n = info k pre.length → sqrt (n.1 * n.1 + n.2 * n.2) ≠ 0 ∧
      sqrt (n.1 * n.1 + n.2 * n.2) * sqrt (n.1 * n.1 + n.2 * n.2) = n.1 * n.1 + n.2 * n.2) :
    let n := info k pre.length
    let m := sqrt (n.1 * n.1 + n.2 * n.2)
    haloghostSlip sqrt u_halo v_halo table info bc halonodes w k =
      u_halo e.slot.toNat * mirror1 (u_halo e.slot.toNat) (v_halo e.slot.toNat) (n.1 / m) (n.2 / m) := by
  intro n m
  have hrest : ∀ (l : List Nat) (w : Nat → K), k ∉ l → haloghostSlip sqrt u_halo v_halo table info bc l w k = w k :=
    fun l w h => C81_halo_writes_nodes _ _ _ _ _ _ _ _ _ h
  obtain ⟨l1, l2, rfl⟩ := List.append_of_mem hk
  have hk2 : k ∉ l2 := by
    rw [List.nodup_append] at hn
    exact (List.nodup_cons.1 hn.2.1).1
  have hz : ∀ (t : List (HG × Nat)) (w : Nat → K), (∀ x ∈ t, ¬ (x.1.slot ≠ -1 ∧ x.1.bc = bc)) →
      t.foldl (fun w (e : HG × Nat) => if e.1.slot ≠ -1 then if e.1.bc = bc then
        setAt w k (u_halo e.1.slot.toNat * slipU (u_halo e.1.slot.toNat) (v_halo e.1.slot.toNat) (info k e.2).1 (info k e.2).2
          (sqrt ((info k e.2).1 * (info k e.2).1 + (info k e.2).2 * (info k e.2).2)))
        else w else w) w = w := by
    intro t
    induction t with
    | nil => intro w _; rfl
    | cons x t ih =>
      intro w h
      have hx := h x List.mem_cons_self
      rw [List.foldl_cons]
      by_cases h1 : x.1.slot ≠ -1
      · rw [if_pos h1, if_neg (fun h2 => hx ⟨h1, h2⟩)]; exact ih w (fun y hy => h y (List.mem_cons_of_mem _ hy))
      · rw [if_neg h1]; exact ih w (fun y hy => h y (List.mem_cons_of_mem _ hy))
  have happ : ∀ w, haloghostSlip sqrt u_halo v_halo table info bc (l1 ++ k :: l2) w
      = haloghostSlip sqrt u_halo v_halo table info bc l2 ((table k).zipIdx.foldl (fun w (e : HG × Nat) =>
        if e.1.slot ≠ -1 then if e.1.bc = bc then
        setAt w k (u_halo e.1.slot.toNat * slipU (u_halo e.1.slot.toNat) (v_halo e.1.slot.toNat) (info k e.2).1 (info k e.2).2
          (sqrt ((info k e.2).1 * (info k e.2).1 + (info k e.2).2 * (info k e.2).2)))
        else w else w) (haloghostSlip sqrt u_halo v_halo table info bc l1 w)) := by
    intro w; unfold haloghostSlip; rw [List.foldl_append, List.foldl_cons]
  rw [happ, hrest _ _ hk2, ht, List.zipIdx_append, List.foldl_append, List.zipIdx_cons, List.foldl_cons, hz]
  · simp only [if_pos he.1, if_pos he.2, setAt, if_true, Nat.zero_add]
    rw [C81_mirror_partial _ _ _ _ _ (hs _ rfl).1 (hs _ rfl).2]
  · intro x hx
    exact hpost x.1 (List.fst_mem_of_mem_zipIdx hx)

/-- **C81** is false of the halo kernel: one halo node (number 5) with one slip ghost in slot 0, wall normal (0, 1), halo velocity
1: the mirrored velocity is 1, but slot 0 keeps its old value 7. -/
theorem C81_halo_counterexample :
    haloghostSlip (K := ℚ) (fun x => x) (fun _ => 1) (fun _ => 0) (fun n => if n = 5 then [⟨0, 3, 0⟩] else []) (fun _ _ => (0, 1)) 3 [5]
      (fun _ => 7) 0 = 7 ∧ mirror1 (1 : ℚ) 0 0 1 = 1 := by
  refine ⟨C81_halo_writes_nodes _ _ _ _ _ _ _ _ _ (by decide), by unfold mirror1; norm_num⟩

/-- Non-vacuity of C81: a wall with normal (3, 4), length 5. -/
example : slipU (2 : ℚ) 1 3 4 5 = mirror1 2 1 (3 / 5) (4 / 5) :=
  C81_mirror_partial _ _ _ _ _ (by norm_num) (by norm_num)

/-! ## C84 -/

/-- **C84** (3D): at a halo ghost the user's function is evaluated at the centre of the ghost's boundary face, as on the process that
owns the face. -/
theorem C84_function_3d (f : K → K → K → K) (c n : Nat → K) : lambdaAtSlot f (infoRow3 c n) = lambdaAtFace f c := rfl

/-- **C84** (2D, what the code does): the third argument is the first component of the face's normal. -/
theorem C84_function_2d_actual (f : K → K → K → K) (c n : Nat → K) : lambdaAtSlot f (infoRow2 c n) = f (c 0) (c 1) (n 0) := rfl

/-- **C84** (2D, partial: functions that do not depend on their third argument): the two values agree. -/
theorem C84_function_2d_partial (f : K → K → K → K) (hf : ∀ x y z z', f x y z = f x y z') (c n : Nat → K) :
    lambdaAtSlot f (infoRow2 c n) = lambdaAtFace f c := hf _ _ _ _

/-- **C84** (2D, exactly when): the halo value is the value at the face for every centre in the plane `z = 0` and every normal iff the
function does not depend on its third argument. -/
theorem C84_function_2d_iff (f : K → K → K → K) :
    (∀ c n : Nat → K, c 2 = 0 → lambdaAtSlot f (infoRow2 c n) = lambdaAtFace f c) ↔ ∀ x y z z', f x y z = f x y z' := by
  constructor
  · intro h x y z z'
    have h1 := h (fun j => if j = 0 then x else if j = 1 then y else 0) (fun _ => z) rfl
    have h2 := h (fun j => if j = 0 then x else if j = 1 then y else 0) (fun _ => z') rfl
    have e1 : f x y z = f x y 0 := h1
    have e2 : f x y z' = f x y 0 := h2
    rw [e1, e2]
  · intro h c n _
    exact h _ _ _ _

/-- **C84** is false of the 2D code: the function `z ↦ z` on a face at (1, 2, 0) with normal (5, 0): 5 instead of 0. -/
theorem C84_counterexample :
    lambdaAtSlot (fun _ _ z => z) (infoRow2 (fun j => if j = 0 then (1 : ℚ) else if j = 1 then 2 else 0) (fun j => if j = 0 then 5 else 0)) = 5 ∧
    lambdaAtFace (fun _ _ z => z) (fun j => if j = 0 then (1 : ℚ) else if j = 1 then 2 else 0) = 0 := by
  constructor <;> rfl

end Verif.Var
