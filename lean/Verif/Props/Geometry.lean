import Verif.Model.Geometry
import Verif.Spec.Geometry
import Mathlib.Data.List.Permutation
import Mathlib.Tactic.IntervalCases
import Mathlib.Tactic.Positivity
import Mathlib.Algebra.Order.Field.Rat
import Mathlib.Analysis.Real.Sqrt

/-!
# Properties C09–C13, C66: geometric kernels
-/
set_option linter.unusedSectionVars false
namespace Verif.Props
open Verif.Geo Verif.Spec
variable {K : Type*} [Field K] [LinearOrder K] [IsStrictOrderedRing K]

/-! ### loop lemmas -/

theorem writeRows_apply {α : Type*} (n : Nat) (f : Nat → α) (a : Nat → α) (i : Nat) :
    writeRows n f a i = if i < n then f i else a i := by
  unfold writeRows
  induction n with
  | zero => simp
  | succ n ih =>
    rw [List.range_succ, List.foldl_append]
    simp only [List.foldl_cons, List.foldl_nil]
    by_cases h : i = n
    · subst h; simp [setAt]
    · rw [setAt_ne _ _ h, ih]
      have : i < n + 1 ↔ i < n := by omega
      simp [this]

theorem compute2d_apply (vertex : Nat → Vec K) (n : Nat) (s : Cells2 K) (i : Nat) :
    (compute2dCenterVolume vertex n s).nodeid i
        = (if i < n then orient2 vertex (s.nodeid i).1 (s.nodeid i).2.1 (s.nodeid i).2.2 else s.nodeid i) ∧
    (compute2dCenterVolume vertex n s).center i
        = (if i < n then center2 vertex (s.nodeid i).1 (s.nodeid i).2.1 (s.nodeid i).2.2 else s.center i) ∧
    (compute2dCenterVolume vertex n s).volume i
        = (if i < n then volume2 vertex (s.nodeid i).1 (s.nodeid i).2.1 (s.nodeid i).2.2 else s.volume i) := by
  unfold compute2dCenterVolume
  induction n generalizing i with
  | zero => simp
  | succ n ih =>
    rw [List.range_succ, List.foldl_append]
    simp only [List.foldl_cons, List.foldl_nil]
    have hn := ih n
    simp only [lt_irrefl, if_false] at hn
    by_cases h : i = n
    · subst h
      have hn1 := hn.1
      simp only [setAt_same, Nat.lt_succ_self, if_true]
      generalize List.foldl _ s (List.range i) = t at hn1 ⊢
      rcases t with ⟨tn, tc, tv⟩
      simp only at hn1 ⊢
      rw [hn1]; exact ⟨rfl, rfl, rfl⟩
    · rw [setAt_ne _ _ h, setAt_ne _ _ h, setAt_ne _ _ h]
      have e : i < n + 1 ↔ i < n := by omega
      simp only [e]
      exact ih i

theorem perm3 {a b c x y z : Nat} (h : [x, y, z].Perm [a, b, c]) :
    (x = a ∧ y = b ∧ z = c) ∨ (x = b ∧ y = a ∧ z = c) ∨ (x = b ∧ y = c ∧ z = a) ∨
    (x = a ∧ y = c ∧ z = b) ∨ (x = c ∧ y = a ∧ z = b) ∨ (x = c ∧ y = b ∧ z = a) := by
  have := List.mem_permutations'.mpr h
  simpa [List.permutations', List.permutations'Aux, or_assoc] using this

theorem perm2 {a b x y : Nat} (h : [x, y].Perm [a, b]) : (x = a ∧ y = b) ∨ (x = b ∧ y = a) := by
  have := List.mem_permutations'.mpr h
  simpa [List.permutations', List.permutations'Aux] using this

/-! ## C09 triangles -/

theorem volume2_eq (vertex : Nat → Vec K) (a b c : Nat) :
    volume2 vertex a b c = |signedArea (vertex a) (vertex b) (vertex c)| := by
  unfold volume2 signedArea
  rw [abs_div, abs_of_pos (by norm_num : (0:K) < 2)]
  have e : (vertex a 0 - vertex b 0) * (vertex a 1 - vertex c 1) - (vertex a 0 - vertex c 0) * (vertex a 1 - vertex b 1)
    = (vertex b 0 - vertex a 0) * (vertex c 1 - vertex a 1) - (vertex c 0 - vertex a 0) * (vertex b 1 - vertex a 1) := by
    ring
  simp only [e]; ring

/-- C09: after the call, for every cell `i < n`: the volume is the absolute signed area of the cell, the centre
is the barycentre, and the node row is a reordering of the original nodes for which the signed area equals
the stored volume (counter-clockwise). -/
theorem C09_triangle_geometry (vertex : Nat → Vec K) (n : Nat) (s : Cells2 K) (i : Nat) (hi : i < n)
    (a b c : Nat) (hs : s.nodeid i = (a, b, c)) :
    let s' := compute2dCenterVolume vertex n s
    s'.volume i = |signedArea (vertex a) (vertex b) (vertex c)| ∧
    (∀ k < 2, s'.center i k = (vertex a k + vertex b k + vertex c k) / 3) ∧ s'.center i 2 = 0 ∧
    ∃ a' b' c', s'.nodeid i = (a', b', c') ∧ [a', b', c'].Perm [a, b, c] ∧
      signedArea (vertex a') (vertex b') (vertex c') = s'.volume i := by
  intro s'
  obtain ⟨h1, h2, h3⟩ := compute2d_apply vertex n s i
  simp only [hi, if_true, hs] at h1 h2 h3
  have hv : s'.volume i = |signedArea (vertex a) (vertex b) (vertex c)| := by
    rw [← volume2_eq]; exact h3
  refine ⟨hv, ?_, ?_, ?_⟩
  · intro k hk
    change (compute2dCenterVolume vertex n s).center i k = _
    rw [h2]
    interval_cases k <;> simp only [center2] <;> ring
  · change (compute2dCenterVolume vertex n s).center i 2 = _
    rw [h2]; rfl
  · have e : (vertex b 0 - vertex a 0) * (vertex c 1 - vertex a 1) - (vertex b 1 - vertex a 1) * (vertex c 0 - vertex a 0)
        = 2 * signedArea (vertex a) (vertex b) (vertex c) := by unfold signedArea; ring
    by_cases hneg : signedArea (vertex a) (vertex b) (vertex c) < 0
    · refine ⟨a, c, b, ?_, by simpa using List.Perm.swap b c [], ?_⟩
      · change (compute2dCenterVolume vertex n s).nodeid i = _
        rw [h1]; unfold orient2
        simp only [e]; rw [if_pos (by linarith)]
      · rw [hv, abs_of_neg hneg]; unfold signedArea; ring
    · refine ⟨a, b, c, ?_, List.Perm.refl _, ?_⟩
      · change (compute2dCenterVolume vertex n s).nodeid i = _
        rw [h1]; unfold orient2
        simp only [e]; rw [if_neg (by linarith)]
      · rw [hv, abs_of_nonneg (not_lt.mp hneg)]

/-- C09: the area does not depend on the order in which the nodes are listed and is nonnegative. -/
theorem C09_area_renumbering (vertex : Nat → Vec K) (a b c a' b' c' : Nat) (h : [a', b', c'].Perm [a, b, c]) :
    volume2 vertex a' b' c' = volume2 vertex a b c ∧ 0 ≤ volume2 vertex a b c := by
  constructor
  · rw [volume2_eq, volume2_eq]
    rcases perm3 h with h | h | h | h | h | h <;> obtain ⟨rfl, rfl, rfl⟩ := h
    · rfl
    · rw [← abs_neg]; congr 1; unfold signedArea; ring
    · congr 1; unfold signedArea; ring
    · rw [← abs_neg]; congr 1; unfold signedArea; ring
    · congr 1; unfold signedArea; ring
    · rw [← abs_neg]; congr 1; unfold signedArea; ring
  · rw [volume2_eq]; exact abs_nonneg _

/-- C09: cells outside the loop range are untouched. -/
theorem C09_triangle_frame (vertex : Nat → Vec K) (n : Nat) (s : Cells2 K) (i : Nat) (hi : ¬ i < n) :
    (compute2dCenterVolume vertex n s).nodeid i = s.nodeid i ∧
    (compute2dCenterVolume vertex n s).center i = s.center i ∧
    (compute2dCenterVolume vertex n s).volume i = s.volume i := by
  obtain ⟨h1, h2, h3⟩ := compute2d_apply vertex n s i
  simp only [hi, if_false] at h1 h2 h3
  exact ⟨h1, h2, h3⟩

/-- A clockwise triangle: reordered, area 1/2. -/
def exVertex : Nat → Vec ℚ := fun s k => match s, k with
  | 1, 0 => 1 | 2, 0 => 1 | 2, 1 => 1 | 3, 1 => 1 | 4, 2 => 1 | _, _ => 0

example : (compute2dCenterVolume exVertex 1 ⟨fun _ => (0, 2, 1), fun _ _ => 0, fun _ => 0⟩).nodeid 0 = (0, 1, 2) ∧
    (compute2dCenterVolume exVertex 1 ⟨fun _ => (0, 2, 1), fun _ _ => 0, fun _ => 0⟩).volume 0 = 1/2 := by
  decide +kernel

/-! ## C10 tetrahedra -/

theorem volume3_eq (vertex : Nat → Vec K) (a b c d : Nat) :
    volume3 vertex a b c d = |signedVol (vertex a) (vertex b) (vertex c) (vertex d)| := by
  simp only [volume3, signedVol, wedge]
  rw [abs_div, abs_of_pos (by norm_num : (0:K) < 6)]
  have e : ∀ x y : K, x = y → 1 / 6 * |x| = |y| / 6 := by rintro x _ rfl; ring
  apply e; ring

/-- C10: for every cell the stored volume is the absolute value of the signed volume and the centre is the
barycentre; other rows are untouched. -/
theorem C10_tetra_geometry (nodeid : Nat → Nat × Nat × Nat × Nat) (vertex : Nat → Vec K) (n : Nat)
    (center : Nat → Vec K) (volume : Nat → K) (i : Nat) :
    (i < n → ∀ a b c d, nodeid i = (a, b, c, d) →
      (compute3dCenterVolume nodeid vertex n center volume).2 i
        = |signedVol (vertex a) (vertex b) (vertex c) (vertex d)| ∧
      ∀ k, (compute3dCenterVolume nodeid vertex n center volume).1 i k
        = (vertex a k + vertex b k + vertex c k + vertex d k) / 4) ∧
    (¬ i < n → (compute3dCenterVolume nodeid vertex n center volume).2 i = volume i ∧
      (compute3dCenterVolume nodeid vertex n center volume).1 i = center i) := by
  unfold compute3dCenterVolume
  simp only [writeRows_apply]
  constructor
  · intro h a b c d hn
    simp only [h, if_true, hn]
    refine ⟨volume3_eq vertex a b c d, ?_⟩
    intro k; unfold center3; ring
  · intro h; simp [h]

theorem signedVol_perm (vertex : Nat → Vec K) (a b c d a' b' c' d' : Nat)
    (h : [a', b', c', d'].Perm [a, b, c, d]) :
    |signedVol (vertex a') (vertex b') (vertex c') (vertex d')|
      = |signedVol (vertex a) (vertex b) (vertex c) (vertex d)| := by
  have := List.mem_permutations'.mpr h
  simp only [List.permutations', List.permutations'Aux, List.flatMap_cons, List.flatMap_nil, List.map_cons,
    List.map_nil, List.append_nil, List.cons_append, List.nil_append, List.mem_cons, List.cons.injEq, and_true,
    List.not_mem_nil, or_false] at this
  rcases this with h | h | h | h | h | h | h | h | h | h | h | h | h | h | h | h | h | h | h | h | h | h | h | h <;>
    obtain ⟨rfl, rfl, rfl, rfl⟩ := h <;>
    first
    | rfl
    | (congr 1; unfold signedVol; ring1)
    | (rw [← abs_neg]; congr 1; unfold signedVol; ring1)

/-- C10: the volume does not depend on the order of the four nodes and is nonnegative. -/
theorem C10_volume_renumbering (vertex : Nat → Vec K) (a b c d a' b' c' d' : Nat)
    (h : [a', b', c', d'].Perm [a, b, c, d]) :
    volume3 vertex a' b' c' d' = volume3 vertex a b c d ∧ 0 ≤ volume3 vertex a b c d := by
  rw [volume3_eq, volume3_eq]
  exact ⟨signedVol_perm vertex a b c d a' b' c' d' h, abs_nonneg _⟩

/-- C10: the volume is invariant under translation of the mesh. -/
theorem C10_volume_translation (vertex : Nat → Vec K) (t : Vec K) (a b c d : Nat) :
    volume3 (fun s k => vertex s k + t k) a b c d = volume3 vertex a b c d := by
  rw [volume3_eq, volume3_eq]; congr 1; unfold signedVol; ring

example : volume3 exVertex 0 1 3 4 = 1/6 := by decide +kernel


/-! ## C11 face normals -/

theorem orientedNormal2_pm (vertex : Nat → Vec K) (g : Vec K) (p q : Nat) :
    orientedNormal2 vertex g p q = rawNormal2 vertex p q ∨
    orientedNormal2 vertex g p q = fun k => - rawNormal2 vertex p q k := by
  unfold orientedNormal2
  simp only
  split
  · right; funext k; ring
  · left; rfl

theorem orientedNormal3_pm (vertex : Nat → Vec K) (g : Vec K) (p q r : Nat) :
    orientedNormal3 vertex g p q r = rawNormal3 vertex p q r ∨
    orientedNormal3 vertex g p q r = fun k => - rawNormal3 vertex p q r k := by
  unfold orientedNormal3
  simp only
  split
  · right; funext k; ring
  · left; rfl

theorem sp_eq (u v : Vec K) : sp u v = u 0 * v 0 + u 1 * v 1 + u 2 * v 2 := by
  simp [sp, Finset.sum_range_succ]

/-- C11 (2D): for every face `i` with nodes `p q`: the stored normal is orthogonal to the edge, points out of the
face's first cell, the face centre is the midpoint and the measure is a nonnegative number whose square is the
squared length of the normal, which is the squared length of the edge. -/
theorem C11_face2 (sqrt : K → K) (hs : SqrtSpec sqrt) (cellid nodeid : Nat → Nat → Nat) (vertex centerc : Nat → Vec K)
    (nbfaces : Nat) (normalf0 centerf0 : Nat → Vec K) (mesuref0 : Nat → K) (i : Nat) (hi : i < nbfaces) :
    let out := createInfo2dfaces sqrt cellid nodeid vertex centerc nbfaces normalf0 centerf0 mesuref0
    let n := out.1 i; let c := out.2.1 i; let m := out.2.2 i
    let P := vertex (nodeid i 0); let Q := vertex (nodeid i 1)
    (∀ k < 3, c k = (P k + Q k) / 2) ∧
    n 2 = 0 ∧ sp n (fun k => Q k - P k) = 0 ∧
    sp (fun k => centerc (cellid i 0) k - c k) n ≤ 0 ∧
    0 ≤ m ∧ m ^ 2 = sp n n ∧ m ^ 2 = (Q 0 - P 0) ^ 2 + (Q 1 - P 1) ^ 2 := by
  simp only [createInfo2dfaces, writeRows_apply, hi, if_true]
  have hpm := orientedNormal2_pm vertex (centerc (cellid i 0)) (nodeid i 0) (nodeid i 1)
  set P := vertex (nodeid i 0)
  set Q := vertex (nodeid i 1)
  set n := orientedNormal2 vertex (centerc (cellid i 0)) (nodeid i 0) (nodeid i 1) with hn
  have hz : n 2 = 0 := by rcases hpm with h | h <;> rw [h] <;> simp [rawNormal2]
  have hnn : (0:K) ≤ n 0 ^ 2 + n 1 ^ 2 := by positivity
  have hsq : n 0 ^ 2 + n 1 ^ 2 = (Q 0 - P 0) ^ 2 + (Q 1 - P 1) ^ 2 := by
    rcases hpm with h | h <;> rw [h] <;> simp only [rawNormal2] <;> ring
  refine ⟨?_, hz, ?_, ?_, hs.nonneg _ hnn, ?_, ?_⟩
  · intro k _; simp only [centerf2]; ring
  · rw [sp_eq, hz]; rcases hpm with h | h <;> rw [h] <;> simp only [rawNormal2] <;> ring
  · rw [sp_eq, hz, hn]; unfold orientedNormal2; simp only
    split
    · rename_i h; linarith
    · rename_i h; linarith
  · rw [sp_eq, hz]; unfold mesure2; rw [hs.sq _ hnn]; ring
  · unfold mesure2; rw [hs.sq _ hnn, hsq]

/-- C11 (3D): same for triangular faces; the squared measure is the squared area of the triangle, i.e. a quarter
of the Gram determinant of two of its edges. -/
theorem C11_face3 (sqrt : K → K) (hs : SqrtSpec sqrt) (cellid nodeid : Nat → Nat → Nat) (vertex centerc : Nat → Vec K)
    (nbfaces : Nat) (normalf0 centerf0 : Nat → Vec K) (mesuref0 : Nat → K) (i : Nat) (hi : i < nbfaces) :
    let out := createInfo3dfaces sqrt cellid nodeid vertex centerc nbfaces normalf0 centerf0 mesuref0
    let n := out.1 i; let c := out.2.1 i; let m := out.2.2 i
    let P := vertex (nodeid i 0); let Q := vertex (nodeid i 1); let R := vertex (nodeid i 2)
    let u : Vec K := fun k => Q k - P k
    let v : Vec K := fun k => R k - P k
    (∀ k < 3, c k = (P k + Q k + R k) / 3) ∧
    sp n u = 0 ∧ sp n v = 0 ∧
    sp (fun k => centerc (cellid i 0) k - c k) n ≤ 0 ∧
    0 ≤ m ∧ m ^ 2 = sp n n ∧ m ^ 2 = (sp u u * sp v v - sp u v ^ 2) / 4 := by
  simp only [createInfo3dfaces, writeRows_apply, hi, if_true]
  have hpm := orientedNormal3_pm vertex (centerc (cellid i 0)) (nodeid i 0) (nodeid i 1) (nodeid i 2)
  set P := vertex (nodeid i 0) with hP
  set Q := vertex (nodeid i 1) with hQ
  set R := vertex (nodeid i 2) with hR
  set n := orientedNormal3 vertex (centerc (cellid i 0)) (nodeid i 0) (nodeid i 1) (nodeid i 2) with hn
  have hnn : (0:K) ≤ n 0 ^ 2 + n 1 ^ 2 + n 2 ^ 2 := by positivity
  have hsq : n 0 ^ 2 + n 1 ^ 2 + n 2 ^ 2 = (sp (fun k => Q k - P k) (fun k => Q k - P k)
      * sp (fun k => R k - P k) (fun k => R k - P k) - sp (fun k => Q k - P k) (fun k => R k - P k) ^ 2) / 4 := by
    simp only [sp_eq]
    rcases hpm with h | h <;> rw [h] <;> simp only [rawNormal3, ← hP, ← hQ, ← hR] <;> ring
  refine ⟨?_, ?_, ?_, ?_, hs.nonneg _ hnn, ?_, ?_⟩
  · intro k _; simp only [centerf3]; ring
  · rw [sp_eq]; rcases hpm with h | h <;> rw [h] <;> simp only [rawNormal3] <;> ring
  · rw [sp_eq]; rcases hpm with h | h <;> rw [h] <;> simp only [rawNormal3] <;> ring
  · rw [sp_eq, hn]; unfold orientedNormal3; simp only
    split
    · rename_i h; linarith
    · rename_i h; linarith
  · rw [sp_eq]; unfold mesure3; rw [hs.sq _ hnn]; ring
  · unfold mesure3; rw [hs.sq _ hnn, hsq]

/-- The square root of the real numbers satisfies the assumption. -/
theorem sqrtSpec_real : SqrtSpec Real.sqrt := ⟨fun x _ => Real.sqrt_nonneg x, fun _ h => Real.sq_sqrt h⟩

/-- C11: rows that are not faces are untouched. -/
theorem C11_frame (sqrt : K → K) (cellid nodeid : Nat → Nat → Nat) (vertex centerc : Nat → Vec K)
    (nbfaces : Nat) (normalf0 centerf0 : Nat → Vec K) (mesuref0 : Nat → K) (i : Nat) (hi : ¬ i < nbfaces) :
    (createInfo2dfaces sqrt cellid nodeid vertex centerc nbfaces normalf0 centerf0 mesuref0).1 i = normalf0 i ∧
    (createInfo3dfaces sqrt cellid nodeid vertex centerc nbfaces normalf0 centerf0 mesuref0).1 i = normalf0 i := by
  simp [createInfo2dfaces, createInfo3dfaces, writeRows_apply, hi]

/-- Face (0,1) of the square seen from the cell above it: the normal is flipped to point down, length 1. -/
example : orientedNormal2 exVertex (center2 exVertex 0 1 2) 0 1 1 = -1 ∧
    rawNormal2 exVertex 0 1 1 = 1 := by decide +kernel

/-! ## C12 closed cells -/

theorem createNF_apply (centerc centerf : Nat → Vec K) (faceid : Nat → Nat → Nat) (normal : Nat → Vec K)
    (n : Nat) (nf : Nat → Nat → Vec K) (dim i j : Nat) :
    createNormalFacesOfCell centerc centerf faceid normal n nf dim i j =
      if i < n ∧ j < dim + 1 then outNormal (centerc i) (centerf (faceid i j)) (normal (faceid i j)) else nf i j := by
  have inner : ∀ (m : Nat) (nf : Nat → Nat → Vec K) (i i' j : Nat),
      (List.range m).foldl (fun nf j =>
        setAt nf i (setAt (nf i) j (outNormal (centerc i) (centerf (faceid i j)) (normal (faceid i j))))) nf i' j
      = if i' = i ∧ j < m then outNormal (centerc i) (centerf (faceid i j)) (normal (faceid i j)) else nf i' j := by
    intro m
    induction m with
    | zero => intro nf i i' j; simp
    | succ m ih =>
      intro nf i i' j
      rw [List.range_succ, List.foldl_append]
      simp only [List.foldl_cons, List.foldl_nil]
      by_cases hi : i' = i
      · subst hi
        simp only [setAt_same]
        by_cases hj : j = m
        · subst hj; simp
        · rw [setAt_ne _ _ hj, ih]
          have e : j < m + 1 ↔ j < m := by omega
          simp [e]
      · rw [setAt_ne _ _ hi, ih]; simp [hi]
  unfold createNormalFacesOfCell
  induction n generalizing i j with
  | zero => simp
  | succ n ih =>
    rw [List.range_succ (n := n), List.foldl_append]
    simp only [List.foldl_cons, List.foldl_nil]
    rw [inner, ih]
    by_cases hi : i = n
    · subst hi; simp
    · have e : i < n + 1 ↔ i < n := by omega
      simp [hi, e]

/-- The selected normal does not depend on the sign of the stored one. -/
theorem outNormal_pm (G c N n : Vec K) (hn : n = N ∨ n = fun k => - N k)
    (ht : sp (fun k => G k - c k) N ≠ 0) :
    outNormal G c n = if sp (fun k => G k - c k) N < 0 then N else fun k => - N k := by
  rw [sp_eq] at ht ⊢
  unfold outNormal
  rcases hn with rfl | rfl
  · split
    · rfl
    · funext k; ring
  · by_cases h : (G 0 - c 0) * N 0 + (G 1 - c 1) * N 1 + (G 2 - c 2) * N 2 < 0
    · rw [if_neg (by linarith), if_pos h]; funext k; ring
    · rw [if_pos, if_neg h]
      rcases lt_or_gt_of_ne ht with h' | h'
      · exact absurd h' h
      · linarith

/-- Stored normal and centre of a face whose nodes are `p q` in some order. -/
theorem face2_of_perm (vertex : Nat → Vec K) (g : Vec K) (x y p q : Nat) (h : [x, y].Perm [p, q]) :
    (orientedNormal2 vertex g x y = rawNormal2 vertex p q ∨
      orientedNormal2 vertex g x y = fun k => - rawNormal2 vertex p q k) ∧
    centerf2 vertex x y = centerf2 vertex p q := by
  rcases perm2 h with ⟨rfl, rfl⟩ | ⟨rfl, rfl⟩
  · exact ⟨orientedNormal2_pm vertex g x y, rfl⟩
  · refine ⟨?_, by funext k; simp only [centerf2]; ring⟩
    have e : (fun k => - rawNormal2 vertex x y k) = rawNormal2 vertex y x := by
      funext k; simp only [rawNormal2]; split <;> ring
    rcases orientedNormal2_pm vertex g x y with h' | h' <;> rw [h']
    · right; rw [← e]; funext k; ring
    · left; rw [e]

theorem face3_of_perm (vertex : Nat → Vec K) (g : Vec K) (x y z p q r : Nat) (h : [x, y, z].Perm [p, q, r]) :
    (orientedNormal3 vertex g x y z = rawNormal3 vertex p q r ∨
      orientedNormal3 vertex g x y z = fun k => - rawNormal3 vertex p q r k) ∧
    centerf3 vertex x y z = centerf3 vertex p q r := by
  have key : rawNormal3 vertex x y z = rawNormal3 vertex p q r ∨
      rawNormal3 vertex x y z = fun k => - rawNormal3 vertex p q r k := by
    rcases perm3 h with h | h | h | h | h | h <;> obtain ⟨rfl, rfl, rfl⟩ := h
    · left; rfl
    · right; funext k; simp only [rawNormal3]; split <;> ring
    · left; funext k; simp only [rawNormal3]; split <;> ring
    · right; funext k; simp only [rawNormal3]; split <;> ring
    · left; funext k; simp only [rawNormal3]; split <;> ring
    · right; funext k; simp only [rawNormal3]; split <;> ring
  refine ⟨?_, ?_⟩
  · rcases orientedNormal3_pm vertex g x y z with h' | h' <;> rw [h'] <;> rcases key with e | e <;> rw [e]
    · left; rfl
    · right; rfl
    · right; rfl
    · left; funext k; ring
  · rcases perm3 h with h | h | h | h | h | h <;> obtain ⟨rfl, rfl, rfl⟩ := h <;>
      funext k <;> simp only [centerf3] <;> ring

/-- C12 (2D), whole pipeline as run by the Domain: cell centres and node rows from
`compute2dCenterVolume`, face data from `createInfo2dfaces` (whatever first cell each face has), outgoing normals
from `createNormalFacesOfCell`.  If cell `i` is nondegenerate and its `j`-th face has, in any order, the nodes of
its `j`-th side, the outgoing normals of the cell point strictly outwards and add up to zero. -/
theorem C12_closed_triangle (sqrt : K → K) (vertex : Nat → Vec K)
    (nbcells nbfaces : Nat) (s : Cells2 K) (cellid fnode : Nat → Nat → Nat) (faceid : Nat → Nat → Nat)
    (normalf0 centerf0 : Nat → Vec K) (mesuref0 : Nat → K) (nf0 : Nat → Nat → Vec K)
    (i a b c : Nat) (hi : i < nbcells) :
    let s' := compute2dCenterVolume vertex nbcells s
    let fc := createInfo2dfaces sqrt cellid fnode vertex s'.center nbfaces normalf0 centerf0 mesuref0
    let nf := createNormalFacesOfCell s'.center fc.2.1 faceid fc.1 nbcells nf0 2
    s'.nodeid i = (a, b, c) → signedArea (vertex a) (vertex b) (vertex c) ≠ 0 →
    (∀ j < 3, faceid i j < nbfaces ∧ [fnode (faceid i j) 0, fnode (faceid i j) 1].Perm (side2 a b c j)) →
    (∀ k < 3, ∑ j ∈ Finset.range 3, nf i j k = 0) ∧
    ∀ j < 3, sp (fun k => s'.center i k - fc.2.1 (faceid i j) k) (nf i j) < 0 := by
  intro s' fc nf hrow harea hf
  obtain ⟨⟨a0, b0, c0⟩, hs0⟩ : ∃ t, s.nodeid i = t := ⟨_, rfl⟩
  obtain ⟨hv, hc, hc2, a', b', c', hr', hperm, hsa⟩ := C09_triangle_geometry vertex nbcells s i hi a0 b0 c0 hs0
  rw [show (compute2dCenterVolume vertex nbcells s).nodeid i = (a, b, c) from hrow] at hr'
  obtain ⟨rfl, rfl, rfl⟩ : a = a' ∧ b = b' ∧ c = c' := by simpa using hr'
  have hpos : 0 < signedArea (vertex a) (vertex b) (vertex c) := by
    apply lt_of_le_of_ne _ harea.symm
    rw [hsa, hv]; exact abs_nonneg _
  have hG : ∀ k < 2, s'.center i k = (vertex a k + vertex b k + vertex c k) / 3 := by
    intro k hk; rw [hc k hk]
    rcases perm3 hperm with h | h | h | h | h | h <;> obtain ⟨rfl, rfl, rfl⟩ := h <;> ring
  -- data of one face
  have face : ∀ j < 3, ∀ p q, side2 a b c j = [p, q] →
      sp (fun k => s'.center i k - centerf2 vertex p q k) (rawNormal2 vertex p q)
        = 2 / 3 * signedArea (vertex a) (vertex b) (vertex c) →
      nf i j = (fun k => - rawNormal2 vertex p q k) ∧ fc.2.1 (faceid i j) = centerf2 vertex p q := by
    intro j hj p q hside ht
    obtain ⟨hfl, hp⟩ := hf j hj
    rw [hside] at hp
    obtain ⟨hpm, hcen⟩ := face2_of_perm vertex (s'.center (cellid (faceid i j) 0)) _ _ p q hp
    have e1 : fc.1 (faceid i j) = orientedNormal2 vertex (s'.center (cellid (faceid i j) 0))
        (fnode (faceid i j) 0) (fnode (faceid i j) 1) := by
      simp [fc, createInfo2dfaces, writeRows_apply, hfl]
    have e2 : fc.2.1 (faceid i j) = centerf2 vertex p q := by
      rw [← hcen]; simp [fc, createInfo2dfaces, writeRows_apply, hfl]
    refine ⟨?_, e2⟩
    have hj' : j < 2 + 1 := hj
    simp only [nf, createNF_apply, hi, hj', and_self, if_true]
    rw [e1, e2, outNormal_pm _ _ (rawNormal2 vertex p q) _ hpm (by rw [ht]; positivity),
      if_neg (by rw [ht]; exact not_lt.mpr (by positivity))]
  have ht : ∀ p q r, signedArea (vertex p) (vertex q) (vertex r) = signedArea (vertex a) (vertex b) (vertex c) →
      (∀ k < 2, s'.center i k = (vertex p k + vertex q k + vertex r k) / 3) →
      sp (fun k => s'.center i k - centerf2 vertex p q k) (rawNormal2 vertex p q)
        = 2 / 3 * signedArea (vertex a) (vertex b) (vertex c) := by
    intro p q r h hc
    rw [← h, sp_eq, hc 0 (by omega), hc 1 (by omega)]
    simp only [rawNormal2, centerf2, signedArea]; ring
  have t0 := ht a b c rfl hG
  have t1 := ht b c a (by unfold signedArea; ring) (fun k hk => by rw [hG k hk]; ring)
  have t2 := ht c a b (by unfold signedArea; ring) (fun k hk => by rw [hG k hk]; ring)
  obtain ⟨n0, c0'⟩ := face 0 (by omega) a b rfl t0
  obtain ⟨n1, c1'⟩ := face 1 (by omega) b c rfl t1
  obtain ⟨n2, c2'⟩ := face 2 (by omega) c a rfl t2
  constructor
  · intro k hk
    simp only [Finset.sum_range_succ, Finset.sum_range_zero, n0, n1, n2]
    interval_cases k <;> simp only [rawNormal2] <;> ring
  · intro j hj
    interval_cases j
    · rw [n0, c0']; rw [sp_eq] at t0 ⊢; linarith
    · rw [n1, c1']; rw [sp_eq] at t1 ⊢; linarith
    · rw [n2, c2']; rw [sp_eq] at t2 ⊢; linarith

/-- C12 (3D): the same for a nondegenerate tetrahedron with the centre stored by `compute3dCenterVolume`.
(The Domain calls `createNormalFacesOfCell` only in 2D; in 3D its table stays zero.) -/
theorem C12_closed_tetra (sqrt : K → K) (vertex : Nat → Vec K)
    (nbcells nbfaces : Nat) (nodeid : Nat → Nat × Nat × Nat × Nat) (center0 : Nat → Vec K) (volume0 : Nat → K)
    (cellid fnode : Nat → Nat → Nat) (faceid : Nat → Nat → Nat)
    (normalf0 centerf0 : Nat → Vec K) (mesuref0 : Nat → K) (nf0 : Nat → Nat → Vec K)
    (i a b c d : Nat) (hi : i < nbcells) (hrow : nodeid i = (a, b, c, d))
    (hvol : signedVol (vertex a) (vertex b) (vertex c) (vertex d) ≠ 0)
    (hf : ∀ j < 4, faceid i j < nbfaces ∧
      [fnode (faceid i j) 0, fnode (faceid i j) 1, fnode (faceid i j) 2].Perm (side3 a b c d j)) :
    let cen := (compute3dCenterVolume nodeid vertex nbcells center0 volume0).1
    let fc := createInfo3dfaces sqrt cellid fnode vertex cen nbfaces normalf0 centerf0 mesuref0
    let nf := createNormalFacesOfCell cen fc.2.1 faceid fc.1 nbcells nf0 3
    (∀ k < 3, ∑ j ∈ Finset.range 4, nf i j k = 0) ∧
    ∀ j < 4, sp (fun k => cen i k - fc.2.1 (faceid i j) k) (nf i j) < 0 := by
  intro cen fc nf
  set V := signedVol (vertex a) (vertex b) (vertex c) (vertex d) with hV
  have hG : ∀ k, cen i k = (vertex a k + vertex b k + vertex c k + vertex d k) / 4 :=
    ((C10_tetra_geometry nodeid vertex nbcells center0 volume0 i).1 hi a b c d hrow).2
  have face : ∀ j < 4, ∀ p q r, side3 a b c d j = [p, q, r] → ∀ t,
      sp (fun k => cen i k - centerf3 vertex p q r k) (rawNormal3 vertex p q r) = t → t ≠ 0 →
      nf i j = (if t < 0 then rawNormal3 vertex p q r else fun k => - rawNormal3 vertex p q r k) ∧
      sp (fun k => cen i k - fc.2.1 (faceid i j) k) (nf i j) < 0 := by
    intro j hj p q r hside t ht ht0
    obtain ⟨hfl, hp⟩ := hf j hj
    rw [hside] at hp
    obtain ⟨hpm, hcen⟩ := face3_of_perm vertex (cen (cellid (faceid i j) 0)) _ _ _ p q r hp
    have e1 : fc.1 (faceid i j) = orientedNormal3 vertex (cen (cellid (faceid i j) 0))
        (fnode (faceid i j) 0) (fnode (faceid i j) 1) (fnode (faceid i j) 2) := by
      simp [fc, createInfo3dfaces, writeRows_apply, hfl]
    have e2 : fc.2.1 (faceid i j) = centerf3 vertex p q r := by
      rw [← hcen]; simp [fc, createInfo3dfaces, writeRows_apply, hfl]
    have e3 : nf i j = (if t < 0 then rawNormal3 vertex p q r else fun k => - rawNormal3 vertex p q r k) := by
      have hj' : j < 3 + 1 := hj
      simp only [nf, createNF_apply, hi, hj', and_self, if_true]
      rw [e1, e2, outNormal_pm _ _ (rawNormal3 vertex p q r) _ hpm (by rw [ht]; exact ht0), ht]
    refine ⟨e3, ?_⟩
    rw [e3, e2]
    by_cases h : t < 0
    · rw [if_pos h, ht]; exact h
    · rw [if_neg h]
      have : 0 < t := lt_of_le_of_ne (not_lt.mp h) (Ne.symm ht0)
      rw [sp_eq] at ht ⊢; linarith
  have ht : ∀ p q r o, (∀ k, cen i k = (vertex p k + vertex q k + vertex r k + vertex o k) / 4) →
      sp (fun k => cen i k - centerf3 vertex p q r k) (rawNormal3 vertex p q r)
        = 3 / 4 * signedVol (vertex p) (vertex q) (vertex r) (vertex o) := by
    intro p q r o hc
    rw [sp_eq, hc 0, hc 1, hc 2]
    simp only [rawNormal3, centerf3, signedVol]; ring
  have t0 := ht a b c d hG
  have t1 := ht c d a b (fun k => by rw [hG k]; ring)
  have t2 := ht a b d c (fun k => by rw [hG k]; ring)
  have t3 := ht d b c a (fun k => by rw [hG k]; ring)
  rw [← hV] at t0
  rw [show signedVol (vertex c) (vertex d) (vertex a) (vertex b) = V by rw [hV]; unfold signedVol; ring] at t1
  rw [show signedVol (vertex a) (vertex b) (vertex d) (vertex c) = -V by rw [hV]; unfold signedVol; ring] at t2
  rw [show signedVol (vertex d) (vertex b) (vertex c) (vertex a) = -V by rw [hV]; unfold signedVol; ring] at t3
  have hp : (3 / 4 * V : K) ≠ 0 := mul_ne_zero (by norm_num) hvol
  have hm : (3 / 4 * -V : K) ≠ 0 := mul_ne_zero (by norm_num) (neg_ne_zero.mpr hvol)
  obtain ⟨n0, o0⟩ := face 0 (by omega) a b c rfl _ t0 hp
  obtain ⟨n1, o1⟩ := face 1 (by omega) c d a rfl _ t1 hp
  obtain ⟨n2, o2⟩ := face 2 (by omega) a b d rfl _ t2 hm
  obtain ⟨n3, o3⟩ := face 3 (by omega) d b c rfl _ t3 hm
  constructor
  · intro k hk
    simp only [Finset.sum_range_succ, Finset.sum_range_zero, n0, n1, n2, n3]
    rcases lt_or_gt_of_ne hvol with h | h
    · rw [if_pos (by linarith), if_pos (by linarith), if_neg (by linarith), if_neg (by linarith)]
      interval_cases k <;> simp only [rawNormal3] <;> ring
    · rw [if_neg (by linarith), if_neg (by linarith), if_pos (by linarith), if_pos (by linarith)]
      interval_cases k <;> simp only [rawNormal3] <;> ring
  · intro j hj
    interval_cases j
    · exact o0
    · exact o1
    · exact o2
    · exact o3

/-- Two triangles (0,1,2), (0,2,3) of the unit square, sharing the face 0-2 (sorted node rows). -/
def exFnode : Nat → Nat → Nat := fun f k => match f, k with
  | 0, 0 => 0 | 0, _ => 1 | 1, 0 => 1 | 1, _ => 2 | 2, 0 => 0 | 2, _ => 2 | 3, 0 => 2 | 3, _ => 3
  | _, 0 => 0 | _, _ => 3
def exFaceid : Nat → Nat → Nat := fun i j => match i, j with
  | 0, 0 => 0 | 0, 1 => 1 | 0, _ => 2 | _, 0 => 2 | _, 1 => 3 | _, _ => 4
def exNodeid : Nat → Nat × Nat × Nat := fun i => if i = 0 then (0, 2, 1) else (0, 2, 3)

/-- The hypotheses of `C12_closed_triangle` hold for both cells of the square (cell 0 is given clockwise and is
reordered by the code). -/
example : let s' := compute2dCenterVolume exVertex 2 ⟨exNodeid, fun _ _ => 0, fun _ => 0⟩
    s'.nodeid 0 = (0, 1, 2) ∧ s'.nodeid 1 = (0, 2, 3) ∧
    signedArea (exVertex 0) (exVertex 1) (exVertex 2) ≠ 0 ∧ signedArea (exVertex 0) (exVertex 2) (exVertex 3) ≠ 0 ∧
    (∀ j < 3, exFaceid 0 j < 5 ∧ [exFnode (exFaceid 0 j) 0, exFnode (exFaceid 0 j) 1].Perm (side2 0 1 2 j)) ∧
    (∀ j < 3, exFaceid 1 j < 5 ∧ [exFnode (exFaceid 1 j) 0, exFnode (exFaceid 1 j) 1].Perm (side2 0 2 3 j)) := by
  decide +kernel

/-- A tetrahedron whose four faces are its sides in scrambled order. -/
example : signedVol (exVertex 0) (exVertex 1) (exVertex 3) (exVertex 4) ≠ 0 ∧
    (∀ j < 4, [[3, 0, 1], [0, 4, 3], [1, 4, 0], [1, 3, 4]][j]!.Perm (side3 0 1 3 4 j)) := by
  decide +kernel

/-! ## C13 orientation of 3D faces -/

theorem oriente3d_apply (nodeid : Nat → Nat × Nat × Nat) (normal vertex : Nat → Vec K) (n i : Nat) :
    oriente3dfacenodeid nodeid normal vertex n i =
      if i < n then orientFace3 vertex (normal i) (nodeid i).1 (nodeid i).2.1 (nodeid i).2.2 else nodeid i := by
  unfold oriente3dfacenodeid
  induction n generalizing i with
  | zero => simp
  | succ n ih =>
    rw [List.range_succ, List.foldl_append]
    simp only [List.foldl_cons, List.foldl_nil]
    by_cases h : i = n
    · subst h
      have := ih i
      simp only [lt_irrefl, if_false] at this
      simp only [setAt_same, Nat.lt_succ_self, if_true]
      generalize List.foldl _ nodeid (List.range i) = t at this ⊢
      rw [this]
    · rw [setAt_ne _ _ h, ih]
      have e : i < n + 1 ↔ i < n := by omega
      simp only [e]

/-- C13: after the call every face keeps its nodes, and the orientation of the node row agrees with the given
normal. -/
theorem C13_orientation (nodeid : Nat → Nat × Nat × Nat) (normal vertex : Nat → Vec K) (n i a b c : Nat)
    (hi : i < n) (h : nodeid i = (a, b, c)) :
    ∃ b' c', oriente3dfacenodeid nodeid normal vertex n i = (a, b', c') ∧ [a, b', c'].Perm [a, b, c] ∧
      0 ≤ sp (wedge (fun k => vertex b' k - vertex a k) (fun k => vertex c' k - vertex a k)) (normal i) := by
  rw [oriente3d_apply, if_pos hi, h]
  unfold orientFace3
  simp only
  split
  · rename_i hlt
    refine ⟨c, b, rfl, by simpa using List.Perm.swap b c [], ?_⟩
    simp only [dot3, wedge] at hlt
    simp only [sp_eq, wedge]; linarith
  · rename_i hlt
    refine ⟨b, c, rfl, List.Perm.refl _, ?_⟩
    simp only [dot3, wedge] at hlt
    simp only [sp_eq, wedge]; linarith

/-- C13: with the normal stored by `createInfo3dfaces` for the same node row (any first cell), the cross product of
the edges of the oriented row is exactly twice the stored normal. -/
theorem C13_orientation_stored (sqrt : K → K) (cellid : Nat → Nat → Nat) (fnode : Nat → Nat → Nat)
    (vertex centerc : Nat → Vec K) (n : Nat) (normalf0 centerf0 : Nat → Vec K) (mesuref0 : Nat → K) (i : Nat)
    (hi : i < n) :
    let normal := (createInfo3dfaces sqrt cellid fnode vertex centerc n normalf0 centerf0 mesuref0).1
    let row := oriente3dfacenodeid (fun i => (fnode i 0, fnode i 1, fnode i 2)) normal vertex n i
    ∀ k < 3, wedge (fun k => vertex row.2.1 k - vertex row.1 k) (fun k => vertex row.2.2 k - vertex row.1 k) k
      = 2 * normal i k := by
  intro normal row
  have hrow : row = orientFace3 vertex (normal i) (fnode i 0) (fnode i 1) (fnode i 2) := by
    simp only [row, oriente3d_apply, hi, if_true]
  have hn : normal i = orientedNormal3 vertex (centerc (cellid i 0)) (fnode i 0) (fnode i 1) (fnode i 2) := by
    simp [normal, createInfo3dfaces, writeRows_apply, hi]
  have hw : ∀ p q r : Nat, wedge (fun k => vertex q k - vertex p k) (fun k => vertex r k - vertex p k)
      = fun k => 2 * rawNormal3 vertex p q r k := by
    intro p q r; funext k; simp only [wedge, rawNormal3]; split <;> ring
  have hpm := orientedNormal3_pm vertex (centerc (cellid i 0)) (fnode i 0) (fnode i 1) (fnode i 2)
  rw [← hn] at hpm
  set p := fnode i 0; set q := fnode i 1; set r := fnode i 2
  have hsw : ∀ k, rawNormal3 vertex p r q k = - rawNormal3 vertex p q r k := by
    intro k; simp only [rawNormal3]; split <;> ring
  intro k _
  rw [hrow]
  unfold orientFace3
  simp only [hw, dot3]
  rcases hpm with h | h
  · rw [h, if_neg]
    have : 0 ≤ rawNormal3 vertex p q r 0 ^ 2 + rawNormal3 vertex p q r 1 ^ 2 + rawNormal3 vertex p q r 2 ^ 2 := by
      positivity
    nlinarith [this]
  · have hN : 0 ≤ rawNormal3 vertex p q r 0 ^ 2 + rawNormal3 vertex p q r 1 ^ 2 + rawNormal3 vertex p q r 2 ^ 2 := by
      positivity
    rw [h]
    by_cases hz : rawNormal3 vertex p q r 0 ^ 2 + rawNormal3 vertex p q r 1 ^ 2 + rawNormal3 vertex p q r 2 ^ 2 = 0
    · have a0 : rawNormal3 vertex p q r 0 = 0 := by
        nlinarith [sq_nonneg (rawNormal3 vertex p q r 0), sq_nonneg (rawNormal3 vertex p q r 1), sq_nonneg (rawNormal3 vertex p q r 2)]
      have a1 : rawNormal3 vertex p q r 1 = 0 := by
        nlinarith [sq_nonneg (rawNormal3 vertex p q r 0), sq_nonneg (rawNormal3 vertex p q r 1), sq_nonneg (rawNormal3 vertex p q r 2)]
      have a2 : rawNormal3 vertex p q r 2 = 0 := by
        nlinarith [sq_nonneg (rawNormal3 vertex p q r 0), sq_nonneg (rawNormal3 vertex p q r 1), sq_nonneg (rawNormal3 vertex p q r 2)]
      rename_i hk
      rw [if_neg (by rw [a0, a1, a2]; simp)]
      interval_cases k
      · simp [a0]
      · simp [a1]
      · simp [a2]
    · have hpos := lt_of_le_of_ne hN (Ne.symm hz)
      rw [if_pos (by nlinarith)]
      simp only [hsw]

example : oriente3dfacenodeid (fun _ => (0, 1, 3)) (fun _ => fun k => if k = 2 then (-1:ℚ) else 0) exVertex 1 0
    = (0, 3, 1) := by decide +kernel

/-! ## C66 ghost centres -/

/-- C66 (2D): the ghost centre is the mirror image of the cell centre in the line of the face. -/
theorem C66_ghost_mirror_2d (x_1 x_2 v_1 : Vec K) (h : x_1 0 ≠ x_2 0 ∨ x_1 1 ≠ x_2 1) :
    let r := ghostcenter2 x_1 x_2 v_1
    IsMirror2 x_2 x_1 v_1 (fun k => if k = 0 then r.1 else r.2.1) := by
  have hd : (x_1 0 - x_2 0) ^ 2 + (x_1 1 - x_2 1) ^ 2 ≠ 0 := by
    intro h0
    have h1 := sq_nonneg (x_1 0 - x_2 0)
    have h2 := sq_nonneg (x_1 1 - x_2 1)
    have e1 : (x_1 0 - x_2 0) ^ 2 = 0 := by linarith
    have e2 : (x_1 1 - x_2 1) ^ 2 = 0 := by linarith
    rcases h with h | h
    · exact h (sub_eq_zero.mp (pow_eq_zero_iff (two_ne_zero) |>.mp e1))
    · exact h (sub_eq_zero.mp (pow_eq_zero_iff (two_ne_zero) |>.mp e2))
  intro r
  refine ⟨⟨r.2.2, ?_⟩, ?_⟩
  · intro k hk
    interval_cases k <;> simp only [r, ghostcenter2] <;> simp <;> ring
  · simp only [r, ghostcenter2]
    simp only [if_true, one_ne_zero, if_false]
    field_simp
    ring

/-- C66 (2D): the mirror image is unique, so the previous theorem determines the ghost centre completely. -/
theorem C66_mirror_unique (P Q v a b : Vec K) (h : P 0 ≠ Q 0 ∨ P 1 ≠ Q 1)
    (ha : IsMirror2 P Q v a) (hb : IsMirror2 P Q v b) : a 0 = b 0 ∧ a 1 = b 1 := by
  obtain ⟨⟨t, ht⟩, ha2⟩ := ha
  obtain ⟨⟨u, hu⟩, hb2⟩ := hb
  have t0 := ht 0 (by omega); have t1 := ht 1 (by omega)
  have u0 := hu 0 (by omega); have u1 := hu 1 (by omega)
  have d0 : a 0 - b 0 = 2 * (t - u) * (Q 0 - P 0) := by linear_combination 2 * t0 - 2 * u0
  have d1 : a 1 - b 1 = 2 * (t - u) * (Q 1 - P 1) := by linear_combination 2 * t1 - 2 * u1
  have o : (a 0 - b 0) * (Q 0 - P 0) + (a 1 - b 1) * (Q 1 - P 1) = 0 := by linear_combination ha2 - hb2
  rw [d0, d1] at o
  have hd : 0 < (Q 0 - P 0) ^ 2 + (Q 1 - P 1) ^ 2 := by
    rcases h with h | h
    · have := pow_pos (abs_pos.mpr (sub_ne_zero.mpr h.symm)) 2
      rw [sq_abs] at this
      have := sq_nonneg (Q 1 - P 1); linarith
    · have := pow_pos (abs_pos.mpr (sub_ne_zero.mpr h.symm)) 2
      rw [sq_abs] at this
      have := sq_nonneg (Q 0 - P 0); linarith
  have htu : t - u = 0 := by
    have : (t - u) * ((Q 0 - P 0) ^ 2 + (Q 1 - P 1) ^ 2) = 0 := by linear_combination o / 2
    exact (mul_eq_zero.mp this).resolve_right hd.ne'
  rw [htu] at d0 d1
  constructor
  · linear_combination d0
  · linear_combination d1

/-- C66 (3D): the ghost centre is the mirror image of the cell centre in the plane of the face: the displacement is
parallel to the normal and the midpoint lies in the plane through the face centre.  `gamma` is the signed distance
along the unit normal. -/
theorem C66_ghost_mirror_3d (normal centerf v_1 : Vec K) (mesure : K) (hm : mesure ≠ 0)
    (hn : mesure ^ 2 = sp normal normal) :
    let r := ghostcenter3 normal mesure centerf v_1
    (∃ t, ∀ k, r.1 k - v_1 k = t * normal k) ∧
    sp (fun k => (v_1 k + r.1 k) / 2 - centerf k) normal = 0 ∧
    r.2 = sp (fun k => centerf k - v_1 k) (fun k => normal k / mesure) := by
  intro r
  refine ⟨⟨2 * r.2 / mesure, ?_⟩, ?_, ?_⟩
  · intro k; simp only [r, ghostcenter3]; field_simp; ring
  · rw [sp_eq] at hn ⊢
    simp only [r, ghostcenter3, dot3]
    set D := (centerf 0 - v_1 0) * normal 0 + (centerf 1 - v_1 1) * normal 1 + (centerf 2 - v_1 2) * normal 2 with hD
    have e : D * (mesure⁻¹ ^ 2 * mesure ^ 2) = D := by rw [inv_pow, inv_mul_cancel₀ (pow_ne_zero 2 hm), mul_one]
    rw [hn] at e
    linear_combination e
  · rw [sp_eq]; rfl

theorem computeK_apply (name : Nat → Int) (ghost centerc : Nat → Vec K) (cl : Nat → Nat) (dim : Nat)
    (Kf : Nat → Vec K) (n i k : Nat) :
    computeK name ghost centerc cl dim Kf n i k =
      if i < n ∧ (name i ≤ 4 ∧ name i ≠ 0) ∧ k < dim then 1 / 2 * (centerc (cl i) k + ghost i k) else Kf i k := by
  unfold computeK
  induction n with
  | zero => simp
  | succ n ih =>
    rw [List.range_succ, List.foldl_append]
    simp only [List.foldl_cons, List.foldl_nil]
    by_cases h : i = n
    · subst h
      simp only [lt_irrefl, false_and, if_false] at ih
      by_cases hc : name i ≤ 4 ∧ name i ≠ 0
      · rw [if_pos hc, setAt_same]
        by_cases hk : k < dim
        · simp [hk, hc]
        · rw [if_neg hk, if_neg (by tauto)]; exact ih
      · rw [if_neg hc, if_neg (by tauto)]; exact ih
    · have e : i < n + 1 ↔ i < n := by omega
      split
      · rw [setAt_ne _ _ h, ih]; simp [e]
      · rw [ih]; simp [e]

/-- C66: `compute_K` of a boundary face named 1 … 4 is the midpoint of cell centre and ghost centre; with the 2D
ghost centre it lies on the line of the face.  Names 5 and 6 (3D front/back) are not written by the routine. -/
theorem C66_K_on_face (name : Nat → Int) (ghost centerc : Nat → Vec K) (cl : Nat → Nat) (Kf : Nat → Vec K) (n i : Nat)
    (x_1 x_2 : Vec K) (hi : i < n) (hname : name i ≤ 4 ∧ name i ≠ 0)
    (hg : ghost i 0 = (ghostcenter2 x_1 x_2 (centerc (cl i))).1)
    (hg1 : ghost i 1 = (ghostcenter2 x_1 x_2 (centerc (cl i))).2.1) :
    ∃ t, ∀ k < 2, computeK name ghost centerc cl 2 Kf n i k = x_2 k + t * (x_1 k - x_2 k) := by
  refine ⟨(ghostcenter2 x_1 x_2 (centerc (cl i))).2.2, ?_⟩
  intro k hk
  rw [computeK_apply, if_pos ⟨hi, hname, hk⟩]
  interval_cases k
  · rw [hg]; simp only [ghostcenter2]; ring
  · rw [hg1]; simp only [ghostcenter2]; ring

example : ghostcenter2 (fun k => if k = 0 then 1 else 0 : Vec ℚ) (fun _ => 0) (fun k => if k = 0 then 1/3 else 1/5)
    = (1/3, -1/5, 1/3) := by decide +kernel

end Verif.Props
