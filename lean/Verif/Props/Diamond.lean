import Verif.Props.Gradient

/-!
# C42, C43: diamond face gradients and the electric field
-/
set_option linter.unusedSectionVars false
set_option linter.unusedSimpArgs false
namespace Verif.Interp
open Verif Verif.Geo

variable {K : Type*} [Field K] [LinearOrder K] [IsStrictOrderedRing K]

theorem writeList_apply {α : Type*} (l : List Nat) (f : Nat → α) (out : Nat → α) (i : Nat) :
    writeList l f out i = if i ∈ l then f i else out i := by
  induction l generalizing out with
  | nil => simp [writeList]
  | cons a l ih =>
    have : writeList (a :: l) f out = writeList l f (setAt out a (f a)) := rfl
    rw [this, ih]
    by_cases h : i ∈ l
    · simp [h]
    · by_cases h' : i = a
      · subst h'; simp [h, setAt]
      · simp [h, h', setAt]

/-! ## 2D -/

/-- Two independent edges. -/
theorem diamondGrad2_spec (F : FaceTabs K) (i : Nat) (vi1 vi2 vv1 vv2 : K) (hair : (faceGradientInfo2 F i).airDiamond ≠ 0) :
    IsDiamondGrad2 (diamondGrad2 (faceGradientInfo2 F i) vi1 vi2 vv1 vv2) (F.vertexn (F.nodeid i 0)) (F.vertexn (F.nodeid i 1))
      (F.centerc (F.cellid0 i)) (right2 F i) vi1 vi2 vv1 vv2 := by
  obtain ⟨air, hA⟩ : ∃ air, air = (faceGradientInfo2 F i).airDiamond := ⟨_, rfl⟩
  rw [← hA] at hair
  have hdef : 2 * air = (F.vertexn (F.nodeid i 1) 0 - F.vertexn (F.nodeid i 0) 0) * (right2 F i 1 - F.centerc (F.cellid0 i) 1)
      + (F.centerc (F.cellid0 i) 0 - right2 F i 0) * (F.vertexn (F.nodeid i 1) 1 - F.vertexn (F.nodeid i 0) 1) := by
    rw [hA]; simp only [faceGradientInfo2]; ring
  have h2 : (2 * air) ≠ 0 := mul_ne_zero two_ne_zero hair
  unfold IsDiamondGrad2 diamondGrad2
  rw [← hA]
  simp only [faceGradientInfo2]
  generalize F.vertexn (F.nodeid i 0) = x1 at *
  generalize F.vertexn (F.nodeid i 1) = x2 at *
  generalize F.centerc (F.cellid0 i) = v1 at *
  generalize right2 F i = v2 at *
  rw [neg_div, div_eq_mul_inv, one_mul]
  obtain ⟨r, hr⟩ : ∃ r, r = (2 * air)⁻¹ := ⟨_, rfl⟩
  have hr1 : (2 * air) * r = 1 := by rw [hr]; exact mul_inv_cancel₀ h2
  rw [← hr]
  rw [hdef] at hr1
  constructor
  · linear_combination (vi2 - vi1) * hr1
  · linear_combination (vv2 - vv1) * hr1

/-- The diamond gradient is determined by its two defining equations. -/
theorem IsDiamondGrad2.unique {g h : K × K} {x1 x2 v1 v2 : Vec K} {a b c d : K}
    (hg : IsDiamondGrad2 g x1 x2 v1 v2 a b c d) (hh : IsDiamondGrad2 h x1 x2 v1 v2 a b c d)
    (hne : (x2 0 - x1 0) * (v2 1 - v1 1) - (v2 0 - v1 0) * (x2 1 - x1 1) ≠ 0) : g = h := by
  obtain ⟨g1, g2⟩ := hg
  obtain ⟨h1, h2⟩ := hh
  refine Prod.ext ?_ ?_
  · apply mul_right_cancel₀ hne; linear_combination (v2 1 - v1 1) * (g1 - h1) - (x2 1 - x1 1) * (g2 - h2)
  · apply mul_right_cancel₀ hne; linear_combination (x2 0 - x1 0) * (g2 - h2) - (v2 0 - v1 0) * (g1 - h1)

/-- The value written for a face of each kind (2D). -/
theorem faceGradient2_apply (F : FaceTabs K) (L : FaceLists) (w : Fields K) (w_node : Nat → K) (out : Nat → K × K) (i : Nat)
    (kind : FaceKind) (hk : L.HasKind i kind) :
    faceGradient2 F L w w_node out i = diamondGrad2 (faceGradientInfo2 F i) (w_node (F.nodeid i 0)) (w_node (F.nodeid i 1))
      (w.c (F.cellid0 i)) (otherValue F w i kind) := by
  simp only [faceGradient2, writeList_apply]
  cases kind <;> obtain ⟨h1, h2, h3, h4, h5⟩ := hk <;> simp [h1, h2, h3, h4, h5, otherValue]

/-- **C42** (2D): on every face whose diamond has nonzero area, the computed face gradient reproduces the difference of the vertex
values along the face and the difference of the values of the two adjacent cells (the neighbour across the face being the cell, its
periodic image, the halo cell or the ghost cell). -/
theorem C42_diamond_2d (F : FaceTabs K) (L : FaceLists) (w : Fields K) (w_node : Nat → K) (out : Nat → K × K) (i : Nat)
    (kind : FaceKind) (hk : L.HasKind i kind) (hair : (faceGradientInfo2 F i).airDiamond ≠ 0) :
    IsDiamondGrad2 (faceGradient2 F L w w_node out i) (F.vertexn (F.nodeid i 0)) (F.vertexn (F.nodeid i 1))
      (F.centerc (F.cellid0 i)) (right2 F i) (w_node (F.nodeid i 0)) (w_node (F.nodeid i 1)) (w.c (F.cellid0 i)) (otherValue F w i kind) := by
  rw [faceGradient2_apply F L w w_node out i kind hk]
  exact diamondGrad2_spec F i _ _ _ _ hair

/-- **C42** (the point across the face): in the stored diamond, the point on the other side of each face is the neighbour's centre,
moved by the period across a periodic side; the halo centre; or the ghost point (2D: labels 55, 66 do not exist). -/
theorem C42_other_point_2d (F : FaceTabs K) (i : Nat) (h : F.name i ≠ 55 ∧ F.name i ≠ 66) : OtherPoint F i (right2 F i) := by
  unfold OtherPoint right2 shiftX shiftY
  simp only [List.mem_cons, List.not_mem_nil, or_false]
  refine ⟨?_, ?_, ?_, ?_, ?_, ?_⟩ <;> intro hn
  · simp [hn]
  · rcases hn with hn | hn <;> simp [hn] <;> intro k <;> split <;> simp_all
  · rcases hn with hn | hn <;> simp [hn] <;> intro k <;> split <;> simp_all
  · rcases hn with hn | hn
    · exact absurd hn h.1
    · exact absurd hn h.2
  · simp [hn]
  · push Not at hn
    obtain ⟨h0, h1, h2, h3, h4, h5, h6, h7⟩ := hn
    simp [h0, h1, h2, h3, h4, h5]

/-- **C42** (the point across the face, 3D). -/
theorem C42_other_point_3d (F : FaceTabs K) (i : Nat) : OtherPoint F i (right3 F i) := by
  unfold OtherPoint right3 shiftX shiftY shiftZ
  simp only [List.mem_cons, List.not_mem_nil, or_false]
  refine ⟨?_, ?_, ?_, ?_, ?_, ?_⟩ <;> intro hn
  · simp [hn]
  · rcases hn with hn | hn <;> simp [hn] <;> intro k <;> split <;> simp_all
  · rcases hn with hn | hn <;> simp [hn] <;> intro k <;> split <;> simp_all
  · rcases hn with hn | hn <;> simp [hn] <;> intro k <;> split <;> simp_all
  · simp [hn]
  · push Not at hn
    obtain ⟨h0, h1, h2, h3, h4, h5, h6, h7⟩ := hn
    simp [h0, h1, h2, h3, h4, h5, h6, h7]

/-- **C42** (2D, affine data): if the vertex values and the two cell values are samples of an affine function, the face gradient is
its gradient.  Nondegeneracy: the segment joining the two cell centres is not parallel to the face. -/
theorem C42_affine_exact_2d (F : FaceTabs K) (L : FaceLists) (w : Fields K) (w_node : Nat → K) (out : Nat → K × K) (i : Nat)
    (kind : FaceKind) (hk : L.HasKind i kind) (a : K) (g : Vec K)
    (hne : (F.vertexn (F.nodeid i 1) 0 - F.vertexn (F.nodeid i 0) 0) * (right2 F i 1 - F.centerc (F.cellid0 i) 1)
      - (right2 F i 0 - F.centerc (F.cellid0 i) 0) * (F.vertexn (F.nodeid i 1) 1 - F.vertexn (F.nodeid i 0) 1) ≠ 0)
    (h1 : w_node (F.nodeid i 0) = affine 2 a g (F.vertexn (F.nodeid i 0)))
    (h2 : w_node (F.nodeid i 1) = affine 2 a g (F.vertexn (F.nodeid i 1)))
    (h3 : w.c (F.cellid0 i) = affine 2 a g (F.centerc (F.cellid0 i)))
    (h4 : otherValue F w i kind = affine 2 a g (right2 F i)) :
    faceGradient2 F L w w_node out i = (g 0, g 1) := by
  have hair : (faceGradientInfo2 F i).airDiamond ≠ 0 := by
    simp only [faceGradientInfo2]
    intro h
    apply hne
    linear_combination 2 * h
  refine (C42_diamond_2d F L w w_node out i kind hk hair).unique ?_ hne
  rw [h1, h2, h3, h4]
  simp only [IsDiamondGrad2, affine, Finset.sum_range_succ, Finset.sum_range_zero]
  constructor <;> ring

/-! ## 3D -/

theorem diamondGrad3_spec (F : FaceTabs K) (i : Nat) (VA VB VC VL VR : K) (hair : (faceGradientInfo3 F i).airDiamond ≠ 0)
    (hn : ∀ k < 3, wedge (fun k => F.vertexn (F.nodeid i 1) k - F.vertexn (F.nodeid i 0) k)
      (fun k => F.vertexn (F.nodeid i 2) k - F.vertexn (F.nodeid i 0) k) k = 2 * F.normal i k) :
    IsDiamondGrad3 (diamondGrad3 (faceGradientInfo3 F i) (F.normal i) VA VB VC VC VL VR) (F.vertexn (F.nodeid i 0))
      (F.vertexn (F.nodeid i 1)) (F.vertexn (F.nodeid i 2)) (F.centerc (F.cellid0 i)) (right3 F i) VA VB VC VL VR := by
  have n0 := hn 0 (by omega)
  have n1 := hn 1 (by omega)
  have n2 := hn 2 (by omega)
  clear hn
  simp only [wedge] at n0 n1 n2
  obtain ⟨air, hA⟩ : ∃ air, air = (faceGradientInfo3 F i).airDiamond := ⟨_, rfl⟩
  rw [← hA] at hair
  have hdef : air = F.normal i 0 * (right3 F i 0 - F.centerc (F.cellid0 i) 0) + F.normal i 1 * (right3 F i 1 - F.centerc (F.cellid0 i) 1)
      + F.normal i 2 * (right3 F i 2 - F.centerc (F.cellid0 i) 2) := by
    rw [hA]; simp only [faceGradientInfo3, dot3]
  simp only [IsDiamondGrad3, diamondGrad3, Finset.sum_range_succ, Finset.sum_range_zero, zero_add]
  rw [← hA]
  simp only [faceGradientInfo3, wedge]
  generalize F.vertexn (F.nodeid i 0) = A at *
  generalize F.vertexn (F.nodeid i 1) = B at *
  generalize F.vertexn (F.nodeid i 2) = C at *
  generalize F.centerc (F.cellid0 i) = v1 at *
  generalize right3 F i = v2 at *
  generalize F.normal i = N at *
  simp only [div_mul_eq_mul_div, ← add_div]
  refine ⟨?_, ?_, ?_⟩
  · rw [div_eq_iff hair, hdef]
    have e0 : N 0 = ((B 1 - A 1) * (C 2 - A 2) - (B 2 - A 2) * (C 1 - A 1)) / 2 := by rw [n0]; ring
    have e1 : N 1 = ((B 2 - A 2) * (C 0 - A 0) - (B 0 - A 0) * (C 2 - A 2)) / 2 := by rw [n1]; ring
    have e2 : N 2 = ((B 0 - A 0) * (C 1 - A 1) - (B 1 - A 1) * (C 0 - A 0)) / 2 := by rw [n2]; ring
    rw [e0, e1, e2]; ring
  · rw [div_eq_iff hair, hdef]
    have e0 : N 0 = ((B 1 - A 1) * (C 2 - A 2) - (B 2 - A 2) * (C 1 - A 1)) / 2 := by rw [n0]; ring
    have e1 : N 1 = ((B 2 - A 2) * (C 0 - A 0) - (B 0 - A 0) * (C 2 - A 2)) / 2 := by rw [n1]; ring
    have e2 : N 2 = ((B 0 - A 0) * (C 1 - A 1) - (B 1 - A 1) * (C 0 - A 0)) / 2 := by rw [n2]; ring
    rw [e0, e1, e2]; ring
  · rw [div_eq_iff hair, hdef]; ring

/-- A vector orthogonal to three independent directions is zero. -/
theorem IsDiamondGrad3.unique {g h : Vec K} {A B C v1 v2 : Vec K} {a b c d e : K}
    (hg : IsDiamondGrad3 g A B C v1 v2 a b c d e) (hh : IsDiamondGrad3 h A B C v1 v2 a b c d e)
    (hne : detVec3d (fun k => A k - C k) (fun k => B k - C k) (fun k => v2 k - v1 k) ≠ 0) :
    g 0 = h 0 ∧ g 1 = h 1 ∧ g 2 = h 2 := by
  obtain ⟨g1, g2, g3⟩ := hg
  obtain ⟨h1, h2, h3⟩ := hh
  simp only [Finset.sum_range_succ, Finset.sum_range_zero, zero_add] at g1 g2 g3 h1 h2 h3
  simp only [detVec3d, dot3, wedge] at hne
  refine ⟨?_, ?_, ?_⟩ <;> apply mul_right_cancel₀ hne
  · linear_combination (((B 1 - C 1) * (v2 2 - v1 2) - (B 2 - C 2) * (v2 1 - v1 1))) * (g1 - h1)
      - ((A 1 - C 1) * (v2 2 - v1 2) - (A 2 - C 2) * (v2 1 - v1 1)) * (g2 - h2)
      + ((A 1 - C 1) * (B 2 - C 2) - (A 2 - C 2) * (B 1 - C 1)) * (g3 - h3)
  · linear_combination -(((B 0 - C 0) * (v2 2 - v1 2) - (B 2 - C 2) * (v2 0 - v1 0))) * (g1 - h1)
      + ((A 0 - C 0) * (v2 2 - v1 2) - (A 2 - C 2) * (v2 0 - v1 0)) * (g2 - h2)
      - ((A 0 - C 0) * (B 2 - C 2) - (A 2 - C 2) * (B 0 - C 0)) * (g3 - h3)
  · linear_combination (((B 0 - C 0) * (v2 1 - v1 1) - (B 1 - C 1) * (v2 0 - v1 0))) * (g1 - h1)
      - ((A 0 - C 0) * (v2 1 - v1 1) - (A 1 - C 1) * (v2 0 - v1 0)) * (g2 - h2)
      + ((A 0 - C 0) * (B 1 - C 1) - (A 1 - C 1) * (B 0 - C 0)) * (g3 - h3)

/-- The value written for a face of each kind (3D). -/
theorem faceGradient3_apply (F : FaceTabs K) (L : FaceLists) (w : Fields K) (w_node : Nat → K) (out : Nat → Vec K) (i : Nat)
    (kind : FaceKind) (hk : L.HasKind i kind) :
    faceGradient3 F L w w_node out i = diamondGrad3 (faceGradientInfo3 F i) (F.normal i) (w_node (F.nodeid i 0)) (w_node (F.nodeid i 1))
      (w_node (F.nodeid i 2)) (w_node (F.nodeid i 2)) (w.c (F.cellid0 i)) (otherValue F w i kind) := by
  simp only [faceGradient3, writeList_apply]
  cases kind <;> obtain ⟨h1, h2, h3, h4, h5⟩ := hk <;> simp [h1, h2, h3, h4, h5, otherValue]

/-- **C42** (3D): same with the two edges of the triangular face; the stored normal is half the vector product of the edges of the
(oriented) face, as proved in `C13_orientation_stored`. -/
theorem C42_diamond_3d (F : FaceTabs K) (L : FaceLists) (w : Fields K) (w_node : Nat → K) (out : Nat → Vec K) (i : Nat)
    (kind : FaceKind) (hk : L.HasKind i kind) (hair : (faceGradientInfo3 F i).airDiamond ≠ 0)
    (hn : ∀ k < 3, wedge (fun k => F.vertexn (F.nodeid i 1) k - F.vertexn (F.nodeid i 0) k)
      (fun k => F.vertexn (F.nodeid i 2) k - F.vertexn (F.nodeid i 0) k) k = 2 * F.normal i k) :
    IsDiamondGrad3 (faceGradient3 F L w w_node out i) (F.vertexn (F.nodeid i 0)) (F.vertexn (F.nodeid i 1)) (F.vertexn (F.nodeid i 2))
      (F.centerc (F.cellid0 i)) (right3 F i) (w_node (F.nodeid i 0)) (w_node (F.nodeid i 1)) (w_node (F.nodeid i 2))
      (w.c (F.cellid0 i)) (otherValue F w i kind) := by
  rw [faceGradient3_apply F L w w_node out i kind hk]
  exact diamondGrad3_spec F i _ _ _ _ _ hair hn

/-- **C42** (3D, affine data). -/
theorem C42_affine_exact_3d (F : FaceTabs K) (L : FaceLists) (w : Fields K) (w_node : Nat → K) (out : Nat → Vec K) (i : Nat)
    (kind : FaceKind) (hk : L.HasKind i kind) (a : K) (g : Vec K)
    (hn : ∀ k < 3, wedge (fun k => F.vertexn (F.nodeid i 1) k - F.vertexn (F.nodeid i 0) k)
      (fun k => F.vertexn (F.nodeid i 2) k - F.vertexn (F.nodeid i 0) k) k = 2 * F.normal i k)
    (hne : detVec3d (fun k => F.vertexn (F.nodeid i 0) k - F.vertexn (F.nodeid i 2) k)
      (fun k => F.vertexn (F.nodeid i 1) k - F.vertexn (F.nodeid i 2) k) (fun k => right3 F i k - F.centerc (F.cellid0 i) k) ≠ 0)
    (h1 : ∀ j < 3, w_node (F.nodeid i j) = affine 3 a g (F.vertexn (F.nodeid i j)))
    (h3 : w.c (F.cellid0 i) = affine 3 a g (F.centerc (F.cellid0 i)))
    (h4 : otherValue F w i kind = affine 3 a g (right3 F i)) :
    ∀ k < 3, faceGradient3 F L w w_node out i k = g k := by
  have hair : (faceGradientInfo3 F i).airDiamond ≠ 0 := by
    simp only [faceGradientInfo3]
    intro h
    apply hne
    have n0 := hn 0 (by omega)
    have n1 := hn 1 (by omega)
    have n2 := hn 2 (by omega)
    simp only [wedge] at n0 n1 n2
    simp only [dot3] at h
    simp only [detVec3d, dot3, wedge]
    linear_combination 2 * h + (right3 F i 0 - F.centerc (F.cellid0 i) 0) * n0 + (right3 F i 1 - F.centerc (F.cellid0 i) 1) * n1
      + (right3 F i 2 - F.centerc (F.cellid0 i) 2) * n2
  have hd := C42_diamond_3d F L w w_node out i kind hk hair hn
  have := hd.unique (h := g) (by
    rw [h1 0 (by omega), h1 1 (by omega), h1 2 (by omega), h3, h4]
    simp only [IsDiamondGrad3, affine, Finset.sum_range_succ, Finset.sum_range_zero]
    refine ⟨?_, ?_, ?_⟩ <;> ring) hne
  intro k hk
  have : k = 0 ∨ k = 1 ∨ k = 2 := by omega
  rcases this with rfl | rfl | rfl <;> simp_all

/-! ## C43: electric field -/

/-- **C43** (2D): the field computed on a face is minus the diamond gradient of the potential. -/
theorem C43_minus_gradient_2d (F : FaceTabs K) (L : FaceLists) (w : Fields K) (P_node Pbordnode Pbordface : Nat → K) (oldname : Nat → Int)
    (BCdirichlet : List Int) (out : Nat → K × K) (i : Nat) (kind : FaceKind) (hk : L.HasKind i kind)
    (hair : (faceGradientInfo2 F i).airDiamond ≠ 0) :
    let E := computePGradient2 F L w P_node Pbordnode Pbordface oldname BCdirichlet out i
    IsDiamondGrad2 (-E.1, -E.2) (F.vertexn (F.nodeid i 0)) (F.vertexn (F.nodeid i 1))
      (F.centerc (F.cellid0 i)) (right2 F i) (potNode P_node Pbordnode oldname BCdirichlet (F.nodeid i 0) kind)
      (potNode P_node Pbordnode oldname BCdirichlet (F.nodeid i 1) kind) (w.c (F.cellid0 i)) (potOther F w Pbordface i kind) := by
  intro E
  have hE : (-E.1, -E.2) = diamondGrad2 (faceGradientInfo2 F i) (potNode P_node Pbordnode oldname BCdirichlet (F.nodeid i 0) kind)
      (potNode P_node Pbordnode oldname BCdirichlet (F.nodeid i 1) kind) (w.c (F.cellid0 i)) (potOther F w Pbordface i kind) := by
    simp only [E, computePGradient2, writeList_apply, diamondGrad2]
    cases kind <;> obtain ⟨h1, h2, h3, h4, h5⟩ := hk <;>
      simp only [h1, h2, h3, h4, h5, otherValue, if_true, if_false, potNode, potOther, nodeValue] <;>
      refine Prod.ext ?_ ?_ <;> simp only [neg_div, neg_mul, neg_neg]
  rw [hE]
  exact diamondGrad2_spec F i _ _ _ _ hair

/-- **C43** (2D, no Dirichlet node nearby): where no Dirichlet data are involved, the field is exactly minus the face gradient that
`compute_face_gradient` gives for the same potential. -/
theorem C43_agrees_with_face_gradient_2d (F : FaceTabs K) (L : FaceLists) (w : Fields K) (P_node Pbordnode Pbordface : Nat → K)
    (oldname : Nat → Int) (BCdirichlet : List Int) (out out' : Nat → K × K) (i : Nat) (kind : FaceKind) (hk : L.HasKind i kind)
    (hnd : kind ≠ .dirichlet) (h0 : oldname (F.nodeid i 0) ∉ BCdirichlet) (h1 : oldname (F.nodeid i 1) ∉ BCdirichlet) :
    computePGradient2 F L w P_node Pbordnode Pbordface oldname BCdirichlet out i
      = (-(faceGradient2 F L w P_node out' i).1, -(faceGradient2 F L w P_node out' i).2) := by
  rw [faceGradient2_apply F L w P_node out' i kind hk]
  simp only [computePGradient2, writeList_apply, diamondGrad2]
  cases kind <;> obtain ⟨g1, g2, g3, g4, g5⟩ := hk <;>
    first
    | exact absurd rfl hnd
    | (simp only [g1, g2, g3, g4, g5, otherValue, if_true, if_false, nodeValue, h0, h1]
       refine Prod.ext ?_ ?_ <;> simp only [neg_div, neg_mul, neg_neg])

/-- **C43** (3D). -/
theorem C43_minus_gradient_3d (F : FaceTabs K) (L : FaceLists) (w : Fields K) (P_node Pbordnode Pbordface : Nat → K) (oldname : Nat → Int)
    (BCdirichlet : List Int) (out : Nat → Vec K) (i : Nat) (kind : FaceKind) (hk : L.HasKind i kind)
    (hair : (faceGradientInfo3 F i).airDiamond ≠ 0)
    (hn : ∀ k < 3, wedge (fun k => F.vertexn (F.nodeid i 1) k - F.vertexn (F.nodeid i 0) k)
      (fun k => F.vertexn (F.nodeid i 2) k - F.vertexn (F.nodeid i 0) k) k = 2 * F.normal i k) :
    let E := computePGradient3 F L w P_node Pbordnode Pbordface oldname BCdirichlet out i
    let pot := fun j => potNode P_node Pbordnode oldname BCdirichlet (F.nodeid i j) kind
    IsDiamondGrad3 (fun k => -E k) (F.vertexn (F.nodeid i 0)) (F.vertexn (F.nodeid i 1)) (F.vertexn (F.nodeid i 2))
      (F.centerc (F.cellid0 i)) (right3 F i) (pot 0) (pot 1) (pot 2) (w.c (F.cellid0 i)) (potOther F w Pbordface i kind) := by
  intro E pot
  have hE : (fun k => -E k) = diamondGrad3 (faceGradientInfo3 F i) (F.normal i) (pot 0) (pot 1) (pot 2) (pot 2)
      (w.c (F.cellid0 i)) (potOther F w Pbordface i kind) := by
    simp only [E, pot, computePGradient3, writeList_apply]
    funext k
    simp only [diamondGrad3]
    cases kind <;> obtain ⟨h1, h2, h3, h4, h5⟩ := hk <;>
      simp only [h1, h2, h3, h4, h5, otherValue, if_true, if_false, potNode, potOther, nodeValue] <;>
      rw [← neg_div] <;> congr 1 <;> ring
  rw [hE]
  exact diamondGrad3_spec F i _ _ _ _ _ hair hn

/-! ## Examples -/

/-- One inner face between (0,0)-(0,1), cells at (-1,0) and (2,1). -/
def exFace : FaceTabs ℚ where
  cellid0 := fun _ => 0
  cellid1 := fun _ => 1
  nodeid := fun _ j => j
  name := fun _ => 0
  halofid := fun _ => 0
  normal := fun _ k => if k = 0 then 1 else 0
  ghostcenter := fun _ _ => 0
  centerc := fun c k => match c, k with | 0, 0 => -1 | 1, 0 => 2 | 1, 1 => 1 | _, _ => 0
  centerh := fun _ _ => 0
  shift := fun _ _ => 0
  vertexn := fun n k => if n = 1 ∧ k = 1 then 1 else 0

def exLists : FaceLists := ⟨[0], [], [], [], []⟩
/-- `1 + 2x + 5y` at the cells. -/
def exW : Fields ℚ := ⟨fun c => if c = 0 then -1 else 10, fun _ => 0, fun _ => 0, fun _ => 0⟩

example : faceGradient2 exFace exLists exW (fun n => if n = 0 then 1 else 6) (fun _ => (0, 0)) 0 = (2, 5) := by decide +kernel
example : exLists.HasKind 0 .inner ∧ (faceGradientInfo2 exFace 0).airDiamond ≠ 0 := by
  refine ⟨by simp [FaceLists.HasKind, exLists], by decide +kernel⟩
example : computePGradient2 exFace exLists exW (fun n => if n = 0 then 1 else 0) (fun _ => 6) (fun _ => 0)
    (fun n => if n = 1 then 3 else 0) [3] (fun _ => (0, 0)) 0 = (-2, -5) := by decide +kernel

/-- A triangular face (0,0,0),(0,1,0),(0,0,1), cells at (-1,0,0) and (1,1,1). -/
def exFace3 : FaceTabs ℚ := { exFace with
  normal := fun _ k => if k = 0 then 1 / 2 else 0
  centerc := fun c k => if c = 1 then 1 else if k = 0 then -1 else 0
  vertexn := fun n k => if n = k ∧ n ≠ 0 then 1 else 0 }
/-- `1 + 2x + 5y - z`. -/
def exW3 : Fields ℚ := ⟨fun c => if c = 0 then -1 else 7, fun _ => 0, fun _ => 0, fun _ => 0⟩

example : (List.range 3).map (faceGradient3 exFace3 exLists exW3 (fun n => if n = 0 then 1 else if n = 1 then 6 else 0) (fun _ _ => 0) 0)
    = [2, 5, -1] := by decide +kernel
example : (faceGradientInfo3 exFace3 0).airDiamond ≠ 0 ∧ ∀ k < 3, wedge (fun k => exFace3.vertexn (exFace3.nodeid 0 1) k - exFace3.vertexn (exFace3.nodeid 0 0) k)
      (fun k => exFace3.vertexn (exFace3.nodeid 0 2) k - exFace3.vertexn (exFace3.nodeid 0 0) k) k = 2 * exFace3.normal 0 k := by
  decide +kernel

end Verif.Interp
