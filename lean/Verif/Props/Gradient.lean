import Verif.Props.Interp3

/-!
# C40, C41: least-squares cell gradients
-/
set_option linter.unusedSectionVars false
set_option linter.unusedSimpArgs false
namespace Verif.Interp
open Verif Verif.Geo

variable {K : Type*} [Field K] [LinearOrder K] [IsStrictOrderedRing K]

/-! ## 2D -/

theorem foldl_ghostPart {β : Type*} (gs : List (Vec K × Int)) (val : Nat → K) (f : β → Vec K → K → β) (a : β) :
    (ghostPart gs val).foldl (fun a p => f a p.1 p.2) a = gs.foldl (fun a g => if g.2 ≠ -1 then f a g.1 (val g.2.toNat) else a) a := by
  simp only [ghostPart, List.foldl_map]
  rw [List.foldl_filter]; simp

theorem foldl_congr_fun {α β : Type*} (l : List α) (f g : β → α → β) (h : ∀ b a, f b a = g b a) (b : β) : l.foldl f b = l.foldl g b := by
  have : f = g := by funext b a; exact h b a
  rw [this]

theorem gradSums2_stencil (T : NodeTabs K) (C : CellTabs) (w : Fields K) (i : Nat) :
    gradSums2 T C w i = (cellStencil 4 T C w (cellPeriodic2 T C w i) i).foldl
      (fun a p => gradStep2 (T.centerc i) (w.c i) a p.1 p.2) ⟨0, 0, 0, 0, 0⟩ := by
  simp only [gradSums2, cellStencil, cellPeriodic2, List.foldl_append, List.foldl_map, List.foldl_flatMap]
  have h1 : ∀ (a : Grad2 K) (nod : Nat),
      (if T.oldname nod = 33 ∨ T.oldname nod = 44 then
        (T.periodicn nod).foldl (fun a cell => gradStep2 (T.centerc i) (w.c i) a (shiftY (T.centerc cell) (T.shift cell)) (w.c cell))
          (if T.oldname nod = 11 ∨ T.oldname nod = 22 then
          (T.periodicn nod).foldl (fun a cell => gradStep2 (T.centerc i) (w.c i) a (shiftX (T.centerc cell) (T.shift cell)) (w.c cell)) a else a)
       else (if T.oldname nod = 11 ∨ T.oldname nod = 22 then
          (T.periodicn nod).foldl (fun a cell => gradStep2 (T.centerc i) (w.c i) a (shiftX (T.centerc cell) (T.shift cell)) (w.c cell)) a else a))
      = (periodicPart 2 T w nod).foldl (fun a p => gradStep2 (T.centerc i) (w.c i) a p.1 p.2) a := by
    intro a nod
    unfold periodicPart
    by_cases h : T.oldname nod = 11 ∨ T.oldname nod = 22
    · rw [if_pos h, if_neg (by omega), if_pos h, List.foldl_map]
    · by_cases h' : T.oldname nod = 33 ∨ T.oldname nod = 44
      · rw [if_neg h, if_pos h', if_neg h, if_pos h', List.foldl_map]
      · simp [h, h']
  have h2 : ∀ (a : Grad2 K) (nod : Nat),
      (T.haloghosts nod).foldl (fun a g => if g.2 ≠ -1 then gradStep2 (T.centerc i) (w.c i) a g.1 (w.haloghost g.2.toNat) else a)
        (if T.oldname nod ≤ 4 then
          (T.ghosts nod).foldl (fun a g => if g.2 ≠ -1 then gradStep2 (T.centerc i) (w.c i) a g.1 (w.ghost g.2.toNat) else a) a else a)
      = (ghostPart (T.haloghosts nod) w.haloghost).foldl (fun a p => gradStep2 (T.centerc i) (w.c i) a p.1 p.2)
        ((if T.oldname nod ≤ 4 then ghostPart (T.ghosts nod) w.ghost else []).foldl (fun a p => gradStep2 (T.centerc i) (w.c i) a p.1 p.2) a) := by
    intro a nod
    rw [foldl_ghostPart (f := gradStep2 (T.centerc i) (w.c i))]
    congr 1
    split_ifs
    · rw [foldl_ghostPart (f := gradStep2 (T.centerc i) (w.c i))]
    · rfl
  simp only [h1, h2]

/-- The accumulators of `cell_gradient_2d` hold the moments. -/
theorem grad2_moments (c : Vec K) (wi : K) (L : List (Vec K × K)) :
    L.foldl (fun a p => gradStep2 c wi a p.1 p.2) ⟨0, 0, 0, 0, 0⟩ =
      ⟨lsum L (fun p => (p.1 0 - c 0) * (p.1 0 - c 0)), lsum L (fun p => (p.1 1 - c 1) * (p.1 1 - c 1)),
       lsum L (fun p => (p.1 0 - c 0) * (p.1 1 - c 1)), lsum L (fun p => (p.1 0 - c 0) * (p.2 - wi)),
       lsum L (fun p => (p.1 1 - c 1) * (p.2 - wi))⟩ := by
  have gen : ∀ (L : List (Vec K × K)) (a : Grad2 K), L.foldl (fun a p => gradStep2 c wi a p.1 p.2) a =
      ⟨a.xx + lsum L (fun p => (p.1 0 - c 0) * (p.1 0 - c 0)), a.yy + lsum L (fun p => (p.1 1 - c 1) * (p.1 1 - c 1)),
       a.xy + lsum L (fun p => (p.1 0 - c 0) * (p.1 1 - c 1)), a.xw + lsum L (fun p => (p.1 0 - c 0) * (p.2 - wi)),
       a.yw + lsum L (fun p => (p.1 1 - c 1) * (p.2 - wi))⟩ := by
    intro L
    induction L with
    | nil => intro a; simp
    | cons p L ih => intro a; rw [List.foldl_cons, ih]; simp [gradStep2, add_assoc]
  rw [gen]; simp

/-- The moment matrix about the centre is nonsingular when centre and neighbours are not all on a line. -/
theorem grad2_det (c : Vec K) (L : List (Vec K × K)) (hf : ¬ Flat 2 (c :: L.map Prod.fst)) :
    lsum L (fun p => (p.1 0 - c 0) * (p.1 0 - c 0)) * lsum L (fun p => (p.1 1 - c 1) * (p.1 1 - c 1))
      - lsum L (fun p => (p.1 0 - c 0) * (p.1 1 - c 1)) * lsum L (fun p => (p.1 0 - c 0) * (p.1 1 - c 1)) ≠ 0 := by
  have quad : ∀ (p q : K), lsum L (fun x => (p * (x.1 0 - c 0) + q * (x.1 1 - c 1)) ^ 2)
      = p ^ 2 * lsum L (fun p => (p.1 0 - c 0) * (p.1 0 - c 0)) + 2 * p * q * lsum L (fun p => (p.1 0 - c 0) * (p.1 1 - c 1))
        + q ^ 2 * lsum L (fun p => (p.1 1 - c 1) * (p.1 1 - c 1)) := by
    intro p q
    clear hf
    induction L with
    | nil => simp
    | cons x L ih => simp only [lsum_cons]; rw [ih]; ring
  have flat : ∀ (p q : K), (p ≠ 0 ∨ q ≠ 0) → (∀ x ∈ L, p * (x.1 0 - c 0) + q * (x.1 1 - c 1) = 0) → False := by
    intro p q hpq hx
    apply hf
    refine ⟨fun k => if k = 0 then p else q, p * c 0 + q * c 1, ?_, ?_⟩
    · rcases hpq with h | h
      · exact ⟨0, by omega, by simpa using h⟩
      · exact ⟨1, by omega, by simpa using h⟩
    · intro x hx'
      rcases List.mem_cons.1 hx' with rfl | hx'
      · simp [Finset.sum_range_succ]
      · obtain ⟨y, hy, rfl⟩ := List.mem_map.1 hx'
        have := hx y hy
        simp [Finset.sum_range_succ]
        linear_combination this
  intro hD
  generalize lsum L (fun p => (p.1 0 - c 0) * (p.1 0 - c 0)) = xx at *
  generalize lsum L (fun p => (p.1 0 - c 0) * (p.1 1 - c 1)) = xy at *
  generalize lsum L (fun p => (p.1 1 - c 1) * (p.1 1 - c 1)) = yy at *
  by_cases h0 : xx = 0 ∧ xy = 0
  · refine flat 1 0 (by simp) (lsum_sq_zero L _ ?_)
    rw [quad]; rw [h0.1]; ring
  · refine flat (-xy) xx ?_ (lsum_sq_zero L _ ?_)
    · by_contra hc; push Not at hc; exact h0 ⟨hc.2, by simpa using hc.1⟩
    · rw [quad]; linear_combination xx * hD

/-- Core of C40/C41 in 2D. -/
theorem cellGradient2_exact (T : NodeTabs K) (C : CellTabs) (w : Fields K) (i : Nat) (a : K) (g : Vec K)
    (hflat : ¬ Flat 2 (T.centerc i :: (cellStencil 4 T C w (cellPeriodic2 T C w i) i).map Prod.fst))
    (hc : w.c i = affine 2 a g (T.centerc i))
    (hs : ∀ p ∈ cellStencil 4 T C w (cellPeriodic2 T C w i) i, p.2 = affine 2 a g p.1) :
    cellGradient2 T C w i = (g 0, g 1, 0) := by
  have hD := grad2_det _ _ hflat
  simp only [cellGradient2]
  rw [gradSums2_stencil, grad2_moments]
  have hx : ∀ (L : List (Vec K × K)), (∀ p ∈ L, p.2 = affine 2 a g p.1) →
      lsum L (fun p => (p.1 0 - T.centerc i 0) * (p.2 - w.c i)) = g 0 * lsum L (fun p => (p.1 0 - T.centerc i 0) * (p.1 0 - T.centerc i 0))
        + g 1 * lsum L (fun p => (p.1 0 - T.centerc i 0) * (p.1 1 - T.centerc i 1)) ∧
      lsum L (fun p => (p.1 1 - T.centerc i 1) * (p.2 - w.c i)) = g 0 * lsum L (fun p => (p.1 0 - T.centerc i 0) * (p.1 1 - T.centerc i 1))
        + g 1 * lsum L (fun p => (p.1 1 - T.centerc i 1) * (p.1 1 - T.centerc i 1)) := by
    intro L
    induction L with
    | nil => simp
    | cons p L ih =>
      intro h
      obtain ⟨e1, e2⟩ := ih (fun q hq => h q (by simp [hq]))
      simp only [lsum_cons]
      rw [e1, e2, h p (by simp), hc]
      simp only [affine, Finset.sum_range_succ, Finset.sum_range_zero]
      constructor <;> ring
  obtain ⟨e1, e2⟩ := hx _ hs
  simp only
  rw [e1, e2]
  generalize lsum _ (fun p : Vec K × K => (p.1 0 - T.centerc i 0) * (p.1 0 - T.centerc i 0)) = xx at *
  generalize lsum _ (fun p : Vec K × K => (p.1 0 - T.centerc i 0) * (p.1 1 - T.centerc i 1)) = xy at *
  generalize lsum _ (fun p : Vec K × K => (p.1 1 - T.centerc i 1) * (p.1 1 - T.centerc i 1)) = yy at *
  refine Prod.ext ?_ (Prod.ext ?_ rfl)
  · show _ / _ = g 0; rw [div_eq_iff hD]; ring
  · show _ / _ = g 1; rw [div_eq_iff hD]; ring

/-- **C40** (2D): for a cell with no periodic node, whose centre and neighbours are not all on one line, the least-squares gradient
of an affine field is the gradient of the field. -/
theorem C40_affine_exact_2d (T : NodeTabs K) (C : CellTabs) (w : Fields K) (i : Nat) (a : K) (g : Vec K)
    (hper : ∀ n ∈ C.nodes i, T.periodicn n = [])
    (hflat : ¬ Flat 2 (T.centerc i :: (cellStencil 4 T C w [] i).map Prod.fst))
    (hc : w.c i = affine 2 a g (T.centerc i))
    (hs : ∀ p ∈ cellStencil 4 T C w [] i, p.2 = affine 2 a g p.1) :
    cellGradient2 T C w i = (g 0, g 1, 0) := by
  have h0 : cellPeriodic2 T C w i = [] := by
    rw [cellPeriodic2, List.flatMap_eq_nil_iff]
    intro n hn
    simp [periodicPart, hper n hn]
  exact cellGradient2_exact T C w i a g (by rw [h0]; exact hflat) hc (by rw [h0]; exact hs)

/-- **C41** (2D): with periodic neighbours placed at their shifted positions the gradient of an affine field is still exact. -/
theorem C41_affine_exact_2d_partial (T : NodeTabs K) (C : CellTabs) (w : Fields K) (i : Nat) (a : K) (g : Vec K)
    (hflat : ¬ Flat 2 (T.centerc i :: (cellStencil 4 T C w (cellPeriodic2 T C w i) i).map Prod.fst))
    (hc : w.c i = affine 2 a g (T.centerc i))
    (hs : ∀ p ∈ cellStencil 4 T C w (cellPeriodic2 T C w i) i, p.2 = affine 2 a g p.1) :
    cellGradient2 T C w i = (g 0, g 1, 0) := cellGradient2_exact T C w i a g hflat hc hs

/-- **C40** (constants, 2D): the gradient of a constant is zero, without any condition on the stencil (also when the determinant is
zero, `0/0` being 0 in the model). -/
theorem C40_constant_2d (T : NodeTabs K) (C : CellTabs) (w : Fields K) (i : Nat)
    (hs : ∀ p ∈ cellStencil 4 T C w (cellPeriodic2 T C w i) i, p.2 = w.c i) :
    cellGradient2 T C w i = (0, 0, 0) := by
  simp only [cellGradient2]
  rw [gradSums2_stencil, grad2_moments]
  have hx : ∀ (L : List (Vec K × K)) (f : Vec K × K → K), (∀ p ∈ L, p.2 = w.c i) → lsum L (fun p => f p * (p.2 - w.c i)) = 0 := by
    intro L f
    induction L with
    | nil => simp
    | cons p L ih => intro h; rw [lsum_cons, ih (fun q hq => h q (by simp [hq])), h p (by simp)]; ring
  simp only
  rw [hx _ (fun p => p.1 0 - T.centerc i 0) hs, hx _ (fun p => p.1 1 - T.centerc i 1) hs]
  simp

/-! ## 3D -/

theorem gradSums3_stencil (T : NodeTabs K) (C : CellTabs) (w : Fields K) (i : Nat) (hper : C.periodicnid i = []) :
    gradSums3 T C w i = (cellStencil 6 T C w [] i).foldl
      (fun a p => gradStep3 (T.centerc i) (w.c i) a p.1 p.2) ⟨0, 0, 0, 0, 0, 0, 0, 0, 0, 0, 0, 0⟩ := by
  simp only [gradSums3, cellStencil, hper, List.foldl_nil, List.foldl_append, List.foldl_map, List.foldl_flatMap]
  have h2 : ∀ (a : Grad3 K) (nod : Nat),
      (T.haloghosts nod).foldl (fun a g => if g.2 ≠ -1 then gradStep3 (T.centerc i) (w.c i) a g.1 (w.haloghost g.2.toNat) else a)
        (if T.oldname nod ≤ 6 then
          (T.ghosts nod).foldl (fun a g => if g.2 ≠ -1 then gradStep3 (T.centerc i) (w.c i) a g.1 (w.ghost g.2.toNat) else a) a else a)
      = (ghostPart (T.haloghosts nod) w.haloghost).foldl (fun a p => gradStep3 (T.centerc i) (w.c i) a p.1 p.2)
        ((if T.oldname nod ≤ 6 then ghostPart (T.ghosts nod) w.ghost else []).foldl (fun a p => gradStep3 (T.centerc i) (w.c i) a p.1 p.2) a) := by
    intro a nod
    rw [foldl_ghostPart (f := gradStep3 (T.centerc i) (w.c i))]
    congr 1
    split_ifs
    · rw [foldl_ghostPart (f := gradStep3 (T.centerc i) (w.c i))]
    · rfl
  simp only [h2]

/-- The accumulators of `cell_gradient_3d` hold the moments. -/
structure IsGrad3 (A : Grad3 K) (c : Vec K) (wi : K) (L : List (Vec K × K)) : Prop where
  xx : A.xx = lsum L (fun p => (p.1 0 - c 0) * (p.1 0 - c 0))
  yy : A.yy = lsum L (fun p => (p.1 1 - c 1) * (p.1 1 - c 1))
  zz : A.zz = lsum L (fun p => (p.1 2 - c 2) * (p.1 2 - c 2))
  xy : A.xy = lsum L (fun p => (p.1 0 - c 0) * (p.1 1 - c 1))
  xz : A.xz = lsum L (fun p => (p.1 0 - c 0) * (p.1 2 - c 2))
  yz : A.yz = lsum L (fun p => (p.1 1 - c 1) * (p.1 2 - c 2))
  j_x : A.j_x = lsum L (fun p => (p.1 0 - c 0) * (p.2 - wi))
  j_y : A.j_y = lsum L (fun p => (p.1 1 - c 1) * (p.2 - wi))
  j_z : A.j_z = lsum L (fun p => (p.1 2 - c 2) * (p.2 - wi))

theorem grad3_moments (c : Vec K) (wi : K) (L : List (Vec K × K)) :
    IsGrad3 (L.foldl (fun a p => gradStep3 c wi a p.1 p.2) ⟨0, 0, 0, 0, 0, 0, 0, 0, 0, 0, 0, 0⟩) c wi L := by
  have gen : ∀ (L : List (Vec K × K)) (a : Grad3 K),
      let b := L.foldl (fun a p => gradStep3 c wi a p.1 p.2) a
      b.xx = a.xx + lsum L (fun p => (p.1 0 - c 0) * (p.1 0 - c 0)) ∧ b.yy = a.yy + lsum L (fun p => (p.1 1 - c 1) * (p.1 1 - c 1)) ∧
      b.zz = a.zz + lsum L (fun p => (p.1 2 - c 2) * (p.1 2 - c 2)) ∧ b.xy = a.xy + lsum L (fun p => (p.1 0 - c 0) * (p.1 1 - c 1)) ∧
      b.xz = a.xz + lsum L (fun p => (p.1 0 - c 0) * (p.1 2 - c 2)) ∧ b.yz = a.yz + lsum L (fun p => (p.1 1 - c 1) * (p.1 2 - c 2)) ∧
      b.j_x = a.j_x + lsum L (fun p => (p.1 0 - c 0) * (p.2 - wi)) ∧ b.j_y = a.j_y + lsum L (fun p => (p.1 1 - c 1) * (p.2 - wi)) ∧
      b.j_z = a.j_z + lsum L (fun p => (p.1 2 - c 2) * (p.2 - wi)) := by
    intro L
    induction L with
    | nil => intro a; simp
    | cons p L ih => intro a; rw [List.foldl_cons]; have := ih (gradStep3 c wi a p.1 p.2); simp [gradStep3, add_assoc] at this ⊢; exact this
  have := gen L ⟨0, 0, 0, 0, 0, 0, 0, 0, 0, 0, 0, 0⟩
  simp only [zero_add] at this
  obtain ⟨a, b, c, d, e, f, g, h, i⟩ := this
  exact ⟨a, b, c, d, e, f, g, h, i⟩

theorem grad3_det (A : Grad3 K) (c : Vec K) (wi : K) (L : List (Vec K × K)) (h : IsGrad3 A c wi L) (hf : ¬ Flat 3 (c :: L.map Prod.fst)) :
    A.xx * A.yy * A.zz + 2 * A.xy * A.xz * A.yz - A.xx * A.yz ^ 2 - A.yy * A.xz ^ 2 - A.zz * A.xy ^ 2 ≠ 0 := by
  have quad : ∀ (p q r : K), lsum L (fun x => (p * (x.1 0 - c 0) + q * (x.1 1 - c 1) + r * (x.1 2 - c 2)) ^ 2)
      = p ^ 2 * A.xx + q ^ 2 * A.yy + r ^ 2 * A.zz + 2 * p * q * A.xy + 2 * p * r * A.xz + 2 * q * r * A.yz := by
    intro p q r
    rw [h.xx, h.yy, h.zz, h.xy, h.xz, h.yz]
    clear h hf
    induction L with
    | nil => simp
    | cons x L ih => simp only [lsum_cons]; rw [ih]; ring
  have flat : ∀ (p q r : K), (p ≠ 0 ∨ q ≠ 0 ∨ r ≠ 0) → (∀ x ∈ L, p * (x.1 0 - c 0) + q * (x.1 1 - c 1) + r * (x.1 2 - c 2) = 0) → False := by
    intro p q r hpq hx
    apply hf
    refine ⟨fun k => if k = 0 then p else if k = 1 then q else r, p * c 0 + q * c 1 + r * c 2, ?_, ?_⟩
    · rcases hpq with h | h | h
      · exact ⟨0, by omega, by simpa using h⟩
      · exact ⟨1, by omega, by simpa using h⟩
      · exact ⟨2, by omega, by simpa using h⟩
    · intro x hx'
      rcases List.mem_cons.1 hx' with rfl | hx'
      · simp [Finset.sum_range_succ]
      · obtain ⟨y, hy, rfl⟩ := List.mem_map.1 hx'
        have := hx y hy
        simp [Finset.sum_range_succ]
        linear_combination this
  intro hD
  obtain ⟨p, q, r, hne, e1, e2, e3⟩ := kernel3 A.xx A.yy A.zz A.xy A.xz A.yz (by linear_combination hD)
  refine flat p q r hne (lsum_sq_zero L _ ?_)
  rw [quad]; linear_combination p * e1 + q * e2 + r * e3

/-- **C40** (3D): for a cell with no periodic neighbour, whose centre and neighbours are not all in one plane, the least-squares
gradient of an affine field is the gradient of the field. -/
theorem C40_affine_exact_3d (T : NodeTabs K) (C : CellTabs) (w : Fields K) (i : Nat) (a : K) (g : Vec K)
    (hper : C.periodicnid i = [])
    (hflat : ¬ Flat 3 (T.centerc i :: (cellStencil 6 T C w [] i).map Prod.fst))
    (hc : w.c i = affine 3 a g (T.centerc i))
    (hs : ∀ p ∈ cellStencil 6 T C w [] i, p.2 = affine 3 a g p.1) :
    cellGradient3 T C w i = (g 0, g 1, g 2) := by
  have hm := grad3_moments (T.centerc i) (w.c i) (cellStencil 6 T C w [] i)
  rw [← gradSums3_stencil T C w i hper] at hm
  have hD := grad3_det _ _ _ _ hm hflat
  obtain ⟨A, hA⟩ : ∃ A, A = gradSums3 T C w i := ⟨_, rfl⟩
  simp only [cellGradient3]
  rw [← hA] at hm hD ⊢
  have hx : ∀ (L : List (Vec K × K)), (∀ p ∈ L, p.2 = affine 3 a g p.1) → ∀ (f : Vec K × K → K),
      lsum L (fun p => f p * (p.2 - w.c i)) = g 0 * lsum L (fun p => f p * (p.1 0 - T.centerc i 0))
        + g 1 * lsum L (fun p => f p * (p.1 1 - T.centerc i 1)) + g 2 * lsum L (fun p => f p * (p.1 2 - T.centerc i 2)) := by
    intro L
    induction L with
    | nil => simp
    | cons p L ih =>
      intro h f
      have e := ih (fun q hq => h q (by simp [hq])) f
      simp only [lsum_cons]
      rw [e, h p (by simp), hc]
      simp only [affine, Finset.sum_range_succ, Finset.sum_range_zero]
      ring
  have hcomm : ∀ (k l : Nat), lsum (cellStencil 6 T C w [] i) (fun p => (p.1 k - T.centerc i k) * (p.1 l - T.centerc i l))
      = lsum (cellStencil 6 T C w [] i) (fun p => (p.1 l - T.centerc i l) * (p.1 k - T.centerc i k)) := by
    intro k l; congr 1; funext p; ring
  have e1 : A.j_x = g 0 * A.xx + g 1 * A.xy + g 2 * A.xz := by
    rw [hm.j_x, hm.xx, hm.xy, hm.xz]; exact hx _ hs _
  have e2 : A.j_y = g 0 * A.xy + g 1 * A.yy + g 2 * A.yz := by
    rw [hm.j_y, hm.yy, hm.xy, hm.yz, hcomm 0 1]; exact hx _ hs _
  have e3 : A.j_z = g 0 * A.xz + g 1 * A.yz + g 2 * A.zz := by
    rw [hm.j_z, hm.zz, hm.xz, hm.yz, hcomm 0 2, hcomm 1 2]; exact hx _ hs _
  rw [e1, e2, e3]
  refine Prod.ext ?_ (Prod.ext ?_ ?_)
  · show _ / _ = g 0; rw [div_eq_iff hD]; ring
  · show _ / _ = g 1; rw [div_eq_iff hD]; ring
  · show _ / _ = g 2; rw [div_eq_iff hD]; ring

/-- **C40** (constants, 3D). -/
theorem C40_constant_3d (T : NodeTabs K) (C : CellTabs) (w : Fields K) (i : Nat) (hper : C.periodicnid i = [])
    (hs : ∀ p ∈ cellStencil 6 T C w [] i, p.2 = w.c i) :
    cellGradient3 T C w i = (0, 0, 0) := by
  have hm := grad3_moments (T.centerc i) (w.c i) (cellStencil 6 T C w [] i)
  rw [← gradSums3_stencil T C w i hper] at hm
  have hx : ∀ (L : List (Vec K × K)) (f : Vec K × K → K), (∀ p ∈ L, p.2 = w.c i) → lsum L (fun p => f p * (p.2 - w.c i)) = 0 := by
    intro L f
    induction L with
    | nil => simp
    | cons p L ih => intro h; rw [lsum_cons, ih (fun q hq => h q (by simp [hq])), h p (by simp)]; ring
  have e1 := hm.j_x.trans (hx _ _ hs)
  have e2 := hm.j_y.trans (hx _ _ hs)
  have e3 := hm.j_z.trans (hx _ _ hs)
  simp only [cellGradient3]
  rw [e1, e2, e3]; simp

/-! ## Non-vacuity and the 3D periodic counterexample -/

/-- Cells of the 2D example: cell 3 at the origin has neighbours 0, 1, 2 and a ghost. -/
def exCells : CellTabs := ⟨fun _ => [0, 1, 2], fun _ => [], fun _ => [0], fun _ => []⟩

def exField : Fields ℚ := ⟨fun c => if c = 0 then 5 else if c = 1 then 1 else if c = 2 then -1 else 2, fun _ => 6, fun _ => 0, fun _ => 0⟩

example : cellGradient2 exTabs exCells exField 3 = (3, -1, 0) := by decide +kernel
example : (∀ n ∈ exCells.nodes 3, exTabs.periodicn n = []) ∧
    exField.c 3 = affine 2 2 (fun k => if k = 0 then 3 else -1) (exTabs.centerc 3) ∧
    ∀ p ∈ cellStencil 4 exTabs exCells exField [] 3, p.2 = affine 2 2 (fun k => if k = 0 then 3 else -1) p.1 := by decide +kernel
example : ¬ Flat 2 (exTabs.centerc 3 :: (cellStencil 4 exTabs exCells exField [] 3).map Prod.fst) := by
  rintro ⟨u, c, ⟨k, hk, hu⟩, h⟩
  have h0 := h (exTabs.centerc 0) (by simp [cellStencil, exTabs, exCells])
  have h1 := h (exTabs.centerc 1) (by simp [cellStencil, exTabs, exCells])
  have h2 := h (exTabs.centerc 3) (by simp [cellStencil, exTabs, exCells])
  simp [exTabs, Finset.sum_range_succ] at h0 h1 h2
  have : k = 0 ∨ k = 1 := by omega
  rcases this with rfl | rfl
  · apply hu; linarith
  · apply hu; linarith

/-- A periodic 2D example: cell 3 sees cell 2 only through the periodic boundary, shifted by 4 in x. -/
def exTabsP : NodeTabs ℚ := { exTabs with
  periodicn := fun _ => [2], oldname := fun _ => 22, namen := fun _ => 0, shift := fun _ k => if k = 0 then 4 else 0, ghosts := fun _ => [] }
def exCellsP : CellTabs := ⟨fun _ => [0, 1], fun _ => [], fun _ => [0], fun _ => [2]⟩
def exFieldP : Fields ℚ := ⟨fun c => if c = 0 then 5 else if c = 1 then 1 else if c = 2 then 11 else 2, fun _ => 0, fun _ => 0, fun _ => 0⟩

example : cellGradient2 exTabsP exCellsP exFieldP 3 = (3, -1, 0) := by decide +kernel
example : cellPeriodic2 exTabsP exCellsP exFieldP 3 ≠ [] ∧
    ∀ p ∈ cellStencil 4 exTabsP exCellsP exFieldP (cellPeriodic2 exTabsP exCellsP exFieldP 3) 3,
      p.2 = affine 2 2 (fun k => if k = 0 then 3 else -1) p.1 := by decide +kernel

/-- Cells of the 3D example: cell 5 at the origin sees cells 0, 1, 2, 3 directly. -/
def exCells3 : CellTabs := ⟨fun _ => [0, 1, 2, 3], fun _ => [5], fun _ => [0], fun _ => []⟩
/-- The same with one periodic neighbour (cell 4, at the origin shifted by (4,0,0)). -/
def exCells3P : CellTabs := ⟨fun _ => [0, 1, 2, 3], fun _ => [], fun _ => [], fun _ => [4]⟩
def exTabs3P : NodeTabs ℚ := { exTabs3 with shift := fun _ k => if k = 0 then 4 else 0 }
/-- The values of `2 + x - y + 3z`, with cell 4 seen at (4,0,0). -/
def exFields3P : Fields ℚ :=
  ⟨fun c => if c = 0 then 3 else if c = 1 then 1 else if c = 2 then 5 else if c = 3 then -1 else if c = 4 then 6 else 2,
    fun _ => 0, fun _ => 8, fun _ => 11⟩

example : cellGradient3 exTabs3 exCells3 exFields3P 5 = (1, -1, 3) := by decide +kernel
example : exFields3P.c 5 = affine 3 2 (fun k => if k = 0 then 1 else if k = 1 then -1 else 3) (exTabs3.centerc 5) ∧
    (cellStencil 6 exTabs3 exCells3 exFields3P [] 5).length = 6 ∧
    ∀ p ∈ cellStencil 6 exTabs3 exCells3 exFields3P [] 5,
      p.2 = affine 3 2 (fun k => if k = 0 then 1 else if k = 1 then -1 else 3) p.1 := by decide +kernel
example : ¬ Flat 3 (exTabs3.centerc 5 :: (cellStencil 6 exTabs3 exCells3 exFields3P [] 5).map Prod.fst) := by
  rintro ⟨u, c, ⟨k, hk, hu⟩, h⟩
  have h0 := h (exTabs3.centerc 0) (by simp [cellStencil, exTabs3, exCells3])
  have h1 := h (exTabs3.centerc 1) (by simp [cellStencil, exTabs3, exCells3])
  have h2 := h (exTabs3.centerc 2) (by simp [cellStencil, exTabs3, exCells3])
  have h3 := h (exTabs3.centerc 5) (by simp [cellStencil, exTabs3, exCells3])
  simp [exTabs3, Finset.sum_range_succ] at h0 h1 h2 h3
  have : k = 0 ∨ k = 1 ∨ k = 2 := by omega
  rcases this with rfl | rfl | rfl <;> apply hu <;> linarith

/-- The periodic neighbours of a cell in 3D, at their shifted positions. -/
def cellPeriodic3 (T : NodeTabs K) (C : CellTabs) (w : Fields K) (i : Nat) : List (Vec K × K) :=
  (C.periodicnid i).map (fun c => (fun k => T.centerc c k + T.shift c k, w.c c))

/-- **C41** (3D is false): there is a 3D cell, with a non-flat stencil and one periodic neighbour, and an affine field on which the
computed gradient is not the gradient of the field. -/
theorem C41_periodic_3d_counterexample :
    ∃ (T : NodeTabs ℚ) (C : CellTabs) (w : Fields ℚ) (i : Nat) (a : ℚ) (g : Vec ℚ),
      (¬ Flat 3 (T.centerc i :: (cellStencil 6 T C w [] i).map Prod.fst)) ∧ w.c i = affine 3 a g (T.centerc i) ∧
      (∀ p ∈ cellStencil 6 T C w (cellPeriodic3 T C w i) i, p.2 = affine 3 a g p.1) ∧
      cellGradient3 T C w i ≠ (g 0, g 1, g 2) := by
  refine ⟨exTabs3P, exCells3P, exFields3P, 5, 2, fun k => if k = 0 then 1 else if k = 1 then -1 else 3, ?_, by decide +kernel, by decide +kernel, by decide +kernel⟩
  rintro ⟨u, c, ⟨k, hk, hu⟩, h⟩
  have h0 := h (exTabs3.centerc 0) (by simp [cellStencil, exTabs3, exCells3P, exTabs3P])
  have h1 := h (exTabs3.centerc 1) (by simp [cellStencil, exTabs3, exCells3P, exTabs3P])
  have h2 := h (exTabs3.centerc 2) (by simp [cellStencil, exTabs3, exCells3P, exTabs3P])
  have h3 := h (exTabs3.centerc 5) (by simp [cellStencil, exTabs3, exCells3P, exTabs3P])
  simp [exTabs3, Finset.sum_range_succ] at h0 h1 h2 h3
  have : k = 0 ∨ k = 1 ∨ k = 2 := by omega
  rcases this with rfl | rfl | rfl <;> apply hu <;> linarith

end Verif.Interp
