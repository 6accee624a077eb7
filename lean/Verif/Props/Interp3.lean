import Verif.Props.Interp

/-!
# C39: vertex interpolation in 3D
-/
set_option linter.unusedSectionVars false
set_option linter.unusedSimpArgs false
namespace Verif.Interp
open Verif Verif.Geo

variable {K : Type*} [Field K] [LinearOrder K] [IsStrictOrderedRing K]

/-- The accumulators hold the moments of the stencil (3D). -/
structure IsMoments3 (a : Acc3 K) (v : Vec K) (L : List (Vec K × K)) : Prop where
  xx : a.xx = lsum L (fun p => (p.1 0 - v 0) * (p.1 0 - v 0))
  yy : a.yy = lsum L (fun p => (p.1 1 - v 1) * (p.1 1 - v 1))
  zz : a.zz = lsum L (fun p => (p.1 2 - v 2) * (p.1 2 - v 2))
  xy : a.xy = lsum L (fun p => (p.1 0 - v 0) * (p.1 1 - v 1))
  xz : a.xz = lsum L (fun p => (p.1 0 - v 0) * (p.1 2 - v 2))
  yz : a.yz = lsum L (fun p => (p.1 1 - v 1) * (p.1 2 - v 2))
  rx : a.rx = lsum L (fun p => p.1 0 - v 0)
  ry : a.ry = lsum L (fun p => p.1 1 - v 1)
  rz : a.rz = lsum L (fun p => p.1 2 - v 2)
  number : a.number = lsum L (fun _ => 1)

theorem acc3_moments (v : Vec K) (L : List (Vec K × K)) :
    IsMoments3 (L.foldl (fun a p => accStep3 v a p.1) ⟨0, 0, 0, 0, 0, 0, 0, 0, 0, 0⟩) v L := by
  have gen : ∀ (L : List (Vec K × K)) (a : Acc3 K), L.foldl (fun a p => accStep3 v a p.1) a =
      ⟨a.xx + lsum L (fun p => (p.1 0 - v 0) * (p.1 0 - v 0)), a.yy + lsum L (fun p => (p.1 1 - v 1) * (p.1 1 - v 1)),
        a.zz + lsum L (fun p => (p.1 2 - v 2) * (p.1 2 - v 2)),
        a.xy + lsum L (fun p => (p.1 0 - v 0) * (p.1 1 - v 1)), a.xz + lsum L (fun p => (p.1 0 - v 0) * (p.1 2 - v 2)),
        a.yz + lsum L (fun p => (p.1 1 - v 1) * (p.1 2 - v 2)), a.rx + lsum L (fun p => p.1 0 - v 0),
        a.ry + lsum L (fun p => p.1 1 - v 1), a.rz + lsum L (fun p => p.1 2 - v 2), a.number + lsum L (fun _ => 1)⟩ := by
    intro L
    induction L with
    | nil => intro a; simp
    | cons p L ih => intro a; rw [List.foldl_cons, ih]; simp [accStep3, add_assoc]
  rw [gen]
  constructor <;> simp

/-- The stencil in the order in which `variables_3d` visits it (halo cells before the ghosts of other subdomains). -/
def nodeStencil3' (T : NodeTabs K) (w : Fields K) (i : Nat) : List (Vec K × K) :=
  (T.cellidn i).map (fun c => (T.centerc c, w.c c))
    ++ (if firstGhost (T.ghosts i) ≠ -1 then ghostPart (T.ghosts i) w.ghost else [])
    ++ periodicPart 3 T w i
    ++ (if T.namen i = 10 then (T.haloidn i).map (fun c => (T.centerh c, w.halo c)) ++ ghostPart (T.haloghosts i) w.haloghost else [])

theorem nodeStencil3_perm (T : NodeTabs K) (w : Fields K) (i : Nat) : (nodeStencil3' T w i).Perm (nodeStencil 3 T w i) := by
  unfold nodeStencil3' nodeStencil
  refine List.Perm.append_left _ ?_
  split_ifs
  · exact List.perm_append_comm
  · exact List.Perm.refl _

theorem variables3_stencil (T : NodeTabs K) (w : Fields K) (i : Nat) :
    variables3 T i = (nodeStencil3' T w i).foldl (fun a p => accStep3 (T.vertexn i) a p.1) ⟨0, 0, 0, 0, 0, 0, 0, 0, 0, 0⟩ := by
  simp only [variables3, nodeStencil3', periodicPart, ghostPart, List.foldl_append, List.foldl_map]
  have hf : ∀ (gs : List (Vec K × Int)) (a : Acc3 K), (gs.filter (fun g => decide (g.2 ≠ -1))).foldl
      (fun a (g : Vec K × Int) => accStep3 (T.vertexn i) a g.1) a
      = gs.foldl (fun a g => if g.2 ≠ -1 then accStep3 (T.vertexn i) a g.1 else a) a := by
    intro gs a
    rw [List.foldl_filter]; simp
  split_ifs <;> simp_all [List.foldl_map]

theorem moments3_of (T : NodeTabs K) (w : Fields K) (i : Nat) : IsMoments3 (variables3 T i) (T.vertexn i) (nodeStencil 3 T w i) := by
  have h := acc3_moments (T.vertexn i) (nodeStencil3' T w i)
  rw [← variables3_stencil T w i] at h
  have hp := nodeStencil3_perm T w i
  exact ⟨h.xx.trans (lsum_perm hp _), h.yy.trans (lsum_perm hp _), h.zz.trans (lsum_perm hp _), h.xy.trans (lsum_perm hp _),
    h.xz.trans (lsum_perm hp _), h.yz.trans (lsum_perm hp _), h.rx.trans (lsum_perm hp _), h.ry.trans (lsum_perm hp _),
    h.rz.trans (lsum_perm hp _), h.number.trans (lsum_perm hp _)⟩

theorem centertovertex3_stencil (T : NodeTabs K) (w : Fields K) (i : Nat) :
    centertovertex3 T w i = lsum (nodeStencil 3 T w i) (fun p => alpha3 (variables3 T i) (T.vertexn i) p.1 * p.2) := by
  have gen : ∀ (L : List (Vec K × K)) (s : K), L.foldl (fun s p => s + alpha3 (variables3 T i) (T.vertexn i) p.1 * p.2) s
      = s + lsum L (fun p => alpha3 (variables3 T i) (T.vertexn i) p.1 * p.2) := by
    intro L
    induction L with
    | nil => simp
    | cons p L ih => intro s; rw [List.foldl_cons, ih, lsum_cons, add_assoc]
  rw [← zero_add (lsum _ _), ← gen]
  clear gen
  simp only [centertovertex3, nodeStencil, periodicPart, ghostPart, List.foldl_append, List.foldl_map]
  have hf : ∀ (gs : List (Vec K × Int)) (val : Nat → K) (a : K), (gs.filter (fun g => decide (g.2 ≠ -1))).foldl
      (fun s (g : Vec K × Int) => s + alpha3 (variables3 T i) (T.vertexn i) g.1 * val g.2.toNat) a
      = gs.foldl (fun s g => if g.2 ≠ -1 then s + alpha3 (variables3 T i) (T.vertexn i) g.1 * val g.2.toNat else s) a := by
    intro gs val a
    rw [List.foldl_filter]; simp
  split_ifs <;> simp_all [List.foldl_map]

/-- The multipliers solve the 3x3 normal equations. -/
theorem lambda3_eqs (a : Acc3 K) (hD : det3 a ≠ 0) :
    a.rx + (lambda3 a).1 * a.xx + (lambda3 a).2.1 * a.xy + (lambda3 a).2.2 * a.xz = 0 ∧
    a.ry + (lambda3 a).1 * a.xy + (lambda3 a).2.1 * a.yy + (lambda3 a).2.2 * a.yz = 0 ∧
    a.rz + (lambda3 a).1 * a.xz + (lambda3 a).2.1 * a.yz + (lambda3 a).2.2 * a.zz = 0 := by
  have h1 : (lambda3 a).1 * det3 a = (a.yz * a.yz - a.yy * a.zz) * a.rx + (a.xy * a.zz - a.xz * a.yz) * a.ry
      + (a.xz * a.yy - a.xy * a.yz) * a.rz := div_mul_cancel₀ _ hD
  have h2 : (lambda3 a).2.1 * det3 a = (a.xy * a.zz - a.xz * a.yz) * a.rx + (a.xz * a.xz - a.xx * a.zz) * a.ry
      + (a.yz * a.xx - a.xz * a.xy) * a.rz := div_mul_cancel₀ _ hD
  have h3 : (lambda3 a).2.2 * det3 a = (a.xz * a.yy - a.xy * a.yz) * a.rx + (a.yz * a.xx - a.xz * a.xy) * a.ry
      + (a.xy * a.xy - a.xx * a.yy) * a.rz := div_mul_cancel₀ _ hD
  have hd : det3 a = a.xx * a.yy * a.zz + 2 * a.xy * a.xz * a.yz - a.xx * a.yz * a.yz - a.yy * a.xz * a.xz - a.zz * a.xy * a.xy := rfl
  refine ⟨?_, ?_, ?_⟩
  · apply mul_right_cancel₀ hD; linear_combination a.xx * h1 + a.xy * h2 + a.xz * h3 + a.rx * hd
  · apply mul_right_cancel₀ hD; linear_combination a.xy * h1 + a.yy * h2 + a.yz * h3 + a.ry * hd
  · apply mul_right_cancel₀ hD; linear_combination a.xz * h1 + a.yz * h2 + a.zz * h3 + a.rz * hd

/-- A singular symmetric 3x3 matrix has a kernel vector. -/
theorem kernel3 (xx yy zz xy xz yz : K)
    (h : xx * yy * zz + 2 * xy * xz * yz - xx * yz * yz - yy * xz * xz - zz * xy * xy = 0) :
    ∃ p q r : K, (p ≠ 0 ∨ q ≠ 0 ∨ r ≠ 0) ∧ xx * p + xy * q + xz * r = 0 ∧ xy * p + yy * q + yz * r = 0 ∧ xz * p + yz * q + zz * r = 0 := by
  have hdet : (!![xx, xy, xz; xy, yy, yz; xz, yz, zz] : Matrix (Fin 3) (Fin 3) K).det = 0 := by
    rw [Matrix.det_fin_three]; simp; linear_combination h
  obtain ⟨u, hu, hm⟩ := Matrix.exists_mulVec_eq_zero_iff.2 hdet
  refine ⟨u 0, u 1, u 2, ?_, ?_, ?_, ?_⟩
  · by_contra hc
    push Not at hc
    apply hu
    funext k
    fin_cases k
    · exact hc.1
    · exact hc.2.1
    · exact hc.2.2
  · have := congrFun hm 0; simpa [Matrix.mulVec, dotProduct, Fin.sum_univ_three] using this
  · have := congrFun hm 1; simpa [Matrix.mulVec, dotProduct, Fin.sum_univ_three] using this
  · have := congrFun hm 2; simpa [Matrix.mulVec, dotProduct, Fin.sum_univ_three] using this

/-- A stencil that is not flat has a nonsingular moment matrix and a nonzero normalisation (3D). -/
theorem nonflat3 (a : Acc3 K) (v : Vec K) (L : List (Vec K × K)) (h : IsMoments3 a v L) (hf : ¬ Flat 3 (L.map Prod.fst)) :
    det3 a ≠ 0 ∧ a.number + (lambda3 a).1 * a.rx + (lambda3 a).2.1 * a.ry + (lambda3 a).2.2 * a.rz ≠ 0 := by
  have quad : ∀ (t p q r : K), lsum L (fun x => (t + p * (x.1 0 - v 0) + q * (x.1 1 - v 1) + r * (x.1 2 - v 2)) ^ 2)
      = t ^ 2 * a.number + 2 * t * p * a.rx + 2 * t * q * a.ry + 2 * t * r * a.rz + p ^ 2 * a.xx + q ^ 2 * a.yy + r ^ 2 * a.zz
        + 2 * p * q * a.xy + 2 * p * r * a.xz + 2 * q * r * a.yz := by
    intro t p q r
    rw [h.xx, h.yy, h.zz, h.xy, h.xz, h.yz, h.rx, h.ry, h.rz, h.number]
    clear h hf
    induction L with
    | nil => simp
    | cons x L ih => simp only [lsum_cons]; rw [ih]; ring
  have flat : ∀ (t p q r : K), (p ≠ 0 ∨ q ≠ 0 ∨ r ≠ 0) →
      (∀ x ∈ L, t + p * (x.1 0 - v 0) + q * (x.1 1 - v 1) + r * (x.1 2 - v 2) = 0) → False := by
    intro t p q r hpq hx
    apply hf
    refine ⟨fun k => if k = 0 then p else if k = 1 then q else r, p * v 0 + q * v 1 + r * v 2 - t, ?_, ?_⟩
    · rcases hpq with h | h | h
      · exact ⟨0, by omega, by simpa using h⟩
      · exact ⟨1, by omega, by simpa using h⟩
      · exact ⟨2, by omega, by simpa using h⟩
    · intro x hx'
      obtain ⟨y, hy, rfl⟩ := List.mem_map.1 hx'
      have := hx y hy
      simp [Finset.sum_range_succ]
      linear_combination this
  have hD : det3 a ≠ 0 := by
    intro hD
    obtain ⟨p, q, r, hne, e1, e2, e3⟩ := kernel3 a.xx a.yy a.zz a.xy a.xz a.yz hD
    refine flat 0 p q r hne (lsum_sq_zero L _ ?_)
    rw [quad]; linear_combination p * e1 + q * e2 + r * e3
  refine ⟨hD, ?_⟩
  obtain ⟨e1, e2, e3⟩ := lambda3_eqs a hD
  generalize (lambda3 a).1 = lx at *
  generalize (lambda3 a).2.1 = ly at *
  generalize (lambda3 a).2.2 = lz at *
  intro hN
  have hz : ∀ x ∈ L, 1 + lx * (x.1 0 - v 0) + ly * (x.1 1 - v 1) + lz * (x.1 2 - v 2) = 0 := by
    refine lsum_sq_zero L (fun x => 1 + lx * (x.1 0 - v 0) + ly * (x.1 1 - v 1) + lz * (x.1 2 - v 2)) ?_
    rw [quad]; linear_combination hN + lx * e1 + ly * e2 + lz * e3
  by_cases hl : lx ≠ 0 ∨ ly ≠ 0 ∨ lz ≠ 0
  · exact flat 1 lx ly lz hl hz
  · push Not at hl
    cases L with
    | nil => exact hf ⟨fun _ => 1, 0, ⟨0, by omega, by simp⟩, by simp⟩
    | cons x L => have := hz x (by simp); rw [hl.1, hl.2.1, hl.2.2] at this; simp at this

/-- Least-squares weights reproduce affine functions (3D). -/
theorem weights3_affine (A : Acc3 K) (v : Vec K) (L : List (Vec K × K)) (h : IsMoments3 A v L)
    (hD : det3 A ≠ 0) (hN : A.number + (lambda3 A).1 * A.rx + (lambda3 A).2.1 * A.ry + (lambda3 A).2.2 * A.rz ≠ 0)
    (a : K) (g : Vec K) (hs : ∀ p ∈ L, p.2 = affine 3 a g p.1) :
    lsum L (fun p => alpha3 A v p.1 * p.2) = affine 3 a g v := by
  obtain ⟨e1, e2, e3⟩ := lambda3_eqs A hD
  obtain ⟨lx, hlx⟩ : ∃ lx, lx = (lambda3 A).1 := ⟨_, rfl⟩
  obtain ⟨ly, hly⟩ : ∃ ly, ly = (lambda3 A).2.1 := ⟨_, rfl⟩
  obtain ⟨lz, hlz⟩ : ∃ lz, lz = (lambda3 A).2.2 := ⟨_, rfl⟩
  obtain ⟨N, hNd⟩ : ∃ N, N = A.number + lx * A.rx + ly * A.ry + lz * A.rz := ⟨_, rfl⟩
  have hal : ∀ p, alpha3 A v p = (1 + lx * (p 0 - v 0) + ly * (p 1 - v 1) + lz * (p 2 - v 2)) * N⁻¹ := by
    intro p; rw [hNd, hlx, hly, hlz]; exact div_eq_mul_inv _ _
  rw [← hlx, ← hly, ← hlz] at e1 e2 e3 hN
  have lin : lsum L (fun p => alpha3 A v p.1 * p.2)
      = (affine 3 a g v * N + g 0 * (A.rx + lx * A.xx + ly * A.xy + lz * A.xz) + g 1 * (A.ry + lx * A.xy + ly * A.yy + lz * A.yz)
        + g 2 * (A.rz + lx * A.xz + ly * A.yz + lz * A.zz)) * N⁻¹ := by
    have key : ∀ L' : List (Vec K × K), (∀ p ∈ L', p.2 = affine 3 a g p.1) → lsum L' (fun p => alpha3 A v p.1 * p.2)
      = (affine 3 a g v * (lsum L' (fun _ => 1) + lx * lsum L' (fun p => p.1 0 - v 0) + ly * lsum L' (fun p => p.1 1 - v 1)
            + lz * lsum L' (fun p => p.1 2 - v 2))
        + g 0 * (lsum L' (fun p => p.1 0 - v 0) + lx * lsum L' (fun p => (p.1 0 - v 0) * (p.1 0 - v 0))
            + ly * lsum L' (fun p => (p.1 0 - v 0) * (p.1 1 - v 1)) + lz * lsum L' (fun p => (p.1 0 - v 0) * (p.1 2 - v 2)))
        + g 1 * (lsum L' (fun p => p.1 1 - v 1) + lx * lsum L' (fun p => (p.1 0 - v 0) * (p.1 1 - v 1))
            + ly * lsum L' (fun p => (p.1 1 - v 1) * (p.1 1 - v 1)) + lz * lsum L' (fun p => (p.1 1 - v 1) * (p.1 2 - v 2)))
        + g 2 * (lsum L' (fun p => p.1 2 - v 2) + lx * lsum L' (fun p => (p.1 0 - v 0) * (p.1 2 - v 2))
            + ly * lsum L' (fun p => (p.1 1 - v 1) * (p.1 2 - v 2)) + lz * lsum L' (fun p => (p.1 2 - v 2) * (p.1 2 - v 2)))) * N⁻¹ := by
      intro L' hL
      induction L' with
      | nil => simp
      | cons p L' ih =>
        simp only [lsum_cons]
        rw [ih (fun q hq => hL q (by simp [hq])), hal, hL p (by simp)]
        simp only [affine, Finset.sum_range_succ, Finset.sum_range_zero]
        ring
    rw [key L hs, ← h.xx, ← h.yy, ← h.zz, ← h.xy, ← h.xz, ← h.yz, ← h.rx, ← h.ry, ← h.rz, ← h.number, ← hNd]
  rw [lin, e1, e2, e3]
  rw [← hNd] at hN
  field_simp
  ring

/-- **C39**: at every node whose stencil points do not all lie in one plane, affine data are interpolated exactly (3D). -/
theorem C39_affine_exact (T : NodeTabs K) (w : Fields K) (i : Nat) (a : K) (g : Vec K)
    (hflat : ¬ Flat 3 ((nodeStencil 3 T w i).map Prod.fst))
    (hs : ∀ p ∈ nodeStencil 3 T w i, p.2 = affine 3 a g p.1) :
    centertovertex3 T w i = affine 3 a g (T.vertexn i) := by
  have hm := moments3_of T w i
  obtain ⟨hD, hN⟩ := nonflat3 _ _ _ hm hflat
  rw [centertovertex3_stencil]
  exact weights3_affine _ _ _ hm hD hN a g hs

/-- **C39** (constants). -/
theorem C39_constant (T : NodeTabs K) (w : Fields K) (i : Nat) (a : K)
    (hflat : ¬ Flat 3 ((nodeStencil 3 T w i).map Prod.fst)) (hs : ∀ p ∈ nodeStencil 3 T w i, p.2 = a) :
    centertovertex3 T w i = a := by
  have := C39_affine_exact T w i a (fun _ => 0) hflat (by intro p hp; rw [hs p hp]; simp [affine])
  simpa [affine] using this

/-- A node at the origin, four cells around it and a halo cell. -/
def exTabs3 : NodeTabs ℚ where
  centerc := fun c k => if c = 3 then -1 else if c = k then 1 else 0
  centerh := fun _ _ => 2
  cellidn := fun _ => [0, 1, 2, 3]
  haloidn := fun _ => [5]
  periodicn := fun _ => []
  vertexn := fun _ _ => 0
  oldname := fun _ => 0
  namen := fun _ => 10
  ghosts := fun _ => [(fun _ => -1, -1)]
  haloghosts := fun _ => [(fun _ => 3, 4), (fun _ => -1, -1)]
  shift := fun _ _ => 0

/-- The values of `2 + x - y + 3z` at the points around the node. -/
def exFields3 : Fields ℚ :=
  ⟨fun c => if c = 0 then 3 else if c = 1 then 1 else if c = 2 then 5 else -1, fun _ => 0, fun _ => 8, fun _ => 11⟩

/-- Non-vacuity of C39. -/
example : ¬ Flat 3 ((nodeStencil 3 exTabs3 exFields3 0).map Prod.fst) := by
  rintro ⟨u, c, ⟨k, hk, hu⟩, h⟩
  have h0 := h (exTabs3.centerc 0) (by simp [nodeStencil, exTabs3])
  have h1 := h (exTabs3.centerc 1) (by simp [nodeStencil, exTabs3])
  have h2 := h (exTabs3.centerc 2) (by simp [nodeStencil, exTabs3])
  have h3 := h (exTabs3.centerc 3) (by simp [nodeStencil, exTabs3])
  simp [exTabs3, Finset.sum_range_succ] at h0 h1 h2 h3
  have : k = 0 ∨ k = 1 ∨ k = 2 := by omega
  rcases this with rfl | rfl | rfl <;> apply hu <;> linarith
example : ∀ p ∈ nodeStencil 3 exTabs3 exFields3 0, p.2 = affine 3 2 (fun k => if k = 0 then 1 else if k = 1 then -1 else 3) p.1 := by
  decide +kernel
example : centertovertex3 exTabs3 exFields3 0 = 2 := by decide +kernel

end Verif.Interp
