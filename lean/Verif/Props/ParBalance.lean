import Verif.Lemmas.Fvm

/-!
Helper lemmas for the parallel theorems: the balance of a cell as a sum over its sides, and when two runs have the same term
for a side.
-/
set_option linter.unusedSectionVars false
set_option linter.unusedVariables false
set_option linter.unusedSimpArgs false
namespace Verif.Props.Par
open Verif.Fvm Verif.Spec
variable {K : Type*} [Field K] [LinearOrder K] [IsStrictOrderedRing K]

theorem sumAt_sides (l : List Nat) (hl : l.Nodup) (side : Nat → Nat) (F : Nat → K) (c d1 : Nat) (fc : Nat → Nat)
    (hinj : ∀ j < d1, ∀ j' < d1, fc j = fc j' → j = j') (hex : ∀ f ∈ l, side f = c → ∃ j < d1, fc j = f) :
    sumAt l side F c = ∑ j ∈ Finset.range d1, if fc j ∈ l ∧ side (fc j) = c then F (fc j) else 0 := by
  unfold sumAt
  rw [← List.sum_toFinset F (hl.filter _), ← Finset.sum_filter]
  symm
  apply Finset.sum_nbij fc
  · intro j hj
    simp only [Finset.mem_filter, Finset.mem_range] at hj
    simp [hj.2.1, hj.2.2]
  · intro j hj j' hj' e
    simp only [Finset.coe_filter, Finset.mem_range, Set.mem_ofPred_eq] at hj hj'
    exact hinj j hj.1 j' hj'.1 e
  · intro f hf
    simp only [List.coe_toFinset, List.mem_filter, decide_eq_true_eq, Set.mem_ofPred_eq] at hf
    obtain ⟨j, hj, e⟩ := hex f hf.1 hf.2
    refine ⟨j, ?_, e⟩
    simp [hj, e, hf.1, hf.2]
  · intro j _; rfl

/-- Contribution of face `f` to the balance of cell `c`. -/
def sideTerm (a : ConvArgs K) (dim c f : Nat) : K :=
  - (if f ∈ a.innerfaces ∧ left a f = c then innerFlux a dim f else 0)
  + (if f ∈ a.innerfaces ∧ right a f = c then innerFlux a dim f else 0)
  - (if f ∈ a.halofaces ∧ left a f = c then haloFlux a dim f else 0)
  - (if f ∈ a.boundaryfaces ∧ left a f = c then boundaryFlux a dim f else 0)

theorem balance_sides (a : ConvArgs K) (dim c d1 : Nat) (fc : Nat → Nat)
    (hinj : ∀ j < d1, ∀ j' < d1, fc j = fc j' → j = j')
    (hi : a.innerfaces.Nodup) (hh : a.halofaces.Nodup) (hb : a.boundaryfaces.Nodup) (hp : a.periodicboundaryfaces = [])
    (hil : ∀ f ∈ a.innerfaces, left a f = c → ∃ j < d1, fc j = f)
    (hir : ∀ f ∈ a.innerfaces, right a f = c → ∃ j < d1, fc j = f)
    (hhl : ∀ f ∈ a.halofaces, left a f = c → ∃ j < d1, fc j = f)
    (hbl : ∀ f ∈ a.boundaryfaces, left a f = c → ∃ j < d1, fc j = f) :
    balance a dim c = ∑ j ∈ Finset.range d1, sideTerm a dim c (fc j) := by
  unfold balance
  rw [sumAt_sides _ hi _ _ _ _ fc hinj hil, sumAt_sides _ hi _ _ _ _ fc hinj hir, sumAt_sides _ hh _ _ _ _ fc hinj hhl,
    sumAt_sides _ hb _ _ _ _ fc hinj hbl, hp]
  simp only [sideTerm, sumAt, List.filter_nil, List.map_nil, List.sum_nil, sub_zero, Finset.sum_sub_distrib, Finset.sum_add_distrib,
    Finset.sum_neg_distrib]

/-- The data of cell `c` in run `a` are those of cell `C` in run `b`. -/
structure CellMatch (a b : ConvArgs K) (c C : Nat) : Prop where
  w : a.w_c c = b.w_c C
  psi : a.psi c = b.psi C
  x : a.w_x c = b.w_x C
  y : a.w_y c = b.w_y C
  z : a.w_z c = b.w_z C
  cen : ∀ k < 3, a.centerc c k = b.centerc C k

/-- The data of halo cell `h` in run `a` are those of cell `C` in run `b`. -/
structure HaloMatch (a b : ConvArgs K) (h C : Nat) : Prop where
  w : a.w_halo h = b.w_c C
  psi : a.psi_halo h = b.psi C
  x : a.wx_halo h = b.w_x C
  y : a.wy_halo h = b.w_y C
  z : a.wz_halo h = b.w_z C
  cen : ∀ k < 3, a.centerh h k = b.centerc C k

/-- The data of face `f` in run `a` are those of face `F` in run `b` (up to the orientation of the normal). -/
structure FaceMatch (a b : ConvArgs K) (f F : Nat) : Prop where
  u : a.u_face f = b.u_face F
  v : a.v_face f = b.v_face F
  w : a.w_face f = b.w_face F
  cen : ∀ k < 3, a.centerf f k = b.centerf F k

theorem cellGrad_match {a b : ConvArgs K} {c C : Nat} (h : CellMatch a b c C) (k : Nat) : cellGrad a c k = cellGrad b C k := by
  match k with
  | 0 => exact h.x
  | 1 => exact h.y
  | _ + 2 => exact h.z

theorem haloGrad_match {a b : ConvArgs K} {c C : Nat} (h : HaloMatch a b c C) (k : Nat) : haloGrad a c k = cellGrad b C k := by
  match k with
  | 0 => exact h.x
  | 1 => exact h.y
  | _ + 2 => exact h.z

theorem cellAtFace_match {a b : ConvArgs K} (ho : a.order = b.order) {dim c C f F : Nat} (hd : dim ≤ 3) (h : CellMatch a b c C)
    (hf : FaceMatch a b f F) : cellAtFace a dim c f = cellAtFace b dim C F := by
  unfold cellAtFace extrap
  rw [h.w, h.psi, ho]
  congr 2
  apply Finset.sum_congr rfl
  intro k hk
  dsimp only
  rw [cellGrad_match h, hf.cen k (by rw [Finset.mem_range] at hk; omega), h.cen k (by rw [Finset.mem_range] at hk; omega)]

theorem haloAtFace_match {a b : ConvArgs K} (ho : a.order = b.order) {dim c C f F : Nat} (hd : dim ≤ 3) (h : HaloMatch a b c C)
    (hf : FaceMatch a b f F) : haloAtFace a dim c f = cellAtFace b dim C F := by
  unfold cellAtFace haloAtFace extrap
  rw [h.w, h.psi, ho]
  congr 2
  apply Finset.sum_congr rfl
  intro k hk
  dsimp only
  rw [haloGrad_match h, hf.cen k (by rw [Finset.mem_range] at hk; omega), h.cen k (by rw [Finset.mem_range] at hk; omega)]

theorem vn_match {a b : ConvArgs K} {f F : Nat} (hf : FaceMatch a b f F) (hn : ∀ k < 3, a.normalf f k = b.normalf F k) :
    vn a f = vn b F := by
  unfold vn; rw [hf.u, hf.v, hf.w, hn 0 (by omega), hn 1 (by omega), hn 2 (by omega)]

theorem vn_opp {a b : ConvArgs K} {f F : Nat} (hf : FaceMatch a b f F) (hn : ∀ k < 3, a.normalf f k = - b.normalf F k) :
    vn a f = - vn b F := by
  unfold vn; rw [hf.u, hf.v, hf.w, hn 0 (by omega), hn 1 (by omega), hn 2 (by omega)]; ring

theorem upwind_opp (x p q : K) : upwind (-x) p q = - upwind x q p := by
  unfold upwind
  rw [max_neg_zero', min_neg_zero']; ring
where
  max_neg_zero' : max (-x) 0 = - min x 0 := by
    rcases le_total x 0 with h | h
    · rw [max_eq_left (by linarith), min_eq_left h]
    · rw [max_eq_right (by linarith), min_eq_right h]; simp
  min_neg_zero' : min (-x) 0 = - max x 0 := by
    rcases le_total x 0 with h | h
    · rw [min_eq_right (by linarith), max_eq_right h]; simp
    · rw [min_eq_left (by linarith), max_eq_left h]

/-- How the side `f` of cell `c` in the rank's run `a` corresponds to the side `F` of cell `C` in the serial run `b`. -/
inductive SideMatch (a b : ConvArgs K) (c C f F : Nat) : Prop
  | boundary (h1 : f ∉ a.innerfaces) (h2 : f ∉ a.halofaces) (h3 : f ∈ a.boundaryfaces)
      (g1 : F ∉ b.innerfaces) (g2 : F ∉ b.halofaces) (g3 : F ∈ b.boundaryfaces)
      (hl : left a f = c) (gl : left b F = C) (hw : a.w_ghost f = b.w_ghost F)
      (hn : ∀ k < 3, a.normalf f k = b.normalf F k)
  | inner (h1 : f ∈ a.innerfaces) (h2 : f ∉ a.halofaces) (h3 : f ∉ a.boundaryfaces)
      (g1 : F ∈ b.innerfaces) (g2 : F ∉ b.halofaces) (g3 : F ∉ b.boundaryfaces)
      (e E : Nat) (he : e ≠ c) (hE : E ≠ C) (hm : CellMatch a b e E)
      (hs : (left a f = c ∧ right a f = e ∧ left b F = C ∧ right b F = E) ∨ (left a f = e ∧ right a f = c ∧ left b F = E ∧ right b F = C))
      (hn : ∀ k < 3, a.normalf f k = b.normalf F k)
  | halo (h1 : f ∉ a.innerfaces) (h2 : f ∈ a.halofaces) (h3 : f ∉ a.boundaryfaces)
      (g1 : F ∈ b.innerfaces) (g2 : F ∉ b.halofaces) (g3 : F ∉ b.boundaryfaces)
      (E : Nat) (hE : E ≠ C) (hl : left a f = c) (hm : HaloMatch a b (a.halofid f) E)
      (hs : (left b F = C ∧ right b F = E ∧ ∀ k < 3, a.normalf f k = b.normalf F k) ∨
        (left b F = E ∧ right b F = C ∧ ∀ k < 3, a.normalf f k = - b.normalf F k))

theorem sideTerm_match (a b : ConvArgs K) (ho : a.order = b.order) (dim c C f F : Nat) (hd : dim ≤ 3)
    (hc : CellMatch a b c C) (hf : FaceMatch a b f F) (h : SideMatch a b c C f F) :
    sideTerm a dim c f = sideTerm b dim C F := by
  cases h with
  | boundary h1 h2 h3 g1 g2 g3 hl gl hw hn =>
    simp only [sideTerm, h1, h2, h3, g1, g2, g3, hl, gl, false_and, if_false, true_and, if_true]
    rw [boundaryFlux, boundaryFlux, vn_match hf hn, hl, gl, cellAtFace_match ho hd hc hf, hw]
  | inner h1 h2 h3 g1 g2 g3 e E he hE hm hs hn =>
    rcases hs with ⟨s1, s2, s3, s4⟩ | ⟨s1, s2, s3, s4⟩
    · simp only [sideTerm, h1, h2, h3, g1, g2, g3, s1, s2, s3, s4, he, hE, false_and, if_false, true_and, if_true]
      rw [innerFlux, innerFlux, vn_match hf hn, s1, s2, s3, s4, cellAtFace_match ho hd hc hf, cellAtFace_match ho hd hm hf]
    · simp only [sideTerm, h1, h2, h3, g1, g2, g3, s1, s2, s3, s4, he, hE, false_and, if_false, true_and, if_true]
      rw [innerFlux, innerFlux, vn_match hf hn, s1, s2, s3, s4, cellAtFace_match ho hd hc hf, cellAtFace_match ho hd hm hf]
  | halo h1 h2 h3 g1 g2 g3 E hE hl hm hs =>
    rcases hs with ⟨s3, s4, hn⟩ | ⟨s3, s4, hn⟩
    · simp only [sideTerm, h1, h2, h3, g1, g2, g3, hl, s3, s4, hE, false_and, if_false, true_and, if_true]
      rw [innerFlux, haloFlux, vn_match hf hn, hl, s3, s4, cellAtFace_match ho hd hc hf, haloAtFace_match ho hd hm hf]
      ring
    · simp only [sideTerm, h1, h2, h3, g1, g2, g3, hl, s3, s4, hE, false_and, if_false, true_and, if_true]
      rw [innerFlux, haloFlux, vn_opp hf hn, hl, s3, s4, cellAtFace_match ho hd hc hf, haloAtFace_match ho hd hm hf, upwind_opp]
      ring

end Verif.Props.Par
