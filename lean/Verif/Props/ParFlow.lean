import Verif.Props.ParSolid

/-! Helper lemmas for the run theorems: the faces of a cell of the serial Domain, closed cells, the CFL rate. -/
set_option linter.unusedSectionVars false
set_option linter.unusedVariables false
set_option linter.unusedSimpArgs false
namespace Verif.Props.Par
open Verif.Fvm Verif.Spec Verif.Conn Verif.Dom Verif.Geo Verif.Names Verif.MeshFile Verif.Part Verif.Comm Verif.Run
variable {K : Type*} [Field K] [LinearOrder K] [IsStrictOrderedRing K]

section
variable {L G : Tables K} {d1 : Nat} {φ : Nat → Nat} {mine : Nat → Prop} {ext : List (List Nat)} {B : List Int} {out : Nat → Nat → Vec K}

/-- The faces of the serial Domain: boundary faces with one cell, inner faces with two. -/
theorem RankOf.gkinds (h : RankOf L G d1 φ mine ext B out) {C : Nat} (hC : C < G.nbcells) {j : Nat} (hj : j < d1) :
    (G.name (G.faceid C j) ∈ B ∧ G.faceid C j ∈ G.boundaryfaces ∧ G.faceid C j ∉ G.innerfaces ∧ G.cellid (G.faceid C j) 0 = (C : Int)) ∨
    (∃ E < G.nbcells, E ≠ C ∧ G.name (G.faceid C j) = 0 ∧ G.faceid C j ∈ G.innerfaces ∧ G.faceid C j ∉ G.boundaryfaces ∧
      ((G.cellid (G.faceid C j) 0 = (C : Int) ∧ G.cellid (G.faceid C j) 1 = (E : Int)) ∨
       (G.cellid (G.faceid C j) 0 = (E : Int) ∧ G.cellid (G.faceid C j) 1 = (C : Int)))) := by
  have hF := h.cG.flt C hC j hj
  have hm : C ∈ users G.faceid d1 G.nbcells (G.faceid C j) := (mem_users _ _ _ _ _).mpr ⟨hC, j, hj, rfl⟩
  have h2 := h.sub.two (G.faceid C j)
  obtain ⟨n2, n1⟩ := h.nameG _ hF
  have c0 := h.cG.cell0 _ hF
  have c1 := h.cG.cell1 _ hF
  have hnd : (users G.faceid d1 G.nbcells (G.faceid C j)).Nodup := List.nodup_range.filter _
  have hlt : ∀ E ∈ users G.faceid d1 G.nbcells (G.faceid C j), E < G.nbcells := fun E hE => ((mem_users _ _ _ _ _).mp hE).1
  generalize users G.faceid d1 G.nbcells (G.faceid C j) = us at hm h2 n2 n1 c0 c1 hnd hlt
  match us, hm, h2, n2, n1, c0, c1, hnd, hlt with
  | [a], hm, h2, n2, n1, c0, c1, hnd, hlt =>
    left
    obtain rfl : C = a := by simpa using hm
    have hB := n1 rfl
    refine ⟨hB, (h.cG.bnd.2 _).mpr ⟨hF, hB⟩, fun hi => ?_, c0⟩
    have := ((h.cG.inner.2 _).mp hi).2
    rw [this] at hB
    exact h.cG.B0 hB
  | [a, b], hm, h2, n2, n1, c0, c1, hnd, hlt =>
    right
    have hn := n2 rfl
    have c1 := c1 hn
    have hab : a ≠ b := by simpa using hnd
    have hnb : G.faceid C j ∉ G.boundaryfaces := fun hb => by
      have := ((h.cG.bnd.2 _).mp hb).2
      rw [hn] at this
      exact h.cG.B0 this
    have hi := (h.cG.inner.2 _).mpr ⟨hF, hn⟩
    rcases List.mem_cons.mp hm with e | e
    · subst e
      exact ⟨b, hlt b (by simp), fun e => hab e.symm, hn, hi, hnb, Or.inl ⟨c0, c1⟩⟩
    · obtain rfl : C = b := by simpa using e
      exact ⟨a, hlt a (by simp), hab, hn, hi, hnb, Or.inr ⟨c0, c1⟩⟩
  | _ :: _ :: _ :: _, hm, h2, n2, n1, c0, c1, hnd, hlt => simp at h2

theorem RankOf.halo_nil (h : RankOf L G d1 φ mine ext B out) : G.halofaces = [] := by
  rw [List.eq_nil_iff_forall_not_mem]
  intro f hf
  obtain ⟨h1, h2⟩ := (h.cG.halo.2 f).mp hf
  obtain ⟨C, hC, j, hj, rfl⟩ := h.cG.fsurj f h1
  rcases h.gkinds hC hj with ⟨hB, _⟩ | ⟨_, _, _, hn, _⟩
  · rw [h2] at hB; exact h.cG.B10 hB
  · rw [h2] at hn; exact absurd hn (by decide)

/-- A sum of outward face quantities over a cell is a sum over its sides. -/
theorem RankOf.outSum (h : RankOf L G d1 φ mine ext B out) (F : Fields K) (o : Int) {C : Nat} (hC : C < G.nbcells) (V W : Nat → K)
    (h0 : ∀ j < d1, G.cellid (G.faceid C j) 0 = (C : Int) → V (G.faceid C j) = W j)
    (h1 : ∀ j < d1, G.cellid (G.faceid C j) 0 ≠ (C : Int) → V (G.faceid C j) = - W j) :
    Spec.outSum (convArgs G F o) V C = ∑ j ∈ Finset.range d1, W j := by
  have hleft : ∀ f < G.nbfaces, Spec.left (convArgs G F o) f = C → ∃ j < d1, G.faceid C j = f := by
    intro f hf hl
    obtain ⟨a, _, h2, j, hj, e⟩ := h.cG.left F o hf
    obtain rfl : a = C := h2.symm.trans hl
    exact ⟨j, hj, e⟩
  have hright : ∀ f ∈ G.innerfaces, Spec.right (convArgs G F o) f = C → ∃ j < d1, G.faceid C j = f := by
    intro f hf hr
    obtain ⟨h1, h2⟩ := (h.cG.inner.2 f).mp hf
    obtain ⟨a, _, h3, j, hj, e⟩ := users_second (h.cG.name0 f h1 h2)
    have : (G.cellid f 1).toNat = C := hr
    rw [h.cG.cell1 f h1 h2, h3] at this
    obtain rfl : a = C := by simpa using this
    exact ⟨j, hj, e⟩
  unfold Spec.outSum
  have hp : (convArgs G F o).periodicboundaryfaces = [] := h.cG.per
  have hh : (convArgs G F o).halofaces = [] := h.halo_nil
  have inj := h.cG.inj C hC
  rw [hp, hh, show (convArgs G F o).innerfaces = G.innerfaces from rfl, show (convArgs G F o).boundaryfaces = G.boundaryfaces from rfl]
  rw [sumAt_sides _ h.cG.inner.1 (Spec.left (convArgs G F o)) V C d1 (G.faceid C) inj (fun f hf => hleft f ((h.cG.inner.2 f).mp hf).1),
    sumAt_sides _ h.cG.inner.1 (Spec.right (convArgs G F o)) V C d1 (G.faceid C) inj hright,
    sumAt_sides _ h.cG.bnd.1 (Spec.left (convArgs G F o)) V C d1 (G.faceid C) inj (fun f hf => hleft f ((h.cG.bnd.2 f).mp hf).1)]
  simp only [sumAt, List.filter_nil, List.map_nil, List.sum_nil, add_zero]
  rw [← Finset.sum_sub_distrib, ← Finset.sum_add_distrib]
  apply Finset.sum_congr rfl
  intro j hj
  have hj := Finset.mem_range.mp hj
  have e0 : Spec.left (convArgs G F o) (G.faceid C j) = (G.cellid (G.faceid C j) 0).toNat := rfl
  have e1 : Spec.right (convArgs G F o) (G.faceid C j) = (G.cellid (G.faceid C j) 1).toNat := rfl
  rcases h.gkinds hC hj with ⟨_, b1, b2, b3⟩ | ⟨E, hE, hne, hn, b1, b2, ⟨c0, c1⟩ | ⟨c0, c1⟩⟩
  · have x1 : (G.cellid (G.faceid C j) 0).toNat = C := by rw [b3]; simp
    simp only [e0, e1, b1, b2, x1, false_and, if_false, true_and, if_true]
    rw [h0 j hj b3]; ring
  · have x1 : (G.cellid (G.faceid C j) 0).toNat = C := by rw [c0]; simp
    have x2 : (G.cellid (G.faceid C j) 1).toNat ≠ C := by rw [c1]; simpa using hne
    simp only [e0, e1, b1, b2, x1, x2, false_and, if_false, true_and, if_true]
    rw [h0 j hj c0]; ring
  · have x1 : (G.cellid (G.faceid C j) 0).toNat ≠ C := by rw [c0]; simpa using hne
    have x2 : (G.cellid (G.faceid C j) 1).toNat = C := by rw [c1]; simp
    simp only [e0, e1, b1, b2, x1, x2, false_and, if_false, true_and, if_true]
    rw [h1 j hj (by rw [c0]; exact_mod_cast hne)]; ring

theorem RankOf.normalG_other (h : RankOf L G d1 φ mine ext B out) {C : Nat} (hC : C < G.nbcells) {j : Nat} (hj : j < d1)
    (h0 : G.cellid (G.faceid C j) 0 ≠ (C : Int)) : ∀ k < 3, G.normal (G.faceid C j) k = - out C j k := by
  rcases h.gkinds hC hj with ⟨_, b1, b2, b3⟩ | ⟨E, hE, hne, hn, b1, b2, ⟨c0, c1⟩ | ⟨c0, c1⟩⟩
  · exact absurd b3 h0
  · exact absurd c0 h0
  · exact h.normalG_neg hC hE hne hj c0

theorem RankOf.closed (h : RankOf L G d1 φ mine ext B out) {dim : Nat} (hd : d1 = dim + 1) (hs : Solid G dim out) (F : Fields K) (o : Int) {C : Nat}
    (hC : C < G.nbcells) : ClosedCell (convArgs G F o) C := by
  subst hd
  intro k hk
  rw [h.outSum F o hC (fun i => (convArgs G F o).normalf i k) (fun j => out C j k) (fun j hj h0 => h.normalG C hC j hj h0 k hk)
    (fun j hj h0 => h.normalG_other hC hj h0 k hk)]
  exact hs.closed C hC k hk

theorem RankOf.facesOK (h : RankOf L G d1 φ mine ext B out) (F : Fields K) (o : Int) (dim : Nat) : FacesOK (convArgs G F o) dim G.nbcells := by
  have hp : (convArgs G F o).periodicboundaryfaces = [] := h.cG.per
  have hh : (convArgs G F o).halofaces = [] := h.halo_nil
  have hl : ∀ f < G.nbfaces, InRange (G.cellid f 0) G.nbcells := by
    intro f hf
    obtain ⟨a, ha, e, _⟩ := users_first (h.cG.users_ne hf)
    rw [h.cG.cell0 f hf, e]
    exact ⟨by omega, by omega⟩
  refine ⟨?_, ?_, ?_, ?_, ?_, ?_⟩
  · intro f hf; exact hl f ((h.cG.inner.2 f).mp hf).1
  · intro f hf
    obtain ⟨h1, h2⟩ := (h.cG.inner.2 f).mp hf
    obtain ⟨a, ha, e, _⟩ := users_second (h.cG.name0 f h1 h2)
    show InRange (G.cellid f 1) _
    rw [h.cG.cell1 f h1 h2, e]
    exact ⟨by omega, by omega⟩
  · rw [hp]; simp
  · rw [hh]; simp
  · intro f hf; exact hl f ((h.cG.bnd.2 f).mp hf).1
  · rw [hp]; simp

/-- The faces of a cell, each once, are the faces the scheme visits for it. -/
theorem RankOf.incident (h : RankOf L G d1 φ mine ext B out) (F : Fields K) (o : Int) {C : Nat} (hC : C < G.nbcells) :
    ((List.range d1).map (G.faceid C)).Perm (incident (convArgs G F o) C) := by
  have hp : (convArgs G F o).periodicboundaryfaces = [] := h.cG.per
  have hh : (convArgs G F o).halofaces = [] := h.halo_nil
  have e0 : ∀ f, Spec.left (convArgs G F o) f = (G.cellid f 0).toNat := fun _ => rfl
  have e1 : ∀ f, Spec.right (convArgs G F o) f = (G.cellid f 1).toNat := fun _ => rfl
  have ei : (convArgs G F o).innerfaces = G.innerfaces := rfl
  have eb : (convArgs G F o).boundaryfaces = G.boundaryfaces := rfl
  unfold Spec.incident
  rw [hp, hh, ei, eb]
  simp only [List.filter_nil, List.append_nil]
  have hlr : ∀ f ∈ G.innerfaces, (G.cellid f 0).toNat = C → (G.cellid f 1).toNat ≠ C := by
    intro f hf hl
    obtain ⟨hf1, hn⟩ := (h.cG.inner.2 f).mp hf
    obtain ⟨a, ha, e, j, hj, hfe⟩ := users_first (h.cG.users_ne hf1)
    rw [h.cG.cell0 f hf1, e] at hl
    obtain rfl : a = C := by simpa using hl
    rcases h.gkinds ha hj with ⟨_, b1, b2, b3⟩ | ⟨E, hE, hne, hn, b1, b2, ⟨c0, c1⟩ | ⟨c0, c1⟩⟩
    · rw [hfe] at b2; exact absurd hf b2
    · rw [hfe] at c1; rw [c1]; simpa using hne
    · rw [hfe] at c0; rw [h.cG.cell0 f hf1, e] at c0; exact absurd (by exact_mod_cast c0.symm) hne
  rw [List.perm_ext_iff_of_nodup]
  · intro f
    simp only [List.mem_map, List.mem_range, List.mem_append, List.mem_filter, decide_eq_true_eq, e0, e1]
    constructor
    · rintro ⟨j, hj, rfl⟩
      rcases h.gkinds hC hj with ⟨_, b1, b2, b3⟩ | ⟨E, hE, hne, hn, b1, b2, ⟨c0, c1⟩ | ⟨c0, c1⟩⟩
      · right; exact ⟨b1, by rw [b3]; simp⟩
      · left; left; exact ⟨b1, by rw [c0]; simp⟩
      · left; right; exact ⟨b1, by rw [c1]; simp⟩
    · have hl : ∀ f < G.nbfaces, (G.cellid f 0).toNat = C → ∃ j < d1, G.faceid C j = f := by
        intro f hf hl
        obtain ⟨a, _, h2, j, hj, e⟩ := h.cG.left F o hf
        obtain rfl : a = C := h2.symm.trans hl
        exact ⟨j, hj, e⟩
      rintro ((⟨h1, h2⟩ | ⟨h1, h2⟩) | ⟨h1, h2⟩)
      · exact hl f ((h.cG.inner.2 f).mp h1).1 h2
      · obtain ⟨h3, h4⟩ := (h.cG.inner.2 f).mp h1
        obtain ⟨a, _, h5, j, hj, e⟩ := users_second (h.cG.name0 f h3 h4)
        rw [h.cG.cell1 f h3 h4, h5] at h2
        obtain rfl : a = C := by simpa using h2
        exact ⟨j, hj, e⟩
      · exact hl f ((h.cG.bnd.2 f).mp h1).1 h2
  · rw [List.nodup_map_iff_inj_on List.nodup_range]
    intro j hj j' hj' e
    exact h.cG.inj C hC j (List.mem_range.mp hj) j' (List.mem_range.mp hj') e
  · refine List.Nodup.append (List.Nodup.append (h.cG.inner.1.filter _) (h.cG.inner.1.filter _) ?_) (h.cG.bnd.1.filter _) ?_
    · intro f h1 h2
      simp only [List.mem_filter, decide_eq_true_eq, e0, e1] at h1 h2
      exact hlr f h1.1 h1.2 h2.2
    · intro f h1 h2
      simp only [List.mem_append, List.mem_filter, decide_eq_true_eq] at h1 h2
      have hb := ((h.cG.bnd.2 f).mp h2.1).2
      have hi : f ∈ G.innerfaces := by rcases h1 with h1 | h1 <;> exact h1.1
      rw [((h.cG.inner.2 f).mp hi).2] at hb
      exact h.cG.B0 hb

/-- The CFL rate of a cell is positive when there is some diffusion or some velocity. -/
theorem RankOf.rate_pos (h : RankOf L G d1 φ mine ext B out) {dim : Nat} (hd : d1 = dim + 1) (hs : Solid G dim out) (u v w Dxx Dyy Dzz : K)
    (hD : 0 ≤ Dxx + Dyy + Dzz) (hpos : 0 < Dxx + Dyy + Dzz ∨ u ≠ 0 ∨ v ≠ 0 ∨ (dim = 3 ∧ w ≠ 0)) (hdim : dim = 2 ∨ dim = 3) {C : Nat} (hC : C < G.nbcells) :
    0 < cflRate (fun _ => u) (fun _ => v) (fun _ => w) G.normal G.volume G.faceid dim Dxx Dyy Dzz C := by
  subst hd
  have hvp := hs.vpos C hC
  unfold cflRate
  have hsq : ∀ j < dim + 1, 0 < G.normal (G.faceid C j) 0 ^ 2 + G.normal (G.faceid C j) 1 ^ 2 + G.normal (G.faceid C j) 2 ^ 2 := by
    intro j hj
    obtain ⟨ε, hε, hn⟩ := h.normalG_pm hC hj
    rw [hn 0 (by omega), hn 1 (by omega), hn 2 (by omega)]
    have := hs.big C hC j hj
    rcases hε with rfl | rfl <;> nlinarith
  have hnn : ∀ j ∈ Finset.range (dim + 1), 0 ≤ |u * G.normal (G.faceid C j) 0 + v * G.normal (G.faceid C j) 1 + w * G.normal (G.faceid C j) 2|
      + (Dxx + Dyy + Dzz) * (G.normal (G.faceid C j) 0 ^ 2 + G.normal (G.faceid C j) 1 ^ 2 + G.normal (G.faceid C j) 2 ^ 2) / G.volume C := by
    intro j hj
    exact add_nonneg (abs_nonneg _) (div_nonneg (mul_nonneg hD (hsq j (Finset.mem_range.mp hj)).le) hvp.le)
  rcases hpos with hp | hp
  · refine Finset.sum_pos (fun j hj => ?_) ⟨0, by simp⟩
    exact add_pos_of_nonneg_of_pos (abs_nonneg _) (div_pos (mul_pos hp (hsq j (Finset.mem_range.mp hj))) hvp)
  · by_contra hle
    have hz : ∑ j ∈ Finset.range (dim + 1), (|u * G.normal (G.faceid C j) 0 + v * G.normal (G.faceid C j) 1 + w * G.normal (G.faceid C j) 2|
      + (Dxx + Dyy + Dzz) * (G.normal (G.faceid C j) 0 ^ 2 + G.normal (G.faceid C j) 1 ^ 2 + G.normal (G.faceid C j) 2 ^ 2) / G.volume C) = 0 :=
      le_antisymm (not_lt.mp hle) (Finset.sum_nonneg hnn)
    rw [Finset.sum_eq_zero_iff_of_nonneg hnn] at hz
    have hz0 : ∀ j < dim + 1, u * out C j 0 + v * out C j 1 + w * out C j 2 = 0 := by
      intro j hj
      have h1 := hz j (Finset.mem_range.mpr hj)
      have h2 : |u * G.normal (G.faceid C j) 0 + v * G.normal (G.faceid C j) 1 + w * G.normal (G.faceid C j) 2| = 0 := by
        have a := abs_nonneg (u * G.normal (G.faceid C j) 0 + v * G.normal (G.faceid C j) 1 + w * G.normal (G.faceid C j) 2)
        have b := div_nonneg (mul_nonneg hD (hsq j hj).le) hvp.le
        linarith
      rw [abs_eq_zero] at h2
      obtain ⟨ε, hε, hn⟩ := h.normalG_pm hC hj
      rw [hn 0 (by omega), hn 1 (by omega), hn 2 (by omega)] at h2
      rcases hε with rfl | rfl <;> linarith
    have hv := hs.span C hC (fun k => match k with | 0 => u | 1 => v | _ => w) hz0
    have h0 := hv 0 (by omega)
    have h1 := hv 1 (by omega)
    rcases hp with hp | hp | ⟨hd3, hp⟩
    · exact hp h0
    · exact hp h1
    · exact hp (hv 2 (by omega))

end
end Verif.Props.Par
