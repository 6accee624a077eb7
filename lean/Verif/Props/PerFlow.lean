import Verif.Props.PerUpd
import Verif.Model.RunPer

/-! Helper lemmas for the runs on meshes with periodic sides: the faces of a cell, closed cells, the CFL rate. -/
set_option linter.unusedSectionVars false
set_option linter.unusedVariables false
set_option linter.unusedSimpArgs false
namespace Verif.Props.Par
open Verif.Fvm Verif.Spec Verif.Conn Verif.Dom Verif.Geo Verif.Names Verif.MeshFile Verif.Part Verif.Comm Verif.Run Verif.Periodic Verif.Props.Per
variable {K : Type*} [Field K] [LinearOrder K] [IsStrictOrderedRing K]

/-- What the run theorems need of the Domain of a mesh with periodic sides; `p` is the partner of a periodic face. -/
structure PerOk (dim n : Nat) (D : Tables K) (out : Nat → Nat → Vec K) (p : Nat → Nat) : Prop where
  hd : dim = 2 ∨ dim = 3
  nb : D.nbcells = n
  flt : ∀ C < n, ∀ j < dim + 1, D.faceid C j < D.nbfaces
  inj : ∀ C < n, ∀ j < dim + 1, ∀ j' < dim + 1, D.faceid C j = D.faceid C j' → j = j'
  kinds : ∀ C < n, ∀ j < dim + 1,
    (D.faceid C j ∈ D.boundaryfaces ∧ D.faceid C j ∉ D.innerfaces ∧ D.faceid C j ∉ D.periodicboundaryfaces ∧ D.cellid (D.faceid C j) 0 = (C : Int)) ∨
    (D.faceid C j ∈ D.periodicboundaryfaces ∧ D.faceid C j ∉ D.innerfaces ∧ D.faceid C j ∉ D.boundaryfaces ∧ D.cellid (D.faceid C j) 0 = (C : Int)) ∨
    (∃ E < n, E ≠ C ∧ D.faceid C j ∈ D.innerfaces ∧ D.faceid C j ∉ D.boundaryfaces ∧ D.faceid C j ∉ D.periodicboundaryfaces ∧
      ((D.cellid (D.faceid C j) 0 = (C : Int) ∧ D.cellid (D.faceid C j) 1 = (E : Int)) ∨
       (D.cellid (D.faceid C j) 0 = (E : Int) ∧ D.cellid (D.faceid C j) 1 = (C : Int))))
  nodup : D.innerfaces.Nodup ∧ D.boundaryfaces.Nodup ∧ D.periodicboundaryfaces.Nodup
  mem : ∀ f, f ∈ D.innerfaces ∨ f ∈ D.boundaryfaces ∨ f ∈ D.periodicboundaryfaces → f < D.nbfaces
  left : ∀ f < D.nbfaces, ∃ C < n, ∃ j < dim + 1, D.cellid f 0 = (C : Int) ∧ D.faceid C j = f
  right : ∀ f ∈ D.innerfaces, ∃ C < n, ∃ j < dim + 1, D.cellid f 1 = (C : Int) ∧ D.faceid C j = f
  halo : D.halofaces = []
  first : ∀ C < n, ∀ j < dim + 1, D.cellid (D.faceid C j) 0 = (C : Int) → ∀ k < 3, D.normal (D.faceid C j) k = out C j k
  second : ∀ C < n, ∀ j < dim + 1, D.cellid (D.faceid C j) 0 ≠ (C : Int) → ∀ k < 3, D.normal (D.faceid C j) k = - out C j k
  wall : ∀ f ∈ D.boundaryfaces, D.name f ∈ locNames dim
  per : ∀ f ∈ D.periodicboundaryfaces, D.name f ∈ perNames dim
  pmem : ∀ f ∈ D.periodicboundaryfaces, p f ∈ D.periodicboundaryfaces
  pinvol : ∀ f ∈ D.periodicboundaryfaces, p (p f) = f
  pnormal : ∀ f ∈ D.periodicboundaryfaces, ∀ k < 3, D.normal (p f) k = - D.normal f k
  pcell : ∀ f ∈ D.periodicboundaryfaces, D.cellid f 1 = D.cellid (p f) 0
  pdir : ∀ f ∈ D.periodicboundaryfaces, perDir (D.name (p f)) = perDir (D.name f)
  solid : Solid D dim out

section
variable {m : Mesh K} {D D' : Tables K} {side : Nat → Nat → List Nat} {opn : Nat → Nat → Nat} {out : Nat → Nat → Vec K} {F : List (List Nat)}
  {nm : Nat → Int} {g : Nat → Nat} {L : Nat → K} {r : K → K}

theorem wall_locNames {dim : Nat} (hd : dim = 2 ∨ dim = 3) {x : Int} (h : x ∈ wallNames dim) : x ∈ locNames dim := by
  rcases hd with rfl | rfl
  · simp only [wallNames, wallSides, if_pos, List.map_cons, List.map_nil, List.mem_cons, List.not_mem_nil, or_false, locNames] at *
    omega
  · simp only [wallNames, wallSides, locNames, if_neg (show ¬ (3 = 2) by decide), List.map_cons, List.map_nil, List.mem_cons, List.not_mem_nil, or_false] at *
    omega

theorem wall_not_per {dim : Nat} {x : Int} (h : x ∈ wallNames dim) : x ∉ perNames dim := by
  intro h'
  unfold wallNames wallSides at h
  unfold perNames perSides at h'
  split at h <;> simp_all <;> omega

theorem wall_ne_zero {dim : Nat} {x : Int} (h : x ∈ wallNames dim ∨ x ∈ perNames dim) : x ≠ 0 ∧ x ≠ 10 := by
  unfold wallNames wallSides perNames perSides at h
  split at h <;> simp at h <;> omega

theorem perDir_partner {dim : Nat} {L : Nat → K} {f f' : Nat} (h : PartnerFaces D dim L f f') : perDir (D.name f') = perDir (D.name f) := by
  obtain ⟨_, _, t, ht, h1⟩ := h
  have : t = (0, 11, 22) ∨ t = (1, 44, 33) ∨ t = (2, 66, 55) := by
    unfold perDirs at ht; split at ht <;> simp at ht <;> tauto
  rcases this with rfl | rfl | rfl <;> rcases h1 with h1 | h1 <;> rw [h1.1, h1.2.1] <;> decide

/-- The Domain of a valid mesh after the periodic update. -/
theorem SDom.perOk (h : SDom m D side opn out F nm g) (hv : m.Valid L r) (pd : PDom m D D' L) :
    ∃ p, PerOk m.dim m.n D' out p ∧ ∀ f ∈ D.periodicboundaryfaces, PartnerFaces D m.dim L f (p f) := by
  classical
  have hex : ∀ f, ∃ f', f ∈ D.periodicboundaryfaces → PartnerFaces D m.dim L f f' := by
    intro f
    by_cases hf : f ∈ D.periodicboundaryfaces
    · obtain ⟨f', h'⟩ := h.partner_exists hv hf
      exact ⟨f', fun _ => h'⟩
    · exact ⟨0, fun h' => absurd h' hf⟩
  choose p hp using hex
  refine ⟨p, ?_, hp⟩
  obtain ⟨⟨c1, rfl⟩, hoth, hcells⟩ := pd
  have hpm : ∀ f ∈ D.periodicboundaryfaces, p f ∈ D.periodicboundaryfaces := by
    intro f hf
    obtain ⟨_, lf', t, ht, h1⟩ := hp f hf
    refine (h.per.2 _).mpr ⟨lf', ?_⟩
    obtain ⟨_, _, p1, p2, _⟩ := valid_facing hv h.dim ht
    rcases h1 with h1 | h1
    · exact perNames_iff.mpr ⟨_, p2, h1.2.1⟩
    · exact perNames_iff.mpr ⟨_, p1, h1.2.1⟩
  have hnf : ∀ f, ¬ Foreign m.dim [] g (F.getD f []) := fun f => not_foreign_nil _
  have e1 : ∀ f < D.nbfaces, f ∉ D.periodicboundaryfaces → c1 f = D.cellid f 1 := fun f lf hf => by
    have := hoth f lf hf
    simpa using this
  have hpo : ∀ f, f ∈ D.periodicboundaryfaces → f ∉ D.innerfaces ∧ f ∉ D.boundaryfaces := by
    intro f hf
    have := ((h.per.2 f).mp hf).2
    refine ⟨fun hi => ?_, fun hb => ?_⟩
    · exact (wall_ne_zero (Or.inr this)).1 ((h.built.inner.2 f).mp hi).2
    · exact wall_not_per ((h.built.bnd.2 f).mp hb).2 this
  have hk : ∀ C < m.n, ∀ j < m.dim + 1,
    (D.faceid C j ∈ D.boundaryfaces ∧ D.faceid C j ∉ D.innerfaces ∧ D.faceid C j ∉ D.periodicboundaryfaces ∧ D.cellid (D.faceid C j) 0 = (C : Int)) ∨
    (D.faceid C j ∈ D.periodicboundaryfaces ∧ D.faceid C j ∉ D.innerfaces ∧ D.faceid C j ∉ D.boundaryfaces ∧ D.cellid (D.faceid C j) 0 = (C : Int)) ∨
    (∃ E < m.n, E ≠ C ∧ D.faceid C j ∈ D.innerfaces ∧ D.faceid C j ∉ D.boundaryfaces ∧ D.faceid C j ∉ D.periodicboundaryfaces ∧
      ((D.cellid (D.faceid C j) 0 = (C : Int) ∧ c1 (D.faceid C j) = (E : Int)) ∨
       (D.cellid (D.faceid C j) 0 = (E : Int) ∧ c1 (D.faceid C j) = (C : Int)))) := by
    intro C hC j hj
    have lf := h.flt C hC j hj
    rcases h.kinds hv hC hj with ⟨hu, ho, s, hs, hon, hn⟩ | ⟨hlen, hn⟩
    · have c0 := h.cell0_one hC hj hu
      rcases List.mem_append.mp hs with hs | hs
      · left
        have hw : D.name (D.faceid C j) ∈ wallNames m.dim := by rw [hn]; exact List.mem_map.mpr ⟨s, hs, rfl⟩
        refine ⟨(h.built.bnd.2 _).mpr ⟨lf, hw⟩, fun hi => ?_, fun hp => ?_, c0⟩
        · exact (wall_ne_zero (Or.inl hw)).1 ((h.built.inner.2 _).mp hi).2
        · exact wall_not_per hw ((h.per.2 _).mp hp).2
      · right; left
        have hp : D.faceid C j ∈ D.periodicboundaryfaces := (h.per.2 _).mpr ⟨lf, perNames_iff.mpr ⟨s, hs, hn⟩⟩
        exact ⟨hp, (hpo _ hp).1, (hpo _ hp).2, c0⟩
    · right; right
      have hi := (h.built.inner.2 _).mpr ⟨lf, hn⟩
      have hnb : D.faceid C j ∉ D.boundaryfaces := fun hb => (wall_ne_zero (Or.inl ((h.built.bnd.2 _).mp hb).2)).1 hn
      have hnp : D.faceid C j ∉ D.periodicboundaryfaces := fun hp => (hpo _ hp).1 hi
      have hm : C ∈ users D.faceid (m.dim + 1) D.nbcells (D.faceid C j) := (mem_users _ _ _ _ _).mpr ⟨h.nb ▸ hC, j, hj, rfl⟩
      have c0 := h.built.cell0 _ lf
      have c1' := h.built.cell1 _ lf (hnf _)
      rw [← e1 _ lf hnp] at c1'
      have hnd : (users D.faceid (m.dim + 1) D.nbcells (D.faceid C j)).Nodup := List.nodup_range.filter _
      have hlt : ∀ E ∈ users D.faceid (m.dim + 1) D.nbcells (D.faceid C j), E < m.n := fun E hE => h.nb ▸ ((mem_users _ _ _ _ _).mp hE).1
      obtain ⟨a, b, eu⟩ := List.length_eq_two.mp hlen
      rw [eu] at hm c0 c1' hnd hlt
      have hab : a ≠ b := by simpa using hnd
      rcases List.mem_cons.mp hm with e | e
      · subst e
        exact ⟨b, hlt b (by simp), fun e => hab e.symm, hi, hnb, hnp, Or.inl ⟨c0, c1'⟩⟩
      · obtain rfl : C = b := by simpa using e
        exact ⟨a, hlt a (by simp), hab, hi, hnb, hnp, Or.inr ⟨c0, c1'⟩⟩
  refine
    { hd := h.dim, nb := h.nb, flt := h.flt, inj := h.inj, kinds := hk, nodup := ⟨h.built.inner.1, h.built.bnd.1, h.per.1⟩
      mem := ?_, left := ?_, right := ?_, halo := ?_, first := fun C hC j hj h0 => h.normal C hC j hj h0, second := ?_
      wall := fun f hf => wall_locNames h.dim ((h.built.bnd.2 f).mp hf).2
      per := fun f hf => ((h.per.2 f).mp hf).2
      pmem := hpm, pinvol := ?_, pnormal := fun f hf => h.partner_normal hv (hp f hf), pcell := ?_, pdir := fun f hf => perDir_partner (hp f hf)
      solid := ⟨h.solid.closed, h.solid.vpos, h.solid.big, h.solid.mes, h.solid.span⟩ }
  · rintro f (hf | hf | hf)
    · exact ((h.built.inner.2 f).mp hf).1
    · exact ((h.built.bnd.2 f).mp hf).1
    · exact ((h.per.2 f).mp hf).1
  · intro f lf
    obtain ⟨a, ha, e, j, hj, e2⟩ := users_first (h.users_ne lf)
    exact ⟨a, h.nb ▸ ha, j, hj, by show D.cellid f 0 = _; rw [h.built.cell0 f lf, e], e2⟩
  · intro f hf
    have lf := ((h.built.inner.2 f).mp hf).1
    obtain ⟨a, ha, e, j, hj, e2⟩ := users_first (h.users_ne lf)
    have ha := h.nb ▸ ha
    rcases hk a ha j hj with ⟨b1, b2, _⟩ | ⟨b1, b2, _⟩ | ⟨E, hE, hne, b1, b2, b3, ⟨c0, c1'⟩ | ⟨c0, c1'⟩⟩
    · rw [e2] at b2; exact absurd hf b2
    · rw [e2] at b2; exact absurd hf b2
    · rw [e2] at c0 c1'
      have hE2 : E ∈ users D.faceid (m.dim + 1) D.nbcells f := by
        have h2 : (users D.faceid (m.dim + 1) D.nbcells f).length = 2 := by
          rcases h.len lf with h1 | h2
          · exfalso
            have hne0 := h.kinds hv ha hj
            rw [e2] at hne0
            have hn := ((h.built.inner.2 f).mp hf).2
            rcases hne0 with ⟨_, _, s, hs, _, hn'⟩ | ⟨h2, _⟩
            · rw [hn] at hn'; exact (sides_pos hs).1 (by exact_mod_cast hn'.symm)
            · omega
          · exact h2
        obtain ⟨x, y, eu⟩ := List.length_eq_two.mp h2
        have c1'' := h.built.cell1 f lf (hnf _)
        rw [← e1 f lf (by rw [e2] at b3; exact b3), c1', eu] at c1''
        have : E = y := by
          have h3 : (E : Int) = (y : Int) := c1''
          exact_mod_cast h3
        rw [eu, this]; simp
      obtain ⟨hE3, j', hj', e3⟩ := (mem_users _ _ _ _ _).mp hE2
      exact ⟨E, hE, j', hj', c1', e3⟩
    · rw [e2] at c0
      rw [h.built.cell0 f lf, e] at c0
      exact absurd (by exact_mod_cast c0.symm) hne
  · show D.halofaces = []
    rw [List.eq_nil_iff_forall_not_mem]
    intro f hf
    obtain ⟨lf, hn⟩ := (h.built.halo.2 f).mp hf
    obtain ⟨C, hC, j, hj, rfl⟩ := h.fsurj f lf
    rcases h.kinds hv hC hj with ⟨_, _, s, hs, _, hn'⟩ | ⟨_, h0⟩
    · rw [hn] at hn'; exact (sides_pos hs).2 (by exact_mod_cast hn'.symm)
    · rw [hn] at h0; exact absurd h0 (by decide)
  · intro C hC j hj h0 k hk'
    have h0 : D.cellid (D.faceid C j) 0 ≠ (C : Int) := h0
    show D.normal (D.faceid C j) k = _
    rcases hk C hC j hj with ⟨_, _, _, b⟩ | ⟨_, _, _, b⟩ | ⟨E, hE, hne, b1, b2, b3, ⟨c0, c1'⟩ | ⟨c0, c1'⟩⟩
    · exact absurd b h0
    · exact absurd b h0
    · exact absurd c0 h0
    · have lf := h.flt C hC j hj
      obtain ⟨a, ha, e, j', hj', e2⟩ := users_first (h.users_ne lf)
      have ha := h.nb ▸ ha
      obtain rfl : a = E := by
        rw [h.built.cell0 _ lf, e] at c0
        exact_mod_cast c0
      have hp' : (side a j').Perm (side C j) := (h.same ha hC hj' hj).mp e2
      rw [← h.opp a hE C hC hne j' hj' j hj hp' k hk', ← h.normal a hE j' hj' (by rw [e2]; exact c0) k hk', e2]
  · intro f hf
    have h1 := hp f hf
    have h2 := hp (p f) (hpm f hf)
    exact h.partner_unique hv h2 (partnerFaces_symm h1)
  · intro f hf
    exact hcells f (p f) (hp f hf)

end

section
variable {dim n : Nat} {D : Tables K} {out : Nat → Nat → Vec K} {p : Nat → Nat}

/-- The arguments of the convective scheme with a shift. -/
abbrev pargs (D : Tables K) (F : Fields K) (o : Int) (sh : Nat → Nat → K) : ConvArgs K := { convArgs D F o with shift := sh }

theorem PerOk.outSum (h : PerOk dim n D out p) (F : Fields K) (o : Int) (sh : Nat → Nat → K) {C : Nat} (hC : C < n) (V W : Nat → K)
    (h0 : ∀ j < dim + 1, D.cellid (D.faceid C j) 0 = (C : Int) → V (D.faceid C j) = W j)
    (h1 : ∀ j < dim + 1, D.cellid (D.faceid C j) 0 ≠ (C : Int) → V (D.faceid C j) = - W j) :
    Spec.outSum (pargs D F o sh) V C = ∑ j ∈ Finset.range (dim + 1), W j := by
  have hleft : ∀ f < D.nbfaces, Spec.left (pargs D F o sh) f = C → ∃ j < dim + 1, D.faceid C j = f := by
    intro f hf hl
    obtain ⟨a, _, j, hj, e, e2⟩ := h.left f hf
    have hl : (D.cellid f 0).toNat = C := hl
    rw [e] at hl
    obtain rfl : a = C := by simpa using hl
    exact ⟨j, hj, e2⟩
  have hright : ∀ f ∈ D.innerfaces, Spec.right (pargs D F o sh) f = C → ∃ j < dim + 1, D.faceid C j = f := by
    intro f hf hl
    obtain ⟨a, _, j, hj, e, e2⟩ := h.right f hf
    have hl : (D.cellid f 1).toNat = C := hl
    rw [e] at hl
    obtain rfl : a = C := by simpa using hl
    exact ⟨j, hj, e2⟩
  unfold Spec.outSum
  have hh : (pargs D F o sh).halofaces = [] := h.halo
  have inj := h.inj C hC
  rw [hh, show (pargs D F o sh).innerfaces = D.innerfaces from rfl, show (pargs D F o sh).boundaryfaces = D.boundaryfaces from rfl,
    show (pargs D F o sh).periodicboundaryfaces = D.periodicboundaryfaces from rfl]
  rw [sumAt_sides _ h.nodup.1 (Spec.left (pargs D F o sh)) V C _ (D.faceid C) inj (fun f hf => hleft f (h.mem f (Or.inl hf))),
    sumAt_sides _ h.nodup.1 (Spec.right (pargs D F o sh)) V C _ (D.faceid C) inj hright,
    sumAt_sides _ h.nodup.2.2 (Spec.left (pargs D F o sh)) V C _ (D.faceid C) inj (fun f hf => hleft f (h.mem f (Or.inr (Or.inr hf)))),
    sumAt_sides _ h.nodup.2.1 (Spec.left (pargs D F o sh)) V C _ (D.faceid C) inj (fun f hf => hleft f (h.mem f (Or.inr (Or.inl hf))))]
  simp only [sumAt, List.filter_nil, List.map_nil, List.sum_nil, add_zero]
  rw [← Finset.sum_sub_distrib, ← Finset.sum_add_distrib, ← Finset.sum_add_distrib]
  apply Finset.sum_congr rfl
  intro j hj
  have hj := Finset.mem_range.mp hj
  have e0 : Spec.left (pargs D F o sh) (D.faceid C j) = (D.cellid (D.faceid C j) 0).toNat := rfl
  have e1 : Spec.right (pargs D F o sh) (D.faceid C j) = (D.cellid (D.faceid C j) 1).toNat := rfl
  rcases h.kinds C hC j hj with ⟨b1, b2, b4, b3⟩ | ⟨b1, b2, b4, b3⟩ | ⟨E, hE, hne, b1, b2, b4, ⟨c0, c1⟩ | ⟨c0, c1⟩⟩
  · have x1 : (D.cellid (D.faceid C j) 0).toNat = C := by rw [b3]; simp
    simp only [e0, e1, b1, b2, b4, x1, false_and, if_false, true_and, if_true]
    rw [h0 j hj b3]; ring
  · have x1 : (D.cellid (D.faceid C j) 0).toNat = C := by rw [b3]; simp
    simp only [e0, e1, b1, b2, b4, x1, false_and, if_false, true_and, if_true]
    rw [h0 j hj b3]; ring
  · have x1 : (D.cellid (D.faceid C j) 0).toNat = C := by rw [c0]; simp
    have x2 : (D.cellid (D.faceid C j) 1).toNat ≠ C := by rw [c1]; simpa using hne
    simp only [e0, e1, b1, b2, b4, x1, x2, false_and, if_false, true_and, if_true]
    rw [h0 j hj c0]; ring
  · have x1 : (D.cellid (D.faceid C j) 0).toNat ≠ C := by rw [c0]; simpa using hne
    have x2 : (D.cellid (D.faceid C j) 1).toNat = C := by rw [c1]; simp
    simp only [e0, e1, b1, b2, b4, x1, x2, false_and, if_false, true_and, if_true]
    rw [h1 j hj (by rw [c0]; exact_mod_cast hne)]; ring

theorem PerOk.closed (h : PerOk dim n D out p) (F : Fields K) (o : Int) (sh : Nat → Nat → K) {C : Nat} (hC : C < n) : ClosedCell (pargs D F o sh) C := by
  intro k hk
  rw [h.outSum F o sh hC (fun i => (pargs D F o sh).normalf i k) (fun j => out C j k) (fun j hj h0 => h.first C hC j hj h0 k hk)
    (fun j hj h0 => h.second C hC j hj h0 k hk)]
  exact h.solid.closed C (h.nb.symm ▸ hC) k hk

theorem PerOk.per_range (h : PerOk dim n D out p) {f : Nat} (hf : f ∈ D.periodicboundaryfaces) : InRange (D.cellid f 1) n := by
  rw [h.pcell f hf]
  obtain ⟨C, hC, _, _, e, _⟩ := h.left (p f) (h.mem _ (Or.inr (Or.inr (h.pmem f hf))))
  rw [e]; exact ⟨by omega, by omega⟩

theorem PerOk.facesOK (h : PerOk dim n D out p) (F : Fields K) (o : Int) (sh : Nat → Nat → K) : FacesOK (pargs D F o sh) dim n := by
  have hl : ∀ f < D.nbfaces, InRange (D.cellid f 0) n := by
    intro f hf
    obtain ⟨a, ha, _, _, e, _⟩ := h.left f hf
    rw [e]
    exact ⟨by omega, by omega⟩
  refine ⟨fun f hf => hl f (h.mem f (Or.inl hf)), ?_, fun f hf => hl f (h.mem f (Or.inr (Or.inr hf))), ?_, fun f hf => hl f (h.mem f (Or.inr (Or.inl hf))), ?_⟩
  · intro f hf
    obtain ⟨a, ha, _, _, e, _⟩ := h.right f hf
    show InRange (D.cellid f 1) _
    rw [e]
    exact ⟨by omega, by omega⟩
  · rw [show (pargs D F o sh).halofaces = [] from h.halo]; simp
  · intro f hf
    have hn : D.name f ∈ perNames dim := h.per f hf
    show D.name f = 11 ∨ D.name f = 22 ∨ D.name f = 33 ∨ D.name f = 44 ∨ (dim = 3 ∧ (D.name f = 55 ∨ D.name f = 66))
    rcases h.hd with rfl | rfl <;> simp [perNames, perSides] at hn <;> tauto

/-- The faces of a cell, each once, are the faces the scheme visits for it. -/
theorem PerOk.incident (h : PerOk dim n D out p) (F : Fields K) (o : Int) (sh : Nat → Nat → K) {C : Nat} (hC : C < n) :
    ((List.range (dim + 1)).map (D.faceid C)).Perm (incident (pargs D F o sh) C) := by
  have hh : (pargs D F o sh).halofaces = [] := h.halo
  have e0 : ∀ f, Spec.left (pargs D F o sh) f = (D.cellid f 0).toNat := fun _ => rfl
  have e1 : ∀ f, Spec.right (pargs D F o sh) f = (D.cellid f 1).toNat := fun _ => rfl
  have ei : (pargs D F o sh).innerfaces = D.innerfaces := rfl
  have eb : (pargs D F o sh).boundaryfaces = D.boundaryfaces := rfl
  have ep : (pargs D F o sh).periodicboundaryfaces = D.periodicboundaryfaces := rfl
  have hl : ∀ f < D.nbfaces, (D.cellid f 0).toNat = C → ∃ j < dim + 1, D.faceid C j = f := by
    intro f hf hl
    obtain ⟨a, _, j, hj, e, e2⟩ := h.left f hf
    rw [e] at hl
    obtain rfl : a = C := by simpa using hl
    exact ⟨j, hj, e2⟩
  unfold Spec.incident
  rw [hh, ei, eb, ep]
  simp only [List.filter_nil, List.append_nil]
  have hlr : ∀ f ∈ D.innerfaces, (D.cellid f 0).toNat = C → (D.cellid f 1).toNat ≠ C := by
    intro f hf hl'
    obtain ⟨j, hj, rfl⟩ := hl f (h.mem f (Or.inl hf)) hl'
    rcases h.kinds C hC j hj with ⟨b1, b2, b4, b3⟩ | ⟨b1, b2, b4, b3⟩ | ⟨E, hE, hne, b1, b2, b4, ⟨c0, c1⟩ | ⟨c0, c1⟩⟩
    · exact absurd hf b2
    · exact absurd hf b2
    · rw [c1]; simpa using hne
    · rw [c0] at hl'; exact absurd (by simpa using hl') hne
  have dip : ∀ f, f ∈ D.innerfaces → f ∈ D.periodicboundaryfaces → (D.cellid f 0).toNat = C → False := by
    intro f h1 h2 h3
    obtain ⟨j, hj, rfl⟩ := hl f (h.mem f (Or.inl h1)) h3
    rcases h.kinds C hC j hj with ⟨b1, b2, b4, b3⟩ | ⟨b1, b2, b4, b3⟩ | ⟨E, hE, hne, b1, b2, b4, _⟩
    · exact b2 h1
    · exact b2 h1
    · exact b4 h2
  have dib : ∀ f, f ∈ D.boundaryfaces → f ∈ D.innerfaces ∨ f ∈ D.periodicboundaryfaces → (D.cellid f 0).toNat = C → False := by
    intro f h1 h2 h3
    obtain ⟨j, hj, rfl⟩ := hl f (h.mem f (Or.inr (Or.inl h1))) h3
    rcases h.kinds C hC j hj with ⟨b1, b2, b4, b3⟩ | ⟨b1, b2, b4, b3⟩ | ⟨E, hE, hne, b1, b2, b4, _⟩
    · rcases h2 with h2 | h2
      · exact b2 h2
      · exact b4 h2
    · exact b4 h1
    · exact b2 h1
  rw [List.perm_ext_iff_of_nodup]
  · intro f
    simp only [List.mem_map, List.mem_range, List.mem_append, List.mem_filter, decide_eq_true_eq, e0, e1]
    constructor
    · rintro ⟨j, hj, rfl⟩
      rcases h.kinds C hC j hj with ⟨b1, b2, b4, b3⟩ | ⟨b1, b2, b4, b3⟩ | ⟨E, hE, hne, b1, b2, b4, ⟨c0, c1⟩ | ⟨c0, c1⟩⟩
      · right; exact ⟨b1, by rw [b3]; simp⟩
      · left; right; exact ⟨b1, by rw [b3]; simp⟩
      · left; left; left; exact ⟨b1, by rw [c0]; simp⟩
      · left; left; right; exact ⟨b1, by rw [c1]; simp⟩
    · rintro (((⟨h1, h2⟩ | ⟨h1, h2⟩) | ⟨h1, h2⟩) | ⟨h1, h2⟩)
      · exact hl f (h.mem f (Or.inl h1)) h2
      · obtain ⟨a, _, j, hj, e, e2⟩ := h.right f h1
        rw [e] at h2
        obtain rfl : a = C := by simpa using h2
        exact ⟨j, hj, e2⟩
      · exact hl f (h.mem f (Or.inr (Or.inr h1))) h2
      · exact hl f (h.mem f (Or.inr (Or.inl h1))) h2
  · rw [List.nodup_map_iff_inj_on List.nodup_range]
    intro j hj j' hj' e
    exact h.inj C hC j (List.mem_range.mp hj) j' (List.mem_range.mp hj') e
  · have hri : ∀ f ∈ D.innerfaces, (D.cellid f 1).toNat = C → ∃ j < dim + 1, D.faceid C j = f := by
      intro f hf h2
      obtain ⟨a, _, j, hj, e, e2⟩ := h.right f hf
      rw [e] at h2
      obtain rfl : a = C := by simpa using h2
      exact ⟨j, hj, e2⟩
    have excl : ∀ f ∈ D.innerfaces, f ∉ D.boundaryfaces ∧ f ∉ D.periodicboundaryfaces := by
      intro f hf
      obtain ⟨a, ha, j, hj, _, rfl⟩ := h.left f (h.mem f (Or.inl hf))
      rcases h.kinds a ha j hj with ⟨b1, b2, b4, b3⟩ | ⟨b1, b2, b4, b3⟩ | ⟨E, hE, hne, b1, b2, b4, _⟩
      · exact absurd hf b2
      · exact absurd hf b2
      · exact ⟨b2, b4⟩
    refine List.Nodup.append (List.Nodup.append (List.Nodup.append (h.nodup.1.filter _) (h.nodup.1.filter _) ?_) (h.nodup.2.2.filter _) ?_) (h.nodup.2.1.filter _) ?_
    · intro f h1 h2
      simp only [List.mem_filter, decide_eq_true_eq, e0, e1] at h1 h2
      exact hlr f h1.1 h1.2 h2.2
    · intro f h1 h2
      simp only [List.mem_append, List.mem_filter, decide_eq_true_eq] at h1 h2
      have hi : f ∈ D.innerfaces := by rcases h1 with h1 | h1 <;> exact h1.1
      exact (excl f hi).2 h2.1
    · intro f h1 h2
      simp only [List.mem_append, List.mem_filter, decide_eq_true_eq, e0, e1] at h1 h2
      rcases h1 with (h1 | h1) | h1
      · exact (excl f h1.1).1 h2.1
      · exact (excl f h1.1).1 h2.1
      · exact dib f h2.1 (Or.inr h1.1) h2.2

theorem PerOk.normal_pm (h : PerOk dim n D out p) {C : Nat} (hC : C < n) {j : Nat} (hj : j < dim + 1) :
    ∃ ε : K, (ε = 1 ∨ ε = -1) ∧ ∀ k < 3, D.normal (D.faceid C j) k = ε * out C j k := by
  by_cases h0 : D.cellid (D.faceid C j) 0 = (C : Int)
  · exact ⟨1, Or.inl rfl, fun k hk => by rw [h.first C hC j hj h0 k hk, one_mul]⟩
  · exact ⟨-1, Or.inr rfl, fun k hk => by rw [h.second C hC j hj h0 k hk]; ring⟩

/-- The CFL rate of a cell is positive when there is some diffusion or some velocity. -/
theorem PerOk.rate_pos (h : PerOk dim n D out p) (u v w Dxx Dyy Dzz : K)
    (hD : 0 ≤ Dxx + Dyy + Dzz) (hpos : 0 < Dxx + Dyy + Dzz ∨ u ≠ 0 ∨ v ≠ 0 ∨ (dim = 3 ∧ w ≠ 0)) {C : Nat} (hC : C < n) :
    0 < cflRate (fun _ => u) (fun _ => v) (fun _ => w) D.normal D.volume D.faceid dim Dxx Dyy Dzz C := by
  have hC' : C < D.nbcells := h.nb.symm ▸ hC
  have hdim := h.hd
  have hs := h.solid
  have hvp := hs.vpos C hC'
  unfold cflRate
  have hsq : ∀ j < dim + 1, 0 < D.normal (D.faceid C j) 0 ^ 2 + D.normal (D.faceid C j) 1 ^ 2 + D.normal (D.faceid C j) 2 ^ 2 := by
    intro j hj
    obtain ⟨ε, hε, hn⟩ := h.normal_pm hC hj
    rw [hn 0 (by omega), hn 1 (by omega), hn 2 (by omega)]
    have := hs.big C hC' j hj
    rcases hε with rfl | rfl <;> nlinarith
  have hnn : ∀ j ∈ Finset.range (dim + 1), 0 ≤ |u * D.normal (D.faceid C j) 0 + v * D.normal (D.faceid C j) 1 + w * D.normal (D.faceid C j) 2|
      + (Dxx + Dyy + Dzz) * (D.normal (D.faceid C j) 0 ^ 2 + D.normal (D.faceid C j) 1 ^ 2 + D.normal (D.faceid C j) 2 ^ 2) / D.volume C := by
    intro j hj
    exact add_nonneg (abs_nonneg _) (div_nonneg (mul_nonneg hD (hsq j (Finset.mem_range.mp hj)).le) hvp.le)
  rcases hpos with hp | hp
  · refine Finset.sum_pos (fun j hj => ?_) ⟨0, by simp⟩
    exact add_pos_of_nonneg_of_pos (abs_nonneg _) (div_pos (mul_pos hp (hsq j (Finset.mem_range.mp hj))) hvp)
  · by_contra hle
    have hz := le_antisymm (not_lt.mp hle) (Finset.sum_nonneg hnn)
    rw [Finset.sum_eq_zero_iff_of_nonneg hnn] at hz
    have hz0 : ∀ j < dim + 1, u * out C j 0 + v * out C j 1 + w * out C j 2 = 0 := by
      intro j hj
      have h1 := hz j (Finset.mem_range.mpr hj)
      have h2 : |u * D.normal (D.faceid C j) 0 + v * D.normal (D.faceid C j) 1 + w * D.normal (D.faceid C j) 2| = 0 := by
        have a := abs_nonneg (u * D.normal (D.faceid C j) 0 + v * D.normal (D.faceid C j) 1 + w * D.normal (D.faceid C j) 2)
        have b := div_nonneg (mul_nonneg hD (hsq j hj).le) hvp.le
        linarith
      rw [abs_eq_zero] at h2
      obtain ⟨ε, hε, hn⟩ := h.normal_pm hC hj
      rw [hn 0 (by omega), hn 1 (by omega), hn 2 (by omega)] at h2
      rcases hε with rfl | rfl <;> linarith
    have hv := hs.span C hC' (fun k => match k with | 0 => u | 1 => v | _ => w) hz0
    have h0 := hv 0 (by omega)
    have h1 := hv 1 (by omega)
    rcases hp with hp | hp | ⟨hd3, hp⟩
    · exact hp h0
    · exact hp h1
    · exact hp (hv 2 (by omega))

end
end Verif.Props.Par
