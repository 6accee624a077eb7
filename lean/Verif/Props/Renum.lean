import Verif.Props.ParRun

/-! Helper lemmas for C124: two numberings of the same mesh, and the serial run on each. -/
set_option linter.unusedSectionVars false
set_option linter.unusedVariables false
set_option linter.unusedSimpArgs false
namespace Verif.Props.Par
open Verif.Fvm Verif.Spec Verif.Conn Verif.Dom Verif.Geo Verif.Names Verif.MeshFile Verif.Part Verif.Comm Verif.Run
variable {K : Type*} [Field K] [LinearOrder K] [IsStrictOrderedRing K]

/-- The whole mesh as its own part. -/
theorem RankOf.whole {L G : Tables K} {d1 : Nat} {φ : Nat → Nat} {mine : Nat → Prop} {ext : List (List Nat)} {B : List Int} {out : Nat → Nat → Vec K}
    (h : RankOf L G d1 φ mine ext B out) : RankOf G G d1 id (fun _ => True) [] B out where
  sub := ⟨fun c hc => ⟨hc, trivial⟩, fun c c' h _ => h, fun C hC _ => ⟨C, hC, rfl⟩, fun _ _ _ _ _ _ _ _ => Iff.rfl, h.sub.two⟩
  cL := h.cG
  cG := h.cG
  center := fun _ _ _ _ => rfl
  fcenter := fun _ _ _ _ _ _ => rfl
  normalL := h.normalG
  normalG := h.normalG
  opp := h.opp
  nameG := h.nameG
  nameL := fun c hc j hj => ⟨fun ⟨_, _, hE, _⟩ => absurd trivial hE, fun _ => ⟨(h.nameG _ (h.cG.flt c hc j hj)).1, fun _ => rfl⟩⟩
  centvol := fun k row E h => by simp at h

/-- Cell `c` of the numbering `L` is cell `σ c` of the numbering `G` of the same mesh. -/
structure Renum (L G : Tables K) (d1 : Nat) (σ : Nat → Nat) (B : List Int) (outL outG : Nat → Nat → Vec K) : Prop where
  RL : RankOf L L d1 id (fun _ => True) [] B outL
  RG : RankOf G G d1 id (fun _ => True) [] B outG
  n : L.nbcells = G.nbcells
  lt : ∀ c < L.nbcells, σ c < G.nbcells
  inj : ∀ c < L.nbcells, ∀ c' < L.nbcells, σ c = σ c' → c = c'
  same : ∀ c < L.nbcells, ∀ c' < L.nbcells, ∀ j < d1, ∀ j' < d1, (L.faceid c j = L.faceid c' j' ↔ G.faceid (σ c) j = G.faceid (σ c') j')
  center : ∀ c < L.nbcells, ∀ k < 3, L.center c k = G.center (σ c) k
  fcenter : ∀ c < L.nbcells, ∀ j < d1, ∀ k < 3, L.fcenter (L.faceid c j) k = G.fcenter (G.faceid (σ c) j) k
  out : ∀ c < L.nbcells, ∀ j < d1, ∀ k < 3, outL c j k = outG (σ c) j k
  volume : ∀ c < L.nbcells, L.volume c = G.volume (σ c)
  mesure : ∀ c < L.nbcells, ∀ j < d1, L.mesure (L.faceid c j) = G.mesure (G.faceid (σ c) j)
  name : ∀ c < L.nbcells, ∀ j < d1, (users L.faceid d1 L.nbcells (L.faceid c j)).length = 1 →
    (users G.faceid d1 G.nbcells (G.faceid (σ c) j)).length = 1 → L.name (L.faceid c j) = G.name (G.faceid (σ c) j)

section
variable {L G : Tables K} {d1 : Nat} {σ : Nat → Nat} {B : List Int} {outL outG : Nat → Nat → Vec K}

theorem Renum.surj (h : Renum L G d1 σ B outL outG) {C : Nat} (hC : C < G.nbcells) : ∃ c < L.nbcells, σ c = C := by
  have hm : Set.MapsTo σ (Finset.range L.nbcells : Set Nat) (Finset.range L.nbcells : Set Nat) := by
    intro c hc
    simp only [Finset.coe_range, Set.mem_Iio] at hc ⊢
    rw [h.n]; exact h.lt c hc
  have hi : Set.InjOn σ (Finset.range L.nbcells : Set Nat) := by
    intro c hc c' hc' e
    simp only [Finset.coe_range, Set.mem_Iio] at hc hc'
    exact h.inj c hc c' hc' e
  obtain ⟨c, hc, e⟩ := (Finset.surjOn_of_injOn_of_card_le σ hm hi le_rfl) (show C ∈ (Finset.range L.nbcells : Set Nat) by
    simp only [Finset.coe_range, Set.mem_Iio]; rw [h.n]; exact hC)
  simp only [Finset.coe_range, Set.mem_Iio] at hc
  exact ⟨c, hc, e⟩

/-- The two kinds of sides of a cell of the whole mesh. -/
theorem RankOf.sides {D : Tables K} {out : Nat → Nat → Vec K} (h : RankOf D D d1 id (fun _ => True) [] B out) {c j : Nat} (hc : c < D.nbcells)
    (hj : j < d1) :
    (users D.faceid d1 D.nbcells (D.faceid c j) = [c] ∧ D.name (D.faceid c j) ∈ B ∧ D.faceid c j ∈ D.boundaryfaces ∧ D.faceid c j ∉ D.innerfaces ∧
      D.faceid c j ∉ D.halofaces ∧ D.cellid (D.faceid c j) 0 = (c : Int) ∧ ∀ k < 3, D.normal (D.faceid c j) k = out c j k) ∨
    (∃ e < D.nbcells, e ≠ c ∧ (∃ j' < d1, D.faceid e j' = D.faceid c j) ∧ D.name (D.faceid c j) = 0 ∧
      D.faceid c j ∈ D.innerfaces ∧ D.faceid c j ∉ D.boundaryfaces ∧ D.faceid c j ∉ D.halofaces ∧
      ((users D.faceid d1 D.nbcells (D.faceid c j) = [c, e] ∧ D.cellid (D.faceid c j) 0 = (c : Int) ∧ D.cellid (D.faceid c j) 1 = (e : Int) ∧
          ∀ k < 3, D.normal (D.faceid c j) k = out c j k) ∨
        (users D.faceid d1 D.nbcells (D.faceid c j) = [e, c] ∧ D.cellid (D.faceid c j) 0 = (e : Int) ∧ D.cellid (D.faceid c j) 1 = (c : Int) ∧
          ∀ k < 3, D.normal (D.faceid c j) k = - out c j k))) := by
  have hf := h.cG.flt c hc j hj
  obtain ⟨n2, n1⟩ := h.nameG _ hf
  rcases h.sub.cases hc hj with ⟨uG, uL⟩ | ⟨e, he, hne, ⟨j', hj', hfe, hFe⟩, hu⟩ | ⟨E, hE, hmE, _⟩
  · left
    have hn := n1 (by rw [uL]; rfl)
    have h0 : D.cellid (D.faceid c j) 0 = (c : Int) := by rw [h.cG.cell0 _ hf, uL]; simp [twoOf]
    refine ⟨uL, hn, (h.cG.bnd.2 _).mpr ⟨hf, hn⟩, fun hm => ?_, fun hm => ?_, h0, fun k hk => h.normalG c hc j hj h0 k hk⟩
    · have := ((h.cG.inner.2 _).mp hm).2; rw [this] at hn; exact h.cG.B0 hn
    · have := ((h.cG.halo.2 _).mp hm).2; rw [this] at hn; exact h.cG.B10 hn
  · right
    have hu' : users D.faceid d1 D.nbcells (D.faceid c j) = [c, e] ∨ users D.faceid d1 D.nbcells (D.faceid c j) = [e, c] := by
      rcases hu with ⟨_, u⟩ | ⟨_, u⟩
      · exact Or.inl u
      · exact Or.inr u
    have hn := n2 (by rcases hu' with u | u <;> rw [u] <;> rfl)
    refine ⟨e, he, hne, ⟨j', hj', hfe⟩, hn, (h.cG.inner.2 _).mpr ⟨hf, hn⟩, fun hm => ?_, fun hm => ?_, ?_⟩
    · have := ((h.cG.bnd.2 _).mp hm).2; rw [hn] at this; exact h.cG.B0 this
    · have := ((h.cG.halo.2 _).mp hm).2; rw [hn] at this; exact absurd this (by decide)
    · rcases hu' with u | u
      · left
        have h0 : D.cellid (D.faceid c j) 0 = (c : Int) := by rw [h.cG.cell0 _ hf, u]; simp [twoOf]
        have h1 : D.cellid (D.faceid c j) 1 = (e : Int) := by rw [h.cG.cell1 _ hf hn, u]; simp [twoOf]
        exact ⟨u, h0, h1, fun k hk => h.normalG c hc j hj h0 k hk⟩
      · right
        have h0 : D.cellid (D.faceid c j) 0 = (e : Int) := by rw [h.cG.cell0 _ hf, u]; simp [twoOf]
        have h1 : D.cellid (D.faceid c j) 1 = (c : Int) := by rw [h.cG.cell1 _ hf hn, u]; simp [twoOf]
        refine ⟨u, h0, h1, fun k hk => ?_⟩
        have h0' := h0
        rw [← hfe] at h0' ⊢
        rw [h.normalG e he j' hj' h0' k hk]
        exact h.opp e he c hc hne j' hj' j hj hfe k hk
  · exact absurd trivial hmE

/-- The sides of a cell in the two numberings. -/
theorem Renum.sides (h : Renum L G d1 σ B outL outG) {c j : Nat} (hc : c < L.nbcells) (hj : j < d1) :
    (L.faceid c j ∈ L.boundaryfaces ∧ L.faceid c j ∉ L.innerfaces ∧ L.faceid c j ∉ L.halofaces ∧
      G.faceid (σ c) j ∈ G.boundaryfaces ∧ G.faceid (σ c) j ∉ G.innerfaces ∧ G.faceid (σ c) j ∉ G.halofaces ∧
      L.name (L.faceid c j) ∈ B ∧ L.name (L.faceid c j) = G.name (G.faceid (σ c) j) ∧
      L.cellid (L.faceid c j) 0 = (c : Int) ∧ G.cellid (G.faceid (σ c) j) 0 = (σ c : Int) ∧
      ∀ k < 3, L.normal (L.faceid c j) k = G.normal (G.faceid (σ c) j) k) ∨
    (∃ e < L.nbcells, e ≠ c ∧ σ e ≠ σ c ∧
      L.faceid c j ∈ L.innerfaces ∧ L.faceid c j ∉ L.boundaryfaces ∧ L.faceid c j ∉ L.halofaces ∧
      G.faceid (σ c) j ∈ G.innerfaces ∧ G.faceid (σ c) j ∉ G.boundaryfaces ∧ G.faceid (σ c) j ∉ G.halofaces ∧
      ((L.cellid (L.faceid c j) 0 = (c : Int) ∧ L.cellid (L.faceid c j) 1 = (e : Int) ∧ ∀ k < 3, L.normal (L.faceid c j) k = outL c j k) ∨
        (L.cellid (L.faceid c j) 0 = (e : Int) ∧ L.cellid (L.faceid c j) 1 = (c : Int) ∧ ∀ k < 3, L.normal (L.faceid c j) k = - outL c j k)) ∧
      ((G.cellid (G.faceid (σ c) j) 0 = (σ c : Int) ∧ G.cellid (G.faceid (σ c) j) 1 = (σ e : Int) ∧
          ∀ k < 3, G.normal (G.faceid (σ c) j) k = outL c j k) ∨
        (G.cellid (G.faceid (σ c) j) 0 = (σ e : Int) ∧ G.cellid (G.faceid (σ c) j) 1 = (σ c : Int) ∧
          ∀ k < 3, G.normal (G.faceid (σ c) j) k = - outL c j k))) := by
  have hC := h.lt c hc
  rcases h.RL.sides hc hj with ⟨uL, a1, a2, a3, a4, a5, a6⟩ | ⟨e, he, hne, ⟨j', hj', hfe⟩, a1, a2, a3, a4, a5⟩ <;>
  rcases h.RG.sides hC hj with ⟨uG, b1, b2, b3, b4, b5, b6⟩ | ⟨E, hE, hNE, ⟨J', hJ', hFE⟩, b1, b2, b3, b4, b5⟩
  · left
    refine ⟨a2, a3, a4, b2, b3, b4, a1, h.name c hc j hj (by rw [uL]; rfl) (by rw [uG]; rfl), a5, b5, fun k hk => ?_⟩
    rw [a6 k hk, b6 k hk, h.out c hc j hj k hk]
  · exfalso
    obtain ⟨e, he, rfl⟩ := h.surj hE
    have := (h.same e he c hc J' hJ' j hj).mpr hFE
    have hm : e ∈ users L.faceid d1 L.nbcells (L.faceid c j) := (mem_users _ _ _ _ _).mpr ⟨he, J', hJ', this⟩
    rw [uL, List.mem_singleton] at hm
    exact hNE (by rw [hm])
  · exfalso
    have := (h.same e he c hc j' hj' j hj).mp hfe
    have hm : σ e ∈ users G.faceid d1 G.nbcells (G.faceid (σ c) j) := (mem_users _ _ _ _ _).mpr ⟨h.lt e he, j', hj', this⟩
    rw [uG, List.mem_singleton] at hm
    exact hne (h.inj e he c hc hm)
  · right
    have hs := (h.same e he c hc j' hj' j hj).mp hfe
    have hm : σ e ∈ users G.faceid d1 G.nbcells (G.faceid (σ c) j) := (mem_users _ _ _ _ _).mpr ⟨h.lt e he, j', hj', hs⟩
    have hnn : σ e ≠ σ c := fun x => hne (h.inj e he c hc x)
    have hEe : E = σ e := by
      rcases b5 with ⟨u, _⟩ | ⟨u, _⟩ <;> rw [u] at hm <;> simp [hnn] at hm <;> exact hm.symm
    subst hEe
    refine ⟨e, he, hne, hnn, a2, a3, a4, b2, b3, b4, ?_, ?_⟩
    · rcases a5 with ⟨_, x, y, z⟩ | ⟨_, x, y, z⟩
      · exact Or.inl ⟨x, y, z⟩
      · exact Or.inr ⟨x, y, z⟩
    · rcases b5 with ⟨_, x, y, z⟩ | ⟨_, x, y, z⟩
      · exact Or.inl ⟨x, y, fun k hk => by rw [z k hk, h.out c hc j hj k hk]⟩
      · exact Or.inr ⟨x, y, fun k hk => by rw [z k hk, h.out c hc j hj k hk]⟩

theorem Renum.normal_pm (h : Renum L G d1 σ B outL outG) {c : Nat} (hc : c < L.nbcells) {j : Nat} (hj : j < d1) :
    ∃ ε : K, (ε = 1 ∨ ε = -1) ∧ ∀ k < 3, L.normal (L.faceid c j) k = ε * G.normal (G.faceid (σ c) j) k := by
  rcases h.sides hc hj with ⟨_, _, _, _, _, _, _, _, _, _, hn⟩ | ⟨e, _, _, _, _, _, _, _, _, _, s, t⟩
  · exact ⟨1, Or.inl rfl, fun k hk => by rw [hn k hk, one_mul]⟩
  · rcases s with ⟨_, _, s⟩ | ⟨_, _, s⟩ <;> rcases t with ⟨_, _, t⟩ | ⟨_, _, t⟩
    · exact ⟨1, Or.inl rfl, fun k hk => by rw [s k hk, t k hk, one_mul]⟩
    · exact ⟨-1, Or.inr rfl, fun k hk => by rw [s k hk, t k hk]; ring⟩
    · exact ⟨-1, Or.inr rfl, fun k hk => by rw [s k hk, t k hk]; ring⟩
    · exact ⟨1, Or.inl rfl, fun k hk => by rw [s k hk, t k hk, one_mul]⟩

/-- The arrays of the two numberings. -/
structure FieldsRenum (L G : Tables K) (d1 : Nat) (σ : Nat → Nat) (FL FG : Fields K) : Prop where
  cell : ∀ c < L.nbcells, FL.w c = FG.w (σ c) ∧ FL.psi c = FG.psi (σ c) ∧ FL.wx c = FG.wx (σ c) ∧ FL.wy c = FG.wy (σ c) ∧
    FL.wz c = FG.wz (σ c)
  face : ∀ c < L.nbcells, ∀ j < d1, FL.u_face (L.faceid c j) = FG.u_face (G.faceid (σ c) j) ∧
    FL.v_face (L.faceid c j) = FG.v_face (G.faceid (σ c) j) ∧ FL.w_face (L.faceid c j) = FG.w_face (G.faceid (σ c) j)
  ghost : ∀ c < L.nbcells, ∀ j < d1, L.faceid c j ∈ L.boundaryfaces → FL.ghost (L.faceid c j) = FG.ghost (G.faceid (σ c) j)

set_option maxHeartbeats 1000000 in
theorem Renum.balance (h : Renum L G d1 σ B outL outG) {FL FG : Fields K} (hF : FieldsRenum L G d1 σ FL FG) (o : Int) (dim : Nat) (hd : dim ≤ 3)
    (c : Nat) (hc : c < L.nbcells) : balance (convArgs L FL o) dim c = balance (convArgs G FG o) dim (σ c) := by
  have hC := h.lt c hc
  have ho : (convArgs L FL o).order = (convArgs G FG o).order := rfl
  rw [h.RL.cG.balance FL o dim c hc, h.RG.cG.balance FG o dim (σ c) hC]
  apply Finset.sum_congr rfl
  intro j hj
  rw [Finset.mem_range] at hj
  have cm : ∀ e < L.nbcells, CellMatch (convArgs L FL o) (convArgs G FG o) e (σ e) := by
    intro e he
    obtain ⟨a1, a2, a3, a4, a5⟩ := hF.cell e he
    exact ⟨a1, a2, a3, a4, a5, h.center e he⟩
  have fm : FaceMatch (convArgs L FL o) (convArgs G FG o) (L.faceid c j) (G.faceid (σ c) j) := by
    obtain ⟨a1, a2, a3⟩ := hF.face c hc j hj
    exact ⟨a1, a2, a3, h.fcenter c hc j hj⟩
  have toL : ∀ {a : Nat}, L.cellid (L.faceid c j) 0 = (a : Int) → Spec.left (convArgs L FL o) (L.faceid c j) = a := by
    intro a e; show (L.cellid _ 0).toNat = a; rw [e]; simp
  have toG : ∀ {a : Nat}, G.cellid (G.faceid (σ c) j) 0 = (a : Int) → Spec.left (convArgs G FG o) (G.faceid (σ c) j) = a := by
    intro a e; show (G.cellid _ 0).toNat = a; rw [e]; simp
  have toL1 : ∀ {a : Nat}, L.cellid (L.faceid c j) 1 = (a : Int) → Spec.right (convArgs L FL o) (L.faceid c j) = a := by
    intro a e; show (L.cellid _ 1).toNat = a; rw [e]; simp
  have toG1 : ∀ {a : Nat}, G.cellid (G.faceid (σ c) j) 1 = (a : Int) → Spec.right (convArgs G FG o) (G.faceid (σ c) j) = a := by
    intro a e; show (G.cellid _ 1).toNat = a; rw [e]; simp
  rcases h.sides hc hj with ⟨a1, a2, a3, b1, b2, b3, nB, nE, c0, C0, hn⟩ | ⟨e, he, hne, hNE, a1, a2, a3, b1, b2, b3, sL, sG⟩
  · exact sideTerm_match _ _ ho dim c (σ c) _ _ hd (cm c hc) fm
      (SideMatch.boundary a2 a3 a1 b2 b3 b1 (toL c0) (toG C0) (hF.ghost c hc j hj a1) hn)
  · rcases sL with ⟨s0, s1, s2⟩ | ⟨s0, s1, s2⟩ <;> rcases sG with ⟨t0, t1, t2⟩ | ⟨t0, t1, t2⟩
    · exact sideTerm_match _ _ ho dim c (σ c) _ _ hd (cm c hc) fm
        (SideMatch.inner a1 a3 a2 b1 b3 b2 e (σ e) hne hNE (cm e he) (Or.inl ⟨toL s0, toL1 s1, toG t0, toG1 t1⟩)
          (fun k hk => (s2 k hk).trans (t2 k hk).symm))
    · have h1 : L.faceid c j ∈ (convArgs L FL o).innerfaces := a1
      have h2 : L.faceid c j ∉ (convArgs L FL o).halofaces := a3
      have h3 : L.faceid c j ∉ (convArgs L FL o).boundaryfaces := a2
      have g1 : G.faceid (σ c) j ∈ (convArgs G FG o).innerfaces := b1
      have g2 : G.faceid (σ c) j ∉ (convArgs G FG o).halofaces := b3
      have g3 : G.faceid (σ c) j ∉ (convArgs G FG o).boundaryfaces := b2
      have l0 := toL s0; have l1 := toL1 s1; have m0 := toG t0; have m1 := toG1 t1
      have hn : ∀ k < 3, (convArgs L FL o).normalf (L.faceid c j) k = - (convArgs G FG o).normalf (G.faceid (σ c) j) k := by
        intro k hk
        show L.normal _ k = - G.normal _ k
        rw [s2 k hk, t2 k hk, neg_neg]
      simp only [sideTerm, h1, h2, h3, g1, g2, g3, l0, l1, m0, m1, hne, hNE, false_and, if_false, true_and, if_true]
      rw [innerFlux, innerFlux, vn_opp fm hn, l0, l1, m0, m1, cellAtFace_match ho hd (cm c hc) fm, cellAtFace_match ho hd (cm e he) fm, upwind_opp]
      ring
    · have h1 : L.faceid c j ∈ (convArgs L FL o).innerfaces := a1
      have h2 : L.faceid c j ∉ (convArgs L FL o).halofaces := a3
      have h3 : L.faceid c j ∉ (convArgs L FL o).boundaryfaces := a2
      have g1 : G.faceid (σ c) j ∈ (convArgs G FG o).innerfaces := b1
      have g2 : G.faceid (σ c) j ∉ (convArgs G FG o).halofaces := b3
      have g3 : G.faceid (σ c) j ∉ (convArgs G FG o).boundaryfaces := b2
      have l0 := toL s0; have l1 := toL1 s1; have m0 := toG t0; have m1 := toG1 t1
      have hn : ∀ k < 3, (convArgs L FL o).normalf (L.faceid c j) k = - (convArgs G FG o).normalf (G.faceid (σ c) j) k := by
        intro k hk
        show L.normal _ k = - G.normal _ k
        rw [s2 k hk, t2 k hk]
      simp only [sideTerm, h1, h2, h3, g1, g2, g3, l0, l1, m0, m1, hne, hNE, false_and, if_false, true_and, if_true]
      rw [innerFlux, innerFlux, vn_opp fm hn, l0, l1, m0, m1, cellAtFace_match ho hd (cm c hc) fm, cellAtFace_match ho hd (cm e he) fm, upwind_opp]
      ring
    · exact sideTerm_match _ _ ho dim c (σ c) _ _ hd (cm c hc) fm
        (SideMatch.inner a1 a3 a2 b1 b3 b2 e (σ e) hne hNE (cm e he) (Or.inr ⟨toL s0, toL1 s1, toG t0, toG1 t1⟩)
          (fun k hk => (s2 k hk).trans (t2 k hk).symm))

/-! ### the run at order 1 -/
variable {dim : Nat}

theorem Renum.atFaces (h : Renum L G (dim + 1) σ B outL outG) (f : K → K → K → K) {c : Nat} (hc : c < L.nbcells) {j : Nat} (hj : j < dim + 1) :
    Run.atFaces L f (L.faceid c j) = Run.atFaces G f (G.faceid (σ c) j) := by
  have := h.fcenter c hc j hj
  unfold Run.atFaces
  rw [this 0 (by omega), this 1 (by omega), this 2 (by omega)]

theorem Renum.toCells (h : Renum L G (dim + 1) σ B outL outG) (x y : Nat → K) (hxy : ∀ c < L.nbcells, ∀ j < dim + 1, x (L.faceid c j) = y (G.faceid (σ c) j))
    {c : Nat} (hc : c < L.nbcells) : Run.toCells dim L x c = Run.toCells dim G y (σ c) := by
  unfold Run.toCells Interp.facetocell
  congr 1
  rw [List.foldl_map, List.foldl_map]
  apply List.foldl_ext
  intro s j hj
  rw [hxy c hc j (List.mem_range.mp hj)]

theorem Renum.cellLam (h : Renum L G (dim + 1) σ B outL outG) (u v w U V W : Nat → K) (Dxx Dyy Dzz : K) {c : Nat} (hc : c < L.nbcells)
    (hu : u c = U (σ c)) (hv : v c = V (σ c)) (hw : w c = W (σ c)) :
    cellLam u v w L.normal L.mesure L.volume L.faceid dim Dxx Dyy Dzz c = cellLam U V W G.normal G.mesure G.volume G.faceid dim Dxx Dyy Dzz (σ c) := by
  unfold Fvm.cellLam
  apply List.foldl_ext
  intro s j hj
  obtain ⟨ε, hε, hnn⟩ := h.normal_pm hc (List.mem_range.mp hj)
  have a0 := hnn 0 (by omega)
  have a1 := hnn 1 (by omega)
  have a2 := hnn 2 (by omega)
  dsimp only
  rw [h.volume c hc, h.mesure c hc j (List.mem_range.mp hj), hu, hv, hw, a0, a1, a2]
  rcases hε with rfl | rfl
  · simp only [one_mul]
  · rw [show U (σ c) * (-1 * G.normal (G.faceid (σ c) j) 0) + V (σ c) * (-1 * G.normal (G.faceid (σ c) j) 1)
        + W (σ c) * (-1 * G.normal (G.faceid (σ c) j) 2) =
      - (U (σ c) * G.normal (G.faceid (σ c) j) 0 + V (σ c) * G.normal (G.faceid (σ c) j) 1 + W (σ c) * G.normal (G.faceid (σ c) j) 2) by ring, abs_neg]
    simp only [neg_one_mul, neg_mul_neg]

theorem Renum.dt (h : Renum L G (dim + 1) σ B outL outG) (S : Setup K) (it : Nat) : localStep dim S L it = localStep dim S G it := by
  have tc : ∀ (f : K → K → K → K) {c : Nat} (hc : c < L.nbcells), Run.toCells dim L (Run.atFaces L f) c = Run.toCells dim G (Run.atFaces G f) (σ c) :=
    fun f c hc => h.toCells _ _ (fun c hc j hj => h.atFaces f hc hj) hc
  have key : ∀ x, x ≤ localStep dim S L it ↔ x ≤ localStep dim S G it := by
    intro x
    rw [le_localStep, le_localStep]
    constructor
    · rintro ⟨h0, h1⟩
      refine ⟨h0, fun C hC => ?_⟩
      obtain ⟨c, hc, rfl⟩ := h.surj hC
      have := h1 c hc
      rwa [h.volume c hc, h.cellLam _ _ _ _ _ _ _ _ _ hc (tc _ hc) (tc _ hc) (tc _ hc)] at this
    · rintro ⟨h0, h1⟩
      refine ⟨h0, fun c hc => ?_⟩
      rw [h.volume c hc, h.cellLam _ _ _ _ _ _ _ _ _ hc (tc _ hc) (tc _ hc) (tc _ hc)]
      exact h1 _ (h.lt c hc)
  exact le_antisymm ((key _).mp le_rfl) ((key _).mpr le_rfl)

theorem Renum.ghost (h : Renum L G d1 σ B outL outG) (cell W : Nat → K) (hr : ∀ c < L.nbcells, cell c = W (σ c)) {c : Nat} (hc : c < L.nbcells)
    {j : Nat} (hj : j < d1) (hb : L.faceid c j ∈ L.boundaryfaces) (hB : ∀ b ∈ B, b ∈ locNames dim) (bc : Int → BCond K) (g g' : Nat → K) :
    updateGhosts dim L cell bc g (L.faceid c j) = updateGhosts dim G W bc g' (G.faceid (σ c) j) := by
  rcases h.sides hc hj with ⟨a1, a2, a3, b1, b2, b3, nB, nE, c0, C0, hn⟩ | ⟨e, he, hne, hNE, a1, a2, a3, _⟩
  · have hf := h.fcenter c hc j hj
    rw [updateGhosts_apply _ _ _ _ _ (h.RL.cG.flt c hc j hj) (hB _ nB), updateGhosts_apply _ _ _ _ _ (h.RG.cG.flt _ (h.lt c hc) j hj) (hB _ (nE ▸ nB)), ← nE]
    cases bc (L.name (L.faceid c j)) with
    | neumann => simp only [ghostVal]; rw [c0, C0]; simpa [idx] using hr c hc
    | nonslip => simp only [ghostVal]; rw [c0, C0]; simpa [idx] using hr c hc
    | dirichlet v => simp only [ghostVal]; rw [hf 0 (by omega), hf 1 (by omega), hf 2 (by omega)]
  · exact absurd hb a2

set_option maxHeartbeats 1000000 in
theorem Renum.step (h : Renum L G (dim + 1) σ B outL outG) (hd : dim = 2 ∨ dim = 3) (hB : ∀ b ∈ B, b ∈ locNames dim) (S : Setup K)
    (gs gt : Nat → Grads K) (dl dg : Nat → RankData K) (s t : State K) (hc : ∀ c < L.nbcells, s.cell 0 c = t.cell 0 (σ c)) (ht : s.time = t.time)
    (hi : s.iter = t.iter) :
    ∃ (s' t' : State K), step dim 1 dl (fun _ => L) S gs s = some s' ∧ step dim 1 dg (fun _ => G) S gt t = some t' ∧
      (∀ c < L.nbcells, s'.cell 0 c = t'.cell 0 (σ c)) ∧ s'.time = t'.time ∧ s'.iter = t'.iter := by
  have ar : ∀ x : K, allreduceMin 1 (fun _ => x) = x := fun x => by unfold allreduceMin; simp
  refine ⟨stepWith dim 1 (fun _ => L) S gs s [[]], stepWith dim 1 (fun _ => G) S gt t [[]], ?_, ?_, ?_, ?_, ?_⟩
  · unfold Run.step
    have : (List.range 1).mapM (exchange 1 dl s.cell) = some [[]] := by simp [exchange]
    rw [this]; rfl
  · unfold Run.step
    have : (List.range 1).mapM (exchange 1 dg t.cell) = some [[]] := by simp [exchange]
    rw [this]; rfl
  · intro c hc'
    unfold stepWith updateNewValue
    dsimp only
    rw [ar, ar, ← hi, h.dt, hc c hc', h.volume c hc', conv_balance h.RL.cG _ _ hd, conv_balance h.RG.cG _ _ hd, balance_order1, balance_order1 G]
    rw [h.balance (FL := noGrads _) (FG := noGrads _) ?_ 1 dim (by rcases hd with e | e <;> omega) c hc']
    refine ⟨fun c hc' => ⟨hc c hc', rfl, rfl, rfl, rfl⟩, ?_, ?_⟩
    · intro c hc j hj
      exact ⟨h.atFaces _ hc hj, h.atFaces _ hc hj, h.atFaces _ hc hj⟩
    · intro c hc' j hj hb
      exact h.ghost _ _ hc hc' hj hb hB _ _ _
  · show s.time + _ = t.time + _
    rw [ar, ar, h.dt, ht, hi]
  · show s.iter + 1 = t.iter + 1
    rw [hi]

theorem Renum.loop (h : Renum L G (dim + 1) σ B outL outG) (hd : dim = 2 ∨ dim = 3) (hB : ∀ b ∈ B, b ∈ locNames dim) (S : Setup K)
    (gs gt : Nat → Nat → Grads K) (dl dg : Nat → RankData K) (f : K → K → K → K) (N : Nat) :
    ∃ (s' t' : State K), loop dim 1 dl (fun _ => L) S gs (start (fun _ => L) f) N = some s' ∧
      loop dim 1 dg (fun _ => G) S gt (start (fun _ => G) f) N = some t' ∧
      (∀ c < L.nbcells, s'.cell 0 c = t'.cell 0 (σ c)) ∧ s'.time = t'.time ∧ s'.iter = t'.iter := by
  induction N with
  | zero =>
    refine ⟨_, _, rfl, rfl, fun c hc => ?_, rfl, rfl⟩
    have := h.center c hc
    show f _ _ _ = f _ _ _
    rw [this 0 (by omega), this 1 (by omega), this 2 (by omega)]
  | succ N ih =>
    obtain ⟨s1, t1, e1, e2, m1, m2, m3⟩ := ih
    simp only [Run.loop, e1, e2, Option.bind_some]
    rw [m2]
    by_cases ht : t1.time < S.tfinal
    · simp only [if_pos ht]; exact h.step hd hB S _ _ dl dg s1 t1 m1 m2 m3
    · simp only [if_neg ht]; exact ⟨s1, t1, rfl, rfl, m1, m2, m3⟩

end
end Verif.Props.Par
