import Verif.Props.PerGrad

/-! Helper lemmas: the world of one process on a mesh with periodic sides. -/
set_option linter.unusedSectionVars false
set_option linter.unusedVariables false
set_option linter.unusedSimpArgs false
namespace Verif.Props.Par
open Verif.Fvm Verif.Spec Verif.Conn Verif.Dom Verif.Geo Verif.Names Verif.MeshFile Verif.Part Verif.Comm Verif.Run Verif.Periodic Verif.Props.Per
open Verif.HaloGhost Verif.Interp Verif.Props.HG
variable {K : Type*} [Field K] [LinearOrder K] [IsStrictOrderedRing K]
variable {m : Mesh K} {D : Tables K} {side : Nat → Nat → List Nat} {opn : Nat → Nat → Nat} {out : Nat → Nat → Vec K} {F : List (List Nat)}
  {nm : Nat → Int} {g : Nat → Nat} {L : Nat → K} {r : K → K} {d : RankData K}

/-- The world is built. -/
structure WorldOk (m : Mesh K) (L : Nat → K) (r : K → K) (d : RankData K) (D : Tables K) (out : Nat → Nat → Vec K) (W : PWorld K) (p : Nat → Nat) : Prop where
  dim : W.dim = m.dim
  pd : PDom m D W.D L
  ok : PerOk W.dim m.n W.D out p
  partner : ∀ f ∈ W.D.periodicboundaryfaces, PartnerFaces W.D W.dim L f (p f)
  grad : W.dim = 2 → GradOk m.n m.nbnodes W

theorem cnode_lt (h : SDom m D side opn out F nm g) (hv : m.Valid L r) {c j : Nat} (hc : c < m.n) (hj : j < m.dim + 1) : D.cnode c j < m.nbnodes := by
  have h1 : D.cnode c j ∈ nodesOf D.cnode (m.dim + 1) c := by
    unfold nodesOf; exact List.mem_map.mpr ⟨j, List.mem_range.mpr hj, rfl⟩
  have h2 := (h.cnode c hc).mem_iff.mp h1
  unfold nodesOf at h2
  obtain ⟨i, hi, e⟩ := List.mem_map.mp h2
  rw [← e]
  exact hv.nodes c hc i (List.mem_range.mp hi)

theorem SDom.world (h : SDom m D side opn out F nm g) (hv : m.Valid L r) (hl : d.vertex.length = m.nbnodes) :
    ∃ W p, mkPWorld m.dim r d D = some W ∧ WorldOk m L r d D out W p := by
  obtain ⟨D', s, e, pd⟩ := h.update hv
  obtain ⟨hg, e2, g1, g2⟩ := haloGhosts_one m.dim d D'
  obtain ⟨p, ok, hp⟩ := h.perOk hv pd
  obtain ⟨c1, hD'⟩ := pd.eq
  refine ⟨⟨m.dim, d, D', s, hg⟩, p, ?_, rfl, pd, ok, ?_, ?_⟩
  · unfold mkPWorld
    rw [e]
    simp only [Option.bind_some]
    rw [e2]; rfl
  · intro f hf
    subst hD'
    exact hp f hf
  · intro h2'
    have hm2 : m.dim = 2 := h2'
    clear h2'
    refine ⟨?_, fun i hi => g1 i (hl ▸ hi), fun i hi => g2 i (hl ▸ hi), ?_, ?_⟩
    · intro c hc j hj
      subst hD'
      exact cnode_lt h hv hc hj
    · unfold updatePer at e
      dsimp only at e
      rw [if_pos hm2] at e
      obtain ⟨s', e3, e4⟩ := Option.map_eq_some_iff.mp e
      have e5 : s' = s := (Prod.mk.inj e4).2
      subst e5
      refine update2d_nper r _ m.n _ _ _ _ _ ?_ _ e3
      intro i c hc
      show c < m.n
      have := ((mem_nodeCells _ _ _ _ _).mp hc).1
      rw [← h.nb]; exact this
    · intro f hf hb
      subst hD'
      refine (h.built.bnd.2 f).mpr ⟨hf, ?_⟩
      have hb : bndOf m.dim (D.name f) = true := hb
      rw [hm2] at hb ⊢
      simp [bndOf, bnd2] at hb
      simp [wallNames, wallSides]
      tauto

theorem name_zero_or (h : SDom m D side opn out F nm g) (hv : m.Valid L r) {f : Nat} (hf : f < D.nbfaces) (hn : D.name f ≠ 0) :
    ∃ s ∈ wallSides m.dim ++ perSides m.dim, D.name f = (s : Int) := by
  obtain ⟨c, hc, j, hj, rfl⟩ := h.fsurj f hf
  rcases h.kinds hv hc hj with ⟨_, _, s, hs, _, e⟩ | ⟨_, e⟩
  · exact ⟨s, hs, e⟩
  · exact absurd e hn

theorem wall_per_disjoint {dim s : Nat} (h1 : s ∈ wallSides dim) (h2 : s ∈ perSides dim) : False := by
  unfold wallSides at h1; unfold perSides at h2
  split at h1 <;> simp_all <;> omega

theorem mem_wallNames {dim s : Nat} : (s : Int) ∈ wallNames dim ↔ s ∈ wallSides dim := by simp [wallNames]
theorem mem_perNames {dim s : Nat} : (s : Int) ∈ perNames dim ↔ s ∈ perSides dim := by simp [perNames]

theorem SDom.periodicDomain (h : SDom m D side opn out F nm g) (hv : m.Valid L r) {D' : Tables K} (pd : PDom m D D' L) : PeriodicDomain m L D' := by
  obtain ⟨p, ok, hp⟩ := h.perOk hv pd
  have cells := pd.cells
  obtain ⟨c1, hD'⟩ := pd.eq
  subst hD'
  have named : ∀ f, f < D.nbfaces → ∀ s, s ∈ wallSides m.dim ++ perSides m.dim → D.name f = (s : Int) → ∃ c l x, m.Outer c l x ∧ m.On s l ∧
      D.cellid f 0 = (c : Int) ∧ ∀ k < 3, D.fcenter f k = m.centre l k := by
    intro f hf s hs hn
    obtain ⟨c, hc, j, hj, rfl, ho, hon, hu⟩ := h.named hv hs hf hn
    exact ⟨c, _, _, ho, hon, h.cell0_one hc hj hu, h.fcenter c hc j hj⟩
  refine ⟨h.nb, ?_, ?_, ?_, ?_, ?_, ?_⟩
  · intro c l x s ho hs hon
    obtain ⟨j, hj, hperm, _, lf, hn, h0, hu⟩ := h.of_on ho hs hon
    refine ⟨_, lf, h0, hn, ?_, ?_, ?_⟩
    · intro k hk
      show D.fcenter _ k = _
      rw [h.fcenter c ho.1 j hj k hk, centre_perm m hperm]
    · rw [h.built.bnd.2]
      show _ ∧ D.name _ ∈ _ ↔ _
      rw [hn, mem_wallNames]
      exact ⟨fun h => h.2, fun h => ⟨lf, h⟩⟩
    · rw [h.per.2]
      show _ ∧ D.name _ ∈ _ ↔ _
      rw [hn, mem_perNames]
      exact ⟨fun h => h.2, fun h => ⟨lf, h⟩⟩
  · intro f hf f' hf' hn hn' e
    obtain ⟨s, hs, e1⟩ := name_zero_or h hv hf hn
    obtain ⟨s', hs', e2⟩ := name_zero_or h hv hf' hn'
    obtain ⟨c, hc, j, hj, rfl, ho, _, _⟩ := h.named hv hs hf e1
    obtain ⟨c', hc', j', hj', rfl, ho', _, _⟩ := h.named hv hs' hf' e2
    have e : ∀ k < 3, D.fcenter (D.faceid c j) k = D.fcenter (D.faceid c' j') k := e
    have := hv.fapart _ _ _ _ _ _ ho ho' (fun k hk => by rw [← h.fcenter c hc j hj k hk, ← h.fcenter c' hc' j' hj' k hk]; exact e k hk)
    exact (h.same hc hc' hj hj').mpr this
  · intro f hf hl
    have hs : ∃ s ∈ wallSides m.dim ++ perSides m.dim, D.name f = (s : Int) := by
      rcases hl with hl | hl
      · have h1 : D.name f ∈ wallNames m.dim := ((h.built.bnd.2 f).mp hl).2
        obtain ⟨s, hs, e⟩ := List.mem_map.mp h1
        exact ⟨s, by simp [hs], e.symm⟩
      · have h1 : D.name f ∈ perNames m.dim := ((h.per.2 f).mp hl).2
        obtain ⟨s, hs, e⟩ := perNames_iff.mp h1
        exact ⟨s, by simp [hs], e⟩
    obtain ⟨s, hs, e⟩ := hs
    obtain ⟨c, l, x, ho, hon, h0, hc⟩ := named f hf s hs e
    exact ⟨c, l, x, s, ho, hs, hon, h0, e, hc⟩
  · intro f hf
    exact ⟨p f, ok.pmem f hf, hp f hf, fun f'' h2 => h.partner_unique hv h2 (hp f hf)⟩
  · intro f f' hpf
    exact ⟨cells f f' hpf, cells f' f (partnerFaces_symm hpf)⟩
  · intro f f' hpf
    exact h.partner_normal hv hpf

/-! ## The runs -/
section
variable {W : PWorld K} {p : Nat → Nat}

theorem WorldOk.mass_step (h : WorldOk m L r d D out W p) (S : Setup K) (hv : PeriodicVelocity W.D W.dim L S) (s : QState K) :
    massOf W.D (pstep W S 1 false s).v.cell = massOf W.D s.v.cell - ((pstep W S 1 false s).time - s.time) * wallOutflow W.D S s.iter s.v.cell := by
  obtain ⟨F, hF, e⟩ := per_mass_step h.ok S 1 s (fun F hF => per_flux_cancel h.ok h.partner S hv s F hF _)
  rw [e, per_outflow h.ok S s F hF]
  obtain ⟨_, _, _, e2, _⟩ := pstep_false h.ok S 1 s
  rw [e2]; ring

theorem WorldOk.mass (h : WorldOk m L r d D out W p) (S : Setup K) (hv : PeriodicVelocity W.D W.dim L S)
    (h0 : ∀ it, ∀ f ∈ W.D.boundaryfaces, normalVel W.D S it f = 0) (s : QState K) (N : Nat) :
    massOf W.D (ploop W S 1 false s N).v.cell = massOf W.D s.v.cell := by
  refine ploop_inv W S 1 false (fun t => massOf W.D t.v.cell = massOf W.D s.v.cell) ?_ s rfl N
  intro t ht
  rw [h.mass_step S hv t, ← ht]
  have : wallOutflow W.D S t.iter t.v.cell = 0 := by
    unfold wallOutflow
    apply List.sum_eq_zero
    intro x hx
    obtain ⟨f, hf, rfl⟩ := List.mem_map.mp hx
    unfold outflow
    rw [h0 _ f hf]; simp [upwind]
  rw [this]; ring

theorem WorldOk.freestream (h : WorldOk m L r d D out W p) (S : Setup K) (q : K) (hv : UniformVelocity S) (hb : ∀ loc, BcIn q q (S.bc loc)) (o : Int)
    (ho : o = 1 ∨ W.dim = 2) (s : QState K) (hin : ∀ c < m.n, s.v.cell c = q) (N : Nat) : ∀ c < m.n, (ploop W S o false s N).v.cell c = q := by
  refine ploop_inv W S o false (fun t => ∀ c < m.n, t.v.cell c = q) ?_ s hin N
  intro t ht
  refine per_freestream h.ok S q hv hb o t ht ?_
  intro F hF
  rcases ho with ho | h2
  · exact Or.inl ho
  · right
    obtain ⟨v, v1, v2, v3, v4⟩ := hF.grad
    have hz := (h.grad h2).zero h.ok.nb h2 v q (fun c hc => by rw [v1]; exact ht c hc) (by
      intro f hf
      rw [v2]
      have := hF.ghostIn h.ok (m := q) (M := q) (fun c hc => by rw [ht c hc]; exact ⟨le_refl _, le_refl _⟩) hb f hf
      exact le_antisymm this.2 this.1)
    intro c hc
    obtain ⟨a1, a2, a3⟩ := v4 c
    rw [hz c hc] at a1 a2 a3
    exact ⟨a1, a2, a3⟩

theorem WorldOk.bounds (h : WorldOk m L r d D out W p) (S : Setup K) (lo hi : K) (hv : UniformVelocity S) (hr : NotAtRest W.dim S)
    (hD : 0 ≤ S.Dxx + S.Dyy + S.Dzz) (hc0 : 0 < S.cfl) (hc2 : S.cfl ≤ 2) (hb : ∀ loc, BcIn lo hi (S.bc loc)) (s : QState K)
    (hin : ∀ c < m.n, lo ≤ s.v.cell c ∧ s.v.cell c ≤ hi) (N : Nat) :
    ∀ c < m.n, lo ≤ (ploop W S 1 false s N).v.cell c ∧ (ploop W S 1 false s N).v.cell c ≤ hi :=
  ploop_inv W S 1 false (fun t => ∀ c < m.n, lo ≤ t.v.cell c ∧ t.v.cell c ≤ hi)
    (fun t ht => per_bounds_step h.ok S lo hi hv hr hD hc0 hc2 hb t ht) s hin N
end
end Verif.Props.Par
