import Verif.Props.PerWorld
import Verif.Props.PerSer3
import Verif.Props.Parallel

/-!
# Runs on meshes with periodic sides, one process (C100 - C102)

The mesh is any valid triangular / tetrahedral mesh whose periodic sides face each other (`Mesh.Valid2`, `Mesh.Valid3`), read from the
file `readmesh` writes; the world is the one `Domain` builds.
-/
set_option linter.unusedSectionVars false
set_option linter.unusedVariables false
set_option linter.unusedSimpArgs false
namespace Verif.Props.Par
open Verif.Fvm Verif.Spec Verif.Conn Verif.Dom Verif.Geo Verif.Names Verif.MeshFile Verif.Part Verif.Comm Verif.Run Verif.Periodic
variable {K : Type*} [Field K] [LinearOrder K] [IsStrictOrderedRing K] {m : Mesh K} {serial : RankData K} {L : Nat → K} {r : K → K}

theorem world_2d (hv : m.Valid2 L r) (hr : m.Read serial) (sqrt : K → K) (hs : ∀ x, 0 < x → sqrt x ≠ 0) (trunc : K → Int)
    (htr : ∀ i : Nat, trunc (i : K) = i) : ∃ W p, mkPWorld 2 r serial (build2 sqrt trunc 1 serial) = some W ∧
      WorldOk m L r serial (build2 sqrt trunc 1 serial) (out2 serial) W p ∧ PeriodicDomain m L W.D ∧ W.dim = 2 ∧ m.dim = 2 := by
  have h := sdom2 hv hr sqrt hs trunc htr
  have hl : serial.vertex.length = m.nbnodes := (read_cells hr).2.1
  obtain ⟨W, p, e, ok⟩ := h.world hv.toValid hl
  have hd : m.dim = 2 := hv.two
  rw [hd] at e
  exact ⟨W, p, e, ok, h.periodicDomain hv.toValid ok.pd, ok.dim.trans hd, hd⟩

/-- **C100** (2D): the Domain of a mesh with periodic sides is built without error, every outer face of the mesh is found with its cell, side
and centre, in the list of its kind, and every periodic face has exactly one partner, with which it exchanges cells, and the opposite
normal. -/
theorem C100_domain_2d (hv : m.Valid2 L r) (hr : m.Read serial) (sqrt : K → K) (hs : ∀ x, 0 < x → sqrt x ≠ 0) (trunc : K → Int)
    (htr : ∀ i : Nat, trunc (i : K) = i) : ∃ W, mkPWorld 2 r serial (build2 sqrt trunc 1 serial) = some W ∧ PeriodicDomain m L W.D := by
  obtain ⟨W, p, e, ok, pd, _⟩ := world_2d hv hr sqrt hs trunc htr
  exact ⟨W, e, pd⟩

/-- **C101** (2D): from any state, one first-order iteration with a periodic velocity changes the integral of the variable by minus the time
step times what leaves through the walls: nothing is lost or created at the periodic sides. -/
theorem C101_mass_balance_2d (hv : m.Valid2 L r) (hr : m.Read serial) (sqrt : K → K) (hs : ∀ x, 0 < x → sqrt x ≠ 0) (trunc : K → Int)
    (htr : ∀ i : Nat, trunc (i : K) = i) : ∃ W, mkPWorld 2 r serial (build2 sqrt trunc 1 serial) = some W ∧
      ∀ S : Setup K, PeriodicVelocity W.D 2 L S → ∀ s : QState K, massOf W.D (pstep W S 1 false s).v.cell =
        massOf W.D s.v.cell - ((pstep W S 1 false s).time - s.time) * wallOutflow W.D S s.iter s.v.cell := by
  obtain ⟨W, p, e, ok, pd, h2, _⟩ := world_2d hv hr sqrt hs trunc htr
  exact ⟨W, e, fun S hS s => ok.mass_step S (h2 ▸ hS) s⟩

/-- C101 (2D): if moreover the velocity does not cross the walls (in particular if all sides are periodic), the integral of the variable is
the initial one after any number of iterations. -/
theorem C101_mass_conserved_2d (hv : m.Valid2 L r) (hr : m.Read serial) (sqrt : K → K) (hs : ∀ x, 0 < x → sqrt x ≠ 0) (trunc : K → Int)
    (htr : ∀ i : Nat, trunc (i : K) = i) : ∃ W, mkPWorld 2 r serial (build2 sqrt trunc 1 serial) = some W ∧
      ∀ S : Setup K, PeriodicVelocity W.D 2 L S → (∀ it, ∀ f ∈ W.D.boundaryfaces, normalVel W.D S it f = 0) →
        ∀ (init : K → K → K → K) N, massOf W.D (ploop W S 1 false (pstart W init) N).v.cell = massOf W.D (pstart W init).v.cell := by
  obtain ⟨W, p, e, ok, pd, h2, _⟩ := world_2d hv hr sqrt hs trunc htr
  exact ⟨W, e, fun S hS h0 init N => ok.mass S (h2 ▸ hS) h0 _ N⟩

/-- C101 (2D), all sides periodic and a uniform velocity (the periodic driver of the repository): the integral is conserved. -/
theorem C101_all_periodic_2d (hv : m.Valid2 L r) (hr : m.Read serial) (sqrt : K → K) (hs : ∀ x, 0 < x → sqrt x ≠ 0) (trunc : K → Int)
    (htr : ∀ i : Nat, trunc (i : K) = i) (hall : ∀ c l x s, m.Outer c l x → s ∈ wallSides 2 → ¬ m.On s l) :
    ∃ W, mkPWorld 2 r serial (build2 sqrt trunc 1 serial) = some W ∧
      ∀ S : Setup K, UniformVelocity S →
        ∀ (init : K → K → K → K) N, massOf W.D (ploop W S 1 false (pstart W init) N).v.cell = massOf W.D (pstart W init).v.cell := by
  obtain ⟨W, p, e, ok, pd, h2, h3⟩ := world_2d hv hr sqrt hs trunc htr
  refine ⟨W, e, fun S hS init N => ok.mass S ?_ ?_ _ N⟩
  · intro it f f' _
    obtain ⟨u, v, w, h⟩ := hS it
    simp only [(h _ _ _).1, (h _ _ _).2.1, (h _ _ _).2.2]
    exact ⟨trivial, trivial, trivial⟩
  · intro it f hf
    exfalso
    obtain ⟨c, l, x, s, ho, hs, hon, _, hn, _⟩ := pd.listed f (ok.ok.mem f (Or.inr (Or.inl hf))) (Or.inl hf)
    obtain ⟨t, ht, hn'⟩ : ∃ t ∈ wallSides m.dim, W.D.name f = (t : Int) := by
      have := ok.ok.wall f hf
      rw [h2] at this
      rw [h3]
      simp [locNames] at this
      simp [wallSides]
      tauto
    have est : s = t := by rw [hn] at hn'; exact_mod_cast hn'
    exact hall c l x s ho (est ▸ h3 ▸ ht) hon

/-- **C102** (2D): a constant state stays constant over a whole (any order) run with a uniform velocity, when the boundary values on the walls
are the constant. -/
theorem C102_constant_preserved_2d (hv : m.Valid2 L r) (hr : m.Read serial) (sqrt : K → K) (hs : ∀ x, 0 < x → sqrt x ≠ 0) (trunc : K → Int)
    (htr : ∀ i : Nat, trunc (i : K) = i) : ∃ W, mkPWorld 2 r serial (build2 sqrt trunc 1 serial) = some W ∧
      ∀ (S : Setup K) (q : K), UniformVelocity S → (∀ loc, BcIn q q (S.bc loc)) →
        ∀ (order : Int) N, ∀ c < m.n, (ploop W S order false (pstart W (fun _ _ _ => q)) N).v.cell c = q := by
  obtain ⟨W, p, e, ok, pd, h2, _⟩ := world_2d hv hr sqrt hs trunc htr
  exact ⟨W, e, fun S q hS hb order N => ok.freestream S q hS hb _ (Or.inr h2) _ (fun c hc => rfl) N⟩

/-- **C102** (2D): maximum principle.  With a uniform velocity, `0 < cfl ≤ 2` and initial and boundary data in `[lo, hi]`, all values stay in
`[lo, hi]` during the whole first-order run. -/
theorem C102_maximum_principle_2d (hv : m.Valid2 L r) (hr : m.Read serial) (sqrt : K → K) (hs : ∀ x, 0 < x → sqrt x ≠ 0) (trunc : K → Int)
    (htr : ∀ i : Nat, trunc (i : K) = i) : ∃ W, mkPWorld 2 r serial (build2 sqrt trunc 1 serial) = some W ∧
      ∀ (S : Setup K) (lo hi : K), UniformVelocity S → NotAtRest 2 S → 0 ≤ S.Dxx + S.Dyy + S.Dzz → 0 < S.cfl → S.cfl ≤ 2 →
        (∀ loc, BcIn lo hi (S.bc loc)) → ∀ init : K → K → K → K, (∀ x y z, lo ≤ init x y z ∧ init x y z ≤ hi) →
        ∀ N, ∀ c < m.n, lo ≤ (ploop W S 1 false (pstart W init) N).v.cell c ∧ (ploop W S 1 false (pstart W init) N).v.cell c ≤ hi := by
  obtain ⟨W, p, e, ok, pd, h2, _⟩ := world_2d hv hr sqrt hs trunc htr
  exact ⟨W, e, fun S lo hi hS hn hD h0 hc2 hb init hin N => ok.bounds S lo hi hS (h2 ▸ hn) hD h0 hc2 hb _ (fun c hc => hin _ _ _) N⟩

theorem world_3d (hv : m.Valid3 L r) (hr : m.Read serial) (sqrt : K → K) (hs : ∀ x, 0 < x → sqrt x ≠ 0) (trunc : K → Int)
    (htr : ∀ i : Nat, trunc (i : K) = i) : ∃ W p, mkPWorld 3 r serial (build3 sqrt trunc 1 serial) = some W ∧
      WorldOk m L r serial (build3 sqrt trunc 1 serial) (out3 serial) W p ∧ PeriodicDomain m L W.D ∧ W.dim = 3 ∧ m.dim = 3 := by
  have h := sdom3 hv hr sqrt hs trunc htr
  have hl : serial.vertex.length = m.nbnodes := (read_cells hr).2.1
  obtain ⟨W, p, e, ok⟩ := h.world hv.toValid hl
  have hd : m.dim = 3 := hv.three
  rw [hd] at e
  exact ⟨W, p, e, ok, h.periodicDomain hv.toValid ok.pd, ok.dim.trans hd, hd⟩

/-- **C100** (3D): the Domain of a mesh with periodic sides is built without error, every outer face of the mesh is found with its cell, side
and centre, in the list of its kind, and every periodic face has exactly one partner, with which it exchanges cells, and the opposite
normal. -/
theorem C100_domain_3d (hv : m.Valid3 L r) (hr : m.Read serial) (sqrt : K → K) (hs : ∀ x, 0 < x → sqrt x ≠ 0) (trunc : K → Int)
    (htr : ∀ i : Nat, trunc (i : K) = i) : ∃ W, mkPWorld 3 r serial (build3 sqrt trunc 1 serial) = some W ∧ PeriodicDomain m L W.D := by
  obtain ⟨W, p, e, ok, pd, _⟩ := world_3d hv hr sqrt hs trunc htr
  exact ⟨W, e, pd⟩

/-- **C101** (3D): from any state, one first-order iteration with a periodic velocity changes the integral of the variable by minus the time
step times what leaves through the walls: nothing is lost or created at the periodic sides. -/
theorem C101_mass_balance_3d (hv : m.Valid3 L r) (hr : m.Read serial) (sqrt : K → K) (hs : ∀ x, 0 < x → sqrt x ≠ 0) (trunc : K → Int)
    (htr : ∀ i : Nat, trunc (i : K) = i) : ∃ W, mkPWorld 3 r serial (build3 sqrt trunc 1 serial) = some W ∧
      ∀ S : Setup K, PeriodicVelocity W.D 3 L S → ∀ s : QState K, massOf W.D (pstep W S 1 false s).v.cell =
        massOf W.D s.v.cell - ((pstep W S 1 false s).time - s.time) * wallOutflow W.D S s.iter s.v.cell := by
  obtain ⟨W, p, e, ok, pd, h2, _⟩ := world_3d hv hr sqrt hs trunc htr
  exact ⟨W, e, fun S hS s => ok.mass_step S (h2 ▸ hS) s⟩

/-- C101 (3D): if moreover the velocity does not cross the walls (in particular if all sides are periodic), the integral of the variable is
the initial one after any number of iterations. -/
theorem C101_mass_conserved_3d (hv : m.Valid3 L r) (hr : m.Read serial) (sqrt : K → K) (hs : ∀ x, 0 < x → sqrt x ≠ 0) (trunc : K → Int)
    (htr : ∀ i : Nat, trunc (i : K) = i) : ∃ W, mkPWorld 3 r serial (build3 sqrt trunc 1 serial) = some W ∧
      ∀ S : Setup K, PeriodicVelocity W.D 3 L S → (∀ it, ∀ f ∈ W.D.boundaryfaces, normalVel W.D S it f = 0) →
        ∀ (init : K → K → K → K) N, massOf W.D (ploop W S 1 false (pstart W init) N).v.cell = massOf W.D (pstart W init).v.cell := by
  obtain ⟨W, p, e, ok, pd, h2, _⟩ := world_3d hv hr sqrt hs trunc htr
  exact ⟨W, e, fun S hS h0 init N => ok.mass S (h2 ▸ hS) h0 _ N⟩

/-- C101 (3D), all sides periodic and a uniform velocity (the periodic driver of the repository): the integral is conserved. -/
theorem C101_all_periodic_3d (hv : m.Valid3 L r) (hr : m.Read serial) (sqrt : K → K) (hs : ∀ x, 0 < x → sqrt x ≠ 0) (trunc : K → Int)
    (htr : ∀ i : Nat, trunc (i : K) = i) (hall : ∀ c l x s, m.Outer c l x → s ∈ wallSides 3 → ¬ m.On s l) :
    ∃ W, mkPWorld 3 r serial (build3 sqrt trunc 1 serial) = some W ∧
      ∀ S : Setup K, UniformVelocity S →
        ∀ (init : K → K → K → K) N, massOf W.D (ploop W S 1 false (pstart W init) N).v.cell = massOf W.D (pstart W init).v.cell := by
  obtain ⟨W, p, e, ok, pd, h2, h3⟩ := world_3d hv hr sqrt hs trunc htr
  refine ⟨W, e, fun S hS init N => ok.mass S ?_ ?_ _ N⟩
  · intro it f f' _
    obtain ⟨u, v, w, h⟩ := hS it
    simp only [(h _ _ _).1, (h _ _ _).2.1, (h _ _ _).2.2]
    exact ⟨trivial, trivial, trivial⟩
  · intro it f hf
    exfalso
    obtain ⟨c, l, x, s, ho, hs, hon, _, hn, _⟩ := pd.listed f (ok.ok.mem f (Or.inr (Or.inl hf))) (Or.inl hf)
    obtain ⟨t, ht, hn'⟩ : ∃ t ∈ wallSides m.dim, W.D.name f = (t : Int) := by
      have := ok.ok.wall f hf
      rw [h2] at this
      rw [h3]
      simp [locNames] at this
      simp [wallSides]
      tauto
    have est : s = t := by rw [hn] at hn'; exact_mod_cast hn'
    exact hall c l x s ho (est ▸ h3 ▸ ht) hon

/-- **C102** (3D): a constant state stays constant over a whole first-order run with a uniform velocity, when the boundary values on the walls
are the constant. -/
theorem C102_constant_preserved_3d_partial (hv : m.Valid3 L r) (hr : m.Read serial) (sqrt : K → K) (hs : ∀ x, 0 < x → sqrt x ≠ 0) (trunc : K → Int)
    (htr : ∀ i : Nat, trunc (i : K) = i) : ∃ W, mkPWorld 3 r serial (build3 sqrt trunc 1 serial) = some W ∧
      ∀ (S : Setup K) (q : K), UniformVelocity S → (∀ loc, BcIn q q (S.bc loc)) →
        ∀ N, ∀ c < m.n, (ploop W S 1 false (pstart W (fun _ _ _ => q)) N).v.cell c = q := by
  obtain ⟨W, p, e, ok, pd, h2, _⟩ := world_3d hv hr sqrt hs trunc htr
  exact ⟨W, e, fun S q hS hb N => ok.freestream S q hS hb _ (Or.inl rfl) _ (fun c hc => rfl) N⟩

/-- **C102** (3D): maximum principle.  With a uniform velocity, `0 < cfl ≤ 2` and initial and boundary data in `[lo, hi]`, all values stay in
`[lo, hi]` during the whole first-order run. -/
theorem C102_maximum_principle_3d (hv : m.Valid3 L r) (hr : m.Read serial) (sqrt : K → K) (hs : ∀ x, 0 < x → sqrt x ≠ 0) (trunc : K → Int)
    (htr : ∀ i : Nat, trunc (i : K) = i) : ∃ W, mkPWorld 3 r serial (build3 sqrt trunc 1 serial) = some W ∧
      ∀ (S : Setup K) (lo hi : K), UniformVelocity S → NotAtRest 3 S → 0 ≤ S.Dxx + S.Dyy + S.Dzz → 0 < S.cfl → S.cfl ≤ 2 →
        (∀ loc, BcIn lo hi (S.bc loc)) → ∀ init : K → K → K → K, (∀ x y z, lo ≤ init x y z ∧ init x y z ≤ hi) →
        ∀ N, ∀ c < m.n, lo ≤ (ploop W S 1 false (pstart W init) N).v.cell c ∧ (ploop W S 1 false (pstart W init) N).v.cell c ≤ hi := by
  obtain ⟨W, p, e, ok, pd, h2, _⟩ := world_3d hv hr sqrt hs trunc htr
  exact ⟨W, e, fun S lo hi hS hn hD h0 hc2 hb init hin N => ok.bounds S lo hi hS (h2 ▸ hn) hD h0 hc2 hb _ (fun c hc => hin _ _ _) N⟩

end Verif.Props.Par
