import Verif.Props.ParRank2
import Verif.Props.ParRun

/-!
C82, C83: a run on several processes computes what the serial run computes.
-/
set_option linter.unusedSectionVars false
set_option linter.unusedVariables false
set_option linter.unusedSimpArgs false
namespace Verif.Props.Par
open Verif.Fvm Verif.Spec Verif.Conn Verif.Dom Verif.Geo Verif.Names Verif.MeshFile Verif.Part Verif.Comm Verif.Run
variable {K : Type*} [Field K] [LinearOrder K] [IsStrictOrderedRing K]

/-- The arrays of all ranks are those of the serial run: cell arrays are restrictions, halo arrays come from a halo exchange, face
velocities and boundary ghosts agree on the same faces. -/
structure SameFields (SIZE : Nat) (data : Nat → RankData K) (L : Nat → Tables K) (G : Tables K) (FL : Nat → Fields K) (FG : Fields K) : Prop where
  cell : ∀ p < SIZE, Restricts (data p).loctoglob (FL p).w FG.w ∧ Restricts (data p).loctoglob (FL p).psi FG.psi ∧
    Restricts (data p).loctoglob (FL p).wx FG.wx ∧ Restricts (data p).loctoglob (FL p).wy FG.wy ∧ Restricts (data p).loctoglob (FL p).wz FG.wz
  halo : ∀ p < SIZE, updateHalo SIZE data (fun q => (FL q).w) p = some (FL p).w_halo ∧
    updateHalo SIZE data (fun q => (FL q).psi) p = some (FL p).psi_halo ∧
    updateHalo SIZE data (fun q => (FL q).wx) p = some (FL p).wx_halo ∧
    updateHalo SIZE data (fun q => (FL q).wy) p = some (FL p).wy_halo ∧
    updateHalo SIZE data (fun q => (FL q).wz) p = some (FL p).wz_halo
  face : ∀ p < SIZE, ∀ f < (L p).nbfaces, ∀ F < G.nbfaces, SameFace (data p).nodeloctoglob ((L p).fnode f) (G.fnode F) →
    (FL p).u_face f = FG.u_face F ∧ (FL p).v_face f = FG.v_face F ∧ (FL p).w_face f = FG.w_face F
  ghost : ∀ p < SIZE, ∀ f ∈ (L p).boundaryfaces, ∀ F < G.nbfaces, SameFace (data p).nodeloctoglob ((L p).fnode f) (G.fnode F) →
    (FL p).ghost f = FG.ghost F

section
variable {nodeid : Nat → Nat → Nat} {node : Nat → K × K × K × Nat} {npart0 epart : Nat → Nat}
  {nbnodes n SIZE : Nat} {data : Nat → RankData K} {serial : RankData K}

theorem fnode_perm2 (sqrt : K → K) (trunc : K → Int) (size : Nat) (d : RankData K) {c j : Nat} (hc : c < d.nodeid.length) (hj : j < 3) :
    ((build2 sqrt trunc size d).fnode ((build2 sqrt trunc size d).faceid c j)).Perm (sid2 d c j) := by
  have := (face_perm2 sqrt trunc size d hc hj).2
  rw [← sid2_eq] at this
  exact this

theorem Launched.sameFace2 (h : Launched 3 nodeid node (centvol2 node nodeid) npart0 epart nbnodes n SIZE data serial)
    (sqrt : K → K) (trunc : K → Int) {p : Nat} (hp : p < SIZE) {c j : Nat} (hc : c < (data p).nodeid.length) (hj : j < 3) :
    SameFace (data p).nodeloctoglob ((build2 sqrt trunc SIZE (data p)).fnode ((build2 sqrt trunc SIZE (data p)).faceid c j))
      ((build2 sqrt trunc 1 serial).fnode ((build2 sqrt trunc 1 serial).faceid (phi (data p) c) j)) := by
  have sc := h.sameCell2 hp hc
  have h1 := (fnode_perm2 sqrt trunc SIZE (data p) hc hj).map (gOf (data p))
  have h2 := fnode_perm2 sqrt trunc 1 serial sc.Lt hj
  rw [sc.side j] at h2
  exact h1.trans h2.symm

theorem fieldsMatch_of {dim : Nat} {L : Nat → Tables K} {G : Tables K} {B : List Int} {out : Nat → Nat → Vec K}
    (h : RunPair dim SIZE n epart data L G B out) (hsf : ∀ p < SIZE, ∀ c < (L p).nbcells, ∀ j < dim + 1,
      SameFace (data p).nodeloctoglob ((L p).fnode ((L p).faceid c j)) (G.fnode (G.faceid (phi (data p) c) j)))
    {FL : Nat → Fields K} {FG : Fields K} (hF : SameFields SIZE data L G FL FG) {p : Nat} (hp : p < SIZE) :
    FieldsMatch (L p) G (dim + 1) (phi (data p)) (data p).halosext (FL p) FG := by
  have r := h.rank p hp
  have ex : ∀ (sel : Fields K → Nat → K) (halo : List K), (∀ q < SIZE, Restricts (data q).loctoglob (sel (FL q)) (sel FG)) →
      updateHalo SIZE data (fun q => sel (FL q)) p = some halo →
      ∀ (k : Nat) row E, (data p).halosext[k]? = some row → row.head? = some E → halo.getD k 0 = sel FG E := by
    intro sel halo hr hu k row E hk hE
    obtain ⟨halo', h1, h2⟩ := h.halo _ _ hr p hp
    rw [hu] at h1
    cases h1
    exact h2 k row E hk hE
  refine ⟨?_, ?_, ?_, ?_⟩
  · intro c hc
    obtain ⟨a1, a2, a3, a4, a5⟩ := hF.cell p hp
    exact ⟨(restricts_iff h hp _ _).mp a1 c hc, (restricts_iff h hp _ _).mp a2 c hc, (restricts_iff h hp _ _).mp a3 c hc,
      (restricts_iff h hp _ _).mp a4 c hc, (restricts_iff h hp _ _).mp a5 c hc⟩
  · intro k row E hk hE _
    obtain ⟨a1, a2, a3, a4, a5⟩ := hF.halo p hp
    exact ⟨ex (·.w) _ (fun q hq => (hF.cell q hq).1) a1 k row E hk hE, ex (·.psi) _ (fun q hq => (hF.cell q hq).2.1) a2 k row E hk hE,
      ex (·.wx) _ (fun q hq => (hF.cell q hq).2.2.1) a3 k row E hk hE, ex (·.wy) _ (fun q hq => (hF.cell q hq).2.2.2.1) a4 k row E hk hE,
      ex (·.wz) _ (fun q hq => (hF.cell q hq).2.2.2.2) a5 k row E hk hE⟩
  · intro c hc j hj
    exact hF.face p hp _ (r.cL.flt c hc j hj) _ (r.cG.flt _ (r.sub.lt c hc).1 j hj) (hsf p hp c hc j hj)
  · intro c hc j hj hb
    exact hF.ghost p hp _ hb _ (r.cG.flt _ (r.sub.lt c hc).1 j hj) (hsf p hp c hc j hj)

/-- Fields meeting `SameFields`: any cell arrays of the serial run, split over the ranks and exchanged; constant face velocity and
boundary value. -/
theorem sameFields_split {dim : Nat} {L : Nat → Tables K} {G : Tables K} {B : List Int} {out : Nat → Nat → Vec K}
    (h : RunPair dim SIZE n epart data L G B out) (w wx wy wz psi : Nat → K) (u v z g : K) :
    ∃ FL : Nat → Fields K, SameFields SIZE data L G FL
      ⟨w, wx, wy, wz, psi, [], [], [], [], [], fun _ => g, fun _ => u, fun _ => v, fun _ => z⟩ := by
  have ex : ∀ a : Nat → K, ∃ H : Nat → List K, ∀ p < SIZE, updateHalo SIZE data (fun q c => a (phi (data q) c)) p = some (H p) := by
    intro a
    have hr : ∀ p < SIZE, Restricts (data p).loctoglob (fun c => a (phi (data p) c)) a := fun p hp =>
      (restricts_iff h hp _ _).mpr fun c _ => rfl
    refine ⟨fun p => (updateHalo SIZE data (fun q c => a (phi (data q) c)) p).getD [], ?_⟩
    intro p hp
    obtain ⟨halo, e, _⟩ := h.halo _ _ hr p hp
    simp [e]
  obtain ⟨H1, e1⟩ := ex w
  obtain ⟨H2, e2⟩ := ex wx
  obtain ⟨H3, e3⟩ := ex wy
  obtain ⟨H4, e4⟩ := ex wz
  obtain ⟨H5, e5⟩ := ex psi
  refine ⟨fun p => ⟨fun c => w (phi (data p) c), fun c => wx (phi (data p) c), fun c => wy (phi (data p) c), fun c => wz (phi (data p) c),
    fun c => psi (phi (data p) c), H1 p, H2 p, H3 p, H4 p, H5 p, fun _ => g, fun _ => u, fun _ => v, fun _ => z⟩, ?_, ?_, ?_, ?_⟩
  · intro p hp
    exact ⟨(restricts_iff h hp _ _).mpr fun c _ => rfl, (restricts_iff h hp _ _).mpr fun c _ => rfl,
      (restricts_iff h hp _ _).mpr fun c _ => rfl, (restricts_iff h hp _ _).mpr fun c _ => rfl, (restricts_iff h hp _ _).mpr fun c _ => rfl⟩
  · intro p hp; exact ⟨e1 p hp, e5 p hp, e2 p hp, e3 p hp, e4 p hp⟩
  · intros; exact ⟨rfl, rfl, rfl⟩
  · intros; rfl

theorem mesure2_even (sqrt : K → K) (a b : Vec K) (ε : K) (hε : ε = 1 ∨ ε = -1) (h : ∀ k < 3, a k = ε * b k) : mesure2 sqrt a = mesure2 sqrt b := by
  unfold mesure2
  rw [h 0 (by omega), h 1 (by omega)]
  congr 1
  rcases hε with rfl | rfl <;> ring

theorem Launched.runPair2 (h : Launched 3 nodeid node (centvol2 node nodeid) npart0 epart nbnodes n SIZE data serial)
    (vm : ValidMesh2 nodeid node nbnodes n) (sqrt : K → K) (trunc : K → Int) (htr : ∀ m : Nat, trunc (m : K) = m) :
    RunPair 2 SIZE n epart data (fun p => build2 sqrt trunc SIZE (data p)) (build2 sqrt trunc 1 serial) [1, 2, 3, 4] (out2 serial) := by
  have hn : (build2 sqrt trunc 1 serial).nbcells = n := h.serial_cells.1
  refine ⟨Or.inl rfl, h.hS, by decide, hn, h.he, fun p hp => (h.cells hp).2, fun p hp => h.rankOf2 vm sqrt trunc htr hp, ?_, ?_, ?_, ?_⟩
  · intro p hp row hr E hE
    obtain ⟨c, rfl, hc, _⟩ := (h.ext_rows hp row).mp hr
    obtain rfl : c = E := by simpa using hE
    exact hc
  · intro p hp c hc
    have sc := h.sameCell2 hp hc
    rw [volume_build2 _ _ _ _ hc, volume_build2 _ _ _ _ sc.Lt, sc.volume]
  · intro p hp c hc j hj
    have sc := h.sameCell2 hp hc
    obtain ⟨hf, _⟩ := face_perm2 sqrt trunc SIZE (data p) hc hj
    obtain ⟨hF, _⟩ := face_perm2 sqrt trunc 1 serial sc.Lt hj
    obtain ⟨ε, hε, hnn⟩ := (h.rankOf2 vm sqrt trunc htr hp).normal_pm hc hj
    rw [mesure_build2 _ _ _ _ hf, mesure_build2 _ _ _ _ hF]
    exact mesure2_even sqrt _ _ ε hε hnn
  · intro cell W hr p hp
    exact h.halo cell W hr hp

/-- C82 (2D): the convective residual computed by the processes of a parallel run is, cell by cell, the one of the serial run
(order 1 and order 2). -/
theorem C82_residual_2d (h : Launched 3 nodeid node (centvol2 node nodeid) npart0 epart nbnodes n SIZE data serial)
    (vm : ValidMesh2 nodeid node nbnodes n) (sqrt : K → K) (trunc : K → Int) (htr : ∀ m : Nat, trunc (m : K) = m)
    (FL : Nat → Fields K) (FG : Fields K)
    (hF : SameFields SIZE data (fun p => build2 sqrt trunc SIZE (data p)) (build2 sqrt trunc 1 serial) FL FG) (order : Int) :
    ∀ p < SIZE, Restricts (data p).loctoglob
      (convArgs (build2 sqrt trunc SIZE (data p)) (FL p) order).explicitschemeConvective2d
      (convArgs (build2 sqrt trunc 1 serial) FG order).explicitschemeConvective2d := by
  intro p hp
  have R := h.runPair2 vm sqrt trunc htr
  rw [restricts_iff R hp]
  intro c hc
  have e1 := conv_balance (R.rank p hp).cL (FL p) order (dim := 2) (Or.inl rfl) c
  have e2 := conv_balance (R.rank p hp).cG FG order (dim := 2) (Or.inl rfl) (phi (data p) c)
  unfold Run.conv at e1 e2
  rw [if_pos rfl] at e1 e2
  rw [e1, e2]
  exact rank_balance (R.rank p hp) (fieldsMatch_of R (fun p hp c hc j hj => h.sameFace2 sqrt trunc hp hc hj) hF hp) order 2 (by omega) c hc

/-- C83 (2D): after any number of iterations of the order-1 transport driver the parallel run has reached the same time, and every rank
holds, in its cells, the values of the serial run. -/
theorem C83_run_2d (h : Launched 3 nodeid node (centvol2 node nodeid) npart0 epart nbnodes n SIZE data serial)
    (vm : ValidMesh2 nodeid node nbnodes n) (sqrt : K → K) (trunc : K → Int) (htr : ∀ m : Nat, trunc (m : K) = m)
    (S : Setup K) (gradsP gradsS : Nat → Nat → Grads K) (init : K → K → K → K) (N : Nat) :
    ∃ (s t : State K), loop 2 SIZE data (fun p => build2 sqrt trunc SIZE (data p)) S gradsP
          (start (fun p => build2 sqrt trunc SIZE (data p)) init) N = some s ∧
      loop 2 1 (fun _ => serial) (fun _ => build2 sqrt trunc 1 serial) S gradsS (start (fun _ => build2 sqrt trunc 1 serial) init) N = some t ∧
      s.time = t.time ∧ s.iter = t.iter ∧ ∀ p < SIZE, Restricts (data p).loctoglob (s.cell p) (t.cell 0) := by
  have R := h.runPair2 vm sqrt trunc htr
  obtain ⟨s, t, e1, e2, m⟩ := loop_match R S gradsP gradsS (fun _ => serial) _ _ (start_match R init) N
  exact ⟨s, t, e1, e2, m.time, m.iter, m.cell⟩

/-- C83: every cell of the mesh is held by exactly one rank, so the restrictions of `C83_run_2d` determine the whole serial state. -/
theorem C83_every_cell (h : Launched 3 nodeid node (centvol2 node nodeid) npart0 epart nbnodes n SIZE data serial) (C : Nat) (hC : C < n) :
    ∃! p : Nat, p < SIZE ∧ ∃ j : Nat, (data p).loctoglob[j]? = some C := by
  refine ⟨epart C, ⟨h.he C hC, ?_⟩, ?_⟩
  · obtain ⟨c, hc, e⟩ := h.phi_surj (h.he C hC) C hC rfl
    have := phi_get (d := data (epart C)) (c := c) (by rw [← (h.cells (h.he C hC)).2]; exact hc)
    rw [e] at this
    exact ⟨c, this⟩
  · rintro q ⟨hq, j, hj⟩
    exact (((h.cells hq).1.2 C).mp (List.mem_of_getElem? hj)).2.symm

end

/-! ### a mesh meeting the hypotheses: a strip of four triangles on two ranks -/

/-- Node `k` at `(k, k mod 2)`; the lower ones are labelled "bottom" (4), the upper ones "upper" (3). -/
def stripNode (k : Nat) : ℚ × ℚ × ℚ × Nat := ((k : ℚ), if k % 2 = 0 then 0 else 1, 0, if k % 2 = 0 then 4 else 3)

instance (a b : Nat) : Decidable (SideLabels2 a b) := by unfold SideLabels2; infer_instance

def stripOpp (c c' a b x y : Nat) : Prop := [a, b, x].Perm (nodesOf exStrip 3 c) → c ≠ c' → [a, b, y].Perm (nodesOf exStrip 3 c') →
  signedArea (pos stripNode a) (pos stripNode b) (pos stripNode x) * signedArea (pos stripNode a) (pos stripNode b) (pos stripNode y) < 0

instance (c c' a b x y : Nat) : Decidable (stripOpp c c' a b x y) := by unfold stripOpp; infer_instance

def stripLab (c a b x : Nat) : Prop := [a, b, x].Perm (nodesOf exStrip 3 c) →
  (∀ c' < 4, c' ≠ c → ¬ (Uses exStrip 3 c' a ∧ Uses exStrip 3 c' b)) → SideLabels2 (labelOf stripNode a) (labelOf stripNode b)

instance (c a b x : Nat) : Decidable (stripLab c a b x) := by unfold stripLab; infer_instance

theorem stripValid : ValidMesh2 exStrip stripNode 6 4 := by
  have hlt : ∀ c < 4, ∀ a b x, [a, b, x].Perm (nodesOf exStrip 3 c) → a < 6 ∧ b < 6 ∧ x < 6 := by
    intro c hc a b x hp
    have key : ∀ z ∈ nodesOf exStrip 3 c, z < 6 := by
      intro z hz
      obtain ⟨k, hk, rfl⟩ := List.mem_map.mp hz
      have := List.mem_range.mp hk
      show c + k < 6
      omega
    exact ⟨key _ (hp.subset (by simp)), key _ (hp.subset (by simp)), key _ (hp.subset (by simp))⟩
  refine ⟨by decide, by decide +kernel, by decide +kernel, ?_, ?_⟩
  · intro c hc c' hc' hne a b x y h1 h2
    obtain ⟨ha, hb, hx⟩ := hlt c hc a b x h1
    obtain ⟨_, _, hy⟩ := hlt c' hc' a b y h2
    have D : ∀ c < 4, ∀ c' < 4, ∀ a < 6, ∀ b < 6, ∀ x < 6, ∀ y < 6, stripOpp c c' a b x y := by decide +kernel
    exact D c hc c' hc' a ha b hb x hx y hy h1 hne h2
  · intro c hc a b x h1 h2
    obtain ⟨ha, hb, hx⟩ := hlt c hc a b x h1
    have D : ∀ c < 4, ∀ a < 6, ∀ b < 6, ∀ x < 6, stripLab c a b x := by decide +kernel
    exact D c hc a ha b hb x hx h1 h2

def stripData (p : Nat) : RankData ℚ :=
  expected 2 p (rankWrite exStrip stripNode (centvol2 stripNode exStrip) (partition exStrip exN exE 6 4 3)
    (halos (partition exStrip exN exE 6 4 3).cpart (partition exStrip exN exE 6 4 3).haloCell 2) 6 2 3 p)

def stripSerial : RankData ℚ := expected 1 0 (serialWrite exStrip stripNode 6 4 3)

theorem stripLaunched : Launched 3 exStrip stripNode (centvol2 stripNode exStrip) exN exE 6 4 2 stripData stripSerial := by
  refine ⟨by decide, by decide, by decide +kernel, by decide +kernel, by decide +kernel, by decide +kernel, ?_, ?_⟩
  · intro p hp; exact C25_round_trip_parallel (K := ℚ) 2 p (by decide) _
  · exact C25_round_trip_serial (K := ℚ) _ _

theorem floor_nat (m : Nat) : Rat.floor (m : ℚ) = m := by
  have := Rat.floor_intCast (m : Int)
  simpa using this

/-- The hypotheses of `C83_run_2d` are met, e.g. by this mesh. -/
example (S : Setup ℚ) (g1 g2 : Nat → Nat → Grads ℚ) (init : ℚ → ℚ → ℚ → ℚ) (N : Nat) :=
  C83_run_2d stripLaunched stripValid (fun x => x) Rat.floor floor_nat S g1 g2 init N

/-- The hypotheses of `C82_residual_2d` are met, with any cell arrays. -/
example (w wx wy psi : Nat → ℚ) : ∃ FL FG, SameFields 2 stripData (fun p => build2 (fun x => x) Rat.floor 2 (stripData p))
    (build2 (fun x => x) Rat.floor 1 stripSerial) FL FG ∧ FG.w = w ∧ FG.wx = wx ∧ FG.wy = wy ∧ FG.psi = psi := by
  obtain ⟨FL, h⟩ := sameFields_split (stripLaunched.runPair2 stripValid (fun x => x) Rat.floor floor_nat) w wx wy (fun _ => 0) psi 1 2 0 5
  exact ⟨FL, _, h, rfl, rfl, rfl, rfl⟩

end Verif.Props.Par
