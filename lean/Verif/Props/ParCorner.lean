import Verif.Props.ParallelVar

/-!
C88, negative part: at a node shared between subdomains, the halo ghost of a Dirichlet face gets the value 0 when the node is labelled
with a side that has no Dirichlet condition.
-/
set_option linter.unusedSectionVars false
set_option linter.unusedVariables false
set_option linter.unusedSimpArgs false
namespace Verif.Props.Par
open Verif.Fvm Verif.Spec Verif.Conn Verif.Dom Verif.Geo Verif.Names Verif.MeshFile Verif.Part Verif.Comm Verif.Run Verif.HaloGhost
variable {K : Type*} [Field K] [LinearOrder K] [IsStrictOrderedRing K]

section
variable {dim : Nat} {nodeid : Nat → Nat → Nat} {node : Nat → K × K × K × Nat} {cv : Nat → List K} {npart0 epart : Nat → Nat}
  {nbnodes n SIZE : Nat} {data : Nat → RankData K} {serial : RankData K} {L : Nat → Tables K} {G : Tables K} {B : List Int}
  {out : Nat → Nat → Vec K} {trunc : K → Int}

theorem HGSpec.vh_zero {p : Nat} {hg : HGResult K} {rows : Nat → List (GRow K)} (s : HGSpec dim SIZE data L p hg rows) (bc : Int → BCond K) {i j : Nat}
    (hi : i ∈ halonodes (L p)) {r : GRow K} (hr : (rows i)[j]? = some r) (hv : ∀ v, bc ((L p).oldname i) ≠ .dirichlet v) :
    valuehalo dim (L p) hg bc r.last.toNat = 0 := by
  unfold valuehalo
  have key : ∀ (locs : List Int) (vh : Nat → K),
      locs.foldl (fun vh loc => valuehaloOne (L p) hg (bc loc) loc vh) vh r.last.toNat = vh r.last.toNat := by
    intro locs
    induction locs with
    | nil => intro vh; rfl
    | cons l ls ih =>
      intro vh
      rw [List.foldl_cons, ih, s.vhOne _ _ _ hi hr]
      split_ifs with h2
      · rw [← h2]
        cases hb : bc ((L p).oldname i) with
        | dirichlet v => exact absurd hb (hv v)
        | neumann => rfl
        | nonslip => rfl
      · rfl
  rw [key]

theorem NodePair.corner_zero (h : NodePair dim nodeid node cv npart0 epart nbnodes n SIZE data serial L G B out trunc)
    (star : StarConnected dim nodeid n) {hgL hgG : Nat → HGResult K} (sL : ∀ p < SIZE, ∃ rows, HGSpec dim SIZE data L p (hgL p) rows)
    (bc : Int → BCond K) (V U : Nat → Vari K)
    {p F s : Nat} (hp : p < SIZE) (hF : F ∈ G.boundaryfaces) (hs : s ∈ G.fnode F) (hown : epart (G.cellid F 0).toNat ≠ p)
    (hsp : ∃ C < n, epart C = p ∧ Uses nodeid (dim + 1) C s) (v : K → K → K → K) (hv : bc (G.name F) = .dirichlet v)
    (hnv : ∀ v, bc (G.oldname s) ≠ .dirichlet v) :
    ∃ V' U', updateValues (parW dim SIZE data L hgL) bc V = some V' ∧ updateValues (serW dim serial G hgG) bc U = some U' ∧
      (U' 0).ghost F = v (G.fcenter F 0) (G.fcenter F 1) (G.fcenter F 2) ∧
      ∃ i, (data p).nodeloctoglob[i]? = some s ∧ ∃ r ∈ (hgL p).haloghosts i, r.last ≠ -1 ∧ r.pt = ghostPoint dim G F ∧ r.name = G.name F ∧
        (V' p).haloghost r.last.toNat = 0 := by
  have hm : ∀ p < SIZE, ∀ c < (L p).nbcells, (V p).cell c = (V p).cell c := fun _ _ _ _ => rfl
  obtain ⟨γ, hγ⟩ := h.exists_gamma
  obtain ⟨rows, spec⟩ := sL p hp
  have R0 := h.run.rank p hp
  have hFl := ((R0.cG.bnd.2 F).mp hF)
  -- the local number of the node
  obtain ⟨nd, nlen, nmem⟩ := h.hl.nodes hp
  obtain ⟨i, hi, ei⟩ := List.mem_iff_getElem.mp ((nmem s).mpr hsp)
  have hiL : i < (L p).nbnodes := by rw [h.nbL p hp, nlen]; exact hi
  have hgi : gOf (data p) i = s := by unfold gOf; rw [List.getD_eq_getElem _ _ hi, ei]
  -- the owner of the face
  obtain ⟨C, hC, j, hj, e⟩ := R0.cG.fsurj F hFl.1
  have hone : ∃ C < n, epart C ≠ p ∧ Uses nodeid (dim + 1) C s := by
    have hne := R0.cG.users_ne hFl.1
    obtain ⟨a, ha, e0, hu⟩ := users_first hne
    have c0 := R0.cG.cell0 F hFl.1
    rw [e0] at c0
    rw [c0] at hown
    obtain ⟨jj, hjj, ej⟩ := hu
    refine ⟨a, h.run.nG ▸ ha, by simpa using hown, ?_⟩
    have := (h.fnodeG a (h.run.nG ▸ ha) jj hjj).2.2 s
    rw [ej] at this
    exact this hs
  obtain ⟨E, hE, hEp, hEu⟩ := hone
  have hnm : (L p).nodename i = 10 := h.named star hp hiL hE hEp (by rw [hgi]; exact hEu)
  have hin : i ∈ halonodes (L p) := (mem_halonodes _ _).mpr ⟨hiL, hnm⟩
  -- the face is among the remote ghosts of the node
  have hper := h.ghosts_at_node star hγ hp hiL
  rw [hgi] at hper
  have hmem : F ∈ (bf (L p) i).map (γ p) ++ (remPairs SIZE data L p s).map (fun e => γ e.1 e.2) :=
    hper.mem_iff.mpr ((mem_bf _ _ _).mpr ⟨hFl.1, hF, hs⟩)
  rcases List.mem_append.mp hmem with hl | hr
  · obtain ⟨f, hf, rfl⟩ := List.mem_map.mp hl
    obtain ⟨c, hc, _, _, _, _, _, _, _, C0⟩ := h.bf_global hγ hp hf
    rw [C0] at hown
    have := (R0.sub.lt c hc).2
    exact absurd (by simpa using this) hown
  · obtain ⟨q, hq, rfl⟩ := List.mem_map.mp hr
    have hq' : q ∈ remPairs SIZE data L p (gOf (data p) i) := by rw [hgi]; exact hq
    obtain ⟨jx, hjx, ejx⟩ := List.mem_iff_getElem.mp hq'
    have hdes := spec.desc i hin
    have hlen := hdes.length_eq
    have hjr : jx < (rows i).length := by omega
    have hd := (List.forall₂_iff_get.mp hdes).2 jx hjr hjx
    simp only [List.get_eq_getElem, ejx] at hd
    obtain ⟨d1, d2, d3, _⟩ := hd
    obtain ⟨hq1, _, j', _, _, _, hf⟩ := (mem_remPairs p _ q).mp hq'
    obtain ⟨c, hc, jj, hjj, ef, e1, hmm, enm, c0, C0⟩ := h.bf_global hγ hq1 hf
    have hbL : q.2 ∈ (L q.1).boundaryfaces := ((mem_bf _ _ _).mp hf).2.1
    obtain ⟨r, er⟩ : ∃ r, r = (rows i)[jx] := ⟨_, rfl⟩
    rw [← er] at d1 d2 d3
    have hrm : r ∈ rows i := er ▸ List.getElem_mem hjr
    have hrg : (rows i)[jx]? = some r := by rw [List.getElem?_eq_getElem hjr, er]
    -- the updates
    obtain ⟨H, eH⟩ : ∃ H, exchangeAll (parW dim SIZE data L hgL) (fun p => (V p).cell) = some H := by
      classical
      have hloc : ∃ A : Nat → K, ∀ p < SIZE, ∀ c < (L p).nbcells, (V p).cell c = A (phi (data p) c) := by
        refine ⟨fun C => if hx : ∃ p, p < SIZE ∧ ∃ c, c < (L p).nbcells ∧ phi (data p) c = C then
          (V hx.choose).cell (hx.choose_spec.2.choose) else 0, ?_⟩
        intro p hp c hc
        have hx : ∃ p', p' < SIZE ∧ ∃ c', c' < (L p').nbcells ∧ phi (data p') c' = phi (data p) c := ⟨p, hp, c, hc, rfl⟩
        dsimp only
        rw [dif_pos hx]
        have h1 := hx.choose_spec.1
        have h2 := hx.choose_spec.2.choose_spec
        have hpp : hx.choose = p := by
          have a1 := ((h.run.rank _ h1).sub.lt _ h2.1).2
          have a2 := ((h.run.rank p hp).sub.lt c hc).2
          rw [h2.2] at a1
          exact a1.symm.trans a2
        have key : ∀ p' (hp' : p' < SIZE) c', c' < (L p').nbcells → phi (data p') c' = phi (data p) c → p' = p → (V p).cell c = (V p').cell c' := by
          intro p' hp' c' hc' e hpe
          subst hpe
          rw [(h.run.rank p' hp').sub.inj hc' hc e]
        exact key _ h1 _ h2.1 h2.2 hpp
      obtain ⟨A, hA⟩ := hloc
      obtain ⟨H, e, _⟩ := exchange_match h hgL (fun p => (V p).cell) A hA
      exact ⟨H, e⟩
    refine ⟨updateGhostValue (parW dim SIZE data L hgL) bc (fun p => { V p with halo := H p }),
      updateGhostValue (serW dim serial G hgG) bc (fun p => { U p with halo := [[]].getD p [] }), ?_, ?_, ?_, i, ?_, r, ?_, d3, ?_, ?_, ?_⟩
    · unfold updateValues updateHaloValue; rw [eH]; rfl
    · unfold updateValues updateHaloValue; rw [exchange_serial]; rfl
    · show updateGhosts dim G (U 0).cell bc (U 0).ghost (γ q.1 q.2) = _
      rw [updateGhosts_apply _ _ _ _ _ hFl.1 (h.run.hB _ hFl.2), hv]; rfl
    · rw [List.getElem?_eq_getElem hi, ei]
    · obtain ⟨m, e1, _⟩ := spec.halo i hin
      rw [e1]; exact List.mem_append_left _ hrm
    · rw [d1, e1, ef]
      rw [ef] at hbL
      exact h.ghostPt _ hq1 c hc jj hjj hbL
    · rw [d2, enm]
    · show updateHaloghosts dim (L p) (hgL p) (halonodes (L p)) _ bc _ r.last.toNat = 0
      rw [spec.update _ bc _ hin hrm (by rw [d2, enm]; exact h.run.hB _ hFl.2), d2, enm, hv]
      show valuehalo dim (L p) (hgL p) bc r.last.toNat = 0
      refine spec.vh_zero bc hin hrg ?_
      rw [h.oldname_eq hp hiL, hgi]
      exact hnv

end

section
variable {nodeid : Nat → Nat → Nat} {node : Nat → K × K × K × Nat} {npart0 epart : Nat → Nat}
  {nbnodes n SIZE : Nat} {data : Nat → RankData K} {serial : RankData K}

/-- C88 without the condition on the corners is false (2D): let `F` be a boundary face with the Dirichlet condition `v`, `s` a node of
`F` labelled with a side whose condition is not Dirichlet, and `p` a rank having the node but not the cell of `F`.  Then after
`update_values` the ghost of `F` has the value `v(centre of F)` in the serial run, and rank `p` holds for the same ghost the value 0,
whatever `v` and the cell values. -/
theorem C88_corner_zero_2d (h : Launched 3 nodeid node (centvol2 node nodeid) npart0 epart nbnodes n SIZE data serial)
    (vm : ValidMesh2 nodeid node nbnodes n) (sqrt : K → K) (trunc : K → Int) (htr : ∀ m : Nat, trunc (m : K) = m)
    (star : StarConnected 2 nodeid n) :
    ∃ WL WG, mkWorld 2 SIZE data (fun p => build2 sqrt trunc SIZE (data p)) = some WL ∧
      mkWorld 2 1 (fun _ => serial) (fun _ => build2 sqrt trunc 1 serial) = some WG ∧
      ∀ (bc : Int → BCond K) (V U : Nat → Vari K) (p F s : Nat) (v : K → K → K → K), p < SIZE →
        F ∈ (build2 sqrt trunc 1 serial).boundaryfaces → s ∈ (build2 sqrt trunc 1 serial).fnode F →
        epart ((build2 sqrt trunc 1 serial).cellid F 0).toNat ≠ p → (∃ C < n, epart C = p ∧ Uses nodeid 3 C s) →
        bc ((build2 sqrt trunc 1 serial).name F) = .dirichlet v → (∀ v, bc ((build2 sqrt trunc 1 serial).oldname s) ≠ .dirichlet v) →
        ∃ V' U', updateValues WL bc V = some V' ∧ updateValues WG bc U = some U' ∧
          (U' 0).ghost F = v ((build2 sqrt trunc 1 serial).fcenter F 0) ((build2 sqrt trunc 1 serial).fcenter F 1) ((build2 sqrt trunc 1 serial).fcenter F 2) ∧
          ∃ i, (data p).nodeloctoglob[i]? = some s ∧ ∃ r ∈ (WL.hg p).haloghosts i, r.last ≠ -1 ∧
            r.pt = ghostPoint 2 (build2 sqrt trunc 1 serial) F ∧ (V' p).haloghost r.last.toNat = 0 := by
  have np := h.nodePair2 vm sqrt trunc htr
  obtain ⟨hgL, hgG, w1, w2, sL, sG⟩ := np.worlds
  refine ⟨_, _, w1, w2, fun bc V U p F s v hp hF hs hown hsp hv hnv => ?_⟩
  obtain ⟨V', U', e1, e2, e3, i, e4, r, e5, e6, e7, _, e8⟩ := np.corner_zero star (hgG := hgG) sL bc V U hp hF hs hown hsp v hv hnv
  exact ⟨V', U', e1, e2, e3, i, e4, r, e5, e6, e7, e8⟩

/-- The same in 3D. -/
theorem C88_corner_zero_3d (h : Launched 4 nodeid node (centvol3 node nodeid) npart0 epart nbnodes n SIZE data serial)
    (vm : ValidMesh3 nodeid node nbnodes n) (sqrt : K → K) (trunc : K → Int) (htr : ∀ m : Nat, trunc (m : K) = m)
    (star : StarConnected 3 nodeid n) :
    ∃ WL WG, mkWorld 3 SIZE data (fun p => build3 sqrt trunc SIZE (data p)) = some WL ∧
      mkWorld 3 1 (fun _ => serial) (fun _ => build3 sqrt trunc 1 serial) = some WG ∧
      ∀ (bc : Int → BCond K) (V U : Nat → Vari K) (p F s : Nat) (v : K → K → K → K), p < SIZE →
        F ∈ (build3 sqrt trunc 1 serial).boundaryfaces → s ∈ (build3 sqrt trunc 1 serial).fnode F →
        epart ((build3 sqrt trunc 1 serial).cellid F 0).toNat ≠ p → (∃ C < n, epart C = p ∧ Uses nodeid 4 C s) →
        bc ((build3 sqrt trunc 1 serial).name F) = .dirichlet v → (∀ v, bc ((build3 sqrt trunc 1 serial).oldname s) ≠ .dirichlet v) →
        ∃ V' U', updateValues WL bc V = some V' ∧ updateValues WG bc U = some U' ∧
          (U' 0).ghost F = v ((build3 sqrt trunc 1 serial).fcenter F 0) ((build3 sqrt trunc 1 serial).fcenter F 1) ((build3 sqrt trunc 1 serial).fcenter F 2) ∧
          ∃ i, (data p).nodeloctoglob[i]? = some s ∧ ∃ r ∈ (WL.hg p).haloghosts i, r.last ≠ -1 ∧
            r.pt = ghostPoint 3 (build3 sqrt trunc 1 serial) F ∧ (V' p).haloghost r.last.toNat = 0 := by
  have np := h.nodePair3 vm sqrt trunc htr
  obtain ⟨hgL, hgG, w1, w2, sL, sG⟩ := np.worlds
  refine ⟨_, _, w1, w2, fun bc V U p F s v hp hF hs hown hsp hv hnv => ?_⟩
  obtain ⟨V', U', e1, e2, e3, i, e4, r, e5, e6, e7, _, e8⟩ := np.corner_zero star (hgG := hgG) sL bc V U hp hF hs hown hsp v hv hnv
  exact ⟨V', U', e1, e2, e3, i, e4, r, e5, e6, e7, e8⟩

end

/-! ### a mesh with such a corner: the strip of four triangles, node 3 labelled "in" (1) between two "upper" (3) edges -/

def cornNode (k : Nat) : ℚ × ℚ × ℚ × Nat :=
  ((k : ℚ), if k % 2 = 0 then 0 else 1, 0, if k % 2 = 0 then 4 else if k = 3 then 1 else 3)

def cornLab (c a b x : Nat) : Prop := [a, b, x].Perm (nodesOf exStrip 3 c) →
  (∀ c' < 4, c' ≠ c → ¬ (Uses exStrip 3 c' a ∧ Uses exStrip 3 c' b)) → SideLabels2 (labelOf cornNode a) (labelOf cornNode b)

instance (c a b x : Nat) : Decidable (cornLab c a b x) := by unfold cornLab; infer_instance

theorem cornPos (k : Nat) : pos cornNode k = pos stripNode k := by
  funext j
  match j with
  | 0 => rfl
  | 1 => rfl
  | _ + 2 => rfl

theorem cornValid : ValidMesh2 exStrip cornNode 6 4 := by
  have hlt : ∀ c < 4, ∀ a b x, [a, b, x].Perm (nodesOf exStrip 3 c) → a < 6 ∧ b < 6 ∧ x < 6 := by
    intro c hc a b x hp
    have key : ∀ z ∈ nodesOf exStrip 3 c, z < 6 := by
      intro z hz
      obtain ⟨k, hk, rfl⟩ := List.mem_map.mp hz
      have := List.mem_range.mp hk
      show c + k < 6
      omega
    exact ⟨key _ (hp.subset (by simp)), key _ (hp.subset (by simp)), key _ (hp.subset (by simp))⟩
  refine ⟨stripValid.nodes, stripValid.used, ?_, ?_, ?_⟩
  · intro c hc; simp only [cornPos]; exact stripValid.area c hc
  · intro c hc c' hc' hne a b x y h1 h2; simp only [cornPos]; exact stripValid.opposite c hc c' hc' hne a b x y h1 h2
  · intro c hc a b x h1 h2
    obtain ⟨ha, hb, hx⟩ := hlt c hc a b x h1
    have D : ∀ c < 4, ∀ a < 6, ∀ b < 6, ∀ x < 6, cornLab c a b x := by decide +kernel
    exact D c hc a ha b hb x hx h1 h2

def cornData (p : Nat) : RankData ℚ :=
  expected 2 p (rankWrite exStrip cornNode (centvol2 cornNode exStrip) (partition exStrip exN exE 6 4 3)
    (halos (partition exStrip exN exE 6 4 3).cpart (partition exStrip exN exE 6 4 3).haloCell 2) 6 2 3 p)

def cornSerial : RankData ℚ := expected 1 0 (serialWrite exStrip cornNode 6 4 3)

theorem cornLaunched : Launched 3 exStrip cornNode (centvol2 cornNode exStrip) exN exE 6 4 2 cornData cornSerial := by
  refine ⟨by decide, by decide, by decide +kernel, by decide +kernel, by decide +kernel, by decide +kernel, ?_, ?_⟩
  · intro p hp; exact C25_round_trip_parallel (K := ℚ) 2 p (by decide) _
  · exact C25_round_trip_serial (K := ℚ) _ _

/-- Dirichlet on "upper", Neumann elsewhere. -/
def cornBC : Int → BCond ℚ := fun l => if l = 3 then .dirichlet (fun _ _ _ => 1) else .neumann

/-- A concrete failure: in this mesh, with these conditions, rank 0 holds 0 for a ghost which has the value 1 in the serial run. -/
theorem C88_counterexample :
    ∃ WL WG, mkWorld 2 2 cornData (fun p => build2 (fun x => x) Rat.floor 2 (cornData p)) = some WL ∧
      mkWorld 2 1 (fun _ => cornSerial) (fun _ => build2 (fun x => x) Rat.floor 1 cornSerial) = some WG ∧
      ∀ V U : Nat → Vari ℚ, ∃ V' U' F, updateValues WL cornBC V = some V' ∧ updateValues WG cornBC U = some U' ∧ (U' 0).ghost F = 1 ∧
          ∃ i, (cornData 0).nodeloctoglob[i]? = some 3 ∧ ∃ r ∈ (WL.hg 0).haloghosts i, r.last ≠ -1 ∧
            r.pt = ghostPoint 2 (build2 (fun x => x) Rat.floor 1 cornSerial) F ∧ (V' 0).haloghost r.last.toNat = 0 := by
  obtain ⟨WL, WG, w1, w2, hall⟩ := C88_corner_zero_2d cornLaunched cornValid (fun x => x) Rat.floor floor_nat (run_star 2 4)
  have np := cornLaunched.nodePair2 cornValid (fun x => x) Rat.floor floor_nat
  have hl : cornSerial.nodeid.length = 4 := cornLaunched.serial_cells.1
  refine ⟨WL, WG, w1, w2, fun V U => ?_⟩
  obtain ⟨G, hG⟩ : ∃ G, G = build2 (fun x => x) Rat.floor 1 cornSerial := ⟨_, rfl⟩
  -- the face [3, 5] of cell 3
  obtain ⟨j, hj, hp⟩ := np.faceG 3 (by omega) [3, 5] (by decide) rfl (by
    intro x hx
    simp only [List.mem_cons, List.not_mem_nil, or_false] at hx
    rcases hx with rfl | rfl
    · exact ⟨0, by omega, rfl⟩
    · exact ⟨2, by omega, rfl⟩)
  have R := np.run.rank 0 (by omega)
  have hFl := R.cG.flt 3 (by rw [np.run.nG]; omega) j hj
  have hu : (users (build2 (fun x => x) Rat.floor 1 cornSerial).faceid 3 4 ((build2 (fun x => x) Rat.floor 1 cornSerial).faceid 3 j)) = [3] := by
    have h1 : ∀ a, a ∈ users (build2 (fun x => x) Rat.floor 1 cornSerial).faceid 3 4 ((build2 (fun x => x) Rat.floor 1 cornSerial).faceid 3 j) ↔ a = 3 := by
      intro a
      rw [mem_users]
      constructor
      · rintro ⟨ha, jj, hjj, e⟩
        have hn := (np.fnodeG a ha jj hjj).2.2
        rw [e] at hn
        have h5 := hn 5 (hp.subset (by simp))
        obtain ⟨k, hk, e5⟩ := h5
        have e5 : a + k = 5 := e5
        omega
      · rintro rfl; exact ⟨by omega, j, hj, rfl⟩
    have hnd : (users (build2 (fun x => x) Rat.floor 1 cornSerial).faceid 3 4 ((build2 (fun x => x) Rat.floor 1 cornSerial).faceid 3 j)).Nodup :=
      List.nodup_range.filter _
    exact List.perm_singleton.mp ((List.perm_ext_iff_of_nodup hnd (by simp)).mpr (by simpa using h1))
  have hB := built2 (fun x => x) Rat.floor 1 cornSerial (by
    intro r hr; rw [cornLaunched.serial_cells.2.2.2] at hr; simp at hr)
  have hname : (build2 (fun x => x) Rat.floor 1 cornSerial).name ((build2 (fun x => x) Rat.floor 1 cornSerial).faceid 3 j) = 3 := by
    rw [hB.one _ hFl (by rintro ⟨row, hr, _⟩; simp [extOf] at hr) (by
      show (users _ 3 cornSerial.nodeid.length _).length = 1
      rw [hl, hu]; rfl)]
    rw [nm2_side (fun x => x) Rat.floor 1 cornSerial (by rw [hl]; omega) hj]
    have hps := (fnode_perm2 (fun x => x) Rat.floor 1 cornSerial (c := 3) (by rw [hl]; omega) hj)
    have := hp.trans hps
    rw [sid2_eq] at this
    rcases perm2 this with ⟨a, b⟩ | ⟨a, b⟩ <;> rw [← a, ← b, cornLaunched.labelS (by omega), cornLaunched.labelS (by omega), floor_nat, floor_nat] <;> decide
  have hold : (build2 (fun x => x) Rat.floor 1 cornSerial).oldname 3 = 1 := by
    rw [np.oldnameG, np.vertexG]
    show Rat.floor (vtx cornSerial 3 3) = 1
    rw [cornLaunched.labelS (by omega), floor_nat]; decide
  have hc0 : (build2 (fun x => x) Rat.floor 1 cornSerial).cellid ((build2 (fun x => x) Rat.floor 1 cornSerial).faceid 3 j) 0 = 3 := by
    rw [R.cG.cell0 _ hFl]
    show (twoOf (users _ 3 cornSerial.nodeid.length _)).1 = 3
    rw [hl, hu]; rfl
  obtain ⟨V', U', e1, e2, e3, i, e4, r, e5, e6, e7, e8⟩ := hall cornBC V U 0 _ 3 (fun _ _ _ => 1) (by omega)
    ((R.cG.bnd.2 _).mpr ⟨hFl, by rw [hname]; decide⟩) (hp.subset (by simp)) (by rw [hc0]; decide) ⟨1, by omega, by decide, 2, by omega, rfl⟩
    (by rw [hname]; rfl) (by rw [hold]; intro v; simp [cornBC])
  exact ⟨V', U', _, e1, e2, e3, i, e4, r, e5, e6, e7, e8⟩

end Verif.Props.Par
