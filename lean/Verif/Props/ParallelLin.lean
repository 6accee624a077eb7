import Verif.Props.ParLinEq
import Verif.Props.LinSolve
import Verif.Props.ParallelVar

/-!
C98: `LinearSystem` on several processes assembles the matrix and the right-hand side of the serial run, and `solve` gives every process
the serial solution.
-/
set_option linter.unusedSectionVars false
set_option linter.unusedVariables false
set_option linter.unusedSimpArgs false
namespace Verif.Props.Par
open Verif.Fvm Verif.Spec Verif.Conn Verif.Dom Verif.Geo Verif.Names Verif.MeshFile Verif.Part Verif.Comm Verif.Run Verif.HaloGhost
open Verif.LinSolve (ReadsRows SolvedWith)
variable {K : Type*} [Field K] [LinearOrder K] [IsStrictOrderedRing K]

section
variable {dim : Nat} {nodeid : Nat → Nat → Nat} {node : Nat → K × K × K × Nat} {cv : Nat → List K} {npart0 epart : Nat → Nat}
  {nbnodes n SIZE : Nat} {data : Nat → RankData K} {serial : RankData K} {L : Nat → Tables K} {G : Tables K} {B : List Int}
  {out : Nat → Nat → Vec K} {trunc : K → Int}

/-- Matrix, global and local right-hand sides. -/
theorem NodePair.lin_agree (h : NodePair dim nodeid node cv npart0 epart nbnodes n SIZE data serial L G B out trunc)
    (hw : dim = 3 → WedgeOk G ∧ ∀ p < SIZE, WedgeOk (L p)) (star : StarConnected dim nodeid n) (bc : Int → BCond K) {hgL : Nat → HGResult K}
    (sL : ∀ p < SIZE, ∃ rows, HGSpec dim SIZE data L p (hgL p) rows) {hgG : Nat → HGResult K} (sG : HGSerial dim G nbnodes (hgG 0)) :
    (∀ i j, ((List.range SIZE).map (fun p => LinSys.entryT (linTriplets (parW dim SIZE data L hgL) bc p) i j)).sum =
        LinSys.entryT (linTriplets (serW dim serial G hgG) bc 0) i j) ∧
      (∀ i, ((List.range SIZE).map (fun p => linRhsGlob (parW dim SIZE data L hgL) bc p i)).sum = linRhsGlob (serW dim serial G hgG) bc 0 i) ∧
      CellsAgree SIZE data (fun p => linRhsLoc (parW dim SIZE data L hgL) bc p) (linRhsLoc (serW dim serial G hgG) bc 0) := by
  have hS := h.run.hS
  refine ⟨fun i j => ?_, fun i => (h.lin_sum hw star bc sL sG i).1, (h.cellsAgree _ _).mpr fun p hp c hc => ?_⟩
  · have := (h.lin_sum hw star bc sL sG i).2 (fun k => if k = j then 1 else 0)
    simp only [applyT_single] at this
    exact this
  · obtain ⟨rows, s⟩ := sL p hp
    have oL := h.linOkL hw hp s
    have oG := h.linOkG hw sG
    have hC := ((h.run.rank p hp).sub.lt c hc).1
    have eL : (linMesh dim SIZE (data p) (L p) (hgL p)).loctoglob c = phi (data p) c := by simp [linMesh, show ¬ SIZE = 1 by omega, phi]
    have eG : (linMesh dim 1 serial G (hgG 0)).loctoglob (phi (data p) c) = phi (data p) c := by simp [linMesh]
    have k1 := oL.rhsLoc bc hc
    have k2 := oG.rhsLoc bc hC
    rw [eL, (h.lin_row hw star bc hp s sG hc).1] at k1
    rw [eG] at k2
    exact k1.trans k2.symm

/-- The numbering tables of the parallel system. -/
theorem NodePair.lin_numbering (h : NodePair dim nodeid node cv npart0 epart nbnodes n SIZE data serial L G B out trunc) (bc : Int → BCond K)
    (hgL : Nat → HGResult K) (sv : LinSolve.Solver) (direct : (Nat → Nat → K) → (Nat → K) → Nat → K) :
    LinSolve.NumberingOk (linEnv (parW dim SIZE data L hgL) bc sv direct) ∧ (linEnv (parW dim SIZE data L hgL) bc sv direct).globalsize = n := by
  have hS := h.run.hS
  have hS1 : ¬ SIZE = 1 := by omega
  obtain ⟨k1, k2⟩ := C51_numbering_parallel nodeid node cv npart0 epart nbnodes n (dim + 1) SIZE hS h.hl.he _ _ ⟨fun p hp => rfl, rfl⟩
    data h.hl.hdata sv (linEnv (parW dim SIZE data L hgL) bc sv direct).S
  have hl : ∀ p < SIZE, (linEnv (parW dim SIZE data L hgL) bc sv direct).localsize p = (data p).nodeid.length := fun p hp => h.nL hp
  have hg : (linEnv (parW dim SIZE data L hgL) bc sv direct).globalsize = n := by
    rw [← k2, globalsize_sum, globalsize_sum]
    congr 1
    exact List.map_congr_left fun p hp => hl p (List.mem_range.mp hp)
  refine ⟨⟨?_, ?_, fun e => absurd e hS1⟩, hg⟩
  · refine k1.tc.trans (List.flatMap_congr fun p hp => ?_)
    have hp' : p < SIZE := List.mem_range.mp hp
    rw [hl p hp']
    apply List.map_congr_left
    intro j _
    show _ = if SIZE = 1 then j else _
    rw [if_neg hS1]; rfl
  · rw [hg, ← k2]; exact k1.perm

/-- The numbering tables of the serial system. -/
theorem NodePair.lin_numbering_serial (h : NodePair dim nodeid node cv npart0 epart nbnodes n SIZE data serial L G B out trunc) (bc : Int → BCond K)
    (hgG : Nat → HGResult K) (sv : LinSolve.Solver) (direct : (Nat → Nat → K) → (Nat → K) → Nat → K) :
    LinSolve.NumberingOk (linEnv (serW dim serial G hgG) bc sv direct) ∧ (linEnv (serW dim serial G hgG) bc sv direct).globalsize = n := by
  have hl : (linEnv (serW dim serial G hgG) bc sv direct).localsize 0 = n := h.run.nG
  have hg : (linEnv (serW dim serial G hgG) bc sv direct).globalsize = n := by
    rw [globalsize_sum]
    show ((List.range 1).map _).sum = n
    simp [hl]
  have ht : (linEnv (serW dim serial G hgG) bc sv direct).tc = List.range n := by
    show serial.tc = _
    rw [h.hl.serial_eq]
    simp [expected, serialWrite]
  refine ⟨⟨?_, ?_, fun _ _ => rfl⟩, hg⟩
  · rw [ht]
    show _ = (List.range 1).flatMap _
    simp only [List.range_one, List.flatMap_cons, List.flatMap_nil, List.append_nil, hl]
    exact (List.map_id _).symm
  · rw [ht, hg]

/-- The right-hand side at construction is the serial one, on the parallel side. -/
theorem NodePair.lin_rhs (h : NodePair dim nodeid node cv npart0 epart nbnodes n SIZE data serial L G B out trunc)
    (hw : dim = 3 → WedgeOk G ∧ ∀ p < SIZE, WedgeOk (L p)) (star : StarConnected dim nodeid n) (bc : Int → BCond K) {hgL : Nat → HGResult K}
    (sL : ∀ p < SIZE, ∃ rows, HGSpec dim SIZE data L p (hgL p) rows) {hgG : Nat → HGResult K} (sG : HGSerial dim G nbnodes (hgG 0))
    (sv : LinSolve.Solver) (hsv : sv = .mumps ∨ sv = .petsc) (direct : (Nat → Nat → K) → (Nat → K) → Nat → K) (u : Bool) :
    LinSolve.RhsIs (linEnv (parW dim SIZE data L hgL) bc sv direct) (linBnd (parW dim SIZE data L hgL) bc sv) (fun _ => none) u
      (linRhsGlob (serW dim serial G hgG) bc 0) := by
  have hS := h.run.hS
  have hS1 : ¬ SIZE = 1 := by omega
  obtain ⟨_, k2, _⟩ := h.lin_agree hw star bc sL sG
  rcases hsv with rfl | rfl
  · show ∀ g < _, _ = _ + _
    intro g _
    simp only [LinSolve.optVal, ite_self, add_zero]
    exact (k2 g).symm
  · show ∀ p < SIZE, ∀ i < _, _ = _ + _
    intro p hp i hi
    simp only [LinSolve.optVal, ite_self, add_zero]
    obtain ⟨rows, s⟩ := sL p hp
    have oL := h.linOkL hw hp s
    have eL : (linMesh dim SIZE (data p) (L p) (hgL p)).loctoglob i = phi (data p) i := by simp [linMesh, show ¬ SIZE = 1 by omega, phi]
    have k1 := oL.rhsLoc bc (c := i) hi
    rw [eL, (h.lin_row hw star bc hp s sG hi).1] at k1
    show linRhsGlob (serW dim serial G hgG) bc 0 (if SIZE = 1 then i else (data p).loctoglob.getD i 0) = _
    rw [if_neg hS1]
    exact k1.symm

/-- The same on the serial side. -/
theorem NodePair.lin_rhs_serial (h : NodePair dim nodeid node cv npart0 epart nbnodes n SIZE data serial L G B out trunc)
    (hw : dim = 3 → WedgeOk G ∧ ∀ p < SIZE, WedgeOk (L p)) (bc : Int → BCond K)
    {hgG : Nat → HGResult K} (sG : HGSerial dim G nbnodes (hgG 0))
    (sv : LinSolve.Solver) (direct : (Nat → Nat → K) → (Nat → K) → Nat → K) (u : Bool) :
    LinSolve.RhsIs (linEnv (serW dim serial G hgG) bc sv direct) (linBnd (serW dim serial G hgG) bc sv) (fun _ => none) u
      (linRhsGlob (serW dim serial G hgG) bc 0) := by
  cases sv
  case petsc =>
    show ∀ p < 1, ∀ i < _, _ = _ + _
    intro p hp i hi
    obtain rfl : p = 0 := by omega
    simp only [LinSolve.optVal, ite_self, add_zero]
    have eG : (linMesh dim 1 serial G (hgG 0)).loctoglob i = i := by simp [linMesh]
    have k2 := (h.linOkG hw sG).rhsLoc bc (c := i) hi
    rw [eG] at k2
    exact k2.symm
  case mumps =>
    show ∀ g < _, _ = ((List.range 1).map _).sum + _
    intro g _
    simp [LinSolve.optVal, linBnd]
  all_goals
    show ∀ g < _, _ = _ + _
    intro g _
    simp only [LinSolve.optVal, ite_self, add_zero]
    rfl

/-- The solutions agree. -/
theorem NodePair.lin_solve (h : NodePair dim nodeid node cv npart0 epart nbnodes n SIZE data serial L G B out trunc)
    (hw : dim = 3 → WedgeOk G ∧ ∀ p < SIZE, WedgeOk (L p)) (star : StarConnected dim nodeid n) (bc : Int → BCond K) {hgL : Nat → HGResult K}
    (sL : ∀ p < SIZE, ∃ rows, HGSpec dim SIZE data L p (hgL p) rows) {hgG : Nat → HGResult K} (sG : HGSerial dim G nbnodes (hgG 0))
    (direct : (Nat → Nat → K) → (Nat → K) → Nat → K) (hdir : ReadsRows n direct)
    (svL svG : LinSolve.Solver) (r : Nat → K) (s' t' : LinSolve.St K)
    (hL : SolvedWith (linEnv (parW dim SIZE data L hgL) bc svL direct) (linBnd (parW dim SIZE data L hgL) bc svL) r s')
    (hG : SolvedWith (linEnv (serW dim serial G hgG) bc svG direct) (linBnd (serW dim serial G hgG) bc svG) r t') :
    CellsAgree SIZE data s'.cells (t'.cells 0) := by
  have hS := h.run.hS
  have hS1 : ¬ SIZE = 1 := by omega
  obtain ⟨c0, s0, s, ops, args, m1, m2, m3, m4, m5, m6⟩ := hL
  obtain ⟨d0, t0, t, ops', args', n1, n2, n3, n4, n5, n6⟩ := hG
  obtain ⟨nL, gL⟩ := h.lin_numbering bc hgL svL direct
  obtain ⟨nG, gG⟩ := h.lin_numbering_serial bc hgG svG direct
  have hseq := (mkSystem_ok _ (by show 0 < SIZE; omega) _ _ _ s0 m1).1.seq
  have hsv : svL = .mumps ∨ svL = .petsc := by
    cases svL
    · exact absurd (hseq (.inl rfl)) hS1
    · exact absurd (hseq (.inr rfl)) hS1
    · exact .inl rfl
    · exact .inr rfl
  have soL : LinSolve.SolverOk (linEnv (parW dim SIZE data L hgL) bc svL direct) := by
    intro b b' hb; rw [gL] at hb ⊢; exact hdir _ _ b b' (fun _ _ _ _ => rfl) hb
  have soG : LinSolve.SolverOk (linEnv (serW dim serial G hgG) bc svG direct) := by
    intro b b' hb; rw [gG] at hb ⊢; exact hdir _ _ b b' (fun _ _ _ _ => rfl) hb
  refine (h.cellsAgree _ _).mpr fun p hp c hc => ?_
  have e1 := C52_history _ (by show 0 < SIZE; omega) nL soL _ _ c0 s0 s s' m1 _ (h.lin_rhs hw star bc sL sG svL hsv direct _) ops m2 m3
    args m4 r m5 m6 p hp c hc
  have hC := ((h.run.rank p hp).sub.lt c hc).1
  have e2 := C52_history _ (by show 0 < 1; omega) nG soG _ _ d0 t0 t t' n1 _ (h.lin_rhs_serial hw bc sG svG direct _) ops' n2 n3
    args' n4 r n5 n6 0 (by show 0 < 1; omega) (phi (data p) c) hC
  have ew : (linEnv (parW dim SIZE data L hgL) bc svL direct).loctoglob p c = phi (data p) c := by
    show (if SIZE = 1 then c else _) = _
    rw [if_neg hS1]; rfl
  rw [ew] at e1
  rw [e1, e2]
  have : (linEnv (serW dim serial G hgG) bc svG direct).loctoglob 0 (phi (data p) c) = phi (data p) c := rfl
  rw [this]
  refine hdir _ _ _ _ (fun i _ j _ => ?_) (fun _ _ => rfl) _ (by rw [← h.run.nG]; exact hC)
  refine ((h.lin_agree hw star bc sL sG).1 i j).trans ?_
  show _ = ((List.range 1).map _).sum
  simp

end

/-! ### solves exist -/

theorem run_allocs {K : Type*} [Field K] (E : LinSolve.Env K) : ∀ (l : List (Nat → K)) (s : LinSolve.St K),
    ∃ s', LinSolve.run E s (l.map .alloc) = .ok s' ∧ s'.next = s.next + l.length ∧ (∀ r < s.next, s'.heap r = s.heap r) ∧
      ∀ i (h : i < l.length), s'.heap (s.next + i) = l[i] := by
  intro l
  induction l with
  | nil => intro s; exact ⟨s, rfl, by simp, fun _ _ => rfl, fun i h => absurd h (by simp)⟩
  | cons a l ih =>
    intro s
    obtain ⟨s', e, h1, h2, h3⟩ := ih (s.alloc a).1
    have hn : (s.alloc a).1.next = s.next + 1 := rfl
    have hh : ∀ r, (s.alloc a).1.heap r = if r = s.next then a else s.heap r := fun r => by
      simp only [LinSolve.St.alloc, setAt]
    refine ⟨s', ?_, ?_, ?_, ?_⟩
    · simp only [LinSolve.run, List.map_cons, List.foldlM_cons, bind, Except.bind, LinSolve.step]
      exact e
    · rw [h1, hn, List.length_cons]; omega
    · intro r hr
      rw [h2 r (by rw [hn]; omega), hh, if_neg (by omega)]
    · intro i hi
      cases i with
      | zero => rw [Nat.add_zero, h2 _ (by rw [hn]; omega), hh, if_pos rfl]; rfl
      | succ i =>
        have := h3 i (by simpa using hi)
        rw [hn] at this
        rw [show s.next + (i + 1) = s.next + 1 + i by omega, this]; rfl

theorem mkSystem_exists {K : Type*} [Field K] (E : LinSolve.Env K) (bnd : Nat → Nat → K)
    (hsv : E.SIZE = 1 ∨ E.solver = .mumps ∨ E.solver = .petsc) : ∃ s0, LinSolve.mkSystem E bnd (fun _ => none) (fun _ _ => 0) = .ok s0 := by
  have h1 : ∀ p, ∃ a, LinSolve.initRhs0 E bnd (fun _ => none) p = .ok a := by
    intro p
    unfold LinSolve.initRhs0
    cases e : E.solver <;> rw [e] at hsv
    · have : E.SIZE = 1 := by simpa using hsv
      simp only [if_pos this]; exact ⟨_, rfl⟩
    · have : E.SIZE = 1 := by simpa using hsv
      simp only [if_pos this]; exact ⟨_, rfl⟩
    · by_cases hp : p = 0
      · simp only [if_pos hp]; exact ⟨_, rfl⟩
      · simp only [if_neg hp]; exact ⟨_, rfl⟩
    · exact ⟨_, rfl⟩
  have h2 : ∀ m, ∃ l, (List.range m).mapM (LinSolve.initRhs0 E bnd (fun _ => none)) = .ok l := by
    intro m
    induction m with
    | zero => exact ⟨[], rfl⟩
    | succ m ih =>
      obtain ⟨l, e⟩ := ih
      obtain ⟨a, e'⟩ := h1 m
      refine ⟨l ++ [a], ?_⟩
      rw [List.range_succ, List.mapM_append, e]
      simp [e', bind, Except.bind, pure, Except.pure]
  obtain ⟨l, e⟩ := h2 E.SIZE
  unfold LinSolve.mkSystem
  rw [e]
  exact ⟨_, rfl⟩

theorem solvedWith_exists {K : Type*} [Field K] (E : LinSolve.Env K) (hpos : 0 < E.SIZE) (hE : LinSolve.NumberingOk E)
    (hsv : E.SIZE = 1 ∨ E.solver = .mumps ∨ E.solver = .petsc) (bnd : Nat → Nat → K) (r : Nat → K) : ∃ s, LinSolve.SolvedWith E bnd r s := by
  obtain ⟨s0, h0⟩ := mkSystem_exists E bnd hsv
  have leg : ∀ l : List (Nat → K), ∀ o ∈ l.map LinSolve.Op.alloc, o.Legal E := by
    intro l o ho
    obtain ⟨a, _, rfl⟩ := List.mem_map.mp ho
    trivial
  by_cases hp : E.solver = .petsc
  · obtain ⟨l, hl⟩ : ∃ l, l = (List.range E.SIZE).map (fun p i => r (E.loctoglob p i)) := ⟨_, rfl⟩
    obtain ⟨s, e, k1, k2, k3⟩ := run_allocs E l s0
    obtain ⟨s', e'⟩ := C52_progress E hpos hE bnd _ _ s0 s h0 _ (leg l) e
      (fun p => some (s0.next + p)) (fun hm => absurd (hp.symm.trans hm) (by decide))
    refine ⟨s', _, s0, s, _, _, h0, leg _, e, ?_, ?_, e'⟩
    · intro p hp a ha
      obtain rfl : s0.next + p = a := by simpa using ha
      rw [k1, hl]; simpa using hp
    · unfold LinSolve.SourceIs
      rw [hp]
      intro p hp i hi
      have := k3 p (by rw [hl]; simpa using hp)
      simp only [hl, List.getElem_map, List.getElem_range] at this
      simp only [LinSolve.optVal, Option.map_some]
      rw [this]
  · obtain ⟨s, e, k1, k2, k3⟩ := run_allocs E [r] s0
    obtain ⟨s', e'⟩ := C52_progress E hpos hE bnd _ _ s0 s h0 _ (leg [r]) e (fun p => if p = 0 then some s0.next else none)
      (fun _ p hp => if_neg (by omega))
    refine ⟨s', _, s0, s, _, _, h0, leg _, e, ?_, ?_, e'⟩
    · intro p hp a ha
      split_ifs at ha
      · obtain rfl : s0.next = a := by simpa using ha
        simp at k1; omega
    · have k := k3 0 (by simp)
      have : ∀ g < E.globalsize, r g = LinSolve.optVal (Option.map s.heap (some s0.next)) g := by
        intro g _
        simp only [LinSolve.optVal, Option.map_some]
        rw [show s0.next = s0.next + 0 from rfl, k]; rfl
      unfold LinSolve.SourceIs
      cases e : E.solver
      case petsc => exact absurd e hp
      all_goals simpa using this

section
variable {nodeid : Nat → Nat → Nat} {node : Nat → K × K × K × Nat} {npart0 epart : Nat → Nat}
  {nbnodes n SIZE : Nat} {data : Nat → RankData K} {serial : RankData K}

/-- C98 (2D): the matrices assembled by the processes add up to the matrix of the serial run, entry by entry; the global right-hand sides
add up to the serial one; the local right-hand sides (PETSc) are the restrictions of the serial one. -/
theorem C98_assembly_2d_partial (h : Launched 3 nodeid node (centvol2 node nodeid) npart0 epart nbnodes n SIZE data serial)
    (vm : ValidMesh2 nodeid node nbnodes n) (sqrt : K → K) (trunc : K → Int) (htr : ∀ m : Nat, trunc (m : K) = m)
    (star : StarConnected 2 nodeid n) :
    ∃ WL WG, mkWorld 2 SIZE data (fun p => build2 sqrt trunc SIZE (data p)) = some WL ∧
      mkWorld 2 1 (fun _ => serial) (fun _ => build2 sqrt trunc 1 serial) = some WG ∧
      ∀ bc : Int → BCond K,
        (∀ i j, ((List.range SIZE).map (fun p => LinSys.entryT (linTriplets WL bc p) i j)).sum = LinSys.entryT (linTriplets WG bc 0) i j) ∧
        (∀ i, ((List.range SIZE).map (fun p => linRhsGlob WL bc p i)).sum = linRhsGlob WG bc 0 i) ∧
        CellsAgree SIZE data (fun p => linRhsLoc WL bc p) (linRhsLoc WG bc 0) := by
  have np := h.nodePair2 vm sqrt trunc htr
  obtain ⟨hgL, hgG, w1, w2, sL, sG⟩ := np.worlds
  exact ⟨_, _, w1, w2, fun bc => np.lin_agree (by omega) star bc sL sG⟩

/-- C98 (3D). -/
theorem C98_assembly_3d_partial (h : Launched 4 nodeid node (centvol3 node nodeid) npart0 epart nbnodes n SIZE data serial)
    (vm : ValidMesh3 nodeid node nbnodes n) (sqrt : K → K) (trunc : K → Int) (htr : ∀ m : Nat, trunc (m : K) = m)
    (star : StarConnected 3 nodeid n) :
    ∃ WL WG, mkWorld 3 SIZE data (fun p => build3 sqrt trunc SIZE (data p)) = some WL ∧
      mkWorld 3 1 (fun _ => serial) (fun _ => build3 sqrt trunc 1 serial) = some WG ∧
      ∀ bc : Int → BCond K,
        (∀ i j, ((List.range SIZE).map (fun p => LinSys.entryT (linTriplets WL bc p) i j)).sum = LinSys.entryT (linTriplets WG bc 0) i j) ∧
        (∀ i, ((List.range SIZE).map (fun p => linRhsGlob WL bc p i)).sum = linRhsGlob WG bc 0 i) ∧
        CellsAgree SIZE data (fun p => linRhsLoc WL bc p) (linRhsLoc WG bc 0) := by
  have np := h.nodePair3 vm sqrt trunc htr
  obtain ⟨hgL, hgG, w1, w2, sL, sG⟩ := np.worlds
  exact ⟨_, _, w1, w2, fun bc => np.lin_agree
    (fun _ => ⟨wedge_build3 sqrt trunc 1 serial, fun p hp => wedge_build3 sqrt trunc SIZE (data p)⟩) star bc sL sG⟩

/-- C98 (2D, solution): whatever the solvers of the two runs, and whatever happened before, solving with the same source gives every cell
of every process the value of the serial solution. -/
theorem C98_solution_2d_partial (h : Launched 3 nodeid node (centvol2 node nodeid) npart0 epart nbnodes n SIZE data serial)
    (vm : ValidMesh2 nodeid node nbnodes n) (sqrt : K → K) (trunc : K → Int) (htr : ∀ m : Nat, trunc (m : K) = m)
    (star : StarConnected 2 nodeid n) :
    ∃ WL WG, mkWorld 2 SIZE data (fun p => build2 sqrt trunc SIZE (data p)) = some WL ∧
      mkWorld 2 1 (fun _ => serial) (fun _ => build2 sqrt trunc 1 serial) = some WG ∧
      ∀ (bc : Int → BCond K) (direct : (Nat → Nat → K) → (Nat → K) → Nat → K), ReadsRows n direct →
        ∀ (svL svG : LinSolve.Solver) (r : Nat → K) (s t : LinSolve.St K),
          SolvedWith (linEnv WL bc svL direct) (linBnd WL bc svL) r s → SolvedWith (linEnv WG bc svG direct) (linBnd WG bc svG) r t →
          CellsAgree SIZE data s.cells (t.cells 0) := by
  have np := h.nodePair2 vm sqrt trunc htr
  obtain ⟨hgL, hgG, w1, w2, sL, sG⟩ := np.worlds
  exact ⟨_, _, w1, w2, fun bc direct hdir svL svG r s t hs ht => np.lin_solve (by omega) star bc sL sG direct hdir svL svG r s t hs ht⟩

/-- C98 (3D, solution). -/
theorem C98_solution_3d_partial (h : Launched 4 nodeid node (centvol3 node nodeid) npart0 epart nbnodes n SIZE data serial)
    (vm : ValidMesh3 nodeid node nbnodes n) (sqrt : K → K) (trunc : K → Int) (htr : ∀ m : Nat, trunc (m : K) = m)
    (star : StarConnected 3 nodeid n) :
    ∃ WL WG, mkWorld 3 SIZE data (fun p => build3 sqrt trunc SIZE (data p)) = some WL ∧
      mkWorld 3 1 (fun _ => serial) (fun _ => build3 sqrt trunc 1 serial) = some WG ∧
      ∀ (bc : Int → BCond K) (direct : (Nat → Nat → K) → (Nat → K) → Nat → K), ReadsRows n direct →
        ∀ (svL svG : LinSolve.Solver) (r : Nat → K) (s t : LinSolve.St K),
          SolvedWith (linEnv WL bc svL direct) (linBnd WL bc svL) r s → SolvedWith (linEnv WG bc svG direct) (linBnd WG bc svG) r t →
          CellsAgree SIZE data s.cells (t.cells 0) := by
  have np := h.nodePair3 vm sqrt trunc htr
  obtain ⟨hgL, hgG, w1, w2, sL, sG⟩ := np.worlds
  exact ⟨_, _, w1, w2, fun bc direct hdir svL svG r s t hs ht => np.lin_solve
    (fun _ => ⟨wedge_build3 sqrt trunc 1 serial, fun p hp => wedge_build3 sqrt trunc SIZE (data p)⟩) star bc sL sG direct hdir svL svG r s t hs ht⟩

/-- C98 (progress, 2D): with MUMPS or PETSc the system is built on every number of processes and a solve with any source succeeds. -/
theorem C98_solves_2d (h : Launched 3 nodeid node (centvol2 node nodeid) npart0 epart nbnodes n SIZE data serial)
    (vm : ValidMesh2 nodeid node nbnodes n) (sqrt : K → K) (trunc : K → Int) (htr : ∀ m : Nat, trunc (m : K) = m)  :
    ∃ WL WG, mkWorld 2 SIZE data (fun p => build2 sqrt trunc SIZE (data p)) = some WL ∧
      mkWorld 2 1 (fun _ => serial) (fun _ => build2 sqrt trunc 1 serial) = some WG ∧
      ∀ (bc : Int → BCond K) (direct : (Nat → Nat → K) → (Nat → K) → Nat → K) (r : Nat → K),
        (∀ sv, sv = .mumps ∨ sv = .petsc → ∃ s, SolvedWith (linEnv WL bc sv direct) (linBnd WL bc sv) r s) ∧
        (∀ sv, ∃ t, SolvedWith (linEnv WG bc sv direct) (linBnd WG bc sv) r t) := by
  have np := h.nodePair2 vm sqrt trunc htr
  obtain ⟨hgL, hgG, w1, w2, sL, sG⟩ := np.worlds
  have hS := h.hS
  refine ⟨_, _, w1, w2, fun bc direct r => ⟨fun sv hsv => ?_, fun sv => ?_⟩⟩
  · exact solvedWith_exists _ (by show 0 < SIZE; omega) (np.lin_numbering bc hgL sv direct).1 (.inr hsv) _ r
  · exact solvedWith_exists _ (by show 0 < 1; omega) (np.lin_numbering_serial bc hgG sv direct).1 (.inl rfl) _ r

/-- C98 (progress, 3D): with MUMPS or PETSc the system is built on every number of processes and a solve with any source succeeds. -/
theorem C98_solves_3d (h : Launched 4 nodeid node (centvol3 node nodeid) npart0 epart nbnodes n SIZE data serial)
    (vm : ValidMesh3 nodeid node nbnodes n) (sqrt : K → K) (trunc : K → Int) (htr : ∀ m : Nat, trunc (m : K) = m)  :
    ∃ WL WG, mkWorld 3 SIZE data (fun p => build3 sqrt trunc SIZE (data p)) = some WL ∧
      mkWorld 3 1 (fun _ => serial) (fun _ => build3 sqrt trunc 1 serial) = some WG ∧
      ∀ (bc : Int → BCond K) (direct : (Nat → Nat → K) → (Nat → K) → Nat → K) (r : Nat → K),
        (∀ sv, sv = .mumps ∨ sv = .petsc → ∃ s, SolvedWith (linEnv WL bc sv direct) (linBnd WL bc sv) r s) ∧
        (∀ sv, ∃ t, SolvedWith (linEnv WG bc sv direct) (linBnd WG bc sv) r t) := by
  have np := h.nodePair3 vm sqrt trunc htr
  obtain ⟨hgL, hgG, w1, w2, sL, sG⟩ := np.worlds
  have hS := h.hS
  refine ⟨_, _, w1, w2, fun bc direct r => ⟨fun sv hsv => ?_, fun sv => ?_⟩⟩
  · exact solvedWith_exists _ (by show 0 < SIZE; omega) (np.lin_numbering bc hgL sv direct).1 (.inr hsv) _ r
  · exact solvedWith_exists _ (by show 0 < 1; omega) (np.lin_numbering_serial bc hgG sv direct).1 (.inl rfl) _ r

end

/-- The strip on two ranks meets the hypotheses. -/
example := C98_assembly_2d_partial stripLaunched stripValid (fun x => x) Rat.floor floor_nat (run_star 2 4)
example := C98_solution_2d_partial stripLaunched stripValid (fun x => x) Rat.floor floor_nat (run_star 2 4)
example := C98_solves_2d stripLaunched stripValid (fun x => x) Rat.floor floor_nat
/-- The chain of tetrahedra on two ranks meets the hypotheses. -/
example := C98_assembly_3d_partial chainLaunched chainValid (fun x => x) Rat.floor floor_nat (run_star 3 3)
example := C98_solution_3d_partial chainLaunched chainValid (fun x => x) Rat.floor floor_nat (run_star 3 3)
example := C98_solves_3d chainLaunched chainValid (fun x => x) Rat.floor floor_nat

end Verif.Props.Par
