import Verif.Props.Gauss
import Verif.Props.DarcyConst
import Verif.Props.ParSpread
import Verif.Model.RunRebind

/-!
C116: the choice of the linear solver.
-/
set_option linter.unusedSectionVars false
set_option linter.unusedVariables false
set_option linter.unusedSimpArgs false
namespace Verif.Props.Par
open Verif.Fvm Verif.Spec Verif.Conn Verif.Dom Verif.Geo Verif.Names Verif.MeshFile Verif.Part Verif.Comm Verif.Run Verif.HaloGhost Verif.Interp
open Verif.LinSolve (ReadsRows SolvedWith InPlace)
variable {K : Type*} [Field K] [LinearOrder K] [IsStrictOrderedRing K]

/-! ### the flux through a boundary face -/

/-- What the flux through boundary face `f` needs: the point mirrored across the face is not the centre, and lies on the normal. -/
structure Mirrored (dim : Nat) (D : Tables K) (f : Nat) (t : K) : Prop where
  ne : t ≠ 0
  pt : ∀ k < dim, (ghostPoint dim D f).getD k 0 - D.center (idx (D.cellid f 0)) k = t * D.normal f k
  big : D.normal f 0 ^ 2 + D.normal f 1 ^ 2 + (if dim = 2 then 0 else D.normal f 2 ^ 2) ≠ 0
  edge : dim = 2 → ∃ s : K, s ≠ 0 ∧ D.normal f 0 = s * (D.vertex ((D.fnode f).getD 0 0) 1 - D.vertex ((D.fnode f).getD 1 0) 1) ∧
      D.normal f 1 = s * (D.vertex ((D.fnode f).getD 1 0) 0 - D.vertex ((D.fnode f).getD 0 0) 0)
  wedge : dim = 3 → ∀ k < 3, Geo.wedge (fun k => D.vertex ((D.fnode f).getD 1 0) k - D.vertex ((D.fnode f).getD 0 0) k)
    (fun k => D.vertex ((D.fnode f).getD 2 0) k - D.vertex ((D.fnode f).getD 0 0) k) k = 2 * D.normal f k

theorem gradD_jump {D : Tables K} {dim : Nat} (hd : dim = 2 ∨ dim = 3) (node : Nat → K) (f : Nat) (l r : Vec K × K) (t : K) (m : Mirrored dim D f t)
    (ep : ∀ k < dim, r.1 k - l.1 k = t * D.normal f k) :
    gradD dim D node f l r 0 * D.normal f 0 + gradD dim D node f l r 1 * D.normal f 1 + gradD dim D node f l r 2 * D.normal f 2 = (r.2 - l.2) / t := by
  have t0 := m.ne
  have hb := m.big
  rcases hd with rfl | rfl
  · obtain ⟨s, s0, e0, e1⟩ := m.edge rfl
    have p0 := ep 0 (by omega)
    have p1 := ep 1 (by omega)
    obtain ⟨P, hP⟩ : ∃ P, P = D.vertex ((D.fnode f).getD 0 0) := ⟨_, rfl⟩
    obtain ⟨Q, hQ⟩ : ∃ Q, Q = D.vertex ((D.fnode f).getD 1 0) := ⟨_, rfl⟩
    obtain ⟨N, hN⟩ : ∃ N, N = D.normal f := ⟨_, rfl⟩
    simp only [gradD, if_true, gradPts2, zero_mul, add_zero, cut, nodePt, show (0:Nat) < 2 by omega, show (1:Nat) < 2 by omega]
    rw [← hP, ← hQ] at e0 e1
    simp only [if_true, add_zero] at hb
    rw [← hN] at hb e0 e1 p0 p1
    rw [← hP, ← hQ, ← hN]
    rw [p1, show l.1 1 - r.1 1 = - (t * N 1) by rw [← p1]; ring, show l.1 0 - r.1 0 = - (t * N 0) by rw [← p0]; ring]
    have x1 : Q 0 - P 0 = N 1 / s := by rw [e1]; field_simp
    have x2 : Q 1 - P 1 = - (N 0 / s) := by rw [e0]; field_simp; ring
    rw [x1, x2]
    have air : N 1 / s * (t * N 1) + -(t * N 0) * -(N 0 / s) = t * (N 0 ^ 2 + N 1 ^ 2) / s := by field_simp; ring
    rw [air]
    obtain ⟨q, hq⟩ : ∃ q, q = N 0 ^ 2 + N 1 ^ 2 := ⟨_, rfl⟩
    rw [← hq] at hb ⊢
    field_simp
    rw [hq]; ring
  · have w0 := m.wedge rfl 0 (by omega)
    have w1 := m.wedge rfl 1 (by omega)
    have w2 := m.wedge rfl 2 (by omega)
    have p0 := ep 0 (by omega)
    have p1 := ep 1 (by omega)
    have p2 := ep 2 (by omega)
    simp only [gradD, if_neg (show ¬ 3 = 2 by decide)]
    simp only [if_neg (show ¬ 3 = 2 by decide)] at hb
    obtain ⟨N, hN⟩ : ∃ N, N = D.normal f := ⟨_, rfl⟩
    rw [← hN] at hb p0 p1 p2 w0 w1 w2
    rw [← hN]
    obtain ⟨M, hM⟩ : ∃ M : Vec K, M = Geo.wedge (fun k => (cut 3 (nodePt D node f 1)).1 k - (cut 3 (nodePt D node f 0)).1 k)
      (fun k => (cut 3 (nodePt D node f 2)).1 k - (cut 3 (nodePt D node f 0)).1 k) := ⟨_, rfl⟩
    have m0 : M 0 = 2 * N 0 := by rw [hM, ← w0]; simp only [Geo.wedge, cut, nodePt]; simp
    have m1 : M 1 = 2 * N 1 := by rw [hM, ← w1]; simp only [Geo.wedge, cut, nodePt]; simp
    have m2 : M 2 = 2 * N 2 := by rw [hM, ← w2]; simp only [Geo.wedge, cut, nodePt]; simp
    unfold gradPts3
    dsimp only
    rw [← hM]
    obtain ⟨Z, hZ⟩ : ∃ Z : Vec K, Z = fun k => ((cut 3 (nodePt D node f 2)).1 k - (cut 3 (nodePt D node f 1)).1 k) * ((cut 3 (nodePt D node f 0)).2 -
      (cut 3 (nodePt D node f 2)).2) + ((cut 3 (nodePt D node f 0)).1 k - (cut 3 (nodePt D node f 2)).1 k) *
      ((cut 3 (nodePt D node f 1)).2 - (cut 3 (nodePt D node f 2)).2) := ⟨_, rfl⟩
    rw [← hZ]
    simp only [dot3, Geo.wedge, p0, p1, p2, m0, m1, m2]
    have den : 2 * N 0 * (t * N 0) + 2 * N 1 * (t * N 1) + 2 * N 2 * (t * N 2) = 2 * t * (N 0 ^ 2 + N 1 ^ 2 + N 2 ^ 2) := by ring
    rw [den]
    obtain ⟨q, hq⟩ : ∃ q, q = N 0 ^ 2 + N 1 ^ 2 + N 2 ^ 2 := ⟨_, rfl⟩
    rw [← hq] at hb ⊢
    field_simp
    rw [hq]; ring

section
variable {nodeid : Nat → Nat → Nat} {node : Nat → K × K × K × Nat} {npart0 epart : Nat → Nat}
  {nbnodes n SIZE : Nat} {data : Nat → RankData K} {serial : RankData K}

theorem mirrored2 (h : Launched 3 nodeid node (centvol2 node nodeid) npart0 epart nbnodes n SIZE data serial)
    (vm : ValidMesh2 nodeid node nbnodes n) (sqrt : K → K) (hs : ∀ x, 0 < x → sqrt x ≠ 0) (trunc : K → Int) (htr : ∀ m : Nat, trunc (m : K) = m)
    {f : Nat} (hf : f ∈ (build2 sqrt trunc 1 serial).boundaryfaces) : ∃ t, Mirrored 2 (build2 sqrt trunc 1 serial) f t := by
  have np := h.nodePair2 vm sqrt trunc htr
  have h0 : 0 < SIZE := by have := np.run.hS; omega
  have R := np.run.rank 0 h0
  have sd := h.solid2 vm sqrt hs trunc htr
  obtain ⟨t, ht⟩ := ghostNormal_build2 h vm sqrt hs trunc htr f hf
  have hf1 := ((R.cG.bnd.2 f).mp hf).1
  obtain ⟨s, s0, e0, e1⟩ : ∃ s : K, s ≠ 0 ∧ (build2 sqrt trunc 1 serial).normal f 0 = s * ((build2 sqrt trunc 1 serial).vertex (((build2 sqrt trunc 1 serial).fnode f).getD 0 0) 1 - (build2 sqrt trunc 1 serial).vertex (((build2 sqrt trunc 1 serial).fnode f).getD 1 0) 1) ∧
      (build2 sqrt trunc 1 serial).normal f 1 = s * ((build2 sqrt trunc 1 serial).vertex (((build2 sqrt trunc 1 serial).fnode f).getD 1 0) 0 - (build2 sqrt trunc 1 serial).vertex (((build2 sqrt trunc 1 serial).fnode f).getD 0 0) 0) := by
    rw [normal_build2 sqrt trunc 1 serial hf1, orientedNormal2_eq]
    split
    · refine ⟨-1, by norm_num, ?_, ?_⟩ <;> show -1 * rawNormal2 _ _ _ _ = _ <;> simp only [rawNormal2] <;> rfl
    · refine ⟨1, by norm_num, ?_, ?_⟩ <;> simp only [rawNormal2, one_mul] <;> rfl
  have hfc := fcenter_build2 sqrt trunc 1 serial hf1
  obtain ⟨C, hC, j, hj, rfl⟩ := R.cG.fsurj f hf1
  have hb := sd.big C hC j hj
  rcases R.gkinds hC hj with ⟨_, _, _, e⟩ | ⟨_, _, _, _, _, k, _⟩
  · have hn := R.normalG C hC j hj e
    have hCl : C < serial.nodeid.length := hC
    have hCn : C < n := np.run.nG ▸ hC
    have hne := h.nonFlatS vm hCn
    have hnb : (build2 sqrt trunc 1 serial).normal ((build2 sqrt trunc 1 serial).faceid C j) 0 ^ 2 + (build2 sqrt trunc 1 serial).normal ((build2 sqrt trunc 1 serial).faceid C j) 1 ^ 2 ≠ 0 := by
      rw [← hn 0 (by omega), ← hn 1 (by omega), out2_third] at hb
      intro hz; rw [hz] at hb; simp at hb
    refine ⟨t, ?_, ht, by simpa using hnb, fun _ => ⟨s, s0, e0, e1⟩, by omega⟩
    rintro rfl
    have htst := tst_side_ne serial hCl hne hj
    have g0 := ht 0 (by omega)
    have g1 := ht 1 (by omega)
    rw [ghostPoint_side2 sqrt trunc 1 serial hCl hj hne e, e, show idx ((C : Nat) : Int) = C by simp [idx], center_build2 _ _ _ _ hCl] at g0 g1
    simp only [List.getD_cons_zero, List.getD_cons_succ, zero_mul] at g0 g1
    obtain ⟨v, hv⟩ : ∃ v, v = center2 (vtx serial) (row2 serial C).1 (row2 serial C).2.1 (row2 serial C).2.2 := ⟨_, rfl⟩
    rw [← hv] at g0 g1 htst
    apply htst
    simp only [ghostcenter2] at g0 g1
    simp only [tst, rawNormal2, centerf2]
    obtain ⟨A, hA⟩ : ∃ A, A = vtx serial (sA serial C j) := ⟨_, rfl⟩
    obtain ⟨B, hB⟩ : ∃ B, B = vtx serial (sB serial C j) := ⟨_, rfl⟩
    rw [← hA, ← hB] at g0 g1 ⊢
    obtain ⟨γ, hγ⟩ : ∃ γ, γ = ((v 0 - A 0) * (B 0 - A 0) + (v 1 - A 1) * (B 1 - A 1)) / ((B 0 - A 0) ^ 2 + (B 1 - A 1) ^ 2) := ⟨_, rfl⟩
    rw [← hγ] at g0 g1
    linear_combination (-1/2) * (g0 * (A 1 - B 1) + g1 * (B 0 - A 0))
  · exact absurd hf k

theorem mirrored3 (h : Launched 4 nodeid node (centvol3 node nodeid) npart0 epart nbnodes n SIZE data serial)
    (vm : ValidMesh3 nodeid node nbnodes n) (sqrt : K → K) (hs : ∀ x, 0 < x → sqrt x ≠ 0) (trunc : K → Int) (htr : ∀ m : Nat, trunc (m : K) = m)
    {f : Nat} (hf : f ∈ (build3 sqrt trunc 1 serial).boundaryfaces) : ∃ t, Mirrored 3 (build3 sqrt trunc 1 serial) f t := by
  have np := h.nodePair3 vm sqrt trunc htr
  have h0 : 0 < SIZE := by have := np.run.hS; omega
  have R := np.run.rank 0 h0
  have sd := h.solid3 vm sqrt hs trunc htr
  have hf1 := ((R.cG.bnd.2 f).mp hf).1
  have hw := wedge_build3 sqrt trunc 1 serial f hf1
  obtain ⟨C, hC, j, hj, rfl⟩ := R.cG.fsurj f hf1
  have hb := sd.big C hC j hj
  have hmes := sd.mes C hC j hj
  rcases R.gkinds hC hj with ⟨_, _, _, e⟩ | ⟨_, _, _, _, _, k, _⟩
  · have hn := R.normalG C hC j hj e
    have hCl : C < serial.nodeid.length := hC
    have hCn : C < n := np.run.nG ▸ hC
    have hne := h.nonFlatS3 vm hCn
    have hN := normal_first3 sqrt trunc 1 serial hCl hj hne e
    have hfc := fcenter_side3 sqrt trunc 1 serial hCl hj
    have htst := tst3_side_ne serial hne hj
    obtain ⟨D, hD⟩ : ∃ D, D = build3 sqrt trunc 1 serial := ⟨_, rfl⟩
    obtain ⟨F, hF⟩ : ∃ F, F = (build3 sqrt trunc 1 serial).faceid C j := ⟨_, rfl⟩
    have gam : dot3 (fun k => (build3 sqrt trunc 1 serial).fcenter ((build3 sqrt trunc 1 serial).faceid C j) k - (build3 sqrt trunc 1 serial).center C k)
        ((build3 sqrt trunc 1 serial).normal ((build3 sqrt trunc 1 serial).faceid C j)) ≠ 0 := by
      rw [hN, hfc, center_build3 _ _ _ _ hCl]
      intro hz; apply htst
      unfold tst3
      rw [show cen3 serial C = center3 (vtx serial) (row3 serial C).1 (row3 serial C).2.1 (row3 serial C).2.2.1 (row3 serial C).2.2.2 from rfl]
      unfold out3 at hz
      rw [orientedNormal3_eq] at hz
      simp only [dot3] at hz
      split at hz
      · linear_combination hz
      · linear_combination - hz
    rw [← hF] at hmes hw e gam hn
    rw [← hD] at hmes hw e gam hn
    rw [← hF, ← hD]
    refine ⟨2 * dot3 (fun k => D.fcenter F k - D.center C k) (D.normal F) / (D.mesure F * D.mesure F),
      div_ne_zero (mul_ne_zero two_ne_zero gam) (mul_ne_zero hmes hmes), fun k hk => ?_, ?_, by omega, fun _ => hw⟩
    · rw [e]
      rw [show idx ((C : Nat) : Int) = C by simp [idx]]
      unfold ghostPoint
      rw [if_neg (by omega), e, show idx ((C : Nat) : Int) = C by simp [idx]]
      obtain ⟨μ, hμ⟩ : ∃ μ, μ = D.mesure F := ⟨_, rfl⟩
      rw [← hμ] at hmes ⊢
      interval_cases k <;> simp only [ghostcenter3, dot3, List.getD_cons_zero, List.getD_cons_succ] <;> field_simp <;> ring
    · rw [hn 0 (by omega), hn 1 (by omega), if_neg (by omega), hn 2 (by omega)]
      exact hb.ne'
  · exact absurd hf k
end

/-! ### what the boundary objects read -/

section
variable {dim : Nat} {nodeid : Nat → Nat → Nat} {node : Nat → K × K × K × Nat} {cv : Nat → List K} {npart0 epart : Nat → Nat}
  {nbnodes n SIZE : Nat} {data : Nat → RankData K} {serial : RankData K} {L : Nat → Tables K} {G : Tables K} {B : List Int}
  {out : Nat → Nat → Vec K} {trunc : K → Int}

/-- `compute_Sol_gradient` on one process: the ghost values come from `old`. -/
theorem solGradientBound_serial (serial : RankData K) (G : Tables K) (hgG : Nat → HGResult K) (bc : Int → BCond K) (old : Nat → Nat → K) (U : Nat → Vari K) :
    ∃ U' : Nat → Vari K, solGradientBound (serW dim serial G hgG) bc old U = some (U', fun p => nodeValues dim 1 serial G (hgG p) (U' p).fields,
      fun p => solGrads dim G bc (U' p).fields (nodeValues dim 1 serial G (hgG p) (U' p).fields)) ∧ (∀ p, (U' p).cell = (U p).cell) ∧
      ∀ p, ∃ g0, (U' p).ghost = updateGhosts dim G (old p) bc g0 := by
  refine ⟨fun p => { U p with
      halo := [[]].getD p []
      ghost := updateGhosts dim G (old p) bc (U p).ghost
      haloghost := updateHaloghosts dim G (hgG p) (halonodes G) (fun k => ([[]].getD p [] : List K).getD k 0) bc (U p).haloghost }, ?_, fun p => rfl, fun p => ⟨_, rfl⟩⟩
  unfold solGradientBound updateValuesBound updateHaloValue
  rw [exchange_serial]; rfl

/-- The flux through an insulated boundary face is the difference between the cell and what the boundary object reads, over the distance. -/
theorem stale_flux (h : NodePair dim nodeid node cv npart0 epart nbnodes n SIZE data serial L G B out trunc)
    (hw : dim = 3 → WedgeOk G ∧ ∀ p < SIZE, WedgeOk (L p)) (bc : Int → BCond K) {hgG : HGResult K} (sG : HGSerial dim G nbnodes hgG)
    {w : Interp.Fields K} {old g0 : Nat → K} (hg : w.ghost = updateGhosts dim G old bc g0) (nd : Nat → K) {f : Nat} (hf : f ∈ G.boundaryfaces)
    (hN : bc (G.name f) = .neumann) {t : K} (m : Mirrored dim G f t) :
    through G (solGrads dim G bc w nd) f = (w.c (idx (G.cellid f 0)) - old (idx (G.cellid f 0))) / t := by
  have h0 : 0 < SIZE := by have := h.run.hS; omega
  have R := h.run.rank 0 h0
  have oG := h.linOkG hw sG
  obtain ⟨hf1, hBm⟩ := (R.cG.bnd.2 f).mp hf
  have n0 : G.name f ≠ 0 := fun x => R.cG.B0 (x ▸ hBm)
  have n10 : G.name f ≠ 10 := fun x => R.cG.B10 (x ▸ hBm)
  have hdf : ¬ dirFace dim G bc f := fun x => by have := x.2; rw [hN] at this; cases this
  have pts : ∀ k < 3, solGrads dim G bc w nd f k = - gradD dim G (solNode dim G bc nd f) f (sideL dim G w f) (solR dim G bc w f) k :=
    fun k hk => solGrads_pts h.run.hd R.cG h.hBe (fun e => (hw e).1) bc w _ hf1 (oG.names f hf1) hk
  have key := gradD_jump h.run.hd (solNode dim G bc nd f) f (sideL dim G w f) (solR dim G bc w f) t m (fun k hk => by
    unfold solR sideL cut otherPt
    rw [if_neg n0, if_neg n10]
    simp only [if_pos hk]
    exact m.pt k hk)
  have e1 : (solR dim G bc w f).2 = old (idx (G.cellid f 0)) := by
    unfold solR cut
    rw [if_neg hdf]
    unfold otherVal
    rw [if_neg n0, if_neg n10, hg, updateGhosts_apply _ _ _ _ _ hf1 ((oG.loc _).mp hBm), hN]
    rfl
  have e2 : (sideL dim G w f).2 = w.c (idx (G.cellid f 0)) := rfl
  rw [e1, e2] at key
  unfold through
  rw [pts 0 (by omega), pts 1 (by omega), pts 2 (by omega)]
  have : (w.c (idx (G.cellid f 0)) - old (idx (G.cellid f 0))) / t = - ((old (idx (G.cellid f 0)) - w.c (idx (G.cellid f 0))) / t) := by ring
  rw [this, ← key]; ring

/-- With Dirichlet conditions everywhere the ghost values do not depend on the cells. -/
theorem updateGhosts_dirichlet (dim : Nat) (G : Tables K) (a b : Nat → K) (bc : Int → BCond K) (hD : ∀ loc ∈ locNames dim, (bc loc).isDirichlet = true) (g : Nat → K) :
    updateGhosts dim G a bc g = updateGhosts dim G b bc g := by
  unfold updateGhosts
  apply List.foldl_ext
  intro g loc hl
  have := hD loc hl
  unfold ghostOne
  cases hb : bc loc with
  | neumann => rw [hb] at this; cases this
  | nonslip => rw [hb] at this; cases this
  | dirichlet v => rfl

theorem solGradientBound_eq (W : World K) (bc : Int → BCond K) (sv : LinSolve.Solver) (hsv : (∀ loc ∈ locNames W.dim, (bc loc).isDirichlet = true) ∨ InPlace sv)
    (old : Nat → Nat → K) (V : Nat → Vari K) (cur : Nat → Nat → K) (hV : ∀ p, (V p).cell = cur p) :
    solGradientBound W bc (boundCells sv old cur) V = solGradient W bc V := by
  unfold solGradientBound solGradient celltonode updateValuesBound updateValues updateHaloValue
  rw [Option.map_map, Option.map_map, Option.map_map, Option.map_map, Option.map_map, Option.map_map]
  congr 1
  funext H
  have : ∀ p g, updateGhosts W.dim (W.D p) (boundCells sv old cur p) bc g = updateGhosts W.dim (W.D p) (V p).cell bc g := by
    intro p g
    rcases hsv with hD | hsv
    · exact updateGhosts_dirichlet _ _ _ _ _ hD _
    · rw [hV p]; rcases hsv with rfl | rfl <;> rfl
  simp only [Function.comp, this]
  rfl

theorem darcyStepBound_eq (W : World K) (S : DSetup K) (sv : LinSolve.Solver) (direct : (Nat → Nat → K) → (Nat → K) → Nat → K)
    (hsv : (∀ loc ∈ locNames W.dim, (S.bcP loc).isDirichlet = true) ∨ InPlace sv) (old : Nat → Nat → K) (s : DState K) :
    darcyStepBound W S sv direct old s = darcyStep W S sv direct s := by
  unfold darcyStepBound darcyStep
  congr 1
  funext sys
  rw [solGradientBound_eq W S.bcP sv hsv old _ sys.cells (fun p => rfl)]

theorem darcyLoopBound_eq (W : World K) (S : DSetup K) (sv : LinSolve.Solver) (direct : (Nat → Nat → K) → (Nat → K) → Nat → K)
    (hsv : (∀ loc ∈ locNames W.dim, (S.bcP loc).isDirichlet = true) ∨ InPlace sv) (old : Nat → Nat → K) (s : DState K) (N : Nat) :
    darcyLoopBound W S sv direct old s N = darcyLoop W S sv direct s N := by
  induction N with
  | zero => rfl
  | succ N ih =>
    simp only [darcyLoopBound, darcyLoop, ih]
    congr 1
    funext s
    rw [darcyStepBound_eq W S sv direct hsv]

/-! ### the same solution for all solvers -/

theorem solGrads_fun (hd : dim = 2 ∨ dim = 3) (D : Tables K) (bc : Int → BCond K) (w w' : Interp.Fields K) (nd nd' : Nat → K)
    (h0 : ∀ f < D.nbfaces, w.c (idx (D.cellid f 0)) = w'.c (idx (D.cellid f 0)))
    (h1 : ∀ f ∈ D.innerfaces, w.c (idx (D.cellid f 1)) = w'.c (idx (D.cellid f 1)))
    (hnd : ∀ f < D.nbfaces, ∀ k < dim, nd ((D.fnode f).getD k 0) = nd' ((D.fnode f).getD k 0))
    (hg : ∀ f < D.nbfaces, D.name f ∈ locNames dim → w.ghost f = w'.ghost f)
    (hi : ∀ f ∈ D.innerfaces, f < D.nbfaces) (hh : D.halofaces = []) (hp : D.periodicboundaryfaces = []) :
    solGrads dim D bc w nd = solGrads dim D bc w' nd' := by
  have named : ∀ (P : Int → Bool) (f : Nat), f ∈ (locNames dim).flatMap (fun loc => if P loc then Var.facesNamed D.name D.nbfaces loc else []) →
      f < D.nbfaces ∧ D.name f ∈ locNames dim := by
    intro P f hf
    obtain ⟨loc, hl, hf⟩ := List.mem_flatMap.mp hf
    split at hf
    · obtain ⟨a, b⟩ : f < D.nbfaces ∧ D.name f = loc := by simpa [Var.facesNamed] using hf
      exact ⟨a, b ▸ hl⟩
    · simp at hf
  have nv : ∀ f < D.nbfaces, ∀ k < dim, nodeValue nd (pbordNode dim D bc) D.oldname (bcDirichlet dim bc) ((D.fnode f).getD k 0) =
      nodeValue nd' (pbordNode dim D bc) D.oldname (bcDirichlet dim bc) ((D.fnode f).getD k 0) := by
    intro f hf k hk
    unfold nodeValue; rw [hnd f hf k hk]
  have hneu : ∀ f ∈ (varFaces dim D bc).neumann, f < D.nbfaces ∧ D.name f ∈ locNames dim := by
    intro f hf
    obtain ⟨loc, hl, hf⟩ := List.mem_flatMap.mp hf
    split at hf
    · simp at hf
    · obtain ⟨a, b⟩ : f < D.nbfaces ∧ D.name f = loc := by simpa [Var.facesNamed] using hf
      exact ⟨a, b ▸ hl⟩
  have hdir : ∀ f ∈ (varFaces dim D bc).dirichlet, f < D.nbfaces ∧ D.name f ∈ locNames dim := fun f hf => named (fun loc => (bc loc).isDirichlet) f hf
  have hin : (varFaces dim D bc).inner = D.innerfaces := rfl
  have hha : (varFaces dim D bc).halo = [] := hh
  have hpe : (varFaces dim D bc).periodic = [] := hp
  rcases hd with rfl | rfl
  · have : computePGradient2 (faceTabs 2 D) (varFaces 2 D bc) w nd (pbordNode 2 D bc) (pbordFace 2 D bc) D.oldname (bcDirichlet 2 bc) (fun _ => (0, 0)) =
        computePGradient2 (faceTabs 2 D) (varFaces 2 D bc) w' nd' (pbordNode 2 D bc) (pbordFace 2 D bc) D.oldname (bcDirichlet 2 bc) (fun _ => (0, 0)) := by
      funext f
      simp only [computePGradient2, writeList_apply, hha, hpe, List.not_mem_nil, if_false, hin]
      by_cases d1 : f ∈ (varFaces 2 D bc).dirichlet
      · simp only [if_pos d1, faceTabs, h0 f (hdir f d1).1]
      · simp only [if_neg d1]
        by_cases d2 : f ∈ (varFaces 2 D bc).neumann
        · obtain ⟨a, b⟩ := hneu f d2
          simp only [if_pos d2, faceTabs, h0 f a, hg f a b, nv f a 0 (by omega), nv f a 1 (by omega)]
        · simp only [if_neg d2]
          by_cases d3 : f ∈ D.innerfaces
          · have a := hi f d3
            simp only [if_pos d3, faceTabs, h0 f a, h1 f d3, nv f a 0 (by omega), nv f a 1 (by omega)]
          · simp only [if_neg d3]
    unfold solGrads
    rw [if_pos rfl, if_pos rfl]
    dsimp only
    rw [this]
  · unfold solGrads
    rw [if_neg (by decide), if_neg (by decide)]
    funext f
    simp only [computePGradient3, writeList_apply, hha, hpe, List.not_mem_nil, if_false, hin]
    by_cases d1 : f ∈ (varFaces 3 D bc).dirichlet
    · simp only [if_pos d1, faceTabs, h0 f (hdir f d1).1]
    · simp only [if_neg d1]
      by_cases d2 : f ∈ (varFaces 3 D bc).neumann
      · obtain ⟨a, b⟩ := hneu f d2
        simp only [if_pos d2, faceTabs, h0 f a, hg f a b, nv f a 0 (by omega), nv f a 1 (by omega), nv f a 2 (by omega)]
      · simp only [if_neg d2]
        by_cases d3 : f ∈ D.innerfaces
        · have a := hi f d3
          simp only [if_pos d3, faceTabs, h0 f a, h1 f d3, nv f a 0 (by omega), nv f a 1 (by omega), nv f a 2 (by omega)]
        · simp only [if_neg d3]

/-- The value at a node is determined by the cells of the mesh. -/
theorem node_cells (h : NodePair dim nodeid node cv npart0 epart nbnodes n SIZE data serial L G B out trunc) {bc : Int → BCond K}
    {hgG : HGResult K} (sG : HGSerial dim G nbnodes hgG) {w w' : Interp.Fields K} (v : ValuesG dim G bc w) (v' : ValuesG dim G bc w')
    (hc : ∀ C < G.nbcells, w.c C = w'.c C) {s : Nat} (hi : s < nbnodes) :
    nodeValues dim 1 serial G hgG w s = nodeValues dim 1 serial G hgG w' s := by
  have h0 : 0 < SIZE := by have := h.run.hS; omega
  have R := h.run.rank 0 h0
  have st : SameStencil dim (nodeStencil dim (nodeTabs dim 1 serial G hgG) w s) (nodeStencil dim (nodeTabs dim 1 serial G hgG) w' s) := by
    unfold SameStencil
    rw [h.node_stencilG sG v hi, h.node_stencilG sG v' hi]
    have e1 : (users nodeid (dim + 1) n s).map (EC dim G w.c) = (users nodeid (dim + 1) n s).map (EC dim G w'.c) :=
      List.map_congr_left fun C hC => by
        unfold EC; rw [hc C (by rw [h.run.nG]; exact ((mem_users _ _ _ _ _).mp hC).1)]
    have e2 : (bf G s).map (EF dim G w.c bc) = (bf G s).map (EF dim G w'.c bc) :=
      List.map_congr_left fun F hF => by
        obtain ⟨f1, f2, f3⟩ := (mem_bf _ _ _).mp hF
        obtain ⟨c, hcl, e⟩ := R.first_lt f1
        unfold EF ghostVal
        rw [e, idx_cast, hc c hcl]
    rw [e1, e2]
  unfold nodeValues
  rcases h.run.hd with rfl | rfl
  · rw [if_pos rfl, if_pos rfl]; exact node_value2 _ _ _ _ _ _ (fun _ _ => rfl) st
  · rw [if_neg (by decide), if_neg (by decide)]; exact node_value3 _ _ _ _ _ _ (fun _ _ => rfl) st

/-- The field is determined by the cells of the mesh. -/
theorem solGrads_cells (h : NodePair dim nodeid node cv npart0 epart nbnodes n SIZE data serial L G B out trunc)
    (hw : dim = 3 → WedgeOk G ∧ ∀ p < SIZE, WedgeOk (L p)) {bc : Int → BCond K}
    {hgG : HGResult K} (sG : HGSerial dim G nbnodes hgG) {w w' : Interp.Fields K} (v : ValuesG dim G bc w) (v' : ValuesG dim G bc w')
    (hc : ∀ C < G.nbcells, w.c C = w'.c C) :
    solGrads dim G bc w (nodeValues dim 1 serial G hgG w) = solGrads dim G bc w' (nodeValues dim 1 serial G hgG w') := by
  have h0 : 0 < SIZE := by have := h.run.hS; omega
  have R := h.run.rank 0 h0
  have oG := h.linOkG hw sG
  have first : ∀ f < G.nbfaces, w.c (idx (G.cellid f 0)) = w'.c (idx (G.cellid f 0)) := by
    intro f hf
    obtain ⟨c, hcl, e⟩ := R.first_lt hf
    rw [e, idx_cast, hc c hcl]
  refine solGrads_fun h.run.hd G bc w w' _ _ first ?_ ?_ ?_ ?_ ?_ ?_
  · intro f hf
    obtain ⟨hf1, hn⟩ := (R.cG.inner.2 f).mp hf
    obtain ⟨c, hcl, j, hj, rfl⟩ := R.cG.fsurj f hf1
    rcases R.gkinds hcl hj with ⟨hBm, _⟩ | ⟨e, he, hne, hnn, _, _, hk⟩
    · exact absurd (hn ▸ hBm) R.cG.B0
    · rcases hk with ⟨_, k2⟩ | ⟨_, k2⟩
      · rw [k2, idx_cast, hc e he]
      · rw [k2, idx_cast, hc c hcl]
  · intro f hf k hk
    have hm := oG.fnode_lt hf hk
    exact node_cells h sG v v' hc (by rw [← h.nbG]; exact hm.2)
  · intro f hf hn
    obtain ⟨a, ea⟩ := v.ghost
    obtain ⟨b, eb⟩ := v'.ghost
    rw [ea, eb, updateGhosts_apply _ _ _ _ _ hf hn, updateGhosts_apply _ _ _ _ _ hf hn]
    obtain ⟨c, hcl, e⟩ := R.first_lt hf
    unfold ghostVal
    rw [e, idx_cast, hc c hcl]
  · intro f hf; exact ((R.cG.inner.2 f).mp hf).1
  · exact R.halo_nil
  · exact R.cG.per

/-- On one process `darcyMove` only depends on the arrays of process 0. -/
theorem darcyMove_local (serial : RankData K) (G : Tables K) (hgG : Nat → HGResult K) (S : DSetup K) {vel vel' : Nat → Nat → Vec K} {V V' : Nat → Vari K}
    (hv : vel 0 = vel' 0) (hV : V 0 = V' 0) :
    ∃ m m', darcyMove (serW dim serial G hgG) S vel V = some m ∧ darcyMove (serW dim serial G hgG) S vel' V' = some m' ∧
      m.1 0 = m'.1 0 ∧ m.2.1 0 = m'.2.1 0 ∧ m.2.2 = m'.2.2 := by
  have hdt : allreduceMin 1 (fun p => darcyDt dim S G (vel p)) = allreduceMin 1 (fun p => darcyDt dim S G (vel' p)) := by
    unfold allreduceMin; simp [hv]
  cases hdiff : S.diff
  · unfold darcyMove cellGradient faceGradient celltonode updateValues updateHaloValue
    simp only [exchange_serial, Option.map_some, Option.bind_some, hdiff, Bool.false_eq_true, if_false]
    refine ⟨_, _, rfl, rfl, ?_, ?_, ?_⟩
    · simp only [updateGhostValue, hV, hv]
      rw [show allreduceMin (serW dim serial G hgG).SIZE _ = _ from hdt]
    · simp only [updateGhostValue, hV, hv]
      rw [show allreduceMin (serW dim serial G hgG).SIZE _ = _ from hdt]
    · exact hdt
  · unfold darcyMove cellGradient faceGradient celltonode updateValues updateHaloValue
    simp only [exchange_serial, Option.map_some, Option.bind_some, hdiff, if_true]
    refine ⟨_, _, rfl, rfl, ?_, ?_, ?_⟩
    · simp only [updateGhostValue, hV, hv]
      rw [show allreduceMin (serW dim serial G hgG).SIZE _ = _ from hdt]
    · simp only [updateGhostValue, hV, hv]
      rw [show allreduceMin (serW dim serial G hgG).SIZE _ = _ from hdt]
    · exact hdt

/-- Two runs on one process with different solvers. -/
structure SolverEq (W : World K) (S : DSetup K) (sv sv' : LinSolve.Solver) (direct : (Nat → Nat → K) → (Nat → K) → Nat → K) (s s' : DState K) : Prop where
  sys : SysOk (linEnv W S.bcP sv direct) (linBnd W S.bcP sv) s.sys
  sys' : SysOk (linEnv W S.bcP sv' direct) (linBnd W S.bcP sv') s'.sys
  var : s.V 0 = s'.V 0
  vel : s.vel 0 = s'.vel 0
  node : s.node 0 = s'.node 0
  time : s.time = s'.time
  pot : ∀ c < (W.D 0).nbcells, s.sys.cells 0 c = s'.sys.cells 0 c

theorem solverEq_step (h : NodePair dim nodeid node cv npart0 epart nbnodes n SIZE data serial L G B out trunc)
    (hw : dim = 3 → WedgeOk G ∧ ∀ p < SIZE, WedgeOk (L p)) {hgG : Nat → HGResult K} (sG : HGSerial dim G nbnodes (hgG 0)) (S : DSetup K)
    {direct : (Nat → Nat → K) → (Nat → K) → Nat → K} (hdir : ReadsRows n direct) (sv sv' : LinSolve.Solver) (s s' : DState K)
    (hm : SolverEq (serW dim serial G hgG) S sv sv' direct s s') :
    ∃ t t', darcyStep (serW dim serial G hgG) S sv direct s = some t ∧ darcyStep (serW dim serial G hgG) S sv' direct s' = some t' ∧
      SolverEq (serW dim serial G hgG) S sv sv' direct t t' := by
  obtain ⟨a, ea, oa, wa⟩ := hm.sys.solve (by show 0 < 1; omega) (h.lin_numbering_serial S.bcP hgG sv direct).1
  obtain ⟨b, eb, ob, wb⟩ := hm.sys'.solve (by show 0 < 1; omega) (h.lin_numbering_serial S.bcP hgG sv' direct).1
  have hc : ∀ C < G.nbcells, a.cells 0 C = b.cells 0 C := by
    intro C hC
    rw [serial_solution h hw sG hdir wa hC, serial_solution h hw sG hdir wb hC]
  obtain ⟨P, e1, c1, v1⟩ := serial_update (dim := dim) serial G hgG S.bcP (fun p => { s.P p with cell := a.cells p })
  obtain ⟨Q, e2, c2, v2⟩ := serial_update (dim := dim) serial G hgG S.bcP (fun p => { s'.P p with cell := b.cells p })
  have f1 : solGradient (serW dim serial G hgG) S.bcP (fun p => { s.P p with cell := a.cells p }) =
      some (P, fun p => nodeValues dim 1 serial G (hgG p) (P p).fields, fun p => solGrads dim G S.bcP (P p).fields (nodeValues dim 1 serial G (hgG p) (P p).fields)) := by
    unfold solGradient celltonode; rw [e1]; rfl
  have f2 : solGradient (serW dim serial G hgG) S.bcP (fun p => { s'.P p with cell := b.cells p }) =
      some (Q, fun p => nodeValues dim 1 serial G (hgG p) (Q p).fields, fun p => solGrads dim G S.bcP (Q p).fields (nodeValues dim 1 serial G (hgG p) (Q p).fields)) := by
    unfold solGradient celltonode; rw [e2]; rfl
  have hv : (fun p => solGrads dim G S.bcP (P p).fields (nodeValues dim 1 serial G (hgG p) (P p).fields)) 0 =
      (fun p => solGrads dim G S.bcP (Q p).fields (nodeValues dim 1 serial G (hgG p) (Q p).fields)) 0 :=
    solGrads_cells h hw sG (v1 0) (v2 0) (fun C hC => by
      show (P 0).cell C = (Q 0).cell C
      rw [c1, c2]; exact hc C hC)
  obtain ⟨m, m', g1, g2, q1, q2, q3⟩ := darcyMove_local (dim := dim) serial G hgG S
    (vel := fun p => solGrads dim G S.bcP (P p).fields (nodeValues dim 1 serial G (hgG p) (P p).fields))
    (vel' := fun p => solGrads dim G S.bcP (Q p).fields (nodeValues dim 1 serial G (hgG p) (Q p).fields)) hv hm.var
  refine ⟨{ sys := a, P := P, vel := fun p => solGrads dim G S.bcP (P p).fields (nodeValues dim 1 serial G (hgG p) (P p).fields), V := m.1, node := m.2.1, time := s.time + m.2.2 },
    { sys := b, P := Q, vel := fun p => solGrads dim G S.bcP (Q p).fields (nodeValues dim 1 serial G (hgG p) (Q p).fields), V := m'.1, node := m'.2.1, time := s'.time + m'.2.2 },
    ?_, ?_, ⟨oa, ob, q1, hv, q2, by rw [hm.time, q3], hc⟩⟩
  · unfold darcyStep
    rw [ea]
    simp only [Except.toOption, Option.bind_some]
    rw [f1]
    simp only [Option.bind_some]
    rw [g1]; rfl
  · unfold darcyStep
    rw [eb]
    simp only [Except.toOption, Option.bind_some]
    rw [f2]
    simp only [Option.bind_some]
    rw [g2]; rfl

theorem solverEq_loop (h : NodePair dim nodeid node cv npart0 epart nbnodes n SIZE data serial L G B out trunc)
    (hw : dim = 3 → WedgeOk G ∧ ∀ p < SIZE, WedgeOk (L p)) {hgG : Nat → HGResult K} (sG : HGSerial dim G nbnodes (hgG 0)) (S : DSetup K)
    {direct : (Nat → Nat → K) → (Nat → K) → Nat → K} (hdir : ReadsRows n direct) (sv sv' : LinSolve.Solver)
    (hsv : (∀ loc ∈ locNames dim, (S.bcP loc).isDirichlet = true) ∨ (InPlace sv ∧ InPlace sv')) (f g : K → K → K → K) (N : Nat) :
    ∃ t t', darcyRun (serW dim serial G hgG) S sv direct f g N = some t ∧ darcyRun (serW dim serial G hgG) S sv' direct f g N = some t' ∧
      SolverEq (serW dim serial G hgG) S sv sv' direct t t' := by
  have start : ∀ sv, ∃ b, LinSolve.mkSystem (linEnv (serW dim serial G hgG) S.bcP sv direct) (linBnd (serW dim serial G hgG) S.bcP sv) (fun _ => none)
      (fun _ c => g (G.center c 0) (G.center c 1) (G.center c 2)) = .ok b ∧ (∀ p, b.cells p = fun c => g (G.center c 0) (G.center c 1) (G.center c 2)) ∧
      darcyStart (serW dim serial G hgG) S sv direct f g = some {
        sys := b
        P := fun _ => ⟨fun c => g (G.center c 0) (G.center c 1) (G.center c 2), fun _ => 0, fun _ => 0, []⟩
        vel := fun _ _ _ => 0
        V := fun _ => ⟨fun c => f (G.center c 0) (G.center c 1) (G.center c 2), fun _ => 0, fun _ => 0, []⟩
        node := fun _ _ => 0
        time := 0 } := by
    intro sv
    obtain ⟨b, eb, cb⟩ := mkSystem_start (linEnv (serW dim serial G hgG) S.bcP sv direct) (linBnd (serW dim serial G hgG) S.bcP sv)
      (fun _ c => g (G.center c 0) (G.center c 1) (G.center c 2)) (.inl rfl)
    refine ⟨b, eb, cb, ?_⟩
    unfold darcyStart
    show Option.map _ (LinSolve.mkSystem _ _ _ (fun _ c => g (G.center c 0) (G.center c 1) (G.center c 2))).toOption = _
    rw [eb]; rfl
  obtain ⟨b, eb, cb, sb⟩ := start sv
  obtain ⟨b', eb', cb', sb'⟩ := start sv'
  unfold darcyRun
  rw [sb, sb']
  simp only [Option.bind_some]
  rw [darcyLoopBound_eq (serW dim serial G hgG) S sv direct (hsv.imp id (·.1)), darcyLoopBound_eq (serW dim serial G hgG) S sv' direct (hsv.imp id (·.2))]
  induction N with
  | zero => exact ⟨_, _, rfl, rfl, ⟨_, b, [], eb, by simp, rfl⟩, ⟨_, b', [], eb', by simp, rfl⟩, rfl, rfl, rfl, rfl, fun c _ => by
      show b.cells 0 c = b'.cells 0 c
      rw [cb, cb']⟩
  | succ N ih =>
    obtain ⟨t, t', e1, e2, m⟩ := ih
    simp only [darcyLoop, e1, e2, Option.bind_some]
    rw [m.time]
    by_cases ht : t'.time < S.tfinal
    · simp only [if_pos ht]; exact solverEq_step h hw sG S hdir sv sv' t t' m
    · simp only [if_neg ht]; exact ⟨t, t', rfl, rfl, m⟩

/-- After an iteration, the flux of the velocity through an insulated face. -/
theorem step_insulated (h : NodePair dim nodeid node cv npart0 epart nbnodes n SIZE data serial L G B out trunc)
    (hw : dim = 3 → WedgeOk G ∧ ∀ p < SIZE, WedgeOk (L p)) (hmi : ∀ f ∈ G.boundaryfaces, ∃ t, Mirrored dim G f t)
    {hgG : Nat → HGResult K} (sG : HGSerial dim G nbnodes (hgG 0)) (S : DSetup K)
    (direct : (Nat → Nat → K) → (Nat → K) → Nat → K) (sv : LinSolve.Solver) (old : Nat → Nat → K) (s s' : DState K)
    (hs : darcyStepBound (serW dim serial G hgG) S sv direct old s = some s') {f : Nat} (hf : f ∈ G.boundaryfaces)
    (hN : S.bcP (G.name f) = .neumann) :
    through G (s'.vel 0) f = 0 ↔ boundCells sv old s'.sys.cells 0 (idx (G.cellid f 0)) = s'.sys.cells 0 (idx (G.cellid f 0)) := by
  unfold darcyStepBound at hs
  obtain ⟨sys, e1, hs⟩ := Option.bind_eq_some_iff.mp hs
  obtain ⟨U', e2, c2, g2⟩ := solGradientBound_serial (dim := dim) serial G hgG S.bcP (boundCells sv old sys.cells) (fun p => { s.P p with cell := sys.cells p })
  rw [e2] at hs
  simp only [Option.bind_some] at hs
  obtain ⟨m, e3, rfl⟩ := Option.map_eq_some_iff.mp hs
  obtain ⟨t, mt⟩ := hmi f hf
  obtain ⟨g0, eg⟩ := g2 0
  have := stale_flux h hw S.bcP sG (w := (U' 0).fields) (old := boundCells sv old sys.cells 0) (g0 := g0) eg (nodeValues dim 1 serial G (hgG 0) (U' 0).fields) hf hN mt
  show through G (solGrads dim G S.bcP (U' 0).fields (nodeValues dim 1 serial G (hgG 0) (U' 0).fields)) f = 0 ↔
    boundCells sv old sys.cells 0 (idx (G.cellid f 0)) = sys.cells 0 (idx (G.cellid f 0))
  have ec : (U' 0).fields.c = sys.cells 0 := c2 0
  rw [this, ec, div_eq_zero_iff, or_iff_left mt.ne, sub_eq_zero]
  exact eq_comm
end

/-! ### C116 -/

section
variable {nodeid : Nat → Nat → Nat} {node : Nat → K × K × K × Nat} {npart0 epart : Nat → Nat}
  {nbnodes n SIZE : Nat} {data : Nat → RankData K} {serial : RankData K}

/-- **C116** (2D, one process): with Dirichlet conditions for the pressure on all sides, a Darcy run computes the same fields with any two of
the four solvers; with MUMPS and PETSc it does whatever the conditions.  Partial: with `spsolve` or `umfpack` and insulated sides it does not
(`C116_insulated_flux_2d`). -/
theorem C116_solver_choice_2d_partial (vm : ValidMesh2 nodeid node nbnodes n)
    (hr : readMeshFile 1 0 (writeSerial (serialWrite nodeid node nbnodes n 3)) [] = some serial)
    (sqrt : K → K) (trunc : K → Int) (htr : ∀ m : Nat, trunc (m : K) = m) :
    ∃ W, mkWorld 2 1 (fun _ => serial) (fun _ => build2 sqrt trunc 1 serial) = some W ∧
      ∀ (S : DSetup K) (direct : (Nat → Nat → K) → (Nat → K) → Nat → K), ReadsRows n direct → ∀ sv sv' : LinSolve.Solver,
        ((∀ loc ∈ locNames 2, (S.bcP loc).isDirichlet = true) ∨ (InPlace sv ∧ InPlace sv')) → ∀ (f g : K → K → K → K) (N : Nat),
        ∃ s s', darcyRun W S sv direct f g N = some s ∧ darcyRun W S sv' direct f g N = some s' ∧ s.time = s'.time ∧
          (s.V 0).cell = (s'.V 0).cell ∧ s.node 0 = s'.node 0 ∧ s.vel 0 = s'.vel 0 ∧ ∀ c < n, s.sys.cells 0 c = s'.sys.cells 0 c := by
  obtain ⟨data, h⟩ := launched_of_serial (centvol2 node nodeid) (by omega) vm.nodes vm.used hr
  have np := h.nodePair2 vm sqrt trunc htr
  obtain ⟨hgL, hgG, w1, w2, sL, sG⟩ := np.worlds
  refine ⟨_, w2, fun S direct hdir sv sv' hsv f g N => ?_⟩
  obtain ⟨t, t', e1, e2, m⟩ := solverEq_loop np (by omega) sG S hdir sv sv' hsv f g N
  exact ⟨t, t', e1, e2, m.time, by rw [m.var], m.node, m.vel, fun c hc => m.pot c (by show c < (build2 sqrt trunc 1 serial).nbcells; rw [np.run.nG]; exact hc)⟩

/-- C116 (3D, one process). -/
theorem C116_solver_choice_3d_partial (vm : ValidMesh3 nodeid node nbnodes n)
    (hr : readMeshFile 1 0 (writeSerial (serialWrite nodeid node nbnodes n 4)) [] = some serial)
    (sqrt : K → K) (trunc : K → Int) (htr : ∀ m : Nat, trunc (m : K) = m) :
    ∃ W, mkWorld 3 1 (fun _ => serial) (fun _ => build3 sqrt trunc 1 serial) = some W ∧
      ∀ (S : DSetup K) (direct : (Nat → Nat → K) → (Nat → K) → Nat → K), ReadsRows n direct → ∀ sv sv' : LinSolve.Solver,
        ((∀ loc ∈ locNames 3, (S.bcP loc).isDirichlet = true) ∨ (InPlace sv ∧ InPlace sv')) → ∀ (f g : K → K → K → K) (N : Nat),
        ∃ s s', darcyRun W S sv direct f g N = some s ∧ darcyRun W S sv' direct f g N = some s' ∧ s.time = s'.time ∧
          (s.V 0).cell = (s'.V 0).cell ∧ s.node 0 = s'.node 0 ∧ s.vel 0 = s'.vel 0 ∧ ∀ c < n, s.sys.cells 0 c = s'.sys.cells 0 c := by
  obtain ⟨data, h⟩ := launched_of_serial (centvol3 node nodeid) (by omega) vm.nodes vm.used hr
  have np := h.nodePair3 vm sqrt trunc htr
  obtain ⟨hgL, hgG, w1, w2, sL, sG⟩ := np.worlds
  refine ⟨_, w2, fun S direct hdir sv sv' hsv f g N => ?_⟩
  obtain ⟨t, t', e1, e2, m⟩ := solverEq_loop np (fun _ => ⟨wedge_build3 sqrt trunc 1 serial, fun p _ => wedge_build3 sqrt trunc 2 (data p)⟩) sG S hdir sv sv' hsv f g N
  exact ⟨t, t', e1, e2, m.time, by rw [m.var], m.node, m.vel, fun c hc => m.pot c (by show c < (build3 sqrt trunc 1 serial).nbcells; rw [np.run.nG]; exact hc)⟩

/-- C116: `spsolve` and `umfpack` always agree. -/
theorem C116_sequential_solvers (W : World K) (S : DSetup K) (direct : (Nat → Nat → K) → (Nat → K) → Nat → K) (f g : K → K → K → K) (N : Nat) :
    darcyRun W S .spsolve direct f g N = darcyRun W S .umfpack direct f g N := by
  have e1 : darcyStart W S .spsolve direct f g = darcyStart W S .umfpack direct f g := rfl
  have e2 : ∀ old s, darcyStepBound W S .spsolve direct old s = darcyStepBound W S .umfpack direct old s := fun _ _ => rfl
  have e3 : ∀ old s N, darcyLoopBound W S .spsolve direct old s N = darcyLoopBound W S .umfpack direct old s N := by
    intro old s N
    induction N with
    | zero => rfl
    | succ N ih => simp only [darcyLoopBound, ih, e2]
  unfold darcyRun
  rw [e1]; simp only [e3]

theorem rebind_cases {sv : LinSolve.Solver} {old cur : Nat → Nat → K} {c : Nat} {A : Prop} (h : A ↔ boundCells sv old cur 0 c = cur 0 c) :
    (InPlace sv → A) ∧ (¬ InPlace sv → (A ↔ cur 0 c = old 0 c)) := by
  cases sv
  · exact ⟨fun h => by simp [InPlace] at h, fun _ => h.trans eq_comm⟩
  · exact ⟨fun h => by simp [InPlace] at h, fun _ => h.trans eq_comm⟩
  · exact ⟨fun _ => h.mpr rfl, fun hn => absurd (by simp [InPlace]) hn⟩
  · exact ⟨fun _ => h.mpr rfl, fun hn => absurd (by simp [InPlace]) hn⟩

/-- C116 (2D, one process), the failing case: in every iteration, on every insulated boundary face, the velocity has no flux through the face
exactly if the boundary object of the pressure reads the value of the cell: always with MUMPS and PETSc; with `spsolve` and `umfpack` only
where the solution has the value `P.cell` had when the system was built (`old`). -/
theorem C116_insulated_flux_2d (vm : ValidMesh2 nodeid node nbnodes n)
    (hr : readMeshFile 1 0 (writeSerial (serialWrite nodeid node nbnodes n 3)) [] = some serial)
    (sqrt : K → K) (hs : ∀ x, 0 < x → sqrt x ≠ 0) (trunc : K → Int) (htr : ∀ m : Nat, trunc (m : K) = m) :
    ∃ W, mkWorld 2 1 (fun _ => serial) (fun _ => build2 sqrt trunc 1 serial) = some W ∧
      ∀ (S : DSetup K) (direct : (Nat → Nat → K) → (Nat → K) → Nat → K) (sv : LinSolve.Solver) (old : Nat → Nat → K) (s s' : DState K),
        darcyStepBound W S sv direct old s = some s' → ∀ f ∈ (W.D 0).boundaryfaces, S.bcP ((W.D 0).name f) = .neumann →
        (InPlace sv → through (W.D 0) (s'.vel 0) f = 0) ∧
        (¬ InPlace sv → (through (W.D 0) (s'.vel 0) f = 0 ↔ s'.sys.cells 0 (idx ((W.D 0).cellid f 0)) = old 0 (idx ((W.D 0).cellid f 0)))) := by
  obtain ⟨data, h⟩ := launched_of_serial (centvol2 node nodeid) (by omega) vm.nodes vm.used hr
  have np := h.nodePair2 vm sqrt trunc htr
  obtain ⟨hgL, hgG, w1, w2, sL, sG⟩ := np.worlds
  refine ⟨_, w2, fun S direct sv old s s' e f hf hN => ?_⟩
  have := step_insulated np (by omega) (fun f hf => mirrored2 h vm sqrt hs trunc htr hf) sG S direct sv old s s' e hf hN
  exact rebind_cases this

/-- C116 (3D, one process), the failing case. -/
theorem C116_insulated_flux_3d (vm : ValidMesh3 nodeid node nbnodes n)
    (hr : readMeshFile 1 0 (writeSerial (serialWrite nodeid node nbnodes n 4)) [] = some serial)
    (sqrt : K → K) (hs : ∀ x, 0 < x → sqrt x ≠ 0) (trunc : K → Int) (htr : ∀ m : Nat, trunc (m : K) = m) :
    ∃ W, mkWorld 3 1 (fun _ => serial) (fun _ => build3 sqrt trunc 1 serial) = some W ∧
      ∀ (S : DSetup K) (direct : (Nat → Nat → K) → (Nat → K) → Nat → K) (sv : LinSolve.Solver) (old : Nat → Nat → K) (s s' : DState K),
        darcyStepBound W S sv direct old s = some s' → ∀ f ∈ (W.D 0).boundaryfaces, S.bcP ((W.D 0).name f) = .neumann →
        (InPlace sv → through (W.D 0) (s'.vel 0) f = 0) ∧
        (¬ InPlace sv → (through (W.D 0) (s'.vel 0) f = 0 ↔ s'.sys.cells 0 (idx ((W.D 0).cellid f 0)) = old 0 (idx ((W.D 0).cellid f 0)))) := by
  obtain ⟨data, h⟩ := launched_of_serial (centvol3 node nodeid) (by omega) vm.nodes vm.used hr
  have np := h.nodePair3 vm sqrt trunc htr
  obtain ⟨hgL, hgG, w1, w2, sL, sG⟩ := np.worlds
  refine ⟨_, w2, fun S direct sv old s s' e f hf hN => ?_⟩
  have := step_insulated np (fun _ => ⟨wedge_build3 sqrt trunc 1 serial, fun p _ => wedge_build3 sqrt trunc 2 (data p)⟩) (fun f hf => mirrored3 h vm sqrt hs trunc htr hf) sG S direct sv old s s' e hf hN
  exact rebind_cases this
end

section
variable {nodeid : Nat → Nat → Nat} {node : Nat → K × K × K × Nat} {npart0 epart : Nat → Nat}
  {nbnodes n SIZE : Nat} {data : Nat → RankData K} {serial : RankData K}

/-- An edge used by one cell only is a boundary face. -/
theorem outer_boundary2 (h : Launched 3 nodeid node (centvol2 node nodeid) npart0 epart nbnodes n SIZE data serial)
    (vm : ValidMesh2 nodeid node nbnodes n) (sqrt : K → K) (trunc : K → Int) (htr : ∀ m : Nat, trunc (m : K) = m) {C s x : Nat} (hC : C < n)
    (hsx : s ≠ x) (hs : Uses nodeid 3 C s) (hx : Uses nodeid 3 C x) (ho : ∀ c' < n, c' ≠ C → ¬ (Uses nodeid 3 c' s ∧ Uses nodeid 3 c' x)) :
    ∃ f ∈ (build2 sqrt trunc 1 serial).boundaryfaces, idx ((build2 sqrt trunc 1 serial).cellid f 0) = C := by
  have np := h.nodePair2 vm sqrt trunc htr
  have h0 : 0 < SIZE := by have := np.run.hS; omega
  have R := np.run.rank 0 h0
  have hCG : C < (build2 sqrt trunc 1 serial).nbcells := np.run.nG ▸ hC
  obtain ⟨j, hj, pj⟩ := np.faceG C hC [s, x] (by simpa using hsx) rfl (by simp [hs, hx])
  rcases R.gkinds hCG hj with ⟨_, hb, _, e0⟩ | ⟨E, hE, hEC, _, _, _, hcell⟩
  · exact ⟨_, hb, by rw [e0, idx_cast]⟩
  · exfalso
    have hF := R.cG.flt C hCG j hj
    have hu : Uses (build2 sqrt trunc 1 serial).faceid 3 E ((build2 sqrt trunc 1 serial).faceid C j) := by
      obtain ⟨a, ha, ea, ua⟩ := users_first (R.cG.users_ne hF)
      obtain ⟨b, hb, eb, ub⟩ := users_second (R.cG.name0 _ hF ‹_›)
      rcases hcell with ⟨_, e⟩ | ⟨e, _⟩
      · rw [R.cG.cell1 _ hF ‹_›, eb] at e
        obtain rfl : b = E := by exact_mod_cast e
        exact ub
      · rw [R.cG.cell0 _ hF, ea] at e
        obtain rfl : a = E := by exact_mod_cast e
        exact ua
    obtain ⟨i, hi, e⟩ := hu
    have hEn : E < n := np.run.nG ▸ hE
    have hall := (np.fnodeG E hEn i hi).2.2
    rw [e] at hall
    exact ho E hEn hEC ⟨hall s (pj.subset (by simp)), hall x (pj.subset (by simp))⟩
end

section
variable {dim : Nat} {nodeid : Nat → Nat → Nat} {node : Nat → K × K × K × Nat} {cv : Nat → List K} {npart0 epart : Nat → Nat}
  {nbnodes n SIZE : Nat} {data : Nat → RankData K} {serial : RankData K} {L : Nat → Tables K} {G : Tables K} {B : List Int}
  {out : Nat → Nat → Vec K} {trunc : K → Int}

/-- The first iteration of a run on one process. -/
theorem darcyRun_one (h : NodePair dim nodeid node cv npart0 epart nbnodes n SIZE data serial L G B out trunc)
    (hw : dim = 3 → WedgeOk G ∧ ∀ p < SIZE, WedgeOk (L p)) {hgG : Nat → HGResult K} (sG : HGSerial dim G nbnodes (hgG 0)) (S : DSetup K)
    (ht : 0 < S.tfinal) {direct : (Nat → Nat → K) → (Nat → K) → Nat → K} (hdir : ReadsRows n direct) (sv : LinSolve.Solver) (f g : K → K → K → K) :
    ∃ s s', darcyRun (serW dim serial G hgG) S sv direct f g 1 = some s' ∧
      darcyStepBound (serW dim serial G hgG) S sv direct (fun _ c => g (G.center c 0) (G.center c 1) (G.center c 2)) s = some s' ∧
      ∀ c < G.nbcells, s'.sys.cells 0 c = direct (matrixOf (serW dim serial G hgG) S.bcP) (fun i => boundaryOf (serW dim serial G hgG) S.bcP i + 0) c := by
  obtain ⟨b, eb, cb⟩ := mkSystem_start (linEnv (serW dim serial G hgG) S.bcP sv direct) (linBnd (serW dim serial G hgG) S.bcP sv)
      (fun _ c => g (G.center c 0) (G.center c 1) (G.center c 2)) (.inl rfl)
  obtain ⟨s0, es, e0, et⟩ : ∃ s0, darcyStart (serW dim serial G hgG) S sv direct f g = some s0 ∧ s0.sys = b ∧ s0.time = 0 := by
    unfold darcyStart
    change ∃ s0, Option.map _ (LinSolve.mkSystem _ _ _ (fun _ c => g (G.center c 0) (G.center c 1) (G.center c 2))).toOption = _ ∧ _
    rw [eb]; exact ⟨_, rfl, rfl, rfl⟩
  have so : SysOk (linEnv (serW dim serial G hgG) S.bcP sv direct) (linBnd (serW dim serial G hgG) S.bcP sv) s0.sys :=
    ⟨_, b, [], eb, by simp, by rw [e0]; rfl⟩
  obtain ⟨a, ea, oa, wa⟩ := so.solve (by show 0 < 1; omega) (h.lin_numbering_serial S.bcP hgG sv direct).1
  obtain ⟨s', hs'⟩ : ∃ s', darcyStepBound (serW dim serial G hgG) S sv direct (fun _ c => g (G.center c 0) (G.center c 1) (G.center c 2)) s0 = some s' ∧ s'.sys = a := by
    unfold darcyStepBound
    rw [ea]
    simp only [Except.toOption, Option.bind_some]
    obtain ⟨U', e2, c2, g2⟩ := solGradientBound_serial (dim := dim) serial G hgG S.bcP
      (boundCells sv (fun _ c => g (G.center c 0) (G.center c 1) (G.center c 2)) a.cells) (fun p => { s0.P p with cell := a.cells p })
    rw [e2]
    simp only [Option.bind_some]
    obtain ⟨m, m', g1, _⟩ := darcyMove_local (dim := dim) serial G hgG S (V := s0.V) (V' := s0.V)
      (vel := fun p => solGrads dim G S.bcP (U' p).fields (nodeValues dim 1 serial G (hgG p) (U' p).fields))
      (vel' := fun p => solGrads dim G S.bcP (U' p).fields (nodeValues dim 1 serial G (hgG p) (U' p).fields)) rfl rfl
    rw [g1]
    exact ⟨_, rfl, rfl⟩
  refine ⟨s0, s', ?_, hs'.1, fun c hc => ?_⟩
  · unfold darcyRun
    rw [es]
    simp only [Option.bind_some, darcyLoopBound]
    rw [if_pos (by rw [et]; exact ht)]
    exact hs'.1
  · rw [hs'.2]
    exact serial_solution h hw sG hdir wa hc
end

/-- A solver that solves every solvable system, and returns zero when the right-hand side is zero. -/
theorem zero_solver (n : Nat) : ∃ direct : (Nat → Nat → K) → (Nat → K) → Nat → K, ReadsRows n direct ∧ SolvesSystems n direct ∧
    ∀ A b, (∀ i < n, b i = 0) → ∀ j, direct A b j = 0 := by
  classical
  obtain ⟨d, h1, h2⟩ := solver_exists (K := K) n
  refine ⟨fun A b => if ∀ i < n, b i = 0 then fun _ => 0 else d A b, ?_, ?_, ?_⟩
  · intro A A' b b' hA hb g hg
    have : (∀ i < n, b i = 0) ↔ ∀ i < n, b' i = 0 := forall_congr' fun i => forall_congr' fun hi => by rw [hb i hi]
    dsimp only
    by_cases hz : ∀ i < n, b i = 0
    · rw [if_pos hz, if_pos (this.mp hz)]
    · rw [if_neg hz, if_neg (fun x => hz (this.mpr x))]; exact h1 A A' b b' hA hb g hg
  · intro A b hs i hi
    dsimp only
    split_ifs with hz
    · simp [hz i hi]
    · exact h2 A b hs i hi
  · intro A b hz j
    dsimp only
    rw [if_pos hz]

/-- C116, a concrete run where the choice matters: four triangles, all sides insulated for the pressure, `P.cell` filled with 1 before the
system is built, a solver that is right on every solvable system.  The exact solution is the zero pressure, without any velocity; after one
iteration the run with MUMPS has no flux through the insulated sides, the run with `spsolve` has. -/
theorem C116_insulated_leak : ∃ W, mkWorld 2 1 (fun _ => stripSerial) (fun _ => build2 (fun x : ℚ => x) Rat.floor 1 stripSerial) = some W ∧
    ∃ direct : (Nat → Nat → ℚ) → (Nat → ℚ) → Nat → ℚ, ReadsRows 4 direct ∧ SolvesSystems 4 direct ∧
    ∃ s s', darcyRun W { uniSetup with bcP := fun _ => .neumann } .spsolve direct (fun x _ _ => x) (fun _ _ _ => 1) 1 = some s ∧
      darcyRun W { uniSetup with bcP := fun _ => .neumann } .mumps direct (fun x _ _ => x) (fun _ _ _ => 1) 1 = some s' ∧
      (∀ c < 4, s.sys.cells 0 c = s'.sys.cells 0 c) ∧
      ∃ f ∈ (W.D 0).boundaryfaces, through (W.D 0) (s'.vel 0) f = 0 ∧ through (W.D 0) (s.vel 0) f ≠ 0 := by
  obtain ⟨direct, h1, h2, h3⟩ := zero_solver (K := ℚ) 4
  have h := stripLaunched
  have vm := stripValid
  have np := h.nodePair2 vm (fun x => x) Rat.floor floor_nat
  obtain ⟨hgL, hgG, w1, w2, sL, sG⟩ := np.worlds
  obtain ⟨S, hS⟩ : ∃ S : DSetup ℚ, S = { uniSetup with bcP := fun _ => .neumann } := ⟨_, rfl⟩
  have hN : S.bcP = fun _ => .neumann := by rw [hS]
  have hz : ∀ i < 4, boundaryOf (serW 2 stripSerial (build2 (fun x => x) Rat.floor 1 stripSerial) hgG) S.bcP i = 0 := by
    intro i hi
    have := const_solves np (by omega) (ghostNormal_build2 h vm (fun x => x) (fun x hx => ne_of_gt hx) Rat.floor floor_nat) (bc := S.bcP)
      (fun F hF s hs => Or.inr (by rw [hN])) (fun loc => Or.inr (by rw [hN])) sG 0 (fun loc => by rw [hN]; trivial)
      (fun s hn => surrounded2 h vm (fun x => x) Rat.floor floor_nat (stripSpread s hn)) i hi
    rw [← this]; simp
  obtain ⟨s0, s, e1, e2, e3⟩ := darcyRun_one np (by omega) sG S (by rw [hS]; decide) h1 .spsolve (fun x _ _ => x) (fun _ _ _ => 1)
  obtain ⟨t0, t, f1, f2, f3⟩ := darcyRun_one np (by omega) sG S (by rw [hS]; decide) h1 .mumps (fun x _ _ => x) (fun _ _ _ => 1)
  have c1 : ∀ c < 4, s.sys.cells 0 c = 0 := fun c hc => by
    rw [e3 c (by rw [np.run.nG]; exact hc)]
    exact h3 _ _ (fun i hi => by rw [hz i hi, add_zero]) _
  have c2 : ∀ c < 4, t.sys.cells 0 c = 0 := fun c hc => by
    rw [f3 c (by rw [np.run.nG]; exact hc)]
    exact h3 _ _ (fun i hi => by rw [hz i hi, add_zero]) _
  obtain ⟨F, hF, eF⟩ := outer_boundary2 h vm (fun x => x) Rat.floor floor_nat (C := 0) (s := 0) (x := 1) (by decide) (by decide) (by decide) (by decide) (by decide)
  have hm : ∀ f ∈ (build2 (fun x : ℚ => x) Rat.floor 1 stripSerial).boundaryfaces, ∃ t, Mirrored 2 (build2 (fun x : ℚ => x) Rat.floor 1 stripSerial) f t :=
    fun f hf => mirrored2 h vm (fun x => x) (fun x hx => ne_of_gt hx) Rat.floor floor_nat hf
  have k1 := rebind_cases (step_insulated np (by omega) hm sG S direct .spsolve _ s0 s e2 hF (by rw [hN]))
  have k2 := rebind_cases (step_insulated np (by omega) hm sG S direct .mumps _ t0 t f2 hF (by rw [hN]))
  rw [← hS]
  refine ⟨_, w2, direct, h1, h2, s, t, e1, f1, fun c hc => by rw [c1 c hc, c2 c hc], F, hF, k2.1 (Or.inl rfl), fun hh => ?_⟩
  have := (k1.2 (by simp [InPlace])).mp hh
  rw [eF, c1 0 (by decide)] at this
  exact absurd this (by norm_num)

example := C116_solver_choice_2d_partial stripValid stripLaunched.hserial (fun x => x) Rat.floor floor_nat
example := C116_solver_choice_3d_partial chainValid chainLaunched.hserial (fun x => x) Rat.floor floor_nat
example : ∀ loc ∈ locNames 2, (uniSetup.bcP loc).isDirichlet = true := fun _ _ => rfl
example := C116_insulated_flux_2d stripValid stripLaunched.hserial (fun x => x) (fun x hx => ne_of_gt hx) Rat.floor floor_nat
example := C116_insulated_flux_3d chainValid chainLaunched.hserial (fun x => x) (fun x hx => ne_of_gt hx) Rat.floor floor_nat

end Verif.Props.Par
