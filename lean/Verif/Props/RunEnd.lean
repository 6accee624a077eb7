import Verif.Props.RunFlow
import Mathlib.Algebra.Order.Archimedean.Basic

/-! # C95: the transport driver terminates -/
set_option linter.unusedSectionVars false
set_option linter.unusedVariables false
set_option linter.unusedSimpArgs false
namespace Verif.Props.Par
open Verif.Fvm Verif.Spec Verif.Conn Verif.Dom Verif.Geo Verif.Names Verif.MeshFile Verif.Part Verif.Comm Verif.Run Verif.HaloGhost
variable {K : Type*} [Field K] [LinearOrder K] [IsStrictOrderedRing K]

theorem exists_lower (n : Nat) (f : Nat → K) (h : ∀ i < n, 0 < f i) (a : K) (ha : 0 < a) : ∃ δ, 0 < δ ∧ δ ≤ a ∧ ∀ i < n, δ ≤ f i := by
  induction n with
  | zero => exact ⟨a, ha, le_refl _, by intro i hi; omega⟩
  | succ n ih =>
    obtain ⟨δ, h1, h2, h3⟩ := ih (fun i hi => h i (by omega))
    refine ⟨min δ (f n), lt_min h1 (h n (by omega)), (min_le_left _ _).trans h2, fun i hi => ?_⟩
    rcases Nat.lt_succ_iff_lt_or_eq.mp hi with hi | rfl
    · exact (min_le_left _ _).trans (h3 i hi)
    · exact min_le_right _ _

theorem facetocell_abs (u : Nat → K) (faces : List Nat) (dim : Nat) (hl : faces.length = dim + 1) (U : K) (h : ∀ f ∈ faces, |u f| ≤ U) :
    |Interp.facetocell u faces dim| ≤ U := by
  obtain ⟨h1, h2⟩ := Verif.Interp.C45_bounds u faces dim hl (-U) U (fun f hf => abs_le.mp (h f hf))
  exact abs_le.mpr ⟨h1, h2⟩

section
variable {dim : Nat} {nodeid : Nat → Nat → Nat} {node : Nat → K × K × K × Nat} {cv : Nat → List K} {npart0 epart : Nat → Nat}
  {nbnodes n SIZE : Nat} {data : Nat → RankData K} {serial : RankData K} {L : Nat → Tables K} {G : Tables K} {B : List Int}
  {out : Nat → Nat → Vec K} {trunc : K → Int}

/-- The clock of one iteration, of any order and with or without diffusion. -/
theorem tstep_time (h : NodePair dim nodeid node cv npart0 epart nbnodes n SIZE data serial L G B out trunc) (hgL : Nat → HGResult K)
    (S : Setup K) (order : Int) (diff : Bool) (s : TState K) :
    ∃ s', tstep (parW dim SIZE data L hgL) S order diff s = some s' ∧ s'.time = s.time + localStep dim S G s.iter ∧ s'.iter = s.iter + 1 := by
  have e0 : HGResult K := ⟨fun _ => [], fun _ => [], fun _ => [], fun _ => [], 0⟩
  have upd : ∀ V : Nat → Vari K, ∃ V', updateValues (parW dim SIZE data L hgL) S.bc V = some V' := by
    intro V
    obtain ⟨A, hA⟩ := h.run.glue (fun p => (V p).cell)
    obtain ⟨V1, U1, u1, _⟩ := update_match h hgL (fun _ => e0) S.bc V (fun _ => ⟨A, fun _ => 0, fun _ => 0, []⟩) hA
    exact ⟨V1, u1⟩
  have hdt := dt_match h.run S s.iter
  rw [show allreduceMin 1 (fun _ => localStep dim S G s.iter) = localStep dim S G s.iter by unfold allreduceMin; simp] at hdt
  obtain ⟨V1, u1⟩ := upd s.V
  obtain ⟨A, hA⟩ := h.run.glue (fun p => (V1 p).cell)
  obtain ⟨V2, gL, U2, gG, c1, _⟩ := cellGradient_glue h hgL (fun _ => e0) S.bc V1 (fun _ => ⟨A, fun _ => 0, fun _ => 0, []⟩) hA
  cases diff with
  | false =>
    unfold tstep
    rw [u1]
    simp only [Option.bind_some]
    rw [c1]
    simp only [Option.bind_some]
    refine ⟨_, rfl, ?_, rfl⟩
    show s.time + _ = _
    exact congrArg (s.time + ·) hdt
  | true =>
    obtain ⟨V3, u3⟩ := upd V2
    obtain ⟨q, eq⟩ : ∃ q, faceGradient (parW dim SIZE data L hgL) S.bc V2 = some q := by
      unfold faceGradient celltonode; rw [u3]; exact ⟨_, rfl⟩
    unfold tstep
    rw [u1]
    simp only [Option.bind_some]
    rw [c1]
    simp only [Option.bind_some, if_true]
    rw [eq]
    simp only [Option.bind_some]
    unfold celltonode
    generalize hY : updateValues (parW dim SIZE data L hgL) S.bc _ = Y
    obtain ⟨V4, u4⟩ := upd _
    rw [hY] at u4
    subst u4
    refine ⟨_, rfl, ?_, rfl⟩
    show s.time + _ = _
    exact congrArg (s.time + ·) hdt

/-- The time step has a positive lower bound. -/
theorem step_lower (h : RunPair dim SIZE n epart data L G B out) (hs : Solid G dim out) (S : Setup K) (hc : 0 < S.cfl)
    (U : K) (hU : ∀ it x y z, |S.u it x y z| ≤ U ∧ |S.v it x y z| ≤ U ∧ |S.w it x y z| ≤ U)
    (hD : 0 ≤ S.Dxx + S.Dyy + S.Dzz) (hpos : 0 < S.Dxx + S.Dyy + S.Dzz ∨ (UniformVelocity S ∧ NotAtRest dim S)) :
    ∃ δ, 0 < δ ∧ ∀ it, δ ≤ localStep dim S G it := by
  have h0 : 0 < SIZE := by have := h.hS; omega
  have R := h.rank 0 h0
  have hU0 : 0 ≤ U := (abs_nonneg _).trans (hU 0 0 0 0).1
  have hrp : ∀ it, ∀ C < G.nbcells, 0 < cflRate (toCells dim G (atFaces G (S.u it))) (toCells dim G (atFaces G (S.v it)))
      (toCells dim G (atFaces G (S.w it))) G.normal G.volume G.faceid dim S.Dxx S.Dyy S.Dzz C := by
    intro it C hC
    rcases hpos with hp | ⟨hv, hr⟩
    · unfold cflRate
      apply Finset.sum_pos
      · intro j hj
        have hj := Finset.mem_range.mp hj
        obtain ⟨ε, hε, hn⟩ := R.normalG_pm hC hj
        rw [hn 0 (by omega), hn 1 (by omega), hn 2 (by omega)]
        have h1 := hs.big C hC j hj
        have h2 := hs.vpos C hC
        have h3 : (ε * out C j 0) ^ 2 + (ε * out C j 1) ^ 2 + (ε * out C j 2) ^ 2 = out C j 0 ^ 2 + out C j 1 ^ 2 + out C j 2 ^ 2 := by
          rcases hε with rfl | rfl <;> ring
        rw [h3]
        have : 0 < (S.Dxx + S.Dyy + S.Dzz) * (out C j 0 ^ 2 + out C j 1 ^ 2 + out C j 2 ^ 2) / G.volume C := by positivity
        linarith [abs_nonneg (toCells dim G (atFaces G (S.u it)) C * (ε * out C j 0) + toCells dim G (atFaces G (S.v it)) C * (ε * out C j 1)
          + toCells dim G (atFaces G (S.w it)) C * (ε * out C j 2))]
      · exact ⟨0, by simp⟩
    · obtain ⟨u, v, w, huv⟩ := hv it
      rw [toCells_const dim G (atFaces G (S.u it)) u (fun f => (huv _ _ _).1), toCells_const dim G (atFaces G (S.v it)) v (fun f => (huv _ _ _).2.1),
        toCells_const dim G (atFaces G (S.w it)) w (fun f => (huv _ _ _).2.2)]
      refine R.rate_pos rfl hs u v w _ _ _ hD ?_ h.hd hC
      rcases hr with hr | hr
      · exact Or.inl hr
      · have := hr it 0 0 0
        rw [(huv 0 0 0).1, (huv 0 0 0).2.1, (huv 0 0 0).2.2] at this
        exact Or.inr this
  -- an upper bound of the rate of a cell
  obtain ⟨Rm, hRm⟩ : ∃ Rm : Nat → K, Rm = fun C => 1 + ∑ j ∈ Finset.range (dim + 1),
      (U * |G.normal (G.faceid C j) 0| + U * |G.normal (G.faceid C j) 1| + U * |G.normal (G.faceid C j) 2|
        + (S.Dxx + S.Dyy + S.Dzz) * (G.normal (G.faceid C j) 0 ^ 2 + G.normal (G.faceid C j) 1 ^ 2 + G.normal (G.faceid C j) 2 ^ 2) / G.volume C) := ⟨_, rfl⟩
  have hRle : ∀ it, ∀ C < G.nbcells, cflRate (toCells dim G (atFaces G (S.u it))) (toCells dim G (atFaces G (S.v it)))
      (toCells dim G (atFaces G (S.w it))) G.normal G.volume G.faceid dim S.Dxx S.Dyy S.Dzz C ≤ Rm C := by
    intro it C hC
    rw [hRm]
    unfold cflRate
    refine le_trans (Finset.sum_le_sum (fun j hj => ?_)) (le_add_of_nonneg_left zero_le_one)
    have ha : |toCells dim G (atFaces G (S.u it)) C| ≤ U := facetocell_abs _ _ _ (by simp) U (fun f _ => (hU it _ _ _).1)
    have hb : |toCells dim G (atFaces G (S.v it)) C| ≤ U := facetocell_abs _ _ _ (by simp) U (fun f _ => (hU it _ _ _).2.1)
    have hc : |toCells dim G (atFaces G (S.w it)) C| ≤ U := facetocell_abs _ _ _ (by simp) U (fun f _ => (hU it _ _ _).2.2)
    generalize toCells dim G (atFaces G (S.u it)) C = a at *
    generalize toCells dim G (atFaces G (S.v it)) C = b at *
    generalize toCells dim G (atFaces G (S.w it)) C = c at *
    have t1 := abs_add_le (a * G.normal (G.faceid C j) 0 + b * G.normal (G.faceid C j) 1) (c * G.normal (G.faceid C j) 2)
    have t2 := abs_add_le (a * G.normal (G.faceid C j) 0) (b * G.normal (G.faceid C j) 1)
    rw [abs_mul, abs_mul] at t2
    rw [abs_mul] at t1
    have m1 := mul_le_mul_of_nonneg_right ha (abs_nonneg (G.normal (G.faceid C j) 0))
    have m2 := mul_le_mul_of_nonneg_right hb (abs_nonneg (G.normal (G.faceid C j) 1))
    have m3 := mul_le_mul_of_nonneg_right hc (abs_nonneg (G.normal (G.faceid C j) 2))
    linarith
  have hRp : ∀ C < G.nbcells, 0 < Rm C := fun C hC => lt_of_lt_of_le (hrp 0 C hC) (hRle 0 C hC)
  obtain ⟨δ, d1, d2, d3⟩ := exists_lower G.nbcells (fun C => S.cfl * G.volume C / Rm C)
    (fun C hC => div_pos (mul_pos hc (hs.vpos C hC)) (hRp C hC)) 1000000 (by norm_num)
  refine ⟨δ, d1, fun it => ?_⟩
  unfold localStep
  rcases C06_timestep_attained G.nbcells (toCells dim G (atFaces G (S.u it))) (toCells dim G (atFaces G (S.v it))) (toCells dim G (atFaces G (S.w it)))
    S.cfl G.normal G.mesure G.volume G.faceid dim S.Dxx S.Dyy S.Dzz hs.mes with e | ⟨C, hC, e⟩
  · rw [e]; exact d2
  · rw [e]
    refine (d3 C hC).trans ?_
    exact div_le_div_of_nonneg_left (mul_pos hc (hs.vpos C hC)).le (hrp it C hC) (hRle it C hC)

theorem tloop_end [Archimedean K] (W : World K) (S : Setup K) (order : Int) (diff : Bool) (δ : K) (hδ : 0 < δ)
    (hstep : ∀ s, ∃ s', tstep W S order diff s = some s' ∧ s.time + δ ≤ s'.time ∧ s'.iter = s.iter + 1) (s0 : TState K) (hi : s0.iter = 0) :
    ∃ N s, tloop W S order diff s0 N = some s ∧ S.tfinal ≤ s.time ∧ s.iter = N ∧
      (∀ M < N, ∃ t, tloop W S order diff s0 M = some t ∧ t.time < S.tfinal ∧ t.iter = M) ∧ ∀ M ≥ N, tloop W S order diff s0 M = some s := by
  have run : ∀ M, ∃ t, tloop W S order diff s0 M = some t ∧ ((∃ N ≤ M, tloop W S order diff s0 N = some t ∧ S.tfinal ≤ t.time) ∨
      s0.time + M * δ ≤ t.time) := by
    intro M
    induction M with
    | zero => exact ⟨s0, rfl, Or.inr (by simp)⟩
    | succ M ih =>
      obtain ⟨t, e, ht⟩ := ih
      have et : tloop W S order diff s0 (M + 1) = if t.time < S.tfinal then tstep W S order diff t else some t := by
        simp only [tloop]; rw [e]; rfl
      rw [et]
      by_cases hl : t.time < S.tfinal
      · rw [if_pos hl]
        obtain ⟨t', e', h1, h2⟩ := hstep t
        refine ⟨t', e', Or.inr ?_⟩
        rcases ht with ⟨_, _, _, h3⟩ | h3
        · exact absurd hl (not_lt.mpr h3)
        · push_cast; linarith
      · rw [if_neg hl]
        exact ⟨t, rfl, Or.inl ⟨M, by omega, e, not_lt.mp hl⟩⟩
  have hex : ∃ N t, tloop W S order diff s0 N = some t ∧ S.tfinal ≤ t.time := by
    obtain ⟨M, hM⟩ := Archimedean.arch (S.tfinal - s0.time) hδ
    obtain ⟨t, e, h1 | h1⟩ := run M
    · obtain ⟨N, _, e1, e2⟩ := h1; exact ⟨N, t, e1, e2⟩
    · rw [nsmul_eq_mul] at hM
      exact ⟨M, t, e, by linarith⟩
  classical
  obtain ⟨s, e1, e2⟩ := Nat.find_spec hex
  have hmin := fun M (hM : M < Nat.find hex) => Nat.find_min hex hM
  generalize Nat.find hex = N at *
  have hit : ∀ M ≤ N, ∃ t, tloop W S order diff s0 M = some t ∧ t.iter = M := by
    intro M
    induction M with
    | zero => intro _; exact ⟨s0, rfl, hi⟩
    | succ M ih =>
      intro hM
      obtain ⟨t, e, ht⟩ := ih (by omega)
      have hl : t.time < S.tfinal := not_le.mp fun hc => hmin M (by omega) ⟨t, e, hc⟩
      obtain ⟨t', e', _, h2⟩ := hstep t
      refine ⟨t', ?_, by rw [h2, ht]⟩
      unfold tloop
      rw [e]
      simp only [Option.bind_some]
      rw [if_pos hl, e']
  refine ⟨N, s, e1, e2, ?_, ?_, ?_⟩
  · obtain ⟨t, e, ht⟩ := hit N (le_refl _)
    rw [e1] at e; cases e; exact ht
  · intro M hM
    obtain ⟨t, e, ht⟩ := hit M hM.le
    exact ⟨t, e, not_le.mp fun hc => hmin M hM ⟨t, e, hc⟩, ht⟩
  · intro M hM
    induction M, hM using Nat.le_induction with
    | base => exact e1
    | succ M hM ih =>
      unfold tloop
      rw [ih]
      simp only [Option.bind_some]
      rw [if_neg (not_lt.mpr e2)]

end

section
variable {nodeid : Nat → Nat → Nat} {node : Nat → K × K × K × Nat} {npart0 epart : Nat → Nat}
  {nbnodes n SIZE : Nat} {data : Nat → RankData K} {serial : RankData K} [Archimedean K]

/-- **C95** (2D): with a positive CFL number, bounded velocities and either a positive diffusion coefficient or a uniform velocity that does not
vanish, the loop `while time < tfinal` ends: there is an iteration after which every rank has left the loop, all earlier ones began before
`tfinal`. -/
theorem C95_run_ends_2d (h : Launched 3 nodeid node (centvol2 node nodeid) npart0 epart nbnodes n SIZE data serial)
    (vm : ValidMesh2 nodeid node nbnodes n) (sqrt : K → K) (hs : ∀ x, 0 < x → sqrt x ≠ 0) (trunc : K → Int) (htr : ∀ m : Nat, trunc (m : K) = m) :
    ∃ WL, mkWorld 2 SIZE data (fun p => build2 sqrt trunc SIZE (data p)) = some WL ∧
      ∀ (S : Setup K) (U : K), 0 < S.cfl → (∀ it x y z, |S.u it x y z| ≤ U ∧ |S.v it x y z| ≤ U ∧ |S.w it x y z| ≤ U) →
        0 ≤ S.Dxx + S.Dyy + S.Dzz → (0 < S.Dxx + S.Dyy + S.Dzz ∨ (UniformVelocity S ∧ NotAtRest 2 S)) →
        ∀ (order : Int) (diff : Bool) (init : K → K → K → K), ∃ N s, tloop WL S order diff (tstart WL init) N = some s ∧ S.tfinal ≤ s.time ∧
          s.iter = N ∧ (∀ M < N, ∃ t, tloop WL S order diff (tstart WL init) M = some t ∧ t.time < S.tfinal ∧ t.iter = M) ∧
          ∀ M ≥ N, tloop WL S order diff (tstart WL init) M = some s := by
  have np := h.nodePair2 vm sqrt trunc htr
  obtain ⟨hgL, hgG, w1, w2, sL, sG⟩ := np.worlds
  refine ⟨_, w1, fun S U hc hU hD hpos order diff init => ?_⟩
  obtain ⟨δ, d1, d2⟩ := step_lower np.run (h.solid2 vm sqrt hs trunc htr) S hc U hU hD hpos
  refine tloop_end _ S order diff δ d1 (fun s => ?_) _ rfl
  obtain ⟨s', e, t1, t2⟩ := tstep_time np hgL S order diff s
  exact ⟨s', e, by rw [t1]; linarith [d2 s.iter], t2⟩

/-- **C95** (3D): with a positive CFL number, bounded velocities and either a positive diffusion coefficient or a uniform velocity that does not
vanish, the loop `while time < tfinal` ends: there is an iteration after which every rank has left the loop, all earlier ones began before
`tfinal`. -/
theorem C95_run_ends_3d (h : Launched 4 nodeid node (centvol3 node nodeid) npart0 epart nbnodes n SIZE data serial)
    (vm : ValidMesh3 nodeid node nbnodes n) (sqrt : K → K) (hs : ∀ x, 0 < x → sqrt x ≠ 0) (trunc : K → Int) (htr : ∀ m : Nat, trunc (m : K) = m) :
    ∃ WL, mkWorld 3 SIZE data (fun p => build3 sqrt trunc SIZE (data p)) = some WL ∧
      ∀ (S : Setup K) (U : K), 0 < S.cfl → (∀ it x y z, |S.u it x y z| ≤ U ∧ |S.v it x y z| ≤ U ∧ |S.w it x y z| ≤ U) →
        0 ≤ S.Dxx + S.Dyy + S.Dzz → (0 < S.Dxx + S.Dyy + S.Dzz ∨ (UniformVelocity S ∧ NotAtRest 3 S)) →
        ∀ (order : Int) (diff : Bool) (init : K → K → K → K), ∃ N s, tloop WL S order diff (tstart WL init) N = some s ∧ S.tfinal ≤ s.time ∧
          s.iter = N ∧ (∀ M < N, ∃ t, tloop WL S order diff (tstart WL init) M = some t ∧ t.time < S.tfinal ∧ t.iter = M) ∧
          ∀ M ≥ N, tloop WL S order diff (tstart WL init) M = some s := by
  have np := h.nodePair3 vm sqrt trunc htr
  obtain ⟨hgL, hgG, w1, w2, sL, sG⟩ := np.worlds
  refine ⟨_, w1, fun S U hc hU hD hpos order diff init => ?_⟩
  obtain ⟨δ, d1, d2⟩ := step_lower np.run (h.solid3 vm sqrt hs trunc htr) S hc U hU hD hpos
  refine tloop_end _ S order diff δ d1 (fun s => ?_) _ rfl
  obtain ⟨s', e, t1, t2⟩ := tstep_time np hgL S order diff s
  exact ⟨s', e, by rw [t1]; linarith [d2 s.iter], t2⟩

end

/-- The hypotheses are met by the strip and the Setup of C93. -/
example : ∃ WL, mkWorld 2 2 stripData (fun p => build2 (fun x => x) Rat.floor 2 (stripData p)) = some WL ∧
    ∃ N s, tloop WL flowSetup 2 true (tstart WL (fun x _ _ => x)) N = some s ∧ flowSetup.tfinal ≤ s.time := by
  obtain ⟨WL, e, hW⟩ := C95_run_ends_2d stripLaunched stripValid (fun x => x) (fun x hx => hx.ne') Rat.floor floor_nat
  obtain ⟨a, b, c, d, e', f⟩ := flowSetup_ok 2
  obtain ⟨N, s, h1, h2, _⟩ := hW flowSetup 1 d (by intro it x y z; simp [flowSetup]) c (Or.inr ⟨a, b⟩) 2 true (fun x _ _ => x)
  exact ⟨WL, e, N, s, h1, h2⟩
example := C95_run_ends_3d chainLaunched chainValid (fun x => x) (fun x hx => hx.ne') Rat.floor floor_nat

end Verif.Props.Par
