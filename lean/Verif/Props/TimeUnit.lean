import Verif.Spec.TimeUnit
import Verif.Props.RunEnd
import Verif.Props.FramesRun
import Verif.Props.MovedVar

/-!
# C130: the result does not depend on the unit of time
-/
set_option linter.unusedSectionVars false
set_option linter.unusedSimpArgs false
set_option linter.unusedVariables false

namespace Verif.Props.Par
open Verif Verif.Dom Verif.Run Verif.Fvm Verif.MeshFile Verif.Comm Verif.Spec
variable {K : Type*} [Field K] [LinearOrder K] [IsStrictOrderedRing K]

/-! ### the convective scheme is homogeneous in the velocity -/

theorem flux_clock {r : K} (hr : 0 < r) (l q u v w : K) (nrm : Nat → K) :
    computeUpwindFlux l q (r * u) (r * v) (r * w) nrm = r * computeUpwindFlux l q u v w nrm := by
  have e : r * u * nrm 0 + r * v * nrm 1 + r * w * nrm 2 = r * (u * nrm 0 + v * nrm 1 + w * nrm 2) := by ring
  unfold computeUpwindFlux
  dsimp only
  rw [e]
  by_cases h : u * nrm 0 + v * nrm 1 + w * nrm 2 ≥ 0
  · rw [if_pos h, if_pos (mul_nonneg hr.le h)]; ring
  · rw [if_neg h, if_neg (by rw [ge_iff_le, not_le]; exact mul_neg_of_pos_of_neg hr (not_le.mp h))]; ring

theorem subAt_clock (r : K) (R : Nat → K) (i : Nat) (x : K) : subAt (fun c => r * R c) i (r * x) = fun c => r * subAt R i x c := by
  funext c; unfold subAt; split <;> ring

theorem addAt_clock (r : K) (R : Nat → K) (i : Nat) (x : K) : addAt (fun c => r * R c) i (r * x) = fun c => r * addAt R i x c := by
  funext c; unfold addAt; split <;> ring

/-- The arguments with other velocities. -/
def fasterArgs (r : K) (a : ConvArgs K) : ConvArgs K :=
  { a with u_face := fun f => r * a.u_face f, v_face := fun f => r * a.v_face f, w_face := fun f => r * a.w_face f }

theorem fold_clock {α : Type*} (r : K) (l : List α) (F F' : (Nat → K) → α → Nat → K)
    (h : ∀ R i, F' (fun c => r * R c) i = fun c => r * F R i c) (R : Nat → K) :
    l.foldl F' (fun c => r * R c) = fun c => r * l.foldl F R c := by
  induction l generalizing R with
  | nil => rfl
  | cons i l ih => rw [List.foldl_cons, List.foldl_cons, h, ih]

theorem fold_clockP {α : Type*} (r : K) (l : List α) (F F' : ConvArgs.PerState K → α → ConvArgs.PerState K)
    (h : ∀ s i, F' ⟨fun c => r * s.rez c, s.r_l, s.r_r⟩ i = ⟨fun c => r * (F s i).rez c, (F s i).r_l, (F s i).r_r⟩) (s : ConvArgs.PerState K) :
    l.foldl F' ⟨fun c => r * s.rez c, s.r_l, s.r_r⟩ =
      ⟨fun c => r * (l.foldl F s).rez c, (l.foldl F s).r_l, (l.foldl F s).r_r⟩ := by
  induction l generalizing s with
  | nil => rfl
  | cons i l ih => rw [List.foldl_cons, List.foldl_cons, h, ih]

theorem conv_clock {r : K} (hr : 0 < r) (dim : Nat) (a : ConvArgs K) : conv dim (fasterArgs r a) = fun c => r * conv dim a c := by
  have z : (fun _ : Nat => (0 : K)) = fun c => r * (fun _ : Nat => (0 : K)) c := by funext c; simp
  have i2 : ∀ R i, (fasterArgs r a).innerStep2 (fun c => r * R c) i = fun c => r * a.innerStep2 R i c := by
    intro R i
    unfold ConvArgs.innerStep2 fasterArgs ConvArgs.cl ConvArgs.cr
    dsimp only
    rw [flux_clock hr, subAt_clock, addAt_clock]
  have h2 : ∀ R i, (fasterArgs r a).haloStep2 (fun c => r * R c) i = fun c => r * a.haloStep2 R i c := by
    intro R i
    unfold ConvArgs.haloStep2 fasterArgs ConvArgs.cl
    dsimp only
    rw [flux_clock hr, subAt_clock]
  have b2 : ∀ R i, (fasterArgs r a).boundaryStep2 (fun c => r * R c) i = fun c => r * a.boundaryStep2 R i c := by
    intro R i
    unfold ConvArgs.boundaryStep2 fasterArgs ConvArgs.cl
    dsimp only
    rw [flux_clock hr, subAt_clock]
  have p2 : ∀ s i, (fasterArgs r a).periodicStep2 ⟨fun c => r * s.rez c, s.r_l, s.r_r⟩ i =
      ⟨fun c => r * (a.periodicStep2 s i).rez c, (a.periodicStep2 s i).r_l, (a.periodicStep2 s i).r_r⟩ := by
    intro s i
    unfold ConvArgs.periodicStep2 fasterArgs ConvArgs.cl ConvArgs.cr
    dsimp only
    rw [flux_clock hr, subAt_clock]
  have i3 : ∀ R i, (fasterArgs r a).innerStep3 (fun c => r * R c) i = fun c => r * a.innerStep3 R i c := by
    intro R i
    unfold ConvArgs.innerStep3 fasterArgs ConvArgs.cl ConvArgs.cr
    dsimp only
    rw [flux_clock hr, subAt_clock, addAt_clock]
  have h3 : ∀ R i, (fasterArgs r a).haloStep3 (fun c => r * R c) i = fun c => r * a.haloStep3 R i c := by
    intro R i
    unfold ConvArgs.haloStep3 fasterArgs ConvArgs.cl
    dsimp only
    rw [flux_clock hr, subAt_clock]
  have b3 : ∀ R i, (fasterArgs r a).boundaryStep3 (fun c => r * R c) i = fun c => r * a.boundaryStep3 R i c := by
    intro R i
    unfold ConvArgs.boundaryStep3 fasterArgs ConvArgs.cl
    dsimp only
    rw [flux_clock hr, subAt_clock]
  have p3 : ∀ s i, (fasterArgs r a).periodicStep3 ⟨fun c => r * s.rez c, s.r_l, s.r_r⟩ i =
      ⟨fun c => r * (a.periodicStep3 s i).rez c, (a.periodicStep3 s i).r_l, (a.periodicStep3 s i).r_r⟩ := by
    intro s i
    unfold ConvArgs.periodicStep3 fasterArgs ConvArgs.cl ConvArgs.cr
    dsimp only
    rw [flux_clock hr, subAt_clock]
  unfold conv
  split
  · unfold ConvArgs.explicitschemeConvective2d
    dsimp only
    rw [show (fasterArgs r a).innerfaces = a.innerfaces from rfl, show (fasterArgs r a).periodicboundaryfaces = a.periodicboundaryfaces from rfl,
      show (fasterArgs r a).halofaces = a.halofaces from rfl, show (fasterArgs r a).boundaryfaces = a.boundaryfaces from rfl]
    conv_lhs => rw [z]
    rw [fold_clock r _ _ _ i2]
    have e := fold_clockP r a.periodicboundaryfaces _ _ p2 ⟨a.innerfaces.foldl a.innerStep2 (fun _ => 0), fun _ => 0, fun _ => 0⟩
    have e' := congrArg ConvArgs.PerState.rez e
    dsimp only at e'
    rw [← fold_clock r _ _ _ b2, ← fold_clock r _ _ _ h2]
    exact congrArg (fun R => List.foldl (fasterArgs r a).boundaryStep2 (List.foldl (fasterArgs r a).haloStep2 R a.halofaces) a.boundaryfaces) (by simpa using e')
  · unfold ConvArgs.explicitschemeConvective3d
    dsimp only
    rw [show (fasterArgs r a).innerfaces = a.innerfaces from rfl, show (fasterArgs r a).periodicboundaryfaces = a.periodicboundaryfaces from rfl,
      show (fasterArgs r a).halofaces = a.halofaces from rfl, show (fasterArgs r a).boundaryfaces = a.boundaryfaces from rfl]
    conv_lhs => rw [z]
    rw [fold_clock r _ _ _ i3]
    have e := fold_clockP r a.periodicboundaryfaces _ _ p3 ⟨a.innerfaces.foldl a.innerStep3 (fun _ => 0), fun _ => 0, fun _ => 0⟩
    have e' := congrArg ConvArgs.PerState.rez e
    dsimp only at e'
    rw [← fold_clock r _ _ _ b3, ← fold_clock r _ _ _ h3]
    exact congrArg (fun R => List.foldl (fasterArgs r a).boundaryStep3 (List.foldl (fasterArgs r a).haloStep3 R a.halofaces) a.boundaryfaces) (by simpa using e')

/-! ### the dissipative term -/

theorem dissip_clock {r : K} (D : Tables K) {S S' : Setup K} (hx : S'.Dxx = r * S.Dxx) (hy : S'.Dyy = r * S.Dyy) (hz : S'.Dzz = r * S.Dzz)
    (g : Nat → Geo.Vec K) : Run.dissip D S' g = fun c => r * Run.dissip D S g c := by
  have z : (fun _ : Nat => (0 : K)) = fun c => r * (fun _ : Nat => (0 : K)) c := by funext c; simp
  unfold Run.dissip explicitschemeDissipative
  conv_lhs => rw [z]
  apply fold_clock
  intro R i
  unfold dissipStep
  dsimp only
  rw [hx, hy, hz, show r * S.Dxx * g i 0 * D.normal i 0 + r * S.Dyy * g i 1 * D.normal i 1 + r * S.Dzz * g i 2 * D.normal i 2 =
    r * (S.Dxx * g i 0 * D.normal i 0 + S.Dyy * g i 1 * D.normal i 1 + S.Dzz * g i 2 * D.normal i 2) by ring]
  split
  · rw [addAt_clock, subAt_clock]
  · rw [addAt_clock]

/-! ### the time step -/

theorem toCells_clock (r : K) (dim : Nat) (D : Tables K) (x x' : Nat → K) (h : ∀ f, x' f = r * x f) (c : Nat) :
    toCells dim D x' c = r * toCells dim D x c := by
  unfold toCells Interp.facetocell
  rw [← mul_div_assoc]
  congr 1
  have := foldl_scale r ((List.range (dim + 1)).map (D.faceid c)) (fun s f => s + x f) (fun s f => s + x' f) (fun f _ s => by rw [h]; ring) 0
  rwa [mul_zero] at this

theorem cellLam_clock {r : K} (hr : 0 < r) {u v w u' v' w' : Nat → K} (normal : Nat → Nat → K) (mesure volume : Nat → K) (faceid : Nat → Nat → Nat)
    (dim : Nat) {Dx Dy Dz Dx' Dy' Dz' : K} (i : Nat) (hu : u' i = r * u i) (hv : v' i = r * v i) (hw : w' i = r * w i)
    (hx : Dx' = r * Dx) (hy : Dy' = r * Dy) (hz : Dz' = r * Dz) :
    cellLam u' v' w' normal mesure volume faceid dim Dx' Dy' Dz' i = r * cellLam u v w normal mesure volume faceid dim Dx Dy Dz i := by
  unfold cellLam
  conv_lhs => rw [show (0 : K) = r * 0 by simp]
  apply foldl_scale
  intro j _ s
  dsimp only
  rw [hu, hv, hw, hx, hy, hz, show r * u i * normal (faceid i j) 0 + r * v i * normal (faceid i j) 1 + r * w i * normal (faceid i j) 2 =
    r * (u i * normal (faceid i j) 0 + v i * normal (faceid i j) 1 + w i * normal (faceid i j) 2) by ring, abs_mul, abs_of_pos hr]
  ring

/-- The limit of a cell. -/
def lim (dim : Nat) (S : Setup K) (D : Tables K) (it c : Nat) : K :=
  S.cfl * D.volume c / cellLam (toCells dim D (atFaces D (S.u it))) (toCells dim D (atFaces D (S.v it)))
    (toCells dim D (atFaces D (S.w it))) D.normal D.mesure D.volume D.faceid dim S.Dxx S.Dyy S.Dzz c

theorem lim_clock {τ : K} {S S' : Setup K} (h : OtherClock τ S S') (dim : Nat) (D : Tables K) (it c : Nat) :
    lim dim S' D it c = τ * lim dim S D it c := by
  have hr : 0 < τ⁻¹ := inv_pos.mpr h.pos
  unfold lim
  rw [cellLam_clock hr (u := toCells dim D (atFaces D (S.u it))) (v := toCells dim D (atFaces D (S.v it)))
    (w := toCells dim D (atFaces D (S.w it))) (Dx := S.Dxx) (Dy := S.Dyy) (Dz := S.Dzz) D.normal D.mesure D.volume D.faceid dim c
    (toCells_clock _ _ _ _ _ (fun f => by unfold atFaces; rw [h.u]; ring) _)
    (toCells_clock _ _ _ _ _ (fun f => by unfold atFaces; rw [h.v]; ring) _)
    (toCells_clock _ _ _ _ _ (fun f => by unfold atFaces; rw [h.w]; ring) _)
    (by rw [h.Dxx]; ring) (by rw [h.Dyy]; ring) (by rw [h.Dzz]; ring), h.cfl, div_eq_mul_inv, mul_inv, inv_inv, div_eq_mul_inv]
  ring

theorem le_allreduce (SIZE : Nat) (f : Nat → K) (x : K) : x ≤ allreduceMin SIZE f ↔ x ≤ f 0 ∧ ∀ p < SIZE, x ≤ f p := by
  unfold allreduceMin
  rw [le_foldl_min]; simp

/-- A capped minimum under a change of unit. -/
theorem capped_clock {τ B m m' : K} (hτ : 0 < τ) {Q : K → Prop} (hm : ∀ x, x ≤ m ↔ x ≤ B ∧ Q x) (hm' : ∀ x, x ≤ m' ↔ x ≤ B ∧ Q (x / τ))
    (mono : ∀ x y, x ≤ y → Q y → Q x) (h : m < B) (h' : m' < B) : m' = τ * m := by
  have q := ((hm m).mp le_rfl).2
  have q' := ((hm' m').mp le_rfl).2
  apply le_antisymm
  · have : m' / τ ≤ m := by
      rw [hm]
      refine ⟨?_, q'⟩
      by_contra hc
      have := (hm B).mpr ⟨le_rfl, mono _ _ (not_le.mp hc).le q'⟩
      exact absurd h (not_lt.mpr this)
    rwa [div_le_iff₀ hτ, mul_comm] at this
  · rw [hm', mul_div_cancel_left₀ _ hτ.ne']
    refine ⟨?_, q⟩
    by_contra hc
    have : B ≤ m' := (hm' B).mpr ⟨le_rfl, mono _ _ (by rw [div_le_iff₀ hτ, mul_comm]; exact (not_le.mp hc).le) q⟩
    exact absurd h' (not_lt.mpr this)

/-- All the limits concerned. -/
def AllLim (W : World K) (S : Setup K) (it : Nat) (x : K) : Prop := ∀ p, (p = 0 ∨ p < W.SIZE) → ∀ c < (W.D p).nbcells, x ≤ lim W.dim S (W.D p) it c

theorem le_stepAt (W : World K) (S : Setup K) (it : Nat) (x : K) : x ≤ stepAt W S it ↔ x ≤ 1000000 ∧ AllLim W S it x := by
  unfold stepAt AllLim
  rw [le_allreduce]
  constructor
  · rintro ⟨h0, h⟩
    refine ⟨((le_localStep _ _ _ _ _).mp h0).1, ?_⟩
    rintro p (rfl | hp)
    · exact ((le_localStep _ _ _ _ _).mp h0).2
    · exact ((le_localStep _ _ _ _ _).mp (h p hp)).2
  · rintro ⟨hb, h⟩
    exact ⟨(le_localStep _ _ _ _ _).mpr ⟨hb, h 0 (Or.inl rfl)⟩, fun p hp => (le_localStep _ _ _ _ _).mpr ⟨hb, h p (Or.inr hp)⟩⟩

theorem stepAt_clock {τ : K} {S S' : Setup K} (h : OtherClock τ S S') (W : World K) (it : Nat) (c : stepAt W S it < 1000000)
    (c' : stepAt W S' it < 1000000) : stepAt W S' it = τ * stepAt W S it := by
  refine capped_clock (B := 1000000) h.pos (Q := AllLim W S it) (le_stepAt W S it) ?_ ?_ c c'
  · intro x
    rw [le_stepAt]
    refine and_congr_right (fun _ => forall_congr' fun p => forall_congr' fun _ => forall_congr' fun c => forall_congr' fun _ => ?_)
    rw [lim_clock h, div_le_iff₀ h.pos, mul_comm τ]
  · exact fun x y hxy hy p hp c hc => hxy.trans (hy p hp c hc)

/-! ### the run -/

theorem new_clock {τ : K} (hτ : 0 < τ) (x rez dis rez' dis' vol : Nat → K) (dt : K) (h : rez' = fun c => τ⁻¹ * rez c) (hd : dis' = fun c => τ⁻¹ * dis c) :
    updateNewValue x rez' dis' (fun _ => 0) (τ * dt) vol = updateNewValue x rez dis (fun _ => 0) dt vol := by
  funext i
  unfold updateNewValue
  subst h hd
  dsimp only
  have : τ * τ⁻¹ = 1 := mul_inv_cancel₀ hτ.ne'
  linear_combination (dt * ((rez i + dis i) / vol i)) * this

theorem fields_clock {τ : K} {S S' : Setup K} (h : OtherClock τ S S') (D : Tables K) (it : Nat) (cell ghost : Nat → K) (halo : List K) (g : Grads K) (o : Int) :
    convArgs D (fieldsOf S' D it cell ghost halo g) o = fasterArgs τ⁻¹ (convArgs D (fieldsOf S D it cell ghost halo g) o) := by
  have e : ∀ (q q' : Nat → K → K → K → K), (∀ it x y z, q' it x y z = q it x y z / τ) → atFaces D (q' it) = fun f => τ⁻¹ * atFaces D (q it) f := by
    intro q q' hq; funext f; unfold atFaces; rw [hq]; ring
  unfold fieldsOf
  rw [e _ _ h.u, e _ _ h.v, e _ _ h.w]
  rfl

theorem tstep_clock {τ : K} {S S' : Setup K} (h : OtherClock τ S S') (W : World K) (order : Int) (diff : Bool) (s : TState K)
    (c : stepAt W S s.iter < 1000000) (c' : stepAt W S' s.iter < 1000000) :
    tstep W S' order diff (reclock τ s) = (tstep W S order diff s).map (reclock τ) := by
  have hr : 0 < τ⁻¹ := inv_pos.mpr h.pos
  have hs := stepAt_clock h W s.iter c c'
  unfold stepAt at hs
  unfold tstep
  rw [h.bc]
  rw [show (reclock τ s).V = s.V from rfl, show (reclock τ s).iter = s.iter from rfl]
  cases updateValues W S.bc s.V with
  | none => rfl
  | some V =>
    simp only [Option.bind_some]
    cases cellGradient W S.bc V with
    | none => rfl
    | some q =>
      simp only [Option.bind_some]
      have hc : ∀ p, conv W.dim (convArgs (W.D p) (fieldsOf S' (W.D p) s.iter (q.1 p).cell (q.1 p).ghost (q.1 p).halo (q.2 p)) order) =
          fun c => τ⁻¹ * conv W.dim (convArgs (W.D p) (fieldsOf S (W.D p) s.iter (q.1 p).cell (q.1 p).ghost (q.1 p).halo (q.2 p)) order) c := by
        intro p; rw [fields_clock h, conv_clock hr]
      rw [hs]
      cases diff with
      | false =>
        simp only [Bool.false_eq_true, if_false, Option.map_some, Option.some.injEq]
        unfold reclock
        simp only [TState.mk.injEq, true_and, and_true]
        refine ⟨?_, by ring⟩
        funext p
        simp only [Vari.mk.injEq, and_true]
        exact new_clock h.pos _ _ _ _ _ _ _ (hc p) (by funext c; simp)
      | true =>
        simp only [if_true]
        cases faceGradient W S.bc q.1 with
        | none => rfl
        | some g =>
          simp only [Option.bind_some, Option.map_map]
          have hd : ∀ p, Run.dissip (W.D p) S' (g.2.2 p) = fun c => τ⁻¹ * Run.dissip (W.D p) S (g.2.2 p) c := fun p =>
            dissip_clock _ (by rw [h.Dxx]; ring) (by rw [h.Dyy]; ring) (by rw [h.Dzz]; ring) _
          have en : ∀ p, updateNewValue (g.1 p).cell
              (conv W.dim (convArgs (W.D p) (fieldsOf S' (W.D p) s.iter (q.1 p).cell (q.1 p).ghost (q.1 p).halo (q.2 p)) order))
              (Run.dissip (W.D p) S' (g.2.2 p)) (fun _ => 0) (τ * allreduceMin W.SIZE (fun p => localStep W.dim S (W.D p) s.iter)) (W.D p).volume =
            updateNewValue (g.1 p).cell
              (conv W.dim (convArgs (W.D p) (fieldsOf S (W.D p) s.iter (q.1 p).cell (q.1 p).ghost (q.1 p).halo (q.2 p)) order))
              (Run.dissip (W.D p) S (g.2.2 p)) (fun _ => 0) (allreduceMin W.SIZE (fun p => localStep W.dim S (W.D p) s.iter)) (W.D p).volume :=
            fun p => new_clock h.pos _ _ _ _ _ _ _ (hc p) (hd p)
          simp only [en]
          congr 1
          funext o
          simp only [Function.comp, reclock, TState.mk.injEq, true_and, and_true]
          ring

/-- **C130** (transport driver, any mesh, any number of processes, both orders, with and without diffusion): measured in another unit of
time, the problem has the same run - the same values in every array of every process after every iteration, the same iterations, the same
instants in the other unit - as long as the steps stay below the constant `10^6` from which `time_step` starts. -/
theorem C130_run_partial {τ : K} {S S' : Setup K} (h : OtherClock τ S S') (W : World K) (order : Int) (diff : Bool) (init : K → K → K → K)
    (c : ∀ it, stepAt W S it < 1000000) (c' : ∀ it, stepAt W S' it < 1000000) (N : Nat) :
    tloop W S' order diff (tstart W init) N = (tloop W S order diff (tstart W init) N).map (reclock τ) := by
  induction N with
  | zero => simp [tloop, tstart, reclock]
  | succ N ih =>
    unfold tloop
    rw [ih]
    cases tloop W S order diff (tstart W init) N with
    | none => rfl
    | some s =>
      simp only [Option.map_some, Option.bind_some]
      have e : (reclock τ s).time < S'.tfinal ↔ s.time < S.tfinal := by
        rw [h.tfinal]; exact mul_lt_mul_iff_right₀ h.pos
      by_cases ht : s.time < S.tfinal
      · rw [if_pos ht, if_pos (e.mpr ht)]
        exact tstep_clock h W order diff s (c _) (c' _)
      · rw [if_neg ht, if_neg (fun q => ht (e.mp q))]
        rfl

/-- **C130** (why the cap matters): when no cell of any process limits the step below `10^6`, the step is `10^6` in whatever unit the time is
measured. -/
theorem C130_cap (W : World K) (S : Setup K) (it : Nat)
    (far : ∀ p, (p = 0 ∨ p < W.SIZE) → (1000000 : K) ≤ localStep W.dim S (W.D p) it) : stepAt W S it = 1000000 := by
  apply le_antisymm
  · exact ((le_stepAt W S it _).mp le_rfl).1
  · unfold stepAt
    rw [le_allreduce]
    exact ⟨far 0 (Or.inl rfl), fun p hp => far p (Or.inr hp)⟩

/-! ### the periodic driver -/

theorem pargs_clock {τ : K} {S S' : Setup K} (h : OtherClock τ S S') (W : PWorld K) (it : Nat) (cell ghost : Nat → K) (halo : List K) (g : Grads K) (o : Int) :
    W.convArgs (fieldsOf S' W.D it cell ghost halo g) o = fasterArgs τ⁻¹ (W.convArgs (fieldsOf S W.D it cell ghost halo g) o) := by
  unfold PWorld.convArgs
  rw [fields_clock h]
  rfl

theorem pstep_clock {τ : K} {S S' : Setup K} (h : OtherClock τ S S') (W : PWorld K) (order : Int) (diff : Bool) (s : QState K)
    (c : stepAt W.world S s.iter < 1000000) (c' : stepAt W.world S' s.iter < 1000000) :
    pstep W S' order diff (reclockP τ s) = reclockP τ (pstep W S order diff s) := by
  have hr : 0 < τ⁻¹ := inv_pos.mpr h.pos
  have one : ∀ S : Setup K, stepAt W.world S s.iter = localStep W.dim S W.D s.iter := by
    intro S; unfold stepAt allreduceMin; simp [PWorld.world]
  have hs := stepAt_clock h W.world s.iter c c'
  rw [one, one] at hs
  unfold pstep
  rw [h.bc]
  rw [show (reclockP τ s).v = s.v from rfl, show (reclockP τ s).iter = s.iter from rfl]
  dsimp only
  rw [hs]
  have hc : ∀ (v : Vari K), conv W.dim (W.convArgs (fieldsOf S' W.D s.iter v.cell v.ghost v.halo (W.grads v)) order) =
      fun c => τ⁻¹ * conv W.dim (W.convArgs (fieldsOf S W.D s.iter v.cell v.ghost v.halo (W.grads v)) order) c := by
    intro v; rw [pargs_clock h, conv_clock hr]
  have hd : ∀ g, Run.dissip W.D S' g = fun c => τ⁻¹ * Run.dissip W.D S g c := fun g =>
    dissip_clock _ (by rw [h.Dxx]; ring) (by rw [h.Dyy]; ring) (by rw [h.Dzz]; ring) _
  cases diff with
  | false =>
    simp only [Bool.false_eq_true, if_false, reclockP, QState.mk.injEq, true_and, and_true, Vari.mk.injEq]
    exact ⟨new_clock h.pos _ _ _ _ _ _ _ (hc _) (by funext c; simp), by ring⟩
  | true =>
    simp only [if_true]
    rw [new_clock h.pos _ _ _ _ _ _ _ (hc _) (hd _)]
    simp only [reclockP, QState.mk.injEq, true_and, and_true]
    ring

/-- **C130** (transport driver on a periodic domain, one process). -/
theorem C130_periodic_partial {τ : K} {S S' : Setup K} (h : OtherClock τ S S') (W : PWorld K) (order : Int) (diff : Bool) (init : K → K → K → K)
    (c : ∀ it, stepAt W.world S it < 1000000) (c' : ∀ it, stepAt W.world S' it < 1000000) (N : Nat) :
    ploop W S' order diff (pstart W init) N = reclockP τ (ploop W S order diff (pstart W init) N) := by
  induction N with
  | zero => simp [ploop, pstart, reclockP]
  | succ N ih =>
    unfold ploop
    dsimp only
    rw [ih]
    have e : (reclockP τ (ploop W S order diff (pstart W init) N)).time < S'.tfinal ↔ (ploop W S order diff (pstart W init) N).time < S.tfinal := by
      rw [h.tfinal]; exact mul_lt_mul_iff_right₀ h.pos
    by_cases ht : (ploop W S order diff (pstart W init) N).time < S.tfinal
    · rw [if_pos ht, if_pos (e.mpr ht)]
      exact pstep_clock h W order diff _ (c _) (c' _)
    · rw [if_neg ht, if_neg (fun q => ht (e.mp q))]

/-! ### the cap in action -/

/-- The problem in seconds if `S` is in minutes, etc. -/
def clockSetup (τ : K) (S : Setup K) : Setup K :=
  { bc := S.bc, u := fun it x y z => S.u it x y z / τ, v := fun it x y z => S.v it x y z / τ, w := fun it x y z => S.w it x y z / τ
    cfl := S.cfl, tfinal := τ * S.tfinal, Dxx := S.Dxx / τ, Dyy := S.Dyy / τ, Dzz := S.Dzz / τ }

theorem otherClock_clockSetup {τ : K} (hτ : 0 < τ) (S : Setup K) : OtherClock τ S (clockSetup τ S) :=
  ⟨hτ, rfl, rfl, rfl, fun _ _ _ _ => rfl, fun _ _ _ _ => rfl, fun _ _ _ _ => rfl, rfl, rfl, rfl⟩

/-- `step_lower` says how small the steps of a setup are; with a large CFL number none of them is below `10^6`. -/
theorem capped_first {dim SIZE n : Nat} {epart : Nat → Nat} {data : Nat → RankData K} {L : Nat → Tables K} {G : Tables K} {B : List Int}
    {out : Nat → Nat → Geo.Vec K} (h : RunPair dim SIZE n epart data L G B out) (hs : Solid G dim out) (d : RankData K) (hg : Nat → HaloGhost.HGResult K)
    {τ : K} (hτ : 0 < τ) : ∃ S : Setup K, 0 < S.cfl ∧ S.tfinal = 1 ∧ ∀ order init, ∃ s s',
      tloop (serW dim d G hg) S order false (tstart (serW dim d G hg) init) 1 = some s ∧
      tloop (serW dim d G hg) (clockSetup τ S) order false (tstart (serW dim d G hg) init) 1 = some s' ∧ s.time = 1000000 ∧ s'.time = 1000000 := by
  let S1 : Setup K := ⟨fun _ => BCond.neumann, fun _ _ _ _ => 0, fun _ _ _ _ => 0, fun _ _ _ _ => 0, 1, 1, 1, 0, 0⟩
  obtain ⟨δ, hδ, hl⟩ := step_lower h hs S1 (by norm_num [S1]) 0 (by simp [S1]) (by norm_num [S1]) (Or.inl (by norm_num [S1]))
  let q : K := 1000000 / δ + 1000000 / (τ * δ)
  let S : Setup K := { S1 with cfl := q }
  have hq : 0 < q := by positivity
  have hL : ∀ c, lim dim S G 0 c = q * lim dim S1 G 0 c := by
    intro c
    show q * G.volume c / _ = q * (1 * G.volume c / _)
    rw [one_mul, mul_div_assoc]
  have h1 : ∀ c < G.nbcells, δ ≤ lim dim S1 G 0 c := fun c hc => ((le_localStep dim S1 G 0 δ).mp (hl 0)).2 c hc
  have a1 : 1000000 ≤ q * δ := by
    have : q * δ = 1000000 + 1000000 / τ := by
      show (1000000 / δ + 1000000 / (τ * δ)) * δ = _
      field_simp
    rw [this]; have : 0 < 1000000 / τ := by positivity
    linarith
  have a2 : 1000000 ≤ τ * (q * δ) := by
    have : τ * (q * δ) = 1000000 * τ + 1000000 := by
      show τ * ((1000000 / δ + 1000000 / (τ * δ)) * δ) = _
      field_simp
    rw [this]; have : 0 < 1000000 * τ := by positivity
    linarith
  have e1 : localStep dim S G 0 = 1000000 := by
    refine le_antisymm ((le_localStep dim S G 0 _).mp le_rfl).1 ((le_localStep dim S G 0 _).mpr ⟨le_rfl, fun c hc => ?_⟩)
    refine le_trans a1 (le_trans (mul_le_mul_of_nonneg_left (h1 c hc) hq.le) (le_of_eq (hL c).symm))
  have e2 : localStep dim (clockSetup τ S) G 0 = 1000000 := by
    refine le_antisymm ((le_localStep dim _ G 0 _).mp le_rfl).1 ((le_localStep dim _ G 0 _).mpr ⟨le_rfl, fun c hc => ?_⟩)
    refine le_trans a2 (le_trans (mul_le_mul_of_nonneg_left (mul_le_mul_of_nonneg_left (h1 c hc) hq.le) hτ.le) (le_of_eq ?_))
    rw [← hL]
    exact (lim_clock (otherClock_clockSetup hτ S) dim G 0 c).symm
  refine ⟨S, hq, rfl, fun order init => ?_⟩
  obtain ⟨s, t1, t2, _⟩ := ser_tstep_time (dim := dim) d G hg S order false (tstart (serW dim d G hg) init)
  obtain ⟨s', t1', t2', _⟩ := ser_tstep_time (dim := dim) d G hg (clockSetup τ S) order false (tstart (serW dim d G hg) init)
  refine ⟨s, s', ?_, ?_, ?_, ?_⟩
  · show (if (0 : K) < 1 then tstep (serW dim d G hg) S order false (tstart (serW dim d G hg) init) else _) = _
    rw [if_pos one_pos, t1]
  · show (if (0 : K) < τ * 1 then tstep (serW dim d G hg) (clockSetup τ S) order false (tstart (serW dim d G hg) init) else _) = _
    rw [if_pos (by rw [mul_one]; exact hτ), t1']
  · rw [t2]; show 0 + localStep dim S G 0 = _; rw [e1, zero_add]
  · rw [t2']; show 0 + localStep dim (clockSetup τ S) G 0 = _; rw [e2, zero_add]

/-- **C130**, the condition on the cap cannot be dropped: on every valid mesh and for every other unit of time there is a problem whose first
step takes the time to `10^6` in both units. -/
theorem C130_not_general_2d {nodeid : Nat → Nat → Nat} {node : Nat → K × K × K × Nat} {nbnodes n : Nat} {serial : RankData K}
    (vm : ValidMesh2 nodeid node nbnodes n) (hr : readMeshFile 1 0 (writeSerial (serialWrite nodeid node nbnodes n 3)) [] = some serial)
    (sqrt : K → K) (hs : ∀ x, 0 < x → sqrt x ≠ 0) (trunc : K → Int) (htr : ∀ m : Nat, trunc (m : K) = m) {τ : K} (hτ : 0 < τ) (h1 : τ ≠ 1) :
    ∃ W, mkWorld 2 1 (fun _ => serial) (fun _ => build2 sqrt trunc 1 serial) = some W ∧
      ∃ S S', OtherClock τ S S' ∧ 0 < S.cfl ∧ ∀ order init, ∃ s s', tloop W S order false (tstart W init) 1 = some s ∧
        tloop W S' order false (tstart W init) 1 = some s' ∧ s'.time ≠ τ * s.time := by
  obtain ⟨data, h⟩ := launched_of_serial (centvol2 node nodeid) (by omega) vm.nodes vm.used hr
  have np := h.nodePair2 vm sqrt trunc htr
  obtain ⟨hgL, hgG, w1, w2, sL, sG⟩ := np.worlds
  obtain ⟨S, hc, _, hS⟩ := capped_first np.run (h.solid2 vm sqrt hs trunc htr) serial hgG hτ
  refine ⟨_, w2, S, _, otherClock_clockSetup hτ S, hc, fun order init => ?_⟩
  obtain ⟨s, s', r1, r2, t1, t2⟩ := hS order init
  refine ⟨s, s', r1, r2, ?_⟩
  rw [t1, t2]
  intro e
  exact h1 (by linarith)

/-! ### instances -/


theorem uncapped_of (W : World K) (S : Setup K) (it : Nat) {c : Nat} (hc : c < (W.D 0).nbcells) (h : lim W.dim S (W.D 0) it c < 1000000) :
    stepAt W S it < 1000000 :=
  lt_of_le_of_lt (((le_stepAt W S it _).mp le_rfl).2 0 (Or.inl rfl) c hc) h

/-- A wind of velocity 1 along x, no diffusion, with a CFL number small enough for the first cell. -/
def breeze (bc : Int → BCond K) (q : K) : Setup K :=
  { bc := bc, u := fun _ _ _ _ => 1, v := fun _ _ _ _ => 0, w := fun _ _ _ _ => 0, cfl := 1 / (|q| + 1), tfinal := 1, Dxx := 0, Dyy := 0, Dzz := 0 }

theorem breeze_uncapped (W : World K) (bc : Int → BCond K) (h0 : 0 < (W.D 0).nbcells) {τ : K} (hτ : 0 < τ) (hs : τ ≤ 1000) :
    ∃ q, (∀ it, stepAt W (breeze bc q) it < 1000000) ∧ ∀ it, stepAt W (clockSetup τ (breeze bc q)) it < 1000000 := by
  set q := (W.D 0).volume 0 / cellLam (toCells W.dim (W.D 0) (atFaces (W.D 0) fun _ _ _ => 1)) (toCells W.dim (W.D 0) (atFaces (W.D 0) fun _ _ _ => 0))
    (toCells W.dim (W.D 0) (atFaces (W.D 0) fun _ _ _ => 0)) (W.D 0).normal (W.D 0).mesure (W.D 0).volume (W.D 0).faceid W.dim 0 0 0 0 with hq
  have hl : ∀ it, lim W.dim (breeze bc q) (W.D 0) it 0 = 1 / (|q| + 1) * q := by
    intro it
    rw [show lim W.dim (breeze bc q) (W.D 0) it 0 = 1 / (|q| + 1) * (W.D 0).volume 0 / cellLam (toCells W.dim (W.D 0) (atFaces (W.D 0) fun _ _ _ => 1))
      (toCells W.dim (W.D 0) (atFaces (W.D 0) fun _ _ _ => 0)) (toCells W.dim (W.D 0) (atFaces (W.D 0) fun _ _ _ => 0)) (W.D 0).normal (W.D 0).mesure
      (W.D 0).volume (W.D 0).faceid W.dim 0 0 0 0 from rfl, mul_div_assoc, ← hq]
  have hb : 1 / (|q| + 1) * q ≤ 1 := by
    have hp : 0 < |q| + 1 := by positivity
    rw [one_div, inv_mul_le_iff₀ hp]
    linarith [le_abs_self q]
  refine ⟨q, fun it => uncapped_of W _ it h0 (by rw [hl]; exact lt_of_le_of_lt hb (by norm_num)), fun it => uncapped_of W _ it h0 ?_⟩
  rw [lim_clock (otherClock_clockSetup hτ _), hl]
  calc τ * (1 / (|q| + 1) * q) ≤ τ * 1 := mul_le_mul_of_nonneg_left hb hτ.le
    _ < 1000000 := by rw [mul_one]; exact lt_of_le_of_lt hs (by norm_num)

/-- The hypotheses of `C130_run_partial` are met: the strip on one process, a wind, the time in seconds instead of minutes. -/
example (init : ℚ → ℚ → ℚ → ℚ) (order : Int) (diff : Bool) (N : Nat) :
    ∃ W, mkWorld 2 1 (fun _ => stripSerial) (fun _ => build2 (fun x : ℚ => x) Rat.floor 1 stripSerial) = some W ∧
      ∃ S, tloop W (clockSetup 60 S) order diff (tstart W init) N = (tloop W S order diff (tstart W init) N).map (reclock 60) := by
  have np := stripLaunched.nodePair2 stripValid (fun x : ℚ => x) Rat.floor floor_nat
  obtain ⟨hgL, hgG, w1, w2, sL, sG⟩ := np.worlds
  refine ⟨_, w2, ?_⟩
  have hn : 0 < ((serW 2 stripSerial (build2 (fun x : ℚ => x) Rat.floor 1 stripSerial) hgG).D 0).nbcells := by
    show 0 < (build2 (fun x : ℚ => x) Rat.floor 1 stripSerial).nbcells
    rw [show (build2 (fun x : ℚ => x) Rat.floor 1 stripSerial).nbcells = 4 from np.run.nG]; decide
  obtain ⟨q, h1, h2⟩ := breeze_uncapped (K := ℚ) _ (fun _ => BCond.neumann) hn (τ := 60) (by norm_num) (by norm_num)
  exact ⟨_, C130_run_partial (otherClock_clockSetup (by norm_num) _) _ order diff init h1 h2 N⟩

/-- The hypotheses of `C130_not_general_2d` are met. -/
example := C130_not_general_2d stripValid (C25_round_trip_serial (K := ℚ) _ _) (fun x => x) (fun x h => h.ne') Rat.floor floor_nat
  (τ := 60) (by norm_num) (by norm_num)

end Verif.Props.Par
