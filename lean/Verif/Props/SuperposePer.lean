import Verif.Props.Superpose
import Verif.Props.PeriodicRun
import Verif.Props.PerDiff
import Verif.Props.PeriodicExample
import Verif.Spec.ZeroPoint
import Verif.Model.RunPer

/-!
# First-order transport runs on periodic domains are linear (C121)
-/
set_option linter.unusedSectionVars false
set_option linter.unusedSimpArgs false
set_option linter.unusedVariables false
namespace Verif.Props.Par
open Verif.Periodic Verif Verif.Dom Verif.Fvm Verif.Geo Verif.MeshFile Verif.HaloGhost Verif.Run Verif.Spec Verif.Conn Verif.Part

section
variable {K : Type*} [Field K] [LinearOrder K] {ι : Type*} (R : Submodule K (ι → K))

theorem pconv_rel (W : PWorld K) (dim : Nat) (S : Setup K) (it : Nat) (V : ι → Vari K) (g : ι → Grads K) (hc : RelAll R (fun i => (V i).cell))
    (hg : RelAll R (fun i => (V i).ghost)) (hh : RelAll R (fun i k => (V i).halo.getD k 0)) :
    RelAll R (fun i => conv dim (W.convArgs (fieldsOf S W.D it (V i).cell (V i).ghost (V i).halo (g i)) 1)) := by
  have one : ((((1 : Int) - 1 : Int)) : K) = 0 := by simp
  have z : RelAll R (fun (_ : ι) (_ : Nat) => (0 : K)) := fun _ => zero_rel R
  unfold conv
  by_cases h2 : dim = 2
  · simp only [h2, if_true]
    unfold ConvArgs.explicitschemeConvective2d
    refine foldl_family (RelAll R) W.D.boundaryfaces (fun f i s => ConvArgs.boundaryStep2 (W.convArgs (fieldsOf S W.D it (V i).cell (V i).ghost (V i).halo (g i)) 1) s f)
      (fun f _ s hs => ?_) _ (foldl_family (RelAll R) W.D.halofaces (fun f i s => ConvArgs.haloStep2 (W.convArgs (fieldsOf S W.D it (V i).cell (V i).ghost (V i).halo (g i)) 1) s f)
      (fun f _ s hs => ?_) _ (foldl_family (fun s => RelAll R (fun i => (s i).rez)) W.D.periodicboundaryfaces (fun f i s => ConvArgs.periodicStep2 (W.convArgs (fieldsOf S W.D it (V i).cell (V i).ghost (V i).halo (g i)) 1) s f)
      (fun f _ s hs => ?_) _ (foldl_family (RelAll R) W.D.innerfaces (fun f i s => ConvArgs.innerStep2 (W.convArgs (fieldsOf S W.D it (V i).cell (V i).ghost (V i).halo (g i)) 1) s f)
      (fun f _ s hs => ?_) _ z)))
    · simp only [ConvArgs.boundaryStep2, PWorld.convArgs, Dom.convArgs, ConvArgs.cl, ConvArgs.cr, fieldsOf, one, zero_mul, add_zero]
      exact subAt_rel R hs _ (upwind_rel R (hc _) (hg _) _ _ _ _)
    · simp only [ConvArgs.haloStep2, PWorld.convArgs, Dom.convArgs, ConvArgs.cl, ConvArgs.cr, fieldsOf, one, zero_mul, add_zero]
      exact subAt_rel R hs _ (upwind_rel R (hc _) (hh _) _ _ _ _)
    · simp only [ConvArgs.periodicStep2, PWorld.convArgs, Dom.convArgs, ConvArgs.cl, ConvArgs.cr, fieldsOf, one, zero_mul, add_zero]
      exact subAt_rel R hs _ (upwind_rel R (hc _) (hc _) _ _ _ _)
    · simp only [ConvArgs.innerStep2, PWorld.convArgs, Dom.convArgs, ConvArgs.cl, ConvArgs.cr, fieldsOf, one, zero_mul, add_zero]
      exact addAt_rel R (subAt_rel R hs _ (upwind_rel R (hc _) (hc _) _ _ _ _)) _ (upwind_rel R (hc _) (hc _) _ _ _ _)
  · simp only [h2, if_false]
    unfold ConvArgs.explicitschemeConvective3d
    refine foldl_family (RelAll R) W.D.boundaryfaces (fun f i s => ConvArgs.boundaryStep3 (W.convArgs (fieldsOf S W.D it (V i).cell (V i).ghost (V i).halo (g i)) 1) s f)
      (fun f _ s hs => ?_) _ (foldl_family (RelAll R) W.D.halofaces (fun f i s => ConvArgs.haloStep3 (W.convArgs (fieldsOf S W.D it (V i).cell (V i).ghost (V i).halo (g i)) 1) s f)
      (fun f _ s hs => ?_) _ (foldl_family (fun s => RelAll R (fun i => (s i).rez)) W.D.periodicboundaryfaces (fun f i s => ConvArgs.periodicStep3 (W.convArgs (fieldsOf S W.D it (V i).cell (V i).ghost (V i).halo (g i)) 1) s f)
      (fun f _ s hs => ?_) _ (foldl_family (RelAll R) W.D.innerfaces (fun f i s => ConvArgs.innerStep3 (W.convArgs (fieldsOf S W.D it (V i).cell (V i).ghost (V i).halo (g i)) 1) s f)
      (fun f _ s hs => ?_) _ z)))
    · simp only [ConvArgs.boundaryStep3, PWorld.convArgs, Dom.convArgs, ConvArgs.cl, ConvArgs.cr, fieldsOf, one, zero_mul, add_zero]
      exact subAt_rel R hs _ (upwind_rel R (hc _) (hg _) _ _ _ _)
    · simp only [ConvArgs.haloStep3, PWorld.convArgs, Dom.convArgs, ConvArgs.cl, ConvArgs.cr, fieldsOf, one, zero_mul, add_zero]
      exact subAt_rel R hs _ (upwind_rel R (hc _) (hh _) _ _ _ _)
    · simp only [ConvArgs.periodicStep3, PWorld.convArgs, Dom.convArgs, ConvArgs.cl, ConvArgs.cr, fieldsOf, one, zero_mul, add_zero]
      exact subAt_rel R hs _ (upwind_rel R (hc _) (hc _) _ _ _ _)
    · simp only [ConvArgs.innerStep3, PWorld.convArgs, Dom.convArgs, ConvArgs.cl, ConvArgs.cr, fieldsOf, one, zero_mul, add_zero]
      exact addAt_rel R (subAt_rel R hs _ (upwind_rel R (hc _) (hc _) _ _ _ _)) _ (upwind_rel R (hc _) (hc _) _ _ _ _)


/-! ### node values and face gradients -/

theorem pnodeValues_rel (W : PWorld K) (w : ι → Interp.Fields K) (h : FieldsRel R w) : RelAll R (fun i => W.nodeValues (w i)) := by
  intro nd
  unfold PWorld.nodeValues
  exact ite_rel R _ (centertovertex2_rel R _ w h nd) (centertovertex3_rel R _ w h nd)

theorem pfaceGrads_rel (W : PWorld K) (bc : ι → Int → BCond K) (hb : ∀ loc, BcRel R bc loc) (w : ι → Interp.Fields K) (nd : ι → Nat → K)
    (h : FieldsRel R w) (hn : RelAll R nd) (j k : Nat) : (fun i => W.faceGrads (bc i) (w i) (nd i) j k) ∈ R := by
  rcases isEmpty_or_nonempty ι with he | ⟨⟨i0⟩⟩
  · have : (fun i => W.faceGrads (bc i) (w i) (nd i) j k) = fun _ => 0 := funext fun i => he.elim i
    rw [this]; exact zero_rel R
  · have e : ∀ i, varFaces W.dim W.D (bc i) = varFaces W.dim W.D (bc i0) := fun i => varFaces_same R W.dim W.D bc hb i i0
    unfold PWorld.faceGrads
    simp only [e]
    by_cases h2 : W.dim = 2
    · simp only [if_pos h2]
      have := faceGradient2_rel R W.faceTabs (varFaces W.dim W.D (bc i0)) w nd h hn j
      match k with
      | 0 => exact this.1
      | 1 => exact this.2
      | k + 2 => exact zero_rel R
    · simp only [if_neg h2]
      exact faceGradient3_rel R _ _ w nd h hn j k

/-! ### runs -/

/-- The states of a family of runs: same time and iteration, related values. -/
structure PRunRel (W : PWorld K) (s : ι → QState K) : Prop where
  cell : RelAll R (fun i => (s i).v.cell)
  ghost : ∀ j, j ∉ ghostSet W.dim W.D → (fun i => (s i).v.ghost j) ∈ R
  haloghost : ∀ j, j ∉ haloghostSet W.dim W.D W.hg → (fun i => (s i).v.haloghost j) ∈ R
  node : RelAll R (fun i => (s i).node)
  time : ∀ i j, (s i).time = (s j).time
  iter : ∀ i j, (s i).iter = (s j).iter

/-- The arrays of the variable after an update. -/
structure VarRel (v : ι → Vari K) : Prop where
  cell : RelAll R (fun i => (v i).cell)
  ghost : RelAll R (fun i => (v i).ghost)
  haloghost : RelAll R (fun i => (v i).haloghost)
  halo : RelAll R (fun i k => (v i).halo.getD k 0)

theorem VarRel.fields {v : ι → Vari K} (h : VarRel R v) : FieldsRel R (fun i => (v i).fields) := ⟨h.cell, h.ghost, h.halo, h.haloghost⟩

theorem values_rel (W : PWorld K) (bc : ι → Int → BCond K) (hb : ∀ loc, BcRel R bc loc) (v : ι → Vari K) (hc : RelAll R (fun i => (v i).cell))
    (hg : ∀ j, j ∉ ghostSet W.dim W.D → (fun i => (v i).ghost j) ∈ R) (hh : ∀ j, j ∉ haloghostSet W.dim W.D W.hg → (fun i => (v i).haloghost j) ∈ R) :
    VarRel R (fun i => W.values (bc i) (v i)) := by
  have z : RelAll R (fun (_ : ι) k => ([] : List K).getD k 0) := fun k => by simpa using zero_rel R
  exact ⟨hc, (writes_ghosts R W.dim W.D (fun i => (v i).cell) bc hc hb).rel R hg,
    (writes_haloghosts R W.dim W.D W.hg (fun _ k => ([] : List K).getD k 0) bc z hb).rel R hh, z⟩

theorem VarRel.values {W : PWorld K} {bc : ι → Int → BCond K} (hb : ∀ loc, BcRel R bc loc) {v : ι → Vari K} (h : VarRel R v) :
    VarRel R (fun i => W.values (bc i) (v i)) := values_rel R W bc hb v h.cell (fun j _ => h.ghost j) (fun j _ => h.haloghost j)

theorem pstep_rel (W : PWorld K) (S : Setup K) (bc : ι → Int → BCond K) (hb : ∀ loc, BcRel R bc loc) (diff : Bool) {s : ι → QState K} (hs : PRunRel R W s) :
    PRunRel R W (fun i => pstep W { S with bc := bc i } 1 diff (s i)) := by
  rcases isEmpty_or_nonempty ι with he | ⟨⟨i0⟩⟩
  · refine ⟨fun j => ?_, fun j _ => ?_, fun j _ => ?_, fun j => ?_, fun i => he.elim i, fun i => he.elim i⟩ <;>
    · convert R.zero_mem using 1
  have hit : ∀ i, (s i).iter = (s i0).iter := fun i => hs.iter i i0
  have hti : ∀ i, (s i).time = (s i0).time := fun i => hs.time i i0
  have r1 := values_rel R W bc hb (fun i => (s i).v) hs.cell hs.ghost hs.haloghost
  have r2 := r1.values R (W := W) hb
  have r3 := r2.values R (W := W) hb
  have hconv := pconv_rel R W W.dim S (s i0).iter _ (fun i => W.grads (W.values (bc i) (W.values (bc i) (s i).v))) r2.cell r2.ghost r2.halo
  have hnew : ∀ (U rez dis : ι → Nat → K) (dt : K), RelAll R U → RelAll R rez → RelAll R dis →
      RelAll R (fun i => updateNewValue (U i) (rez i) (dis i) (fun _ => 0) dt W.D.volume) := by
    intro U rez dis dt hU hr hd j
    have := add_rel R (hU j) (smul_rel R (add_rel R (hr j) (hd j)) (dt * (W.D.volume j)⁻¹))
    convert this using 1
    funext i
    show U i j + dt * ((rez i j + dis i j) / W.D.volume j + 0) = U i j + dt * (W.D.volume j)⁻¹ * (rez i j + dis i j)
    rw [add_zero, div_eq_mul_inv]; ring
  cases diff with
  | false =>
    unfold pstep
    simp only [Bool.false_eq_true, if_false, hit, hti]
    exact ⟨hnew _ _ (fun _ _ => 0) (localStep W.dim S W.D (s i0).iter) r2.cell hconv (fun _ => zero_rel R), fun j _ => r2.ghost j, fun j _ => r2.haloghost j, hs.node, fun _ _ => rfl, fun _ _ => rfl⟩
  | true =>
    have hdis := dissip_rel R W.D S _ (fun f k => pfaceGrads_rel R W bc hb _ _ (r3.fields R) (pnodeValues_rel R W _ (r3.fields R)) f k)
    have r4 := values_rel R W bc hb (fun i => { W.values (bc i) (W.values (bc i) (W.values (bc i) (s i).v)) with
      cell := updateNewValue (W.values (bc i) (W.values (bc i) (W.values (bc i) (s i).v))).cell
        (conv W.dim (W.convArgs (fieldsOf S W.D (s i0).iter (W.values (bc i) (W.values (bc i) (s i).v)).cell
            (W.values (bc i) (W.values (bc i) (s i).v)).ghost (W.values (bc i) (W.values (bc i) (s i).v)).halo
            (W.grads (W.values (bc i) (W.values (bc i) (s i).v)))) 1))
        (Run.dissip W.D S (W.faceGrads (bc i) (W.values (bc i) (W.values (bc i) (W.values (bc i) (s i).v))).fields
          (W.nodeValues (W.values (bc i) (W.values (bc i) (W.values (bc i) (s i).v))).fields)))
        (fun _ => 0) (localStep W.dim S W.D (s i0).iter) W.D.volume }) (hnew _ _ _ (localStep W.dim S W.D (s i0).iter) r3.cell hconv hdis)
      (fun j _ => r3.ghost j) (fun j _ => r3.haloghost j)
    unfold pstep
    simp only [if_true, hit, hti]
    exact ⟨r4.cell, fun j _ => r4.ghost j, fun j _ => r4.haloghost j, pnodeValues_rel R W _ (r4.fields R), fun _ _ => rfl, fun _ _ => rfl⟩

theorem ploop_rel (W : PWorld K) (S : Setup K) (bc : ι → Int → BCond K) (hb : ∀ loc, BcRel R bc loc) (diff : Bool) (f : ι → K → K → K → K)
    (hf : ∀ x y z, (fun i => f i x y z) ∈ R) (N : Nat) : PRunRel R W (fun i => ploop W { S with bc := bc i } 1 diff (pstart W (f i)) N) := by
  induction N with
  | zero => exact ⟨fun j => hf _ _ _, fun j _ => zero_rel R, fun j _ => zero_rel R, fun j => zero_rel R, fun _ _ => rfl, fun _ _ => rfl⟩
  | succ N ih =>
    rcases isEmpty_or_nonempty ι with he | ⟨⟨i0⟩⟩
    · refine ⟨fun j => ?_, fun j _ => ?_, fun j _ => ?_, fun j => ?_, fun i => he.elim i, fun i => he.elim i⟩ <;>
      · convert R.zero_mem using 1
    · unfold ploop
      dsimp only
      simp only [fun i => ih.time i i0]
      by_cases ht : (ploop W { S with bc := bc i0 } 1 diff (pstart W (f i0)) N).time < S.tfinal
      · simp only [if_pos ht]; exact pstep_rel R W S bc hb diff ih
      · simp only [if_neg ht]; exact ih
end

section
variable {K : Type*} [Field K] [LinearOrder K]

/-- **C121** (periodic domains, 2D and 3D, one process as the drivers): for whatever tables a periodic domain has, first-order transport with or
without diffusion is linear in the initial values and the values prescribed on the walls. -/
theorem C121_superposition_periodic (W : PWorld K) (S : Setup K) (a b : K) (bc₁ bc₂ bc₃ : Int → BCond K) (hb : CombinedSides a b bc₁ bc₂ bc₃)
    (f₁ f₂ f₃ : K → K → K → K) (hf : ∀ x y z, f₃ x y z = a * f₁ x y z + b * f₂ x y z) (diff : Bool) (N : Nat) :
    let s₁ := ploop W { S with bc := bc₁ } 1 diff (pstart W f₁) N
    let s₂ := ploop W { S with bc := bc₂ } 1 diff (pstart W f₂) N
    let s₃ := ploop W { S with bc := bc₃ } 1 diff (pstart W f₃) N
    (∀ c, s₃.v.cell c = a * s₁.v.cell c + b * s₂.v.cell c) ∧ (∀ k, s₃.node k = a * s₁.node k + b * s₂.node k) ∧
      (s₃.time = s₁.time ∧ s₃.time = s₂.time) ∧ s₃.iter = s₁.iter ∧ s₃.iter = s₂.iter := by
  have h := ploop_rel (tripleRel a b) W S ![bc₁, bc₂, bc₃] (combined_bc hb) diff ![f₁, f₂, f₃] (fun x y z => hf x y z) N
  exact ⟨fun c => h.cell c, fun k => h.node k, ⟨h.time 2 0, h.time 2 1⟩, ⟨h.iter 2 0, h.iter 2 1⟩⟩

end

/-! ### comparison (C122) and change of the zero (C131) on periodic domains -/

section
variable {K : Type*} [Field K] [LinearOrder K] [IsStrictOrderedRing K]

/-- The sides of `bc`, prescribing the constant `β`. -/
def constSides (β : K) (bc : Int → BCond K) (loc : Int) : BCond K :=
  match bc loc with
  | .dirichlet _ => .dirichlet (fun _ _ _ => β)
  | _ => .neumann

theorem raised_combined {β : K} {bc bc' : Int → BCond K} (h : ∀ loc, RaisedBC β (bc loc) (bc' loc)) : CombinedSides 1 1 bc (constSides β bc) bc' := by
  intro loc
  have := h loc
  unfold constSides
  generalize bc loc = x at *
  generalize bc' loc = y at *
  cases this with
  | neumann => exact .inl ⟨rfl, rfl, rfl⟩
  | dirichlet hv => exact .inr (.inr ⟨_, _, _, rfl, rfl, rfl, fun x y z => by rw [hv, one_mul, one_mul]⟩)

theorem constSides_in {β : K} {bc bc' : Int → BCond K} (h : ∀ loc, RaisedBC β (bc loc) (bc' loc)) (loc : Int) : BcIn β β (constSides β bc loc) := by
  have := h loc
  unfold constSides
  generalize bc loc = x at *
  generalize bc' loc = y at *
  cases this with
  | neumann => trivial
  | dirichlet hv => exact fun _ _ _ => ⟨le_refl _, le_refl _⟩

variable {m : Mesh K} {serial : RankData K} {L : Nat → K} {r : K → K}

/-- **C122** (2D, periodic domains): the difference of two first-order runs stays within the bounds of the differences of their initial and
boundary data. -/
theorem C122_comparison_periodic_2d (hv : m.Valid2 L r) (hr : m.Read serial) (sqrt : K → K) (hs : ∀ x, 0 < x → sqrt x ≠ 0) (trunc : K → Int)
    (htr : ∀ i : Nat, trunc (i : K) = i) : ∃ W, mkPWorld 2 r serial (build2 sqrt trunc 1 serial) = some W ∧
      ∀ (S : Setup K) (lo hi : K), UniformVelocity S → NotAtRest 2 S → 0 ≤ S.Dxx + S.Dyy + S.Dzz → 0 < S.cfl → S.cfl ≤ 2 →
        ∀ bc₁ bc₂ : Int → BCond K, SidesDiffer lo hi bc₁ bc₂ → ∀ f₁ f₂ : K → K → K → K, (∀ x y z, lo ≤ f₂ x y z - f₁ x y z ∧ f₂ x y z - f₁ x y z ≤ hi) →
          ∀ N, let s₁ := ploop W { S with bc := bc₁ } 1 false (pstart W f₁) N
            let s₂ := ploop W { S with bc := bc₂ } 1 false (pstart W f₂) N
            s₁.time = s₂.time ∧ ∀ c < m.n, lo ≤ s₂.v.cell c - s₁.v.cell c ∧ s₂.v.cell c - s₁.v.cell c ≤ hi := by
  obtain ⟨W, e, hB⟩ := C102_maximum_principle_2d hv hr sqrt hs trunc htr
  refine ⟨W, e, fun S lo hi hu hn hD hc0 hc2 bc₁ bc₂ hb f₁ f₂ hf N => ?_⟩
  have sp := C121_superposition_periodic W S (-1) 1 bc₁ bc₂ _ (difference_combined hb) f₁ f₂ (fun x y z => f₂ x y z - f₁ x y z) (fun x y z => by ring) false N
  dsimp only at sp ⊢
  refine ⟨sp.2.2.1.1.symm.trans sp.2.2.1.2, fun c hc => ?_⟩
  have ht := hB { S with bc := differenceSides bc₁ bc₂ } lo hi hu hn hD hc0 hc2 (difference_in hb) _ hf N c hc
  rw [sp.1 c] at ht
  constructor <;> linarith [ht.1, ht.2]

/-- **C122** (3D, periodic domains): the difference of two first-order runs stays within the bounds of the differences of their initial and
boundary data. -/
theorem C122_comparison_periodic_3d (hv : m.Valid3 L r) (hr : m.Read serial) (sqrt : K → K) (hs : ∀ x, 0 < x → sqrt x ≠ 0) (trunc : K → Int)
    (htr : ∀ i : Nat, trunc (i : K) = i) : ∃ W, mkPWorld 3 r serial (build3 sqrt trunc 1 serial) = some W ∧
      ∀ (S : Setup K) (lo hi : K), UniformVelocity S → NotAtRest 3 S → 0 ≤ S.Dxx + S.Dyy + S.Dzz → 0 < S.cfl → S.cfl ≤ 2 →
        ∀ bc₁ bc₂ : Int → BCond K, SidesDiffer lo hi bc₁ bc₂ → ∀ f₁ f₂ : K → K → K → K, (∀ x y z, lo ≤ f₂ x y z - f₁ x y z ∧ f₂ x y z - f₁ x y z ≤ hi) →
          ∀ N, let s₁ := ploop W { S with bc := bc₁ } 1 false (pstart W f₁) N
            let s₂ := ploop W { S with bc := bc₂ } 1 false (pstart W f₂) N
            s₁.time = s₂.time ∧ ∀ c < m.n, lo ≤ s₂.v.cell c - s₁.v.cell c ∧ s₂.v.cell c - s₁.v.cell c ≤ hi := by
  obtain ⟨W, e, hB⟩ := C102_maximum_principle_3d hv hr sqrt hs trunc htr
  refine ⟨W, e, fun S lo hi hu hn hD hc0 hc2 bc₁ bc₂ hb f₁ f₂ hf N => ?_⟩
  have sp := C121_superposition_periodic W S (-1) 1 bc₁ bc₂ _ (difference_combined hb) f₁ f₂ (fun x y z => f₂ x y z - f₁ x y z) (fun x y z => by ring) false N
  dsimp only at sp ⊢
  refine ⟨sp.2.2.1.1.symm.trans sp.2.2.1.2, fun c hc => ?_⟩
  have ht := hB { S with bc := differenceSides bc₁ bc₂ } lo hi hu hn hD hc0 hc2 (difference_in hb) _ hf N c hc
  rw [sp.1 c] at ht
  constructor <;> linarith [ht.1, ht.2]

/-- **C131** (2D, periodic domains, first order): raising the initial and the prescribed values by `β` raises all values by `β`.  Partial: order 1. -/
theorem C131_zero_periodic_2d_partial (hv : m.Valid2 L r) (hr : m.Read serial) (sqrt : K → K) (hs : ∀ x, 0 < x → sqrt x ≠ 0) (trunc : K → Int)
    (htr : ∀ i : Nat, trunc (i : K) = i) : ∃ W, mkPWorld 2 r serial (build2 sqrt trunc 1 serial) = some W ∧
      ∀ (S : Setup K) (β : K) (bc' : Int → BCond K), UniformVelocity S → (∀ loc, RaisedBC β (S.bc loc) (bc' loc)) →
        ∀ (init : K → K → K → K) N, let s := ploop W { S with bc := bc' } 1 false (pstart W (fun x y z => init x y z + β)) N
          let t := ploop W S 1 false (pstart W init) N
          (∀ c < m.n, s.v.cell c = t.v.cell c + β) ∧ s.time = t.time := by
  obtain ⟨W, e, hB⟩ := C102_constant_preserved_2d hv hr sqrt hs trunc htr
  refine ⟨W, e, fun S β bc' hu hb init N => ?_⟩
  have sp := C121_superposition_periodic W S 1 1 S.bc (constSides β S.bc) bc' (raised_combined hb) init (fun _ _ _ => β) (fun x y z => init x y z + β)
    (fun x y z => by ring) false N
  dsimp only at sp ⊢
  refine ⟨fun c hc => ?_, sp.2.2.1.1⟩
  have ht := hB { S with bc := constSides β S.bc } β hu (constSides_in hb) 1 N c hc
  rw [sp.1 c, ht, one_mul, one_mul]

/-- **C131** (2D, periodic domains with diffusion, first order): raising the initial and the prescribed values by `β` raises all values by `β`.  Partial: order 1. -/
theorem C131_zero_periodic_diffusion_2d_partial (hv : m.Valid2 L r) (hr : m.Read serial) (sqrt : K → K) (hs : ∀ x, 0 < x → sqrt x ≠ 0) (trunc : K → Int)
    (htr : ∀ i : Nat, trunc (i : K) = i) (hm : ∀ s < m.nbnodes, m.ManyTriangles s) : ∃ W, mkPWorld 2 r serial (build2 sqrt trunc 1 serial) = some W ∧
      ∀ (S : Setup K) (β : K) (bc' : Int → BCond K), UniformVelocity S → (∀ loc, RaisedBC β (S.bc loc) (bc' loc)) →
        ∀ (init : K → K → K → K) N, let s := ploop W { S with bc := bc' } 1 true (pstart W (fun x y z => init x y z + β)) N
          let t := ploop W S 1 true (pstart W init) N
          (∀ c < m.n, s.v.cell c = t.v.cell c + β) ∧ s.time = t.time := by
  obtain ⟨W, e, hB⟩ := C102_constant_diffusion_mesh_2d_partial hv hr sqrt hs trunc htr hm
  refine ⟨W, e, fun S β bc' hu hb init N => ?_⟩
  have sp := C121_superposition_periodic W S 1 1 S.bc (constSides β S.bc) bc' (raised_combined hb) init (fun _ _ _ => β) (fun x y z => init x y z + β)
    (fun x y z => by ring) true N
  dsimp only at sp ⊢
  refine ⟨fun c hc => ?_, sp.2.2.1.1⟩
  have ht := hB { S with bc := constSides β S.bc } β hu (constSides_in hb) 1 N c hc
  rw [sp.1 c, ht, one_mul, one_mul]

/-- **C131** (3D, periodic domains, first order): raising the initial and the prescribed values by `β` raises all values by `β`.  Partial: order 1. -/
theorem C131_zero_periodic_3d_partial (hv : m.Valid3 L r) (hr : m.Read serial) (sqrt : K → K) (hs : ∀ x, 0 < x → sqrt x ≠ 0) (trunc : K → Int)
    (htr : ∀ i : Nat, trunc (i : K) = i) : ∃ W, mkPWorld 3 r serial (build3 sqrt trunc 1 serial) = some W ∧
      ∀ (S : Setup K) (β : K) (bc' : Int → BCond K), UniformVelocity S → (∀ loc, RaisedBC β (S.bc loc) (bc' loc)) →
        ∀ (init : K → K → K → K) N, let s := ploop W { S with bc := bc' } 1 false (pstart W (fun x y z => init x y z + β)) N
          let t := ploop W S 1 false (pstart W init) N
          (∀ c < m.n, s.v.cell c = t.v.cell c + β) ∧ s.time = t.time := by
  obtain ⟨W, e, hB⟩ := C102_constant_preserved_3d_partial hv hr sqrt hs trunc htr
  refine ⟨W, e, fun S β bc' hu hb init N => ?_⟩
  have sp := C121_superposition_periodic W S 1 1 S.bc (constSides β S.bc) bc' (raised_combined hb) init (fun _ _ _ => β) (fun x y z => init x y z + β)
    (fun x y z => by ring) false N
  dsimp only at sp ⊢
  refine ⟨fun c hc => ?_, sp.2.2.1.1⟩
  have ht := hB { S with bc := constSides β S.bc } β hu (constSides_in hb) N c hc
  rw [sp.1 c, ht, one_mul, one_mul]

end

/-! ### the hypotheses are met -/

/-- Sides of three runs: the third prescribes `2 x - 5 y`. -/
def mixSides (v : ℚ → ℚ → ℚ → ℚ) (loc : Int) : BCond ℚ := if loc = 1 then .neumann else .dirichlet v

theorem mixSides_combined : CombinedSides 2 (-5) (mixSides fun x _ _ => x) (mixSides fun _ y _ => y) (mixSides fun x y _ => 2 * x - 5 * y) := by
  intro loc
  unfold mixSides
  by_cases h : loc = 1
  · exact .inl (by simp [h])
  · simp only [h, if_false]; exact .inr (.inr ⟨_, _, _, rfl, rfl, rfl, fun x y z => by ring⟩)

/-- A combination of two runs with diffusion on the periodic mesh `quilt`. -/
example : ∃ W, mkPWorld 2 (fun x : ℚ => x) quiltSerial (build2 (fun x => x) Rat.floor 1 quiltSerial) = some W ∧ ∀ N c,
    (ploop W { flowSetup with bc := mixSides fun x y _ => 2 * x - 5 * y } 1 true (pstart W (fun x y _ => 2 * x ^ 2 - 5 * (1 - y))) N).v.cell c =
      2 * (ploop W { flowSetup with bc := mixSides fun x _ _ => x } 1 true (pstart W (fun x _ _ => x ^ 2)) N).v.cell c +
      -5 * (ploop W { flowSetup with bc := mixSides fun _ y _ => y } 1 true (pstart W (fun _ y _ => 1 - y)) N).v.cell c := by
  obtain ⟨W, e, _⟩ := C122_comparison_periodic_2d quiltValid quiltRead (fun x => x) (fun x hx => hx.ne') Rat.floor floor_nat
  exact ⟨W, e, fun N => (C121_superposition_periodic W flowSetup 2 (-5) _ _ _ mixSides_combined _ _ _ (fun x y z => by ring) true N).1⟩

example := C122_comparison_periodic_2d quiltValid quiltRead (fun x => x) (fun x hx => hx.ne') Rat.floor floor_nat
example := C131_zero_periodic_2d_partial quiltValid quiltRead (fun x => x) (fun x hx => hx.ne') Rat.floor floor_nat
example := C131_zero_periodic_diffusion_2d_partial quiltValid quiltRead (fun x => x) (fun x hx => hx.ne') Rat.floor floor_nat quiltMany
example := C122_comparison_periodic_3d prismValid prismRead (fun x => x) (fun x hx => hx.ne') Rat.floor floor_nat
example := C131_zero_periodic_3d_partial prismValid prismRead (fun x => x) (fun x hx => hx.ne') Rat.floor floor_nat

end Verif.Props.Par
