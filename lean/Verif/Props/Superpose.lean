import Verif.Props.Linear
import Verif.Props.JobRun
import Verif.Spec.Superpose

/-!
# First-order transport runs are linear (C121); comparison and stability (C122)
-/
set_option linter.unusedSectionVars false
set_option linter.unusedSimpArgs false
set_option linter.unusedVariables false
namespace Verif.Props.Par
open Verif Verif.Dom Verif.Fvm Verif.Geo Verif.MeshFile Verif.HaloGhost Verif.Run Verif.Spec Verif.Conn Verif.Part

section
variable {K : Type*} [Field K] [LinearOrder K] {ι : Type*} (R : Submodule K (ι → K))

theorem addAt_rel {f : ι → Nat → K} (hf : RelAll R f) (k : Nat) {x : ι → K} (hx : x ∈ R) : RelAll R (fun i => addAt (f i) k (x i)) := by
  intro j
  by_cases h : j = k
  · subst h
    have : (fun i => addAt (f i) j (x i) j) = fun i => f i j + x i := by funext i; simp [addAt]
    rw [this]; exact add_rel R (hf j) hx
  · have : (fun i => addAt (f i) k (x i) j) = fun i => f i j := by funext i; simp [addAt, h]
    rw [this]; exact hf j

theorem subAt_rel {f : ι → Nat → K} (hf : RelAll R f) (k : Nat) {x : ι → K} (hx : x ∈ R) : RelAll R (fun i => subAt (f i) k (x i)) := by
  intro j
  by_cases h : j = k
  · subst h
    have : (fun i => subAt (f i) j (x i) j) = fun i => f i j - x i := by funext i; simp [subAt]
    rw [this]; exact sub_rel R (hf j) hx
  · have : (fun i => subAt (f i) k (x i) j) = fun i => f i j := by funext i; simp [subAt, h]
    rw [this]; exact hf j

theorem upwind_rel {wl wr : ι → K} (hl : wl ∈ R) (hr : wr ∈ R) (u v w : K) (n : Nat → K) :
    (fun i => computeUpwindFlux (wl i) (wr i) u v w n) ∈ R := by
  unfold computeUpwindFlux
  dsimp only
  by_cases h : u * n 0 + v * n 1 + w * n 2 ≥ 0
  · simp only [h, if_true]; exact smul_rel R hl _
  · simp only [h, if_false]; exact smul_rel R hr _

/-- At order 1 the convective residual is a linear function of the values. -/
theorem conv_rel (dim : Nat) (D : Tables K) (S : Setup K) (it : Nat) (V : ι → Vari K) (g : ι → Grads K) (hc : RelAll R (fun i => (V i).cell))
    (hg : RelAll R (fun i => (V i).ghost)) (hh : RelAll R (fun i k => (V i).halo.getD k 0)) :
    RelAll R (fun i => conv dim (convArgs D (fieldsOf S D it (V i).cell (V i).ghost (V i).halo (g i)) 1)) := by
  have one : ((((1 : Int) - 1 : Int)) : K) = 0 := by simp
  have z : RelAll R (fun (_ : ι) (_ : Nat) => (0 : K)) := fun _ => zero_rel R
  unfold conv
  by_cases h2 : dim = 2
  · simp only [h2, if_true]
    unfold ConvArgs.explicitschemeConvective2d
    refine foldl_family (RelAll R) D.boundaryfaces (fun f i s => ConvArgs.boundaryStep2 (convArgs D (fieldsOf S D it (V i).cell (V i).ghost (V i).halo (g i)) 1) s f)
      (fun f _ s hs => ?_) _ (foldl_family (RelAll R) D.halofaces (fun f i s => ConvArgs.haloStep2 (convArgs D (fieldsOf S D it (V i).cell (V i).ghost (V i).halo (g i)) 1) s f)
      (fun f _ s hs => ?_) _ (foldl_family (fun s => RelAll R (fun i => (s i).rez)) D.periodicboundaryfaces (fun f i s => ConvArgs.periodicStep2 (convArgs D (fieldsOf S D it (V i).cell (V i).ghost (V i).halo (g i)) 1) s f)
      (fun f _ s hs => ?_) _ (foldl_family (RelAll R) D.innerfaces (fun f i s => ConvArgs.innerStep2 (convArgs D (fieldsOf S D it (V i).cell (V i).ghost (V i).halo (g i)) 1) s f)
      (fun f _ s hs => ?_) _ z)))
    · simp only [ConvArgs.boundaryStep2, convArgs, ConvArgs.cl, ConvArgs.cr, fieldsOf, one, zero_mul, add_zero]
      exact subAt_rel R hs _ (upwind_rel R (hc _) (hg _) _ _ _ _)
    · simp only [ConvArgs.haloStep2, convArgs, ConvArgs.cl, ConvArgs.cr, fieldsOf, one, zero_mul, add_zero]
      exact subAt_rel R hs _ (upwind_rel R (hc _) (hh _) _ _ _ _)
    · simp only [ConvArgs.periodicStep2, convArgs, ConvArgs.cl, ConvArgs.cr, fieldsOf, one, zero_mul, add_zero]
      exact subAt_rel R hs _ (upwind_rel R (hc _) (hc _) _ _ _ _)
    · simp only [ConvArgs.innerStep2, convArgs, ConvArgs.cl, ConvArgs.cr, fieldsOf, one, zero_mul, add_zero]
      exact addAt_rel R (subAt_rel R hs _ (upwind_rel R (hc _) (hc _) _ _ _ _)) _ (upwind_rel R (hc _) (hc _) _ _ _ _)
  · simp only [h2, if_false]
    unfold ConvArgs.explicitschemeConvective3d
    refine foldl_family (RelAll R) D.boundaryfaces (fun f i s => ConvArgs.boundaryStep3 (convArgs D (fieldsOf S D it (V i).cell (V i).ghost (V i).halo (g i)) 1) s f)
      (fun f _ s hs => ?_) _ (foldl_family (RelAll R) D.halofaces (fun f i s => ConvArgs.haloStep3 (convArgs D (fieldsOf S D it (V i).cell (V i).ghost (V i).halo (g i)) 1) s f)
      (fun f _ s hs => ?_) _ (foldl_family (fun s => RelAll R (fun i => (s i).rez)) D.periodicboundaryfaces (fun f i s => ConvArgs.periodicStep3 (convArgs D (fieldsOf S D it (V i).cell (V i).ghost (V i).halo (g i)) 1) s f)
      (fun f _ s hs => ?_) _ (foldl_family (RelAll R) D.innerfaces (fun f i s => ConvArgs.innerStep3 (convArgs D (fieldsOf S D it (V i).cell (V i).ghost (V i).halo (g i)) 1) s f)
      (fun f _ s hs => ?_) _ z)))
    · simp only [ConvArgs.boundaryStep3, convArgs, ConvArgs.cl, ConvArgs.cr, fieldsOf, one, zero_mul, add_zero]
      exact subAt_rel R hs _ (upwind_rel R (hc _) (hg _) _ _ _ _)
    · simp only [ConvArgs.haloStep3, convArgs, ConvArgs.cl, ConvArgs.cr, fieldsOf, one, zero_mul, add_zero]
      exact subAt_rel R hs _ (upwind_rel R (hc _) (hh _) _ _ _ _)
    · simp only [ConvArgs.periodicStep3, convArgs, ConvArgs.cl, ConvArgs.cr, fieldsOf, one, zero_mul, add_zero]
      exact subAt_rel R hs _ (upwind_rel R (hc _) (hc _) _ _ _ _)
    · simp only [ConvArgs.innerStep3, convArgs, ConvArgs.cl, ConvArgs.cr, fieldsOf, one, zero_mul, add_zero]
      exact addAt_rel R (subAt_rel R hs _ (upwind_rel R (hc _) (hc _) _ _ _ _)) _ (upwind_rel R (hc _) (hc _) _ _ _ _)

/-! ### node values -/

theorem sumFold_rel {α : Type*} (l : List α) (c : α → K) (v : α → ι → K) (hv : ∀ a ∈ l, v a ∈ R) {s : ι → K} (hs : s ∈ R) :
    (fun i => l.foldl (fun s a => s + c a * v a i) (s i)) ∈ R :=
  foldl_family (· ∈ R) l (fun a i s => s + c a * v a i) (fun a ha s hs => add_rel R hs (smul_rel R (hv a ha) _)) s hs

theorem sumFoldIf_rel {α : Type*} (l : List α) (p : α → Prop) [DecidablePred p] (c : α → K) (v : α → ι → K) (hv : ∀ a ∈ l, v a ∈ R) {s : ι → K} (hs : s ∈ R) :
    (fun i => l.foldl (fun s a => if p a then s + c a * v a i else s) (s i)) ∈ R := by
  refine foldl_family (· ∈ R) l (fun a i s => if p a then s + c a * v a i else s) (fun a ha s hs => ?_) s hs
  by_cases h : p a
  · simp only [h, if_true]; exact add_rel R hs (smul_rel R (hv a ha) _)
  · simp only [h, if_false]; exact hs

theorem ite_rel (p : Prop) [Decidable p] {a b : ι → K} (ha : a ∈ R) (hb : b ∈ R) : (fun i => if p then a i else b i) ∈ R := by
  by_cases h : p
  · simp only [h, if_true]; exact ha
  · simp only [h, if_false]; exact hb

theorem centertovertex2_rel (T : Interp.NodeTabs K) (w : ι → Interp.Fields K) (h : FieldsRel R w) : RelAll R (fun i => Interp.centertovertex2 T (w i)) := by
  intro nd
  unfold Interp.centertovertex2
  dsimp only
  have s1 := sumFold_rel R (T.cellidn nd) (fun cell => Interp.alpha2 (Interp.variables2 T nd) (T.vertexn nd) (T.centerc cell)) (fun cell i => (w i).c cell)
    (fun cell _ => h.c cell) (zero_rel R)
  have s2 := ite_rel R (Interp.firstGhost (T.ghosts nd) ≠ -1) (sumFoldIf_rel R (T.ghosts nd) (fun g => g.2 ≠ -1)
    (fun g => Interp.alpha2 (Interp.variables2 T nd) (T.vertexn nd) g.1) (fun g i => (w i).ghost g.2.toNat) (fun g _ => h.ghost _) s1) s1
  have s3 := ite_rel R (T.oldname nd = 11 ∨ T.oldname nd = 22) (sumFold_rel R (T.periodicn nd)
      (fun cell => Interp.alpha2 (Interp.variables2 T nd) (T.vertexn nd) (Interp.shiftX (T.centerc cell) (T.shift cell))) (fun cell i => (w i).c cell) (fun cell _ => h.c cell) s2)
    (ite_rel R (T.oldname nd = 33 ∨ T.oldname nd = 44) (sumFold_rel R (T.periodicn nd)
      (fun cell => Interp.alpha2 (Interp.variables2 T nd) (T.vertexn nd) (Interp.shiftY (T.centerc cell) (T.shift cell))) (fun cell i => (w i).c cell) (fun cell _ => h.c cell) s2) s2)
  exact ite_rel R (T.namen nd = 10) (sumFold_rel R (T.haloidn nd) (fun cell => Interp.alpha2 (Interp.variables2 T nd) (T.vertexn nd) (T.centerh cell))
    (fun cell i => (w i).halo cell) (fun cell _ => h.halo cell) (sumFoldIf_rel R (T.haloghosts nd) (fun g => g.2 ≠ -1)
    (fun g => Interp.alpha2 (Interp.variables2 T nd) (T.vertexn nd) g.1) (fun g i => (w i).haloghost g.2.toNat) (fun g _ => h.haloghost _) s3)) s3

theorem centertovertex3_rel (T : Interp.NodeTabs K) (w : ι → Interp.Fields K) (h : FieldsRel R w) : RelAll R (fun i => Interp.centertovertex3 T (w i)) := by
  intro nd
  unfold Interp.centertovertex3
  dsimp only
  have s1 := sumFold_rel R (T.cellidn nd) (fun cell => Interp.alpha3 (Interp.variables3 T nd) (T.vertexn nd) (T.centerc cell)) (fun cell i => (w i).c cell)
    (fun cell _ => h.c cell) (zero_rel R)
  have s2 := ite_rel R (Interp.firstGhost (T.ghosts nd) ≠ -1) (sumFoldIf_rel R (T.ghosts nd) (fun g => g.2 ≠ -1)
    (fun g => Interp.alpha3 (Interp.variables3 T nd) (T.vertexn nd) g.1) (fun g i => (w i).ghost g.2.toNat) (fun g _ => h.ghost _) s1) s1
  have s3 := ite_rel R (T.oldname nd = 11 ∨ T.oldname nd = 22) (sumFold_rel R (T.periodicn nd)
      (fun cell => Interp.alpha3 (Interp.variables3 T nd) (T.vertexn nd) (Interp.shiftX (T.centerc cell) (T.shift cell))) (fun cell i => (w i).c cell) (fun cell _ => h.c cell) s2)
    (ite_rel R (T.oldname nd = 33 ∨ T.oldname nd = 44) (sumFold_rel R (T.periodicn nd)
      (fun cell => Interp.alpha3 (Interp.variables3 T nd) (T.vertexn nd) (Interp.shiftY (T.centerc cell) (T.shift cell))) (fun cell i => (w i).c cell) (fun cell _ => h.c cell) s2)
    (ite_rel R (T.oldname nd = 55 ∨ T.oldname nd = 66) (sumFold_rel R (T.periodicn nd)
      (fun cell => Interp.alpha3 (Interp.variables3 T nd) (T.vertexn nd) (Interp.shiftZ (T.centerc cell) (T.shift cell))) (fun cell i => (w i).c cell) (fun cell _ => h.c cell) s2) s2))
  exact ite_rel R (T.namen nd = 10) (sumFold_rel R (T.haloidn nd) (fun cell => Interp.alpha3 (Interp.variables3 T nd) (T.vertexn nd) (T.centerh cell))
    (fun cell i => (w i).halo cell) (fun cell _ => h.halo cell) (sumFoldIf_rel R (T.haloghosts nd) (fun g => g.2 ≠ -1)
    (fun g => Interp.alpha3 (Interp.variables3 T nd) (T.vertexn nd) g.1) (fun g i => (w i).haloghost g.2.toNat) (fun g _ => h.haloghost _) s3)) s3

theorem nodeValues_rel (dim size : Nat) (d : RankData K) (D : Tables K) (hg : HGResult K) (w : ι → Interp.Fields K) (h : FieldsRel R w) :
    RelAll R (fun i => nodeValues dim size d D hg (w i)) := by
  intro nd
  unfold nodeValues
  exact ite_rel R _ (centertovertex2_rel R _ w h nd) (centertovertex3_rel R _ w h nd)

/-! ### face gradients -/

theorem writeList_family {α : Type*} (P : (ι → α) → Prop) (l : List Nat) (f : ι → Nat → α) (hf : ∀ j, P (fun i => f i j)) (out : ι → Nat → α)
    (ho : ∀ j, P (fun i => out i j)) : ∀ j, P (fun i => Interp.writeList l (f i) (out i) j) := by
  have := foldl_family (fun o : ι → Nat → α => ∀ j, P (fun i => o i j)) l (fun k i o => setAt o k (f i k)) (fun k _ o ho j => by
    by_cases h : j = k
    · subst h
      have : (fun i => setAt (o i) j (f i j) j) = fun i => f i j := by funext i; simp [setAt]
      rw [this]; exact hf j
    · have : (fun i => setAt (o i) k (f i k) j) = fun i => o i j := by funext i; simp [setAt, h]
      rw [this]; exact ho j) out ho
  exact this

theorem faceGradient2_rel (F : Interp.FaceTabs K) (L : Interp.FaceLists) (w : ι → Interp.Fields K) (nd : ι → Nat → K) (h : FieldsRel R w) (hn : RelAll R nd) (j : Nat) :
    (fun i => (Interp.faceGradient2 F L (w i) (nd i) (fun _ => (0, 0)) j).1) ∈ R ∧ (fun i => (Interp.faceGradient2 F L (w i) (nd i) (fun _ => (0, 0)) j).2) ∈ R := by
  have hd : ∀ (f : Nat) (x : ι → K), x ∈ R →
      (fun i => (Interp.diamondGrad2 (Interp.faceGradientInfo2 F f) (nd i (F.nodeid f 0)) (nd i (F.nodeid f 1)) ((w i).c (F.cellid0 f)) (x i)).1) ∈ R ∧
      (fun i => (Interp.diamondGrad2 (Interp.faceGradientInfo2 F f) (nd i (F.nodeid f 0)) (nd i (F.nodeid f 1)) ((w i).c (F.cellid0 f)) (x i)).2) ∈ R := by
    intro f x hx
    have a := hn (F.nodeid f 0)
    have b := hn (F.nodeid f 1)
    have c := h.c (F.cellid0 f)
    generalize Interp.faceGradientInfo2 F f = d
    have key : ∀ p : K, ∀ q : Nat, (fun i => p * ((nd i (F.nodeid f 0) + (w i).c (F.cellid0 f)) * d.f_1 q + ((w i).c (F.cellid0 f) + nd i (F.nodeid f 1)) * d.f_2 q +
        (nd i (F.nodeid f 1) + x i) * d.f_3 q + (x i + nd i (F.nodeid f 0)) * d.f_4 q)) ∈ R := by
      intro p q
      have := smul_rel R (add_rel R (add_rel R (add_rel R (smul_rel R (add_rel R a c) (d.f_1 q)) (smul_rel R (add_rel R c b) (d.f_2 q)))
        (smul_rel R (add_rel R b hx) (d.f_3 q))) (smul_rel R (add_rel R hx a) (d.f_4 q))) p
      convert this using 1
      funext i
      ring
    exact ⟨key _ 1, key _ 0⟩
  unfold Interp.faceGradient2
  dsimp only
  have P := writeList_family (ι := ι) (fun x : ι → K × K => (fun i => (x i).1) ∈ R ∧ (fun i => (x i).2) ∈ R)
  exact P L.neumann _ (fun f => hd f _ (h.ghost f)) _ (P L.dirichlet _ (fun f => hd f _ (h.ghost f)) _ (P L.halo _ (fun f => hd f _ (h.halo _)) _
    (P L.periodic _ (fun f => hd f _ (h.c _)) _ (P L.inner _ (fun f => hd f _ (h.c _)) _ (fun _ => ⟨zero_rel R, zero_rel R⟩))))) j

theorem faceGradient3_rel (F : Interp.FaceTabs K) (L : Interp.FaceLists) (w : ι → Interp.Fields K) (nd : ι → Nat → K) (h : FieldsRel R w) (hn : RelAll R nd) (j k : Nat) :
    (fun i => Interp.faceGradient3 F L (w i) (nd i) (fun _ _ => 0) j k) ∈ R := by
  have hd : ∀ (f : Nat) (x : ι → K), x ∈ R → ∀ k,
      (fun i => Interp.diamondGrad3 (Interp.faceGradientInfo3 F f) (F.normal f) (nd i (F.nodeid f 0)) (nd i (F.nodeid f 1)) (nd i (F.nodeid f 2)) (nd i (F.nodeid f 2))
        ((w i).c (F.cellid0 f)) (x i) k) ∈ R := by
    intro f x hx k
    have a := hn (F.nodeid f 0)
    have b := hn (F.nodeid f 1)
    have c := hn (F.nodeid f 2)
    have e := h.c (F.cellid0 f)
    generalize Interp.faceGradientInfo3 F f = d
    have := smul_rel R (add_rel R (add_rel R (smul_rel R (sub_rel R a c) (d.n1 k)) (smul_rel R (sub_rel R b c) (d.n2 k))) (smul_rel R (sub_rel R hx e) (F.normal f k))) (d.airDiamond)⁻¹
    convert this using 1
    funext i
    simp only [Interp.diamondGrad3]
    rw [div_eq_inv_mul]
  unfold Interp.faceGradient3
  dsimp only
  have P := writeList_family (ι := ι) (fun x : ι → Vec K => ∀ k, (fun i => x i k) ∈ R)
  exact P L.neumann _ (fun f => hd f _ (h.ghost f)) _ (P L.dirichlet _ (fun f => hd f _ (h.ghost f)) _ (P L.halo _ (fun f => hd f _ (h.halo _)) _
    (P L.periodic _ (fun f => hd f _ (h.c _)) _ (P L.inner _ (fun f => hd f _ (h.c _)) _ (fun _ _ => zero_rel R))))) j k

theorem varFaces_same (dim : Nat) (D : Tables K) (bc : ι → Int → BCond K) (hb : ∀ loc, BcRel R bc loc) (i j : ι) : varFaces dim D (bc i) = varFaces dim D (bc j) := by
  have : ∀ loc, (bc i loc).isDirichlet = (bc j loc).isDirichlet := by
    intro loc
    rcases hb loc with e | e | ⟨v, e, _⟩ <;> rw [e i, e j] <;> rfl
  unfold varFaces
  simp only [this]

theorem faceGrads_rel (dim : Nat) (D : Tables K) (bc : ι → Int → BCond K) (hb : ∀ loc, BcRel R bc loc) (w : ι → Interp.Fields K) (nd : ι → Nat → K)
    (h : FieldsRel R w) (hn : RelAll R nd) (j k : Nat) : (fun i => faceGrads dim D (bc i) (w i) (nd i) j k) ∈ R := by
  rcases isEmpty_or_nonempty ι with he | ⟨⟨i0⟩⟩
  · have : (fun i => faceGrads dim D (bc i) (w i) (nd i) j k) = fun _ => 0 := funext fun i => he.elim i
    rw [this]; exact zero_rel R
  · have e : ∀ i, varFaces dim D (bc i) = varFaces dim D (bc i0) := fun i => varFaces_same R dim D bc hb i i0
    unfold faceGrads
    simp only [e]
    by_cases h2 : dim = 2
    · simp only [h2, if_true]
      have := faceGradient2_rel R (faceTabs 2 D) (varFaces 2 D (bc i0)) w nd h hn j
      match k with
      | 0 => exact this.1
      | 1 => exact this.2
      | k + 2 => exact zero_rel R
    · simp only [h2, if_false]
      exact faceGradient3_rel R _ _ w nd h hn j k

theorem dissip_rel (D : Tables K) (S : Setup K) (g : ι → Nat → Vec K) (hg : ∀ f k, (fun i => g i f k) ∈ R) : RelAll R (fun i => Run.dissip D S (g i)) := by
  unfold Run.dissip explicitschemeDissipative
  refine foldl_family (RelAll R) (List.range D.nbfaces) (fun f i s => dissipStep (fun f => g i f 0) (fun f => g i f 1) (fun f => g i f 2) D.cellid D.normal D.name S.Dxx S.Dyy S.Dzz s f)
    (fun f _ s hs => ?_) _ (fun _ => zero_rel R)
  have hq : (fun i => S.Dxx * g i f 0 * D.normal f 0 + S.Dyy * g i f 1 * D.normal f 1 + S.Dzz * g i f 2 * D.normal f 2) ∈ R := by
    have := add_rel R (add_rel R (smul_rel R (hg f 0) (S.Dxx * D.normal f 0)) (smul_rel R (hg f 1) (S.Dyy * D.normal f 1))) (smul_rel R (hg f 2) (S.Dzz * D.normal f 2))
    convert this using 1
    funext i
    ring
  unfold dissipStep
  dsimp only
  by_cases h : D.name f = 0
  · simp only [h, if_true]
    exact subAt_rel R (addAt_rel R hs _ hq) _ hq
  · simp only [h, if_false]
    exact addAt_rel R hs _ hq

/-! ### runs -/

/-- The states of a family of runs: same time and iteration, related values. -/
structure RunRel (W : World K) (s : ι → TState K) : Prop where
  vals : Relat0 R W (fun i => (s i).V)
  node : ∀ p < W.SIZE, RelAll R (fun i => (s i).node p)
  time : ∀ i j, (s i).time = (s j).time
  iter : ∀ i j, (s i).iter = (s j).iter

theorem cellGradient_update {W : World K} {bc : Int → BCond K} {V : Nat → Vari K} {r : (Nat → Vari K) × (Nat → Grads K)} (h : cellGradient W bc V = some r) :
    updateValues W bc V = some r.1 := by
  unfold cellGradient at h
  obtain ⟨U, e0, h⟩ := Option.bind_eq_some_iff.mp h
  dsimp only at h
  obtain ⟨hx, e1, h⟩ := Option.bind_eq_some_iff.mp h
  obtain ⟨hy, e2, h⟩ := Option.bind_eq_some_iff.mp h
  obtain ⟨hz, e3, h⟩ := Option.bind_eq_some_iff.mp h
  obtain ⟨hp, e4, rfl⟩ := Option.map_eq_some_iff.mp h
  exact e0

/-- The values after an iteration. -/
def nextV (W : World K) (S : Setup K) (it : Nat) (dt : K) (r : (Nat → Vari K) × (Nat → Grads K)) (dis : Nat → Nat → K) (U : Nat → Vari K) (p : Nat) : Vari K :=
  { U p with cell := updateNewValue (U p).cell (conv W.dim (convArgs (W.D p) (fieldsOf S (W.D p) it (r.1 p).cell (r.1 p).ghost (r.1 p).halo (r.2 p)) 1)) (dis p) (fun _ => 0) dt (W.D p).volume }

theorem tstep_rel {W : World K} (S : Setup K) (bc : ι → Int → BCond K) (hb : ∀ loc, BcRel R bc loc) (diff : Bool) {s s' : ι → TState K} (hs : RunRel R W s)
    (h : ∀ i, tstep W { S with bc := bc i } 1 diff (s i) = some (s' i)) : RunRel R W s' := by
  rcases isEmpty_or_nonempty ι with he | ⟨⟨i0⟩⟩
  · refine ⟨⟨fun p hp j => ?_, fun p hp j _ => ?_, fun p hp j _ => ?_⟩, fun p hp j => ?_, fun i => he.elim i, fun i => he.elim i⟩ <;>
    · convert R.zero_mem using 1
  have parts : ∀ i, ∃ V1 r, updateValues W (bc i) (s i).V = some V1 ∧ cellGradient W (bc i) V1 = some r ∧
      (if diff then ((faceGradient W (bc i) r.1).bind fun q =>
        (celltonode W (bc i) (nextV W S (s i).iter (allreduceMin W.SIZE (fun p => localStep W.dim S (W.D p) (s i).iter)) r (fun p => Run.dissip (W.D p) S (q.2.2 p)) q.1)).map fun o =>
          (TState.mk o.1 o.2 ((s i).time + allreduceMin W.SIZE (fun p => localStep W.dim S (W.D p) (s i).iter)) ((s i).iter + 1) : TState K))
       else some (TState.mk (nextV W S (s i).iter (allreduceMin W.SIZE (fun p => localStep W.dim S (W.D p) (s i).iter)) r (fun _ _ => 0) r.1) (s i).node
          ((s i).time + allreduceMin W.SIZE (fun p => localStep W.dim S (W.D p) (s i).iter)) ((s i).iter + 1))) = some (s' i) := by
    intro i
    have := h i
    unfold tstep at this
    obtain ⟨V1, e1, this⟩ := Option.bind_eq_some_iff.mp this
    dsimp only at this
    obtain ⟨r, e2, this⟩ := Option.bind_eq_some_iff.mp this
    exact ⟨V1, r, e1, e2, this⟩
  choose V1 r e1 e2 e3 using parts
  have r1 := updateValues_rel R (U := fun i => (s i).V) hb hs.vals e1
  have r2 : Related R W.SIZE (fun i => (r i).1) := updateValues_rel R hb (r1.weak R) (fun i => cellGradient_update (e2 i))
  have hit : ∀ i, (s i).iter = (s i0).iter := fun i => hs.iter i i0
  have hti : ∀ i, (s i).time = (s i0).time := fun i => hs.time i i0
  simp only [hit, hti] at e3
  generalize hdt : allreduceMin W.SIZE (fun p => localStep W.dim S (W.D p) (s i0).iter) = dt at e3
  have hconv : ∀ p < W.SIZE, RelAll R (fun i => conv W.dim (convArgs (W.D p) (fieldsOf S (W.D p) (s i0).iter ((r i).1 p).cell ((r i).1 p).ghost ((r i).1 p).halo ((r i).2 p)) 1)) :=
    fun p hp => conv_rel R W.dim (W.D p) S (s i0).iter (fun i => (r i).1 p) (fun i => (r i).2 p) (r2.cell p hp) (r2.ghost p hp) (r2.halo p hp)
  have hnew : ∀ (U : ι → Nat → Vari K) (rez dis : ι → Nat → K) (p : Nat), RelAll R (fun i => (U i p).cell) → RelAll R rez → RelAll R dis →
      RelAll R (fun i => updateNewValue (U i p).cell (rez i) (dis i) (fun _ => 0) dt (W.D p).volume) := by
    intro U rez dis p hU hr hd j
    have := add_rel R (hU j) (smul_rel R (add_rel R (hr j) (hd j)) (dt * ((W.D p).volume j)⁻¹))
    convert this using 1
    funext i
    show (U i p).cell j + dt * ((rez i j + dis i j) / (W.D p).volume j + 0) = (U i p).cell j + dt * ((W.D p).volume j)⁻¹ * (rez i j + dis i j)
    rw [add_zero, div_eq_mul_inv]; ring
  cases diff with
  | false =>
    simp only [Bool.false_eq_true, if_false, Option.some.injEq] at e3
    have es : s' = fun i => _ := funext fun i => (e3 i).symm
    subst es
    refine ⟨⟨fun p hp => hnew (fun i => (r i).1) _ (fun _ _ => 0) p (r2.cell p hp) (hconv p hp) (fun _ => zero_rel R), fun p hp j _ => r2.ghost p hp j, fun p hp j _ => r2.haloghost p hp j⟩,
      fun p hp => hs.node p hp, fun _ _ => rfl, fun _ _ => rfl⟩
  | true =>
    simp only [if_true] at e3
    have parts : ∀ i, ∃ q o, faceGradient W (bc i) (r i).1 = some q ∧ celltonode W (bc i) (nextV W S (s i0).iter dt (r i) (fun p => Run.dissip (W.D p) S (q.2.2 p)) q.1) = some o ∧
        s' i = { V := o.1, node := o.2, time := (s i0).time + dt, iter := (s i0).iter + 1 } := by
      intro i
      obtain ⟨q, a, b⟩ := Option.bind_eq_some_iff.mp (e3 i)
      obtain ⟨o, c, d⟩ := Option.map_eq_some_iff.mp b
      exact ⟨q, o, a, c, d.symm⟩
    choose q o f1 f2 f3 using parts
    have es : s' = fun i => { V := (o i).1, node := (o i).2, time := (s i0).time + dt, iter := (s i0).iter + 1 } := funext f3
    subst es
    have q1 : ∀ i, updateValues W (bc i) (r i).1 = some (q i).1 ∧ (q i).2.2 = fun p => faceGrads W.dim (W.D p) (bc i) ((q i).1 p).fields
        (nodeValues W.dim W.SIZE (W.data p) (W.D p) (W.hg p) ((q i).1 p).fields) := by
      intro i
      have := f1 i
      unfold faceGradient celltonode at this
      rw [Option.map_map] at this
      obtain ⟨U, e, hq⟩ := Option.map_eq_some_iff.mp this
      rw [← hq]
      exact ⟨e, rfl⟩
    have r3 : Related R W.SIZE (fun i => (q i).1) := updateValues_rel R hb (r2.weak R) (fun i => (q1 i).1)
    have hdis : ∀ p < W.SIZE, RelAll R (fun i => Run.dissip (W.D p) S ((q i).2.2 p)) := by
      intro p hp
      refine dissip_rel R _ _ _ (fun f k => ?_)
      simp only [fun i => (q1 i).2]
      exact faceGrads_rel R W.dim (W.D p) bc hb _ _ (r3.fields R hp) (nodeValues_rel R _ _ _ _ _ _ (r3.fields R hp)) f k
    have o1 : ∀ i, updateValues W (bc i) (nextV W S (s i0).iter dt (r i) (fun p => Run.dissip (W.D p) S ((q i).2.2 p)) (q i).1) = some (o i).1 ∧
        (o i).2 = fun p => nodeValues W.dim W.SIZE (W.data p) (W.D p) (W.hg p) ((o i).1 p).fields := by
      intro i
      have := f2 i
      unfold celltonode at this
      obtain ⟨U, e, ho⟩ := Option.map_eq_some_iff.mp this
      rw [← ho]; exact ⟨e, rfl⟩
    have r4 : Related R W.SIZE (fun i => (o i).1) := updateValues_rel R (U := fun i => nextV W S (s i0).iter dt (r i) (fun p => Run.dissip (W.D p) S ((q i).2.2 p)) (q i).1) hb
      ⟨fun p hp => hnew (fun i => (q i).1) _ _ p (r3.cell p hp) (hconv p hp) (hdis p hp), fun p hp j _ => r3.ghost p hp j, fun p hp j _ => r3.haloghost p hp j⟩ (fun i => (o1 i).1)
    refine ⟨r4.weak R, fun p hp => ?_, fun _ _ => rfl, fun _ _ => rfl⟩
    simp only [fun i => (o1 i).2]
    exact nodeValues_rel R _ _ _ _ _ _ (r4.fields R hp)

theorem tloop_rel {W : World K} (S : Setup K) (bc : ι → Int → BCond K) (hb : ∀ loc, BcRel R bc loc) (diff : Bool) (f : ι → K → K → K → K)
    (hf : ∀ x y z, (fun i => f i x y z) ∈ R) (N : Nat) {s : ι → TState K}
    (h : ∀ i, tloop W { S with bc := bc i } 1 diff (tstart W (f i)) N = some (s i)) : RunRel R W s := by
  induction N generalizing s with
  | zero =>
    have es : s = fun i => tstart W (f i) := funext fun i => (Option.some.inj (h i)).symm
    subst es
    exact ⟨⟨fun p hp j => hf _ _ _, fun p hp j _ => zero_rel R, fun p hp j _ => zero_rel R⟩, fun p hp j => zero_rel R, fun _ _ => rfl, fun _ _ => rfl⟩
  | succ N ih =>
    have parts : ∀ i, ∃ t, tloop W { S with bc := bc i } 1 diff (tstart W (f i)) N = some t ∧ (if t.time < S.tfinal then tstep W { S with bc := bc i } 1 diff t else some t) = some (s i) :=
      fun i => Option.bind_eq_some_iff.mp (h i)
    choose t e1 e2 using parts
    have ht := ih e1
    rcases isEmpty_or_nonempty ι with he | ⟨⟨i0⟩⟩
    · have : s = t := funext fun i => he.elim i
      rw [this]; exact ht
    · by_cases hlt : (t i0).time < S.tfinal
      · have : ∀ i, tstep W { S with bc := bc i } 1 diff (t i) = some (s i) := by
          intro i
          have := e2 i
          rw [if_pos (by rw [ht.time i i0]; exact hlt)] at this
          exact this
        exact tstep_rel R S bc hb diff ht this
      · have : s = t := funext fun i => by
          have := e2 i
          rw [if_neg (by rw [ht.time i i0]; exact hlt)] at this
          exact (Option.some.inj this).symm
        rw [this]; exact ht
end

/-! ### C121: superposition -/

section
variable {K : Type*} [Field K] [LinearOrder K]

/-- Triples `(x, y, a x + b y)`. -/
def tripleRel (a b : K) : Submodule K (Fin 3 → K) where
  carrier := {x | x 2 = a * x 0 + b * x 1}
  add_mem' := by intro x y hx hy; simp only [Set.mem_ofPred_eq, Pi.add_apply] at *; rw [hx, hy]; ring
  zero_mem' := by simp
  smul_mem' := by intro c x hx; simp only [Set.mem_ofPred_eq, Pi.smul_apply, smul_eq_mul] at *; rw [hx]; ring

theorem combined_bc {a b : K} {bc₁ bc₂ bc₃ : Int → BCond K} (h : CombinedSides a b bc₁ bc₂ bc₃) (loc : Int) : BcRel (tripleRel a b) ![bc₁, bc₂, bc₃] loc := by
  have all : ∀ P : Fin 3 → Prop, P 0 → P 1 → P 2 → ∀ i, P i := by intro P h0 h1 h2 i; fin_cases i; exacts [h0, h1, h2]
  rcases h loc with ⟨x, y, z⟩ | ⟨x, y, z⟩ | ⟨v1, v2, v3, x, y, z, e⟩
  · exact .inl (all _ x y z)
  · exact .inr (.inl (all _ x y z))
  · exact .inr (.inr ⟨![v1, v2, v3], all _ x y z, fun x y z => e x y z⟩)

theorem mkWorld_size {dim SIZE : Nat} {data : Nat → RankData K} {D : Nat → Tables K} {W : World K} (h : mkWorld dim SIZE data D = some W) : W.SIZE = SIZE := by
  unfold mkWorld at h
  obtain ⟨l, _, rfl⟩ := Option.map_eq_some_iff.mp h
  rfl

theorem superposed {W : World K} (S : Setup K) {a b : K} {bc₁ bc₂ bc₃ : Int → BCond K} (hb : CombinedSides a b bc₁ bc₂ bc₃) (diff : Bool)
    {f₁ f₂ f₃ : K → K → K → K} (hf : ∀ x y z, f₃ x y z = a * f₁ x y z + b * f₂ x y z) (N : Nat) {s₁ s₂ s₃ : TState K}
    (e₁ : tloop W { S with bc := bc₁ } 1 diff (tstart W f₁) N = some s₁) (e₂ : tloop W { S with bc := bc₂ } 1 diff (tstart W f₂) N = some s₂)
    (e₃ : tloop W { S with bc := bc₃ } 1 diff (tstart W f₃) N = some s₃) : Superposed a b W s₁ s₂ s₃ := by
  have h := tloop_rel (tripleRel a b) S ![bc₁, bc₂, bc₃] (combined_bc hb) diff ![f₁, f₂, f₃] (fun x y z => hf x y z) N (s := ![s₁, s₂, s₃])
    (by intro i; fin_cases i; exacts [e₁, e₂, e₃])
  exact ⟨fun p hp c _ => h.vals.cell p hp c, fun p hp k _ => h.node p hp k, ⟨h.time 2 0, h.time 2 1⟩, ⟨h.iter 2 0, h.iter 2 1⟩⟩

end

section
variable {K : Type*} [Field K] [LinearOrder K] [IsStrictOrderedRing K]
variable {nodeid : Nat → Nat → Nat} {node : Nat → K × K × K × Nat} {npart0 epart : Nat → Nat} {nbnodes n SIZE : Nat}
  {data : Nat → RankData K} {serial : RankData K}

theorem NodePair.run_some {dim : Nat} {cv : Nat → List K} {L : Nat → Tables K} {G : Tables K} {B : List Int} {out : Nat → Nat → Geo.Vec K} {trunc : K → Int}
    (np : NodePair dim nodeid node cv npart0 epart nbnodes n SIZE data serial L G B out trunc) (hgL : Nat → HGResult K)
    (S : Setup K) (order : Int) (diff : Bool) (init : K → K → K → K) (N : Nat) :
    ∃ s, tloop (parW dim SIZE data L hgL) S order diff (tstart (parW dim SIZE data L hgL) init) N = some s := by
  obtain ⟨s, e, _⟩ := tloop_inv (parW dim SIZE data L hgL) S order diff (fun _ => True)
    (fun s _ => by obtain ⟨s', e, _⟩ := tstep_time np hgL S order diff s; exact ⟨s', e, trivial⟩) _ trivial N
  exact ⟨s, e⟩

/-- **C121** (2D): first-order transport, with or without diffusion, on any number of processes and any partition, is linear: the run from the
combination `a f₁ + b f₂` of two initial conditions, with the same combination of the prescribed boundary values, computes in every cell and
node, after any number of iterations, the combination of the two runs, at the same time. -/
theorem C121_superposition_2d (h : Launched 3 nodeid node (centvol2 node nodeid) npart0 epart nbnodes n SIZE data serial)
    (vm : ValidMesh2 nodeid node nbnodes n) (sqrt : K → K) (trunc : K → Int) (htr : ∀ m : Nat, trunc (m : K) = m) :
    ∃ W, mkWorld 2 SIZE data (fun p => build2 sqrt trunc SIZE (data p)) = some W ∧
      ∀ (S : Setup K) (a b : K) (bc₁ bc₂ bc₃ : Int → BCond K), CombinedSides a b bc₁ bc₂ bc₃ → ∀ f₁ f₂ f₃ : K → K → K → K,
        (∀ x y z, f₃ x y z = a * f₁ x y z + b * f₂ x y z) → ∀ (diff : Bool) (N : Nat), ∃ s₁ s₂ s₃,
          tloop W { S with bc := bc₁ } 1 diff (tstart W f₁) N = some s₁ ∧ tloop W { S with bc := bc₂ } 1 diff (tstart W f₂) N = some s₂ ∧
          tloop W { S with bc := bc₃ } 1 diff (tstart W f₃) N = some s₃ ∧ Superposed a b W s₁ s₂ s₃ := by
  have np := h.nodePair2 vm sqrt trunc htr
  obtain ⟨hgL, hgG, w1, w2, sL, sG⟩ := np.worlds
  refine ⟨_, w1, fun S a b bc₁ bc₂ bc₃ hb f₁ f₂ f₃ hf diff N => ?_⟩
  obtain ⟨s₁, e₁⟩ := np.run_some hgL { S with bc := bc₁ } 1 diff f₁ N
  obtain ⟨s₂, e₂⟩ := np.run_some hgL { S with bc := bc₂ } 1 diff f₂ N
  obtain ⟨s₃, e₃⟩ := np.run_some hgL { S with bc := bc₃ } 1 diff f₃ N
  exact ⟨s₁, s₂, s₃, e₁, e₂, e₃, superposed S hb diff hf N e₁ e₂ e₃⟩

/-- **C121** (3D). -/
theorem C121_superposition_3d (h : Launched 4 nodeid node (centvol3 node nodeid) npart0 epart nbnodes n SIZE data serial)
    (vm : ValidMesh3 nodeid node nbnodes n) (sqrt : K → K) (trunc : K → Int) (htr : ∀ m : Nat, trunc (m : K) = m) :
    ∃ W, mkWorld 3 SIZE data (fun p => build3 sqrt trunc SIZE (data p)) = some W ∧
      ∀ (S : Setup K) (a b : K) (bc₁ bc₂ bc₃ : Int → BCond K), CombinedSides a b bc₁ bc₂ bc₃ → ∀ f₁ f₂ f₃ : K → K → K → K,
        (∀ x y z, f₃ x y z = a * f₁ x y z + b * f₂ x y z) → ∀ (diff : Bool) (N : Nat), ∃ s₁ s₂ s₃,
          tloop W { S with bc := bc₁ } 1 diff (tstart W f₁) N = some s₁ ∧ tloop W { S with bc := bc₂ } 1 diff (tstart W f₂) N = some s₂ ∧
          tloop W { S with bc := bc₃ } 1 diff (tstart W f₃) N = some s₃ ∧ Superposed a b W s₁ s₂ s₃ := by
  have np := h.nodePair3 vm sqrt trunc htr
  obtain ⟨hgL, hgG, w1, w2, sL, sG⟩ := np.worlds
  refine ⟨_, w1, fun S a b bc₁ bc₂ bc₃ hb f₁ f₂ f₃ hf diff N => ?_⟩
  obtain ⟨s₁, e₁⟩ := np.run_some hgL { S with bc := bc₁ } 1 diff f₁ N
  obtain ⟨s₂, e₂⟩ := np.run_some hgL { S with bc := bc₂ } 1 diff f₂ N
  obtain ⟨s₃, e₃⟩ := np.run_some hgL { S with bc := bc₃ } 1 diff f₃ N
  exact ⟨s₁, s₂, s₃, e₁, e₂, e₃, superposed S hb diff hf N e₁ e₂ e₃⟩

/-! ### C122: comparison and stability -/

/-- The sides of the run of the differences. -/
def differenceSides (bc₁ bc₂ : Int → BCond K) (loc : Int) : BCond K :=
  match bc₁ loc, bc₂ loc with
  | .dirichlet v₁, .dirichlet v₂ => .dirichlet (fun x y z => v₂ x y z - v₁ x y z)
  | _, _ => .neumann

theorem difference_combined {m M : K} {bc₁ bc₂ : Int → BCond K} (h : SidesDiffer m M bc₁ bc₂) : CombinedSides (-1) 1 bc₁ bc₂ (differenceSides bc₁ bc₂) := by
  intro loc
  rcases h loc with ⟨a, b⟩ | ⟨v1, v2, a, b, _⟩
  · exact .inl ⟨a, b, by unfold differenceSides; rw [a]⟩
  · exact .inr (.inr ⟨v1, v2, _, a, b, by unfold differenceSides; rw [a, b], fun x y z => by ring⟩)

theorem difference_in {m M : K} {bc₁ bc₂ : Int → BCond K} (h : SidesDiffer m M bc₁ bc₂) (loc : Int) : BcIn m M (differenceSides bc₁ bc₂ loc) := by
  rcases h loc with ⟨a, b⟩ | ⟨v1, v2, a, b, e⟩
  · unfold differenceSides; rw [a]; trivial
  · unfold differenceSides; rw [a, b]; exact e

/-- **C122** (2D): under the conditions of C93 (order 1, uniform velocity, `0 < cfl ≤ 2`, no dissipative term) the difference of two runs stays
within the bounds of the differences of their initial and boundary data: perturbations are not amplified (`m = -M`), and ordered data give ordered
solutions (`m = 0`). -/
theorem C122_comparison_2d (h : Launched 3 nodeid node (centvol2 node nodeid) npart0 epart nbnodes n SIZE data serial)
    (vm : ValidMesh2 nodeid node nbnodes n) (sqrt : K → K) (hs : ∀ x, 0 < x → sqrt x ≠ 0) (trunc : K → Int) (htr : ∀ m : Nat, trunc (m : K) = m) :
    ∃ W, mkWorld 2 SIZE data (fun p => build2 sqrt trunc SIZE (data p)) = some W ∧
      ∀ (S : Setup K) (m M : K), UniformVelocity S → NotAtRest 2 S → 0 ≤ S.Dxx + S.Dyy + S.Dzz → 0 < S.cfl → S.cfl ≤ 2 →
        ∀ bc₁ bc₂ : Int → BCond K, SidesDiffer m M bc₁ bc₂ → ∀ f₁ f₂ : K → K → K → K, (∀ x y z, m ≤ f₂ x y z - f₁ x y z ∧ f₂ x y z - f₁ x y z ≤ M) →
          ∀ N, ∃ s₁ s₂, tloop W { S with bc := bc₁ } 1 false (tstart W f₁) N = some s₁ ∧ tloop W { S with bc := bc₂ } 1 false (tstart W f₂) N = some s₂ ∧
            s₁.time = s₂.time ∧ ∀ p < SIZE, ∀ c < (W.D p).nbcells, m ≤ (s₂.V p).cell c - (s₁.V p).cell c ∧ (s₂.V p).cell c - (s₁.V p).cell c ≤ M := by
  obtain ⟨W, e, hW⟩ := C121_superposition_2d h vm sqrt trunc htr
  obtain ⟨W', e', hB⟩ := C93_bounds_2d h vm sqrt hs trunc htr
  obtain rfl : W = W' := Option.some.inj (e.symm.trans e')
  have hsz : W.SIZE = SIZE := mkWorld_size e
  refine ⟨W, e, fun S m M hv hr hD hc0 hc2 bc₁ bc₂ hb f₁ f₂ hf N => ?_⟩
  obtain ⟨s₁, s₂, s₃, e₁, e₂, e₃, sp⟩ := hW S (-1) 1 bc₁ bc₂ _ (difference_combined hb) f₁ f₂ (fun x y z => f₂ x y z - f₁ x y z) (fun x y z => by ring) false N
  obtain ⟨t, et, ht⟩ := hB { S with bc := differenceSides bc₁ bc₂ } m M hv hr hD hc0 hc2 (difference_in hb) _ hf N
  obtain rfl : s₃ = t := Option.some.inj (e₃.symm.trans et)
  refine ⟨s₁, s₂, e₁, e₂, sp.time.1.symm.trans sp.time.2, fun p hp c hc => ?_⟩
  have := sp.cell p (by rw [hsz]; exact hp) c hc
  have e : (s₂.V p).cell c - (s₁.V p).cell c = (s₃.V p).cell c := by rw [this]; ring
  rw [e]; exact ht p hp c hc

/-- **C122** (3D). -/
theorem C122_comparison_3d (h : Launched 4 nodeid node (centvol3 node nodeid) npart0 epart nbnodes n SIZE data serial)
    (vm : ValidMesh3 nodeid node nbnodes n) (sqrt : K → K) (hs : ∀ x, 0 < x → sqrt x ≠ 0) (trunc : K → Int) (htr : ∀ m : Nat, trunc (m : K) = m) :
    ∃ W, mkWorld 3 SIZE data (fun p => build3 sqrt trunc SIZE (data p)) = some W ∧
      ∀ (S : Setup K) (m M : K), UniformVelocity S → NotAtRest 3 S → 0 ≤ S.Dxx + S.Dyy + S.Dzz → 0 < S.cfl → S.cfl ≤ 2 →
        ∀ bc₁ bc₂ : Int → BCond K, SidesDiffer m M bc₁ bc₂ → ∀ f₁ f₂ : K → K → K → K, (∀ x y z, m ≤ f₂ x y z - f₁ x y z ∧ f₂ x y z - f₁ x y z ≤ M) →
          ∀ N, ∃ s₁ s₂, tloop W { S with bc := bc₁ } 1 false (tstart W f₁) N = some s₁ ∧ tloop W { S with bc := bc₂ } 1 false (tstart W f₂) N = some s₂ ∧
            s₁.time = s₂.time ∧ ∀ p < SIZE, ∀ c < (W.D p).nbcells, m ≤ (s₂.V p).cell c - (s₁.V p).cell c ∧ (s₂.V p).cell c - (s₁.V p).cell c ≤ M := by
  obtain ⟨W, e, hW⟩ := C121_superposition_3d h vm sqrt trunc htr
  obtain ⟨W', e', hB⟩ := C93_bounds_3d h vm sqrt hs trunc htr
  obtain rfl : W = W' := Option.some.inj (e.symm.trans e')
  have hsz : W.SIZE = SIZE := mkWorld_size e
  refine ⟨W, e, fun S m M hv hr hD hc0 hc2 bc₁ bc₂ hb f₁ f₂ hf N => ?_⟩
  obtain ⟨s₁, s₂, s₃, e₁, e₂, e₃, sp⟩ := hW S (-1) 1 bc₁ bc₂ _ (difference_combined hb) f₁ f₂ (fun x y z => f₂ x y z - f₁ x y z) (fun x y z => by ring) false N
  obtain ⟨t, et, ht⟩ := hB { S with bc := differenceSides bc₁ bc₂ } m M hv hr hD hc0 hc2 (difference_in hb) _ hf N
  obtain rfl : s₃ = t := Option.some.inj (e₃.symm.trans et)
  refine ⟨s₁, s₂, e₁, e₂, sp.time.1.symm.trans sp.time.2, fun p hp c hc => ?_⟩
  have := sp.cell p (by rw [hsz]; exact hp) c hc
  have e : (s₂.V p).cell c - (s₁.V p).cell c = (s₃.V p).cell c := by rw [this]; ring
  rw [e]; exact ht p hp c hc

end

/-! ### the hypotheses can be met -/

/-- C121 on the strip with diffusion: a combination of two runs with different initial and boundary values. -/
example : ∃ W, mkWorld 2 2 stripData (fun p => build2 (fun x => x) Rat.floor 2 (stripData p)) = some W ∧ ∀ N, ∃ s₁ s₂ s₃,
    tloop W { flowSetup with Dyy := 3, bc := fun loc => if loc = 1 then .neumann else .dirichlet (fun x _ _ => x) } 1 true (tstart W (fun x _ _ => x ^ 2)) N = some s₁ ∧
    tloop W { flowSetup with Dyy := 3, bc := fun loc => if loc = 1 then .neumann else .dirichlet (fun _ y _ => y) } 1 true (tstart W (fun _ y _ => 1 - y)) N = some s₂ ∧
    tloop W { flowSetup with Dyy := 3, bc := fun loc => if loc = 1 then .neumann else .dirichlet (fun x y _ => 2 * x - 5 * y) } 1 true
      (tstart W (fun x y _ => 2 * x ^ 2 - 5 * (1 - y))) N = some s₃ ∧ Superposed 2 (-5) W s₁ s₂ s₃ := by
  obtain ⟨W, e, hW⟩ := C121_superposition_2d stripLaunched stripValid (fun x => x) Rat.floor floor_nat
  refine ⟨W, e, fun N => hW { flowSetup with Dyy := 3 } 2 (-5) _ _ _ (fun loc => ?_) _ _ _ (fun x y z => by ring) true N⟩
  by_cases h : loc = 1
  · exact .inl ⟨by simp [h], by simp [h], by simp [h]⟩
  · exact .inr (.inr ⟨_, _, _, by simp [h]; rfl, by simp [h]; rfl, by simp [h]; rfl, fun x y z => by ring⟩)
example := C121_superposition_3d chainLaunched chainValid (fun x => x) Rat.floor floor_nat

/-- C122 on the strip: data that differ by at most 1/100. -/
example : ∃ W, mkWorld 2 2 stripData (fun p => build2 (fun x => x) Rat.floor 2 (stripData p)) = some W ∧ ∀ N, ∃ s₁ s₂,
    tloop W flowSetup 1 false (tstart W (fun x _ _ => x ^ 2)) N = some s₁ ∧
    tloop W { flowSetup with bc := fun loc => if loc = 1 then .neumann else .dirichlet (fun _ _ _ => 1/2 - 1/100) } 1 false (tstart W (fun x _ _ => x ^ 2 + 1/100)) N = some s₂ ∧
    ∀ p < 2, ∀ c < (W.D p).nbcells, -1/100 ≤ (s₂.V p).cell c - (s₁.V p).cell c ∧ (s₂.V p).cell c - (s₁.V p).cell c ≤ 1/100 := by
  obtain ⟨W, e, hW⟩ := C122_comparison_2d stripLaunched stripValid (fun x => x) (fun x hx => ne_of_gt hx) Rat.floor floor_nat
  obtain ⟨a, b, c, d, e', f⟩ := flowSetup_ok 2
  refine ⟨W, e, fun N => ?_⟩
  obtain ⟨s₁, s₂, e₁, e₂, _, hd⟩ := hW flowSetup (-1/100) (1/100) a b c d e' flowSetup.bc (fun loc => if loc = 1 then .neumann else .dirichlet (fun _ _ _ => 1/2 - 1/100)) (fun loc => by
    by_cases h : loc = 1
    · exact .inl ⟨by simp [flowSetup, h], by simp [h]⟩
    · exact .inr ⟨_, _, by simp [flowSetup, h]; rfl, by simp [h]; rfl, fun x y z => by norm_num⟩) (fun x _ _ => x ^ 2) (fun x _ _ => x ^ 2 + 1/100) (fun x y z => by norm_num) N
  exact ⟨s₁, s₂, e₁, e₂, hd⟩
example := C122_comparison_3d chainLaunched chainValid (fun x => x) (fun x hx => ne_of_gt hx) Rat.floor floor_nat

end Verif.Props.Par
