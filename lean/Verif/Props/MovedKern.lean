import Verif.Props.MovedFit
import Mathlib.LinearAlgebra.Matrix.Determinant.Basic

/-! Helper lemmas for C129: node values and cell gradients of two stencils related by a motion. -/
set_option linter.unusedSectionVars false
set_option linter.unusedVariables false
set_option linter.unusedSimpArgs false
namespace Verif.Props.Par
open Verif Verif.Geo Verif.Interp Verif.Spec Matrix
variable {K : Type*} [Field K] [LinearOrder K] [IsStrictOrderedRing K]
variable {M : Motion K} {dim : Nat}

/-- The interpolated value at `v`, as the kernels compute it. -/
def nodeFit (d : Nat) (v : Vec K) (l : List (Vec K × K)) : K :=
  lsum l (fun e => (1 - ∑ i : Fin d, lsSolve (momM d v l) (momV d v l fun _ => 1) i * (e.1 i - v i)) /
    (lsum l (fun _ => 1) - ∑ i : Fin d, lsSolve (momM d v l) (momV d v l fun _ => 1) i * momV d v l (fun _ => 1) i) * e.2)

/-- The fitted gradient about `v` with the value `w`. -/
def gradFit (d : Nat) (v : Vec K) (w : K) (l : List (Vec K × K)) : Fin d → K := lsSolve (momM d v l) (momV d v l fun x => x - w)

theorem momV_one (d : Nat) (v : Vec K) (l : List (Vec K × K)) (i : Fin d) : momV d v l (fun _ => 1) i = lsum l (fun e => e.1 i - v i) := by
  unfold momV; exact lsum_congr _ _ _ (fun e _ => mul_one _)

theorem nodeFit2 (T : NodeTabs K) (w : Fields K) (i : Nat) : centertovertex2 T w i = nodeFit 2 (T.vertexn i) (nodeStencil 2 T w i) := by
  have m := acc2_moments (T.vertexn i) (nodeStencil 2 T w i)
  rw [← variables2_stencil] at m
  have x0 : lsSolve (momM 2 (T.vertexn i) (nodeStencil 2 T w i)) (momV 2 (T.vertexn i) (nodeStencil 2 T w i) fun _ => 1) 0 = - (lambda2 (variables2 T i)).1 := by
    unfold lsSolve lambda2
    rw [Matrix.det_fin_two, Matrix.adjugate_fin_two]
    simp only [Pi.smul_apply, smul_eq_mul, Matrix.mulVec, dotProduct, Fin.sum_univ_two, Matrix.of_apply, Matrix.cons_val_zero, Matrix.cons_val_one, momV_one,
      Matrix.cons_val', Matrix.cons_val_fin_one]
    simp only [momM, Matrix.of_apply, Fin.isValue, Fin.val_zero, Fin.val_one]
    rw [m.xx, m.yy, m.xy, m.rx, m.ry, lsum_congr (nodeStencil 2 T w i) (fun e => (e.1 1 - T.vertexn i 1) * (e.1 0 - T.vertexn i 0)) _ (fun e _ => mul_comm _ _)]
    ring
  have x1 : lsSolve (momM 2 (T.vertexn i) (nodeStencil 2 T w i)) (momV 2 (T.vertexn i) (nodeStencil 2 T w i) fun _ => 1) 1 = - (lambda2 (variables2 T i)).2 := by
    unfold lsSolve lambda2
    rw [Matrix.det_fin_two, Matrix.adjugate_fin_two]
    simp only [Pi.smul_apply, smul_eq_mul, Matrix.mulVec, dotProduct, Fin.sum_univ_two, Matrix.of_apply, Matrix.cons_val_zero, Matrix.cons_val_one, momV_one,
      Matrix.cons_val', Matrix.cons_val_fin_one]
    simp only [momM, Matrix.of_apply, Fin.isValue, Fin.val_zero, Fin.val_one]
    rw [m.xx, m.yy, m.xy, m.rx, m.ry, lsum_congr (nodeStencil 2 T w i) (fun e => (e.1 1 - T.vertexn i 1) * (e.1 0 - T.vertexn i 0)) _ (fun e _ => mul_comm _ _)]
    ring
  rw [centertovertex2_stencil]
  unfold nodeFit
  apply lsum_congr
  intro e _
  simp only [alpha2, Fin.sum_univ_two, x0, x1, momV_one]
  rw [m.number, m.rx, m.ry]
  simp only [Fin.isValue, Fin.val_zero, Fin.val_one]
  congr 2 <;> ring

theorem nodeFit3 (T : NodeTabs K) (w : Fields K) (i : Nat) : centertovertex3 T w i = nodeFit 3 (T.vertexn i) (nodeStencil 3 T w i) := by
  have m := moments3_of T w i
  generalize hl : nodeStencil 3 T w i = l at m
  have y10 : lsum l (fun e => (e.1 1 - T.vertexn i 1) * (e.1 0 - T.vertexn i 0)) = (variables3 T i).xy := by
    rw [m.xy]; exact lsum_congr _ _ _ (fun e _ => mul_comm _ _)
  have y20 : lsum l (fun e => (e.1 2 - T.vertexn i 2) * (e.1 0 - T.vertexn i 0)) = (variables3 T i).xz := by
    rw [m.xz]; exact lsum_congr _ _ _ (fun e _ => mul_comm _ _)
  have y21 : lsum l (fun e => (e.1 2 - T.vertexn i 2) * (e.1 1 - T.vertexn i 1)) = (variables3 T i).yz := by
    rw [m.yz]; exact lsum_congr _ _ _ (fun e _ => mul_comm _ _)
  have x : ∀ k : Fin 3, lsSolve (momM 3 (T.vertexn i) l) (momV 3 (T.vertexn i) l fun _ => 1) k =
      - (![(lambda3 (variables3 T i)).1, (lambda3 (variables3 T i)).2.1, (lambda3 (variables3 T i)).2.2] k) := by
    intro k
    unfold lsSolve lambda3 det3
    rw [Matrix.det_fin_three, Matrix.adjugate_fin_three]
    fin_cases k <;>
    · simp only [Matrix.tail_cons, Matrix.head_cons, Pi.smul_apply, smul_eq_mul, Matrix.mulVec, dotProduct, Fin.sum_univ_three, Matrix.of_apply, Matrix.cons_val_zero, Matrix.cons_val_one, momV_one,
        Matrix.cons_val', Matrix.cons_val_fin_one, Matrix.cons_val, momM, Fin.isValue, Fin.val_zero, Fin.val_one, Fin.val_two, y10, y20, y21,
        ← m.xx, ← m.yy, ← m.zz, ← m.xy, ← m.xz, ← m.yz, ← m.rx, ← m.ry, ← m.rz, Fin.zero_eta, Fin.mk_one, Fin.reduceFinMk, div_eq_mul_inv]
      generalize variables3 T i = a
      ring
  rw [centertovertex3_stencil, hl]
  unfold nodeFit
  apply lsum_congr
  intro e _
  simp only [alpha3, Fin.sum_univ_three, x, momV_one]
  rw [m.number, m.rx, m.ry, m.rz]
  simp only [Fin.isValue, Fin.val_zero, Fin.val_one, Fin.val_two, Matrix.cons_val_zero, Matrix.cons_val_one, Matrix.cons_val]
  congr 2 <;> ring

theorem gradFit2 (T : NodeTabs K) (C : CellTabs) (w : Fields K) (i : Nat) :
    cellGradient2 T C w i = (gradFit 2 (T.centerc i) (w.c i) (cellStencil 4 T C w (cellPeriodic2 T C w i) i) 0,
      gradFit 2 (T.centerc i) (w.c i) (cellStencil 4 T C w (cellPeriodic2 T C w i) i) 1, 0) := by
  unfold cellGradient2 gradFit lsSolve
  rw [gradSums2_stencil, grad2_moments, Matrix.det_fin_two, Matrix.adjugate_fin_two]
  generalize cellStencil 4 T C w (cellPeriodic2 T C w i) i = l
  have y : lsum l (fun e => (e.1 1 - T.centerc i 1) * (e.1 0 - T.centerc i 0)) = lsum l (fun e => (e.1 0 - T.centerc i 0) * (e.1 1 - T.centerc i 1)) :=
    lsum_congr _ _ _ (fun e _ => mul_comm _ _)
  simp only [Pi.smul_apply, smul_eq_mul, Matrix.mulVec, dotProduct, Fin.sum_univ_two, Matrix.of_apply, Matrix.cons_val_zero, Matrix.cons_val_one, momV,
      Matrix.cons_val', Matrix.cons_val_fin_one, momM, Fin.isValue, Fin.val_zero, Fin.val_one, y, Prod.mk.injEq, and_true, div_eq_mul_inv]
  exact ⟨by ring, by ring⟩

theorem gradFit3 (T : NodeTabs K) (C : CellTabs) (w : Fields K) (i : Nat) (hp : C.periodicnid i = []) :
    cellGradient3 T C w i = (gradFit 3 (T.centerc i) (w.c i) (cellStencil 6 T C w [] i) 0,
      gradFit 3 (T.centerc i) (w.c i) (cellStencil 6 T C w [] i) 1, gradFit 3 (T.centerc i) (w.c i) (cellStencil 6 T C w [] i) 2) := by
  have m := grad3_moments (T.centerc i) (w.c i) (cellStencil 6 T C w [] i)
  rw [← gradSums3_stencil _ _ _ _ hp] at m
  unfold cellGradient3 gradFit lsSolve
  rw [Matrix.det_fin_three, Matrix.adjugate_fin_three]
  generalize cellStencil 6 T C w [] i = l at m
  generalize gradSums3 T C w i = a at m
  have y10 : lsum l (fun e => (e.1 1 - T.centerc i 1) * (e.1 0 - T.centerc i 0)) = a.xy := by
    rw [m.xy]; exact lsum_congr _ _ _ (fun e _ => mul_comm _ _)
  have y20 : lsum l (fun e => (e.1 2 - T.centerc i 2) * (e.1 0 - T.centerc i 0)) = a.xz := by
    rw [m.xz]; exact lsum_congr _ _ _ (fun e _ => mul_comm _ _)
  have y21 : lsum l (fun e => (e.1 2 - T.centerc i 2) * (e.1 1 - T.centerc i 1)) = a.yz := by
    rw [m.yz]; exact lsum_congr _ _ _ (fun e _ => mul_comm _ _)
  simp only [Matrix.tail_cons, Matrix.head_cons, Pi.smul_apply, smul_eq_mul, Matrix.mulVec, dotProduct, Fin.sum_univ_three, Matrix.of_apply, Matrix.cons_val_zero, Matrix.cons_val_one, momV,
        Matrix.cons_val', Matrix.cons_val_fin_one, Matrix.cons_val, momM, Fin.isValue, Fin.val_zero, Fin.val_one, Fin.val_two, y10, y20, y21,
        ← m.xx, ← m.yy, ← m.zz, ← m.xy, ← m.xz, ← m.yz, ← m.j_x, ← m.j_y, ← m.j_z, div_eq_mul_inv, Prod.mk.injEq]
  refine ⟨?_, ?_, ?_⟩ <;> ring

/-! ### moved stencils -/

theorem nodeFit_moved (hM : M.Proper dim) (hd : dim = 2 ∨ dim = 3) {l l' : List (Vec K × K)} (h : MovedSt M dim l l') {v v' : Vec K}
    (hv : ∀ k < dim, v' k = M.place v k) : nodeFit dim v' l' = nodeFit dim v l := by
  have hn : lsum l' (fun _ => (1 : K)) = lsum l (fun _ => 1) := h.lsum _ _ (fun _ => rfl) (fun _ => rfl)
  unfold nodeFit
  rw [fit_moved hM hd h hv, momV_moved hM hd h hv, hn, fit_dot hM hd]
  refine h.lsum _ _ (fun e => ?_) (fun e => ?_)
  · simp only [cut_coord]; rfl
  · have e1 : ∀ i : Fin dim, (cut dim (M.place (cut dim e).1, e.2)).1 i - v' i = (M.scale • (rotM M dim).mulVec (fun j : Fin dim => e.1 j - v j)) i := by
      intro i
      have := place_cut hM hd e.1 v v' hv i
      rw [Pi.smul_apply, smul_eq_mul]
      exact this
    simp only [e1]
    rw [fit_dot hM hd]
    rfl

theorem gradFit_moved (hM : M.Proper dim) (hd : dim = 2 ∨ dim = 3) {l l' : List (Vec K × K)} (h : MovedSt M dim l l') {v v' : Vec K}
    (hv : ∀ k < dim, v' k = M.place v k) (w : K) : gradFit dim v' w l' = M.scale⁻¹ • (rotM M dim).mulVec (gradFit dim v w l) :=
  fit_moved hM hd h hv _

/-- C129: the value at a node is the same in all coordinates. -/
theorem node_moved2 (hM : M.Proper 2) (TL TG : NodeTabs K) (wL wG : Fields K) (i I : Nat) (hv : ∀ k < 2, TL.vertexn i k = M.place (TG.vertexn I) k)
    (h : MovedSt M 2 (nodeStencil 2 TG wG I) (nodeStencil 2 TL wL i)) : centertovertex2 TL wL i = centertovertex2 TG wG I := by
  rw [nodeFit2, nodeFit2, nodeFit_moved hM (Or.inl rfl) h hv]

theorem node_moved3 (hM : M.Proper 3) (TL TG : NodeTabs K) (wL wG : Fields K) (i I : Nat) (hv : ∀ k < 3, TL.vertexn i k = M.place (TG.vertexn I) k)
    (h : MovedSt M 3 (nodeStencil 3 TG wG I) (nodeStencil 3 TL wL i)) : centertovertex3 TL wL i = centertovertex3 TG wG I := by
  rw [nodeFit3, nodeFit3, nodeFit_moved hM (Or.inr rfl) h hv]

end Verif.Props.Par
