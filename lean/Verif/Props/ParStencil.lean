import Verif.Props.Interp3
import Verif.Props.Gradient

/-! Helper lemmas for the parallel theorems: node values and cell gradients depend on the multiset of stencil points only. -/
set_option linter.unusedSectionVars false
set_option linter.unusedVariables false
set_option linter.unusedSimpArgs false
namespace Verif.Props.Par
open Verif Verif.Geo Verif.Interp
variable {K : Type*} [Field K] [LinearOrder K] [IsStrictOrderedRing K]

/-- A stencil point restricted to its first `dim` coordinates. -/
def cut (dim : Nat) (e : Vec K × K) : Vec K × K := (fun k => if k < dim then e.1 k else 0, e.2)

/-- The same points (in `dim` coordinates) with the same values, in any order. -/
def SameStencil (dim : Nat) (l l' : List (Vec K × K)) : Prop := (l.map (cut dim)).Perm (l'.map (cut dim))

theorem cut_eq {dim : Nat} {p q : Vec K} {x y : K} (h : ∀ k < dim, p k = q k) (hv : x = y) : cut dim (p, x) = cut dim (q, y) := by
  unfold cut
  simp only [Prod.mk.injEq]
  refine ⟨funext fun k => ?_, hv⟩
  split_ifs with hk
  · exact h k hk
  · rfl

theorem SameStencil.append {dim : Nat} {a a' b b' : List (Vec K × K)} (h : SameStencil dim a a') (h' : SameStencil dim b b') :
    SameStencil dim (a ++ b) (a' ++ b') := by
  unfold SameStencil at *; rw [List.map_append, List.map_append]; exact h.append h'

theorem SameStencil.of_perm {dim : Nat} {a a' : List (Vec K × K)} (h : a.Perm a') : SameStencil dim a a' := h.map _

theorem SameStencil.trans {dim : Nat} {a b c : List (Vec K × K)} (h : SameStencil dim a b) (h' : SameStencil dim b c) :
    SameStencil dim a c := List.Perm.trans h h'

theorem SameStencil.lsum {dim : Nat} {l l' : List (Vec K × K)} (h : SameStencil dim l l') (f f' : Vec K × K → K)
    (hf : ∀ e, f (cut dim e) = f e) (hff : ∀ e, f e = f' e) : lsum l f = lsum l' f' := by
  have e1 : ∀ m : List (Vec K × K), Interp.lsum m f = Interp.lsum (m.map (cut dim)) f := by
    intro m; unfold Interp.lsum; rw [List.map_map]; congr 1; apply List.map_congr_left; intro e _; exact (hf e).symm
  rw [e1, lsum_perm h, ← e1]
  exact lsum_congr _ _ _ (fun e _ => hff e)

theorem node_value2 (TL TG : NodeTabs K) (wL wG : Fields K) (i I : Nat) (hv : ∀ k < 2, TL.vertexn i k = TG.vertexn I k)
    (h : SameStencil 2 (nodeStencil 2 TL wL i) (nodeStencil 2 TG wG I)) : centertovertex2 TL wL i = centertovertex2 TG wG I := by
  have v0 := hv 0 (by omega)
  have v1 := hv 1 (by omega)
  have mL := acc2_moments (TL.vertexn i) (nodeStencil 2 TL wL i)
  have mG := acc2_moments (TG.vertexn I) (nodeStencil 2 TG wG I)
  rw [← variables2_stencil] at mL mG
  have hacc : variables2 TL i = variables2 TG I := by
    have e1 : (variables2 TL i).xx = (variables2 TG I).xx := by
      rw [mL.xx, mG.xx]; exact h.lsum _ _ (fun e => by simp [cut]) (fun e => by rw [v0])
    have e2 : (variables2 TL i).yy = (variables2 TG I).yy := by
      rw [mL.yy, mG.yy]; exact h.lsum _ _ (fun e => by simp [cut]) (fun e => by rw [v1])
    have e3 : (variables2 TL i).xy = (variables2 TG I).xy := by
      rw [mL.xy, mG.xy]; exact h.lsum _ _ (fun e => by simp [cut]) (fun e => by rw [v0, v1])
    have e4 : (variables2 TL i).rx = (variables2 TG I).rx := by
      rw [mL.rx, mG.rx]; exact h.lsum _ _ (fun e => by simp [cut]) (fun e => by rw [v0])
    have e5 : (variables2 TL i).ry = (variables2 TG I).ry := by
      rw [mL.ry, mG.ry]; exact h.lsum _ _ (fun e => by simp [cut]) (fun e => by rw [v1])
    have e6 : (variables2 TL i).number = (variables2 TG I).number := by
      rw [mL.number, mG.number]; exact h.lsum _ _ (fun e => by simp [cut]) (fun e => rfl)
    generalize variables2 TL i = a at *
    generalize variables2 TG I = b at *
    cases a; cases b; simp_all
  rw [centertovertex2_stencil, centertovertex2_stencil, hacc]
  exact h.lsum _ _ (fun e => by simp [cut, alpha2]) (fun e => by simp only [alpha2]; rw [v0, v1])

theorem node_value3 (TL TG : NodeTabs K) (wL wG : Fields K) (i I : Nat) (hv : ∀ k < 3, TL.vertexn i k = TG.vertexn I k)
    (h : SameStencil 3 (nodeStencil 3 TL wL i) (nodeStencil 3 TG wG I)) : centertovertex3 TL wL i = centertovertex3 TG wG I := by
  have v0 := hv 0 (by omega)
  have v1 := hv 1 (by omega)
  have v2 := hv 2 (by omega)
  have mL := moments3_of TL wL i
  have mG := moments3_of TG wG I
  have hacc : variables3 TL i = variables3 TG I := by
    have e1 : (variables3 TL i).xx = (variables3 TG I).xx := by
      rw [mL.xx, mG.xx]; exact h.lsum _ _ (fun e => by simp [cut]) (fun e => by rw [v0])
    have e2 : (variables3 TL i).yy = (variables3 TG I).yy := by
      rw [mL.yy, mG.yy]; exact h.lsum _ _ (fun e => by simp [cut]) (fun e => by rw [v1])
    have e3 : (variables3 TL i).zz = (variables3 TG I).zz := by
      rw [mL.zz, mG.zz]; exact h.lsum _ _ (fun e => by simp [cut]) (fun e => by rw [v2])
    have e4 : (variables3 TL i).xy = (variables3 TG I).xy := by
      rw [mL.xy, mG.xy]; exact h.lsum _ _ (fun e => by simp [cut]) (fun e => by rw [v0, v1])
    have e5 : (variables3 TL i).xz = (variables3 TG I).xz := by
      rw [mL.xz, mG.xz]; exact h.lsum _ _ (fun e => by simp [cut]) (fun e => by rw [v0, v2])
    have e6 : (variables3 TL i).yz = (variables3 TG I).yz := by
      rw [mL.yz, mG.yz]; exact h.lsum _ _ (fun e => by simp [cut]) (fun e => by rw [v1, v2])
    have e7 : (variables3 TL i).rx = (variables3 TG I).rx := by
      rw [mL.rx, mG.rx]; exact h.lsum _ _ (fun e => by simp [cut]) (fun e => by rw [v0])
    have e8 : (variables3 TL i).ry = (variables3 TG I).ry := by
      rw [mL.ry, mG.ry]; exact h.lsum _ _ (fun e => by simp [cut]) (fun e => by rw [v1])
    have e9 : (variables3 TL i).rz = (variables3 TG I).rz := by
      rw [mL.rz, mG.rz]; exact h.lsum _ _ (fun e => by simp [cut]) (fun e => by rw [v2])
    have e10 : (variables3 TL i).number = (variables3 TG I).number := by
      rw [mL.number, mG.number]; exact h.lsum _ _ (fun e => by simp [cut]) (fun e => rfl)
    generalize variables3 TL i = a at *
    generalize variables3 TG I = b at *
    cases a; cases b; simp_all
  rw [centertovertex3_stencil, centertovertex3_stencil, hacc]
  exact h.lsum _ _ (fun e => by simp [cut, alpha3]) (fun e => by simp only [alpha3]; rw [v0, v1, v2])

theorem cell_grad2 (TL TG : NodeTabs K) (CL CG : CellTabs) (wL wG : Fields K) (c C : Nat) (hc : ∀ k < 2, TL.centerc c k = TG.centerc C k)
    (hw : wL.c c = wG.c C) (h : SameStencil 2 (cellStencil 4 TL CL wL (cellPeriodic2 TL CL wL c) c)
      (cellStencil 4 TG CG wG (cellPeriodic2 TG CG wG C) C)) : cellGradient2 TL CL wL c = cellGradient2 TG CG wG C := by
  have v0 := hc 0 (by omega)
  have v1 := hc 1 (by omega)
  have e : gradSums2 TL CL wL c = gradSums2 TG CG wG C := by
    rw [gradSums2_stencil, gradSums2_stencil, grad2_moments, grad2_moments]
    congr 1
    · exact h.lsum _ _ (fun e => by simp [cut]) (fun e => by rw [v0])
    · exact h.lsum _ _ (fun e => by simp [cut]) (fun e => by rw [v1])
    · exact h.lsum _ _ (fun e => by simp [cut]) (fun e => by rw [v0, v1])
    · exact h.lsum _ _ (fun e => by simp [cut]) (fun e => by rw [v0, hw])
    · exact h.lsum _ _ (fun e => by simp [cut]) (fun e => by rw [v1, hw])
  unfold cellGradient2
  rw [e]

theorem cell_grad3 (TL TG : NodeTabs K) (CL CG : CellTabs) (wL wG : Fields K) (c C : Nat) (hc : ∀ k < 3, TL.centerc c k = TG.centerc C k)
    (hw : wL.c c = wG.c C) (hpL : CL.periodicnid c = []) (hpG : CG.periodicnid C = [])
    (h : SameStencil 3 (cellStencil 6 TL CL wL [] c) (cellStencil 6 TG CG wG [] C)) : cellGradient3 TL CL wL c = cellGradient3 TG CG wG C := by
  have v0 := hc 0 (by omega)
  have v1 := hc 1 (by omega)
  have v2 := hc 2 (by omega)
  have mL := grad3_moments (TL.centerc c) (wL.c c) (cellStencil 6 TL CL wL [] c)
  have mG := grad3_moments (TG.centerc C) (wG.c C) (cellStencil 6 TG CG wG [] C)
  rw [← gradSums3_stencil _ _ _ _ hpL] at mL
  rw [← gradSums3_stencil _ _ _ _ hpG] at mG
  have e1 : (gradSums3 TL CL wL c).xx = (gradSums3 TG CG wG C).xx := by
    rw [mL.xx, mG.xx]; exact h.lsum _ _ (fun e => by simp [cut]) (fun e => by rw [v0])
  have e2 : (gradSums3 TL CL wL c).yy = (gradSums3 TG CG wG C).yy := by
    rw [mL.yy, mG.yy]; exact h.lsum _ _ (fun e => by simp [cut]) (fun e => by rw [v1])
  have e3 : (gradSums3 TL CL wL c).zz = (gradSums3 TG CG wG C).zz := by
    rw [mL.zz, mG.zz]; exact h.lsum _ _ (fun e => by simp [cut]) (fun e => by rw [v2])
  have e4 : (gradSums3 TL CL wL c).xy = (gradSums3 TG CG wG C).xy := by
    rw [mL.xy, mG.xy]; exact h.lsum _ _ (fun e => by simp [cut]) (fun e => by rw [v0, v1])
  have e5 : (gradSums3 TL CL wL c).xz = (gradSums3 TG CG wG C).xz := by
    rw [mL.xz, mG.xz]; exact h.lsum _ _ (fun e => by simp [cut]) (fun e => by rw [v0, v2])
  have e6 : (gradSums3 TL CL wL c).yz = (gradSums3 TG CG wG C).yz := by
    rw [mL.yz, mG.yz]; exact h.lsum _ _ (fun e => by simp [cut]) (fun e => by rw [v1, v2])
  have e7 : (gradSums3 TL CL wL c).j_x = (gradSums3 TG CG wG C).j_x := by
    rw [mL.j_x, mG.j_x]; exact h.lsum _ _ (fun e => by simp [cut]) (fun e => by rw [v0, hw])
  have e8 : (gradSums3 TL CL wL c).j_y = (gradSums3 TG CG wG C).j_y := by
    rw [mL.j_y, mG.j_y]; exact h.lsum _ _ (fun e => by simp [cut]) (fun e => by rw [v1, hw])
  have e9 : (gradSums3 TL CL wL c).j_z = (gradSums3 TG CG wG C).j_z := by
    rw [mL.j_z, mG.j_z]; exact h.lsum _ _ (fun e => by simp [cut]) (fun e => by rw [v2, hw])
  unfold cellGradient3
  dsimp only
  rw [e1, e2, e3, e4, e5, e6, e7, e8, e9]

end Verif.Props.Par
