import Verif.Props.MovedRun
import Mathlib.LinearAlgebra.Matrix.Adjugate

/-! Helper lemmas for C129: node values, cell gradients and face gradients in other coordinates. -/
set_option linter.unusedSectionVars false
set_option linter.unusedVariables false
set_option linter.unusedSimpArgs false
namespace Verif.Props.Par
open Verif Verif.Spec Verif.Geo Verif.Interp
variable {K : Type*} [Field K] [LinearOrder K] [IsStrictOrderedRing K]

/-! ### least squares -/

/-- The solution of the normal equations, as the kernels compute it. -/
def lsSolve {d : Nat} (I : Matrix (Fin d) (Fin d) K) (b : Fin d → K) : Fin d → K := I.det⁻¹ • I.adjugate.mulVec b

/-- The rotation of the first `d` coordinates. -/
def rotM (M : Motion K) (d : Nat) : Matrix (Fin d) (Fin d) K := Matrix.of fun i j => M.rot i j

variable {M : Motion K} {dim : Nat}

theorem rotM_orth (hM : M.Proper dim) (hd : dim = 2 ∨ dim = 3) : (rotM M dim).transpose * rotM M dim = 1 ∧ (rotM M dim).det = 1 := by
  obtain ⟨a, b, c, ab, bc, ca⟩ := Motion.dots hM
  rcases hd with rfl | rfl
  · obtain ⟨p1, p2, p3, f1, f2, f3, f4, f5, f6⟩ := Motion.plane hM
    constructor
    · ext i j
      fin_cases i <;> fin_cases j <;> simp [rotM, Matrix.mul_apply, Fin.sum_univ_two, p1, p2] <;> first | linear_combination p3 | ring1
    · rw [Matrix.det_fin_two]
      simp only [rotM, Matrix.of_apply, Fin.isValue, Fin.val_zero, Fin.val_one, p1, p2]
      linear_combination p3
  · constructor
    · ext i j
      fin_cases i <;> fin_cases j <;> simp [rotM, Matrix.mul_apply, Fin.sum_univ_three] <;>
      first
        | linear_combination a
        | linear_combination b
        | linear_combination c
        | linear_combination ab
        | linear_combination bc
        | linear_combination ca
    · rw [Matrix.det_fin_three]
      have d := hM.det
      simp only [rotM, Matrix.of_apply]
      simp only [Fin.isValue, Fin.val_zero, Fin.val_one, Fin.val_two]
      linear_combination d

theorem adjugate_orth {d : Nat} {R : Matrix (Fin d) (Fin d) K} (h : R.transpose * R = 1) (hd : R.det = 1) : R.adjugate = R.transpose := by
  have h2 : R * R.transpose = 1 := mul_eq_one_comm.mp h
  calc R.adjugate = R.adjugate * (R * R.transpose) := by rw [h2, Matrix.mul_one]
    _ = R.transpose := by rw [← Matrix.mul_assoc, Matrix.adjugate_mul, hd, one_smul, Matrix.one_mul]

theorem lsSolve_moved {d : Nat} (hd1 : 0 < d) {R I : Matrix (Fin d) (Fin d) K} (h : R.transpose * R = 1) (hdet : R.det = 1) {s : K} (hs : s ≠ 0) (b : Fin d → K) :
    lsSolve (s ^ 2 • (R * I * R.transpose)) (s • R.mulVec b) = s⁻¹ • R.mulVec (lsSolve I b) := by
  have ha := adjugate_orth h hdet
  have e1 : (s ^ 2 • (R * I * R.transpose)).det = (s ^ 2) ^ d * I.det := by
    rw [Matrix.det_smul, Matrix.det_mul, Matrix.det_mul, Matrix.det_transpose, hdet]; simp
  have e2 : (s ^ 2 • (R * I * R.transpose)).adjugate = (s ^ 2) ^ (d - 1) • (R * I.adjugate * R.transpose) := by
    rw [Matrix.adjugate_smul, Matrix.adjugate_mul_distrib, Matrix.adjugate_mul_distrib, ← Matrix.adjugate_transpose, ha,
      Matrix.transpose_transpose, Matrix.mul_assoc]
    simp
  unfold lsSolve
  rw [e1, e2, Matrix.smul_mulVec, Matrix.mulVec_smul, Matrix.mulVec_mulVec, Matrix.mul_assoc, Matrix.mul_assoc, h, Matrix.mul_one, ← Matrix.mulVec_mulVec,
    Matrix.mulVec_smul, smul_smul, smul_smul, smul_smul]
  congr 1
  obtain ⟨m, rfl⟩ : ∃ m, d = m + 1 := ⟨d - 1, by omega⟩
  rw [Nat.add_sub_cancel, pow_succ]
  have hp : (s ^ 2) ^ m ≠ 0 := pow_ne_zero _ (pow_ne_zero _ hs)
  by_cases hD : I.det = 0
  · rw [hD]; simp
  · field_simp

/-! ### moments -/

theorem lsum_sum {α : Type*} {ι : Type*} (l : List α) (t : Finset ι) (f : ι → α → K) : lsum l (fun e => ∑ k ∈ t, f k e) = ∑ k ∈ t, lsum l (f k) := by
  induction l with
  | nil => simp
  | cons a l ih => simp only [lsum_cons]; rw [ih, Finset.sum_add_distrib]

theorem lsum_smul {α : Type*} (l : List α) (r : K) (f : α → K) : lsum l (fun e => r * f e) = r * lsum l f := by
  unfold lsum; rw [List.sum_map_mul_left]

/-- The matrix of the second moments about `v`. -/
def momM (d : Nat) (v : Vec K) (l : List (Vec K × K)) : Matrix (Fin d) (Fin d) K :=
  Matrix.of fun i j => lsum l (fun e => (e.1 i - v i) * (e.1 j - v j))

/-- The first moments about `v` of a quantity. -/
def momV (d : Nat) (v : Vec K) (l : List (Vec K × K)) (q : K → K) : Fin d → K := fun i => lsum l (fun e => (e.1 i - v i) * q e.2)

/-- The points of the second stencil are those of the first in the new coordinates, with the same values. -/
def MovedSt (M : Motion K) (dim : Nat) (l l' : List (Vec K × K)) : Prop :=
  l'.map (cut dim) = (l.map (cut dim)).map (fun e => cut dim (M.place e.1, e.2))

theorem cut_lsum (l : List (Vec K × K)) (f : Vec K × K → K) (hf : ∀ e, f (cut dim e) = f e) : lsum (l.map (cut dim)) f = lsum l f := by
  unfold lsum; rw [List.map_map]; congr 1; apply List.map_congr_left; intro e _; exact hf e

theorem MovedSt.lsum {l l' : List (Vec K × K)} (h : MovedSt M dim l l') (f f' : Vec K × K → K) (hf : ∀ e, f' (cut dim e) = f' e)
    (hff : ∀ e, f' (cut dim (M.place (cut dim e).1, e.2)) = f e) : Interp.lsum l' f' = Interp.lsum l f := by
  rw [← cut_lsum l' f' hf, h]
  unfold Interp.lsum
  rw [List.map_map, List.map_map]
  congr 1
  apply List.map_congr_left
  intro e _
  exact hff e

/-- The coordinates of a difference. -/
theorem place_cut (hM : M.Proper dim) (hd : dim = 2 ∨ dim = 3) (p v v' : Vec K) (hv : ∀ k < dim, v' k = M.place v k) (k : Fin dim) :
    (cut dim (M.place (cut dim (p, (0 : K))).1, (0 : K))).1 k - v' k = M.scale * ∑ j : Fin dim, M.rot k j * (p j - v j) := by
  rw [hv k k.2]
  rcases hd with rfl | rfl
  · obtain ⟨p1, p2, p3, f1, f2, f3, f4, f5, f6⟩ := Motion.plane hM
    rw [Fin.sum_univ_two]
    fin_cases k <;> simp [cut, Motion.place, Motion.turn, f1, f2] <;> ring
  · rw [Fin.sum_univ_three]
    fin_cases k <;> simp [cut, Motion.place, Motion.turn] <;> ring

theorem cut_coord (e : Vec K × K) (k : Fin dim) : (cut dim e).1 k = e.1 k := by simp [cut]

theorem momM_moved (hM : M.Proper dim) (hd : dim = 2 ∨ dim = 3) {l l' : List (Vec K × K)} (h : MovedSt M dim l l') {v v' : Vec K}
    (hv : ∀ k < dim, v' k = M.place v k) : momM dim v' l' = M.scale ^ 2 • (rotM M dim * momM dim v l * (rotM M dim).transpose) := by
  ext i j
  have e1 : momM dim v' l' i j = Interp.lsum l (fun e => (M.scale * ∑ a : Fin dim, M.rot i a * (e.1 a - v a)) * (M.scale * ∑ b : Fin dim, M.rot j b * (e.1 b - v b))) := by
    show Interp.lsum l' _ = _
    refine h.lsum _ _ (fun e => by rw [cut_coord, cut_coord]) (fun e => ?_)
    rw [← place_cut hM hd e.1 v v' hv i, ← place_cut hM hd e.1 v v' hv j]
    rfl
  have e2 : ∀ e : Vec K × K, (M.scale * ∑ a : Fin dim, M.rot i a * (e.1 a - v a)) * (M.scale * ∑ b : Fin dim, M.rot j b * (e.1 b - v b)) =
      ∑ b : Fin dim, ∑ a : Fin dim, (M.scale ^ 2 * (M.rot i a * M.rot j b)) * ((e.1 a - v a) * (e.1 b - v b)) := by
    intro e
    rw [Finset.mul_sum, Finset.mul_sum, Finset.sum_mul_sum, Finset.sum_comm]
    apply Finset.sum_congr rfl; intro b _
    apply Finset.sum_congr rfl; intro a _
    ring
  rw [e1, lsum_congr _ _ _ (fun e _ => e2 e), lsum_sum]
  simp only [lsum_sum, lsum_smul]
  rw [Matrix.smul_apply, Matrix.mul_apply, smul_eq_mul, Finset.mul_sum]
  apply Finset.sum_congr rfl; intro b _
  rw [Matrix.mul_apply, Finset.sum_mul, Finset.mul_sum]
  apply Finset.sum_congr rfl; intro a _
  simp only [rotM, Matrix.of_apply, Matrix.transpose_apply, momM]
  ring

theorem momV_moved (hM : M.Proper dim) (hd : dim = 2 ∨ dim = 3) {l l' : List (Vec K × K)} (h : MovedSt M dim l l') {v v' : Vec K}
    (hv : ∀ k < dim, v' k = M.place v k) (q : K → K) : momV dim v' l' q = M.scale • (rotM M dim).mulVec (momV dim v l q) := by
  funext i
  have e1 : momV dim v' l' q i = Interp.lsum l (fun e => (M.scale * ∑ a : Fin dim, M.rot i a * (e.1 a - v a)) * q e.2) := by
    show Interp.lsum l' _ = _
    refine h.lsum _ _ (fun e => by rw [cut_coord]; rfl) (fun e => ?_)
    rw [← place_cut hM hd e.1 v v' hv i]
    rfl
  have e2 : ∀ e : Vec K × K, (M.scale * ∑ a : Fin dim, M.rot i a * (e.1 a - v a)) * q e.2 =
      ∑ a : Fin dim, (M.scale * M.rot i a) * ((e.1 a - v a) * q e.2) := by
    intro e
    rw [Finset.mul_sum, Finset.sum_mul]
    apply Finset.sum_congr rfl; intro a _
    ring
  rw [e1, lsum_congr _ _ _ (fun e _ => e2 e), lsum_sum]
  simp only [lsum_smul]
  rw [Pi.smul_apply, smul_eq_mul, Matrix.mulVec, dotProduct, Finset.mul_sum]
  apply Finset.sum_congr rfl; intro a _
  simp only [rotM, Matrix.of_apply, momV]
  ring

theorem fit_moved (hM : M.Proper dim) (hd : dim = 2 ∨ dim = 3) {l l' : List (Vec K × K)} (h : MovedSt M dim l l') {v v' : Vec K}
    (hv : ∀ k < dim, v' k = M.place v k) (q : K → K) :
    lsSolve (momM dim v' l') (momV dim v' l' q) = M.scale⁻¹ • (rotM M dim).mulVec (lsSolve (momM dim v l) (momV dim v l q)) := by
  obtain ⟨o1, o2⟩ := rotM_orth hM hd
  rw [momM_moved hM hd h hv, momV_moved hM hd h hv, lsSolve_moved (by omega) o1 o2 hM.pos.ne']

/-- The solution of the normal equations and a displacement. -/
theorem fit_dot (hM : M.Proper dim) (hd : dim = 2 ∨ dim = 3) (x b : Fin dim → K) :
    ∑ i, (M.scale⁻¹ • (rotM M dim).mulVec x) i * (M.scale • (rotM M dim).mulVec b) i = ∑ i, x i * b i := by
  obtain ⟨o1, _⟩ := rotM_orth hM hd
  have hs := hM.pos.ne'
  have e : ∀ i, (M.scale⁻¹ • (rotM M dim).mulVec x) i * (M.scale • (rotM M dim).mulVec b) i = (rotM M dim).mulVec x i * (rotM M dim).mulVec b i := by
    intro i; simp only [Pi.smul_apply, smul_eq_mul]; field_simp
  rw [Finset.sum_congr rfl (fun i _ => e i)]
  show (rotM M dim).mulVec x ⬝ᵥ (rotM M dim).mulVec b = x ⬝ᵥ b
  rw [Matrix.dotProduct_mulVec, ← Matrix.mulVec_transpose, Matrix.mulVec_mulVec, o1, Matrix.one_mulVec]

end Verif.Props.Par
