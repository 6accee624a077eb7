import Verif.Props.Renum
import Verif.Spec.Motion

/-! Helper lemmas for C129: the algebra of a change of coordinates. -/
set_option linter.unusedSectionVars false
set_option linter.unusedVariables false
set_option linter.unusedSimpArgs false
namespace Verif.Props.Par
open Verif.Fvm Verif.Spec Verif.Conn Verif.Dom Verif.Geo Verif.Names Verif.MeshFile Verif.Part Verif.Comm Verif.Run
variable {K : Type*} [Field K] [LinearOrder K] [IsStrictOrderedRing K]

/-- In an orthonormal basis of determinant one, each vector is the product of the other two. -/
theorem basis_cross (a0 a1 a2 b0 b1 b2 c0 c1 c2 : K) (hbb : b0 * b0 + b1 * b1 + b2 * b2 = 1) (hcc : c0 * c0 + c1 * c1 + c2 * c2 = 1)
    (hbc : b0 * c0 + b1 * c1 + b2 * c2 = 0) (haa : a0 * a0 + a1 * a1 + a2 * a2 = 1)
    (hd : a0 * (b1 * c2 - b2 * c1) - a1 * (b0 * c2 - b2 * c0) + a2 * (b0 * c1 - b1 * c0) = 1) :
    b1 * c2 - b2 * c1 = a0 ∧ b2 * c0 - b0 * c2 = a1 ∧ b0 * c1 - b1 * c0 = a2 := by
  have key : (b1 * c2 - b2 * c1 - a0) ^ 2 + (b2 * c0 - b0 * c2 - a1) ^ 2 + (b0 * c1 - b1 * c0 - a2) ^ 2 = 0 := by
    linear_combination (c0 * c0 + c1 * c1 + c2 * c2) * hbb + hcc - (b0 * c0 + b1 * c1 + b2 * c2) * hbc - 2 * hd + haa
  have s0 := sq_nonneg (b1 * c2 - b2 * c1 - a0)
  have s1 := sq_nonneg (b2 * c0 - b0 * c2 - a1)
  have s2 := sq_nonneg (b0 * c1 - b1 * c0 - a2)
  have z0 : b1 * c2 - b2 * c1 - a0 = 0 := pow_eq_zero_iff (two_ne_zero) |>.mp (by linarith)
  have z1 : b2 * c0 - b0 * c2 - a1 = 0 := pow_eq_zero_iff (two_ne_zero) |>.mp (by linarith)
  have z2 : b0 * c1 - b1 * c0 - a2 = 0 := pow_eq_zero_iff (two_ne_zero) |>.mp (by linarith)
  exact ⟨by linarith, by linarith, by linarith⟩

section
variable {M : Motion K} {dim : Nat}

theorem Motion.dots (h : M.Proper dim) :
    (M.rot 0 0 * M.rot 0 0 + M.rot 1 0 * M.rot 1 0 + M.rot 2 0 * M.rot 2 0 = 1) ∧
    (M.rot 0 1 * M.rot 0 1 + M.rot 1 1 * M.rot 1 1 + M.rot 2 1 * M.rot 2 1 = 1) ∧
    (M.rot 0 2 * M.rot 0 2 + M.rot 1 2 * M.rot 1 2 + M.rot 2 2 * M.rot 2 2 = 1) ∧
    (M.rot 0 0 * M.rot 0 1 + M.rot 1 0 * M.rot 1 1 + M.rot 2 0 * M.rot 2 1 = 0) ∧
    (M.rot 0 1 * M.rot 0 2 + M.rot 1 1 * M.rot 1 2 + M.rot 2 1 * M.rot 2 2 = 0) ∧
    (M.rot 0 2 * M.rot 0 0 + M.rot 1 2 * M.rot 1 0 + M.rot 2 2 * M.rot 2 0 = 0) := by
  refine ⟨?_, ?_, ?_, ?_, ?_, ?_⟩
  · simpa using h.orth 0 (by omega) 0 (by omega)
  · simpa using h.orth 1 (by omega) 1 (by omega)
  · simpa using h.orth 2 (by omega) 2 (by omega)
  · simpa using h.orth 0 (by omega) 1 (by omega)
  · simpa using h.orth 1 (by omega) 2 (by omega)
  · simpa using h.orth 2 (by omega) 0 (by omega)

/-- The columns of the rotation: each is the product of the other two. -/
theorem Motion.cross (h : M.Proper dim) :
    (M.rot 1 1 * M.rot 2 2 - M.rot 2 1 * M.rot 1 2 = M.rot 0 0 ∧ M.rot 2 1 * M.rot 0 2 - M.rot 0 1 * M.rot 2 2 = M.rot 1 0 ∧
      M.rot 0 1 * M.rot 1 2 - M.rot 1 1 * M.rot 0 2 = M.rot 2 0) ∧
    (M.rot 1 2 * M.rot 2 0 - M.rot 2 2 * M.rot 1 0 = M.rot 0 1 ∧ M.rot 2 2 * M.rot 0 0 - M.rot 0 2 * M.rot 2 0 = M.rot 1 1 ∧
      M.rot 0 2 * M.rot 1 0 - M.rot 1 2 * M.rot 0 0 = M.rot 2 1) ∧
    (M.rot 1 0 * M.rot 2 1 - M.rot 2 0 * M.rot 1 1 = M.rot 0 2 ∧ M.rot 2 0 * M.rot 0 1 - M.rot 0 0 * M.rot 2 1 = M.rot 1 2 ∧
      M.rot 0 0 * M.rot 1 1 - M.rot 1 0 * M.rot 0 1 = M.rot 2 2) := by
  obtain ⟨a, b, c, ab, bc, ca⟩ := Motion.dots h
  have d := h.det
  exact ⟨basis_cross _ _ _ _ _ _ _ _ _ b c bc a (by linear_combination d), basis_cross _ _ _ _ _ _ _ _ _ c a ca b (by linear_combination d),
    basis_cross _ _ _ _ _ _ _ _ _ a b ab c (by linear_combination d)⟩

/-- A rotation keeps the scalar product. -/
theorem Motion.turn_dot (h : M.Proper dim) (u v : Nat → K) :
    M.turn u 0 * M.turn v 0 + M.turn u 1 * M.turn v 1 + M.turn u 2 * M.turn v 2 = u 0 * v 0 + u 1 * v 1 + u 2 * v 2 := by
  obtain ⟨a, b, c, ab, bc, ca⟩ := Motion.dots h
  simp only [Motion.turn]
  linear_combination u 0 * v 0 * a + u 1 * v 1 * b + u 2 * v 2 * c + (u 0 * v 1 + u 1 * v 0) * ab + (u 1 * v 2 + u 2 * v 1) * bc +
    (u 2 * v 0 + u 0 * v 2) * ca

/-- A rotation keeps the vector product. -/
theorem Motion.turn_wedge (h : M.Proper dim) (u v : Nat → K) (k : Nat) (hk : k < 3) :
    Geo.wedge (M.turn u) (M.turn v) k = M.turn (Geo.wedge u v) k := by
  obtain ⟨⟨x0, x1, x2⟩, ⟨y0, y1, y2⟩, ⟨z0, z1, z2⟩⟩ := Motion.cross h
  interval_cases k
  · simp only [Geo.wedge, Motion.turn]
    linear_combination (u 1 * v 2 - u 2 * v 1) * x0 + (u 2 * v 0 - u 0 * v 2) * y0 + (u 0 * v 1 - u 1 * v 0) * z0
  · simp only [Geo.wedge, Motion.turn]
    linear_combination (u 1 * v 2 - u 2 * v 1) * x1 + (u 2 * v 0 - u 0 * v 2) * y1 + (u 0 * v 1 - u 1 * v 0) * z1
  · simp only [Geo.wedge, Motion.turn]
    linear_combination (u 1 * v 2 - u 2 * v 1) * x2 + (u 2 * v 0 - u 0 * v 2) * y2 + (u 0 * v 1 - u 1 * v 0) * z2

/-- In the plane: the rotation. -/
theorem Motion.plane (h : M.Proper 2) : M.rot 1 1 = M.rot 0 0 ∧ M.rot 1 0 = - M.rot 0 1 ∧ M.rot 0 0 * M.rot 0 0 + M.rot 0 1 * M.rot 0 1 = 1 ∧
    M.rot 0 2 = 0 ∧ M.rot 1 2 = 0 ∧ M.rot 2 0 = 0 ∧ M.rot 2 1 = 0 ∧ M.rot 2 2 = 1 ∧ M.shift 2 = 0 := by
  obtain ⟨f1, f2, f3, f4, f5, f6⟩ := h.flat rfl
  obtain ⟨_, ⟨y0, y1, _⟩, _⟩ := Motion.cross h
  have a := (Motion.dots h).1
  rw [f1, f2, f3, f5] at *
  have e1 : M.rot 1 1 = M.rot 0 0 := by linear_combination -y1
  have e2 : M.rot 1 0 = - M.rot 0 1 := by linear_combination -y0
  refine ⟨e1, e2, ?_, rfl, rfl, rfl, f4, rfl, f6⟩
  rw [e2] at a; linear_combination a

end
end Verif.Props.Par
