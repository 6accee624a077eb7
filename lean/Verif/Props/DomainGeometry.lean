import Verif.Props.Geometry
import Verif.Props.Conn
import Verif.Model.Domain

/-!
# C12/C11 for the tables the Domain actually builds (2D set-up, `ddm/domain.py:365-429`)
-/
set_option linter.unusedSectionVars false
namespace Verif.Props
open Verif.Geo Verif.Conn Verif.Spec Verif.Dom
variable {K : Type*} [Field K] [LinearOrder K] [IsStrictOrderedRing K]

/-- C12: in the 2D Domain built from any list of triangles, every triangle of nonzero area is closed: its outgoing
normals point strictly outwards and add up to zero.  No assumption on the other cells, on conformity or on the node
ordering of the file. -/
theorem C12_domain_closed (sqrt : K → K) (vertex : Nat → Vec K) (nbcells : Nat) (rows : Nat → Nat × Nat × Nat)
    (i : Nat) (hi : i < nbcells)
    (hne : signedArea (vertex (rows i).1) (vertex (rows i).2.1) (vertex (rows i).2.2) ≠ 0) :
    let D := domain2 sqrt vertex nbcells rows
    (∀ k < 3, ∑ j ∈ Finset.range 3, D.nf i j k = 0) ∧
    ∀ j < 3, sp (fun k => D.center i k - D.fcenter (D.faceid i j) k) (D.nf i j) < 0 := by
  intro D
  obtain ⟨hv, _, _, a, b, c, hrow, _, hsa⟩ := C09_triangle_geometry vertex nbcells
    ⟨rows, fun _ _ => 0, fun _ => 0⟩ i hi (rows i).1 (rows i).2.1 (rows i).2.2 rfl
  apply C12_closed_triangle sqrt vertex nbcells D.facenodes.length ⟨rows, fun _ _ => 0, fun _ => 0⟩ _
    (fun f k => (D.facenodes.getD f []).getD k 0) D.faceid (fun _ _ => 0) (fun _ _ => 0) (fun _ => 0) (fun _ _ _ => 0) i a b c hi hrow
  · rw [hsa, hv]; exact abs_ne_zero.mpr hne
  · intro j hj
    obtain ⟨_, _, _, h4⟩ := C16_faces_2d (fun i => col3 ((compute2dCenterVolume vertex nbcells
      ⟨rows, fun _ _ => 0, fun _ => 0⟩).nodeid i)) nbcells
    obtain ⟨h5, h6⟩ := h4 i hi j hj
    refine ⟨h5, ?_⟩
    simp only [hrow, col3] at h6
    have hl := h6.length_eq
    have : (side2 a b c j).length = 2 := by unfold side2; split <;> rfl
    rw [this] at hl
    have e : ∀ l : List Nat, l.length = 2 → [l.getD 0 0, l.getD 1 0] = l := by
      intro l h
      match l, h with
      | [x, y], _ => rfl
    have := e _ hl
    exact this ▸ h6

/-- C11/C17: the first cell of every face of the Domain is a genuine cell having that face, and the stored normal points
out of it. -/
theorem C11_domain_normal_outward (sqrt : K → K) (hs : SqrtSpec sqrt) (vertex : Nat → Vec K) (nbcells : Nat)
    (rows : Nat → Nat × Nat × Nat) (f : Nat) :
    let D := domain2 sqrt vertex nbcells rows
    f < D.facenodes.length →
    ∃ a, a < nbcells ∧ (D.cellid f).1 = (a : Int) ∧ Uses D.faceid 3 a f ∧
      sp (fun k => D.center a k - D.fcenter f k) (D.normal f) ≤ 0 := by
  intro D hf
  obtain ⟨a, ha, he, hu⟩ := C17_first_cell_valid (fun i => col3 ((compute2dCenterVolume vertex nbcells
      ⟨rows, fun _ _ => 0, fun _ => 0⟩).nodeid i)) nbcells f hf
  refine ⟨a, ha, he, hu, ?_⟩
  have h := (C11_face2 sqrt hs (fun f k => if k = 0 then idx (D.cellid f).1 else idx (D.cellid f).2)
    (fun f k => (D.facenodes.getD f []).getD k 0) vertex D.center D.facenodes.length (fun _ _ => 0) (fun _ _ => 0)
    (fun _ => 0) f hf).2.2.2.1
  have e : idx (D.cellid f).1 = a := by
    rw [show (D.cellid f).1 = (a : Int) from he]; simp [idx]
  simp only [if_true, e] at h
  exact h

end Verif.Props
