import Verif.Props.ParMesh
import Verif.Props.DomainGeometry

/-! Helper lemmas for the parallel theorems: the tables of a 2D Domain as built (`Dom.build2`). -/
set_option linter.unusedSectionVars false
set_option linter.unusedVariables false
set_option linter.unusedSimpArgs false
namespace Verif.Props.Par
open Verif.Fvm Verif.Spec Verif.Conn Verif.Dom Verif.Geo Verif.Names Verif.MeshFile
variable {K : Type*} [Field K] [LinearOrder K] [IsStrictOrderedRing K]

/-- The vertices read from the file. -/
def vtx (d : RankData K) : Nat → Vec K := at2 0 d.vertex
/-- Row `i` of the cells read from the file. -/
def row2 (d : RankData K) (i : Nat) : Nat × Nat × Nat := (at2 0 d.nodeid i 0, at2 0 d.nodeid i 1, at2 0 d.nodeid i 2)
/-- Row `i` of the cells after orientation. -/
def orow2 (d : RankData K) (i : Nat) : Nat × Nat × Nat :=
  (compute2dCenterVolume (vtx d) d.nodeid.length ⟨row2 d, fun _ _ => 0, fun _ => 0⟩).nodeid i
/-- Sides of cell `i`. -/
def sid2 (d : RankData K) (i j : Nat) : List Nat := side2 (orow2 d i).1 (orow2 d i).2.1 (orow2 d i).2.2 j
/-- Face rows. -/
def fac2 (d : RankData K) : List (List Nat) := (domainFaces 2 (fun i => col3 (orow2 d i)) d.nodeid.length).1
/-- Name a face would have as a boundary face. -/
def nm2 (trunc : K → Int) (d : RankData K) (f : Nat) : Int :=
  name2 (trunc (vtx d (at2 0 (fac2 d) f 0) 3)) (trunc (vtx d (at2 0 (fac2 d) f 1) 3))

theorem orow2_eq (d : RankData K) {i : Nat} (hi : i < d.nodeid.length) :
    orow2 d i = orient2 (vtx d) (row2 d i).1 (row2 d i).2.1 (row2 d i).2.2 := by
  unfold orow2
  rw [(compute2d_apply (vtx d) d.nodeid.length ⟨row2 d, fun _ _ => 0, fun _ => 0⟩ i).1, if_pos hi]

theorem facesSpec2 (sqrt : K → K) (trunc : K → Int) (size : Nat) (d : RankData K) :
    FacesSpec d.nodeid.length 3 (sid2 d) (fac2 d) (build2 sqrt trunc size d).faceid :=
  C16_faces_2d (fun i => col3 (orow2 d i)) d.nodeid.length

theorem facesSpec_len {n d1 : Nat} {side : Nat → Nat → List Nat} {F : List (List Nat)} {fid : Nat → Nat → Nat}
    (h : FacesSpec n d1 side F fid) {w : Nat} (hs : ∀ i j, (side i j).length = w) {f : Nat} (hf : f < F.length) :
    (F.getD f []).length = w := by
  obtain ⟨_, i, hi, j, hj, hp⟩ := h.2.2.1 _ (List.getElem_mem hf)
  rw [List.getD_eq_getElem _ _ hf, hp.length_eq, hs]

theorem list2_eta {l : List Nat} (h : l.length = 2) : [l.getD 0 0, l.getD 1 0] = l := by
  match l, h with
  | [x, y], _ => rfl

theorem list3_eta {l : List Nat} (h : l.length = 3) : [l.getD 0 0, l.getD 1 0, l.getD 2 0] = l := by
  match l, h with
  | [x, y, z], _ => rfl

theorem twoOf_snd {l : List Nat} (h : l ≠ []) : (twoOf l).2 = -1 ↔ l.length = 1 := by
  match l, h with
  | [a], _ => simp [twoOf]
  | a :: b :: t, _ =>
    simp only [twoOf, List.length_cons]
    rw [if_pos (by omega)]
    obtain ⟨x, hx⟩ : ∃ x, (a :: b :: t).getLast? = some x := ⟨_, List.getLast?_eq_getLast_of_ne_nil (by simp)⟩
    rw [hx]; simp only
    constructor
    · intro h; omega
    · intro h; omega

theorem nodup_named (name : Nat → Int) (nb : Nat) (v : Int) : (named name nb v).Nodup := List.nodup_range.filter _

theorem mem_named (name : Nat → Int) (nb : Nat) (v : Int) (f : Nat) : f ∈ named name nb v ↔ f < nb ∧ name f = v := by
  simp [named]

theorem nodup_named_append (name : Nat → Int) (nb : Nat) (v : Int) (l : List Nat) (hl : l.Nodup)
    (h : ∀ f ∈ l, name f ≠ v) : (l ++ named name nb v).Nodup := by
  rw [List.nodup_append]
  refine ⟨hl, nodup_named _ _ _, ?_⟩
  intro a ha b hb e
  subst e
  exact h a ha ((mem_named _ _ _ _).mp hb).2

theorem bnd2_nodup (name : Nat → Int) (nb : Nat) : ((families2 name nb).getD 2 []).Nodup := by
  show (List.insertionSort _ _).Nodup
  rw [(List.perm_insertionSort _ _).nodup_iff]
  have hm := mem_named name nb
  refine nodup_named_append _ _ _ _ (nodup_named_append _ _ _ _ (nodup_named_append _ _ _ _ (nodup_named _ _ _) ?_) ?_) ?_ <;>
    (intro f hf; simp only [List.mem_append, hm] at hf; omega)

theorem mem_bnd2 (name : Nat → Int) (nb f : Nat) :
    f ∈ (families2 name nb).getD 2 [] ↔ f < nb ∧ name f ∈ ([1, 2, 3, 4] : List Int) := by
  show f ∈ List.insertionSort _ _ ↔ _
  rw [List.mem_insertionSort]
  simp only [List.mem_append, mem_named, List.mem_cons, List.not_mem_nil, or_false]
  omega

theorem mem_per2 (name : Nat → Int) (nb f : Nat) :
    f ∈ (families2 name nb).getD 3 [] ↔ f < nb ∧ name f ∈ ([11, 22, 33, 44] : List Int) := by
  show f ∈ List.insertionSort _ _ ↔ _
  rw [List.mem_insertionSort]
  simp only [List.mem_append, mem_named, List.mem_cons, List.not_mem_nil, or_false]
  omega

theorem marks_nil (dim nb : Nat) (face fn : Nat → List Nat) (s : Marks) : MarksSpec dim nb [] face fn s s := by
  refine ⟨?_, fun _ _ _ => ⟨rfl, rfl, rfl⟩, ?_, fun _ _ => rfl⟩
  · rintro i _ ⟨row, hr, _⟩; simp at hr
  · rintro m ⟨i, _, ⟨row, hr, _⟩, _⟩; simp at hr

/-- The external halo rows used by the marking (none in serial). -/
def extOf (size : Nat) (d : RankData K) : List (List Nat) := if size > 1 then d.halosext else []

/-- Local to global node numbers. -/
def gOf (d : RankData K) : Nat → Nat := fun s => d.nodeloctoglob.getD s 0

theorem built2 (sqrt : K → K) (trunc : K → Int) (size : Nat) (d : RankData K) (hext : ∀ r ∈ d.halosext, r.length = 4) :
    Built (build2 sqrt trunc size d) 3 2 (sid2 d) (fac2 d) (nm2 trunc d) [1, 2, 3, 4] (extOf size d) (gOf d) := by
  obtain ⟨D, hD⟩ : ∃ D, D = domain2 sqrt (vtx d) d.nodeid.length (row2 d) := ⟨_, rfl⟩
  obtain ⟨m0, hm0⟩ : ∃ m0 : Marks, m0 = ⟨fun f => (D.cellid f).2, faceNames2 (fun f => (D.cellid f).2) (at2 0 D.facenodes)
    (fun s => trunc (vtx d s 3)) D.facenodes.length, fun s => trunc (vtx d s 3), fun _ => 0⟩ := ⟨_, rfl⟩
  obtain ⟨m, hm⟩ : ∃ m, m = (if size > 1 then markLoop2 d.halosext (at2 0 D.facenodes) (gOf d) D.facenodes.length m0 else m0) := ⟨_, rfl⟩
  have spec := facesSpec2 sqrt trunc size d
  have hF : D.facenodes = fac2 d := by rw [hD]; rfl
  have hfid : (build2 sqrt trunc size d).faceid = D.faceid := by rw [hD]; rfl
  have hnb : (build2 sqrt trunc size d).nbfaces = (fac2 d).length := rfl
  have hcell : ∀ f, D.cellid f = twoOf (users D.faceid 3 d.nodeid.length f) := by
    intro f; rw [hD]; exact cellsOfFace_eq _ _ _ _
  have hname : (build2 sqrt trunc size d).name = m.name := by rw [hm, hm0, hD]; rfl
  have hc0 : ∀ f, (build2 sqrt trunc size d).cellid f 0 = (D.cellid f).1 := by intro f; rw [hD]; rfl
  have hc1 : ∀ f, (build2 sqrt trunc size d).cellid f 1 = m.cellid1 f := by intro f; rw [hm, hm0, hD]; rfl
  have hhf : (build2 sqrt trunc size d).halofid = m.halofid := by rw [hm, hm0, hD]; rfl
  have marks : MarksSpec 2 (fac2 d).length (extOf size d) (fun i => [gOf d (at2 0 D.facenodes i 0), gOf d (at2 0 D.facenodes i 1)])
      (fun i => [at2 0 D.facenodes i 0, at2 0 D.facenodes i 1]) m0 m := by
    rw [hm, hF]
    unfold extOf
    by_cases hs : size > 1
    · rw [if_pos hs, if_pos hs]
      exact C27_halo_faces_2d d.halosext hext _ _ _ _
    · rw [if_neg hs, if_neg hs]; exact marks_nil _ _ _ _ _
  have hlen2 : ∀ i j, (sid2 d i j).length = 2 := by intro i j; unfold sid2 side2; split <;> rfl
  have heta : ∀ f < (fac2 d).length, [gOf d (at2 0 D.facenodes f 0), gOf d (at2 0 D.facenodes f 1)] = ((fac2 d).getD f []).map (gOf d) := by
    intro f hf
    rw [hF]
    have := list2_eta (facesSpec_len spec hlen2 hf)
    conv_rhs => rw [← this]
    rfl
  have hfor : ∀ f < (fac2 d).length, ((∃ row ∈ extOf size d, IsSide 2 row.tail [gOf d (at2 0 D.facenodes f 0), gOf d (at2 0 D.facenodes f 1)])
      ↔ Foreign 2 (extOf size d) (gOf d) ((fac2 d).getD f [])) := by
    intro f hf; rw [heta f hf]; rfl
  obtain ⟨k1, k2, _, _⟩ := marks
  have hne : ∀ f < (fac2 d).length, users D.faceid 3 d.nodeid.length f ≠ [] := by
    intro f hf
    exact hfid ▸ ne_nil_of_face (D := build2 sqrt trunc size d) spec hf
  have hnm0 : ∀ f < (fac2 d).length, _ := fun f hf => C28_names_2d (fun f => (D.cellid f).2) (at2 0 D.facenodes)
    (fun s => trunc (vtx d s 3)) D.facenodes.length f (by rw [hF]; exact hf)
  have hone : ∀ f < (fac2 d).length, (users D.faceid 3 d.nodeid.length f).length = 1 → m0.name f = nm2 trunc d f := by
    intro f hf h1
    have hc : (D.cellid f).2 = -1 := by rw [hcell f]; exact (twoOf_snd (hne f hf)).mpr h1
    rw [hm0]
    dsimp only
    unfold faceNames2
    rw [foldl_setAt_if (fun i => (D.cellid i).2 = -1 ∧ (D.cellid i).2 ≠ -10)
      (fun i => name2 (trunc (vtx d (at2 0 D.facenodes i 0) 3)) (trunc (vtx d (at2 0 D.facenodes i 1) 3))) _ _ f,
      if_pos ⟨by rw [hF]; exact hf, hc, by rw [hc]; decide⟩, hF]
    rfl
  refine ⟨spec, hnb, ?_, ?_, ?_, ?_, ?_, ?_, ?_, ?_, ?_⟩
  · intro f hf; rw [hc0, hcell, hfid]; rfl
  · intro f hf hn
    rw [hc1, (k2 f hf (fun h => hn ((hfor f hf).mp h))).2.1, hm0, hfid]
    show (D.cellid f).2 = _
    rw [hcell]; rfl
  · intro f hf hn h1
    rw [hname, (k2 f hf (fun h => hn ((hfor f hf).mp h))).1, hm0]
    refine (hnm0 f hf).1 ?_
    rw [hcell]
    intro e
    exact h1 (by rw [hfid]; exact (twoOf_snd (hne f hf)).mp e)
  · intro f hf hn h1
    rw [hname, (k2 f hf (fun h => hn ((hfor f hf).mp h))).1]
    exact hone f hf (by rw [hfid] at h1; exact h1)
  · intro f hf hn
    obtain ⟨a, b, row, hr, hs⟩ := k1 f hf ((hfor f hf).mpr hn)
    refine ⟨by rw [hname]; exact a, row, by rw [hhf]; exact hr, ?_⟩
    rw [← heta f hf]; exact hs
  · refine ⟨nodup_named _ _ _, fun f => ?_⟩
    rw [hname]
    show f ∈ named _ _ 0 ↔ _
    rw [mem_named, hm, hm0, hD]; rfl
  · refine ⟨nodup_named _ _ _, fun f => ?_⟩
    rw [hname]
    show f ∈ named _ _ 10 ↔ _
    rw [mem_named, hm, hm0, hD]; rfl
  · refine ⟨bnd2_nodup _ _, fun f => ?_⟩
    rw [hname]
    have := mem_bnd2 m.name (fac2 d).length f
    rw [hm, hm0, hD] at this ⊢
    exact this
  · intro f hf
    have := (mem_per2 m.name (fac2 d).length f).mp (by rw [hm, hm0, hD]; exact hf)
    rw [hname]
    refine ⟨this.1, ?_⟩
    have h2 := this.2
    simp only [List.mem_cons, List.not_mem_nil, or_false] at h2 ⊢
    omega

end Verif.Props.Par
