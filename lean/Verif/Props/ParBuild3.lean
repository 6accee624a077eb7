import Verif.Props.ParBuild2

/-! Helper lemmas for the parallel theorems: the tables of a 3D Domain as built (`Dom.build3`). -/
set_option linter.unusedSectionVars false
set_option linter.unusedVariables false
set_option linter.unusedSimpArgs false
namespace Verif.Props.Par
open Verif.Fvm Verif.Spec Verif.Conn Verif.Dom Verif.Geo Verif.Names Verif.MeshFile
variable {K : Type*} [Field K] [LinearOrder K] [IsStrictOrderedRing K]

/-- Row `i` of the cells read from the file. -/
def row3 (d : RankData K) (i : Nat) : Nat × Nat × Nat × Nat :=
  (at2 0 d.nodeid i 0, at2 0 d.nodeid i 1, at2 0 d.nodeid i 2, at2 0 d.nodeid i 3)
/-- Sides of cell `i`. -/
def sid3 (d : RankData K) (i j : Nat) : List Nat := side3 (row3 d i).1 (row3 d i).2.1 (row3 d i).2.2.1 (row3 d i).2.2.2 j
/-- Face rows. -/
def fac3 (d : RankData K) : List (List Nat) := (domainFaces 3 (fun i => col4 (row3 d i)) d.nodeid.length).1
/-- Name a face would have as a boundary face. -/
def nm3 (trunc : K → Int) (d : RankData K) (f : Nat) : Int :=
  name3 (trunc (vtx d (at2 0 (fac3 d) f 0) 3)) (trunc (vtx d (at2 0 (fac3 d) f 1) 3)) (trunc (vtx d (at2 0 (fac3 d) f 2) 3))

theorem facesSpec3 (sqrt : K → K) (trunc : K → Int) (size : Nat) (d : RankData K) :
    FacesSpec d.nodeid.length 4 (sid3 d) (fac3 d) (build3 sqrt trunc size d).faceid :=
  C16_faces_3d (fun i => col4 (row3 d i)) d.nodeid.length

theorem sid3_length (d : RankData K) (i j : Nat) : (sid3 d i j).length = 3 := by unfold sid3 side3; split <;> rfl

theorem bnd3_nodup (name : Nat → Int) (nb : Nat) : ((families3 name nb).getD 2 []).Nodup := by
  show (List.insertionSort _ _).Nodup
  rw [(List.perm_insertionSort _ _).nodup_iff]
  have hm := mem_named name nb
  refine nodup_named_append _ _ _ _ (nodup_named_append _ _ _ _ (nodup_named_append _ _ _ _ (nodup_named_append _ _ _ _
    (nodup_named_append _ _ _ _ (nodup_named _ _ _) ?_) ?_) ?_) ?_) ?_ <;>
    (intro f hf; simp only [List.mem_append, hm] at hf; omega)

theorem mem_bnd3 (name : Nat → Int) (nb f : Nat) :
    f ∈ (families3 name nb).getD 2 [] ↔ f < nb ∧ name f ∈ ([1, 2, 3, 4, 5, 6] : List Int) := by
  show f ∈ List.insertionSort _ _ ↔ _
  rw [List.mem_insertionSort]
  simp only [List.mem_append, mem_named, List.mem_cons, List.not_mem_nil, or_false]
  omega

theorem mem_per3 (name : Nat → Int) (nb f : Nat) :
    f ∈ (families3 name nb).getD 3 [] ↔ f < nb ∧ name f ∈ ([11, 22, 33, 44, 55, 66] : List Int) := by
  show f ∈ List.insertionSort _ _ ↔ _
  rw [List.mem_insertionSort]
  simp only [List.mem_append, mem_named, List.mem_cons, List.not_mem_nil, or_false]
  omega

theorem isSide_perm {dim : Nat} {nodes f f' : List Nat} (h : f.Perm f') : IsSide dim nodes f ↔ IsSide dim nodes f' := by
  constructor
  · rintro ⟨s, h1, h2, h3⟩; exact ⟨s, h1, h2, h.symm.trans h3⟩
  · rintro ⟨s, h1, h2, h3⟩; exact ⟨s, h1, h2, h.trans h3⟩

/-- Re-orienting the nodes of the faces permutes them. -/
theorem fnode3_perm (sqrt : K → K) (d : RankData K) {f : Nat} (hf : f < (fac3 d).length) :
    let r := (domain3 sqrt (vtx d) d.nodeid.length (row3 d)).fnode f
    [col3 r 0, col3 r 1, col3 r 2].Perm ((fac3 d).getD f []) := by
  intro r
  have e : r = orientFace3 (vtx d) ((domain3 sqrt (vtx d) d.nodeid.length (row3 d)).normal f) (at2 0 (fac3 d) f 0) (at2 0 (fac3 d) f 1)
      (at2 0 (fac3 d) f 2) := by
    show oriente3dfacenodeid _ _ _ (fac3 d).length f = _
    rw [oriente3d_apply, if_pos hf]; rfl
  have h3 := list3_eta (facesSpec_len (facesSpec3 sqrt (fun _ => 0) 1 d) (sid3_length d) hf)
  rw [e, ← h3]
  unfold orientFace3
  dsimp only
  split
  · exact (List.Perm.swap _ _ []).cons _
  · exact List.Perm.refl _

theorem built3 (sqrt : K → K) (trunc : K → Int) (size : Nat) (d : RankData K) (hext : ∀ r ∈ d.halosext, r.length = 5) :
    Built (build3 sqrt trunc size d) 4 3 (sid3 d) (fac3 d) (nm3 trunc d) [1, 2, 3, 4, 5, 6] (extOf size d) (gOf d) := by
  obtain ⟨D, hD⟩ : ∃ D, D = domain3 sqrt (vtx d) d.nodeid.length (row3 d) := ⟨_, rfl⟩
  obtain ⟨m0, hm0⟩ : ∃ m0 : Marks, m0 = ⟨fun f => (D.cellid f).2, faceNames3 (fun f => (D.cellid f).2) (at2 0 D.facenodes)
    (fun s => trunc (vtx d s 3)) D.facenodes.length, fun s => trunc (vtx d s 3), fun _ => 0⟩ := ⟨_, rfl⟩
  obtain ⟨m, hm⟩ : ∃ m, m = (if size > 1 then markLoop3 d.halosext (fun f => col3 (D.fnode f)) (gOf d) D.facenodes.length m0 else m0) :=
    ⟨_, rfl⟩
  have spec := facesSpec3 sqrt trunc size d
  have hF : D.facenodes = fac3 d := by rw [hD]; rfl
  have hfid : (build3 sqrt trunc size d).faceid = D.faceid := by rw [hD]; rfl
  have hnb : (build3 sqrt trunc size d).nbfaces = (fac3 d).length := rfl
  have hcell : ∀ f, D.cellid f = twoOf (users D.faceid 4 d.nodeid.length f) := by
    intro f; rw [hD]; exact cellsOfFace_eq _ _ _ _
  have hname : (build3 sqrt trunc size d).name = m.name := by rw [hm, hm0, hD]; rfl
  have hc0 : ∀ f, (build3 sqrt trunc size d).cellid f 0 = (D.cellid f).1 := by intro f; rw [hD]; rfl
  have hc1 : ∀ f, (build3 sqrt trunc size d).cellid f 1 = m.cellid1 f := by intro f; rw [hm, hm0, hD]; rfl
  have hhf : (build3 sqrt trunc size d).halofid = m.halofid := by rw [hm, hm0, hD]; rfl
  have marks : MarksSpec 3 (fac3 d).length (extOf size d)
      (fun i => [gOf d (col3 (D.fnode i) 0), gOf d (col3 (D.fnode i) 1), gOf d (col3 (D.fnode i) 2)])
      (fun i => [col3 (D.fnode i) 0, col3 (D.fnode i) 1, col3 (D.fnode i) 2]) m0 m := by
    rw [hm, hF]
    unfold extOf
    by_cases hs : size > 1
    · rw [if_pos hs, if_pos hs]
      exact C27_halo_faces_3d d.halosext hext _ _ _ _
    · rw [if_neg hs, if_neg hs]; exact marks_nil _ _ _ _ _
  have heta : ∀ f < (fac3 d).length, [gOf d (col3 (D.fnode f) 0), gOf d (col3 (D.fnode f) 1), gOf d (col3 (D.fnode f) 2)].Perm
      (((fac3 d).getD f []).map (gOf d)) := by
    intro f hf
    have := (fnode3_perm sqrt d hf).map (gOf d)
    rw [← hD] at this
    exact this
  have hfor : ∀ f < (fac3 d).length,
      ((∃ row ∈ extOf size d, IsSide 3 row.tail [gOf d (col3 (D.fnode f) 0), gOf d (col3 (D.fnode f) 1), gOf d (col3 (D.fnode f) 2)])
      ↔ Foreign 3 (extOf size d) (gOf d) ((fac3 d).getD f [])) := by
    intro f hf
    unfold Foreign
    simp only [isSide_perm (heta f hf)]
  obtain ⟨k1, k2, _, _⟩ := marks
  have hne : ∀ f < (fac3 d).length, users D.faceid 4 d.nodeid.length f ≠ [] := by
    intro f hf
    exact hfid ▸ ne_nil_of_face (D := build3 sqrt trunc size d) spec hf
  have hnm0 : ∀ f < (fac3 d).length, _ := fun f hf => C28_names_3d (fun f => (D.cellid f).2) (at2 0 D.facenodes)
    (fun s => trunc (vtx d s 3)) D.facenodes.length f (by rw [hF]; exact hf)
  have hone : ∀ f < (fac3 d).length, (users D.faceid 4 d.nodeid.length f).length = 1 → m0.name f = nm3 trunc d f := by
    intro f hf h1
    have hc : (D.cellid f).2 = -1 := by rw [hcell f]; exact (twoOf_snd (hne f hf)).mpr h1
    rw [hm0]
    dsimp only
    unfold faceNames3
    rw [foldl_setAt_if (fun i => (D.cellid i).2 = -1)
      (fun i => name3 (trunc (vtx d (at2 0 D.facenodes i 0) 3)) (trunc (vtx d (at2 0 D.facenodes i 1) 3)) (trunc (vtx d (at2 0 D.facenodes i 2) 3))) _ _ f,
      if_pos ⟨by rw [hF]; exact hf, hc⟩, hF]
    rfl
  refine ⟨spec, hnb, ?_, ?_, ?_, ?_, ?_, ?_, ?_, ?_, ?_⟩
  · intro f hf; rw [hc0, hcell, hfid]; rfl
  · intro f hf hn
    rw [hc1, (k2 f hf (fun h => hn ((hfor f hf).mp h))).2.1, hm0, hfid]
    show (D.cellid f).2 = _
    rw [hcell]; rfl
  · intro f hf hn h1
    rw [hname, (k2 f hf (fun h => hn ((hfor f hf).mp h))).1, hm0]
    refine (hnm0 f hf).1 ?_
    rw [hcell]
    intro e
    exact h1 (by rw [hfid]; exact (twoOf_snd (hne f hf)).mp e)
  · intro f hf hn h1
    rw [hname, (k2 f hf (fun h => hn ((hfor f hf).mp h))).1]
    exact hone f hf (by rw [hfid] at h1; exact h1)
  · intro f hf hn
    obtain ⟨a, b, row, hr, hs⟩ := k1 f hf ((hfor f hf).mpr hn)
    refine ⟨by rw [hname]; exact a, row, by rw [hhf]; exact hr, ?_⟩
    exact (isSide_perm (heta f hf)).mp hs
  · refine ⟨nodup_named _ _ _, fun f => ?_⟩
    rw [hname]
    show f ∈ named _ _ 0 ↔ _
    rw [mem_named, hm, hm0, hD]; rfl
  · refine ⟨nodup_named _ _ _, fun f => ?_⟩
    rw [hname]
    show f ∈ named _ _ 10 ↔ _
    rw [mem_named, hm, hm0, hD]; rfl
  · refine ⟨bnd3_nodup _ _, fun f => ?_⟩
    rw [hname]
    have := mem_bnd3 m.name (fac3 d).length f
    rw [hm, hm0, hD] at this ⊢
    exact this
  · intro f hf
    have := (mem_per3 m.name (fac3 d).length f).mp (by rw [hm, hm0, hD]; exact hf)
    rw [hname]
    refine ⟨this.1, ?_⟩
    have h2 := this.2
    simp only [List.mem_cons, List.not_mem_nil, or_false] at h2 ⊢
    omega

end Verif.Props.Par
