import Verif.Props.Parallel3
import Verif.Props.ParGhosts
import Verif.Props.ParSides
import Verif.Props.ParNodePair3
import Verif.Props.ParFlow
import Verif.Props.Output
import Verif.Props.Diffusion
import Verif.Model.Gmsh
import Verif.Spec.Gmsh

/-! # C117: the boundary locations are the sides tagged in the mesh file -/
set_option linter.unusedSectionVars false
set_option linter.unusedSimpArgs false
set_option linter.unusedVariables false
namespace Verif.Props.Par
open Verif Verif.Dom Verif.Names Verif.Conn Verif.Geo Verif.MeshFile Verif.Part Verif.Spec Verif.Run Verif.Output Verif.Gmsh
variable {K : Type*} [Field K] [LinearOrder K] [IsStrictOrderedRing K]

/-! ### labels -/

theorem ghostNodes_plain (els : List BElem) (v : Nat) : Output.ghostNodes els (fun _ => 0) v = labelRule els v := by
  rw [C67_label_rule]; simp [rename]

theorem label_on {els : List BElem} (h : BoxSides els) {e : BElem} (he : e ∈ els) {v : Nat} (hv : v ∈ e.1) :
    OnSide els (labelRule els v) v := by
  obtain ⟨h1, h2⟩ := C67_label_sound els v
  have : labelRule els v ≠ 0 := fun e0 => by
    have := h2.mp e0 e he hv
    have := (h.tag e he).1
    omega
  obtain ⟨e', he', hv', ht⟩ := h1 this
  exact ⟨e', he', ht, hv'⟩

theorem label_12 {els : List BElem} {v : Nat} (hv : OnSide els 1 v ∨ OnSide els 2 v) : labelRule els v = 1 ∨ labelRule els v = 2 := by
  unfold labelRule
  obtain ⟨e, he, ht, hv⟩ : ∃ e ∈ els, (e.2 = 1 ∨ e.2 = 2) ∧ v ∈ e.1 := by
    rcases hv with ⟨e, he, ht, hv⟩ | ⟨e, he, ht, hv⟩
    · exact ⟨e, he, Or.inl ht, hv⟩
    · exact ⟨e, he, Or.inr ht, hv⟩
  have hm : e.2 ∈ labelsAt els (fun l => decide (l = 1 ∨ l = 2)) v := by
    simp only [labelsAt, List.mem_map, List.mem_filter, Bool.and_eq_true, decide_eq_true_eq]
    exact ⟨e, ⟨he, hv, ht⟩, rfl⟩
  cases hl : (labelsAt els (fun l => decide (l = 1 ∨ l = 2)) v).getLast? with
  | none => rw [List.getLast?_eq_none_iff] at hl; rw [hl] at hm; simp at hm
  | some l =>
    have := List.mem_of_getLast? hl
    simp only [labelsAt, List.mem_map, List.mem_filter, Bool.and_eq_true, decide_eq_true_eq] at this
    obtain ⟨e', ⟨_, _, h2⟩, rfl⟩ := this
    exact h2

theorem label_34 {els : List BElem} {v : Nat} (hv : OnSide els 3 v ∨ OnSide els 4 v) :
    labelRule els v = 1 ∨ labelRule els v = 2 ∨ labelRule els v = 3 ∨ labelRule els v = 4 := by
  by_cases h12 : OnSide els 1 v ∨ OnSide els 2 v
  · rcases label_12 h12 with h | h
    · exact Or.inl h
    · exact Or.inr (Or.inl h)
  unfold labelRule
  obtain ⟨e, he, ht, hv⟩ : ∃ e ∈ els, (e.2 = 3 ∨ e.2 = 4) ∧ v ∈ e.1 := by
    rcases hv with ⟨e, he, ht, hv⟩ | ⟨e, he, ht, hv⟩
    · exact ⟨e, he, Or.inl ht, hv⟩
    · exact ⟨e, he, Or.inr ht, hv⟩
  cases hl0 : (labelsAt els (fun l => decide (l = 1 ∨ l = 2)) v).getLast? with
  | some l =>
    have := List.mem_of_getLast? hl0
    simp only [labelsAt, List.mem_map, List.mem_filter, Bool.and_eq_true, decide_eq_true_eq] at this
    obtain ⟨e', ⟨_, _, h2⟩, rfl⟩ := this
    rcases h2 with h2 | h2
    · exact Or.inl h2
    · exact Or.inr (Or.inl h2)
  | none =>
  have hm : e.2 ∈ labelsAt els (fun l => decide (l = 3 ∨ l = 4)) v := by
    simp only [labelsAt, List.mem_map, List.mem_filter, Bool.and_eq_true, decide_eq_true_eq]
    exact ⟨e, ⟨he, hv, ht⟩, rfl⟩
  cases hl : (labelsAt els (fun l => decide (l = 3 ∨ l = 4)) v).getLast? with
  | none => rw [List.getLast?_eq_none_iff] at hl; rw [hl] at hm; simp at hm
  | some l =>
    have := List.mem_of_getLast? hl
    simp only [labelsAt, List.mem_map, List.mem_filter, Bool.and_eq_true, decide_eq_true_eq] at this
    obtain ⟨e', ⟨_, _, h2⟩, rfl⟩ := this
    exact Or.inr (Or.inr h2)

/-- The label of a node of an element tagged `t`: `t`, or the tag of a side of higher priority. -/
theorem label_cases {els : List BElem} (h : BoxSides els) {e : BElem} (he : e ∈ els) {v : Nat} (hv : v ∈ e.1) :
    1 ≤ labelRule els v ∧ labelRule els v ≤ 6 ∧
    (e.2 = 1 → labelRule els v = 1) ∧ (e.2 = 2 → labelRule els v = 2) ∧
    (e.2 = 3 → labelRule els v ≤ 3) ∧ (e.2 = 4 → labelRule els v ≤ 4 ∧ labelRule els v ≠ 3) ∧
    (e.2 = 5 → labelRule els v ≤ 5) ∧ (e.2 = 6 → labelRule els v ≠ 5) := by
  obtain ⟨e', he', ht, hv'⟩ := label_on h he hv
  have hr := h.tag e' he'
  rw [ht] at hr
  have on : ∀ t : Int, e.2 = t → OnSide els t v := fun t et => ⟨e, he, et, hv⟩
  have on' : ∀ t : Int, labelRule els v = t → OnSide els t v := fun t et => ⟨e', he', ht.trans et, hv'⟩
  refine ⟨hr.1, hr.2, fun et => ?_, fun et => ?_, fun et => ?_, fun et => ?_, fun et => ?_, fun et => ?_⟩
  · rcases label_12 (Or.inl (on 1 et)) with x | x
    · exact x
    · exact absurd ⟨on 1 et, on' 2 x⟩ (h.apart12 v)
  · rcases label_12 (Or.inr (on 2 et)) with x | x
    · exact absurd ⟨on' 1 x, on 2 et⟩ (h.apart12 v)
    · exact x
  · rcases label_34 (Or.inl (on 3 et)) with x | x | x | x
    · omega
    · omega
    · omega
    · exact absurd ⟨on 3 et, on' 4 x⟩ (h.apart34 v)
  · rcases label_34 (Or.inr (on 4 et)) with x | x | x | x
    · omega
    · omega
    · exact absurd ⟨on' 3 x, on 4 et⟩ (h.apart34 v)
    · omega
  · have : labelRule els v ≠ 6 := fun x => h.apart56 v ⟨on 5 et, on' 6 x⟩
    omega
  · exact fun x => h.apart56 v ⟨on' 5 x, on 6 et⟩

/-- A boundary element tagged 3 to 6 has a node with its tag as label. -/
theorem label_own {els : List BElem} (h : BoxSides els) {e : BElem} (he : e ∈ els) (ht : 3 ≤ e.2) : ∃ v ∈ e.1, labelRule els v = e.2 := by
  have hr := (h.tag e he).2
  by_cases h34 : e.2 = 3 ∨ e.2 = 4
  · obtain ⟨v, hv, n1, n2⟩ := h.own34 e he h34
    refine ⟨v, hv, ?_⟩
    obtain ⟨a1, a2, _, _, a3, a4, _, _⟩ := label_cases h he hv
    obtain ⟨e', he', ht', hv'⟩ := label_on h he hv
    have x1 : labelRule els v ≠ 1 := fun x => n1 ⟨e', he', ht'.trans x, hv'⟩
    have x2 : labelRule els v ≠ 2 := fun x => n2 ⟨e', he', ht'.trans x, hv'⟩
    rcases h34 with x | x
    · have := a3 x; omega
    · have := a4 x; omega
  · have h56 : e.2 = 5 ∨ e.2 = 6 := by omega
    obtain ⟨v, hv, n1, n2, n3, n4⟩ := h.own56 e he h56
    refine ⟨v, hv, ?_⟩
    obtain ⟨a1, a2, _, _, _, _, a3, a4⟩ := label_cases h he hv
    obtain ⟨e', he', ht', hv'⟩ := label_on h he hv
    have x1 : labelRule els v ≠ 1 := fun x => n1 ⟨e', he', ht'.trans x, hv'⟩
    have x2 : labelRule els v ≠ 2 := fun x => n2 ⟨e', he', ht'.trans x, hv'⟩
    have x3 : labelRule els v ≠ 3 := fun x => n3 ⟨e', he', ht'.trans x, hv'⟩
    have x4 : labelRule els v ≠ 4 := fun x => n4 ⟨e', he', ht'.trans x, hv'⟩
    rcases h56 with x | x
    · have := a3 x; omega
    · have := a4 x; omega

set_option maxHeartbeats 2000000 in
theorem name2_tag {els : List BElem} (h : BoxSides els) {e : BElem} (he : e ∈ els) (h4 : e.2 ≤ 4) {a b : Nat} (hp : e.1.Perm [a, b]) :
    name2 (labelRule els a) (labelRule els b) = e.2 ∧ SideLabels2 (labelRule els a).toNat (labelRule els b).toNat := by
  obtain ⟨a1, a2, a3, a4, a5, a6, _, _⟩ := label_cases h he (hp.symm.subset (show a ∈ [a, b] by simp))
  obtain ⟨b1, b2, b3, b4, b5, b6, _, _⟩ := label_cases h he (hp.symm.subset (show b ∈ [a, b] by simp))
  have ho : 3 ≤ e.2 → labelRule els a = e.2 ∨ labelRule els b = e.2 := by
    intro ht
    obtain ⟨v, hv, x⟩ := label_own h he ht
    have := hp.subset hv
    simp only [List.mem_cons, List.not_mem_nil, or_false] at this
    rcases this with rfl | rfl
    · exact Or.inl x
    · exact Or.inr x
  have ht := h.tag e he
  generalize labelRule els a = p at *
  generalize labelRule els b = q at *
  generalize e.2 = t at *
  have hc : t = 1 ∨ t = 2 ∨ t = 3 ∨ t = 4 := by omega
  have hp4 : p ≤ 4 := by omega
  have hq4 : q ≤ 4 := by omega
  clear a2 b2 h4 hp he h ht
  unfold name2 SideLabels2
  interval_cases p <;> interval_cases q <;> rcases hc with rfl | rfl | rfl | rfl <;> first | decide | (exfalso; simp at *)

set_option maxHeartbeats 4000000 in
theorem name3_tag {els : List BElem} (h : BoxSides els) {e : BElem} (he : e ∈ els) {a b d : Nat} (hp : e.1.Perm [a, b, d]) :
    name3 (labelRule els a) (labelRule els b) (labelRule els d) = e.2 ∧
      SideLabels3 (labelRule els a).toNat (labelRule els b).toNat (labelRule els d).toNat := by
  obtain ⟨a1, a2, a3, a4, a5, a6, a7, a8⟩ := label_cases h he (hp.symm.subset (show a ∈ [a, b, d] by simp))
  obtain ⟨b1, b2, b3, b4, b5, b6, b7, b8⟩ := label_cases h he (hp.symm.subset (show b ∈ [a, b, d] by simp))
  obtain ⟨d1, d2, d3, d4, d5, d6, d7, d8⟩ := label_cases h he (hp.symm.subset (show d ∈ [a, b, d] by simp))
  have ho : 3 ≤ e.2 → labelRule els a = e.2 ∨ labelRule els b = e.2 ∨ labelRule els d = e.2 := by
    intro ht
    obtain ⟨v, hv, x⟩ := label_own h he ht
    have := hp.subset hv
    simp only [List.mem_cons, List.not_mem_nil, or_false] at this
    rcases this with rfl | rfl | rfl
    · exact Or.inl x
    · exact Or.inr (Or.inl x)
    · exact Or.inr (Or.inr x)
  have ht := h.tag e he
  generalize labelRule els a = p at *
  generalize labelRule els b = q at *
  generalize labelRule els d = r at *
  generalize e.2 = t at *
  have hc : t = 1 ∨ t = 2 ∨ t = 3 ∨ t = 4 ∨ t = 5 ∨ t = 6 := by omega
  clear hp he h ht
  unfold SideLabels3
  rcases hc with rfl | rfl | rfl | rfl | rfl | rfl
  · obtain ⟨rfl, rfl, rfl⟩ : p = 1 ∧ q = 1 ∧ r = 1 := ⟨a3 rfl, b3 rfl, d3 rfl⟩
    decide
  · obtain ⟨rfl, rfl, rfl⟩ : p = 2 ∧ q = 2 ∧ r = 2 := ⟨a4 rfl, b4 rfl, d4 rfl⟩
    decide
  all_goals clear a3 b3 d3 a4 b4 d4
  · have a5 := a5 rfl; have b5 := b5 rfl; have d5 := d5 rfl; have ho := ho (by omega)
    clear a6 b6 d6 a7 b7 d7 a8 b8 d8 a2 b2 d2
    interval_cases p <;> interval_cases q <;> interval_cases r <;> revert ho <;> decide
  · have a5 := a6 rfl; have b5 := b6 rfl; have d5 := d6 rfl; have ho := ho (by omega)
    clear a6 b6 d6 a7 b7 d7 a8 b8 d8 a2 b2 d2
    obtain ⟨a5, a6⟩ := a5; obtain ⟨b5, b6⟩ := b5; obtain ⟨d5, d6⟩ := d5
    interval_cases p <;> interval_cases q <;> interval_cases r <;> revert ho a6 b6 d6 <;> decide
  · have a5 := a7 rfl; have b5 := b7 rfl; have d5 := d7 rfl; have ho := ho (by omega)
    clear a6 b6 d6 a7 b7 d7 a8 b8 d8 a2 b2 d2
    interval_cases p <;> interval_cases q <;> interval_cases r <;> revert ho <;> decide
  · have a5 := a8 rfl; have b5 := b8 rfl; have d5 := d8 rfl; have ho := ho (by omega)
    clear a6 b6 d6 a7 b7 d7 a8 b8 d8
    interval_cases p <;> interval_cases q <;> interval_cases r <;> revert ho a5 b5 d5 <;> decide

/-! ### the rows of the cells -/

theorem cellNodeid_perm {cells : Nat → List Nat} {c d1 : Nat} (hl : (cells c).length = d1) : (nodesOf (cellNodeid cells) d1 c).Perm (cells c) := by
  have hp := sortRow_perm (cells c)
  have : nodesOf (cellNodeid cells) d1 c = sortRow (cells c) := by
    unfold nodesOf cellNodeid
    rw [← hl, ← hp.length_eq]
    apply List.ext_getElem
    · simp
    · intro i h1 h2
      simp only [List.getElem_map, List.getElem_range]; rw [List.getD_eq_getElem _ _ h2]
  rw [this]; exact hp

theorem cellNodeid_uses {cells : Nat → List Nat} {c d1 : Nat} (hl : (cells c).length = d1) (k : Nat) : Uses (cellNodeid cells) d1 c k ↔ k ∈ cells c := by
  rw [← (cellNodeid_perm hl).mem_iff]
  simp [Uses, nodesOf]

theorem labelOf_fileNode (points : Nat → K × K × K) (els : List BElem) (k : Nat) : labelOf (fileNode points els (fun _ => 0)) k = (labelRule els k).toNat := by
  show (Output.ghostNodes els (fun _ => 0) k).toNat = _
  rw [ghostNodes_plain]

theorem label_pos {els : List BElem} (h : BoxSides els) {e : BElem} (he : e ∈ els) {v : Nat} (hv : v ∈ e.1) :
    (((labelRule els v).toNat : Nat) : Int) = labelRule els v := by
  have := (label_cases h he hv).1
  omega

/-- A mesh as drawn is a valid mesh for the reader. -/
theorem C117_mesh_2d {cells : Nat → List Nat} {points : Nat → K × K × K} {els : List BElem} {nbnodes n : Nat}
    (g : GmshMesh2 cells points els nbnodes n) : ValidMesh2 (cellNodeid cells) (fileNode points els (fun _ => 0)) nbnodes n where
  nodes c hc j hj := g.nodes c hc _ ((cellNodeid_uses (g.len c hc) _).mp ⟨j, hj, rfl⟩)
  used k hk := by
    obtain ⟨c, hc, h⟩ := g.used k hk
    exact ⟨c, hc, (cellNodeid_uses (g.len c hc) k).mpr h⟩
  area c hc := g.area c hc _ _ _ (by
    have := cellNodeid_perm (g.len c hc)
    rwa [nodesOf3] at this)
  opposite c hc c' hc' hne a b x y h1 h2 :=
    g.opposite c hc c' hc' hne a b x y (h1.trans (cellNodeid_perm (g.len c hc))) (h2.trans (cellNodeid_perm (g.len c' hc')))
  label c hc a b x h1 h2 := by
    obtain ⟨e, he, hp⟩ := g.outer c hc a b x (h1.trans (cellNodeid_perm (g.len c hc))) (fun c' hc' hne h => h2 c' hc' hne
      ⟨(cellNodeid_uses (g.len c' hc') a).mpr h.1, (cellNodeid_uses (g.len c' hc') b).mpr h.2⟩)
    rw [labelOf_fileNode, labelOf_fileNode]
    exact (name2_tag g.sides he (g.edge e he).2 hp).2

theorem C117_mesh_3d {cells : Nat → List Nat} {points : Nat → K × K × K} {els : List BElem} {nbnodes n : Nat}
    (g : GmshMesh3 cells points els nbnodes n) : ValidMesh3 (cellNodeid cells) (fileNode points els (fun _ => 0)) nbnodes n where
  nodes c hc j hj := g.nodes c hc _ ((cellNodeid_uses (g.len c hc) _).mp ⟨j, hj, rfl⟩)
  used k hk := by
    obtain ⟨c, hc, h⟩ := g.used k hk
    exact ⟨c, hc, (cellNodeid_uses (g.len c hc) k).mpr h⟩
  volume c hc := g.volume c hc _ _ _ _ (by
    have := cellNodeid_perm (g.len c hc)
    rwa [nodesOf4] at this)
  opposite c hc c' hc' hne a b d x y h1 h2 :=
    g.opposite c hc c' hc' hne a b d x y (h1.trans (cellNodeid_perm (g.len c hc))) (h2.trans (cellNodeid_perm (g.len c' hc')))
  label c hc a b d x h1 h2 := by
    obtain ⟨e, he, hp⟩ := g.outer c hc a b d x (h1.trans (cellNodeid_perm (g.len c hc))) (fun c' hc' hne h => h2 c' hc' hne
      ⟨(cellNodeid_uses (g.len c' hc') a).mpr h.1, (cellNodeid_uses (g.len c' hc') b).mpr h.2.1, (cellNodeid_uses (g.len c' hc') d).mpr h.2.2⟩)
    rw [labelOf_fileNode, labelOf_fileNode, labelOf_fileNode]
    exact (name3_tag g.sides he hp).2

/-! ### the faces of the domains -/
theorem nodup_row {t : Nat → Nat → Nat} {d1 C : Nat} (h : ∀ j < d1, ∀ j' < d1, t C j = t C j' → j = j') : (nodesOf t d1 C).Nodup := by
  unfold nodesOf
  refine List.Nodup.map_on ?_ List.nodup_range
  intro x hx y hy e
  exact h x (List.mem_range.mp hx) y (List.mem_range.mp hy) e

section
variable {dim : Nat} {nodeid : Nat → Nat → Nat} {node : Nat → K × K × K × Nat} {cv : Nat → List K} {npart0 epart : Nat → Nat}
  {nbnodes n SIZE : Nat} {data : Nat → RankData K} {serial : RankData K} {L : Nat → Tables K} {G : Tables K} {B : List Int}
  {out : Nat → Nat → Vec K} {trunc : K → Int}

/-- A boundary face of the serial domain belongs to one cell only. -/
theorem NodePair.bnd_single (np : NodePair dim nodeid node cv npart0 epart nbnodes n SIZE data serial L G B out trunc) {F : Nat}
    (hF : F ∈ G.boundaryfaces) : ∃ C < n, ∃ j < dim + 1, G.faceid C j = F ∧ (users G.faceid (dim + 1) G.nbcells F).length = 1 ∧
      ∀ c' < n, c' ≠ C → ¬ ∀ x ∈ G.fnode F, Uses nodeid (dim + 1) c' x := by
  have R := np.run.rank 0 (by have := np.run.hS; omega)
  obtain ⟨hl, hB⟩ := (R.cG.bnd.2 F).mp hF
  obtain ⟨C, hC, j, hj, rfl⟩ := R.cG.fsurj F hl
  have hCn : C < n := np.run.nG ▸ hC
  have hu : (users G.faceid (dim + 1) G.nbcells (G.faceid C j)).length = 1 := by
    have h2 := R.sub.two (G.faceid C j)
    have h0 : (users G.faceid (dim + 1) G.nbcells (G.faceid C j)).length ≠ 0 := by
      intro e
      have : C ∈ users G.faceid (dim + 1) G.nbcells (G.faceid C j) := (mem_users _ _ _ _ _).mpr ⟨hC, j, hj, rfl⟩
      rw [List.length_eq_zero_iff.mp e] at this; simp at this
    by_contra hne
    have := (R.nameG _ hl).1 (by omega)
    rw [this] at hB
    exact R.cG.B0 hB
  refine ⟨C, hCn, j, hj, rfl, hu, fun c' hc' hne hall => ?_⟩
  obtain ⟨hnd, hlen, _⟩ := np.fnodeG C hCn j hj
  obtain ⟨j', hj', hp⟩ := np.faceG c' hc' _ hnd hlen hall
  have e := np.faceG_eq C hCn c' hc' j hj j' hj' hp
  have m1 : c' ∈ users G.faceid (dim + 1) G.nbcells (G.faceid C j) := (mem_users _ _ _ _ _).mpr ⟨np.run.nG ▸ hc', j', hj', e.symm⟩
  have m2 : C ∈ users G.faceid (dim + 1) G.nbcells (G.faceid C j) := (mem_users _ _ _ _ _).mpr ⟨hC, j, hj, rfl⟩
  obtain ⟨a, ea⟩ := List.length_eq_one_iff.mp hu
  rw [ea, List.mem_singleton] at m1 m2
  exact hne (m1.trans m2.symm)

/-- A face of one cell only is a boundary face of the serial domain and of the process of the cell. -/
theorem NodePair.outer_sides (np : NodePair dim nodeid node cv npart0 epart nbnodes n SIZE data serial L G B out trunc) {C : Nat} (hC : C < n)
    {l : List Nat} (hnd : l.Nodup) (hlen : l.length = dim) (hl : ∀ x ∈ l, Uses nodeid (dim + 1) C x)
    (ho : ∀ c' < n, c' ≠ C → ¬ ∀ x ∈ l, Uses nodeid (dim + 1) c' x) :
    HasSide G id l ∧ ∀ p < SIZE, epart C = p → HasSide (L p) (fun s => (data p).nodeloctoglob.getD s 0) l := by
  obtain ⟨j, hj, hp⟩ := np.faceG C hC l hnd hlen hl
  have hCG : C < G.nbcells := np.run.nG ▸ hC
  have no : ∀ E < G.nbcells, E ≠ C → (G.cellid (G.faceid C j) 0 = (C : Int) ∧ G.cellid (G.faceid C j) 1 = (E : Int)) ∨
      (G.cellid (G.faceid C j) 0 = (E : Int) ∧ G.cellid (G.faceid C j) 1 = (C : Int)) → G.name (G.faceid C j) = 0 → False := by
    intro E hE hEC hcell h0
    have R := np.run.rank 0 (by have := np.run.hS; omega)
    have hF := R.cG.flt C hCG j hj
    have hu : Uses G.faceid (dim + 1) E (G.faceid C j) := by
      obtain ⟨a, ha, ea, ua⟩ := users_first (R.cG.users_ne hF)
      obtain ⟨b, hb, eb, ub⟩ := users_second (R.cG.name0 _ hF h0)
      rcases hcell with ⟨_, e⟩ | ⟨e, _⟩
      · rw [R.cG.cell1 _ hF h0, eb] at e
        obtain rfl : b = E := by exact_mod_cast e
        exact ub
      · rw [R.cG.cell0 _ hF, ea] at e
        obtain rfl : a = E := by exact_mod_cast e
        exact ua
    obtain ⟨i, hi, e⟩ := hu
    have hEn : E < n := np.run.nG ▸ hE
    have hall := (np.fnodeG E hEn i hi).2.2
    rw [e] at hall
    exact ho E hEn hEC (fun x hx => hall x (hp.subset hx))
  constructor
  · have R := np.run.rank 0 (by have := np.run.hS; omega)
    rcases R.gkinds hCG hj with ⟨_, hb, _, e0⟩ | ⟨E, hE, hEC, h0, _, _, hcell⟩
    · exact ⟨_, hb, by simpa using hp.symm⟩
    · exact absurd hcell (fun h => no E hE hEC h h0)
  · rintro p hpS rfl
    have R := np.run.rank _ hpS
    obtain ⟨c, hc, ec⟩ := R.sub.surj C hCG rfl
    rcases R.kinds hc hj with ⟨hb, _⟩ | ⟨e, he, hne, _, h0, hcell⟩ | ⟨E, hE, row, hm, _, h0, _, _, _, hcell⟩
    · refine ⟨_, hb, ?_⟩
      have := np.sameFace _ hpS c hc j hj
      have e : phi (data (epart C)) c = C := ec
      rw [e] at this
      exact this.trans hp.symm
    · exfalso
      have e' : phi (data (epart C)) c = C := ec
      rw [e'] at hcell h0
      have hn := (R.sub.lt e he).1
      have hx : phi (data (epart C)) e ≠ C := fun x => hne (R.sub.inj he hc (x.trans ec.symm))
      refine no _ hn hx ?_ h0
      rcases hcell with ⟨_, _, x, y⟩ | ⟨_, _, x, y⟩
      · exact Or.inl ⟨x, y⟩
      · exact Or.inr ⟨x, y⟩
    · exfalso
      have e' : phi (data (epart C)) c = C := ec
      rw [e'] at hcell h0
      exact no E hE (fun x => hm (by rw [x])) hcell h0

/-- The ranks' boundary faces are the serial domain's. -/
theorem NodePair.sides_rank (np : NodePair dim nodeid node cv npart0 epart nbnodes n SIZE data serial L G B out trunc) {els : List BElem}
    (h : SidesAsTagged els G id) : ∀ p < SIZE, SidesAsTagged els (L p) (fun s => (data p).nodeloctoglob.getD s 0) := by
  intro p hp f hf
  have R := np.run.rank p hp
  obtain ⟨hl, hB⟩ := (R.cL.bnd.2 f).mp hf
  obtain ⟨c, hc, j, hj, rfl⟩ := R.cL.fsurj f hl
  rcases R.kinds hc hj with ⟨_, hb, _, hn, _⟩ | ⟨e, he, hne, h0, _⟩ | ⟨E, hE, row, hm, h0, _⟩
  · have hs := np.sameFace p hp c hc j hj
    obtain ⟨⟨e, he, pe⟩, h2⟩ := h _ hb
    simp only [List.map_id_fun, id] at pe h2
    exact ⟨⟨e, he, pe.trans hs.symm⟩, fun e he pe => hn ▸ h2 e he (pe.trans hs)⟩
  · rw [h0] at hB; exact absurd hB R.cL.B0
  · rw [h0] at hB; exact absurd hB R.cL.B10
end

section
variable {cells : Nat → List Nat} {points : Nat → K × K × K} {els : List BElem} {npart0 epart : Nat → Nat}
  {nbnodes n SIZE : Nat} {data : Nat → RankData K} {serial : RankData K}

theorem C117_sides_2d_partial (g : GmshMesh2 cells points els nbnodes n)
    (h : Launched 3 (cellNodeid cells) (fileNode points els (fun _ => 0)) (centvol2 (fileNode points els (fun _ => 0)) (cellNodeid cells)) npart0 epart
      nbnodes n SIZE data serial)
    (sqrt : K → K) (trunc : K → Int) (htr : ∀ m : Nat, trunc (m : K) = m) :
    SidesAsTagged els (build2 sqrt trunc 1 serial) id ∧
    (∀ p < SIZE, SidesAsTagged els (build2 sqrt trunc SIZE (data p)) (fun s => (data p).nodeloctoglob.getD s 0)) ∧
    ∀ C < n, ∀ a b x, [a, b, x].Perm (cells C) → (∀ c' < n, c' ≠ C → ¬ (a ∈ cells c' ∧ b ∈ cells c')) →
      HasSide (build2 sqrt trunc 1 serial) id [a, b] ∧
      ∀ p < SIZE, epart C = p → HasSide (build2 sqrt trunc SIZE (data p)) (fun s => (data p).nodeloctoglob.getD s 0) [a, b] := by
  have vm := C117_mesh_2d g
  have np := h.nodePair2 vm sqrt trunc htr
  have key : SidesAsTagged els (build2 sqrt trunc 1 serial) id := by
    intro F hF
    obtain ⟨C, hC, j, hj, rfl, hu, ho⟩ := np.bnd_single hF
    have R := np.run.rank 0 (by have := np.run.hS; omega)
    have hlen : serial.nodeid.length = n := h.serial_cells.1
    have hFl := ((R.cG.bnd.2 _).mp hF).1
    have hB := built2 sqrt trunc 1 serial (by intro r hr; rw [h.serial_cells.2.2.2] at hr; simp at hr)
    have hname := hB.one _ hFl (by rintro ⟨row, hr, _⟩; simp [extOf] at hr) hu
    rw [nm2_side sqrt trunc 1 serial (by rw [hlen]; exact hC) hj] at hname
    obtain ⟨l1, l2, _⟩ := h.side_lt hC hj
    rw [h.labelS l1, h.labelS l2, htr, htr, labelOf_fileNode, labelOf_fileNode] at hname
    have hps := fnode_perm2 sqrt trunc 1 serial (c := C) (by rw [hlen]; exact hC) hj
    rw [sid2_eq] at hps
    have hsp := (h.side_perm hC hj).trans (cellNodeid_perm (g.len C hC))
    obtain ⟨e, he, pe⟩ := g.outer C hC _ _ _ hsp (fun c' hc' hne hx => ho c' hc' hne (fun x hx' => by
      have := hps.subset hx'
      simp only [List.mem_cons, List.not_mem_nil, or_false] at this
      rcases this with rfl | rfl
      · exact (cellNodeid_uses (g.len c' hc') _).mpr hx.1
      · exact (cellNodeid_uses (g.len c' hc') _).mpr hx.2))
    simp only [List.map_id_fun, id]
    refine ⟨⟨e, he, pe.trans hps.symm⟩, fun e' he' pe' => ?_⟩
    have pe' := pe'.trans hps
    rw [hname, label_pos g.sides he (pe.symm.subset (by simp)), label_pos g.sides he (pe.symm.subset (by simp))]
    exact (name2_tag g.sides he' (g.edge e' he').2 pe').1
  refine ⟨key, np.sides_rank key, fun C hC a b x hp ho => ?_⟩
  have hnd : [a, b].Nodup := by
    have : (cells C).Nodup := (cellNodeid_perm (g.len C hC)).nodup_iff.mp (nodup_row (np.distinct C hC))
    have := hp.nodup_iff.mpr this
    simp at this ⊢
    tauto
  have hu : ∀ x ∈ [a, b], Uses (cellNodeid cells) 3 C x := by
    intro y hy
    exact (cellNodeid_uses (g.len C hC) y).mpr (hp.subset (by simp at hy ⊢; tauto))
  exact np.outer_sides hC hnd rfl hu (fun c' hc' hne hall => ho c' hc' hne
    ⟨(cellNodeid_uses (g.len c' hc') a).mp (hall a (by simp)), (cellNodeid_uses (g.len c' hc') b).mp (hall b (by simp))⟩)

theorem C117_sides_3d_partial (g : GmshMesh3 cells points els nbnodes n)
    (h : Launched 4 (cellNodeid cells) (fileNode points els (fun _ => 0)) (centvol3 (fileNode points els (fun _ => 0)) (cellNodeid cells)) npart0 epart
      nbnodes n SIZE data serial)
    (sqrt : K → K) (trunc : K → Int) (htr : ∀ m : Nat, trunc (m : K) = m) :
    SidesAsTagged els (build3 sqrt trunc 1 serial) id ∧
    (∀ p < SIZE, SidesAsTagged els (build3 sqrt trunc SIZE (data p)) (fun s => (data p).nodeloctoglob.getD s 0)) ∧
    ∀ C < n, ∀ a b d x, [a, b, d, x].Perm (cells C) → (∀ c' < n, c' ≠ C → ¬ (a ∈ cells c' ∧ b ∈ cells c' ∧ d ∈ cells c')) →
      HasSide (build3 sqrt trunc 1 serial) id [a, b, d] ∧
      ∀ p < SIZE, epart C = p → HasSide (build3 sqrt trunc SIZE (data p)) (fun s => (data p).nodeloctoglob.getD s 0) [a, b, d] := by
  have vm := C117_mesh_3d g
  have np := h.nodePair3 vm sqrt trunc htr
  have key : SidesAsTagged els (build3 sqrt trunc 1 serial) id := by
    intro F hF
    obtain ⟨C, hC, j, hj, rfl, hu, ho⟩ := np.bnd_single hF
    have R := np.run.rank 0 (by have := np.run.hS; omega)
    have hlen : serial.nodeid.length = n := h.serial_cells.1
    have hFl := ((R.cG.bnd.2 _).mp hF).1
    have hB := built3 sqrt trunc 1 serial (by intro r hr; rw [h.serial_cells.2.2.2] at hr; simp at hr)
    have hname := hB.one _ hFl (by rintro ⟨row, hr, _⟩; simp [extOf] at hr) hu
    rw [nm3_side sqrt trunc 1 serial (by rw [hlen]; exact hC) hj] at hname
    obtain ⟨l1, l2, l3, _⟩ := h.side_lt3 hC hj
    rw [h.labelS3 l1, h.labelS3 l2, h.labelS3 l3, htr, htr, htr, labelOf_fileNode, labelOf_fileNode, labelOf_fileNode] at hname
    have hps := fnode_perm3 sqrt trunc 1 serial (c := C) (by rw [hlen]; exact hC) hj
    rw [sid3_eq] at hps
    have hsp := (h.side_perm3 hC hj).trans (cellNodeid_perm (g.len C hC))
    obtain ⟨e, he, pe⟩ := g.outer C hC _ _ _ _ hsp (fun c' hc' hne hx => ho c' hc' hne (fun x hx' => by
      have := hps.subset hx'
      simp only [List.mem_cons, List.not_mem_nil, or_false] at this
      rcases this with rfl | rfl | rfl
      · exact (cellNodeid_uses (g.len c' hc') _).mpr hx.1
      · exact (cellNodeid_uses (g.len c' hc') _).mpr hx.2.1
      · exact (cellNodeid_uses (g.len c' hc') _).mpr hx.2.2))
    simp only [List.map_id_fun, id]
    refine ⟨⟨e, he, pe.trans hps.symm⟩, fun e' he' pe' => ?_⟩
    have pe' := pe'.trans hps
    rw [hname, label_pos g.sides he (pe.symm.subset (by simp)), label_pos g.sides he (pe.symm.subset (by simp)),
      label_pos g.sides he (pe.symm.subset (by simp))]
    exact (name3_tag g.sides he' pe').1
  refine ⟨key, np.sides_rank key, fun C hC a b d x hp ho => ?_⟩
  have hnd : [a, b, d].Nodup := by
    have : (cells C).Nodup := (cellNodeid_perm (g.len C hC)).nodup_iff.mp (nodup_row (np.distinct C hC))
    have := hp.nodup_iff.mpr this
    simp at this ⊢
    tauto
  have hu : ∀ x ∈ [a, b, d], Uses (cellNodeid cells) 4 C x := by
    intro y hy
    exact (cellNodeid_uses (g.len C hC) y).mpr (hp.subset (by simp at hy ⊢; tauto))
  exact np.outer_sides hC hnd rfl hu (fun c' hc' hne hall => ho c' hc' hne
    ⟨(cellNodeid_uses (g.len c' hc') a).mp (hall a (by simp)), (cellNodeid_uses (g.len c' hc') b).mp (hall b (by simp)),
      (cellNodeid_uses (g.len c' hc') d).mp (hall d (by simp))⟩)
end


/-! ### a box one cell wide loses its top and bottom -/

/-- The unit square in two triangles, its four sides tagged. -/
def sqCells (c : Nat) : List Nat := if c = 0 then [0, 1, 2] else [0, 2, 3]
def sqPoints (k : Nat) : ℚ × ℚ × ℚ := if k = 0 then (0, 0, 0) else if k = 1 then (1, 0, 0) else if k = 2 then (1, 1, 0) else (0, 1, 0)
def sqEls : List BElem := [([0, 1], 4), ([1, 2], 2), ([2, 3], 3), ([3, 0], 1)]

/-- C117 as stated is false: on the unit square in two triangles, with its sides tagged 4, 2, 3, 1, the bottom side, tagged 4, is in none of
the face lists of the domain (its name is 100): no flux is computed and no boundary condition applied there. -/
theorem C117_lost_side {serial : RankData ℚ}
    (hr : readMeshFile 1 0 (writeSerial (serialWrite (cellNodeid sqCells) (fileNode sqPoints sqEls (fun _ => 0)) 4 2 3)) [] = some serial)
    (sqrt : ℚ → ℚ) (trunc : ℚ → Int) (htr : ∀ m : Nat, trunc (m : ℚ) = m) :
    ∃ f < (build2 sqrt trunc 1 serial).nbfaces, ((build2 sqrt trunc 1 serial).fnode f).Perm [0, 1] ∧ (build2 sqrt trunc 1 serial).name f = 100 ∧
      f ∉ (build2 sqrt trunc 1 serial).innerfaces ∧ f ∉ (build2 sqrt trunc 1 serial).halofaces ∧
      f ∉ (build2 sqrt trunc 1 serial).boundaryfaces ∧ f ∉ (build2 sqrt trunc 1 serial).periodicboundaryfaces := by
  obtain ⟨data, h⟩ := launched_of_serial (centvol2 (fileNode sqPoints sqEls (fun _ => 0)) (cellNodeid sqCells)) (by omega) (by decide +kernel)
    (by decide +kernel) hr
  have hlen : serial.nodeid.length = 2 := h.serial_cells.1
  have spec := facesSpec2 sqrt trunc 1 serial
  have hrow : ∀ c, nodesOf (cellNodeid sqCells) 3 c = if c = 0 then [0, 1, 2] else [0, 2, 3] := by
    intro c
    by_cases hc : c = 0
    · subst hc; decide
    · rw [if_neg hc, nodesOf3]; simp only [cellNodeid, sqCells, if_neg hc]; decide
  have hop := orow2_perm serial (c := 0) (by rw [hlen]; omega)
  rw [h.row2S (by omega)] at hop
  have m0 : (0 : Nat) ∈ [(orow2 serial 0).1, (orow2 serial 0).2.1, (orow2 serial 0).2.2] := hop.symm.subset (by decide)
  have m1 : (1 : Nat) ∈ [(orow2 serial 0).1, (orow2 serial 0).2.1, (orow2 serial 0).2.2] := hop.symm.subset (by decide)
  obtain ⟨j, hj, hp⟩ := mem_side2_of m0 m1 (by omega)
  have hps := fnode_perm2 sqrt trunc 1 serial (c := 0) (by rw [hlen]; omega) hj
  have hF : (build2 sqrt trunc 1 serial).faceid 0 j < (build2 sqrt trunc 1 serial).nbfaces := (spec.2.2.2 0 (by rw [hlen]; omega) j hj).1
  have hu : users (build2 sqrt trunc 1 serial).faceid 3 2 ((build2 sqrt trunc 1 serial).faceid 0 j) = [0] := by
    have h1 : ∀ a, a ∈ users (build2 sqrt trunc 1 serial).faceid 3 2 ((build2 sqrt trunc 1 serial).faceid 0 j) ↔ a = 0 := by
      intro a
      rw [mem_users]
      constructor
      · rintro ⟨ha, j', hj', e⟩
        by_contra hne
        have hpp := (C16_shared_face _ _ _ _ _ spec a 0 j' j (by rw [hlen]; exact ha) (by rw [hlen]; omega) hj' hj).mp e
        have h1 : 1 ∈ sid2 serial a j' := (hpp.trans hp.symm).symm.subset (by simp)
        rw [sid2_eq] at h1
        have := (h.side_perm ha hj').subset (show 1 ∈ [sA serial a j', sB serial a j', sO serial a j'] by simp at h1 ⊢; tauto)
        rw [hrow, if_neg hne] at this
        simp at this
      · rintro rfl; exact ⟨by omega, j, hj, rfl⟩
    have hnd : (users (build2 sqrt trunc 1 serial).faceid 3 2 ((build2 sqrt trunc 1 serial).faceid 0 j)).Nodup := List.nodup_range.filter _
    exact List.perm_singleton.mp ((List.perm_ext_iff_of_nodup hnd (by simp)).mpr (by simpa using h1))
  have hB := built2 sqrt trunc 1 serial (by intro r hr; rw [h.serial_cells.2.2.2] at hr; simp at hr)
  have hname : (build2 sqrt trunc 1 serial).name ((build2 sqrt trunc 1 serial).faceid 0 j) = 100 := by
    rw [hB.one _ hF (by rintro ⟨row, hr, _⟩; simp [extOf] at hr) (by
      show (users _ 3 serial.nodeid.length _).length = 1
      rw [hlen, hu]; rfl)]
    rw [nm2_side sqrt trunc 1 serial (by rw [hlen]; omega) hj]
    have hp' : [0, 1].Perm (sid2 serial 0 j) := hp
    rw [sid2_eq] at hp'
    rcases perm2 hp' with ⟨a, b⟩ | ⟨a, b⟩ <;> rw [← a, ← b, h.labelS (by omega), h.labelS (by omega), htr, htr] <;> decide
  refine ⟨_, hF, hps.trans hp.symm, hname, ?_, ?_, ?_, ?_⟩
  · rw [hB.inner.2, hname]; omega
  · rw [hB.halo.2, hname]; omega
  · rw [hB.bnd.2, hname]; simp
  · intro hx
    have := ((mem_per2 (build2 sqrt trunc 1 serial).name (build2 sqrt trunc 1 serial).nbfaces _).mp hx).2
    rw [hname] at this
    revert this; decide

/-- The hypotheses of `C117_lost_side` are met. -/
example : ∃ serial, readMeshFile 1 0 (writeSerial (serialWrite (cellNodeid sqCells) (fileNode sqPoints sqEls (fun _ => 0)) 4 2 3)) [] = some serial :=
  ⟨_, C25_round_trip_serial (K := ℚ) _ _⟩

/-! ### examples -/

/-- The unit rectangle of 2 by 1 squares in four triangles. -/
def boxCells (c : Nat) : List Nat := if c = 0 then [0, 1, 4] else if c = 1 then [4, 3, 0] else if c = 2 then [1, 2, 5] else [5, 4, 1]
def boxPoints (k : Nat) : ℚ × ℚ × ℚ := ((k % 3 : Nat), (k / 3 : Nat), 0)
def boxEls : List BElem := [([0, 1], 4), ([1, 2], 4), ([2, 5], 2), ([4, 5], 3), ([3, 4], 3), ([3, 0], 1)]

theorem on_mem {els : List BElem} {t : Int} {v : Nat} (h : OnSide els t v) : v ∈ els.flatMap Prod.fst := by
  obtain ⟨e, he, _, hv⟩ := h
  exact List.mem_flatMap.mpr ⟨e, he, hv⟩

instance (els : List BElem) (t : Int) (v : Nat) : Decidable (OnSide els t v) := by unfold OnSide; infer_instance

theorem boxSides_of {els : List BElem} (tag : ∀ e ∈ els, 1 ≤ e.2 ∧ e.2 ≤ 6)
    (ap : ∀ v ∈ els.flatMap Prod.fst, ¬ (OnSide els 1 v ∧ OnSide els 2 v) ∧ ¬ (OnSide els 3 v ∧ OnSide els 4 v) ∧ ¬ (OnSide els 5 v ∧ OnSide els 6 v))
    (o3 : ∀ e ∈ els, e.2 = 3 ∨ e.2 = 4 → ∃ v ∈ e.1, ¬ OnSide els 1 v ∧ ¬ OnSide els 2 v)
    (o5 : ∀ e ∈ els, e.2 = 5 ∨ e.2 = 6 → ∃ v ∈ e.1, ¬ OnSide els 1 v ∧ ¬ OnSide els 2 v ∧ ¬ OnSide els 3 v ∧ ¬ OnSide els 4 v) : BoxSides els :=
  ⟨tag, fun v h => (ap v (on_mem h.1)).1 h, fun v h => (ap v (on_mem h.1)).2.1 h, fun v h => (ap v (on_mem h.1)).2.2 h, o3, o5⟩

def boxArea (c a b x : Nat) : Prop := [a, b, x].Perm (boxCells c) → areaOf boxPoints a b x ≠ 0
def boxOpp (c a b x : Nat) : Prop := [a, b, x].Perm (boxCells c) → ∀ c' < 4, c ≠ c' → ∀ y < 6, [a, b, y].Perm (boxCells c') →
  areaOf boxPoints a b x * areaOf boxPoints a b y < 0
def boxOut (c a b x : Nat) : Prop := [a, b, x].Perm (boxCells c) → (∀ c' < 4, c' ≠ c → ¬ (a ∈ boxCells c' ∧ b ∈ boxCells c')) → ∃ e ∈ boxEls, e.1.Perm [a, b]
instance (c a b x : Nat) : Decidable (boxArea c a b x) := by unfold boxArea; infer_instance
instance (c a b x : Nat) : Decidable (boxOpp c a b x) := by unfold boxOpp; infer_instance
instance (c a b x : Nat) : Decidable (boxOut c a b x) := by unfold boxOut; infer_instance

theorem boxMesh : GmshMesh2 boxCells boxPoints boxEls 6 4 := by
  have hn : ∀ c < 4, ∀ s ∈ boxCells c, s < 6 := by decide
  refine ⟨by decide, hn, by decide, ?_, ?_, boxSides_of (by decide) (by decide +kernel) (by decide +kernel) (by decide +kernel), by decide, ?_⟩
  · intro c hc a b x hp
    have D : ∀ c < 4, ∀ a < 6, ∀ b < 6, ∀ x < 6, boxArea c a b x := by decide +kernel
    exact D c hc a (hn c hc a (hp.subset (by simp))) b (hn c hc b (hp.subset (by simp))) x (hn c hc x (hp.subset (by simp))) hp
  · intro c hc c' hc' hne a b x y hp h2
    have D : ∀ c < 4, ∀ a < 6, ∀ b < 6, ∀ x < 6, boxOpp c a b x := by decide +kernel
    exact D c hc a (hn c hc a (hp.subset (by simp))) b (hn c hc b (hp.subset (by simp))) x (hn c hc x (hp.subset (by simp))) hp c' hc' hne y
      (hn c' hc' y (h2.subset (by simp))) h2
  · intro c hc a b x hp
    have D : ∀ c < 4, ∀ a < 6, ∀ b < 6, ∀ x < 6, boxOut c a b x := by decide +kernel
    exact D c hc a (hn c hc a (hp.subset (by simp))) b (hn c hc b (hp.subset (by simp))) x (hn c hc x (hp.subset (by simp))) hp

/-- The hypotheses of `C117_sides_2d_partial` are met by the rectangle, cut in two halves. -/
theorem boxLaunched : ∃ data serial, Launched 3 (cellNodeid boxCells) (fileNode boxPoints boxEls (fun _ => 0))
    (centvol2 (fileNode boxPoints boxEls (fun _ => 0)) (cellNodeid boxCells)) (fun k => if k % 3 = 2 then 1 else 0) (fun c => c / 2) 6 4 2 data serial := by
  refine ⟨fun p => expected 2 p (rankWrite (cellNodeid boxCells) (fileNode boxPoints boxEls (fun _ => 0))
    (centvol2 (fileNode boxPoints boxEls (fun _ => 0)) (cellNodeid boxCells)) (partition (cellNodeid boxCells) (fun k => if k % 3 = 2 then 1 else 0) (fun c => c / 2) 6 4 3)
    (halos (partition (cellNodeid boxCells) (fun k => if k % 3 = 2 then 1 else 0) (fun c => c / 2) 6 4 3).cpart (partition (cellNodeid boxCells) (fun k => if k % 3 = 2 then 1 else 0) (fun c => c / 2) 6 4 3).haloCell 2) 6 2 3 p),
    expected 1 0 (serialWrite (cellNodeid boxCells) (fileNode boxPoints boxEls (fun _ => 0)) 6 4 3),
    by decide, by decide, by decide +kernel, by decide +kernel, by decide +kernel, by decide +kernel, ?_, ?_⟩
  · intro p hp; exact C25_round_trip_parallel (K := ℚ) 2 p (by decide) _
  · exact C25_round_trip_serial (K := ℚ) _ _

example : ∃ (data : Nat → RankData ℚ) (serial : RankData ℚ), SidesAsTagged boxEls (build2 (fun x => x) Rat.floor 1 serial) id ∧
    (∀ p < 2, SidesAsTagged boxEls (build2 (fun x => x) Rat.floor 2 (data p)) (fun s => (data p).nodeloctoglob.getD s 0)) ∧
    HasSide (build2 (fun x => x) Rat.floor 1 serial) id [0, 1] := by
  obtain ⟨data, serial, h⟩ := boxLaunched
  obtain ⟨a, b, c⟩ := C117_sides_2d_partial boxMesh h (fun x => x) Rat.floor floor_nat
  exact ⟨data, serial, a, b, (c 0 (by omega) 0 1 4 (by decide) (by decide)).1⟩

/-- The chain of three tetrahedra, its outer triangles tagged 1, 3 and 5. -/
def chCells (c : Nat) : List Nat := [c + 3, c, c + 2, c + 1]
def chPoints (k : Nat) : ℚ × ℚ × ℚ := ((chainNode k).1, (chainNode k).2.1, (chainNode k).2.2.1)
def chEls : List BElem :=
  [([0, 1, 2], 1), ([0, 1, 3], 3), ([0, 2, 3], 3), ([1, 2, 4], 5), ([1, 3, 4], 5), ([2, 3, 5], 5), ([2, 4, 5], 5), ([3, 4, 5], 5)]

def chVol (c a b d x : Nat) : Prop := [a, b, d, x].Perm (chCells c) → volOf chPoints a b d x ≠ 0
def chOpp (c a b d x : Nat) : Prop := [a, b, d, x].Perm (chCells c) → ∀ c' < 3, c ≠ c' → ∀ y < 6, [a, b, d, y].Perm (chCells c') →
  volOf chPoints a b d x * volOf chPoints a b d y < 0
def chOut (c a b d x : Nat) : Prop := [a, b, d, x].Perm (chCells c) →
  (∀ c' < 3, c' ≠ c → ¬ (a ∈ chCells c' ∧ b ∈ chCells c' ∧ d ∈ chCells c')) → ∃ e ∈ chEls, e.1.Perm [a, b, d]
instance (c a b d x : Nat) : Decidable (chVol c a b d x) := by unfold chVol; infer_instance
instance (c a b d x : Nat) : Decidable (chOpp c a b d x) := by unfold chOpp; infer_instance
instance (c a b d x : Nat) : Decidable (chOut c a b d x) := by unfold chOut; infer_instance

theorem chMesh : GmshMesh3 chCells chPoints chEls 6 3 := by
  have hn : ∀ c < 3, ∀ s ∈ chCells c, s < 6 := by decide
  refine ⟨by decide, hn, by decide, ?_, ?_, boxSides_of (by decide) (by decide +kernel) (by decide +kernel) (by decide +kernel), by decide, ?_⟩
  · intro c hc a b d x hp
    have D : ∀ c < 3, ∀ a < 6, ∀ b < 6, ∀ d < 6, ∀ x < 6, chVol c a b d x := by decide +kernel
    exact D c hc a (hn c hc a (hp.subset (by simp))) b (hn c hc b (hp.subset (by simp))) d (hn c hc d (hp.subset (by simp))) x (hn c hc x (hp.subset (by simp))) hp
  · intro c hc c' hc' hne a b d x y hp h2
    have D : ∀ c < 3, ∀ a < 6, ∀ b < 6, ∀ d < 6, ∀ x < 6, chOpp c a b d x := by decide +kernel
    exact D c hc a (hn c hc a (hp.subset (by simp))) b (hn c hc b (hp.subset (by simp))) d (hn c hc d (hp.subset (by simp))) x (hn c hc x (hp.subset (by simp))) hp
      c' hc' hne y (hn c' hc' y (h2.subset (by simp))) h2
  · intro c hc a b d x hp
    have D : ∀ c < 3, ∀ a < 6, ∀ b < 6, ∀ d < 6, ∀ x < 6, chOut c a b d x := by decide +kernel
    exact D c hc a (hn c hc a (hp.subset (by simp))) b (hn c hc b (hp.subset (by simp))) d (hn c hc d (hp.subset (by simp))) x (hn c hc x (hp.subset (by simp))) hp

example : ∃ (data : Nat → RankData ℚ) (serial : RankData ℚ), SidesAsTagged chEls (build3 (fun x => x) Rat.floor 1 serial) id ∧
    (∀ p < 2, SidesAsTagged chEls (build3 (fun x => x) Rat.floor 2 (data p)) (fun s => (data p).nodeloctoglob.getD s 0)) := by
  obtain ⟨data, h⟩ := launched_of_serial (K := ℚ) (centvol3 (fileNode chPoints chEls (fun _ => 0)) (cellNodeid chCells)) (d1 := 4) (by omega)
    (C117_mesh_3d chMesh).nodes (C117_mesh_3d chMesh).used (C25_round_trip_serial (K := ℚ) _ _)
  obtain ⟨a, b, c⟩ := C117_sides_3d_partial chMesh h (fun x => x) Rat.floor floor_nat
  exact ⟨data, _, a, b⟩

end Verif.Props.Par
