import Verif.Props.RunFlow
import Verif.Props.Periodic
import Verif.Spec.PeriodicRun
import Verif.Model.DomainPer

/-! Helper lemmas for the theorems on meshes with periodic sides: the tables of the serial Domain of a valid mesh, before the periodic
update; facts common to 2D and 3D. -/
set_option linter.unusedSectionVars false
set_option linter.unusedVariables false
set_option linter.unusedSimpArgs false
namespace Verif.Props.Par
open Verif.Fvm Verif.Spec Verif.Conn Verif.Dom Verif.Geo Verif.Names Verif.MeshFile Verif.Part Verif.Comm Verif.Run
variable {K : Type*} [Field K] [LinearOrder K] [IsStrictOrderedRing K]

/-- The names of the physical / periodic sides. -/
def wallNames (dim : Nat) : List Int := (wallSides dim).map (fun (s : Nat) => (s : Int))
def perNames (dim : Nat) : List Int := (perSides dim).map (fun (s : Nat) => (s : Int))

/-- What is known of the Domain of a mesh. -/
structure SDom (m : Mesh K) (D : Tables K) (side : Nat → Nat → List Nat) (opn : Nat → Nat → Nat) (out : Nat → Nat → Vec K)
    (F : List (List Nat)) (nm : Nat → Int) (g : Nat → Nat) : Prop where
  dim : m.dim = 2 ∨ m.dim = 3
  nb : D.nbcells = m.n
  nn : D.nbnodes = m.nbnodes
  built : Built D (m.dim + 1) m.dim side F nm (wallNames m.dim) [] g
  per : D.periodicboundaryfaces.Nodup ∧ ∀ f, f ∈ D.periodicboundaryfaces ↔ f < D.nbfaces ∧ D.name f ∈ perNames m.dim
  sd : ∀ c < m.n, ∀ j < m.dim + 1, (side c j ++ [opn c j]).Perm (nodesOf m.nodeid (m.dim + 1) c)
  opx : ∀ c < m.n, ∀ x ∈ nodesOf m.nodeid (m.dim + 1) c, ∃ j < m.dim + 1, opn c j = x
  opinj : ∀ c < m.n, ∀ j < m.dim + 1, ∀ j' < m.dim + 1, opn c j = opn c j' → j = j'
  nodup : ∀ c < m.n, (nodesOf m.nodeid (m.dim + 1) c).Nodup
  three : ∀ a < m.n, ∀ b < m.n, ∀ c < m.n, a ≠ b → a ≠ c → b ≠ c → ∀ ja < m.dim + 1, ∀ jb < m.dim + 1, ∀ jc < m.dim + 1,
    (side a ja).Perm (side b jb) → (side a ja).Perm (side c jc) → False
  name : ∀ c < m.n, ∀ j < m.dim + 1, ∀ s ∈ wallSides m.dim ++ perSides m.dim, m.On s (side c j) → nm (D.faceid c j) = (s : Int)
  fcenter : ∀ c < m.n, ∀ j < m.dim + 1, ∀ k < 3, D.fcenter (D.faceid c j) k = m.centre (side c j) k
  normal : ∀ c < m.n, ∀ j < m.dim + 1, D.cellid (D.faceid c j) 0 = (c : Int) → ∀ k < 3, D.normal (D.faceid c j) k = out c j k
  opp : ∀ c < m.n, ∀ c' < m.n, c ≠ c' → ∀ j < m.dim + 1, ∀ j' < m.dim + 1, (side c j).Perm (side c' j') → ∀ k < 3, out c j k = - out c' j' k
  vertex : ∀ a < m.nbnodes, ∀ k < 3, D.vertex a k = pos m.node a k
  nodename : ∀ a < m.nbnodes, D.nodename a = (labelOf m.node a : Int)
  cnode : ∀ c < m.n, (nodesOf D.cnode (m.dim + 1) c).Perm (nodesOf m.nodeid (m.dim + 1) c)
  /-- the opposite node is not in a coordinate plane containing the side -/
  off : ∀ c < m.n, ∀ j < m.dim + 1, ∀ d < m.dim, ∀ x, (∀ a ∈ side c j, pos m.node a d = x) → pos m.node (opn c j) d ≠ x
  /-- translated sides, with their cells on different sides, have opposite outward normals -/
  flip : ∀ c < m.n, ∀ c' < m.n, ∀ j < m.dim + 1, ∀ j' < m.dim + 1, ∀ d < m.dim, ∀ δ x x' l l', l.Perm (side c j) → l'.Perm (side c' j') →
    List.Forall₂ (fun a a' => IsTranslate d δ (pos m.node a) (pos m.node a')) l l' →
    (∀ a ∈ l, pos m.node a d = x) → (∀ a ∈ l', pos m.node a d = x') →
    (pos m.node (opn c j) d - x) * (pos m.node (opn c' j') d - x') < 0 → ∀ k < 3, out c' j' k = - out c j k
  solid : Solid D m.dim out

section
variable {m : Mesh K} {D : Tables K} {side : Nat → Nat → List Nat} {opn : Nat → Nat → Nat} {out : Nat → Nat → Vec K} {F : List (List Nat)}
  {nm : Nat → Int} {g : Nat → Nat}

theorem SDom.flt (h : SDom m D side opn out F nm g) : ∀ c < m.n, ∀ j < m.dim + 1, D.faceid c j < D.nbfaces := by
  intro c hc j hj; rw [h.built.nb]; exact (h.built.faces.2.2.2 c (h.nb ▸ hc) j hj).1

theorem SDom.fsurj (h : SDom m D side opn out F nm g) : ∀ f < D.nbfaces, ∃ c < m.n, ∃ j < m.dim + 1, D.faceid c j = f := by
  intro f hf
  obtain ⟨c, hc, r⟩ := facesSpec_surj h.built.faces (h.built.nb ▸ hf)
  exact ⟨c, h.nb ▸ hc, r⟩

theorem SDom.same (h : SDom m D side opn out F nm g) {c c' j j' : Nat} (hc : c < m.n) (hc' : c' < m.n) (hj : j < m.dim + 1) (hj' : j' < m.dim + 1) :
    D.faceid c j = D.faceid c' j' ↔ (side c j).Perm (side c' j') :=
  C16_shared_face _ _ _ _ _ h.built.faces c c' j j' (h.nb ▸ hc) (h.nb ▸ hc') hj hj'

theorem SDom.sideInj (h : SDom m D side opn out F nm g) {c j j' : Nat} (hc : c < m.n) (hj : j < m.dim + 1) (hj' : j' < m.dim + 1)
    (hp : (side c j).Perm (side c j')) : j = j' := by
  have h1 := (h.sd c hc j hj).trans (h.sd c hc j' hj').symm
  have h2 := (hp.append_right [opn c j]).symm.trans h1
  have h3 := (List.perm_append_left_iff _).mp h2
  exact h.opinj c hc j hj j' hj' (by simpa using h3)

theorem SDom.inj (h : SDom m D side opn out F nm g) : ∀ c < m.n, ∀ j < m.dim + 1, ∀ j' < m.dim + 1, D.faceid c j = D.faceid c j' → j = j' :=
  fun c hc j hj j' hj' e => h.sideInj hc hj hj' ((h.same hc hc hj hj').mp e)

/-- Any list of corners of a face of a cell is one of its sides. -/
theorem SDom.all (h : SDom m D side opn out F nm g) {c : Nat} (hc : c < m.n) {l : List Nat} {x : Nat}
    (hp : (l ++ [x]).Perm (nodesOf m.nodeid (m.dim + 1) c)) : ∃ j < m.dim + 1, l.Perm (side c j) ∧ opn c j = x := by
  obtain ⟨j, hj, e⟩ := h.opx c hc x (hp.subset (by simp))
  refine ⟨j, hj, ?_, e⟩
  have h1 := h.sd c hc j hj
  rw [e] at h1
  exact (List.perm_append_right_iff _).mp (hp.trans h1.symm)

theorem SDom.two (h : SDom m D side opn out F nm g) (f : Nat) : (users D.faceid (m.dim + 1) D.nbcells f).length ≤ 2 := by
  apply length_le_two (users_sorted _ _ _ _)
  intro a ha b hb c hc h1 h2 h3
  obtain ⟨la, ja, hja, ea⟩ := (mem_users _ _ _ _ _).mp ha
  obtain ⟨lb, jb, hjb, eb⟩ := (mem_users _ _ _ _ _).mp hb
  obtain ⟨lc, jc, hjc, ec⟩ := (mem_users _ _ _ _ _).mp hc
  rw [h.nb] at la lb lc
  exact h.three a la b lb c lc h1 h2 h3 ja hja jb hjb jc hjc ((h.same la lb hja hjb).mp (ea.trans eb.symm)) ((h.same la lc hja hjc).mp (ea.trans ec.symm))

theorem SDom.users_ne (h : SDom m D side opn out F nm g) {f : Nat} (hf : f < D.nbfaces) : users D.faceid (m.dim + 1) D.nbcells f ≠ [] :=
  ne_nil_of_face h.built.faces (h.built.nb ▸ hf)

theorem SDom.len (h : SDom m D side opn out F nm g) {f : Nat} (hf : f < D.nbfaces) :
    (users D.faceid (m.dim + 1) D.nbcells f).length = 1 ∨ (users D.faceid (m.dim + 1) D.nbcells f).length = 2 := by
  have := List.length_pos_iff.mpr (h.users_ne hf)
  have := h.two f
  omega

theorem SDom.side_length (h : SDom m D side opn out F nm g) {c j : Nat} (hc : c < m.n) (hj : j < m.dim + 1) : (side c j).length = m.dim := by
  have := (h.sd c hc j hj).length_eq
  simp [nodesOf] at this
  exact this

/-- A side belonging to no other cell is an outer face of the mesh. -/
theorem SDom.outer (h : SDom m D side opn out F nm g) {c j : Nat} (hc : c < m.n) (hj : j < m.dim + 1)
    (h1 : (users D.faceid (m.dim + 1) D.nbcells (D.faceid c j)).length = 1) : m.Outer c (side c j) (opn c j) := by
  refine ⟨hc, h.sd c hc j hj, fun c' hc' hne hall => ?_⟩
  have hnd : (side c j).Nodup := (List.nodup_append.mp ((h.sd c hc j hj).nodup_iff.mpr (h.nodup c hc))).1
  have hsub : side c j ⊆ nodesOf m.nodeid (m.dim + 1) c' := by
    intro a ha
    obtain ⟨i, hi, e⟩ := hall a ha
    exact List.mem_map.mpr ⟨i, List.mem_range.mpr hi, e⟩
  have hsp := List.subperm_of_subset hnd hsub
  obtain ⟨x, hx⟩ := hsp.exists_of_length_lt (by rw [h.side_length hc hj]; simp [nodesOf])
  have hp := hx.perm_of_length_le (by rw [List.length_cons, h.side_length hc hj]; simp [nodesOf])
  obtain ⟨j', hj', hp', _⟩ := h.all hc' (l := side c j) (x := x) ((List.perm_append_singleton x (side c j)).trans hp)
  have e := (h.same hc' hc hj' hj).mpr hp'.symm
  have m1 : c' ∈ users D.faceid (m.dim + 1) D.nbcells (D.faceid c j) := (mem_users _ _ _ _ _).mpr ⟨h.nb ▸ hc', j', hj', e⟩
  have m2 : c ∈ users D.faceid (m.dim + 1) D.nbcells (D.faceid c j) := (mem_users _ _ _ _ _).mpr ⟨h.nb ▸ hc, j, hj, rfl⟩
  obtain ⟨a, e⟩ := List.length_eq_one_iff.mp h1
  rw [e, List.mem_singleton] at m1 m2
  exact hne (m1.trans m2.symm)

/-- An outer face of the mesh is a face of the Domain with one cell. -/
theorem SDom.of_outer (h : SDom m D side opn out F nm g) {c x : Nat} {l : List Nat} (ho : m.Outer c l x) :
    ∃ j < m.dim + 1, l.Perm (side c j) ∧ opn c j = x ∧ users D.faceid (m.dim + 1) D.nbcells (D.faceid c j) = [c] := by
  obtain ⟨hc, hp, hno⟩ := ho
  obtain ⟨j, hj, hl, e⟩ := h.all hc hp
  refine ⟨j, hj, hl, e, ?_⟩
  have m2 : c ∈ users D.faceid (m.dim + 1) D.nbcells (D.faceid c j) := (mem_users _ _ _ _ _).mpr ⟨h.nb ▸ hc, j, hj, rfl⟩
  have hall : ∀ c' ∈ users D.faceid (m.dim + 1) D.nbcells (D.faceid c j), c' = c := by
    intro c' hc'
    obtain ⟨lt, j', hj', e'⟩ := (mem_users _ _ _ _ _).mp hc'
    rw [h.nb] at lt
    by_contra hne
    apply hno c' lt hne
    intro a ha
    have h1 := (h.same lt hc hj' hj).mp e'
    have h2 : a ∈ side c' j' := h1.symm.subset (hl.subset ha)
    have h3 : a ∈ nodesOf m.nodeid (m.dim + 1) c' := (h.sd c' lt j' hj').subset (by simp [h2])
    obtain ⟨i, hi, ei⟩ := List.mem_map.mp h3
    exact ⟨i, List.mem_range.mp hi, ei⟩
  have hs := users_sorted D.faceid (m.dim + 1) D.nbcells (D.faceid c j)
  generalize users D.faceid (m.dim + 1) D.nbcells (D.faceid c j) = us at m2 hall hs
  match us, m2, hall, hs with
  | [a], m2, hall, hs => rw [hall a (by simp)]
  | a :: b :: t, m2, hall, hs =>
    have := hall a (by simp)
    have := hall b (by simp)
    simp only [List.pairwise_cons, List.mem_cons, forall_eq_or_imp] at hs
    omega

theorem on_perm {m : Mesh K} {s : Nat} {l l' : List Nat} (h : m.On s l) (hp : l.Perm l') : m.On s l' := by
  obtain ⟨⟨a, ha, e⟩, h2⟩ := h
  exact ⟨⟨a, hp.subset ha, e⟩, fun a ha => h2 a (hp.symm.subset ha)⟩

theorem centre_perm (m : Mesh K) {l l' : List Nat} (hp : l.Perm l') (k : Nat) : m.centre l k = m.centre l' k := by
  unfold Mesh.centre; rw [(hp.map _).sum_eq]

/-- The name of a face with two cells is 0, that of a face with one cell is the side it lies on. -/
theorem SDom.name_two (h : SDom m D side opn out F nm g) {f : Nat} (hf : f < D.nbfaces)
    (h2 : (users D.faceid (m.dim + 1) D.nbcells f).length = 2) : D.name f = 0 := h.built.two f hf (not_foreign_nil _) (by omega)

theorem SDom.name_one (h : SDom m D side opn out F nm g) {c j : Nat} (hc : c < m.n) (hj : j < m.dim + 1)
    (h1 : (users D.faceid (m.dim + 1) D.nbcells (D.faceid c j)).length = 1) {s : Nat} (hs : s ∈ wallSides m.dim ++ perSides m.dim)
    (hon : m.On s (side c j)) : D.name (D.faceid c j) = (s : Int) := by
  rw [h.built.one _ (h.flt c hc j hj) (not_foreign_nil _) h1]
  exact h.name c hc j hj s hs hon

theorem sides_pos {dim s : Nat} (h : s ∈ wallSides dim ++ perSides dim) : s ≠ 0 ∧ s ≠ 10 := by
  unfold wallSides perSides at h
  split at h <;> simp at h <;> omega

variable {L : Nat → K} {r : K → K}

/-- The faces of the Domain: inner faces with two cells, outer faces lying on a side. -/
theorem SDom.kinds (h : SDom m D side opn out F nm g) (hv : m.Valid L r) {c j : Nat} (hc : c < m.n) (hj : j < m.dim + 1) :
    (users D.faceid (m.dim + 1) D.nbcells (D.faceid c j) = [c] ∧ m.Outer c (side c j) (opn c j) ∧
      ∃ s ∈ wallSides m.dim ++ perSides m.dim, m.On s (side c j) ∧ D.name (D.faceid c j) = (s : Int)) ∨
    ((users D.faceid (m.dim + 1) D.nbcells (D.faceid c j)).length = 2 ∧ D.name (D.faceid c j) = 0) := by
  have hf := h.flt c hc j hj
  rcases h.len hf with h1 | h2
  · left
    have ho := h.outer hc hj h1
    obtain ⟨s, hs, hon⟩ := hv.label _ _ _ ho
    refine ⟨?_, ho, s, hs, hon, h.name_one hc hj h1 hs hon⟩
    have m2 : c ∈ users D.faceid (m.dim + 1) D.nbcells (D.faceid c j) := (mem_users _ _ _ _ _).mpr ⟨h.nb ▸ hc, j, hj, rfl⟩
    obtain ⟨a, e⟩ := List.length_eq_one_iff.mp h1
    rw [e, List.mem_singleton] at m2
    rw [e, m2]
  · exact Or.inr ⟨h2, h.name_two hf h2⟩

/-- The faces named `s` are the outer faces of side `s`. -/
theorem SDom.named (h : SDom m D side opn out F nm g) (hv : m.Valid L r) {s : Nat} (hs : s ∈ wallSides m.dim ++ perSides m.dim) {f : Nat} (hf : f < D.nbfaces)
    (hn : D.name f = (s : Int)) : ∃ c < m.n, ∃ j < m.dim + 1, D.faceid c j = f ∧ m.Outer c (side c j) (opn c j) ∧ m.On s (side c j) ∧
      users D.faceid (m.dim + 1) D.nbcells (D.faceid c j) = [c] := by
  obtain ⟨c, hc, j, hj, rfl⟩ := h.fsurj f hf
  refine ⟨c, hc, j, hj, rfl, ?_⟩
  rcases h.kinds hv hc hj with ⟨hu, ho, s', hs', hon, hn'⟩ | ⟨_, h0⟩
  · have : s = s' := by rw [hn] at hn'; exact_mod_cast hn'
    subst this
    exact ⟨ho, hon, hu⟩
  · rw [hn] at h0
    exact absurd (by exact_mod_cast h0) (sides_pos hs).1

theorem SDom.cell0_one (h : SDom m D side opn out F nm g) {c j : Nat} (hc : c < m.n) (hj : j < m.dim + 1)
    (hu : users D.faceid (m.dim + 1) D.nbcells (D.faceid c j) = [c]) : D.cellid (D.faceid c j) 0 = (c : Int) := by
  rw [h.built.cell0 _ (h.flt c hc j hj), hu]; rfl

theorem SDom.of_on (h : SDom m D side opn out F nm g) {c x : Nat} {l : List Nat} (ho : m.Outer c l x) {s : Nat}
    (hs : s ∈ wallSides m.dim ++ perSides m.dim) (hon : m.On s l) :
    ∃ j < m.dim + 1, l.Perm (side c j) ∧ opn c j = x ∧ D.faceid c j < D.nbfaces ∧ D.name (D.faceid c j) = (s : Int) ∧
      D.cellid (D.faceid c j) 0 = (c : Int) ∧ users D.faceid (m.dim + 1) D.nbcells (D.faceid c j) = [c] := by
  obtain ⟨j, hj, hp, e, hu⟩ := h.of_outer ho
  exact ⟨j, hj, hp, e, h.flt c ho.1 j hj, h.name_one ho.1 hj (by rw [hu]; rfl) hs (on_perm hon hp), h.cell0_one ho.1 hj hu, hu⟩

end
end Verif.Props.Par
