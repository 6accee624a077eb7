import Verif.Model.DomainBC
import Verif.Props.LinSolve
import Verif.Props.LinSys3
import Verif.Props.Diamond

/-!
# Boundary data of linear systems (C49 from the user's dictionary, C69, C70, C72)
-/
set_option linter.unusedSectionVars false
set_option linter.unusedSimpArgs false
set_option linter.unusedVariables false
set_option linter.unnecessarySeqFocus false
set_option linter.unusedTactic false
set_option linter.unreachableTactic false
namespace Verif.Props
open Verif Verif.Var Verif.LinSolve Verif.LinSys Verif.Interp Verif.Geo

section pbord
variable {K : Type*} [Field K]

theorem foldl_setAt {α : Type*} (l : List Nat) (f : Nat → α) (a : Nat → α) (i : Nat) :
    l.foldl (fun a i => setAt a i (f i)) a i = if i ∈ l then f i else a i := writeList_apply l f a i

theorem pbordStep_face (d : Dom) (h : Heap K) (loc : Loc) (b : Boundary) (p : PBord K) (i : Nat) :
    (pbordStep d h loc b p).face i = if b.bctype = .dirichlet ∧ i ∈ d.faces loc then h.val b.valueface i else p.face i := by
  unfold pbordStep
  cases hb : b.bctype <;> simp [foldl_setAt, hb]

theorem pbordStep_node (d : Dom) (h : Heap K) (loc : Loc) (b : Boundary) (p : PBord K) (i : Nat) :
    (pbordStep d h loc b p).node i = if b.bctype = .dirichlet ∧ i ∈ d.nodes loc then h.val b.valuenode i
      else if b.bctype = .neumann ∧ i ∈ d.nodes loc then 1 else p.node i := by
  unfold pbordStep
  cases hb : b.bctype <;> simp [foldl_setAt, hb]

theorem pbord_fold (d : Dom) (hdj : DisjointLocs d) (v : VState K) (locs : List Loc) (hnd : locs.Nodup)
    (hb : ∀ loc ∈ locs, (v.bcs loc).isSome) (p0 : PBord K) :
    ∃ p, locs.foldlM (fun p loc => match v.bcs loc with
        | none => (.error .attributeError : Except PyErr (PBord K))
        | some b => .ok (pbordStep d v.heap loc b p)) p0 = .ok p ∧
      (∀ loc ∈ locs, ∀ b, v.bcs loc = some b → b.bctype = .dirichlet →
        (∀ i ∈ d.faces loc, p.face i = v.heap.val b.valueface i) ∧ (∀ n ∈ d.nodes loc, p.node n = v.heap.val b.valuenode n)) ∧
      (∀ loc ∈ locs, ∀ b, v.bcs loc = some b → b.bctype = .neumann → ∀ n ∈ d.nodes loc, p.node n = 1) ∧
      (∀ i, (∀ loc ∈ locs, i ∉ d.faces loc) → p.face i = p0.face i) ∧
      (∀ n, (∀ loc ∈ locs, n ∉ d.nodes loc) → p.node n = p0.node n) := by
  induction locs generalizing p0 with
  | nil => exact ⟨p0, rfl, by simp, by simp, fun _ _ => rfl, fun _ _ => rfl⟩
  | cons l rest ih =>
    obtain ⟨b, hbl⟩ := Option.isSome_iff_exists.1 (hb l (by simp))
    rw [List.nodup_cons] at hnd
    obtain ⟨p, hp, h1, h2, h3, h4⟩ := ih hnd.2 (fun loc hl => hb loc (by simp [hl])) (pbordStep d v.heap l b p0)
    have hlr : ∀ loc ∈ rest, l ≠ loc := fun loc hl e => hnd.1 (e ▸ hl)
    refine ⟨p, ?_, ?_, ?_, ?_, ?_⟩
    · rw [List.foldlM_cons, hbl]; exact hp
    · rintro loc hl b' hb' ht
      rcases List.mem_cons.1 hl with rfl | hl
      · rw [hbl] at hb'; cases hb'
        refine ⟨fun i hi => ?_, fun n hn => ?_⟩
        · rw [h3 i (fun loc' hl' => hdj.faces _ _ (hlr loc' hl') i hi), pbordStep_face, if_pos ⟨ht, hi⟩]
        · rw [h4 n (fun loc' hl' => hdj.nodes _ _ (hlr loc' hl') n hn), pbordStep_node, if_pos ⟨ht, hn⟩]
      · exact h1 loc hl b' hb' ht
    · rintro loc hl b' hb' ht n hn
      rcases List.mem_cons.1 hl with rfl | hl
      · rw [hbl] at hb'; cases hb'
        rw [h4 n (fun loc' hl' => hdj.nodes _ _ (hlr loc' hl') n hn), pbordStep_node, if_neg (by simp [ht]), if_pos ⟨ht, hn⟩]
      · exact h2 loc hl b' hb' ht n hn
    · intro i hi
      rw [h3 i (fun loc hl => hi loc (by simp [hl])), pbordStep_face, if_neg (fun h => hi l (by simp) h.2)]
    · intro n hn
      rw [h4 n (fun loc hl => hn loc (by simp [hl])), pbordStep_node, if_neg (fun h => hn l (by simp) h.2),
        if_neg (fun h => hn l (by simp) h.2)]

/-- **C49, C69, C72** (boundary data): for a variable created from a boundary dictionary (Dirichlet entries first, no slip, no unknown
names) the data a new linear system stores are: on each Dirichlet location the user's values, at the nodes of a Neumann location 1, 0
elsewhere.  `locs`: the keys of the dictionary in the order of `var.BCs`. -/
theorem C69_boundary_data_partial (d : Dom) (hok : DomOk d) (hdj : DisjointLocs d) (values : Loc → Option (Vals K))
    (BC : List (Loc × BCType)) (hnd : (BC.map Prod.fst).Nodup) (hdf : DirichletFirst BC)
    (hleg : ∀ e ∈ BC, LegalEntry d values e) (hslip : ∀ e ∈ BC, e.2 ≠ .slip) (hoth : ∀ e ∈ BC, e.2 ≠ .other)
    (locs : List Loc) (hperm : locs.Perm (BC.map Prod.fst)) :
    ∃ s p, mkVariable d BC values = .ok s ∧ pbordInit d locs s = .ok p ∧
      (∀ loc v, (loc, .dirichlet) ∈ BC → values loc = some v →
        (∀ i ∈ d.faces loc, p.face i = v.face i) ∧ (∀ n ∈ d.nodes loc, p.node n = v.node n)) ∧
      (∀ loc, (loc, .neumann) ∈ BC → ∀ n ∈ d.nodes loc, p.node n = 1) ∧
      (∀ i, (∀ loc ∈ locs, i ∉ d.faces loc) → p.face i = 0) ∧ (∀ n, (∀ loc ∈ locs, n ∉ d.nodes loc) → p.node n = 0) := by
  obtain ⟨s, hs, inv⟩ := build_ok d hok hdj values BC hnd hdf hleg hslip
  have hb : ∀ loc ∈ locs, (s.bcs loc).isSome := by
    intro loc hl
    obtain ⟨⟨l, t⟩, he, rfl⟩ := List.mem_map.1 (hperm.mem_iff.1 hl)
    cases t with
    | slip => exact absurd rfl (hslip _ he)
    | other => exact absurd rfl (hoth _ he)
    | dirichlet => simp [(inv.dirichlet l he).1]
    | neumann => simp [inv.neumann l _ (.inl rfl) he]
    | nonslip => simp [inv.neumann l _ (.inr rfl) he]
    | periodic => simp [inv.periodic l he]
  obtain ⟨p, hp, h1, h2, h3, h4⟩ := pbord_fold d hdj s locs (hperm.nodup_iff.2 hnd) hb pbordZero
  refine ⟨s, p, hs, hp, ?_, ?_, h3, h4⟩
  · intro loc v hl hv
    have hm : loc ∈ locs := hperm.mem_iff.2 (List.mem_map.2 ⟨_, hl, rfl⟩)
    have a := inv.dirichlet loc hl
    have b := h1 loc hm _ a.1 rfl
    exact ⟨fun i hi => (b.1 i hi).trans ((a.2 v hv).1 i hi), fun n hn => (b.2 n hn).trans ((a.2 v hv).2 n hn)⟩
  · intro loc hl
    exact h2 loc (hperm.mem_iff.2 (List.mem_map.2 ⟨_, hl, rfl⟩)) _ (inv.neumann loc _ (.inl rfl) hl) rfl

/-- **C69** (partial): as long as no variable and no other system is created on the domain, the boundary data of the last system stay
what that system stored, whatever else is done. -/
theorem C69_history_partial (d : Dom) (locs : List Loc) (v : VState K) (p0 p : PBord K) (n : Nat) (h : pbordInit d locs v = .ok p) :
    (Creation.system locs v :: List.replicate n .use).foldlM (create d) p0 = .ok p := by
  rw [List.foldlM_cons]
  show ((pbordInit d locs v).bind fun p => List.foldlM (create d) p (List.replicate n .use)) = .ok p
  rw [h]
  show List.foldlM (create d) p (List.replicate n .use) = .ok p
  induction n with
  | zero => rfl
  | succ n ih => rw [List.replicate_succ, List.foldlM_cons]; exact ih

/-- **C69** fails: whatever data a system has stored, creating a variable (or evaluating `a + b`) on the domain afterwards replaces them by zeros. -/
theorem C69_variable_resets (d : Dom) (h : List (Creation K)) (p0 p : PBord K) (hh : h.foldlM (create d) p0 = .ok p) :
    (h ++ [Creation.variable]).foldlM (create d) p0 = .ok pbordZero := by
  rw [List.foldlM_append, hh]; rfl
end pbord

/-! ## C49 from the boundary dictionary -/
section user
variable {K : Type*} [Field K] [LinearOrder K] [IsStrictOrderedRing K]

theorem mem_bcLists_dirichlet (d : Dom) (BC : List (Loc × BCType)) :
    (∀ t, t ∈ (bcLists d BC).1 ↔ ∃ loc, (loc, BCType.dirichlet) ∈ BC ∧ d.typeindex loc = t) ∧
    (∀ i, i ∈ (bcLists d BC).2.2.1 ↔ ∃ loc, (loc, BCType.dirichlet) ∈ BC ∧ i ∈ d.faces loc) := by
  unfold bcLists
  induction BC using List.reverseRecOn with
  | nil => simp
  | append_singleton l e ih =>
    rw [List.foldl_append]
    obtain ⟨loc, t⟩ := e
    constructor <;> intro x <;> cases t <;> simp [ih.1, ih.2] <;> grind

/-- **C49** (2D, from the user's dictionary): if every Dirichlet value of the boundary dictionary is the constant `a`, the constant
vector `a` solves the system that `LinearSystem(domain, var)` assembles.  `M` is the mesh of the domain `d`: its vertex labels are those
of the domain, the Dirichlet faces of the assembly are those of the dictionary. -/
theorem C49_user_2d (d : Dom) (hok : DomOk d) (hdj : DisjointLocs d) (values : Loc → Option (Vals K))
    (BC : List (Loc × BCType)) (hnd : (BC.map Prod.fst).Nodup) (hdf : DirichletFirst BC)
    (hleg : ∀ e ∈ BC, LegalEntry d values e) (hslip : ∀ e ∈ BC, e.2 ≠ .slip) (hoth : ∀ e ∈ BC, e.2 ≠ .other)
    (locs : List Loc) (hperm : locs.Perm (BC.map Prod.fst)) (a : K)
    (ha : ∀ loc v, (loc, .dirichlet) ∈ BC → values loc = some v → (∀ i, v.face i = a) ∧ (∀ n, v.node n = a))
    (M : Mesh K) (L : Lists) (n : Nat) (hM : Ok 2 M L n)
    (hlab : ∀ i ∈ L.inner ++ L.halo, ∀ j < 2, ∀ loc, M.oldnamen (M.F.nodeid i j) = d.typeindex loc → M.F.nodeid i j ∈ d.nodes loc)
    (hwp : ∀ i ∈ L.inner ++ L.halo, ∀ j < 2, WellPosed 2 M (M.F.nodeid i j))
    (hL : ∀ i, i ∈ L.dirichlet ↔ i ∈ (bcLists d BC).2.2.1) (horth : ∀ i ∈ L.dirichlet, Orthogonal2 M.F i) :
    ∃ s p, mkVariable d BC values = .ok s ∧ pbordInit d locs s = .ok p ∧ ∀ c < n,
      applyT (getTriplet2 M (bcLists d BC).1 L) (fun _ => a) (M.loctoglob c)
        = getRhsGlob2 M (bcLists d BC).1 L p.node p.face (fun _ => 0) (M.loctoglob c) := by
  obtain ⟨s, p, hs, hp, h1, -, -, -⟩ := C69_boundary_data_partial d hok hdj values BC hnd hdf hleg hslip hoth locs hperm
  refine ⟨s, p, hs, hp, fun c hc => C49_constant_2d M _ L p.node p.face a n hM hwp ?_ ?_ c hc⟩
  · intro i hi j hj hmem
    obtain ⟨loc, hl, ht⟩ := ((mem_bcLists_dirichlet d BC).1 _).1 hmem
    obtain ⟨v, hv⟩ := Option.isSome_iff_exists.1 ((hleg _ hl).2 rfl)
    rw [(h1 loc v hl hv).2 _ (hlab i hi j hj loc ht.symm)]
    exact (ha loc v hl hv).2 _
  · intro i hi
    refine ⟨?_, horth i hi⟩
    obtain ⟨loc, hl, hf⟩ := ((mem_bcLists_dirichlet d BC).2 _).1 ((hL i).1 hi)
    obtain ⟨v, hv⟩ := Option.isSome_iff_exists.1 ((hleg _ hl).2 rfl)
    rw [(h1 loc v hl hv).1 _ hf]
    exact (ha loc v hl hv).1 _

/-- **C49** (3D without periodic boundaries, from the user's dictionary). -/
theorem C49_user_3d_partial (d : Dom) (hok : DomOk d) (hdj : DisjointLocs d) (values : Loc → Option (Vals K))
    (BC : List (Loc × BCType)) (hnd : (BC.map Prod.fst).Nodup) (hdf : DirichletFirst BC)
    (hleg : ∀ e ∈ BC, LegalEntry d values e) (hslip : ∀ e ∈ BC, e.2 ≠ .slip) (hoth : ∀ e ∈ BC, e.2 ≠ .other)
    (locs : List Loc) (hperm : locs.Perm (BC.map Prod.fst)) (a : K)
    (ha : ∀ loc v, (loc, .dirichlet) ∈ BC → values loc = some v → (∀ i, v.face i = a) ∧ (∀ n, v.node n = a))
    (M : Mesh K) (L : Lists) (n : Nat) (hM : Ok 3 M L n) (hper : ∀ i ∈ L.inner, ∀ j < 3, M.T.periodicn (M.F.nodeid i j) = [])
    (hlab : ∀ i ∈ L.inner ++ L.halo, ∀ j < 3, ∀ loc, M.oldnamen (M.F.nodeid i j) = d.typeindex loc → M.F.nodeid i j ∈ d.nodes loc)
    (hwp : ∀ i ∈ L.inner ++ L.halo, ∀ j < 3, WellPosed 3 M (M.F.nodeid i j))
    (hL : ∀ i, i ∈ L.dirichlet ↔ i ∈ (bcLists d BC).2.2.1) (horth : ∀ i ∈ L.dirichlet, Orthogonal3 M.F i) :
    ∃ s p, mkVariable d BC values = .ok s ∧ pbordInit d locs s = .ok p ∧ ∀ c < n,
      applyT (getTriplet3 M (bcLists d BC).1 L).out (fun _ => a) (M.loctoglob c)
        = getRhsGlob3 M (bcLists d BC).1 L p.node p.face (fun _ => 0) (M.loctoglob c) := by
  obtain ⟨s, p, hs, hp, h1, -, -, -⟩ := C69_boundary_data_partial d hok hdj values BC hnd hdf hleg hslip hoth locs hperm
  refine ⟨s, p, hs, hp, fun c hc => C49_constant_3d_partial M _ L p.node p.face a n hM hper hwp ?_ ?_ c hc⟩
  · intro i hi j hj hmem
    obtain ⟨loc, hl, ht⟩ := ((mem_bcLists_dirichlet d BC).1 _).1 hmem
    obtain ⟨v, hv⟩ := Option.isSome_iff_exists.1 ((hleg _ hl).2 rfl)
    rw [(h1 loc v hl hv).2 _ (hlab i hi j hj loc ht.symm)]
    exact (ha loc v hl hv).2 _
  · intro i hi
    refine ⟨?_, horth i hi⟩
    obtain ⟨loc, hl, hf⟩ := ((mem_bcLists_dirichlet d BC).2 _).1 ((hL i).1 hi)
    obtain ⟨v, hv⟩ := Option.isSome_iff_exists.1 ((hleg _ hl).2 rfl)
    rw [(h1 loc v hl hv).1 _ hf]
    exact (ha loc v hl hv).1 _

/-! ## C72: gradient of a constant -/

/-- **C72** (2D, partial): the computed field of the constant `a` is zero on a face if the Dirichlet data are `a` on that face and at those
of its vertices which use them; for a Dirichlet face this is *every* vertex, also one which carries the label of another boundary. -/
theorem C72_constant_field_2d_partial (F : FaceTabs K) (L : FaceLists) (a : K) (w : Fields K) (hw : w = ⟨fun _ => a, fun _ => a, fun _ => a, fun _ => a⟩)
    (P_node Pbordnode Pbordface : Nat → K) (oldname : Nat → Int) (BCdirichlet : List Int) (out : Nat → K × K) (i : Nat) (kind : FaceKind)
    (hk : L.HasKind i kind) (hair : (faceGradientInfo2 F i).airDiamond ≠ 0)
    (hnode : ∀ j < 2, P_node (F.nodeid i j) = a) (hdn : ∀ j < 2, oldname (F.nodeid i j) ∈ BCdirichlet → Pbordnode (F.nodeid i j) = a)
    (hdf : kind = .dirichlet → Pbordface i = a ∧ ∀ j < 2, Pbordnode (F.nodeid i j) = a) :
    computePGradient2 F L w P_node Pbordnode Pbordface oldname BCdirichlet out i = (0, 0) := by
  subst hw
  simp only [computePGradient2, writeList_apply]
  have n0 := hnode 0 (by omega); have n1 := hnode 1 (by omega)
  have d0 := hdn 0 (by omega); have d1 := hdn 1 (by omega)
  have v0 : nodeValue P_node Pbordnode oldname BCdirichlet (F.nodeid i 0) = a := by unfold nodeValue; split_ifs with h; exacts [d0 h, n0]
  have v1 : nodeValue P_node Pbordnode oldname BCdirichlet (F.nodeid i 1) = a := by unfold nodeValue; split_ifs with h; exacts [d1 h, n1]
  have hz : ∀ k, (faceGradientInfo2 F i).f_1 k + (faceGradientInfo2 F i).f_2 k + (faceGradientInfo2 F i).f_3 k + (faceGradientInfo2 F i).f_4 k = 0 := by
    intro k; simp only [faceGradientInfo2]; ring
  have key : ∀ k, (a + a) * (faceGradientInfo2 F i).f_1 k + (a + a) * (faceGradientInfo2 F i).f_2 k + (a + a) * (faceGradientInfo2 F i).f_3 k
      + (a + a) * (faceGradientInfo2 F i).f_4 k = 0 := by intro k; linear_combination (a + a) * hz k
  have h2a : 2 * a - a = a := by ring
  cases kind <;> obtain ⟨h1, h2, h3, h4, h5⟩ := hk <;> simp only [h1, h2, h3, h4, h5, if_true, if_false, v0, v1, key, mul_zero]
  obtain ⟨hf, hn⟩ := hdf rfl
  rw [hf, hn 0 (by omega), hn 1 (by omega), h2a]
  simp only [key, mul_zero]

/-- **C72** (3D, partial). -/
theorem C72_constant_field_3d_partial (F : FaceTabs K) (L : FaceLists) (a : K) (w : Fields K) (hw : w = ⟨fun _ => a, fun _ => a, fun _ => a, fun _ => a⟩)
    (P_node Pbordnode Pbordface : Nat → K) (oldname : Nat → Int) (BCdirichlet : List Int) (out : Nat → Vec K) (i : Nat) (kind : FaceKind)
    (hk : L.HasKind i kind)
    (hnode : ∀ j < 3, P_node (F.nodeid i j) = a) (hdn : ∀ j < 3, oldname (F.nodeid i j) ∈ BCdirichlet → Pbordnode (F.nodeid i j) = a)
    (hdf : kind = .dirichlet → Pbordface i = a ∧ ∀ j < 3, Pbordnode (F.nodeid i j) = a) (k : Nat) :
    computePGradient3 F L w P_node Pbordnode Pbordface oldname BCdirichlet out i k = 0 := by
  subst hw
  simp only [computePGradient3, writeList_apply]
  have v : ∀ j < 3, nodeValue P_node Pbordnode oldname BCdirichlet (F.nodeid i j) = a := by
    intro j hj; unfold nodeValue; split_ifs with h; exacts [hdn j hj h, hnode j hj]
  have v0 := v 0 (by omega); have v1 := v 1 (by omega); have v2 := v 2 (by omega)
  have h2a : 2 * a - a = a := by ring
  cases kind <;> obtain ⟨h1, h2, h3, h4, h5⟩ := hk <;> simp only [h1, h2, h3, h4, h5, if_true, if_false, v0, v1, v2, sub_self, mul_zero, add_zero, zero_div]
  obtain ⟨hf, hn⟩ := hdf rfl
  rw [hf, hn 0 (by omega), hn 1 (by omega), hn 2 (by omega), h2a]
  simp

/-- **C72** (2D, partial, from the user's dictionary): a constant potential gives a zero field on every face, if the Dirichlet values are
that constant and every vertex of a Dirichlet face carries a Dirichlet label. -/
theorem C72_user_2d_partial (d : Dom) (hok : DomOk d) (hdj : DisjointLocs d) (values : Loc → Option (Vals K))
    (BC : List (Loc × BCType)) (hnd : (BC.map Prod.fst).Nodup) (hdf : DirichletFirst BC)
    (hleg : ∀ e ∈ BC, LegalEntry d values e) (hslip : ∀ e ∈ BC, e.2 ≠ .slip) (hoth : ∀ e ∈ BC, e.2 ≠ .other)
    (locs : List Loc) (hperm : locs.Perm (BC.map Prod.fst)) (a : K)
    (ha : ∀ loc v, (loc, .dirichlet) ∈ BC → values loc = some v → (∀ i, v.face i = a) ∧ (∀ n, v.node n = a))
    (M : Mesh K) (L : FaceLists) (hL : ∀ i, i ∈ L.dirichlet ↔ i ∈ (bcLists d BC).2.2.1)
    (hlab : ∀ n loc, M.oldnamen n = d.typeindex loc → n ∈ d.nodes loc)
    (hcorner : ∀ i ∈ L.dirichlet, ∀ j < 2, M.oldnamen (M.F.nodeid i j) ∈ (bcLists d BC).1)
    (i : Nat) (kind : FaceKind) (hk : L.HasKind i kind) (hair : (faceGradientInfo2 M.F i).airDiamond ≠ 0)
    (hwp : ∀ j < 2, WellPosed 2 M (M.F.nodeid i j)) (out : Nat → K × K) :
    ∃ s p, mkVariable d BC values = .ok s ∧ pbordInit d locs s = .ok p ∧
      (let w : Fields K := ⟨fun _ => a, fun _ => a, fun _ => a, fun _ => a⟩
       computePGradient2 M.F L w (centertovertex2 M.T w) p.node p.face M.oldnamen (bcLists d BC).1 out i = (0, 0)) := by
  obtain ⟨s, p, hs, hp, h1, -, -, -⟩ := C69_boundary_data_partial d hok hdj values BC hnd hdf hleg hslip hoth locs hperm
  have hn : ∀ n, M.oldnamen n ∈ (bcLists d BC).1 → p.node n = a := by
    intro n hmem
    obtain ⟨loc, hl, ht⟩ := ((mem_bcLists_dirichlet d BC).1 _).1 hmem
    obtain ⟨v, hv⟩ := Option.isSome_iff_exists.1 ((hleg _ hl).2 rfl)
    rw [(h1 loc v hl hv).2 _ (hlab n loc ht.symm)]
    exact (ha loc v hl hv).2 _
  refine ⟨s, p, hs, hp, C72_constant_field_2d_partial M.F L a _ rfl _ p.node p.face _ _ out i kind hk hair
    (fun j hj => vertex_const2 M a _ (hwp j hj)) (fun j _ h => hn _ h) ?_⟩
  rintro rfl
  have hi : i ∈ L.dirichlet := hk.1
  refine ⟨?_, fun j hj => hn _ (hcorner i hi j hj)⟩
  obtain ⟨loc, hl, hf⟩ := ((mem_bcLists_dirichlet d BC).2 _).1 ((hL i).1 hi)
  obtain ⟨v, hv⟩ := Option.isSome_iff_exists.1 ((hleg _ hl).2 rfl)
  rw [(h1 loc v hl hv).1 _ hf]
  exact (ha loc v hl hv).1 _
end user

/-! ## The domain built by a rank -/

theorem mem_facesNamed (name : Nat → Int) (nb : Nat) (k : Int) (i : Nat) : i ∈ facesNamed name nb k ↔ i < nb ∧ name i = k := by
  simp [facesNamed]

theorem facesNamed_length (name : Nat → Int) (nb : Nat) (k : Int) : (facesNamed name nb k).length ≠ 0 ↔ ∃ i < nb, name i = k := by
  rw [ne_eq, List.length_eq_zero_iff, facesNamed, List.filter_eq_nil_iff]
  simp

theorem domBCs_inj (name : Nat → Int) (nb : Nat) (a b : Loc) (h : a ≠ b) : (domBCs name nb a).2 ≠ (domBCs name nb b).2 := by
  rcases a with _ | _ | _ | _ | _ | _ | a <;> rcases b with _ | _ | _ | _ | _ | _ | b <;>
    first
    | exact absurd rfl h
    | (have h' : ¬ (a = b) := fun e => h (by rw [e])
       simp only [domBCs]; push_cast; omega)
    | (simp only [domBCs]; split_ifs <;> push_cast <;> simp <;> (first | done | omega))

theorem locFaces_inj (name : Nat → Int) (nb : Nat) (a b : Loc) (h : a ≠ b) (i : Nat) (hi : i ∈ locFaces name nb a) : i ∉ locFaces name nb b := by
  rcases a with _ | _ | _ | _ | _ | _ | a <;> rcases b with _ | _ | _ | _ | _ | _ | b <;>
    first
    | exact absurd rfl h
    | (have h' : ¬ (a = b) := fun e => h (by rw [e])
       simp only [locFaces, mem_facesNamed] at hi ⊢; push_cast at hi ⊢; omega)
    | (simp only [locFaces, mem_facesNamed] at hi ⊢; push_cast at hi ⊢; omega)

/-- The domains ranks build satisfy the hypotheses of the theorems on variables, if the halo-ghost slots are inside their array. -/
theorem domOf_ok (nbfaces nbcells nbnodes nbhalos size : Nat) (name oldname : Nat → Int) (slots : Nat → List Int) (cellid0 : Nat → Nat)
    (table : Nat → List HG) (halonodes : List Nat) (hs : ∀ n < nbnodes, ∀ c ∈ slots n, c ≠ -1 → c.toNat < size) :
    let d := domOf nbfaces nbcells nbnodes nbhalos size name oldname slots cellid0 table halonodes
    DomOk d ∧ DisjointLocs d := by
  intro d
  refine ⟨⟨?_, ?_, ?_⟩, ⟨?_, ?_⟩⟩
  · intro loc i hi; exact ((mem_facesNamed _ _ _ _).1 hi).1
  · intro loc i hi; exact List.mem_range.1 (List.mem_filter.1 hi).1
  · intro loc i hi; exact hs i (List.mem_range.1 (List.mem_filter.1 hi).1)
  · intro a b h i hi; exact locFaces_inj name nbfaces a b h i hi
  · intro a b h i hi hi'
    have h1 := (List.mem_filter.1 hi).2
    have h2 := (List.mem_filter.1 hi').2
    simp only [decide_eq_true_eq] at h1 h2
    exact domBCs_inj name nbfaces a b h (h1.symm.trans h2)

/-- **C70** (partial): the faces of the locations in, out, bottom, upper, front, back are those with the labels 1, 2, 4, 3, 5, 6, and so are the nodes of a location
the rank does not take for periodic. -/
theorem C70_locations_partial (nbfaces nbcells nbnodes nbhalos size : Nat) (name oldname : Nat → Int) (slots : Nat → List Int) (cellid0 : Nat → Nat)
    (table : Nat → List HG) (halonodes : List Nat) (loc : Loc) (hloc : loc < 6) :
    let d := domOf nbfaces nbcells nbnodes nbhalos size name oldname slots cellid0 table halonodes
    (∀ i, i ∈ d.faces loc ↔ i < nbfaces ∧ name i = [1, 2, 4, 3, 5, 6].getD loc 0) ∧
    (d.isPeriodic loc = false → ∀ i, i ∈ d.nodes loc ↔ i < nbnodes ∧ oldname i = [1, 2, 4, 3, 5, 6].getD loc 0) := by
  intro d
  refine ⟨fun i => ?_, fun hp i => ?_⟩
  · show i ∈ locFaces name nbfaces loc ↔ _
    rcases loc with _ | _ | _ | _ | _ | _ | l <;> first | (exfalso; revert hloc; simp; done) | (simp only [locFaces, mem_facesNamed]; rfl)
  · have e : d.isPeriodic loc = (domBCs name nbfaces loc).1 := rfl
    rw [e] at hp
    show i ∈ (List.range nbnodes).filter (fun n => oldname n = (domBCs name nbfaces loc).2) ↔ _
    rw [List.mem_filter, List.mem_range, decide_eq_true_iff]
    rcases loc with _ | _ | _ | _ | _ | _ | l <;> first | (exfalso; revert hloc; simp; done) | (simp only [domBCs] at hp ⊢; split_ifs at hp ⊢ <;> first | rfl | (exact absurd hp (by simp)))

/-- **C70** (partial): a rank accepts "periodic" for `in`/`out` (`bottom`/`upper`, `front`/`back`) exactly if it owns a face with label
11 (33, 55). -/
theorem C70_periodic_partial (nbfaces nbcells nbnodes nbhalos size : Nat) (name oldname : Nat → Int) (slots : Nat → List Int) (cellid0 : Nat → Nat)
    (table : Nat → List HG) (halonodes : List Nat) (loc : Loc) (hloc : loc < 6) :
    let d := domOf nbfaces nbcells nbnodes nbhalos size name oldname slots cellid0 table halonodes
    d.isPeriodic loc = true ↔ ∃ i < nbfaces, name i = (if loc < 2 then 11 else if loc < 4 then 33 else 55) := by
  intro d
  have e : d.isPeriodic loc = (domBCs name nbfaces loc).1 := rfl
  rw [e]
  have h : ∀ k, (∃ i < nbfaces, name i = k) ↔ decide ((facesNamed name nbfaces k).length ≠ 0) = true := by
    intro k; rw [decide_eq_true_iff, facesNamed_length]
  rw [h]
  rcases loc with _ | _ | _ | _ | _ | _ | l <;> first | (exfalso; revert hloc; simp; done) | (simp only [domBCs]; norm_num; try (split_ifs <;> simp_all))

/-- **C70** (partial): on a mesh periodic in `x` only, every rank that owns faces 11 accepts the dictionary. -/
theorem C70_accepted_partial {K : Type*} [Zero K] (nbfaces nbcells nbnodes nbhalos size : Nat) (name oldname : Nat → Int) (slots : Nat → List Int)
    (cellid0 : Nat → Nat) (table : Nat → List HG) (halonodes : List Nat) (hs : ∀ n < nbnodes, ∀ c ∈ slots n, c ≠ -1 → c.toNat < size)
    (h11 : ∃ i < nbfaces, name i = 11) (h33 : ∀ i < nbfaces, name i ≠ 33) (values : Loc → Option (Vals K)) :
    let d := domOf nbfaces nbcells nbnodes nbhalos size name oldname slots cellid0 table halonodes
    ∃ s, mkVariable d [(0, .periodic), (1, .periodic), (2, .neumann), (3, .neumann)] values = .ok s := by
  intro d
  have hd := domOf_ok nbfaces nbcells nbnodes nbhalos size name oldname slots cellid0 table halonodes hs
  have hp := fun loc hloc => C70_periodic_partial nbfaces nbcells nbnodes nbhalos size name oldname slots cellid0 table halonodes loc hloc
  have p0 := (hp 0 (by decide)).2 (by simpa using h11)
  have p1 := (hp 1 (by decide)).2 (by simpa using h11)
  have p2 : ¬ d.isPeriodic 2 = true := fun h => by
    obtain ⟨i, hi, hn⟩ := (hp 2 (by decide)).1 h; exact h33 i hi (by simpa using hn)
  have p3 : ¬ d.isPeriodic 3 = true := fun h => by
    obtain ⟨i, hi, hn⟩ := (hp 3 (by decide)).1 h; exact h33 i hi (by simpa using hn)
  obtain ⟨s, hs, -⟩ := build_ok d hd.1 hd.2 values [(0, .periodic), (1, .periodic), (2, .neumann), (3, .neumann)] (by decide) (by decide)
    (by
      intro e he
      simp only [List.mem_cons, List.not_mem_nil, or_false] at he
      rcases he with rfl | rfl | rfl | rfl
      · exact ⟨⟨fun _ => p0, fun _ => rfl⟩, by simp⟩
      · exact ⟨⟨fun _ => p1, fun _ => rfl⟩, by simp⟩
      · exact ⟨⟨fun h => by simp at h, fun h => absurd h p2⟩, by simp⟩
      · exact ⟨⟨fun h => by simp at h, fun h => absurd h p3⟩, by simp⟩)
    (by decide)
  exact ⟨s, hs⟩

/-! ## Examples and counter-examples -/

/-- The unit square cut into two cells, boundary faces 11 (left), 22 (right), 4 and 3: the two ranks of a partition into left and right
half see these names. -/
def perNames : Nat → Nat → Int
  | 0, 0 => 11 | 0, 1 => 10 | 0, 2 => 4 | 0, _ => 3
  | _, 0 => 10 | _, 1 => 22 | _, 2 => 4 | _, _ => 3

def perDom (rank : Nat) : Dom := domOf 4 1 4 1 0 (perNames rank) (fun _ => 0) (fun _ => []) (fun _ => 0) (fun _ => []) []

def perBC : List (Loc × BCType) := [(0, .periodic), (1, .periodic), (2, .neumann), (3, .neumann)]

/-- **C70** fails: the mesh is periodic in `x`, rank 0 accepts the periodic dictionary and rank 1, which owns no face with label 11, raises
`ValueError`; rank 1 accepts only a dictionary which rank 0 refuses. -/
theorem C70_counterexample (values : Loc → Option (Vals ℚ)) :
    ((mkVariable (perDom 0) perBC values).map (fun _ => ()) = .ok ()) ∧
    ((mkVariable (perDom 1) perBC values).map (fun _ => ()) = .error .valueError) ∧
    ∀ BC : List (Loc × BCType), (∃ t, (0, t) ∈ BC) →
      ¬ ((mkVariable (perDom 0) BC values).isOk ∧ (mkVariable (perDom 1) BC values).isOk) := by
  refine ⟨rfl, rfl, ?_⟩
  rintro BC ⟨t, ht⟩ ⟨h0, h1⟩
  cases e0 : mkVariable (perDom 0) BC values with
  | error e => rw [e0] at h0; simp [Except.isOk, Except.toBool] at h0
  | ok s0 =>
    cases e1 : mkVariable (perDom 1) BC values with
    | error e => rw [e1] at h1; simp [Except.isOk, Except.toBool] at h1
    | ok s1 =>
      have l0 := (C33_legal_of_ok _ _ _ _ e0 _ ht).1
      have l1 := (C33_legal_of_ok _ _ _ _ e1 _ ht).1
      have a0 : (perDom 0).isPeriodic 0 = true := by decide
      have a1 : (perDom 1).isPeriodic 0 = false := by decide
      have := l1.1 (l0.2 a0)
      simp [a1] at this

/-- The domain of `sqMesh`. -/
def sqDom : Dom := domOf 5 2 4 0 0 sqMesh.F.name sqMesh.oldnamen (fun _ => []) sqMesh.F.cellid0 (fun _ => []) []

def sqVals (a : ℚ) : Loc → Option (Vals ℚ) := fun _ => some ⟨fun _ => a, fun _ => a, fun _ _ => a⟩

/-- The field of the constant potential 5 on face `i`, for boundary data `p`. -/
def sqField (BC : List (Loc × BCType)) (dir neu : List Nat) (p : PBord ℚ) (i : Nat) : ℚ × ℚ :=
  let w : Fields ℚ := ⟨fun _ => 5, fun _ => 5, fun _ => 5, fun _ => 5⟩
  computePGradient2 sqMesh.F ⟨[0], [], dir, neu, []⟩ w (centertovertex2 sqMesh.T w) p.node p.face sqMesh.oldnamen
    (bcLists sqDom BC).1 (fun _ => (0, 0)) i

def sqAll : List (Loc × BCType) := [(0, .dirichlet), (1, .dirichlet), (2, .dirichlet), (3, .dirichlet)]
def sqMixed : List (Loc × BCType) := [(1, .dirichlet), (0, .neumann), (2, .neumann), (3, .neumann)]

/-- Non-vacuity of C72/C69: Dirichlet value 5 everywhere, the field of the constant 5 is zero on all faces. -/
example : ((mkVariable sqDom sqAll (sqVals 5)).bind (fun s => (pbordInit sqDom [0, 1, 2, 3] s).map (fun p =>
    (List.range 5).map (sqField sqAll [1, 2, 3, 4] [] p)))) = .ok [(0, 0), (0, 0), (0, 0), (0, 0), (0, 0)] := by decide +kernel

example : DomOk sqDom ∧ DisjointLocs sqDom := domOf_ok _ _ _ _ _ _ _ _ _ _ _ (by simp)
example : DirichletFirst sqMixed ∧ (sqMixed.map Prod.fst).Nodup := by decide

/-- Non-vacuity of C49 (user): the mixed dictionary; the constant 5 solves the system. -/
example : ((mkVariable sqDom sqMixed (sqVals 5)).bind (fun s => (pbordInit sqDom [0, 1, 2, 3] s).map (fun p =>
    (List.range 2).map (fun c => applyT (getTriplet2 sqMesh (bcLists sqDom sqMixed).1 ⟨[0], [], [2, 3, 4]⟩) (fun _ => 5) c
      - getRhsGlob2 sqMesh (bcLists sqDom sqMixed).1 ⟨[0], [], [2, 3, 4]⟩ p.node p.face (fun _ => 0) c)))) = .ok [0, 0] := by decide +kernel

/-- **C72** fails at corners: Dirichlet value 5 on `out` (faces 2, 3, 4), Neumann on the others; vertex 1 of face 2 carries the label of
`in`, its boundary datum is the marker 1, and the field of the constant solution 5 on face 2 is not zero. -/
theorem C72_counterexample : ((mkVariable sqDom sqMixed (sqVals 5)).bind (fun s => (pbordInit sqDom [0, 1, 2, 3] s).map (fun p =>
    (p.face 2, p.node 1, p.node 2, decide (sqField sqMixed [2, 3, 4] [1] p 2 = (0, 0)))))) = .ok (5, 1, 5, false) := by decide +kernel

/-- **C69** fails: the system's field of the constant 5 is zero (example above); after another variable has been created on the domain it is not. -/
theorem C69_counterexample : ((mkVariable sqDom sqAll (sqVals 5)).bind (fun s =>
    ([Creation.system [0, 1, 2, 3] s, .use, .variable, .use].foldlM (create sqDom) pbordZero).map (fun p =>
      decide (sqField sqAll [1, 2, 3, 4] [] p 1 = (0, 0))))) = .ok false := by decide +kernel

end Verif.Props
