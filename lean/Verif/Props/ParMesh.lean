import Verif.Props.ParRank
import Verif.Props.Conn
import Verif.Props.Names

/-! Helper lemmas for the parallel theorems: from the tables as built by the Domain (faces, names, halo marks) and the renumbering of
cells and nodes to the facts used by `rank_balance`; valid in 2D and 3D. -/
set_option linter.unusedSectionVars false
set_option linter.unusedVariables false
set_option linter.unusedSimpArgs false
namespace Verif.Props.Par
open Verif.Fvm Verif.Spec Verif.Conn Verif.Dom Verif.Geo Verif.Names
variable {K : Type*} [Field K] [LinearOrder K] [IsStrictOrderedRing K]

/-- Some external halo cell has the face with (local) nodes `face`. -/
def Foreign (dim : Nat) (ext : List (List Nat)) (g : Nat → Nat) (face : List Nat) : Prop :=
  ∃ row ∈ ext, IsSide dim row.tail (face.map g)

/-- What the set-up of a Domain establishes about its connectivity and naming tables. -/
structure Built (D : Tables K) (d1 dim : Nat) (side : Nat → Nat → List Nat) (F : List (List Nat)) (nm : Nat → Int) (B : List Int)
    (ext : List (List Nat)) (g : Nat → Nat) : Prop where
  faces : FacesSpec D.nbcells d1 side F D.faceid
  nb : D.nbfaces = F.length
  cell0 : ∀ f < D.nbfaces, D.cellid f 0 = (twoOf (users D.faceid d1 D.nbcells f)).1
  cell1 : ∀ f < D.nbfaces, ¬ Foreign dim ext g (F.getD f []) → D.cellid f 1 = (twoOf (users D.faceid d1 D.nbcells f)).2
  two : ∀ f < D.nbfaces, ¬ Foreign dim ext g (F.getD f []) → (users D.faceid d1 D.nbcells f).length ≠ 1 → D.name f = 0
  one : ∀ f < D.nbfaces, ¬ Foreign dim ext g (F.getD f []) → (users D.faceid d1 D.nbcells f).length = 1 → D.name f = nm f
  foreign : ∀ f < D.nbfaces, Foreign dim ext g (F.getD f []) → D.name f = 10 ∧
    ∃ row, ext[D.halofid f]? = some row ∧ IsSide dim row.tail ((F.getD f []).map g)
  inner : D.innerfaces.Nodup ∧ ∀ f, f ∈ D.innerfaces ↔ f < D.nbfaces ∧ D.name f = 0
  halo : D.halofaces.Nodup ∧ ∀ f, f ∈ D.halofaces ↔ f < D.nbfaces ∧ D.name f = 10
  bnd : D.boundaryfaces.Nodup ∧ ∀ f, f ∈ D.boundaryfaces ↔ f < D.nbfaces ∧ D.name f ∈ B
  per : ∀ f, f ∈ D.periodicboundaryfaces → f < D.nbfaces ∧ D.name f ∉ B ∧ D.name f ≠ 0 ∧ D.name f ≠ 10

theorem facesSpec_surj {n d1 : Nat} {side : Nat → Nat → List Nat} {F : List (List Nat)} {fid : Nat → Nat → Nat}
    (h : FacesSpec n d1 side F fid) {f : Nat} (hf : f < F.length) : ∃ c < n, ∃ j < d1, fid c j = f := by
  obtain ⟨hn, hu, hr, hfi⟩ := h
  obtain ⟨_, i, hi, j, hj, hp⟩ := hr _ (List.getElem_mem hf)
  obtain ⟨hlt, hp'⟩ := hfi i hi j hj
  rw [List.getD_eq_getElem _ _ hlt] at hp'
  refine ⟨i, hi, j, hj, ?_⟩
  have := hu _ (List.getElem_mem hlt) _ (List.getElem_mem hf) (hp'.trans hp.symm)
  exact (List.Nodup.getElem_inj_iff hn).mp this

theorem perm_map_inj {l l' : List Nat} (g : Nat → Nat) (hinj : ∀ x ∈ l, ∀ y ∈ l', g x = g y → x = y)
    (hl : ∀ x ∈ l, ∀ y ∈ l, g x = g y → x = y) : (l.map g).Perm (l'.map g) ↔ l.Perm l' := by
  constructor
  · intro h
    classical
    -- a left inverse of `g` on `l`
    let r : Nat → Nat := fun y => if hy : ∃ x ∈ l, g x = y then hy.choose else 0
    have hr : ∀ x ∈ l, r (g x) = x := by
      intro x hx
      have hy : ∃ x' ∈ l, g x' = g x := ⟨x, hx, rfl⟩
      simp only [r, dif_pos hy]
      exact hl _ hy.choose_spec.1 _ hx hy.choose_spec.2
    have hr' : ∀ y ∈ l', r (g y) = y := by
      intro y hy
      have : g y ∈ l.map g := h.symm.subset (List.mem_map_of_mem hy)
      obtain ⟨x, hx, e⟩ := List.mem_map.mp this
      rw [← e, hr x hx]; exact hinj x hx y hy e
    have := h.map r
    rw [List.map_map, List.map_map] at this
    rwa [List.map_congr_left (f := r ∘ g) (g := id) (fun x hx => hr x hx),
      List.map_congr_left (f := r ∘ g) (g := id) (fun x hx => hr' x hx), List.map_id, List.map_id] at this
  · exact fun h => h.map g

/-- Renumbering between a rank and the whole mesh, and the list of its external halo cells. -/
structure MeshPair (L G : Tables K) (d1 dim : Nat) (sideL sideG : Nat → Nat → List Nat) (nodeid : Nat → Nat → Nat) (φ g : Nat → Nat)
    (mine : Nat → Prop) (ext : List (List Nat)) : Prop where
  lt : ∀ c < L.nbcells, φ c < G.nbcells ∧ mine (φ c)
  mono : ∀ c c', c < c' → c' < L.nbcells → φ c < φ c'
  surj : ∀ C < G.nbcells, mine C → ∃ c < L.nbcells, φ c = C
  side : ∀ c < L.nbcells, ∀ j < d1, sideG (φ c) j = (sideL c j).map g
  ginj : ∀ c < L.nbcells, ∀ c' < L.nbcells, ∀ j < d1, ∀ j' < d1, ∀ x ∈ sideL c j, ∀ y ∈ sideL c' j', g x = g y → x = y
  isSide : ∀ C < G.nbcells, ∀ face, IsSide dim ((List.range d1).map (nodeid C)) face ↔ ∃ j < d1, face.Perm (sideG C j)
  extRow : ∀ row ∈ ext, ∃ E, row = E :: (List.range d1).map (nodeid E) ∧ E < G.nbcells ∧ ¬ mine E
  extAll : ∀ E < G.nbcells, ¬ mine E → ∀ C < G.nbcells, mine C → ∀ j < d1, ∀ j' < d1, (sideG E j).Perm (sideG C j') →
    E :: (List.range d1).map (nodeid E) ∈ ext
  /-- no face belongs to three cells -/
  notThree : ∀ a < G.nbcells, ∀ b < G.nbcells, ∀ c < G.nbcells, a ≠ b → a ≠ c → b ≠ c → ∀ ja < d1, ∀ jb < d1, ∀ jc < d1,
    (sideG a ja).Perm (sideG b jb) → (sideG a ja).Perm (sideG c jc) → False
  /-- the sides of a cell are different -/
  sideInj : ∀ C < G.nbcells, ∀ j < d1, ∀ j' < d1, (sideG C j).Perm (sideG C j') → j = j'

section
variable {L G : Tables K} {d1 dim : Nat} {sideL sideG : Nat → Nat → List Nat} {nodeid : Nat → Nat → Nat} {φ g : Nat → Nat}
  {mine : Nat → Prop} {ext : List (List Nat)} {FL FG : List (List Nat)} {nmL nmG : Nat → Int} {B : List Int} {gG : Nat → Nat}

theorem length_le_two {l : List Nat} (hn : l.Pairwise (· < ·))
    (h : ∀ a ∈ l, ∀ b ∈ l, ∀ c ∈ l, a ≠ b → a ≠ c → b ≠ c → False) : l.length ≤ 2 := by
  match l with
  | [] => simp
  | [_] => simp
  | [_, _] => simp
  | a :: b :: c :: t =>
    exfalso
    simp only [List.pairwise_cons, List.mem_cons, forall_eq_or_imp] at hn
    exact h a (by simp) b (by simp) c (by simp) (by omega) (by omega) (by omega)

theorem same_iff (m : MeshPair L G d1 dim sideL sideG nodeid φ g mine ext) (hL : FacesSpec L.nbcells d1 sideL FL L.faceid)
    (hG : FacesSpec G.nbcells d1 sideG FG G.faceid) : ∀ c < L.nbcells, ∀ c' < L.nbcells, ∀ j < d1, ∀ j' < d1,
      (L.faceid c j = L.faceid c' j' ↔ G.faceid (φ c) j = G.faceid (φ c') j') := by
  intro c hc c' hc' j hj j' hj'
  rw [C16_shared_face _ _ _ _ _ hL c c' j j' hc hc' hj hj', C16_shared_face _ _ _ _ _ hG _ _ j j' (m.lt c hc).1 (m.lt c' hc').1 hj hj',
    m.side c hc j hj, m.side c' hc' j' hj']
  exact (perm_map_inj g (fun x hx y hy => m.ginj c hc c' hc' j hj j' hj' x hx y hy)
    (fun x hx y hy => m.ginj c hc c hc j hj j hj x hx y hy)).symm

theorem twoG (m : MeshPair L G d1 dim sideL sideG nodeid φ g mine ext) (hG : FacesSpec G.nbcells d1 sideG FG G.faceid) (F : Nat) :
    (users G.faceid d1 G.nbcells F).length ≤ 2 := by
  apply length_le_two (users_sorted _ _ _ _)
  intro a ha b hb c hc h1 h2 h3
  obtain ⟨la, ja, hja, ea⟩ := (mem_users _ _ _ _ _).mp ha
  obtain ⟨lb, jb, hjb, eb⟩ := (mem_users _ _ _ _ _).mp hb
  obtain ⟨lc, jc, hjc, ec⟩ := (mem_users _ _ _ _ _).mp hc
  exact m.notThree a la b lb c lc h1 h2 h3 ja hja jb hjb jc hjc
    ((C16_shared_face _ _ _ _ _ hG a b ja jb la lb hja hjb).mp (ea.trans eb.symm))
    ((C16_shared_face _ _ _ _ _ hG a c ja jc la lc hja hjc).mp (ea.trans ec.symm))

theorem subMesh_of (m : MeshPair L G d1 dim sideL sideG nodeid φ g mine ext) (hL : FacesSpec L.nbcells d1 sideL FL L.faceid)
    (hG : FacesSpec G.nbcells d1 sideG FG G.faceid) : SubMesh L.faceid G.faceid L.nbcells G.nbcells d1 φ mine :=
  ⟨m.lt, m.mono, m.surj, same_iff m hL hG, twoG m hG⟩

theorem usesG_iff (hG : FacesSpec G.nbcells d1 sideG FG G.faceid) {E C j : Nat} (hE : E < G.nbcells) (hC : C < G.nbcells) (hj : j < d1) :
    Uses G.faceid d1 E (G.faceid C j) ↔ ∃ j' < d1, (sideG E j').Perm (sideG C j) := by
  constructor
  · rintro ⟨j', hj', e⟩
    exact ⟨j', hj', (C16_shared_face _ _ _ _ _ hG E C j' j hE hC hj' hj).mp e⟩
  · rintro ⟨j', hj', e⟩
    exact ⟨j', hj', (C16_shared_face _ _ _ _ _ hG E C j' j hE hC hj' hj).mpr e⟩

theorem face_map (m : MeshPair L G d1 dim sideL sideG nodeid φ g mine ext) (hL : FacesSpec L.nbcells d1 sideL FL L.faceid)
    {c j : Nat} (hc : c < L.nbcells) (hj : j < d1) : ((FL.getD (L.faceid c j) []).map g).Perm (sideG (φ c) j) := by
  rw [m.side c hc j hj]; exact (hL.2.2.2 c hc j hj).2.map g

/-- A halo cell having the side of a local cell is a cell of another rank having that face. -/
theorem foreign_iff (m : MeshPair L G d1 dim sideL sideG nodeid φ g mine ext) (hL : FacesSpec L.nbcells d1 sideL FL L.faceid)
    (hG : FacesSpec G.nbcells d1 sideG FG G.faceid) {c j : Nat} (hc : c < L.nbcells) (hj : j < d1) :
    Foreign dim ext g (FL.getD (L.faceid c j) []) ↔ ∃ E < G.nbcells, ¬ mine E ∧ Uses G.faceid d1 E (G.faceid (φ c) j) := by
  have hC := (m.lt c hc).1
  have hp := face_map m hL hc hj
  constructor
  · rintro ⟨row, hr, hs⟩
    obtain ⟨E, rfl, hE, hm⟩ := m.extRow row hr
    obtain ⟨j', hj', hp'⟩ := (m.isSide E hE _).mp hs
    exact ⟨E, hE, hm, (usesG_iff hG hE hC hj).mpr ⟨j', hj', hp'.symm.trans hp⟩⟩
  · rintro ⟨E, hE, hm, hu⟩
    obtain ⟨j', hj', hp'⟩ := (usesG_iff hG hE hC hj).mp hu
    exact ⟨_, m.extAll E hE hm (φ c) hC (m.lt c hc).2 j' hj' j hj hp', (m.isSide E hE _).mpr ⟨j', hj', hp.trans hp'.symm⟩⟩

theorem not_foreign_nil (f : List Nat) : ¬ Foreign dim [] gG f := by rintro ⟨row, hr, _⟩; simp at hr

theorem ne_nil_of_face {D : Tables K} {side : Nat → Nat → List Nat} {F : List (List Nat)} (hG : FacesSpec D.nbcells d1 side F D.faceid)
    {f : Nat} (hf : f < F.length) : users D.faceid d1 D.nbcells f ≠ [] := by
  obtain ⟨c, hc, j, hj, e⟩ := facesSpec_surj hG hf
  intro hn
  have : c ∈ users D.faceid d1 D.nbcells f := (mem_users _ _ _ _ _).mpr ⟨hc, j, hj, e⟩
  rw [hn] at this; simp at this

/-- The serial tables. -/
theorem consistentG (m : MeshPair L G d1 dim sideL sideG nodeid φ g mine ext) (bG : Built G d1 dim sideG FG nmG B [] gG)
    (B0 : (0 : Int) ∉ B) (B10 : (10 : Int) ∉ B)
    (hnm : ∀ F < G.nbfaces, (users G.faceid d1 G.nbcells F).length = 1 → nmG F ∈ B) :
    Consistent G d1 B ∧ ∀ F < G.nbfaces, ((users G.faceid d1 G.nbcells F).length = 2 → G.name F = 0) ∧
      ((users G.faceid d1 G.nbcells F).length = 1 → G.name F ∈ B ∧ G.name F = nmG F) := by
  have h2 := fun F => twoG m bG.faces F
  have key : ∀ F < G.nbfaces, ((users G.faceid d1 G.nbcells F).length = 2 → G.name F = 0) ∧
      ((users G.faceid d1 G.nbcells F).length = 1 → G.name F ∈ B ∧ G.name F = nmG F) := by
    intro F hF
    refine ⟨fun h => bG.two F hF (not_foreign_nil _) (by omega), fun h => ?_⟩
    have := bG.one F hF (not_foreign_nil _) h
    exact ⟨by rw [this]; exact hnm F hF h, this⟩
  have len : ∀ F < G.nbfaces, (users G.faceid d1 G.nbcells F).length = 1 ∨ (users G.faceid d1 G.nbcells F).length = 2 := by
    intro F hF
    have := ne_nil_of_face bG.faces (bG.nb ▸ hF)
    have := List.length_pos_iff.mpr this
    have := h2 F
    omega
  refine ⟨⟨?_, ?_, ?_, bG.cell0, ?_, bG.inner, bG.halo, bG.bnd, ?_, B0, B10, ?_⟩, key⟩
  · intro c hc j hj j' hj' e
    exact m.sideInj c hc j hj j' hj' ((C16_shared_face _ _ _ _ _ bG.faces c c j j' hc hc hj hj').mp e)
  · intro c hc j hj; rw [bG.nb]; exact (bG.faces.2.2.2 c hc j hj).1
  · intro f hf; exact facesSpec_surj bG.faces (bG.nb ▸ hf)
  · intro f hf _; exact bG.cell1 f hf (not_foreign_nil _)
  · apply List.eq_nil_iff_forall_not_mem.mpr
    intro f hf
    obtain ⟨h1, h3, h4, h5⟩ := bG.per f hf
    rcases len f h1 with h | h
    · exact h3 ((key f h1).2 h).1
    · exact h4 ((key f h1).1 h)
  · intro f hf h0
    rcases len f hf with h | h
    · have := ((key f hf).2 h).1
      rw [h0] at this; exact absurd this B0
    · exact h

/-- The tables of a rank. -/
theorem consistentL (m : MeshPair L G d1 dim sideL sideG nodeid φ g mine ext) (bL : Built L d1 dim sideL FL nmL B ext g)
    (bG : Built G d1 dim sideG FG nmG B [] gG) (B0 : (0 : Int) ∉ B) (B10 : (10 : Int) ∉ B)
    (hnm : ∀ F < G.nbfaces, (users G.faceid d1 G.nbcells F).length = 1 → nmG F ∈ B)
    (hsame : ∀ c < L.nbcells, ∀ j < d1, nmL (L.faceid c j) = nmG (G.faceid (φ c) j)) :
    Consistent L d1 B ∧ ∀ c < L.nbcells, ∀ j < d1,
    ((∃ E < G.nbcells, ¬ mine E ∧ Uses G.faceid d1 E (G.faceid (φ c) j)) → L.name (L.faceid c j) = 10 ∧
      ∃ row E, ext[L.halofid (L.faceid c j)]? = some row ∧ row.head? = some E ∧ E < G.nbcells ∧ ¬ mine E ∧
        Uses G.faceid d1 E (G.faceid (φ c) j)) ∧
    ((¬ ∃ E < G.nbcells, ¬ mine E ∧ Uses G.faceid d1 E (G.faceid (φ c) j)) →
      ((users L.faceid d1 L.nbcells (L.faceid c j)).length = 2 → L.name (L.faceid c j) = 0) ∧
      ((users L.faceid d1 L.nbcells (L.faceid c j)).length = 1 → L.name (L.faceid c j) = G.name (G.faceid (φ c) j))) := by
  obtain ⟨cG, kG⟩ := consistentG m bG B0 B10 hnm
  have sub := subMesh_of m bL.faces bG.faces
  have flt : ∀ c < L.nbcells, ∀ j < d1, L.faceid c j < L.nbfaces := by
    intro c hc j hj; rw [bL.nb]; exact (bL.faces.2.2.2 c hc j hj).1
  have fsurj : ∀ f < L.nbfaces, ∃ c < L.nbcells, ∃ j < d1, L.faceid c j = f := by
    intro f hf; exact facesSpec_surj bL.faces (bL.nb ▸ hf)
  have nameL : ∀ c < L.nbcells, ∀ j < d1,
    ((∃ E < G.nbcells, ¬ mine E ∧ Uses G.faceid d1 E (G.faceid (φ c) j)) → L.name (L.faceid c j) = 10 ∧
      ∃ row E, ext[L.halofid (L.faceid c j)]? = some row ∧ row.head? = some E ∧ E < G.nbcells ∧ ¬ mine E ∧
        Uses G.faceid d1 E (G.faceid (φ c) j)) ∧
    ((¬ ∃ E < G.nbcells, ¬ mine E ∧ Uses G.faceid d1 E (G.faceid (φ c) j)) →
      ((users L.faceid d1 L.nbcells (L.faceid c j)).length = 2 → L.name (L.faceid c j) = 0) ∧
      ((users L.faceid d1 L.nbcells (L.faceid c j)).length = 1 → L.name (L.faceid c j) = G.name (G.faceid (φ c) j))) := by
    intro c hc j hj
    have hf := flt c hc j hj
    have hC := (m.lt c hc).1
    have hF := cG.flt (φ c) hC j hj
    constructor
    · intro hE
      obtain ⟨h10, row, hrow, hs⟩ := bL.foreign _ hf ((foreign_iff m bL.faces bG.faces hc hj).mpr hE)
      refine ⟨h10, ?_⟩
      obtain ⟨E, rfl, hEl, hm⟩ := m.extRow row (List.mem_of_getElem? hrow)
      obtain ⟨j', hj', hp'⟩ := (m.isSide E hEl _).mp hs
      exact ⟨_, E, hrow, rfl, hEl, hm, (usesG_iff bG.faces hEl hC hj).mpr ⟨j', hj', hp'.symm.trans (face_map m bL.faces hc hj)⟩⟩
    · intro hE
      have hnf := fun h => hE ((foreign_iff m bL.faces bG.faces hc hj).mp h)
      refine ⟨fun h => bL.two _ hf hnf (by omega), fun h => ?_⟩
      rw [bL.one _ hf hnf h, hsame c hc j hj]
      refine (((kG _ hF).2 ?_).2).symm
      rcases sub.cases hc hj with ⟨uG, uL⟩ | ⟨e, he, hne, _, hu⟩ | ⟨E, hE', hmE, hU, uL, uG⟩
      · rw [uG]; rfl
      · rcases hu with ⟨_, u⟩ | ⟨_, u⟩ <;> rw [u] at h <;> simp at h
      · exact absurd ⟨E, hE', hmE, hU⟩ hE
  have trich : ∀ f < L.nbfaces, L.name f = 10 ∨ (L.name f = 0 ∧ (users L.faceid d1 L.nbcells f).length = 2 ∧
      ¬ Foreign dim ext g (FL.getD f [])) ∨ L.name f ∈ B := by
    intro f hf
    obtain ⟨c, hc, j, hj, rfl⟩ := fsurj f hf
    obtain ⟨n1, n2⟩ := nameL c hc j hj
    have hF := cG.flt (φ c) (m.lt c hc).1 j hj
    by_cases hE : ∃ E < G.nbcells, ¬ mine E ∧ Uses G.faceid d1 E (G.faceid (φ c) j)
    · left; exact (n1 hE).1
    · right
      obtain ⟨n3, n4⟩ := n2 hE
      rcases sub.cases hc hj with ⟨uG, uL⟩ | ⟨e, he, hne, _, hu⟩ | ⟨E, hE', hmE, hU, uL, uG⟩
      · right
        rw [n4 (by rw [uL]; rfl)]
        exact ((kG _ hF).2 (by rw [uG]; rfl)).1
      · left
        have h2 : (users L.faceid d1 L.nbcells (L.faceid c j)).length = 2 := by
          rcases hu with ⟨_, u⟩ | ⟨_, u⟩ <;> rw [u] <;> rfl
        exact ⟨n3 h2, h2, fun h => hE ((foreign_iff m bL.faces bG.faces hc hj).mp h)⟩
      · exact absurd ⟨E, hE', hmE, hU⟩ hE
  refine ⟨⟨?_, flt, fsurj, bL.cell0, ?_, bL.inner, bL.halo, bL.bnd, ?_, B0, B10, ?_⟩, nameL⟩
  · intro c hc j hj j' hj' e
    have := (same_iff m bL.faces bG.faces c hc c hc j hj j' hj').mp e
    exact cG.inj (φ c) (m.lt c hc).1 j hj j' hj' this
  · intro f hf h0
    rcases trich f hf with h | ⟨_, _, h⟩ | h
    · rw [h0] at h; exact absurd h (by decide)
    · exact bL.cell1 f hf h
    · rw [h0] at h; exact absurd h B0
  · apply List.eq_nil_iff_forall_not_mem.mpr
    intro f hf
    obtain ⟨h1, h3, h4, h5⟩ := bL.per f hf
    rcases trich f h1 with h | h | h
    · exact h5 h
    · exact h4 h.1
    · exact h3 h
  · intro f hf h0
    rcases trich f hf with h | ⟨_, h, _⟩ | h
    · rw [h0] at h; exact absurd h (by decide)
    · exact h
    · rw [h0] at h; exact absurd h B0

end

end Verif.Props.Par
