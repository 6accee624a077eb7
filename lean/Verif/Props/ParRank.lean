import Verif.Props.ParBalance
import Verif.Props.ParTopo
import Verif.Model.Domain

/-! Helper lemmas for the parallel theorems: the residual on a rank from the correspondence of its tables with the global ones. -/
set_option linter.unusedSectionVars false
set_option linter.unusedVariables false
set_option linter.unusedSimpArgs false
namespace Verif.Props.Par
open Verif.Fvm Verif.Spec Verif.Conn Verif.Dom Verif.Geo
variable {K : Type*} [Field K] [LinearOrder K] [IsStrictOrderedRing K]

/-- Facts about the tables of one Domain (serial or of one rank). -/
structure Consistent (D : Tables K) (d1 : Nat) (B : List Int) : Prop where
  inj : ∀ c < D.nbcells, ∀ j < d1, ∀ j' < d1, D.faceid c j = D.faceid c j' → j = j'
  flt : ∀ c < D.nbcells, ∀ j < d1, D.faceid c j < D.nbfaces
  fsurj : ∀ f < D.nbfaces, ∃ c < D.nbcells, ∃ j < d1, D.faceid c j = f
  cell0 : ∀ f < D.nbfaces, D.cellid f 0 = (twoOf (users D.faceid d1 D.nbcells f)).1
  cell1 : ∀ f < D.nbfaces, D.name f = 0 → D.cellid f 1 = (twoOf (users D.faceid d1 D.nbcells f)).2
  inner : D.innerfaces.Nodup ∧ ∀ f, f ∈ D.innerfaces ↔ f < D.nbfaces ∧ D.name f = 0
  halo : D.halofaces.Nodup ∧ ∀ f, f ∈ D.halofaces ↔ f < D.nbfaces ∧ D.name f = 10
  bnd : D.boundaryfaces.Nodup ∧ ∀ f, f ∈ D.boundaryfaces ↔ f < D.nbfaces ∧ D.name f ∈ B
  per : D.periodicboundaryfaces = []
  B0 : (0 : Int) ∉ B
  B10 : (10 : Int) ∉ B
  name0 : ∀ f < D.nbfaces, D.name f = 0 → (users D.faceid d1 D.nbcells f).length = 2

theorem users_first {t : Nat → Nat → Nat} {d1 n x : Nat} (h : users t d1 n x ≠ []) :
    ∃ a, a < n ∧ (twoOf (users t d1 n x)).1 = (a : Int) ∧ Uses t d1 a x := by
  match hl : users t d1 n x with
  | [] => exact absurd hl h
  | a :: l =>
    have : a ∈ users t d1 n x := by rw [hl]; simp
    obtain ⟨h1, h2⟩ := (mem_users _ _ _ _ _).mp this
    exact ⟨a, h1, by simp [twoOf], h2⟩

theorem users_second {t : Nat → Nat → Nat} {d1 n x : Nat} (h : (users t d1 n x).length = 2) :
    ∃ a, a < n ∧ (twoOf (users t d1 n x)).2 = (a : Int) ∧ Uses t d1 a x := by
  match hl : users t d1 n x with
  | [] => rw [hl] at h; simp at h
  | [a] => rw [hl] at h; simp at h
  | [b, a] =>
    have : a ∈ users t d1 n x := by rw [hl]; simp
    obtain ⟨h1, h2⟩ := (mem_users _ _ _ _ _).mp this
    exact ⟨a, h1, by simp [twoOf], h2⟩
  | _ :: _ :: _ :: _ => rw [hl] at h; simp at h

theorem Consistent.users_ne {D : Tables K} {d1 : Nat} {B : List Int} (h : Consistent D d1 B) {f : Nat} (hf : f < D.nbfaces) :
    users D.faceid d1 D.nbcells f ≠ [] := by
  obtain ⟨c, hc, j, hj, e⟩ := h.fsurj f hf
  intro hn
  have : c ∈ users D.faceid d1 D.nbcells f := (mem_users _ _ _ _ _).mpr ⟨hc, j, hj, e⟩
  rw [hn] at this; simp at this

theorem Consistent.left {D : Tables K} {d1 : Nat} {B : List Int} (h : Consistent D d1 B) (F : Fields K) (o : Int) {f : Nat}
    (hf : f < D.nbfaces) : ∃ a, a < D.nbcells ∧ Spec.left (convArgs D F o) f = a ∧ Uses D.faceid d1 a f := by
  obtain ⟨a, h1, h2, h3⟩ := users_first (h.users_ne hf)
  refine ⟨a, h1, ?_, h3⟩
  show (D.cellid f 0).toNat = a
  rw [h.cell0 f hf, h2]; simp

/-- The balance of a cell of a Domain is a sum over its sides. -/
theorem Consistent.balance {D : Tables K} {d1 : Nat} {B : List Int} (h : Consistent D d1 B) (F : Fields K) (o : Int) (dim c : Nat)
    (hc : c < D.nbcells) :
    balance (convArgs D F o) dim c = ∑ j ∈ Finset.range d1, sideTerm (convArgs D F o) dim c (D.faceid c j) := by
  have hleft : ∀ f < D.nbfaces, Spec.left (convArgs D F o) f = c → ∃ j < d1, D.faceid c j = f := by
    intro f hf hl
    obtain ⟨a, _, h2, j, hj, e⟩ := h.left F o hf
    obtain rfl : a = c := h2.symm.trans hl
    exact ⟨j, hj, e⟩
  refine balance_sides (convArgs D F o) dim c d1 (D.faceid c) (h.inj c hc) h.inner.1 h.halo.1 h.bnd.1 h.per ?_ ?_ ?_ ?_
  · intro f hf; exact hleft f ((h.inner.2 f).mp hf).1
  · intro f hf hr
    obtain ⟨h1, h2⟩ := (h.inner.2 f).mp hf
    obtain ⟨a, _, h3, j, hj, e⟩ := users_second (h.name0 f h1 h2)
    have : (D.cellid f 1).toNat = c := hr
    rw [h.cell1 f h1 h2, h3] at this
    obtain rfl : a = c := by simpa using this
    exact ⟨j, hj, e⟩
  · intro f hf; exact hleft f ((h.halo.2 f).mp hf).1
  · intro f hf; exact hleft f ((h.bnd.2 f).mp hf).1

/-- The tables `L` of a rank describe the cells `mine` of the whole mesh, whose tables are `G`. -/
structure RankOf (L G : Tables K) (d1 : Nat) (φ : Nat → Nat) (mine : Nat → Prop) (ext : List (List Nat)) (B : List Int)
    (out : Nat → Nat → Vec K) : Prop where
  sub : SubMesh L.faceid G.faceid L.nbcells G.nbcells d1 φ mine
  cL : Consistent L d1 B
  cG : Consistent G d1 B
  center : ∀ c < L.nbcells, ∀ k < 3, L.center c k = G.center (φ c) k
  fcenter : ∀ c < L.nbcells, ∀ j < d1, ∀ k < 3, L.fcenter (L.faceid c j) k = G.fcenter (G.faceid (φ c) j) k
  normalL : ∀ c < L.nbcells, ∀ j < d1, L.cellid (L.faceid c j) 0 = (c : Int) → ∀ k < 3, L.normal (L.faceid c j) k = out (φ c) j k
  normalG : ∀ C < G.nbcells, ∀ j < d1, G.cellid (G.faceid C j) 0 = (C : Int) → ∀ k < 3, G.normal (G.faceid C j) k = out C j k
  opp : ∀ C < G.nbcells, ∀ C' < G.nbcells, C ≠ C' → ∀ j < d1, ∀ j' < d1, G.faceid C j = G.faceid C' j' → ∀ k < 3,
    out C j k = - out C' j' k
  nameG : ∀ F < G.nbfaces, ((users G.faceid d1 G.nbcells F).length = 2 → G.name F = 0) ∧
    ((users G.faceid d1 G.nbcells F).length = 1 → G.name F ∈ B)
  nameL : ∀ c < L.nbcells, ∀ j < d1,
    ((∃ E < G.nbcells, ¬ mine E ∧ Uses G.faceid d1 E (G.faceid (φ c) j)) → L.name (L.faceid c j) = 10 ∧
      ∃ row E, ext[L.halofid (L.faceid c j)]? = some row ∧ row.head? = some E ∧ E < G.nbcells ∧ ¬ mine E ∧
        Uses G.faceid d1 E (G.faceid (φ c) j)) ∧
    ((¬ ∃ E < G.nbcells, ¬ mine E ∧ Uses G.faceid d1 E (G.faceid (φ c) j)) →
      ((users L.faceid d1 L.nbcells (L.faceid c j)).length = 2 → L.name (L.faceid c j) = 0) ∧
      ((users L.faceid d1 L.nbcells (L.faceid c j)).length = 1 → L.name (L.faceid c j) = G.name (G.faceid (φ c) j)))
  centvol : ∀ (k : Nat) row E, ext[k]? = some row → row.head? = some E → E < G.nbcells → ∀ i < 3, L.centvol k i = G.center E i

/-- The arrays of a rank are those of the serial run. -/
structure FieldsMatch (L G : Tables K) (d1 : Nat) (φ : Nat → Nat) (ext : List (List Nat)) (FL FG : Fields K) : Prop where
  cell : ∀ c < L.nbcells, FL.w c = FG.w (φ c) ∧ FL.psi c = FG.psi (φ c) ∧ FL.wx c = FG.wx (φ c) ∧ FL.wy c = FG.wy (φ c) ∧
    FL.wz c = FG.wz (φ c)
  halo : ∀ (k : Nat) row E, ext[k]? = some row → row.head? = some E → E < G.nbcells →
    FL.w_halo.getD k 0 = FG.w E ∧ FL.psi_halo.getD k 0 = FG.psi E ∧ FL.wx_halo.getD k 0 = FG.wx E ∧
    FL.wy_halo.getD k 0 = FG.wy E ∧ FL.wz_halo.getD k 0 = FG.wz E
  face : ∀ c < L.nbcells, ∀ j < d1, FL.u_face (L.faceid c j) = FG.u_face (G.faceid (φ c) j) ∧
    FL.v_face (L.faceid c j) = FG.v_face (G.faceid (φ c) j) ∧ FL.w_face (L.faceid c j) = FG.w_face (G.faceid (φ c) j)
  ghost : ∀ c < L.nbcells, ∀ j < d1, L.faceid c j ∈ L.boundaryfaces → FL.ghost (L.faceid c j) = FG.ghost (G.faceid (φ c) j)

set_option maxHeartbeats 2000000 in
theorem rank_balance {L G : Tables K} {d1 : Nat} {φ : Nat → Nat} {mine : Nat → Prop} {ext : List (List Nat)} {B : List Int}
    {out : Nat → Nat → Vec K} (h : RankOf L G d1 φ mine ext B out) {FL FG : Fields K} (hF : FieldsMatch L G d1 φ ext FL FG)
    (o : Int) (dim : Nat) (hd : dim ≤ 3) (c : Nat) (hc : c < L.nbcells) :
    balance (convArgs L FL o) dim c = balance (convArgs G FG o) dim (φ c) := by
  have hC := (h.sub.lt c hc).1
  rw [h.cL.balance FL o dim c hc, h.cG.balance FG o dim (φ c) hC]
  apply Finset.sum_congr rfl
  intro j hj
  rw [Finset.mem_range] at hj
  have hf := h.cL.flt c hc j hj
  have hFF := h.cG.flt (φ c) hC j hj
  have cm : ∀ e < L.nbcells, CellMatch (convArgs L FL o) (convArgs G FG o) e (φ e) := by
    intro e he
    obtain ⟨a1, a2, a3, a4, a5⟩ := hF.cell e he
    exact ⟨a1, a2, a3, a4, a5, h.center e he⟩
  have fm : FaceMatch (convArgs L FL o) (convArgs G FG o) (L.faceid c j) (G.faceid (φ c) j) := by
    obtain ⟨a1, a2, a3⟩ := hF.face c hc j hj
    exact ⟨a1, a2, a3, h.fcenter c hc j hj⟩
  apply sideTerm_match (convArgs L FL o) (convArgs G FG o) rfl dim c (φ c) (L.faceid c j) (G.faceid (φ c) j) hd (cm c hc) fm
  have leftL : ∀ {a l}, users L.faceid d1 L.nbcells (L.faceid c j) = a :: l → L.cellid (L.faceid c j) 0 = (a : Int) := by
    intro a l e; rw [h.cL.cell0 _ hf, e]; simp [twoOf]
  have leftG : ∀ {a l}, users G.faceid d1 G.nbcells (G.faceid (φ c) j) = a :: l → G.cellid (G.faceid (φ c) j) 0 = (a : Int) := by
    intro a l e; rw [h.cG.cell0 _ hFF, e]; simp [twoOf]
  have toL : ∀ {a : Nat}, L.cellid (L.faceid c j) 0 = (a : Int) → Spec.left (convArgs L FL o) (L.faceid c j) = a := by
    intro a e; show (L.cellid _ 0).toNat = a; rw [e]; simp
  have toG : ∀ {a : Nat}, G.cellid (G.faceid (φ c) j) 0 = (a : Int) → Spec.left (convArgs G FG o) (G.faceid (φ c) j) = a := by
    intro a e; show (G.cellid _ 0).toNat = a; rw [e]; simp
  have rightL : ∀ {a b}, users L.faceid d1 L.nbcells (L.faceid c j) = [a, b] → L.name (L.faceid c j) = 0 →
      Spec.right (convArgs L FL o) (L.faceid c j) = b := by
    intro a b e hn; show (L.cellid _ 1).toNat = b; rw [h.cL.cell1 _ hf hn, e]; simp [twoOf]
  have rightG : ∀ {a b}, users G.faceid d1 G.nbcells (G.faceid (φ c) j) = [a, b] → G.name (G.faceid (φ c) j) = 0 →
      Spec.right (convArgs G FG o) (G.faceid (φ c) j) = b := by
    intro a b e hn; show (G.cellid _ 1).toNat = b; rw [h.cG.cell1 _ hFF hn, e]; simp [twoOf]
  obtain ⟨nG2, nG1⟩ := h.nameG _ hFF
  obtain ⟨nLh, nLn⟩ := h.nameL c hc j hj
  have famI : ∀ D : Tables K, Consistent D d1 B → ∀ f < D.nbfaces, D.name f = 0 →
      f ∈ D.innerfaces ∧ f ∉ D.halofaces ∧ f ∉ D.boundaryfaces := by
    intro D hD f hf hn
    refine ⟨(hD.inner.2 f).mpr ⟨hf, hn⟩, fun hm => ?_, fun hm => ?_⟩
    · have := ((hD.halo.2 f).mp hm).2; rw [hn] at this; exact absurd this (by decide)
    · have := ((hD.bnd.2 f).mp hm).2; rw [hn] at this; exact hD.B0 this
  have famB : ∀ D : Tables K, Consistent D d1 B → ∀ f < D.nbfaces, D.name f ∈ B →
      f ∉ D.innerfaces ∧ f ∉ D.halofaces ∧ f ∈ D.boundaryfaces := by
    intro D hD f hf hn
    refine ⟨fun hm => ?_, fun hm => ?_, (hD.bnd.2 f).mpr ⟨hf, hn⟩⟩
    · have := ((hD.inner.2 f).mp hm).2; rw [this] at hn; exact hD.B0 hn
    · have := ((hD.halo.2 f).mp hm).2; rw [this] at hn; exact hD.B10 hn
  have noOther : (∀ E ∈ users G.faceid d1 G.nbcells (G.faceid (φ c) j), mine E) →
      ¬ ∃ E < G.nbcells, ¬ mine E ∧ Uses G.faceid d1 E (G.faceid (φ c) j) := by
    rintro hall ⟨E, h1, h2, h3⟩
    exact h2 (hall E ((mem_users _ _ _ _ _).mpr ⟨h1, h3⟩))
  rcases h.sub.cases hc hj with ⟨uG, uL⟩ | ⟨e, he, hne, ⟨j', hj', hfe, hFe⟩, hu⟩ | ⟨E, hE, hmE, ⟨j', hj', hFE⟩, uL, uG⟩
  · -- boundary face
    obtain ⟨_, n1⟩ := nLn (noOther (by rw [uG]; intro E hE; rw [List.mem_singleton] at hE; rw [hE]; exact (h.sub.lt c hc).2))
    have hGn := nG1 (by rw [uG]; rfl)
    have hLn : L.name (L.faceid c j) ∈ B := by rw [n1 (by rw [uL]; rfl)]; exact hGn
    obtain ⟨a1, a2, a3⟩ := famB L h.cL _ hf hLn
    obtain ⟨b1, b2, b3⟩ := famB G h.cG _ hFF hGn
    refine SideMatch.boundary a1 a2 a3 b1 b2 b3 (toL (leftL uL)) (toG (leftG uG)) (hF.ghost c hc j hj a3) ?_
    intro k hk
    show L.normal _ k = G.normal _ k
    rw [h.normalL c hc j hj (leftL uL) k hk, h.normalG (φ c) hC j hj (leftG uG) k hk]
  · -- both cells on this rank
    have hno : ¬ ∃ E < G.nbcells, ¬ mine E ∧ Uses G.faceid d1 E (G.faceid (φ c) j) := by
      apply noOther
      intro E hE
      have : E = φ c ∨ E = φ e := by
        rcases hu with ⟨uG, _⟩ | ⟨uG, _⟩ <;> rw [uG] at hE <;> simp at hE <;> tauto
      rcases this with rfl | rfl
      · exact (h.sub.lt c hc).2
      · exact (h.sub.lt e he).2
    obtain ⟨n2, _⟩ := nLn hno
    have hLn : L.name (L.faceid c j) = 0 := n2 (by rcases hu with ⟨_, u⟩ | ⟨_, u⟩ <;> rw [u] <;> rfl)
    have hGn : G.name (G.faceid (φ c) j) = 0 := nG2 (by rcases hu with ⟨u, _⟩ | ⟨u, _⟩ <;> rw [u] <;> rfl)
    obtain ⟨a1, a2, a3⟩ := famI L h.cL _ hf hLn
    obtain ⟨b1, b2, b3⟩ := famI G h.cG _ hFF hGn
    refine SideMatch.inner a1 a2 a3 b1 b2 b3 e (φ e) hne (fun e' => hne (h.sub.inj he hc e')) (cm e he) ?_ ?_
    · rcases hu with ⟨uG, uL⟩ | ⟨uG, uL⟩
      · left; exact ⟨toL (leftL uL), rightL uL hLn, toG (leftG uG), rightG uG hGn⟩
      · right; exact ⟨toL (leftL uL), rightL uL hLn, toG (leftG uG), rightG uG hGn⟩
    · intro k hk
      show L.normal _ k = G.normal _ k
      rcases hu with ⟨uG, uL⟩ | ⟨uG, uL⟩
      · rw [h.normalL c hc j hj (leftL uL) k hk, h.normalG (φ c) hC j hj (leftG uG) k hk]
      · have l1 := leftL uL
        have l2 := leftG uG
        rw [← hfe] at l1 ⊢
        rw [← hFe] at l2 ⊢
        rw [h.normalL e he j' hj' l1 k hk, h.normalG (φ e) (h.sub.lt e he).1 j' hj' l2 k hk]
  · -- the other cell belongs to another rank
    obtain ⟨hLn, row, E', hrow, hhead, hE', hm', hU'⟩ := nLh ⟨E, hE, hmE, j', hj', hFE⟩
    have hEE : E' = E := by
      have : E' ∈ users G.faceid d1 G.nbcells (G.faceid (φ c) j) := (mem_users _ _ _ _ _).mpr ⟨hE', hU'⟩
      have : E' = φ c ∨ E' = E := by
        rcases uG with u | u <;> rw [u] at this <;> simp at this <;> tauto
      rcases this with rfl | e
      · exact absurd (h.sub.lt c hc).2 hm'
      · exact e
    subst hEE
    have hGn : G.name (G.faceid (φ c) j) = 0 := nG2 (by rcases uG with u | u <;> rw [u] <;> rfl)
    obtain ⟨b1, b2, b3⟩ := famI G h.cG _ hFF hGn
    have hEC : E' ≠ φ c := fun e => hmE (e ▸ (h.sub.lt c hc).2)
    have a1 : L.faceid c j ∉ L.innerfaces := fun hm => by
      have := ((h.cL.inner.2 _).mp hm).2; rw [hLn] at this; exact absurd this (by decide)
    have a2 : L.faceid c j ∈ L.halofaces := (h.cL.halo.2 _).mpr ⟨hf, hLn⟩
    have a3 : L.faceid c j ∉ L.boundaryfaces := fun hm => by
      have := ((h.cL.bnd.2 _).mp hm).2; rw [hLn] at this; exact h.cL.B10 this
    obtain ⟨x1, x2, x3, x4, x5⟩ := hF.halo _ row E' hrow hhead hE'
    refine SideMatch.halo a1 a2 a3 b1 b2 b3 E' hEC (toL (leftL uL))
      ⟨x1, x2, x3, x4, x5, fun k hk => h.centvol _ row E' hrow hhead hE' k hk⟩ ?_
    rcases uG with u | u
    · left
      refine ⟨toG (leftG u), rightG u hGn, fun k hk => ?_⟩
      show L.normal _ k = G.normal _ k
      rw [h.normalL c hc j hj (leftL uL) k hk, h.normalG (φ c) hC j hj (leftG u) k hk]
    · right
      refine ⟨toG (leftG u), rightG u hGn, fun k hk => ?_⟩
      show L.normal _ k = - G.normal _ k
      have l2 := leftG u
      rw [← hFE] at l2 ⊢
      rw [h.normalL c hc j hj (leftL uL) k hk, h.normalG E' hE j' hj' l2 k hk]
      exact h.opp (φ c) hC E' hE hEC.symm j hj j' hj' hFE.symm k hk

end Verif.Props.Par
