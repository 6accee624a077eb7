import Verif.Props.ParStencilEq
import Verif.Model.RunVar

/-! Helper lemmas for the parallel theorems: what is on the two sides of a face, on a rank and in the serial run. -/
set_option linter.unusedSectionVars false
set_option linter.unusedVariables false
set_option linter.unusedSimpArgs false
namespace Verif.Props.Par
open Verif.Fvm Verif.Spec Verif.Conn Verif.Dom Verif.Geo Verif.Names Verif.MeshFile Verif.Part Verif.Comm Verif.Run Verif.HaloGhost Verif.Interp Verif.Props.HG
variable {K : Type*} [Field K] [LinearOrder K] [IsStrictOrderedRing K]

/-- The three kinds of sides of a cell, in terms of the tables. -/
theorem RankOf.kinds {L G : Tables K} {d1 : Nat} {φ : Nat → Nat} {mine : Nat → Prop} {ext : List (List Nat)} {B : List Int}
    {out : Nat → Nat → Vec K} (h : RankOf L G d1 φ mine ext B out) {c : Nat} (hc : c < L.nbcells) {j : Nat} (hj : j < d1) :
    (L.faceid c j ∈ L.boundaryfaces ∧ G.faceid (φ c) j ∈ G.boundaryfaces ∧ L.name (L.faceid c j) ∈ B ∧ G.name (G.faceid (φ c) j) = L.name (L.faceid c j) ∧
      L.cellid (L.faceid c j) 0 = (c : Int) ∧ G.cellid (G.faceid (φ c) j) 0 = (φ c : Int)) ∨
    (∃ e < L.nbcells, e ≠ c ∧ L.name (L.faceid c j) = 0 ∧ G.name (G.faceid (φ c) j) = 0 ∧
      ((L.cellid (L.faceid c j) 0 = (c : Int) ∧ L.cellid (L.faceid c j) 1 = (e : Int) ∧
        G.cellid (G.faceid (φ c) j) 0 = (φ c : Int) ∧ G.cellid (G.faceid (φ c) j) 1 = (φ e : Int)) ∨
       (L.cellid (L.faceid c j) 0 = (e : Int) ∧ L.cellid (L.faceid c j) 1 = (c : Int) ∧
        G.cellid (G.faceid (φ c) j) 0 = (φ e : Int) ∧ G.cellid (G.faceid (φ c) j) 1 = (φ c : Int)))) ∨
    (∃ E < G.nbcells, ∃ row, ¬ mine E ∧ L.name (L.faceid c j) = 10 ∧ G.name (G.faceid (φ c) j) = 0 ∧
      ext[L.halofid (L.faceid c j)]? = some row ∧ row.head? = some E ∧ L.cellid (L.faceid c j) 0 = (c : Int) ∧
      ((G.cellid (G.faceid (φ c) j) 0 = (φ c : Int) ∧ G.cellid (G.faceid (φ c) j) 1 = (E : Int)) ∨
       (G.cellid (G.faceid (φ c) j) 0 = (E : Int) ∧ G.cellid (G.faceid (φ c) j) 1 = (φ c : Int)))) := by
  have hC := (h.sub.lt c hc).1
  have hf := h.cL.flt c hc j hj
  have hFF := h.cG.flt (φ c) hC j hj
  have leftL : ∀ {a l}, users L.faceid d1 L.nbcells (L.faceid c j) = a :: l → L.cellid (L.faceid c j) 0 = (a : Int) := by
    intro a l e; rw [h.cL.cell0 _ hf, e]; simp [twoOf]
  have leftG : ∀ {a l}, users G.faceid d1 G.nbcells (G.faceid (φ c) j) = a :: l → G.cellid (G.faceid (φ c) j) 0 = (a : Int) := by
    intro a l e; rw [h.cG.cell0 _ hFF, e]; simp [twoOf]
  have rightL : ∀ {a b}, users L.faceid d1 L.nbcells (L.faceid c j) = [a, b] → L.name (L.faceid c j) = 0 →
      L.cellid (L.faceid c j) 1 = (b : Int) := by
    intro a b e hn; rw [h.cL.cell1 _ hf hn, e]; simp [twoOf]
  have rightG : ∀ {a b}, users G.faceid d1 G.nbcells (G.faceid (φ c) j) = [a, b] → G.name (G.faceid (φ c) j) = 0 →
      G.cellid (G.faceid (φ c) j) 1 = (b : Int) := by
    intro a b e hn; rw [h.cG.cell1 _ hFF hn, e]; simp [twoOf]
  obtain ⟨nG2, nG1⟩ := h.nameG _ hFF
  obtain ⟨nLh, nLn⟩ := h.nameL c hc j hj
  have noOther : (∀ E ∈ users G.faceid d1 G.nbcells (G.faceid (φ c) j), mine E) →
      ¬ ∃ E < G.nbcells, ¬ mine E ∧ Uses G.faceid d1 E (G.faceid (φ c) j) := by
    rintro hall ⟨E, h1, h2, h3⟩
    exact h2 (hall E ((mem_users _ _ _ _ _).mpr ⟨h1, h3⟩))
  rcases h.sub.cases hc hj with ⟨uG, uL⟩ | ⟨e, he, hne, ⟨j', hj', hfe, hFe⟩, hu⟩ | ⟨E, hE, hmE, ⟨j', hj', hFE⟩, uL, uG⟩
  · left
    obtain ⟨_, n1⟩ := nLn (noOther (by rw [uG]; intro E hE; rw [List.mem_singleton] at hE; rw [hE]; exact (h.sub.lt c hc).2))
    have hGn := nG1 (by rw [uG]; rfl)
    have hLe := n1 (by rw [uL]; rfl)
    have hLn : L.name (L.faceid c j) ∈ B := by rw [hLe]; exact hGn
    exact ⟨(h.cL.bnd.2 _).mpr ⟨hf, hLn⟩, (h.cG.bnd.2 _).mpr ⟨hFF, hGn⟩, hLn, hLe.symm, leftL uL, leftG uG⟩
  · right; left
    have hno : ¬ ∃ E < G.nbcells, ¬ mine E ∧ Uses G.faceid d1 E (G.faceid (φ c) j) := by
      apply noOther
      intro E hE
      have : E = φ c ∨ E = φ e := by
        rcases hu with ⟨uG, _⟩ | ⟨uG, _⟩ <;> rw [uG] at hE <;> simp at hE <;> tauto
      rcases this with rfl | rfl
      · exact (h.sub.lt c hc).2
      · exact (h.sub.lt e he).2
    obtain ⟨n2, _⟩ := nLn hno
    have hLn : L.name (L.faceid c j) = 0 := n2 (by rcases hu with ⟨_, u⟩ | ⟨_, u⟩ <;> rw [u] <;> rfl)
    have hGn : G.name (G.faceid (φ c) j) = 0 := nG2 (by rcases hu with ⟨u, _⟩ | ⟨u, _⟩ <;> rw [u] <;> rfl)
    refine ⟨e, he, hne, hLn, hGn, ?_⟩
    rcases hu with ⟨uG, uL⟩ | ⟨uG, uL⟩
    · left; exact ⟨leftL uL, rightL uL hLn, leftG uG, rightG uG hGn⟩
    · right; exact ⟨leftL uL, rightL uL hLn, leftG uG, rightG uG hGn⟩
  · right; right
    obtain ⟨hLn, row, E', hrow, hhead, hE', hm', hU'⟩ := nLh ⟨E, hE, hmE, j', hj', hFE⟩
    have hEE : E' = E := by
      have : E' ∈ users G.faceid d1 G.nbcells (G.faceid (φ c) j) := (mem_users _ _ _ _ _).mpr ⟨hE', hU'⟩
      have : E' = φ c ∨ E' = E := by
        rcases uG with u | u <;> rw [u] at this <;> simp at this <;> tauto
      rcases this with rfl | e
      · exact absurd (h.sub.lt c hc).2 hm'
      · exact e
    subst hEE
    have hGn : G.name (G.faceid (φ c) j) = 0 := nG2 (by rcases uG with u | u <;> rw [u] <;> rfl)
    refine ⟨E', hE, row, hmE, hLn, hGn, hrow, hhead, leftL uL, ?_⟩
    rcases uG with u | u
    · left; exact ⟨leftG u, rightG u hGn⟩
    · right; exact ⟨leftG u, rightG u hGn⟩

/-- The point on the other side of face `f`. -/
def otherPt (dim : Nat) (D : Tables K) (f : Nat) : Vec K :=
  if D.name f = 0 then D.center (idx (D.cellid f 1)) else if D.name f = 10 then D.centvol (D.halofid f)
  else fun k => (ghostPoint dim D f).getD k 0

/-- The value on the other side of face `f`. -/
def otherVal (D : Tables K) (w : Interp.Fields K) (f : Nat) : K :=
  if D.name f = 0 then w.c (idx (D.cellid f 1)) else if D.name f = 10 then w.halo (D.halofid f) else w.ghost f

/-- The two sides of a face: points and values. -/
def sideL (dim : Nat) (D : Tables K) (w : Interp.Fields K) (f : Nat) : Vec K × K := cut dim (D.center (idx (D.cellid f 0)), w.c (idx (D.cellid f 0)))
def sideR (dim : Nat) (D : Tables K) (w : Interp.Fields K) (f : Nat) : Vec K × K := cut dim (otherPt dim D f, otherVal D w f)

section
variable {dim : Nat} {nodeid : Nat → Nat → Nat} {node : Nat → K × K × K × Nat} {cv : Nat → List K} {npart0 epart : Nat → Nat}
  {nbnodes n SIZE : Nat} {data : Nat → RankData K} {serial : RankData K} {L : Nat → Tables K} {G : Tables K} {B : List Int}
  {out : Nat → Nat → Vec K} {trunc : K → Int}

theorem idx_cast (c : Nat) : idx (c : Int) = c := by simp [idx]

/-- A face has the same two sides on a rank and in the serial run (possibly in the other order). -/
theorem NodePair.across (h : NodePair dim nodeid node cv npart0 epart nbnodes n SIZE data serial L G B out trunc)
    (bc : Int → BCond K) {p : Nat} (hp : p < SIZE) {hg : HGResult K} {wL wG : Interp.Fields K}
    (vL : ValuesOk dim SIZE data L G wG.c bc p hg wL) (vG : ValuesG dim G bc wG) {c : Nat} (hc : c < (L p).nbcells) {j : Nat} (hj : j < dim + 1) :
    (sideL dim (L p) wL ((L p).faceid c j) = sideL dim G wG (G.faceid (phi (data p) c) j) ∧
      sideR dim (L p) wL ((L p).faceid c j) = sideR dim G wG (G.faceid (phi (data p) c) j)) ∨
    (sideL dim (L p) wL ((L p).faceid c j) = sideR dim G wG (G.faceid (phi (data p) c) j) ∧
      sideR dim (L p) wL ((L p).faceid c j) = sideL dim G wG (G.faceid (phi (data p) c) j)) := by
  have R := h.run.rank p hp
  have hC := (R.sub.lt c hc).1
  have hf := R.cL.flt c hc j hj
  have hFF := R.cG.flt (phi (data p) c) hC j hj
  have entry : ∀ e < (L p).nbcells, cut dim ((L p).center e, wL.c e) = cut dim (G.center (phi (data p) e), wG.c (phi (data p) e)) :=
    fun e he => h.cell_entry hp wG.c wL.c vL.cell he
  rcases R.kinds hc hj with ⟨hbL, hbG, hB, hnm, l0, g0⟩ | ⟨e, he, hne, hLn, hGn, hk⟩ | ⟨E, hE, row, hm, hLn, hGn, hrow, hhead, l0, hk⟩
  · left
    have n0 : (L p).name ((L p).faceid c j) ≠ 0 := fun x => R.cL.B0 (x ▸ hB)
    have n10 : (L p).name ((L p).faceid c j) ≠ 10 := fun x => R.cL.B10 (x ▸ hB)
    unfold sideL sideR otherPt otherVal
    rw [l0, g0, hnm, if_neg n0, if_neg n10, if_neg n0, if_neg n10, if_neg n0, if_neg n10, if_neg n0, if_neg n10, idx_cast, idx_cast]
    refine ⟨entry c hc, cut_eq (fun k hk => ?_) ?_⟩
    · rw [h.ghostPt p hp c hc j hj hbL]
    · obtain ⟨gL, eL⟩ := vL.ghost
      obtain ⟨gG, eG⟩ := vG.ghost
      rw [eL, eG, updateGhosts_apply _ _ _ _ _ hf (h.run.hB _ hB), updateGhosts_apply _ _ _ _ _ hFF (h.run.hB _ (hnm ▸ hB)), hnm]
      exact ghostVal_match h.run hp _ _ vL.cell hc hj hbL _
  · rcases hk with ⟨a1, a2, a3, a4⟩ | ⟨a1, a2, a3, a4⟩
    · left
      unfold sideL sideR otherPt otherVal
      rw [a1, a2, a3, a4, if_pos hLn, if_pos hLn, if_pos hGn, if_pos hGn]
      simp only [idx_cast]
      exact ⟨entry c hc, entry e he⟩
    · left
      unfold sideL sideR otherPt otherVal
      rw [a1, a2, a3, a4, if_pos hLn, if_pos hLn, if_pos hGn, if_pos hGn]
      simp only [idx_cast]
      exact ⟨entry e he, entry c hc⟩
  · have n0 : (L p).name ((L p).faceid c j) ≠ 0 := by rw [hLn]; decide
    have hkl : (L p).halofid ((L p).faceid c j) < (data p).halosext.length := (List.getElem?_eq_some_iff.mp hrow).1
    have hext : ext0 (data p) ((L p).halofid ((L p).faceid c j)) = E := by
      unfold ext0
      have e : (data p).halosext.getD ((L p).halofid ((L p).faceid c j)) [] = row := by
        rw [List.getD_eq_getElem?_getD, hrow]; rfl
      rw [e]
      cases row with
      | nil => simp at hhead
      | cons a l => simpa using hhead
    have hh := h.halo_entry hp wG.c wL.halo vL.halo hkl
    rw [hext] at hh
    have hR : sideR dim (L p) wL ((L p).faceid c j) = cut dim (G.center E, wG.c E) := by
      unfold sideR otherPt otherVal
      rw [if_neg n0, if_neg n0, if_pos hLn, if_pos hLn]; exact hh
    have hL' : sideL dim (L p) wL ((L p).faceid c j) = cut dim (G.center (phi (data p) c), wG.c (phi (data p) c)) := by
      unfold sideL; rw [l0, idx_cast]; exact entry c hc
    rw [hL', hR]
    unfold sideL sideR otherPt otherVal
    rw [if_pos hGn, if_pos hGn]
    rcases hk with ⟨a1, a2⟩ | ⟨a1, a2⟩
    · left; rw [a1, a2]; simp only [idx_cast]; exact ⟨trivial, trivial⟩
    · right; rw [a1, a2]; simp only [idx_cast]; exact ⟨trivial, trivial⟩

/-! ### the limiter -/

theorem limiterBounds_eq (dim : Nat) (hd : dim = 2 ∨ dim = 3) (D : Tables K) (w : Interp.Fields K) (faces : List Nat) (i : Nat)
    (hn : ∀ f ∈ faces, D.name f = 0 ∨ D.name f = 10 ∨ D.name f ∈ (if dim = 2 then [1, 2, 3, 4] else [1, 2, 3, 4, 5, 6] : List Int)) :
    limiterBounds dim w.c w.ghost w.halo (fun f => idx (D.cellid f 0)) (fun f => idx (D.cellid f 1)) D.halofid D.name faces i =
      faces.foldl (fun b f => (max b.1 (max (sideL dim D w f).2 (sideR dim D w f).2), min b.2 (min (sideL dim D w f).2 (sideR dim D w f).2)))
        (w.c i, w.c i) := by
  unfold limiterBounds
  apply List.foldl_ext
  intro b f hf
  have e : (if D.name f = 0 ∨ D.name f > 10 then w.c (idx (D.cellid f 1))
      else if dim = 2 then
        (if D.name f = 1 ∨ D.name f = 2 ∨ D.name f = 3 ∨ D.name f = 4 then w.ghost f else w.halo (D.halofid f))
      else if D.name f = 10 then w.halo (D.halofid f) else w.ghost f) = (sideR dim D w f).2 := by
    show _ = otherVal D w f
    unfold otherVal
    rcases hd with rfl | rfl
    · rcases hn f hf with h | h | h
      · simp [h]
      · simp [h]
      · simp only [if_true, List.mem_cons, List.not_mem_nil, or_false] at h
        rcases h with h | h | h | h <;> simp [h]
    · rcases hn f hf with h | h | h
      · simp [h]
      · simp [h]
      · simp only [show ¬ (3 : Nat) = 2 by decide, if_false, List.mem_cons, List.not_mem_nil, or_false] at h
        rcases h with h | h | h | h | h | h <;> simp [h]
  dsimp only
  rw [e]
  show (max (max b.1 (sideL dim D w f).2) _, min (min b.2 (sideL dim D w f).2) _) = _
  rw [max_assoc, min_assoc]

theorem NodePair.limiter_eq (h : NodePair dim nodeid node cv npart0 epart nbnodes n SIZE data serial L G B out trunc)
    (bc : Int → BCond K) {p : Nat} (hp : p < SIZE) {hg : HGResult K} {wL wG : Interp.Fields K}
    (vL : ValuesOk dim SIZE data L G wG.c bc p hg wL) (vG : ValuesG dim G bc wG) (eps : K) (gL gG : Nat → K × K × K)
    {c : Nat} (hc : c < (L p).nbcells) (hgr : gL c = gG (phi (data p) c)) :
    limiter dim eps (L p) wL gL c = limiter dim eps G wG gG (phi (data p) c) := by
  have R := h.run.rank p hp
  have hC := (R.sub.lt c hc).1
  have hd := h.run.hd
  have nmL : ∀ f ∈ (List.range (dim + 1)).map ((L p).faceid c), (L p).name f = 0 ∨ (L p).name f = 10 ∨
      (L p).name f ∈ (if dim = 2 then [1, 2, 3, 4] else [1, 2, 3, 4, 5, 6] : List Int) := by
    intro f hf
    obtain ⟨j, hj, rfl⟩ := List.mem_map.mp hf
    rw [← h.hBe]
    rcases R.kinds hc (List.mem_range.mp hj) with ⟨_, _, hB, _⟩ | ⟨_, _, _, hLn, _⟩ | ⟨_, _, _, _, hLn, _⟩
    · exact Or.inr (Or.inr hB)
    · exact Or.inl hLn
    · exact Or.inr (Or.inl hLn)
  have nmG : ∀ f ∈ (List.range (dim + 1)).map (G.faceid (phi (data p) c)), G.name f = 0 ∨ G.name f = 10 ∨
      G.name f ∈ (if dim = 2 then [1, 2, 3, 4] else [1, 2, 3, 4, 5, 6] : List Int) := by
    intro f hf
    obtain ⟨j, hj, rfl⟩ := List.mem_map.mp hf
    rw [← h.hBe]
    rcases R.kinds hc (List.mem_range.mp hj) with ⟨_, _, hB, hnm, _⟩ | ⟨_, _, _, _, hGn, _⟩ | ⟨_, _, _, _, _, hGn, _⟩
    · exact Or.inr (Or.inr (hnm ▸ hB))
    · exact Or.inl hGn
    · exact Or.inl hGn
  have hcw := vL.cell c hc
  unfold limiter barthLimiter
  rw [limiterBounds_eq dim hd (L p) wL _ c nmL, limiterBounds_eq dim hd G wG _ _ nmG, hgr, hcw]
  have hb : ((List.range (dim + 1)).map ((L p).faceid c)).foldl (fun b f => (max b.1 (max (sideL dim (L p) wL f).2 (sideR dim (L p) wL f).2),
        min b.2 (min (sideL dim (L p) wL f).2 (sideR dim (L p) wL f).2))) (wG.c (phi (data p) c), wG.c (phi (data p) c)) =
      ((List.range (dim + 1)).map (G.faceid (phi (data p) c))).foldl (fun b f => (max b.1 (max (sideL dim G wG f).2 (sideR dim G wG f).2),
        min b.2 (min (sideL dim G wG f).2 (sideR dim G wG f).2))) (wG.c (phi (data p) c), wG.c (phi (data p) c)) := by
    rw [List.foldl_map, List.foldl_map]
    apply List.foldl_ext
    intro b j hj
    rcases h.across bc hp vL vG hc (List.mem_range.mp hj) with ⟨e1, e2⟩ | ⟨e1, e2⟩
    · rw [e1, e2]
    · rw [e1, e2, max_comm (sideR dim G wG _).2, min_comm (sideR dim G wG _).2]
  rw [hb]
  generalize ((List.range (dim + 1)).map (G.faceid (phi (data p) c))).foldl (fun b f => (max b.1 (max (sideL dim G wG f).2 (sideR dim G wG f).2),
        min b.2 (min (sideL dim G wG f).2 (sideR dim G wG f).2))) (wG.c (phi (data p) c), wG.c (phi (data p) c)) = bb
  rw [List.foldl_map, List.foldl_map]
  apply List.foldl_ext
  intro b j hj
  have fc := R.fcenter c hc j (List.mem_range.mp hj)
  have cc := R.center c hc
  rw [fc 0 (by omega), fc 1 (by omega), fc 2 (by omega), cc 0 (by omega), cc 1 (by omega), cc 2 (by omega)]

end
end Verif.Props.Par
