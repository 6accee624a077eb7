import Verif.Props.ParValues
import Verif.Spec.ParallelBC

/-! Helper lemmas for the parallel theorems: the stencils of nodes and cells on a rank and in the serial run. -/
set_option linter.unusedSectionVars false
set_option linter.unusedVariables false
set_option linter.unusedSimpArgs false
namespace Verif.Props.Par
open Verif.Fvm Verif.Spec Verif.Conn Verif.Dom Verif.Geo Verif.Names Verif.MeshFile Verif.Part Verif.Comm Verif.Run Verif.HaloGhost Verif.Interp
variable {K : Type*} [Field K] [LinearOrder K] [IsStrictOrderedRing K]

section
variable {dim : Nat} {nodeid : Nat → Nat → Nat} {node : Nat → K × K × K × Nat} {cv : Nat → List K} {npart0 epart : Nat → Nat}
  {nbnodes n SIZE : Nat} {data : Nat → RankData K} {serial : RankData K} {L : Nat → Tables K} {G : Tables K} {B : List Int}
  {out : Nat → Nat → Vec K} {trunc : K → Int}

theorem NodePair.oldname_eq (h : NodePair dim nodeid node cv npart0 epart nbnodes n SIZE data serial L G B out trunc) {p : Nat} (hp : p < SIZE)
    {i : Nat} (hi : i < (L p).nbnodes) : (L p).oldname i = G.oldname (gOf (data p) i) := by
  rw [h.nbL p hp] at hi
  rw [h.oldnameL p hp, h.oldnameG, h.vertexL p hp, h.vertexG, h.hl.vertex_eq hp hi 3 (by omega)]

theorem NodePair.remote_shared (h : NodePair dim nodeid node cv npart0 epart nbnodes n SIZE data serial L G B out trunc)
    {γ : Nat → Nat → Nat} (hγ : ∀ p < SIZE, ∀ c < (L p).nbcells, ∀ j < dim + 1, γ p ((L p).faceid c j) = G.faceid (phi (data p) c) j)
    {p : Nat} (hp : p < SIZE) {i : Nat} (hi : i < (L p).nbnodes) {e : Nat × Nat} (he : e ∈ remPairs SIZE data L p (gOf (data p) i)) :
    SharedNode dim nodeid epart n (gOf (data p) i) ∧ (∃ E < n, epart E ≠ p ∧ Uses nodeid (dim + 1) E (gOf (data p) i)) ∧
    γ e.1 e.2 ∈ G.boundaryfaces ∧ gOf (data p) i ∈ G.fnode (γ e.1 e.2) := by
  obtain ⟨hq, hqp, j', hj', hn, hg, hf⟩ := (mem_remPairs p _ e).mp he
  obtain ⟨c, hc, j, hj, _, e1, hm, _, _, _⟩ := h.bf_global hγ hq hf
  obtain ⟨_, m2, m3⟩ := (mem_bf _ _ _).mp hm
  rw [hg] at m3
  have hphi := h.hl.phi_lt hq (by rw [← h.nL hq]; exact hc)
  have hu : Uses nodeid (dim + 1) (phi (data e.1) c) (gOf (data p) i) := by
    rw [e1] at m3
    exact (h.fnodeG _ hphi.1 j hj).2.2 _ m3
  have hi2 := hi
  rw [h.nbL p hp] at hi2
  obtain ⟨a, ha, ja, hja, _, ea⟩ := h.hl.node_used hp hi2
  have hpa := h.hl.phi_lt hp ha
  refine ⟨⟨_, hpa.1, _, hphi.1, ?_, ⟨ja, hja, ea⟩, hu⟩, ⟨_, hphi.1, by rw [hphi.2]; exact hqp, hu⟩, m2, m3⟩
  rw [hpa.2, hphi.2]; exact fun x => hqp x.symm

/-- The value stored for a ghost received from another rank is the one the serial run stores on the face. -/
theorem NodePair.remote_value (h : NodePair dim nodeid node cv npart0 epart nbnodes n SIZE data serial L G B out trunc)
    {γ : Nat → Nat → Nat} (hγ : ∀ p < SIZE, ∀ c < (L p).nbcells, ∀ j < dim + 1, γ p ((L p).faceid c j) = G.faceid (phi (data p) c) j)
    {p : Nat} (hp : p < SIZE) {hg : HGResult K} {rows : Nat → List (GRow K)} (s : HGSpec dim SIZE data L p hg rows)
    (bc : Int → BCond K) {i : Nat} (hbc : ∀ F ∈ G.boundaryfaces, gOf (data p) i ∈ G.fnode F → SharedNode dim nodeid epart n (gOf (data p) i) →
      CornerOk dim bc (G.name F) (G.oldname (gOf (data p) i)))
    (W whalo g0 : Nat → K) (hw : ∀ k < (data p).halosext.length, whalo k = W (ext0 (data p) k))
    (hi : i ∈ halonodes (L p)) {j : Nat} {r : GRow K} {e : Nat × Nat} (hr : (rows i)[j]? = some r)
    (he : (remPairs SIZE data L p (gOf (data p) i))[j]? = some e) :
    r.pt = ghostPoint dim G (γ e.1 e.2) ∧ r.last ≠ -1 ∧
    updateHaloghosts dim (L p) hg (halonodes (L p)) whalo bc g0 r.last.toNat = ghostVal G W (γ e.1 e.2) (bc (G.name (γ e.1 e.2))) := by
  have hem := List.mem_of_getElem? he
  have hil := ((mem_halonodes _ _).mp hi).1
  obtain ⟨hsh, _, hF, hs⟩ := h.remote_shared hγ hp hil hem
  obtain ⟨hq, hqp, j', hj', hn, hgg, hf⟩ := (mem_remPairs p _ e).mp hem
  obtain ⟨c, hc, jj, hjj, ef, e1, hm, enm, c0, C0⟩ := h.bf_global hγ hq hf
  have hrmem := List.mem_of_getElem? hr
  have hdesc : r.pt = ghostPoint dim (L e.1) e.2 ∧ r.name = (L e.1).name e.2 ∧ r.last ≠ -1 ∧
    ∃ k : Nat, r.cell = (k : Int) ∧ k < (data p).halosext.length ∧ ext0 (data p) k = phi (data e.1) ((L e.1).cellid e.2 0).toNat := by
    obtain ⟨hj1, ej1⟩ := List.getElem?_eq_some_iff.mp hr
    obtain ⟨hj2, ej2⟩ := List.getElem?_eq_some_iff.mp he
    have := (List.forall₂_iff_get.mp (s.desc i hi)).2 j hj1 hj2
    simpa [ej1, ej2] using this
  obtain ⟨d1, d2, d3, k, d4, d5, d6⟩ := hdesc
  have hbL : e.2 ∈ (L e.1).boundaryfaces := ((mem_bf _ _ _).mp hf).2.1
  refine ⟨?_, d3, ?_⟩
  · rw [d1, e1, ef]
    rw [ef] at hbL
    exact h.ghostPt _ hq c hc jj hjj hbL
  have hnB : G.name (γ e.1 e.2) ∈ B := by
    have h0 : 0 < SIZE := by omega
    exact (((h.run.rank 0 h0).cG.bnd.2 _).mp hF).2
  rw [s.update whalo bc g0 hi hrmem (by rw [d2, enm]; exact h.run.hB _ hnB), d2, enm]
  rcases hbc _ hF hs hsh with hneu | ⟨v, v', hv, hv', hvv⟩
  · rw [hneu]
    simp only [hgVal, ghostVal]
    rw [d4, Int.toNat_natCast, hw k d5, d6, c0, C0]
    simp [idx]
  · rw [hv]
    simp only [hgVal, ghostVal]
    have hold := h.oldname_eq hp hil
    rw [s.vh bc hi hr v' (by rw [hold]; exact hv') (by rw [hold]; exact h.run.hB _ (h.labelG _ hF _ hs))]
    obtain ⟨m, _, einfo⟩ := s.halo i hi
    obtain ⟨hj2, ej2⟩ := List.getElem?_eq_some_iff.mp he
    have hrow : (hg.haloinfo i).getD j [] = faceInfo dim (L e.1) e.2 := by
      rw [einfo, List.getD_eq_getElem?_getD, List.getElem?_append_left (by simpa using hj2), List.getElem?_map, he]; rfl
    rw [hrow]
    have hfc := (h.run.rank _ hq).fcenter c hc jj hjj
    rw [← ef, ← e1] at hfc
    rw [← hfc 0 (by omega), ← hfc 1 (by omega), ← hfc 2 (by omega)]
    unfold faceInfo
    rcases h.run.hd with rfl | rfl
    · exact hvv _ _ _ _ (Or.inl rfl)
    · exact hvv _ _ _ _ (Or.inr rfl)

/-- A ghost point with its value, in the serial run. -/
def EF (dim : Nat) (G : Tables K) (W : Nat → K) (bc : Int → BCond K) (F : Nat) : Vec K × K :=
  cut dim (fun k => (ghostPoint dim G F).getD k 0, ghostVal G W F (bc (G.name F)))

/-- A cell centre with its value, in the serial run. -/
def EC (dim : Nat) (G : Tables K) (W : Nat → K) (C : Nat) : Vec K × K := cut dim (G.center C, W C)

/-- The points of a padded ghost list. -/
theorem ghostPart_pad (dim : Nat) (rows : List (GRow K)) (m : Nat) (hr : ∀ r ∈ rows, r.last ≠ -1) (val : Nat → K) :
    ghostPart ((rows ++ List.replicate m (HaloGhost.padRow dim)).map rowPt) val =
      rows.map (fun r => ((fun k => r.pt.getD k 0 : Vec K), val r.last.toNat)) := by
  unfold ghostPart
  rw [List.map_append, List.filter_append, List.filter_eq_self.mpr, List.filter_eq_nil_iff.mpr, List.append_nil, List.map_map]
  · rfl
  · intro g hg
    obtain ⟨r, hr, rfl⟩ := List.mem_map.mp hg
    rw [(List.mem_replicate.mp hr).2]; simp [HaloGhost.padRow, rowPt]
  · intro g hg
    obtain ⟨r, hr', rfl⟩ := List.mem_map.mp hg
    simpa [rowPt] using hr r hr'

theorem firstGhost_pad (dim : Nat) (rows : List (GRow K)) (m : Nat) (hr : ∀ r ∈ rows, r.last ≠ -1) (val : Nat → K) :
    (if firstGhost ((rows ++ List.replicate m (HaloGhost.padRow dim)).map rowPt) ≠ -1 then
      ghostPart ((rows ++ List.replicate m (HaloGhost.padRow dim)).map rowPt) val else []) =
    ghostPart ((rows ++ List.replicate m (HaloGhost.padRow dim)).map rowPt) val := by
  split_ifs with h
  · rfl
  · rw [ghostPart_pad dim rows m hr]
    cases rows with
    | nil => rfl
    | cons r rs =>
      exfalso; apply h
      simpa [firstGhost, rowPt] using hr r (by simp)

theorem rowOf_last (dim : Nat) (D : Tables K) (l : List Nat) : ∀ r ∈ l.map (rowOf dim D), r.last ≠ -1 := by
  intro r hr
  obtain ⟨f, _, rfl⟩ := List.mem_map.mp hr
  simp only [rowOf]
  omega

/-- The local ghosts of a node. -/
theorem NodePair.own_part (h : NodePair dim nodeid node cv npart0 epart nbnodes n SIZE data serial L G B out trunc)
    {γ : Nat → Nat → Nat} (hγ : ∀ p < SIZE, ∀ c < (L p).nbcells, ∀ j < dim + 1, γ p ((L p).faceid c j) = G.faceid (phi (data p) c) j)
    {p : Nat} (hp : p < SIZE) (bc : Int → BCond K) (W cell g0 : Nat → K) (hr : ∀ c < (L p).nbcells, cell c = W (phi (data p) c))
    (i m : Nat) :
    (ghostPart (((bf (L p) i).map (rowOf dim (L p)) ++ List.replicate m (HaloGhost.padRow dim)).map rowPt)
      (updateGhosts dim (L p) cell bc g0)).map (cut dim) = ((bf (L p) i).map (γ p)).map (EF dim G W bc) := by
  rw [ghostPart_pad _ _ _ (rowOf_last _ _ _), List.map_map, List.map_map, List.map_map]
  apply List.map_congr_left
  intro f hf
  obtain ⟨c, hc, j, hj, ef, e1, hm, enm, c0, C0⟩ := h.bf_global hγ hp hf
  obtain ⟨hfl, hfb, _⟩ := (mem_bf _ _ _).mp hf
  have hnB := (((h.run.rank p hp).cL.bnd.2 _).mp hfb).2
  have hpt : ghostPoint dim (L p) f = ghostPoint dim G (γ p f) := by
    rw [e1, ef]; exact h.ghostPt p hp c hc j hj (by rw [← ef]; exact hfb)
  have hval : updateGhosts dim (L p) cell bc g0 f = ghostVal G W (γ p f) (bc (G.name (γ p f))) := by
    rw [updateGhosts_apply _ _ _ _ _ hfl (h.run.hB _ hnB), ← enm, e1, ef]
    exact ghostVal_match h.run hp cell W hr hc hj (by rw [← ef]; exact hfb) _
  simp only [Function.comp_apply, rowOf, Int.toNat_natCast, EF, hpt, hval]

theorem NodePair.own_partG (h : NodePair dim nodeid node cv npart0 epart nbnodes n SIZE data serial L G B out trunc)
    (bc : Int → BCond K) (W g0 : Nat → K) (i m : Nat) :
    (ghostPart (((bf G i).map (rowOf dim G) ++ List.replicate m (HaloGhost.padRow dim)).map rowPt)
      (updateGhosts dim G W bc g0)).map (cut dim) = (bf G i).map (EF dim G W bc) := by
  have h0 : 0 < SIZE := by have := h.run.hS; omega
  rw [ghostPart_pad _ _ _ (rowOf_last _ _ _), List.map_map, List.map_map]
  apply List.map_congr_left
  intro f hf
  obtain ⟨hfl, hfb, _⟩ := (mem_bf _ _ _).mp hf
  have hnB := (((h.run.rank 0 h0).cG.bnd.2 _).mp hfb).2
  simp only [Function.comp_apply, rowOf, Int.toNat_natCast, EF]
  rw [updateGhosts_apply _ _ _ _ _ hfl (h.run.hB _ hnB)]

/-- The ghosts of a node received from other ranks. -/
theorem NodePair.remote_part (h : NodePair dim nodeid node cv npart0 epart nbnodes n SIZE data serial L G B out trunc)
    (star : StarConnected dim nodeid n)
    {γ : Nat → Nat → Nat} (hγ : ∀ p < SIZE, ∀ c < (L p).nbcells, ∀ j < dim + 1, γ p ((L p).faceid c j) = G.faceid (phi (data p) c) j)
    {p : Nat} (hp : p < SIZE) {hg : HGResult K} {rows : Nat → List (GRow K)} (s : HGSpec dim SIZE data L p hg rows)
    (bc : Int → BCond K) {i : Nat} (hbc : ∀ F ∈ G.boundaryfaces, gOf (data p) i ∈ G.fnode F → SharedNode dim nodeid epart n (gOf (data p) i) →
      CornerOk dim bc (G.name F) (G.oldname (gOf (data p) i)))
    (W whalo g0 : Nat → K) (hw : ∀ k < (data p).halosext.length, whalo k = W (ext0 (data p) k))
    (hi : i < (L p).nbnodes) :
    (ghostPart ((hg.haloghosts i).map rowPt) (updateHaloghosts dim (L p) hg (halonodes (L p)) whalo bc g0)).map (cut dim) =
      ((remPairs SIZE data L p (gOf (data p) i)).map (fun e => γ e.1 e.2)).map (EF dim G W bc) := by
  by_cases hin : i ∈ halonodes (L p)
  · obtain ⟨m, e1, _⟩ := s.halo i hin
    have hl : ∀ r ∈ rows i, r.last ≠ -1 := fun r hr => by
      obtain ⟨e, _, hx⟩ := forall2_left (s.desc i hin) hr
      exact hx.2.2.1
    rw [e1, ghostPart_pad _ _ _ hl, List.map_map, List.map_map]
    apply List.ext_getElem?
    intro j
    have hlen := (s.desc i hin).length_eq
    rw [List.getElem?_map, List.getElem?_map]
    by_cases hj : j < (rows i).length
    · have hj' : j < (remPairs SIZE data L p (gOf (data p) i)).length := by omega
      have a1 := List.getElem?_eq_getElem hj
      have a2 := List.getElem?_eq_getElem hj'
      obtain ⟨r1, _, r3⟩ := h.remote_value hγ hp s bc hbc W whalo g0 hw hin a1 a2
      rw [a1, a2]
      simp only [Option.map_some, Function.comp_apply, EF, r1, r3]
    · rw [List.getElem?_eq_none (by omega), List.getElem?_eq_none (by omega)]; rfl
  · obtain ⟨m, e1⟩ := s.other i hi hin
    have hnil : remPairs SIZE data L p (gOf (data p) i) = [] := by
      rw [List.eq_nil_iff_forall_not_mem]
      intro e he
      obtain ⟨_, ⟨E, hE, hEp, hu⟩, _⟩ := h.remote_shared hγ hp hi he
      exact hin ((mem_halonodes _ _).mpr ⟨hi, h.named star hp hi hE hEp hu⟩)
    have := ghostPart_pad dim ([] : List (GRow K)) m (by simp) (updateHaloghosts dim (L p) hg (halonodes (L p)) whalo bc g0)
    rw [List.nil_append] at this
    rw [e1, this, hnil]; rfl

end
end Verif.Props.Par
