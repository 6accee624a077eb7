import Verif.Props.DarcyConst
import Verif.Props.Renum
import Verif.Spec.Affine

/-!
# C128: linear potentials

The linear systems (Poisson and Darcy problems) reproduce linear potentials exactly, as the Poisson tests of the project expect, when the
Dirichlet sides are equipotentials.
-/
set_option linter.unusedSectionVars false
set_option linter.unusedVariables false
set_option linter.unusedSimpArgs false
namespace Verif.Props.Par
open Verif.Fvm Verif.Spec Verif.Conn Verif.Dom Verif.Geo Verif.Names Verif.MeshFile Verif.Part Verif.Comm Verif.Run Verif.HaloGhost Verif.Interp
open Verif.LinSolve (ReadsRows SolvedWith InPlace)
variable {K : Type*} [Field K] [LinearOrder K] [IsStrictOrderedRing K]

theorem affine_cut (dim : Nat) (a : K) (g : Vec K) (x : Vec K × K) : affine dim a g (cut dim x).1 = affine dim a g x.1 := by
  unfold affine cut
  congr 1
  refine Finset.sum_congr rfl fun k hk => ?_
  simp only [if_pos (Finset.mem_range.mp hk)]

theorem gradPts2_affine (p q l r : Vec K × K) (a : K) (g : Vec K) (hp : p.2 = affine 2 a g p.1) (hq : q.2 = affine 2 a g q.1)
    (hl : l.2 = affine 2 a g l.1) (hr : r.2 = affine 2 a g r.1)
    (hA : (q.1 0 - p.1 0) * (r.1 1 - l.1 1) + (l.1 0 - r.1 0) * (q.1 1 - p.1 1) ≠ 0) {k : Nat} (hk : k < 2) : gradPts2 p q l r k = g k := by
  obtain ⟨A, hA'⟩ : ∃ A, A = (q.1 0 - p.1 0) * (r.1 1 - l.1 1) + (l.1 0 - r.1 0) * (q.1 1 - p.1 1) := ⟨_, rfl⟩
  simp only [affine, Finset.sum_range_succ, Finset.sum_range_zero, zero_add] at hp hq hl hr
  interval_cases k
  · show ((p.2 - q.2) * (l.1 1 - r.1 1) + (l.2 - r.2) * (q.1 1 - p.1 1)) / _ = _
    rw [← hA'] at hA ⊢
    rw [div_eq_iff hA, hp, hq, hl, hr, hA']; ring
  · show - (((p.2 - q.2) * (l.1 0 - r.1 0) + (l.2 - r.2) * (q.1 0 - p.1 0)) / _) = _
    rw [← hA'] at hA ⊢
    rw [← neg_div, div_eq_iff hA, hp, hq, hl, hr, hA']; ring

theorem gradPts3_affine (p q c l r : Vec K × K) (a : K) (g : Vec K) (hp : p.2 = affine 3 a g p.1) (hq : q.2 = affine 3 a g q.1)
    (hc : c.2 = affine 3 a g c.1) (hl : l.2 = affine 3 a g l.1) (hr : r.2 = affine 3 a g r.1)
    (hA : dot3 (Geo.wedge (fun k => q.1 k - p.1 k) (fun k => c.1 k - p.1 k)) (fun k => r.1 k - l.1 k) ≠ 0) {k : Nat} (hk : k < 3) :
    gradPts3 p q c l r k = g k := by
  unfold gradPts3
  dsimp only
  rw [div_eq_iff hA]
  simp only [affine, Finset.sum_range_succ, Finset.sum_range_zero, zero_add] at hp hq hc hl hr
  rw [hp, hq, hc, hl, hr]
  interval_cases k <;> simp only [dot3, Geo.wedge] <;> ring

/-- In 2D the stored normal is proportional to the turned edge. -/
def EdgeOk (D : Tables K) : Prop := ∀ f < D.nbfaces, ∃ s : K, s ≠ 0 ∧
  D.normal f 0 = s * (D.vertex ((D.fnode f).getD 0 0) 1 - D.vertex ((D.fnode f).getD 1 0) 1) ∧
  D.normal f 1 = s * (D.vertex ((D.fnode f).getD 1 0) 0 - D.vertex ((D.fnode f).getD 0 0) 0)

/-- The gradient of affine data on a diamond that is not flat. -/
theorem gradD_affine {dim : Nat} (hd : dim = 2 ∨ dim = 3) (D : Tables K) (he : dim = 2 → EdgeOk D) (hw : dim = 3 → WedgeOk D) (nd : Nat → K)
    {f : Nat} (hf : f < D.nbfaces) (l r : Vec K × K) (a : K) (g : Vec K)
    (hn : ∀ i < dim, nd ((D.fnode f).getD i 0) = affine dim a g (D.vertex ((D.fnode f).getD i 0)))
    (hl : l.2 = affine dim a g l.1) (hr : r.2 = affine dim a g r.1)
    (hs : ∑ k ∈ Finset.range dim, D.normal f k * (r.1 k - l.1 k) ≠ 0) {k : Nat} (hk : k < dim) : gradD dim D nd f l r k = g k := by
  have hnp : ∀ i < dim, (cut dim (nodePt D nd f i)).2 = affine dim a g (cut dim (nodePt D nd f i)).1 := fun i hi => by
    rw [affine_cut]; exact hn i hi
  have cutv : ∀ i k, k < dim → (cut dim (nodePt D nd f i)).1 k = D.vertex ((D.fnode f).getD i 0) k := fun i k hk => if_pos hk
  unfold gradD
  rcases hd with rfl | rfl
  · rw [if_pos rfl]
    obtain ⟨s, _, e0, e1⟩ := he rfl f hf
    refine gradPts2_affine _ _ _ _ a g (hnp 0 (by omega)) (hnp 1 (by omega)) hl hr ?_ hk
    rw [cutv 0 0 (by omega), cutv 0 1 (by omega), cutv 1 0 (by omega), cutv 1 1 (by omega)]
    intro hz
    apply hs
    simp only [Finset.sum_range_succ, Finset.sum_range_zero, zero_add]
    rw [e0, e1]
    linear_combination s * hz
  · rw [if_neg (by decide)]
    refine gradPts3_affine _ _ _ _ _ a g (hnp 0 (by omega)) (hnp 1 (by omega)) (hnp 2 (by omega)) hl hr ?_ hk
    have w0 := hw rfl f hf 0 (by omega)
    have w1 := hw rfl f hf 1 (by omega)
    have w2 := hw rfl f hf 2 (by omega)
    intro hz
    apply hs
    simp only [Finset.sum_range_succ, Finset.sum_range_zero, zero_add]
    simp only [dot3, Geo.wedge] at hz w0 w1 w2
    rw [cutv 0 0 (by omega), cutv 0 1 (by omega), cutv 0 2 (by omega), cutv 1 0 (by omega), cutv 1 1 (by omega), cutv 1 2 (by omega), cutv 2 0 (by omega), cutv 2 1 (by omega), cutv 2 2 (by omega)] at hz
    linear_combination (1 / 2) * hz - (1 / 2) * (r.1 0 - l.1 0) * w0 - (1 / 2) * (r.1 1 - l.1 1) * w1 - (1 / 2) * (r.1 2 - l.1 2) * w2

/-- Every cell lies inside its faces. -/
def OutPos (dim : Nat) (D : Tables K) (out : Nat → Nat → Vec K) : Prop := ∀ C < D.nbcells, ∀ j < dim + 1,
  0 < ∑ k ∈ Finset.range dim, out C j k * (D.fcenter (D.faceid C j) k - D.center C k)

/-- The ghost point is the mirror image of the cell centre. -/
def Mirror (dim : Nat) (D : Tables K) : Prop := ∀ f ∈ D.boundaryfaces, ∃ t, (∀ k < dim,
    (ghostPoint dim D f).getD k 0 - D.center (idx (D.cellid f 0)) k = t * D.normal f k) ∧
  t * ∑ k ∈ Finset.range dim, D.normal f k ^ 2 = 2 * ∑ k ∈ Finset.range dim, D.normal f k * (D.fcenter f k - D.center (idx (D.cellid f 0)) k)

section
variable {nodeid : Nat → Nat → Nat} {node : Nat → K × K × K × Nat} {npart0 epart : Nat → Nat}
  {nbnodes n SIZE : Nat} {data : Nat → RankData K} {serial : RankData K}

theorem outPos2 (h : Launched 3 nodeid node (centvol2 node nodeid) npart0 epart nbnodes n SIZE data serial)
    (vm : ValidMesh2 nodeid node nbnodes n) (sqrt : K → K) (trunc : K → Int) (htr : ∀ m : Nat, trunc (m : K) = m) :
    OutPos 2 (build2 sqrt trunc 1 serial) (out2 serial) := by
  intro C hC j hj
  have hl : C < serial.nodeid.length := hC
  have hn : (build2 sqrt trunc 1 serial).nbcells = n := h.serial_cells.1
  have ne := tst_side_ne serial hl (h.nonFlatS vm (hn ▸ hC)) hj
  simp only [Finset.sum_range_succ, Finset.sum_range_zero, zero_add]
  rw [fcenter_side2 sqrt trunc 1 serial hl hj, center_build2 sqrt trunc 1 serial hl]
  unfold out2
  rw [orientedNormal2_eq]
  split
  · rename_i h1
    unfold tst at h1
    linarith
  · rename_i h1
    have h2 := lt_of_le_of_ne (not_lt.mp h1) ne
    unfold tst at h2
    linarith

theorem outPos3 (h : Launched 4 nodeid node (centvol3 node nodeid) npart0 epart nbnodes n SIZE data serial)
    (vm : ValidMesh3 nodeid node nbnodes n) (sqrt : K → K) (trunc : K → Int) (htr : ∀ m : Nat, trunc (m : K) = m) :
    OutPos 3 (build3 sqrt trunc 1 serial) (out3 serial) := by
  intro C hC j hj
  have hl : C < serial.nodeid.length := hC
  have hn : (build3 sqrt trunc 1 serial).nbcells = n := h.serial_cells.1
  have ne := tst3_side_ne serial (h.nonFlatS3 vm (hn ▸ hC)) hj
  simp only [Finset.sum_range_succ, Finset.sum_range_zero, zero_add]
  rw [fcenter_side3 sqrt trunc 1 serial hl hj, center_build3 sqrt trunc 1 serial hl]
  unfold out3
  rw [orientedNormal3_eq]
  unfold cen3 at ne ⊢
  split
  · rename_i h1
    unfold tst3 at h1
    linarith
  · rename_i h1
    have h2 := lt_of_le_of_ne (not_lt.mp h1) ne
    unfold tst3 at h2
    linarith

theorem edge_build2 (sqrt : K → K) (trunc : K → Int) : EdgeOk (build2 sqrt trunc 1 serial) := by
  intro f hf
  rw [normal_build2 sqrt trunc 1 serial hf, orientedNormal2_eq]
  split
  · refine ⟨-1, by norm_num, ?_, ?_⟩ <;> show -1 * rawNormal2 _ _ _ _ = _ <;> simp only [rawNormal2] <;> rfl
  · refine ⟨1, by norm_num, ?_, ?_⟩ <;> simp only [rawNormal2, one_mul] <;> rfl

theorem mirror2 (D : Tables K) (he : EdgeOk D) (hb : ∀ f ∈ D.boundaryfaces, f < D.nbfaces)
    (hm : ∀ f ∈ D.boundaryfaces, ∀ k < 2, D.fcenter f k = (D.vertex ((D.fnode f).getD 0 0) k + D.vertex ((D.fnode f).getD 1 0) k) / 2)
    (h0 : ∀ f ∈ D.boundaryfaces, D.normal f 0 ≠ 0 ∨ D.normal f 1 ≠ 0) : Mirror 2 D := by
  intro f hf
  obtain ⟨s, s0, e0, e1⟩ := he f (hb f hf)
  have m0 := hm f hf 0 (by omega)
  have m1 := hm f hf 1 (by omega)
  obtain ⟨P, hP⟩ : ∃ P, P = D.vertex ((D.fnode f).getD 0 0) := ⟨_, rfl⟩
  obtain ⟨Q, hQ⟩ : ∃ Q, Q = D.vertex ((D.fnode f).getD 1 0) := ⟨_, rfl⟩
  obtain ⟨v, hv⟩ : ∃ v, v = D.center (idx (D.cellid f 0)) := ⟨_, rfl⟩
  rw [← hP, ← hQ] at e0 e1 m0 m1
  have hd : (Q 0 - P 0) ^ 2 + (Q 1 - P 1) ^ 2 ≠ 0 := by
    intro hz
    have a := sq_nonneg (Q 0 - P 0)
    have b := sq_nonneg (Q 1 - P 1)
    have a0 : Q 0 - P 0 = 0 := pow_eq_zero_iff (two_ne_zero) |>.mp (by linarith)
    have b0 : Q 1 - P 1 = 0 := pow_eq_zero_iff (two_ne_zero) |>.mp (by linarith)
    rcases h0 f hf with h | h
    · exact h (by rw [e0]; linear_combination -s * b0)
    · exact h (by rw [e1]; linear_combination s * a0)
  obtain ⟨w, hw⟩ : ∃ w, w = (Q 0 - P 0) ^ 2 + (Q 1 - P 1) ^ 2 := ⟨_, rfl⟩
  rw [← hw] at hd
  refine ⟨2 * ((v 1 - P 1) * (P 0 - Q 0) - (v 0 - P 0) * (P 1 - Q 1)) / (s * w), fun k hk => ?_, ?_⟩
  · unfold ghostPoint
    rw [← hP, ← hQ, ← hv, if_pos rfl]
    interval_cases k
    · rw [e0]
      simp only [ghostcenter2, List.getD_cons_zero]
      rw [← hw]
      field_simp
      rw [hw]; ring
    · rw [e1]
      simp only [ghostcenter2, List.getD_cons_zero, List.getD_cons_succ]
      rw [← hw]
      field_simp
      rw [hw]; ring
  · simp only [Finset.sum_range_succ, Finset.sum_range_zero, zero_add]
    rw [e0, e1, ← hv, m0, m1]
    field_simp
    rw [hw]; ring

theorem mirror_build2 (h : Launched 3 nodeid node (centvol2 node nodeid) npart0 epart nbnodes n SIZE data serial)
    (vm : ValidMesh2 nodeid node nbnodes n) (sqrt : K → K) (hs : ∀ x, 0 < x → sqrt x ≠ 0) (trunc : K → Int) (htr : ∀ m : Nat, trunc (m : K) = m) :
    Mirror 2 (build2 sqrt trunc 1 serial) := by
  have np := h.nodePair2 vm sqrt trunc htr
  have h0 : 0 < SIZE := by have := np.run.hS; omega
  have R := np.run.rank 0 h0
  have sd := h.solid2 vm sqrt hs trunc htr
  have hb : ∀ f ∈ (build2 sqrt trunc 1 serial).boundaryfaces, f < (build2 sqrt trunc 1 serial).nbfaces := fun f hf => ((R.cG.bnd.2 f).mp hf).1
  refine mirror2 _ (edge_build2 sqrt trunc) hb ?_ ?_
  · intro f hf k hk
    rw [fcenter_build2 sqrt trunc 1 serial (hb f hf)]
    interval_cases k <;> simp only [centerf2] <;> first | rfl | (show _ = (vtx serial _ _ + vtx serial _ _) / 2; ring_nf; rfl)
  · intro f hf
    have hf1 := hb f hf
    obtain ⟨C, hC, j, hj, rfl⟩ := R.cG.fsurj f hf1
    have hb := sd.big C hC j hj
    rcases R.gkinds hC hj with ⟨_, _, _, e⟩ | ⟨_, _, _, _, _, k, _⟩
    · have hn := R.normalG C hC j hj e
      rw [← hn 0 (by omega), ← hn 1 (by omega), out2_third] at hb
      by_contra hcon
      push Not at hcon
      rw [hcon.1, hcon.2] at hb
      simp at hb
    · exact absurd hf k

theorem mirror_build3 (h : Launched 4 nodeid node (centvol3 node nodeid) npart0 epart nbnodes n SIZE data serial)
    (vm : ValidMesh3 nodeid node nbnodes n) (sqrt : K → K) (hs : ∀ x, 0 < x → sqrt x * sqrt x = x) (trunc : K → Int) (htr : ∀ m : Nat, trunc (m : K) = m) :
    Mirror 3 (build3 sqrt trunc 1 serial) := by
  have np := h.nodePair3 vm sqrt trunc htr
  have h0 : 0 < SIZE := by have := np.run.hS; omega
  have R := np.run.rank 0 h0
  have hs' : ∀ x, 0 < x → sqrt x ≠ 0 := fun x hx e => by have := hs x hx; rw [e] at this; simp at this; exact hx.ne this
  have sd := h.solid3 vm sqrt hs' trunc htr
  intro f hf
  have hf1 := ((R.cG.bnd.2 f).mp hf).1
  have hpos : 0 < (build3 sqrt trunc 1 serial).normal f 0 ^ 2 + (build3 sqrt trunc 1 serial).normal f 1 ^ 2 + (build3 sqrt trunc 1 serial).normal f 2 ^ 2 := by
    obtain ⟨C, hC, j, hj, rfl⟩ := R.cG.fsurj f hf1
    have hb := sd.big C hC j hj
    rcases R.gkinds hC hj with ⟨_, _, _, e⟩ | ⟨_, _, _, _, _, k, _⟩
    · have hn := R.normalG C hC j hj e
      rw [hn 0 (by omega), hn 1 (by omega), hn 2 (by omega)]
      exact hb
    · exact absurd hf k
  have hm := mesure_build3 sqrt trunc 1 serial hf1
  unfold mesure3 at hm
  have h2 := hs _ hpos
  have h3 := hs' _ hpos
  rw [← hm] at h2 h3
  generalize build3 sqrt trunc 1 serial = D at *
  refine ⟨2 * (ghostcenter3 (D.normal f) (D.mesure f) (D.fcenter f) (D.center (idx (D.cellid f 0)))).2 / D.mesure f, fun k hk => ?_, ?_⟩
  · unfold ghostPoint
    interval_cases k <;> simp [ghostcenter3] <;> ring
  · simp only [Finset.sum_range_succ, Finset.sum_range_zero, zero_add, ghostcenter3, dot3]
    rw [← h2]
    field_simp

end

section
variable {dim : Nat} {nodeid : Nat → Nat → Nat} {node : Nat → K × K × K × Nat} {cv : Nat → List K} {npart0 epart : Nat → Nat}
  {nbnodes n SIZE : Nat} {data : Nat → RankData K} {serial : RankData K} {L : Nat → Tables K} {G : Tables K} {B : List Int}
  {out : Nat → Nat → Vec K} {trunc : K → Int}

theorem affine_sub (dim : Nat) (a : K) (g p q : Vec K) : affine dim a g p - affine dim a g q = ∑ k ∈ Finset.range dim, g k * (p k - q k) := by
  unfold affine
  rw [add_sub_add_left_eq_sub, ← Finset.sum_sub_distrib]
  exact Finset.sum_congr rfl fun k _ => by ring

/-- At a wall the potential takes the same value at the cell centre and at its mirror image. -/
theorem ghost_wall (hgn : Mirror dim G) {bc : Int → BCond K} {a : K} {g : Vec K} (hA : AffineData dim G bc a g) {f : Nat} (hf : f ∈ G.boundaryfaces)
    (hb : bc (G.name f) = .neumann) : affine dim a g (fun k => (ghostPoint dim G f).getD k 0) = affine dim a g (G.center (idx (G.cellid f 0))) := by
  obtain ⟨t, ht, _⟩ := hgn f hf
  rw [← sub_eq_zero, affine_sub]
  have := hA.wall f hf hb
  calc _ = ∑ k ∈ Finset.range dim, t * (g k * G.normal f k) := Finset.sum_congr rfl fun k hk => by rw [ht k (Finset.mem_range.mp hk)]; ring
    _ = 0 := by rw [← Finset.mul_sum, this, mul_zero]

/-- At a Dirichlet side the values at the cell centre and at its mirror image have the value at the face as their mean. -/
theorem ghost_plate (hgn : Mirror dim G) {bc : Int → BCond K} {a : K} {g : Vec K} (hA : AffineData dim G bc a g) {f : Nat} (hf : f ∈ G.boundaryfaces)
    {v : K → K → K → K} (hb : bc (G.name f) = .dirichlet v) :
    affine dim a g (fun k => (ghostPoint dim G f).getD k 0) = 2 * affine dim a g (G.fcenter f) - affine dim a g (G.center (idx (G.cellid f 0))) := by
  obtain ⟨t, ht, ht2⟩ := hgn f hf
  obtain ⟨c, hc⟩ : ∃ c, c = G.center (idx (G.cellid f 0)) := ⟨_, rfl⟩
  rw [← hc] at ht ht2 ⊢
  have key := hA.foot f hf v hb (fun k => c k + t / 2 * G.normal f k) ?_ ⟨t / 2, fun k _ => by rw [← hc]; ring⟩
  · rw [← key]
    have e1 := affine_sub dim a g (fun k => (ghostPoint dim G f).getD k 0) c
    have e2 := affine_sub dim a g (fun k => c k + t / 2 * G.normal f k) c
    have e3 : ∑ k ∈ Finset.range dim, g k * ((ghostPoint dim G f).getD k 0 - c k) = 2 * ∑ k ∈ Finset.range dim, g k * (c k + t / 2 * G.normal f k - c k) := by
      rw [Finset.mul_sum]
      exact Finset.sum_congr rfl fun k hk => by rw [ht k (Finset.mem_range.mp hk)]; ring
    linear_combination e1 - 2 * e2 + e3
  · have : ∑ k ∈ Finset.range dim, G.normal f k * (c k + t / 2 * G.normal f k - G.fcenter f k) =
        t / 2 * ∑ k ∈ Finset.range dim, G.normal f k ^ 2 - ∑ k ∈ Finset.range dim, G.normal f k * (G.fcenter f k - c k) := by
      rw [Finset.mul_sum, ← Finset.sum_sub_distrib]
      exact Finset.sum_congr rfl fun k _ => by ring
    rw [this]
    linear_combination ht2 / 2

theorem node_affine (h : NodePair dim nodeid node cv npart0 epart nbnodes n SIZE data serial L G B out trunc) (hgn : Mirror dim G) {bc : Int → BCond K}
    {a : K} {g : Vec K} (hA : AffineData dim G bc a g)
    {hgG : HGResult K} (sG : HGSerial dim G nbnodes hgG) {w : Interp.Fields K} (vG : ValuesG dim G bc w)
    (hc : ∀ C < G.nbcells, w.c C = affine dim a g (G.center C)) {s : Nat} (hi : s < nbnodes) (hsur : Surrounded dim nodeid n G s)
    (hb : ∀ F ∈ G.boundaryfaces, s ∈ G.fnode F → bc (G.name F) = .neumann) :
    nodeValues dim 1 serial G hgG w s = affine dim a g (G.vertex s) := by
  have h0 : 0 < SIZE := by have := h.run.hS; omega
  have R := h.run.rank 0 h0
  have st := h.node_stencilG sG vG hi
  have vals : ∀ x ∈ nodeStencil dim (nodeTabs dim 1 serial G hgG) w s, x.2 = affine dim a g x.1 := by
    intro x hx
    have hm : cut dim x ∈ (nodeStencil dim (nodeTabs dim 1 serial G hgG) w s).map (cut dim) := List.mem_map_of_mem hx
    rw [st, List.mem_append] at hm
    have e : x.2 = (cut dim x).2 := rfl
    rw [← affine_cut, e]
    rcases hm with hm | hm
    · obtain ⟨C, hC, e1⟩ := List.mem_map.mp hm
      rw [← e1]
      unfold EC
      rw [affine_cut]
      exact hc C (by rw [h.run.nG]; exact ((mem_users _ _ _ _ _).mp hC).1)
    · obtain ⟨f, hf, e1⟩ := List.mem_map.mp hm
      rw [← e1]
      obtain ⟨f1, f2, f3⟩ := (mem_bf _ _ _).mp hf
      unfold EF
      rw [affine_cut, hb f f2 f3]
      obtain ⟨c, hcl, ec⟩ := R.first_lt f1
      refine Eq.trans ?_ (ghost_wall hgn hA f2 (hb f f2 f3)).symm
      show w.c _ = _
      rw [ec]; exact hc c hcl
  have flat : ¬ Flat dim ((nodeStencil dim (nodeTabs dim 1 serial G hgG) w s).map Prod.fst) := by
    rintro ⟨u, c, ⟨k, hk, hu⟩, hall⟩
    have key : ∀ y ∈ (nodeStencil dim (nodeTabs dim 1 serial G hgG) w s).map (cut dim), ∑ k ∈ Finset.range dim, u k * y.1 k = c := by
      intro y hy
      obtain ⟨x, hx, rfl⟩ := List.mem_map.mp hy
      rw [← hall x.1 (List.mem_map_of_mem hx)]
      apply Finset.sum_congr rfl
      intro k hk
      unfold cut
      simp only [if_pos (Finset.mem_range.mp hk)]
    have cutsum : ∀ (v : Vec K) (a : K), ∑ k ∈ Finset.range dim, u k * (cut dim (v, a)).1 k = ∑ k ∈ Finset.range dim, u k * v k := by
      intro v a
      apply Finset.sum_congr rfl
      intro k hk
      unfold cut
      simp only [if_pos (Finset.mem_range.mp hk)]
    rw [st] at key
    refine hu (hsur u c ?_ ?_ k hk)
    · intro C hC huse
      rw [← cutsum _ (w.c C)]
      exact key _ (List.mem_append_left _ (List.mem_map.mpr ⟨C, (mem_users _ _ _ _ _).mpr ⟨hC, huse⟩, rfl⟩))
    · intro f hf hs'
      rw [← cutsum (fun k => (ghostPoint dim G f).getD k 0) (ghostVal G w.c f (bc (G.name f)))]
      exact key _ (List.mem_append_right _ (List.mem_map.mpr ⟨f, (mem_bf _ _ _).mpr ⟨((R.cG.bnd.2 f).mp hf).1, hf, hs'⟩, rfl⟩))
  unfold nodeValues
  rcases h.run.hd with rfl | rfl
  · rw [if_pos rfl]
    exact C38_affine_exact _ _ _ a g flat vals
  · rw [if_neg (by decide)]
    exact C39_affine_exact _ _ _ a g flat vals

/-- What the geometry of a mesh provides. -/
structure Plain (dim : Nat) (G : Tables K) (out : Nat → Nat → Vec K) : Prop where
  edge : dim = 2 → EdgeOk G
  wedge : dim = 3 → WedgeOk G
  pos : OutPos dim G out
  mirror : Mirror dim G

theorem GhostNormal_of_mirror (h : Mirror dim G) : GhostNormal dim G := fun f hf => by
  obtain ⟨t, ht, _⟩ := h f hf
  exact ⟨t, ht⟩

/-- No diamond is flat. -/
theorem diamond_pos (h : NodePair dim nodeid node cv npart0 epart nbnodes n SIZE data serial L G B out trunc) (hp : Plain dim G out) {f : Nat} (hf : f < G.nbfaces) :
    0 < ∑ k ∈ Finset.range dim, G.normal f k * (otherPt dim G f k - G.center (idx (G.cellid f 0)) k) := by
  have h0 : 0 < SIZE := by have := h.run.hS; omega
  have R := h.run.rank 0 h0
  have hd3 : ∀ k ∈ Finset.range dim, k < 3 := fun k hk => by have := Finset.mem_range.mp hk; rcases h.run.hd with e | e <;> omega
  have first : ∀ C < G.nbcells, ∀ j < dim + 1, G.cellid (G.faceid C j) 0 = (C : Int) →
      0 < ∑ k ∈ Finset.range dim, G.normal (G.faceid C j) k * (G.fcenter (G.faceid C j) k - G.center C k) := by
    intro C hC j hj e
    have := hp.pos C hC j hj
    rwa [Finset.sum_congr rfl fun k hk => by rw [← R.normalG C hC j hj e k (hd3 k hk)]] at this
  obtain ⟨C, hC, j, hj, rfl⟩ := R.cG.fsurj f hf
  rcases R.whole.sides hC hj with ⟨_, hBm, hbd, _, _, l0, _⟩ | ⟨E, hE, hne, ⟨j', hj', ef⟩, hn, _, _, _, hk⟩
  · have n0 : G.name (G.faceid C j) ≠ 0 := fun x => R.cG.B0 (x ▸ hBm)
    have n10 : G.name (G.faceid C j) ≠ 10 := fun x => R.cG.B10 (x ▸ hBm)
    obtain ⟨t, ht, ht2⟩ := hp.mirror _ hbd
    have hp1 := first C hC j hj l0
    rw [l0, idx_cast] at ht ht2 ⊢
    unfold otherPt
    rw [if_neg n0, if_neg n10]
    have e : ∑ k ∈ Finset.range dim, G.normal (G.faceid C j) k * ((ghostPoint dim G (G.faceid C j)).getD k 0 - G.center C k) =
        t * ∑ k ∈ Finset.range dim, G.normal (G.faceid C j) k ^ 2 := by
      rw [Finset.mul_sum]
      exact Finset.sum_congr rfl fun k hk => by rw [ht k (Finset.mem_range.mp hk)]; ring
    rw [e, ht2]; linarith
  · have p1 := hp.pos C hC j hj
    have p2 := hp.pos E hE j' hj'
    rw [ef] at p2
    have e2 : ∑ k ∈ Finset.range dim, out E j' k * (G.fcenter (G.faceid C j) k - G.center E k) =
        - ∑ k ∈ Finset.range dim, out C j k * (G.fcenter (G.faceid C j) k - G.center E k) := by
      rw [← Finset.sum_neg_distrib]
      exact Finset.sum_congr rfl fun k hk => by rw [R.opp E hE C hC hne j' hj' j hj ef k (hd3 k hk)]; ring
    have e3 : ∑ k ∈ Finset.range dim, out C j k * (G.fcenter (G.faceid C j) k - G.center C k) -
        ∑ k ∈ Finset.range dim, out C j k * (G.fcenter (G.faceid C j) k - G.center E k) = ∑ k ∈ Finset.range dim, out C j k * (G.center E k - G.center C k) := by
      rw [← Finset.sum_sub_distrib]
      exact Finset.sum_congr rfl fun k _ => by ring
    have p3 : 0 < ∑ k ∈ Finset.range dim, out C j k * (G.center E k - G.center C k) := by rw [← e3]; linarith
    unfold otherPt
    rw [if_pos hn]
    rcases hk with ⟨_, l0, l1, ho⟩ | ⟨_, l0, l1, ho⟩
    · rw [l0, l1, idx_cast, idx_cast, Finset.sum_congr rfl fun k hk => by rw [ho k (hd3 k hk)]]
      exact p3
    · rw [l0, l1, idx_cast, idx_cast, Finset.sum_congr rfl fun k hk => by
        rw [ho k (hd3 k hk), show - out C j k * (G.center C k - G.center E k) = out C j k * (G.center E k - G.center C k) by ring]]
      exact p3

/-- The field of a linear potential. -/
theorem solGrads_affine (h : NodePair dim nodeid node cv npart0 epart nbnodes n SIZE data serial L G B out trunc) (hp : Plain dim G out)
    (hw : dim = 3 → WedgeOk G ∧ ∀ p < SIZE, WedgeOk (L p)) {bc : Int → BCond K} (hcm : CornersMatch dim G bc) (hdn : DirichletOrNeumann bc)
    {a : K} {g : Vec K} (hA : AffineData dim G bc a g) (hsur : ∀ s < nbnodes, Surrounded dim nodeid n G s)
    {hgG : HGResult K} (sG : HGSerial dim G nbnodes hgG) {w : Interp.Fields K} (v : ValuesG dim G bc w)
    (hc : ∀ C < G.nbcells, w.c C = affine dim a g (G.center C)) {f : Nat} (hf : f < G.nbfaces) {k : Nat} (hk : k < dim) :
    solGrads dim G bc w (nodeValues dim 1 serial G hgG w) f k = - g k := by
  have h0 : 0 < SIZE := by have := h.run.hS; omega
  have R := h.run.rank 0 h0
  have oG := h.linOkG hw sG
  have hd3 : dim ≤ 3 := by rcases h.run.hd with e | e <;> omega
  obtain ⟨c0, hc0, e0⟩ := R.first_lt hf
  rw [solGrads_pts h.run.hd R.cG h.hBe hp.wedge bc w _ hf (oG.names f hf) (by omega)]
  congr 1
  have dirN : ∀ s < G.nbnodes, G.oldname s ∈ bcDirichlet dim bc → pbordNode dim G bc s = affine dim a g (G.vertex s) := by
    intro s hs hm
    obtain ⟨m1, m2⟩ := List.mem_filter.mp hm
    rw [pbordNode_apply _ _ _ hs, if_pos m1]
    cases hv : bc (G.oldname s) with
    | dirichlet v => exact hA.node s hs v m1 hv
    | neumann => rw [hv] at m2; cases m2
    | nonslip => rw [hv] at m2; cases m2
  have loc : ∀ b : Int, b ∈ B ↔ b ∈ locNames dim := oG.loc
  refine gradD_affine h.run.hd G hp.edge hp.wedge _ hf _ _ a g ?_ ?_ ?_ ?_ hk
  · intro i hi
    obtain ⟨hm1, hm⟩ := oG.fnode_lt hf hi
    have hm' : (G.fnode f).getD i 0 < nbnodes := by rw [← h.nbG]; exact hm
    have hnode : G.oldname ((G.fnode f).getD i 0) ∉ bcDirichlet dim bc → nodeValues dim 1 serial G hgG w ((G.fnode f).getD i 0) = affine dim a g (G.vertex ((G.fnode f).getD i 0)) :=
      fun hnd => node_affine h hp.mirror hA sG v hc hm' (hsur _ hm') (fun F hF hsF => by
        rcases hcm F hF _ hsF with ⟨x1, x2⟩ | x
        · exact absurd (List.mem_filter.mpr ⟨x1, x2⟩) hnd
        · exact x)
    unfold solNode
    split_ifs with hdf
    · refine dirN _ hm ?_
      have hfb := (R.cG.bnd.2 f).mpr ⟨hf, (loc _).mpr hdf.1⟩
      rcases hcm f hfb _ hm1 with ⟨x1, x2⟩ | x
      · exact List.mem_filter.mpr ⟨x1, x2⟩
      · have := hdf.2; rw [x] at this; cases this
    · unfold nodeValue
      split_ifs with hd
      · exact dirN _ hm hd
      · exact hnode hd
  · unfold sideL
    rw [affine_cut]
    show w.c _ = affine dim a g (G.center _)
    rw [e0]; exact hc c0 hc0
  · unfold solR
    rw [affine_cut]
    show _ = affine dim a g (otherPt dim G f)
    unfold cut otherPt
    dsimp only
    split_ifs with hdf n0 n10 n0 n10
    · exact absurd ((loc _).mpr hdf.1) (by rw [n0]; exact R.cG.B0)
    · exact absurd ((loc _).mpr hdf.1) (by rw [n10]; exact R.cG.B10)
    · have hfb := (R.cG.bnd.2 f).mpr ⟨hf, (loc _).mpr hdf.1⟩
      cases hv : bc (G.name f) with
      | dirichlet u =>
        rw [ghost_plate hp.mirror hA hfb hv, pbordFace_apply dim G bc hf hdf.1 hv, hA.face f hfb u hv, e0]
        rw [show idx ((c0 : Nat) : Int) = c0 from idx_cast _] ; rw [hc c0 hc0]
      | neumann => have := hdf.2; rw [hv] at this; cases this
      | nonslip => have := hdf.2; rw [hv] at this; cases this
    · unfold otherVal
      rw [if_pos n0]
      obtain ⟨C, hC, j, hj, rfl⟩ := R.cG.fsurj f hf
      rcases R.gkinds hC hj with ⟨hB, _⟩ | ⟨E, hE, _, _, _, _, ⟨_, e2⟩ | ⟨_, e2⟩⟩
      · rw [n0] at hB; exact absurd hB R.cG.B0
      · rw [e2, idx_cast]; exact hc E hE
      · rw [e2, idx_cast]; exact hc C hC
    · rcases h.nameG_cases hf with e | e
      · exact absurd e n0
      · rw [n10] at e; exact absurd e R.cG.B10
    · have e : G.name f ∈ B := (h.nameG_cases hf).resolve_left n0
      have hfb := (R.cG.bnd.2 f).mpr ⟨hf, e⟩
      have hN : bc (G.name f) = .neumann := (hdn _).resolve_left (fun x => hdf ⟨(loc _).mp e, x⟩)
      rw [ghost_wall hp.mirror hA hfb hN]
      unfold otherVal
      rw [if_neg n0, if_neg n10]
      obtain ⟨g0, hg0⟩ := v.ghost
      rw [hg0, updateGhosts_apply _ _ _ _ _ hf ((loc _).mp e), hN]
      show w.c _ = _
      rw [e0]; exact hc c0 hc0
  · have := diamond_pos h hp hf
    rw [Finset.sum_congr rfl fun k hk => ?_]
    · exact this.ne'
    · unfold solR sideL cut
      simp only [if_pos (Finset.mem_range.mp hk)]

/-- The linear potential solves the assembled system. -/
theorem affine_solves (h : NodePair dim nodeid node cv npart0 epart nbnodes n SIZE data serial L G B out trunc) (hs : Solid G dim out) (hp : Plain dim G out)
    (hw : dim = 3 → WedgeOk G ∧ ∀ p < SIZE, WedgeOk (L p)) {bc : Int → BCond K} (hcm : CornersMatch dim G bc) (hdn : DirichletOrNeumann bc)
    {a : K} {g : Vec K} (hA : AffineData dim G bc a g) (hsur : ∀ s < nbnodes, Surrounded dim nodeid n G s)
    {hgG : Nat → HGResult K} (sG : HGSerial dim G nbnodes (hgG 0)) :
    ∀ i < n, ∑ j ∈ Finset.range n, matrixOf (serW dim serial G hgG) bc i j * affine dim a g (G.center j) = boundaryOf (serW dim serial G hgG) bc i := by
  intro i hi
  have h0 : 0 < SIZE := by have := h.run.hS; omega
  have R := h.run.rank 0 h0
  have hc : i < G.nbcells := by rw [h.run.nG]; exact hi
  have oG := h.linOkG hw sG
  have hgn := GhostNormal_of_mirror hp.mirror
  obtain ⟨U, e1, e2, e3⟩ := serial_update (dim := dim) serial G hgG bc (fun _ => ⟨fun C => affine dim a g (G.center C), fun _ => 0, fun _ => 0, []⟩)
  have hw' : ∀ C, (U 0).fields.c C = affine dim a g (G.center C) := fun C => by show (U 0).cell C = _; rw [e2 0]
  have eG : (linMesh dim 1 serial G (hgG 0)).loctoglob i = i := by simp [linMesh]
  have r1 := oG.row bc (fun C => affine dim a g (G.center C)) hc
  rw [eG, oG.balance_dissip bc _ hc, apply_matrix h hw hgn hcm hdn sG _ hc] at r1
  simp only [matrixOf_serial, boundaryOf_serial]
  rw [← sub_eq_zero, r1]
  have hE := fun f hf => field_flux h hw hgn hcm hdn sG (e3 0) (fun C => affine dim a g (G.center C)) (fun C _ => hw' C) (f := f) hf
  have hz : Run.dissip G unitD (solGrads dim G bc (U 0).fields (nodeValues dim 1 serial G (hgG 0) (U 0).fields)) i = 0 := by
    rw [← fieldOut_global R _ hc]
    unfold fieldOut
    have key : ∀ j ∈ Finset.range (dim + 1), (if G.cellid (G.faceid i j) 0 = (i : Int) then
        through G (solGrads dim G bc (U 0).fields (nodeValues dim 1 serial G (hgG 0) (U 0).fields)) (G.faceid i j) else
        - through G (solGrads dim G bc (U 0).fields (nodeValues dim 1 serial G (hgG 0) (U 0).fields)) (G.faceid i j)) =
        - ∑ k ∈ Finset.range dim, g k * out i j k := by
      intro j hj
      have hj := Finset.mem_range.mp hj
      have hf := R.cG.flt i hc j hj
      have ht : through G (solGrads dim G bc (U 0).fields (nodeValues dim 1 serial G (hgG 0) (U 0).fields)) (G.faceid i j) =
          - ∑ k ∈ Finset.range dim, g k * G.normal (G.faceid i j) k := by
        have sg := fun k hk => solGrads_affine h hp hw hcm hdn hA hsur sG (e3 0) (fun C _ => hw' C) hf (k := k) hk
        unfold through
        rcases h.run.hd with rfl | rfl
        · rw [sg 0 (by omega), sg 1 (by omega), show solGrads 2 G bc (U 0).fields (nodeValues 2 1 serial G (hgG 0) (U 0).fields) (G.faceid i j) 2 = 0 from rfl]
          simp only [Finset.sum_range_succ, Finset.sum_range_zero]; ring
        · rw [sg 0 (by omega), sg 1 (by omega), sg 2 (by omega)]
          simp only [Finset.sum_range_succ, Finset.sum_range_zero]; ring
      have hd3 : ∀ k ∈ Finset.range dim, k < 3 := fun k hk => by have := Finset.mem_range.mp hk; rcases h.run.hd with e | e <;> omega
      rw [ht]
      split_ifs with hq
      · rw [Finset.sum_congr rfl fun k hk => by rw [R.normalG i hc j hj hq k (hd3 k hk)]]
      · rcases R.whole.sides hc hj with ⟨_, _, _, _, _, l0, _⟩ | ⟨E, hE, hne, _, _, _, _, _, hk⟩
        · exact absurd l0 hq
        · rcases hk with ⟨_, l0, _⟩ | ⟨_, _, _, ho⟩
          · exact absurd l0 hq
          · rw [Finset.sum_congr rfl fun k hk => by rw [ho k (hd3 k hk), mul_neg], Finset.sum_neg_distrib, neg_neg]
    rw [Finset.sum_congr rfl key, Finset.sum_neg_distrib, Finset.sum_comm]
    have : ∀ k ∈ Finset.range dim, ∑ j ∈ Finset.range (dim + 1), g k * out i j k = 0 := by
      intro k hk
      rw [← Finset.mul_sum, hs.closed i hc k (by have := Finset.mem_range.mp hk; rcases h.run.hd with e | e <;> omega), mul_zero]
    rw [Finset.sum_eq_zero this, neg_zero]
  rw [dissip_through h _ _ hE hc] at hz
  rw [neg_eq_zero.mp hz, zero_div]

theorem exact_serial (h : NodePair dim nodeid node cv npart0 epart nbnodes n SIZE data serial L G B out trunc) (hs : Solid G dim out) (hp : Plain dim G out)
    (hw : dim = 3 → WedgeOk G ∧ ∀ p < SIZE, WedgeOk (L p)) {bc : Int → BCond K} (hcm : CornersMatch dim G bc) (hdn : DirichletOrNeumann bc)
    {a : K} {g : Vec K} (hA : AffineData dim G bc a g) (hsur : ∀ s < nbnodes, Surrounded dim nodeid n G s)
    {hgG : Nat → HGResult K} (sG : HGSerial dim G nbnodes (hgG 0)) (hreg : Regular n (matrixOf (serW dim serial G hgG) bc))
    {direct : (Nat → Nat → K) → (Nat → K) → Nat → K} (hdir : ReadsRows n direct) (hsol : SolvesSystems n direct) (sv : LinSolve.Solver) :
    SolvedExactly (serW dim serial G hgG) bc sv direct a g := by
  intro s hG
  have h0 : 0 < SIZE := by have := h.run.hS; omega
  have R := h.run.rank 0 h0
  have sys := affine_solves h hs hp hw hcm hdn hA hsur sG
  obtain ⟨b, hb⟩ : ∃ b, b = fun g => boundaryOf (serW dim serial G hgG) bc g + (0 : K) := ⟨_, rfl⟩
  have sol := hsol (matrixOf (serW dim serial G hgG) bc) b ⟨fun j => affine dim a g (G.center j), fun i hi => by rw [sys i hi, hb]; ring⟩
  have cells : ∀ c < G.nbcells, s.cells 0 c = affine dim a g (G.center c) := by
    intro c hc
    have hc' : c < n := by rw [← h.run.nG]; exact hc
    rw [serial_solution h hw sG hdir hG hc, ← hb]
    have := hreg (fun j => direct (matrixOf (serW dim serial G hgG) bc) b j - affine dim a g (G.center j)) (fun i hi => by
      have e : ∀ j ∈ Finset.range n, matrixOf (serW dim serial G hgG) bc i j * (direct (matrixOf (serW dim serial G hgG) bc) b j - affine dim a g (G.center j)) =
          matrixOf (serW dim serial G hgG) bc i j * direct (matrixOf (serW dim serial G hgG) bc) b j - matrixOf (serW dim serial G hgG) bc i j * affine dim a g (G.center j) :=
        fun j _ => by ring
      rw [Finset.sum_congr rfl e, Finset.sum_sub_distrib, sys i hi, sol i hi, hb]; ring) c hc'
    linear_combination this
  refine ⟨fun p hp c hc => ?_, fun V hV => ?_⟩
  · obtain rfl : p = 0 := by have : p < 1 := hp; omega
    exact cells c hc
  · obtain ⟨U', e1, e2, e3⟩ := serial_update (dim := dim) serial G hgG bc V
    refine ⟨U', _, _, by unfold solGradient celltonode; rw [e1]; rfl, fun p hp' c hc j hj k hk => ?_⟩
    obtain rfl : p = 0 := by have : p < 1 := hp'; omega
    refine solGrads_affine h hp hw hcm hdn hA hsur sG (e3 0) (fun C hC => ?_) (R.cG.flt c hc j hj) hk
    show (U' 0).cell C = _
    rw [e2 0, hV 0 hp']
    exact cells C hC

theorem matrix_par (h : NodePair dim nodeid node cv npart0 epart nbnodes n SIZE data serial L G B out trunc)
    (hw : dim = 3 → WedgeOk G ∧ ∀ p < SIZE, WedgeOk (L p)) (star : StarConnected dim nodeid n) (bc : Int → BCond K) {hgL : Nat → HGResult K}
    (sL : ∀ p < SIZE, ∃ rows, HGSpec dim SIZE data L p (hgL p) rows) {hgG : Nat → HGResult K} (sG : HGSerial dim G nbnodes (hgG 0)) :
    matrixOf (parW dim SIZE data L hgL) bc = matrixOf (serW dim serial G hgG) bc ∧
      boundaryOf (parW dim SIZE data L hgL) bc = boundaryOf (serW dim serial G hgG) bc := by
  obtain ⟨a1, a2, _⟩ := h.lin_agree hw star bc sL sG
  constructor
  · funext i j
    rw [matrixOf_serial]
    exact a1 i j
  · funext i
    refine (a2 i).trans ?_
    rw [boundaryOf_serial]; rfl

theorem exact_par (h : NodePair dim nodeid node cv npart0 epart nbnodes n SIZE data serial L G B out trunc) (hs : Solid G dim out) (hp : Plain dim G out)
    (hw : dim = 3 → WedgeOk G ∧ ∀ p < SIZE, WedgeOk (L p)) (star : StarConnected dim nodeid n) {bc : Int → BCond K} (hcm : CornersMatch dim G bc) (hdn : DirichletOrNeumann bc)
    {a : K} {g : Vec K} (hA : AffineData dim G bc a g) (hsur : ∀ s < nbnodes, Surrounded dim nodeid n G s)
    {hgL : Nat → HGResult K} (sL : ∀ p < SIZE, ∃ rows, HGSpec dim SIZE data L p (hgL p) rows)
    {hgG : Nat → HGResult K} (sG : HGSerial dim G nbnodes (hgG 0)) (hreg : Regular n (matrixOf (parW dim SIZE data L hgL) bc))
    {direct : (Nat → Nat → K) → (Nat → K) → Nat → K} (hdir : ReadsRows n direct) (hsol : SolvesSystems n direct) (sv : LinSolve.Solver) :
    SolvedExactly (parW dim SIZE data L hgL) bc sv direct a g := by
  intro s hL
  have h0 : 0 < SIZE := by have := h.run.hS; omega
  rw [(matrix_par h hw star bc sL sG).1] at hreg
  obtain ⟨nG, gG⟩ := h.lin_numbering_serial bc hgG .mumps direct
  obtain ⟨t, ht⟩ := solvedWith_exists (linEnv (serW dim serial G hgG) bc .mumps direct) (by show 0 < 1; omega) nG (Or.inl rfl)
    (linBnd (serW dim serial G hgG) bc .mumps) (fun _ => 0)
  have hm := h.lin_solve hw star bc sL sG direct hdir sv .mumps (fun _ => 0) s t hL ht
  obtain ⟨k1, k2⟩ := exact_serial h hs hp hw hcm hdn hA hsur sG hreg hdir hsol .mumps t ht
  have hd3 : dim ≤ 3 := by rcases h.run.hd with e | e <;> omega
  refine ⟨fun p hp' c hc => ?_, fun V hV => ?_⟩
  · have hp' : p < SIZE := hp'
    have hc : c < (L p).nbcells := hc
    have R := h.run.rank p hp'
    have hC := (R.sub.lt c hc).1
    refine ((h.cellsAgree _ _).mp hm p hp' c hc).trans ((k1 0 (by show 0 < 1; omega) _ hC).trans ?_)
    show affine dim a g (G.center _) = affine dim a g ((L p).center c)
    unfold affine
    congr 1
    exact Finset.sum_congr rfl fun k hk => by rw [R.center c hc k (by have := Finset.mem_range.mp hk; omega)]
  · obtain ⟨U, hU⟩ : ∃ U : Nat → Vari K, U = fun p => ⟨t.cells p, fun _ => 0, fun _ => 0, []⟩ := ⟨_, rfl⟩
    have hmV : VMatch SIZE data L V U := by
      intro p hp c hc
      rw [hV p hp, hU]
      exact (h.cellsAgree _ _).mp hm p hp c hc
    obtain ⟨V', nL, fL, U', nG', fG, e1, e2, _, _, _, hf⟩ := solGradient_match h hw sL sG bc star (fun F hF s hs _ => hcm F hF s hs) V U hmV
    obtain ⟨U2, n2, E2, e3, hE⟩ := k2 U (fun p _ => by rw [hU])
    rw [e2] at e3
    obtain ⟨rfl, rfl, rfl⟩ : U' = U2 ∧ nG' = n2 ∧ fG = E2 := by
      have := Option.some.inj e3
      exact ⟨congrArg (·.1) this, congrArg (·.2.1) this, congrArg (·.2.2) this⟩
    refine ⟨V', nL, fL, e1, fun p hp' c hc j hj k hk => ?_⟩
    have hp' : p < SIZE := hp'
    have hc : c < (L p).nbcells := hc
    have hk : k < dim := hk
    refine (hf p hp' c hc j hj k (by omega)).trans ?_
    exact hE 0 (by show 0 < 1; omega) _ ((h.run.rank p hp').sub.lt c hc).1 j hj k hk

/-- The gradient on a diamond depends on the values of the sides through their difference, along the normal. -/
theorem gradD_flux {dim : Nat} (hd : dim = 2 ∨ dim = 3) (D : Tables K) (he : dim = 2 → EdgeOk D) (hw : dim = 3 → WedgeOk D) (nd : Nat → K)
    {f : Nat} (hf : f < D.nbfaces) (p q : Vec K) (l r l0 r0 : K) (hz : D.normal f 2 = 0 ∨ dim = 3)
    (hs : ∑ k ∈ Finset.range dim, D.normal f k * (q k - p k) ≠ 0) :
    fluxG D (gradD dim D nd f (cut dim (p, l)) (cut dim (q, r))) f - fluxG D (gradD dim D nd f (cut dim (p, l0)) (cut dim (q, r0))) f =
      ((r - l) - (r0 - l0)) * (∑ k ∈ Finset.range dim, D.normal f k ^ 2) / ∑ k ∈ Finset.range dim, D.normal f k * (q k - p k) := by
  obtain ⟨X, hX⟩ : ∃ X, X = ∑ k ∈ Finset.range dim, D.normal f k * (q k - p k) := ⟨_, rfl⟩
  rw [← hX] at hs ⊢
  unfold fluxG
  rcases hd with rfl | rfl
  · have eg : ∀ l r, gradD 2 D nd f l r = gradPts2 (cut 2 (nodePt D nd f 0)) (cut 2 (nodePt D nd f 1)) l r := fun _ _ => if_pos rfl
    rw [eg, eg, gradPts2_cut, gradPts2_cut]
    obtain ⟨s, s0, e0, e1⟩ := he rfl f hf
    unfold gradPts2 nodePt
    simp only [Finset.sum_range_succ, Finset.sum_range_zero, zero_add] at hX ⊢
    obtain ⟨A, hA⟩ : ∃ A, A = (D.vertex ((D.fnode f).getD 1 0) 0 - D.vertex ((D.fnode f).getD 0 0) 0) * (q 1 - p 1) + (p 0 - q 0) * (D.vertex ((D.fnode f).getD 1 0) 1 - D.vertex ((D.fnode f).getD 0 0) 1) := ⟨_, rfl⟩
    have hXA : X = s * A := by rw [hX, hA, e0, e1]; ring
    have hA0 : A ≠ 0 := fun x => hs (by rw [hXA, x, mul_zero])
    have hq : ∀ M W : K, M * (s ^ 2 * W) / (s * A) = M * s * W / A := fun M W => by field_simp
    rw [← hA, hXA, e0, e1, show (s * (D.vertex ((D.fnode f).getD 0 0) 1 - D.vertex ((D.fnode f).getD 1 0) 1)) ^ 2 +
      (s * (D.vertex ((D.fnode f).getD 1 0) 0 - D.vertex ((D.fnode f).getD 0 0) 0)) ^ 2 = s ^ 2 * ((D.vertex ((D.fnode f).getD 0 0) 1 - D.vertex ((D.fnode f).getD 1 0) 1) ^ 2 +
      (D.vertex ((D.fnode f).getD 1 0) 0 - D.vertex ((D.fnode f).getD 0 0) 0) ^ 2) by ring, hq]
    ring
  · have eg : ∀ l r, gradD 3 D nd f l r = gradPts3 (cut 3 (nodePt D nd f 0)) (cut 3 (nodePt D nd f 1)) (cut 3 (nodePt D nd f 2)) l r := fun _ _ => if_neg (by decide)
    rw [eg, eg]
    simp only [gradPts3_cut]
    have w0 := hw rfl f hf 0 (by omega)
    have w1 := hw rfl f hf 1 (by omega)
    have w2 := hw rfl f hf 2 (by omega)
    unfold gradPts3 nodePt
    dsimp only
    obtain ⟨N, hN⟩ : ∃ N : Vec K, N = Geo.wedge (fun k => D.vertex ((D.fnode f).getD 1 0) k - D.vertex ((D.fnode f).getD 0 0) k)
      (fun k => D.vertex ((D.fnode f).getD 2 0) k - D.vertex ((D.fnode f).getD 0 0) k) := ⟨_, rfl⟩
    rw [← hN] at w0 w1 w2 ⊢
    simp only [Finset.sum_range_succ, Finset.sum_range_zero, zero_add] at hX ⊢
    have hd : dot3 N (fun k => q k - p k) = 2 * X := by simp only [dot3]; rw [w0, w1, w2, hX]; ring
    rw [hd, w0, w1, w2]
    obtain ⟨Y, hY⟩ : ∃ Y : Vec K, Y = Geo.wedge (fun k => q k - p k) (fun k => (D.vertex ((D.fnode f).getD 2 0) k - D.vertex ((D.fnode f).getD 1 0) k) *
      (nd ((D.fnode f).getD 0 0) - nd ((D.fnode f).getD 2 0)) + (D.vertex ((D.fnode f).getD 0 0) k - D.vertex ((D.fnode f).getD 2 0) k) *
      (nd ((D.fnode f).getD 1 0) - nd ((D.fnode f).getD 2 0))) := ⟨_, rfl⟩
    rw [← hY]
    field_simp
    ring

/-- With Dirichlet conditions everywhere, no interior node and every cell at the boundary, the system has at most one solution. -/
theorem regular_dirichlet (h : NodePair dim nodeid node cv npart0 epart nbnodes n SIZE data serial L G B out trunc) (hs : Solid G dim out) (hp : Plain dim G out)
    (hw : dim = 3 → WedgeOk G ∧ ∀ p < SIZE, WedgeOk (L p)) {v : Int → K → K → K → K} (hcm : CornersMatch dim G (fun b => .dirichlet (v b)))
    (hz : ∀ f < G.nbfaces, G.normal f 2 = 0 ∨ dim = 3) (hall : ∀ s < G.nbnodes, G.oldname s ∈ B) (hbd : ∀ C < G.nbcells, ∃ j < dim + 1, G.faceid C j ∈ G.boundaryfaces)
    {hgG : Nat → HGResult K} (sG : HGSerial dim G nbnodes (hgG 0)) : Regular n (matrixOf (serW dim serial G hgG) (fun b => .dirichlet (v b))) := by
  intro x hx
  have h0 : 0 < SIZE := by have := h.run.hS; omega
  have R := h.run.rank 0 h0
  have oG := h.linOkG hw sG
  have hgn := GhostNormal_of_mirror hp.mirror
  have loc : ∀ b : Int, b ∈ B ↔ b ∈ locNames dim := oG.loc
  obtain ⟨bc, hbc⟩ : ∃ bc : Int → BCond K, bc = fun b => .dirichlet (v b) := ⟨_, rfl⟩
  rw [← hbc] at hcm hx
  have hdn : DirichletOrNeumann bc := fun b => Or.inl (by rw [hbc]; rfl)
  have isd : ∀ b, (bc b).isDirichlet = true := fun b => by rw [hbc]; rfl
  have hdim : ∀ i < G.nbnodes, G.oldname i ∈ bcDirichlet dim bc := fun i hi => List.mem_filter.mpr ⟨(loc _).mp (hall i hi), isd _⟩
  obtain ⟨κ, hκ⟩ : ∃ κ : Nat → K, κ = fun f => (∑ k ∈ Finset.range dim, G.normal f k ^ 2) / ∑ k ∈ Finset.range dim, G.normal f k * (otherPt dim G f k - G.center (idx (G.cellid f 0)) k) := ⟨_, rfl⟩
  have kpos : ∀ f < G.nbfaces, 0 < κ f := by
    intro f hf
    rw [hκ]
    refine div_pos ?_ (diamond_pos h hp hf)
    obtain ⟨C, hC, j, hj, rfl⟩ := R.cG.fsurj f hf
    obtain ⟨ε, he, hn⟩ := R.normalG_pm hC hj
    have hb := hs.big C hC j hj
    have h3 : G.normal (G.faceid C j) 0 ^ 2 + G.normal (G.faceid C j) 1 ^ 2 + G.normal (G.faceid C j) 2 ^ 2 = out C j 0 ^ 2 + out C j 1 ^ 2 + out C j 2 ^ 2 := by
      rw [hn 0 (by omega), hn 1 (by omega), hn 2 (by omega)]
      rcases he with rfl | rfl <;> ring
    rcases h.run.hd with hd | hd
    · have z := (hz _ hf).resolve_right (by omega)
      rw [hd]
      simp only [Finset.sum_range_succ, Finset.sum_range_zero, zero_add]
      rw [z] at h3
      nlinarith
    · rw [hd]
      simp only [Finset.sum_range_succ, Finset.sum_range_zero, zero_add]
      linarith
  -- the flux through a face
  have flux : ∀ f < G.nbfaces, fluxG G (linGrad dim 1 serial G (hgG 0) bc (linW dim 1 serial G (hgG 0) x) f) f - fluxG G (linGrad dim 1 serial G (hgG 0) bc (linW dim 1 serial G (hgG 0) (fun _ => 0)) f) f =
      ((if G.name f = 0 then x (idx (G.cellid f 1)) else - x (idx (G.cellid f 0))) - x (idx (G.cellid f 0))) * κ f := by
    intro f hf
    have hne : ∑ k ∈ Finset.range dim, G.normal f k * (otherPt dim G f k - G.center (idx (G.cellid f 0)) k) ≠ 0 := (diamond_pos h hp hf).ne'
    have hwx : ∀ (P : Nat → K) C, (linW dim 1 serial G (hgG 0) P).c C = P C := fun P C => by simp [linW, linMesh]
    have ends : ∀ (P : Nat → K) i, i < dim → vertD dim 1 serial G (hgG 0) bc (linW dim 1 serial G (hgG 0) P) ((G.fnode f).getD i 0) = pbordNode dim G bc ((G.fnode f).getD i 0) := fun P i hi => by
      have hm : (G.fnode f).getD i 0 < G.nbnodes := (oG.fnode_lt hf hi).2
      unfold vertD
      rw [if_pos (hdim _ hm)]
    rw [hκ]
    beta_reduce
    rw [← mul_div_assoc]
    unfold linGrad
    rcases h.nameG_cases hf with e | e
    · rw [if_pos (Or.inl e), if_pos (Or.inl e), if_pos e, gradD_congr h.run.hd G _ (pbordNode dim G bc) f _ _ (fun i hi => ends x i hi),
        gradD_congr h.run.hd G _ (pbordNode dim G bc) f _ _ (fun i hi => ends (fun _ => 0) i hi)]
      unfold sideL sideR
      rw [gradD_flux h.run.hd G hp.edge hp.wedge _ hf _ _ _ _ _ _ (hz f hf) hne]
      unfold otherVal
      rw [if_pos e, if_pos e, hwx, hwx, hwx, hwx]
      ring
    · have n0 : G.name f ≠ 0 := fun y => R.cG.B0 (y ▸ e)
      have n10 : G.name f ≠ 10 := fun y => R.cG.B10 (y ▸ e)
      have hnn : ¬ (G.name f = 0 ∨ G.name f = 10) := by rintro (y | y); exacts [n0 y, n10 y]
      rw [if_neg hnn, if_neg hnn, if_pos (isd _), if_pos (isd _), if_neg n0]
      unfold sideL
      rw [gradD_flux h.run.hd G hp.edge hp.wedge _ hf _ _ _ _ _ _ (hz f hf) hne, hwx, hwx]
      ring
  -- the row of a cell
  have row : ∀ C < n, 0 = ∑ j ∈ Finset.range (dim + 1), (if G.cellid (G.faceid C j) 0 = (C : Int) then
      ((if G.name (G.faceid C j) = 0 then x (idx (G.cellid (G.faceid C j) 1)) else - x C) - x C) * κ (G.faceid C j) else
      (x (idx (G.cellid (G.faceid C j) 0)) - x C) * κ (G.faceid C j)) := by
    intro C hC
    have hc : C < G.nbcells := by rw [h.run.nG]; exact hC
    have eG : (linMesh dim 1 serial G (hgG 0)).loctoglob C = C := by simp [linMesh]
    have r1 := oG.row bc x hc
    have r2 := oG.row bc (fun _ => 0) hc
    rw [eG, oG.balance_dissip bc _ hc, apply_matrix h hw hgn hcm hdn sG _ hc] at r1 r2
    have hx' := hx C hC
    simp only [matrixOf_serial] at hx'
    rw [hx'] at r1
    simp only [mul_zero, Finset.sum_const_zero] at r2
    have hv := (hs.vpos C hc).ne'
    have r3 : 0 = Run.dissip G unitD (linGrad dim 1 serial G (hgG 0) bc (linW dim 1 serial G (hgG 0) x)) C -
        Run.dissip G unitD (linGrad dim 1 serial G (hgG 0) bc (linW dim 1 serial G (hgG 0) (fun _ => 0))) C := by
      have := r1.symm.trans r2
      field_simp at this
      linear_combination -this
    rw [← fieldOut_global R _ hc, ← fieldOut_global R _ hc] at r3
    unfold fieldOut at r3
    rw [← Finset.sum_sub_distrib] at r3
    refine r3.trans (Finset.sum_congr rfl fun j hj => ?_)
    have hj := Finset.mem_range.mp hj
    have hf := R.cG.flt C hc j hj
    have fx := flux _ hf
    have tf : ∀ E : Nat → Vec K, through G E (G.faceid C j) = fluxG G (E (G.faceid C j)) (G.faceid C j) := fun E => rfl
    rw [tf, tf]
    split_ifs with h1 h2
    · rw [fx, h1, idx_cast, if_pos h2]
    · rw [fx, h1, idx_cast, if_neg h2]
    · rcases R.whole.sides hc hj with ⟨_, _, _, _, _, l0, _⟩ | ⟨E, hE, hne, _, hn, _, _, _, ⟨_, l0, _⟩ | ⟨_, _, l1, _⟩⟩
      · exact absurd l0 h1
      · exact absurd l0 h1
      · have := fx
        rw [if_pos hn, l1, idx_cast] at this
        linear_combination -this
  -- no cell is larger than all others
  have none : ∀ y : Nat → K, (∀ C < n, 0 = ∑ j ∈ Finset.range (dim + 1), (if G.cellid (G.faceid C j) 0 = (C : Int) then
      ((if G.name (G.faceid C j) = 0 then y (idx (G.cellid (G.faceid C j) 1)) else - y C) - y C) * κ (G.faceid C j) else
      (y (idx (G.cellid (G.faceid C j) 0)) - y C) * κ (G.faceid C j))) → ∀ C < n, y C ≤ 0 := by
    intro y hy C hC
    obtain ⟨M, hM, hmax⟩ := Finset.exists_max_image (Finset.range n) y ⟨C, Finset.mem_range.mpr hC⟩
    refine le_trans (hmax C (Finset.mem_range.mpr hC)) ?_
    by_contra hpos
    have hpos := not_le.mp hpos
    have hMn := Finset.mem_range.mp hM
    have hMG : M < G.nbcells := by rw [h.run.nG]; exact hMn
    have le : ∀ E < G.nbcells, y E ≤ y M := fun E hE => hmax E (Finset.mem_range.mpr (by rw [← h.run.nG]; exact hE))
    obtain ⟨j0, hj0, hb0⟩ := hbd M hMG
    have := hy M hMn
    refine absurd this (ne_of_gt (Finset.sum_neg' (fun j hj => ?_) ⟨j0, Finset.mem_range.mpr hj0, ?_⟩))
    · have hj := Finset.mem_range.mp hj
      have kp := kpos _ (R.cG.flt M hMG j hj)
      rcases R.whole.sides hMG hj with ⟨_, hB, _, _, _, l0, _⟩ | ⟨E, hE, hne, _, hn, _, _, _, ⟨_, l0, l1, _⟩ | ⟨_, l0, l1, _⟩⟩
      · rw [if_pos l0, if_neg (fun (e : G.name _ = 0) => R.cG.B0 (e ▸ hB))]
        nlinarith
      · rw [if_pos l0, if_pos hn, l1, idx_cast]
        nlinarith [le E hE]
      · rw [if_neg (by rw [l0]; exact_mod_cast hne), l0, idx_cast]
        nlinarith [le E hE]
    · have kp := kpos _ (R.cG.flt M hMG j0 hj0)
      rcases R.whole.sides hMG hj0 with ⟨_, hB, _, _, _, l0, _⟩ | ⟨E, hE, hne, _, hn, _, hnb, _⟩
      · rw [if_pos l0, if_neg (fun (e : G.name _ = 0) => R.cG.B0 (e ▸ hB))]
        nlinarith
      · exact absurd hb0 hnb
  have a1 := none x row
  have a2 := none (fun C => - x C) (fun C hC => by
    have := row C hC
    rw [eq_comm, ← neg_eq_zero, ← Finset.sum_neg_distrib] at this
    rw [eq_comm, ← this]
    refine Finset.sum_congr rfl fun j _ => ?_
    split_ifs <;> ring)
  intro C hC
  exact le_antisymm (a1 C hC) (by have := a2 C hC; linarith)

end

section
variable {nodeid : Nat → Nat → Nat} {node : Nat → K × K × K × Nat} {npart0 epart : Nat → Nat}
  {nbnodes n SIZE : Nat} {data : Nat → RankData K} {serial : RankData K}

/-- Dirichlet data on plates that are equipotentials: `g` is normal to them. -/
theorem plates_affine {dim : Nat} {D : Tables K} {bc : Int → BCond K} {a : K} {g : Vec K}
    (node : ∀ s < D.nbnodes, ∀ v, D.oldname s ∈ locNames dim → bc (D.oldname s) = .dirichlet v →
      v (D.vertex s 0) (D.vertex s 1) (D.vertex s 2) = affine dim a g (D.vertex s))
    (face : ∀ F ∈ D.boundaryfaces, ∀ v, bc (D.name F) = .dirichlet v → v (D.fcenter F 0) (D.fcenter F 1) (D.fcenter F 2) = affine dim a g (D.fcenter F))
    (plate : ∀ F ∈ D.boundaryfaces, ∀ v, bc (D.name F) = .dirichlet v → ∃ t, ∀ k < dim, g k = t * D.normal F k)
    (wall : ∀ F ∈ D.boundaryfaces, bc (D.name F) = .neumann → ∑ k ∈ Finset.range dim, g k * D.normal F k = 0) : AffineData dim D bc a g := by
  refine ⟨node, face, fun F hF v hv q hq _ => ?_, wall⟩
  obtain ⟨t, ht⟩ := plate F hF v hv
  rw [← sub_eq_zero, affine_sub]
  calc _ = ∑ k ∈ Finset.range dim, t * (D.normal F k * (q k - D.fcenter F k)) := Finset.sum_congr rfl fun k hk => by rw [ht k (Finset.mem_range.mp hk)]; ring
    _ = 0 := by rw [← Finset.mul_sum, hq, mul_zero]

theorem plain2 (h : Launched 3 nodeid node (centvol2 node nodeid) npart0 epart nbnodes n SIZE data serial)
    (vm : ValidMesh2 nodeid node nbnodes n) (sqrt : K → K) (hs : ∀ x, 0 < x → sqrt x ≠ 0) (trunc : K → Int) (htr : ∀ m : Nat, trunc (m : K) = m) :
    Plain 2 (build2 sqrt trunc 1 serial) (out2 serial) :=
  ⟨fun _ => edge_build2 sqrt trunc, by omega, outPos2 h vm sqrt trunc htr, mirror_build2 h vm sqrt hs trunc htr⟩

theorem plain3 (h : Launched 4 nodeid node (centvol3 node nodeid) npart0 epart nbnodes n SIZE data serial)
    (vm : ValidMesh3 nodeid node nbnodes n) (sqrt : K → K) (hs : ∀ x, 0 < x → sqrt x * sqrt x = x) (trunc : K → Int) (htr : ∀ m : Nat, trunc (m : K) = m) :
    Plain 3 (build3 sqrt trunc 1 serial) (out3 serial) :=
  ⟨by omega, fun _ => wedge_build3 sqrt trunc 1 serial, outPos3 h vm sqrt trunc htr, mirror_build3 h vm sqrt hs trunc htr⟩

theorem root_ne {sqrt : K → K} (hs : ∀ x, 0 < x → sqrt x * sqrt x = x) : ∀ x, 0 < x → sqrt x ≠ 0 := fun x hx e => by
  have := hs x hx; rw [e] at this; simp at this; exact hx.ne this

/-- **C128** (2D): with Dirichlet and Neumann data of a linear potential `a + g·x` for which the potential is as large at the foot of the
perpendicular from the cell centre as at the centre of every Dirichlet face (plates), the values of the potential at the cell centres solve
the assembled linear system, on one process and on any number of processes. -/
theorem C128_solves_2d_partial (h : Launched 3 nodeid node (centvol2 node nodeid) npart0 epart nbnodes n SIZE data serial)
    (vm : ValidMesh2 nodeid node nbnodes n) (sqrt : K → K) (hs : ∀ x, 0 < x → sqrt x ≠ 0) (trunc : K → Int) (htr : ∀ m : Nat, trunc (m : K) = m)
    (star : StarConnected 2 nodeid n) (hsp : ∀ s < nbnodes, Spread2 nodeid node n s) (bc : Int → BCond K) (hdn : DirichletOrNeumann bc)
    (hcm : CornersMatch 2 (build2 sqrt trunc 1 serial) bc) (a : K) (g : Vec K) (hA : AffineData 2 (build2 sqrt trunc 1 serial) bc a g) :
    ∀ W, (mkWorld 2 SIZE data (fun p => build2 sqrt trunc SIZE (data p)) = some W ∨
        mkWorld 2 1 (fun _ => serial) (fun _ => build2 sqrt trunc 1 serial) = some W) →
      ∀ i < n, ∑ j ∈ Finset.range n, matrixOf W bc i j * affine 2 a g ((build2 sqrt trunc 1 serial).center j) = boundaryOf W bc i := by
  have np := h.nodePair2 vm sqrt trunc htr
  obtain ⟨hgL, hgG, w1, w2, sL, sG⟩ := np.worlds
  have key := affine_solves np (h.solid2 vm sqrt hs trunc htr) (plain2 h vm sqrt hs trunc htr) (by omega) hcm hdn hA (fun s hn => surrounded2 h vm sqrt trunc htr (hsp s hn)) sG
  rintro W (e | e)
  · rw [w1] at e
    obtain rfl := Option.some.inj e
    obtain ⟨m1, m2⟩ := matrix_par np (by omega) star bc sL sG
    rw [m1, m2]
    exact key
  · rw [w2] at e
    obtain rfl := Option.some.inj e
    exact key

/-- **C128** (2D): if the system has only that solution, `solve` returns the linear potential at every cell and the field computed from it
is `-g` on every face, on one process and on any number of processes. -/
theorem C128_exact_2d_partial (h : Launched 3 nodeid node (centvol2 node nodeid) npart0 epart nbnodes n SIZE data serial)
    (vm : ValidMesh2 nodeid node nbnodes n) (sqrt : K → K) (hs : ∀ x, 0 < x → sqrt x ≠ 0) (trunc : K → Int) (htr : ∀ m : Nat, trunc (m : K) = m)
    (star : StarConnected 2 nodeid n) (hsp : ∀ s < nbnodes, Spread2 nodeid node n s) (bc : Int → BCond K) (hdn : DirichletOrNeumann bc)
    (hcm : CornersMatch 2 (build2 sqrt trunc 1 serial) bc) (a : K) (g : Vec K) (hA : AffineData 2 (build2 sqrt trunc 1 serial) bc a g) :
    ∀ W, (mkWorld 2 SIZE data (fun p => build2 sqrt trunc SIZE (data p)) = some W ∨
        mkWorld 2 1 (fun _ => serial) (fun _ => build2 sqrt trunc 1 serial) = some W) →
      Regular n (matrixOf W bc) → ∀ direct, ReadsRows n direct → SolvesSystems n direct → ∀ sv, SolvedExactly W bc sv direct a g := by
  have np := h.nodePair2 vm sqrt trunc htr
  obtain ⟨hgL, hgG, w1, w2, sL, sG⟩ := np.worlds
  rintro W (e | e) hreg direct h1 h2 sv
  · rw [w1] at e
    obtain rfl := Option.some.inj e
    exact exact_par np (h.solid2 vm sqrt hs trunc htr) (plain2 h vm sqrt hs trunc htr) (by omega) star hcm hdn hA (fun s hn => surrounded2 h vm sqrt trunc htr (hsp s hn)) sL sG hreg h1 h2 sv
  · rw [w2] at e
    obtain rfl := Option.some.inj e
    exact exact_serial np (h.solid2 vm sqrt hs trunc htr) (plain2 h vm sqrt hs trunc htr) (by omega) hcm hdn hA (fun s hn => surrounded2 h vm sqrt trunc htr (hsp s hn)) sG hreg h1 h2 sv

/-- **C128** (3D). -/
theorem C128_solves_3d_partial (h : Launched 4 nodeid node (centvol3 node nodeid) npart0 epart nbnodes n SIZE data serial)
    (vm : ValidMesh3 nodeid node nbnodes n) (sqrt : K → K) (hs : ∀ x, 0 < x → sqrt x * sqrt x = x) (trunc : K → Int) (htr : ∀ m : Nat, trunc (m : K) = m)
    (star : StarConnected 3 nodeid n) (hsp : ∀ s < nbnodes, Spread3 nodeid node n s) (bc : Int → BCond K) (hdn : DirichletOrNeumann bc)
    (hcm : CornersMatch 3 (build3 sqrt trunc 1 serial) bc) (a : K) (g : Vec K) (hA : AffineData 3 (build3 sqrt trunc 1 serial) bc a g) :
    ∀ W, (mkWorld 3 SIZE data (fun p => build3 sqrt trunc SIZE (data p)) = some W ∨
        mkWorld 3 1 (fun _ => serial) (fun _ => build3 sqrt trunc 1 serial) = some W) →
      ∀ i < n, ∑ j ∈ Finset.range n, matrixOf W bc i j * affine 3 a g ((build3 sqrt trunc 1 serial).center j) = boundaryOf W bc i := by
  have np := h.nodePair3 vm sqrt trunc htr
  obtain ⟨hgL, hgG, w1, w2, sL, sG⟩ := np.worlds
  have hw : 3 = 3 → WedgeOk (build3 sqrt trunc 1 serial) ∧ ∀ p < SIZE, WedgeOk (build3 sqrt trunc SIZE (data p)) :=
    fun _ => ⟨wedge_build3 sqrt trunc 1 serial, fun p _ => wedge_build3 sqrt trunc SIZE (data p)⟩
  have key := affine_solves np (h.solid3 vm sqrt (root_ne hs) trunc htr) (plain3 h vm sqrt hs trunc htr) hw hcm hdn hA (fun s hn => surrounded3 h vm sqrt (root_ne hs) trunc htr (hsp s hn)) sG
  rintro W (e | e)
  · rw [w1] at e
    obtain rfl := Option.some.inj e
    obtain ⟨m1, m2⟩ := matrix_par np hw star bc sL sG
    rw [m1, m2]
    exact key
  · rw [w2] at e
    obtain rfl := Option.some.inj e
    exact key

/-- **C128** (3D). -/
theorem C128_exact_3d_partial (h : Launched 4 nodeid node (centvol3 node nodeid) npart0 epart nbnodes n SIZE data serial)
    (vm : ValidMesh3 nodeid node nbnodes n) (sqrt : K → K) (hs : ∀ x, 0 < x → sqrt x * sqrt x = x) (trunc : K → Int) (htr : ∀ m : Nat, trunc (m : K) = m)
    (star : StarConnected 3 nodeid n) (hsp : ∀ s < nbnodes, Spread3 nodeid node n s) (bc : Int → BCond K) (hdn : DirichletOrNeumann bc)
    (hcm : CornersMatch 3 (build3 sqrt trunc 1 serial) bc) (a : K) (g : Vec K) (hA : AffineData 3 (build3 sqrt trunc 1 serial) bc a g) :
    ∀ W, (mkWorld 3 SIZE data (fun p => build3 sqrt trunc SIZE (data p)) = some W ∨
        mkWorld 3 1 (fun _ => serial) (fun _ => build3 sqrt trunc 1 serial) = some W) →
      Regular n (matrixOf W bc) → ∀ direct, ReadsRows n direct → SolvesSystems n direct → ∀ sv, SolvedExactly W bc sv direct a g := by
  have np := h.nodePair3 vm sqrt trunc htr
  obtain ⟨hgL, hgG, w1, w2, sL, sG⟩ := np.worlds
  have hw : 3 = 3 → WedgeOk (build3 sqrt trunc 1 serial) ∧ ∀ p < SIZE, WedgeOk (build3 sqrt trunc SIZE (data p)) :=
    fun _ => ⟨wedge_build3 sqrt trunc 1 serial, fun p _ => wedge_build3 sqrt trunc SIZE (data p)⟩
  rintro W (e | e) hreg direct h1 h2 sv
  · rw [w1] at e
    obtain rfl := Option.some.inj e
    exact exact_par np (h.solid3 vm sqrt (root_ne hs) trunc htr) (plain3 h vm sqrt hs trunc htr) hw star hcm hdn hA (fun s hn => surrounded3 h vm sqrt (root_ne hs) trunc htr (hsp s hn)) sL sG hreg h1 h2 sv
  · rw [w2] at e
    obtain rfl := Option.some.inj e
    exact exact_serial np (h.solid3 vm sqrt (root_ne hs) trunc htr) (plain3 h vm sqrt hs trunc htr) hw hcm hdn hA (fun s hn => surrounded3 h vm sqrt (root_ne hs) trunc htr (hsp s hn)) sG hreg h1 h2 sv

end
end Verif.Props.Par
