import Verif.Props.ParDiff
import Verif.Props.SW
import Verif.Model.RunSW

/-! Helper lemmas for the shallow-water runs: the residual, the source term and the time step of a rank against those of the serial run. -/
set_option linter.unusedSectionVars false
set_option linter.unusedVariables false
set_option linter.unusedSimpArgs false
namespace Verif.Props.Par
open Verif.Fvm Verif.Spec Verif.Conn Verif.Dom Verif.Geo Verif.Names Verif.MeshFile Verif.Part Verif.Comm Verif.Run Verif.HaloGhost

theorem sides_sum {M : Type*} [AddCommMonoid M] (l : List Nat) (hl : l.Nodup) (side : Nat → Nat) (F : Nat → M) (c d1 : Nat) (fc : Nat → Nat)
    (hinj : ∀ j < d1, ∀ j' < d1, fc j = fc j' → j = j') (hex : ∀ f ∈ l, side f = c → ∃ j < d1, fc j = f) :
    (l.map (fun f => if side f = c then F f else 0)).sum = ∑ j ∈ Finset.range d1, if fc j ∈ l ∧ side (fc j) = c then F (fc j) else 0 := by
  rw [← List.sum_toFinset _ hl, ← Finset.sum_filter, ← Finset.sum_filter]
  symm
  apply Finset.sum_nbij fc
  · intro j hj
    simp only [Finset.mem_filter, Finset.mem_range] at hj
    simp [hj.2.1, hj.2.2]
  · intro j hj j' hj' e
    simp only [Finset.coe_filter, Finset.mem_range, Set.mem_ofPred_eq] at hj hj'
    exact hinj j hj.1 j' hj'.1 e
  · intro f hf
    simp only [Finset.coe_filter, List.mem_toFinset, Set.mem_ofPred_eq] at hf
    obtain ⟨j, hj, e⟩ := hex f hf.1 hf.2
    refine ⟨j, ?_, e⟩
    simp [hj, e, hf.1, hf.2]
  · intro j _; rfl

/-- Contribution of face `f` to the residual of cell `c`. -/
noncomputable def swSide (a : SW.Args) (c f : Nat) : SW.W5 :=
  (if f ∈ a.innerfaces ∧ a.cell1 f = c then SW.innerFlux a f else 0) - (if f ∈ a.innerfaces ∧ a.cell0 f = c then SW.innerFlux a f else 0)
  - (if f ∈ a.halofaces ∧ a.cell0 f = c then SW.haloFlux a f else 0) - (if f ∈ a.boundaryfaces ∧ a.cell0 f = c then SW.boundaryFlux a f else 0)

section
variable {D : Tables ℝ} {d1 : Nat} {B : List Int}

theorem Consistent.first_mem (h : Consistent D d1 B) {f c : Nat} (hf : f < D.nbfaces) (hl : idx (D.cellid f 0) = c) : ∃ j < d1, D.faceid c j = f := by
  obtain ⟨a, _, h2, j, hj, e⟩ := users_first (h.users_ne hf)
  rw [h.cell0 f hf, h2] at hl
  obtain rfl : a = c := by simpa [idx] using hl
  exact ⟨j, hj, e⟩

theorem Consistent.second_mem (h : Consistent D d1 B) {f c : Nat} (hf : f < D.nbfaces) (hn : D.name f = 0) (hl : idx (D.cellid f 1) = c) :
    ∃ j < d1, D.faceid c j = f := by
  obtain ⟨a, _, h3, j, hj, e⟩ := users_second (h.name0 f hf hn)
  rw [h.cell1 f hf hn, h3] at hl
  obtain rfl : a = c := by simpa [idx] using hl
  exact ⟨j, hj, e⟩

theorem swConv_sides (a : SW.Args) (c d1 : Nat) (fc : Nat → Nat) (hinj : ∀ j < d1, ∀ j' < d1, fc j = fc j' → j = j')
    (hi : a.innerfaces.Nodup) (hh : a.halofaces.Nodup) (hb : a.boundaryfaces.Nodup)
    (hil : ∀ f ∈ a.innerfaces, a.cell0 f = c → ∃ j < d1, fc j = f) (hir : ∀ f ∈ a.innerfaces, a.cell1 f = c → ∃ j < d1, fc j = f)
    (hhl : ∀ f ∈ a.halofaces, a.cell0 f = c → ∃ j < d1, fc j = f) (hbl : ∀ f ∈ a.boundaryfaces, a.cell0 f = c → ∃ j < d1, fc j = f) :
    a.convective c = ∑ j ∈ Finset.range d1, swSide a c (fc j) := by
  rw [SW.convective_eq]
  have e1 : (a.innerfaces.map (fun i => (if a.cell1 i = c then SW.innerFlux a i else 0) - (if a.cell0 i = c then SW.innerFlux a i else 0))).sum
      = (∑ j ∈ Finset.range d1, if fc j ∈ a.innerfaces ∧ a.cell1 (fc j) = c then SW.innerFlux a (fc j) else 0)
      - ∑ j ∈ Finset.range d1, if fc j ∈ a.innerfaces ∧ a.cell0 (fc j) = c then SW.innerFlux a (fc j) else 0 := by
    rw [← sides_sum _ hi _ _ _ _ _ hinj hil, ← sides_sum _ hi _ _ _ _ _ hinj hir]
    clear hi hil hir
    induction a.innerfaces with
    | nil => simp
    | cons x l ih => simp only [List.map_cons, List.sum_cons, ih]; abel
  have e2 : ∀ (l : List Nat) (F : Nat → SW.W5), l.Nodup → (∀ f ∈ l, a.cell0 f = c → ∃ j < d1, fc j = f) →
      (l.map (fun i => -(if a.cell0 i = c then F i else 0))).sum =
      - ∑ j ∈ Finset.range d1, if fc j ∈ l ∧ a.cell0 (fc j) = c then F (fc j) else 0 := by
    intro l F hl hm
    rw [← sides_sum _ hl _ _ _ _ _ hinj hm]
    clear hl hm
    induction l with
    | nil => simp
    | cons x l ih => simp only [List.map_cons, List.sum_cons, ih]; abel
  rw [e1, e2 _ _ hh hhl, e2 _ _ hb hbl]
  simp only [swSide, Finset.sum_sub_distrib]
  abel

theorem Consistent.swConv (h : Consistent D d1 B) (V : Fin 5 → Vari ℝ) (gh gc : Grads ℝ) (o : Int) {c : Nat} (hc : c < D.nbcells) :
    (swArgs D V gh gc o).convective c = ∑ j ∈ Finset.range d1, swSide (swArgs D V gh gc o) c (D.faceid c j) :=
  swConv_sides _ _ _ _ (h.inj c hc) h.inner.1 h.halo.1 h.bnd.1 (fun f hf hl => h.first_mem ((h.inner.2 f).mp hf).1 hl)
    (fun f hf hl => h.second_mem ((h.inner.2 f).mp hf).1 ((h.inner.2 f).mp hf).2 hl)
    (fun f hf hl => h.first_mem ((h.halo.2 f).mp hf).1 hl) (fun f hf hl => h.first_mem ((h.bnd.2 f).mp hf).1 hl)

end

theorem srnh_congr (l r : SW.W5) (n n' : Nat → ℝ) (m g : ℝ) (h0 : n 0 = n' 0) (h1 : n 1 = n' 1) : SW.srnh l r n m g = SW.srnh l r n' m g := by
  simp only [SW.srnh, SW.predict, SW.uRoe, SW.vRoe, SW.rotate, h0, h1]

/-- The arrays of a rank are those of the serial run. -/
structure SMatch (L G : Tables ℝ) (d1 : Nat) (φ : Nat → Nat) (ext : List (List Nat)) (VL VG : Fin 5 → Vari ℝ) (hL cL hG cG : Grads ℝ) : Prop where
  cell : ∀ c < L.nbcells, ∀ i, (VL i).cell c = (VG i).cell (φ c)
  halo : ∀ (k : Nat) row E, ext[k]? = some row → row.head? = some E → E < G.nbcells → ∀ i, (VL i).halo.getD k 0 = (VG i).cell E
  grad : ∀ c < L.nbcells, hL.wx c = hG.wx (φ c) ∧ hL.wy c = hG.wy (φ c) ∧ cL.wx c = cG.wx (φ c) ∧ cL.wy c = cG.wy (φ c) ∧ cL.psi c = cG.psi (φ c)
  gradh : ∀ (k : Nat) row E, ext[k]? = some row → row.head? = some E → E < G.nbcells → hL.wx_halo.getD k 0 = hG.wx E ∧ hL.wy_halo.getD k 0 = hG.wy E ∧
    cL.wx_halo.getD k 0 = cG.wx E ∧ cL.wy_halo.getD k 0 = cG.wy E ∧ cL.psi_halo.getD k 0 = cG.psi E
  ghost : ∀ c < L.nbcells, ∀ j < d1, L.faceid c j ∈ L.boundaryfaces → ∀ i, (VL i).ghost (L.faceid c j) = (VG i).ghost (G.faceid (φ c) j)
  mes : ∀ c < L.nbcells, ∀ j < d1, L.mesure (L.faceid c j) = G.mesure (G.faceid (φ c) j)

section
variable {L G : Tables ℝ} {d1 : Nat} {φ : Nat → Nat} {mine : Nat → Prop} {ext : List (List Nat)} {B : List Int} {out : Nat → Nat → Vec ℝ}
  {VL VG : Fin 5 → Vari ℝ} {hL cL hG cG : Grads ℝ}

theorem SMatch.fromCell (m : SMatch L G d1 φ ext VL VG hL cL hG cG) (R : RankOf L G d1 φ mine ext B out) (o : Int) {c e j : Nat} (hc : c < L.nbcells)
    (he : e < L.nbcells) (hj : j < d1) : (swArgs L VL hL cL o).fromCell e (L.faceid c j) = (swArgs G VG hG cG o).fromCell (φ e) (G.faceid (φ c) j) := by
  obtain ⟨g1, g2, g3, g4, g5⟩ := m.grad e he
  have hcell := m.cell e he
  have f0 := R.fcenter c hc j hj 0 (by omega)
  have f1 := R.fcenter c hc j hj 1 (by omega)
  have c0 := R.center e he 0 (by omega)
  have c1 := R.center e he 1 (by omega)
  simp only [SW.Args.fromCell, SW.Args.recon, swArgs, cellsOf, g1, g2, g3, g4, g5, f0, f1, c0, c1, hcell]

theorem SMatch.fromHalo (m : SMatch L G d1 φ ext VL VG hL cL hG cG) (R : RankOf L G d1 φ mine ext B out) (o : Int) {c j k E : Nat} {row : List Nat}
    (hc : c < L.nbcells) (hj : j < d1) (hr : ext[k]? = some row) (hE : row.head? = some E) (hEl : E < G.nbcells) :
    (swArgs L VL hL cL o).fromHalo k (L.faceid c j) = (swArgs G VG hG cG o).fromCell E (G.faceid (φ c) j) := by
  obtain ⟨g1, g2, g3, g4, g5⟩ := m.gradh k row E hr hE hEl
  have hcell := m.halo k row E hr hE hEl
  have f0 := R.fcenter c hc j hj 0 (by omega)
  have f1 := R.fcenter c hc j hj 1 (by omega)
  have c0 := R.centvol k row E hr hE hEl 0 (by omega)
  have c1 := R.centvol k row E hr hE hEl 1 (by omega)
  simp only [SW.Args.fromCell, SW.Args.fromHalo, SW.Args.recon, swArgs, cellsOf, g1, g2, g3, g4, g5, f0, f1, c0, c1, hcell]

/-- Membership of a face in the three families. -/
theorem Consistent.family {D : Tables ℝ} (h : Consistent D d1 B) {f : Nat} (hf : f < D.nbfaces) :
    (D.name f = 0 → f ∈ D.innerfaces ∧ f ∉ D.halofaces ∧ f ∉ D.boundaryfaces) ∧
    (D.name f = 10 → f ∉ D.innerfaces ∧ f ∈ D.halofaces ∧ f ∉ D.boundaryfaces) ∧
    (D.name f ∈ B → f ∉ D.innerfaces ∧ f ∉ D.halofaces ∧ f ∈ D.boundaryfaces) := by
  refine ⟨fun hn => ⟨(h.inner.2 f).mpr ⟨hf, hn⟩, fun hm => ?_, fun hm => ?_⟩, fun hn => ⟨fun hm => ?_, (h.halo.2 f).mpr ⟨hf, hn⟩, fun hm => ?_⟩,
    fun hn => ⟨fun hm => ?_, fun hm => ?_, (h.bnd.2 f).mpr ⟨hf, hn⟩⟩⟩
  · have := ((h.halo.2 f).mp hm).2; rw [hn] at this; exact absurd this (by decide)
  · have := ((h.bnd.2 f).mp hm).2; rw [hn] at this; exact h.B0 this
  · have := ((h.inner.2 f).mp hm).2; rw [hn] at this; exact absurd this (by decide)
  · have := ((h.bnd.2 f).mp hm).2; rw [hn] at this; exact h.B10 this
  · have := ((h.inner.2 f).mp hm).2; rw [this] at hn; exact h.B0 hn
  · have := ((h.halo.2 f).mp hm).2; rw [this] at hn; exact h.B10 hn

theorem swNormal {n o : Nat → ℝ} (h : ∀ k < 3, n k = o k) (l r : SW.W5) (m g : ℝ) : SW.srnh l r n m g = SW.srnh l r o m g :=
  srnh_congr _ _ _ _ _ _ (h 0 (by omega)) (h 1 (by omega))

theorem swNormal_neg {n o : Nat → ℝ} (h : ∀ k < 3, n k = - o k) (l r : SW.W5) (m g : ℝ) : SW.srnh l r n m g = - SW.srnh r l o m g := by
  rw [srnh_congr l r n (SW.flipN o) m g (h 0 (by omega)) (h 1 (by omega)), SW.C74_flux_antisymmetric]; rfl

set_option maxHeartbeats 1000000 in
/-- Both runs have the same flux through a side. -/
theorem SMatch.side (m : SMatch L G d1 φ ext VL VG hL cL hG cG) (R : RankOf L G d1 φ mine ext B out) (o : Int) {c : Nat} (hc : c < L.nbcells) {j : Nat}
    (hj : j < d1) : swSide (swArgs L VL hL cL o) c (L.faceid c j) = swSide (swArgs G VG hG cG o) (φ c) (G.faceid (φ c) j) := by
  have hC := (R.sub.lt c hc).1
  have hf := R.cL.flt c hc j hj
  have hF := R.cG.flt (φ c) hC j hj
  have fL := R.cL.family hf
  have fG := R.cG.family hF
  have hmes := m.mes c hc j hj
  have fc := m.fromCell R o hc hc hj
  have i0 : ∀ {D : Tables ℝ} {V h' c' f a}, D.cellid f 0 = ((a : Nat) : Int) → (swArgs D V h' c' o).cell0 f = a := by
    intro D V h' c' f a e; show idx (D.cellid f 0) = a; rw [e]; simp [idx]
  have i1 : ∀ {D : Tables ℝ} {V h' c' f a}, D.cellid f 1 = ((a : Nat) : Int) → (swArgs D V h' c' o).cell1 f = a := by
    intro D V h' c' f a e; show idx (D.cellid f 1) = a; rw [e]; simp [idx]
  have mL : (swArgs L VL hL cL o).mesuref (L.faceid c j) = (swArgs G VG hG cG o).mesuref (G.faceid (φ c) j) := hmes
  have nL : (swArgs L VL hL cL o).normalf = L.normal := rfl
  have nG : (swArgs G VG hG cG o).normalf = G.normal := rfl
  have aI : (swArgs L VL hL cL o).innerfaces = L.innerfaces := rfl
  have aH : (swArgs L VL hL cL o).halofaces = L.halofaces := rfl
  have aB : (swArgs L VL hL cL o).boundaryfaces = L.boundaryfaces := rfl
  have bI : (swArgs G VG hG cG o).innerfaces = G.innerfaces := rfl
  have bH : (swArgs G VG hG cG o).halofaces = G.halofaces := rfl
  have bB : (swArgs G VG hG cG o).boundaryfaces = G.boundaryfaces := rfl
  unfold swSide
  rw [aI, aH, aB, bI, bH, bB]
  rcases R.kinds hc hj with ⟨hbL, hbG, hB, hnm, l0, g0⟩ | ⟨e, he, hne, hLn, hGn, hk⟩ | ⟨E, hE, row, hm, hLn, hGn, hrow, hhead, l0, hk⟩
  · obtain ⟨x1, x2, x3⟩ := fL.2.2 hB
    obtain ⟨y1, y2, y3⟩ := fG.2.2 (hnm ▸ hB)
    have hg : (swArgs L VL hL cL o).ghost (L.faceid c j) = (swArgs G VG hG cG o).ghost (G.faceid (φ c) j) := by
      funext i; exact m.ghost c hc j hj hbL i
    simp only [x1, x2, x3, y1, y2, y3, i0 l0, i0 g0, false_and, if_false, true_and, if_true]
    rw [SW.boundaryFlux, SW.boundaryFlux, i0 l0, i0 g0, fc, hg, mL, nL, nG, swNormal (R.normalL c hc j hj l0), swNormal (R.normalG (φ c) hC j hj g0)]
  · have hne' : φ e ≠ φ c := fun x => hne (R.sub.inj he hc x)
    obtain ⟨x1, x2, x3⟩ := fL.1 hLn
    obtain ⟨y1, y2, y3⟩ := fG.1 hGn
    have fe := m.fromCell R o hc he hj
    rcases hk with ⟨a1, a2, a3, a4⟩ | ⟨a1, a2, a3, a4⟩
    · simp only [x1, x2, x3, y1, y2, y3, i0 a1, i1 a2, i0 a3, i1 a4, hne, hne', false_and, if_false, true_and, if_true]
      rw [SW.innerFlux, SW.innerFlux, i0 a1, i1 a2, i0 a3, i1 a4, fc, fe, mL, nL, nG, swNormal (R.normalL c hc j hj a1),
        swNormal (R.normalG (φ c) hC j hj a3)]
    · simp only [x1, x2, x3, y1, y2, y3, i0 a1, i1 a2, i0 a3, i1 a4, hne, hne', false_and, if_false, true_and, if_true]
      rw [SW.innerFlux, SW.innerFlux, i0 a1, i1 a2, i0 a3, i1 a4, fc, fe, mL, nL, nG, swNormal_neg (R.normalL_neg hc he hne hj a1),
        swNormal_neg (R.normalG_neg hC (R.sub.lt e he).1 hne' hj a3)]
  · have hne : E ≠ φ c := fun x => hm (x ▸ (R.sub.lt c hc).2)
    obtain ⟨x1, x2, x3⟩ := fL.2.1 hLn
    obtain ⟨y1, y2, y3⟩ := fG.1 hGn
    have fe := m.fromHalo R o hc hj hrow hhead hE
    have hfid : (swArgs L VL hL cL o).halofid = L.halofid := rfl
    rcases hk with ⟨a1, a2⟩ | ⟨a1, a2⟩
    · simp only [x1, x2, x3, y1, y2, y3, i0 l0, i0 a1, i1 a2, hne, false_and, if_false, true_and, if_true]
      rw [SW.innerFlux, SW.haloFlux, i0 l0, i0 a1, i1 a2, fc, hfid, fe, mL, nL, nG, swNormal (R.normalL c hc j hj l0),
        swNormal (R.normalG (φ c) hC j hj a1)]
      abel
    · simp only [x1, x2, x3, y1, y2, y3, i0 l0, i0 a1, i1 a2, hne, false_and, if_false, true_and, if_true]
      rw [SW.innerFlux, SW.haloFlux, i0 l0, i0 a1, i1 a2, fc, hfid, fe, mL, nL, nG, swNormal (R.normalL c hc j hj l0),
        swNormal_neg (R.normalG_neg hC hE hne hj a1)]
      abel

/-- Both runs have the same residual. -/
theorem SMatch.conv (m : SMatch L G d1 φ ext VL VG hL cL hG cG) (R : RankOf L G d1 φ mine ext B out) (o : Int) {c : Nat} (hc : c < L.nbcells) :
    (swArgs L VL hL cL o).convective c = (swArgs G VG hG cG o).convective (φ c) := by
  rw [R.cL.swConv _ _ _ _ hc, R.cG.swConv _ _ _ _ (R.sub.lt c hc).1]
  exact Finset.sum_congr rfl fun j hj => m.side R o hc (Finset.mem_range.mp hj)

/-! ### the source -/

/-- The normals of the serial run point out of their cells; the second vertices of the cells agree. -/
structure Outward (G : Tables ℝ) (out : Nat → Nat → Vec ℝ) : Prop where
  out : ∀ C < G.nbcells, ∀ j < 3, (G.center C 0 - G.fcenter (G.faceid C j) 0) * out C j 0 + (G.center C 1 - G.fcenter (G.faceid C j) 1) * out C j 1 +
    (G.center C 2 - G.fcenter (G.faceid C j) 2) * out C j 2 < 0

theorem outNormal_pm (g c n o : Vec ℝ) (ε : ℝ) (hε : ε = 1 ∨ ε = -1) (hn : ∀ k < 3, n k = ε * o k)
    (h : (g 0 - c 0) * o 0 + (g 1 - c 1) * o 1 + (g 2 - c 2) * o 2 < 0) : ∀ k < 3, outNormal g c n k = o k := by
  intro k hk
  have n0 := hn 0 (by omega)
  have n1 := hn 1 (by omega)
  have n2 := hn 2 (by omega)
  unfold outNormal
  rcases hε with rfl | rfl
  · rw [if_pos (by rw [n0, n1, n2]; linarith), hn k hk, one_mul]
  · rw [if_neg (by rw [n0, n1, n2]; intro x; linarith), hn k hk]; ring

theorem RankOf.nfG (R : RankOf L G 3 φ mine ext B out) (ho : Outward G out) {C : Nat} (hC : C < G.nbcells) {j : Nat} (hj : j < 3) :
    ∀ k < 3, (swCells G).nf C j k = out C j k := by
  intro k hk
  obtain ⟨ε, hε, hn⟩ := R.normalG_pm hC hj
  show createNormalFacesOfCell _ _ _ _ _ _ _ C j k = _
  rw [createNF_apply, if_pos ⟨hC, by omega⟩]
  exact outNormal_pm _ _ _ _ ε hε hn (ho.out C hC j hj) k hk

theorem RankOf.nfL (R : RankOf L G 3 φ mine ext B out) (ho : Outward G out) {c : Nat} (hc : c < L.nbcells) {j : Nat} (hj : j < 3) :
    ∀ k < 3, (swCells L).nf c j k = out (φ c) j k := by
  intro k hk
  obtain ⟨ε, hε, hn⟩ := R.normalL_pm hc hj
  show createNormalFacesOfCell _ _ _ _ _ _ _ c j k = _
  rw [createNF_apply, if_pos ⟨hc, by omega⟩]
  have hC := (R.sub.lt c hc).1
  refine outNormal_pm _ _ _ _ ε hε hn ?_ k hk
  rw [R.center c hc 0 (by omega), R.center c hc 1 (by omega), R.center c hc 2 (by omega), R.fcenter c hc j hj 0 (by omega),
    R.fcenter c hc j hj 1 (by omega), R.fcenter c hc j hj 2 (by omega)]
  exact ho.out (φ c) hC j hj

theorem cellfid_eq (D : Tables ℝ) {c j : Nat} (hc : c < D.nbcells) (hj : j < 3) :
    (swCells D).cellfid c j = idx (neighByFace D.faceid (fun f => (D.cellid f 0, D.cellid f 1)) c j) := by
  show idx ((createNeighborCellByFace _ _ _ _ c).getD j (-1)) = _
  rw [neigh_row, if_pos hc, List.getD_eq_getElem?_getD, List.getElem?_map, List.getElem?_range hj]; rfl

theorem cellfid_first {D : Tables ℝ} {c j e : Nat} (hc : c < D.nbcells) (hj : j < 3) (h0 : D.cellid (D.faceid c j) 0 = (c : Int))
    (h1 : D.cellid (D.faceid c j) 1 = (e : Int)) : (swCells D).cellfid c j = e := by
  rw [cellfid_eq D hc hj, neighByFace]
  dsimp only
  rw [h0, h1, if_pos (by omega), if_pos rfl]; simp [idx]

theorem cellfid_second {D : Tables ℝ} {c j e : Nat} (hc : c < D.nbcells) (hj : j < 3) (hne : e ≠ c) (h0 : D.cellid (D.faceid c j) 0 = (e : Int))
    (h1 : D.cellid (D.faceid c j) 1 = (c : Int)) : (swCells D).cellfid c j = e := by
  rw [cellfid_eq D hc hj, neighByFace]
  dsimp only
  rw [h0, h1, if_pos (by omega), if_neg (by omega)]; simp [idx]

theorem SMatch.other (m : SMatch L G 3 φ ext VL VG hL cL hG cG) (R : RankOf L G 3 φ mine ext B out) (o : Int) {c : Nat} (hc : c < L.nbcells) {j : Nat}
    (hj : j < 3) : SW.srcOther (swCells L) (swArgs L VL hL cL o).c (swArgs L VL hL cL o).ghost (swArgs L VL hL cL o).halo c j =
      SW.srcOther (swCells G) (swArgs G VG hG cG o).c (swArgs G VG hG cG o).ghost (swArgs G VG hG cG o).halo (φ c) j := by
  have hC := (R.sub.lt c hc).1
  have eL : (swCells L).faceid = L.faceid := rfl
  have eG : (swCells G).faceid = G.faceid := rfl
  have kL : (swCells L).namef = L.name := rfl
  have kG : (swCells G).namef = G.name := rfl
  unfold SW.srcOther
  dsimp only
  rw [eL, eG, kL, kG]
  rcases R.kinds hc hj with ⟨hbL, hbG, hB, hnm, l0, g0⟩ | ⟨e, he, hne, hLn, hGn, hk⟩ | ⟨E, hE, row, hm, hLn, hGn, hrow, hhead, l0, hk⟩
  · have n0 : L.name (L.faceid c j) ≠ 0 := fun x => R.cL.B0 (x ▸ hB)
    have n1 : L.name (L.faceid c j) ≠ 10 := fun x => R.cL.B10 (x ▸ hB)
    rw [hnm, if_neg n1, if_neg n0, if_neg n1, if_neg n0]
    funext i; exact m.ghost c hc j hj hbL i
  · have hne' : φ e ≠ φ c := fun x => hne (R.sub.inj he hc x)
    rw [hLn, hGn, if_neg (by decide), if_pos rfl, if_neg (by decide), if_pos rfl]
    rcases hk with ⟨a1, a2, a3, a4⟩ | ⟨a1, a2, a3, a4⟩
    · rw [cellfid_first hc hj a1 a2, cellfid_first hC hj a3 a4]
      funext i; exact m.cell e he i
    · rw [cellfid_second hc hj hne a1 a2, cellfid_second hC hj hne' a3 a4]
      funext i; exact m.cell e he i
  · have hne : E ≠ φ c := fun x => hm (x ▸ (R.sub.lt c hc).2)
    have hid : (swCells G).cellfid (φ c) j = E := by
      rcases hk with ⟨a1, a2⟩ | ⟨a1, a2⟩
      · exact cellfid_first hC hj a1 a2
      · exact cellfid_second hC hj hne a1 a2
    rw [hLn, hGn, if_pos rfl, if_neg (by decide), if_pos rfl, hid]
    funext i; exact m.halo _ row E hrow hhead hE i

theorem SMatch.source (m : SMatch L G 3 φ ext VL VG hL cL hG cG) (R : RankOf L G 3 φ mine ext B out) (ho : Outward G out)
    (hv : ∀ c < L.nbcells, ∀ k < 2, L.vertex (L.cnode c 1) k = G.vertex (G.cnode (φ c) 1) k) (o : Int) {c : Nat} (hc : c < L.nbcells) :
    SW.source (swCells L) (swArgs L VL hL cL o).c (swArgs L VL hL cL o).ghost (swArgs L VL hL cL o).halo c =
      SW.source (swCells G) (swArgs G VG hG cG o).c (swArgs G VG hG cG o).ghost (swArgs G VG hG cG o).halo (φ c) := by
  have hC := (R.sub.lt c hc).1
  have hcell : ∀ i, (swArgs L VL hL cL o).c c i = (swArgs G VG hG cG o).c (φ c) i := m.cell c hc
  have hcen : ∀ k < 3, (swCells L).center c k = (swCells G).center (φ c) k := R.center c hc
  have hver : ∀ k < 2, (swCells L).vertex1 c k = (swCells G).vertex1 (φ c) k := hv c hc
  have hnf : ∀ j < 3, ∀ k < 3, (swCells L).nf c j k = (swCells G).nf (φ c) j k := fun j hj k hk => by
    rw [R.nfL ho hc hj k hk, R.nfG ho hC hj k hk]
  have ho := fun j hj => m.other R o hc (j := j) hj
  have c0 := hcen 0 (by omega)
  have c1 := hcen 1 (by omega)
  have v0 := hver 0 (by omega)
  have v1 := hver 1 (by omega)
  have a00 := hnf 0 (by omega) 0 (by omega)
  have a01 := hnf 0 (by omega) 1 (by omega)
  have a10 := hnf 1 (by omega) 0 (by omega)
  have a11 := hnf 1 (by omega) 1 (by omega)
  have a20 := hnf 2 (by omega) 0 (by omega)
  have a21 := hnf 2 (by omega) 1 (by omega)
  have o0 := ho 0 (by omega)
  have o1 := ho 1 (by omega)
  have o2 := ho 2 (by omega)
  simp only [SW.source, SW.srcMomentum, hcell, c0, c1, v0, v1, a00, a01, a10, a11, a20, a21, o0, o1, o2]

end

/-! ### the time step -/

theorem le_swTimeStep (D : Tables ℝ) (w : Nat → SW.W5) (cfl Dx Dy x : ℝ) :
    x ≤ SW.timeStep D.nbcells w cfl D.normal D.mesure D.volume D.faceid Dx Dy ↔ x ≤ 1e6 ∧ ∀ c < D.nbcells,
      x ≤ cfl * D.volume c / SW.cellLam w D.normal D.mesure D.volume D.faceid Dx Dy c := by
  unfold SW.timeStep
  rw [le_foldl_min]; simp

section
variable {SIZE n : Nat} {epart : Nat → Nat} {data : Nat → RankData ℝ} {L : Nat → Tables ℝ} {G : Tables ℝ} {B : List Int}
  {out : Nat → Nat → Vec ℝ}

theorem swLam_match (h : RunPair 2 SIZE n epart data L G B out) {p : Nat} (hp : p < SIZE) (w W : Nat → SW.W5) (Dx Dy : ℝ)
    {c : Nat} (hc : c < (L p).nbcells) (hw : w c = W (phi (data p) c)) :
    SW.cellLam w (L p).normal (L p).mesure (L p).volume (L p).faceid Dx Dy c =
      SW.cellLam W G.normal G.mesure G.volume G.faceid Dx Dy (phi (data p) c) := by
  unfold SW.cellLam
  dsimp only
  apply List.foldl_ext
  intro s j hj
  obtain ⟨ε, hε, hnn⟩ := (h.rank p hp).normal_pm hc (List.mem_range.mp hj)
  have a0 := hnn 0 (by omega)
  have a1 := hnn 1 (by omega)
  rw [h.volume p hp c hc, h.mesure p hp c hc j (List.mem_range.mp hj), hw, a0, a1]
  rcases hε with rfl | rfl
  · simp only [one_mul]
  · rw [show ∀ a b x y : ℝ, a * (-1 * x) + b * (-1 * y) = -(a * x + b * y) from fun a b x y => by ring, abs_neg]
    simp only [neg_one_mul, neg_mul_neg]

theorem swdt_match (h : RunPair 2 SIZE n epart data L G B out) (w : Nat → Nat → SW.W5) (W : Nat → SW.W5) (cfl Dx Dy : ℝ)
    (hw : ∀ p < SIZE, ∀ c < (L p).nbcells, w p c = W (phi (data p) c)) :
    allreduceMin SIZE (fun p => SW.timeStep (L p).nbcells (w p) cfl (L p).normal (L p).mesure (L p).volume (L p).faceid Dx Dy) =
      allreduceMin 1 (fun _ => SW.timeStep G.nbcells W cfl G.normal G.mesure G.volume G.faceid Dx Dy) := by
  have key : ∀ x, x ≤ allreduceMin SIZE (fun p => SW.timeStep (L p).nbcells (w p) cfl (L p).normal (L p).mesure (L p).volume (L p).faceid Dx Dy) ↔
      x ≤ SW.timeStep G.nbcells W cfl G.normal G.mesure G.volume G.faceid Dx Dy := by
    intro x
    unfold allreduceMin
    rw [le_foldl_min, le_swTimeStep G]
    have hS := h.hS
    constructor
    · rintro ⟨h0, h1⟩
      refine ⟨((le_swTimeStep _ _ _ _ _ _).mp h0).1, fun C hC => ?_⟩
      rw [h.nG] at hC
      have hp := h.he C hC
      obtain ⟨c, hc, e⟩ := (h.rank _ hp).sub.surj C (by rw [h.nG]; exact hC) rfl
      have := ((le_swTimeStep _ _ _ _ _ _).mp (h1 _ (List.mem_range.mpr hp))).2 c hc
      rw [h.volume _ hp c hc, swLam_match h hp (w _) W _ _ hc (hw _ hp c hc), e] at this
      exact this
    · rintro ⟨h0, h1⟩
      have hall : ∀ p < SIZE, x ≤ SW.timeStep (L p).nbcells (w p) cfl (L p).normal (L p).mesure (L p).volume (L p).faceid Dx Dy := by
        intro p hp
        refine (le_swTimeStep _ _ _ _ _ _).mpr ⟨h0, fun c hc => ?_⟩
        rw [h.volume _ hp c hc, swLam_match h hp (w p) W _ _ hc (hw p hp c hc)]
        exact h1 _ ((h.rank p hp).sub.lt c hc).1
      exact ⟨hall 0 (by omega), fun p hp => hall p (List.mem_range.mp hp)⟩
  have e1 : allreduceMin 1 (fun _ => SW.timeStep G.nbcells W cfl G.normal G.mesure G.volume G.faceid Dx Dy) =
      SW.timeStep G.nbcells W cfl G.normal G.mesure G.volume G.faceid Dx Dy := by
    unfold allreduceMin; simp
  rw [e1]
  exact le_antisymm ((key _).mp le_rfl) ((key _).mpr le_rfl)

end
end Verif.Props.Par
