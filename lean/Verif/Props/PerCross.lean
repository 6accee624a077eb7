import Verif.Props.PerDiff
import Verif.Spec.PeriodicGrad

/-! # Gradients across periodic sides, triangular meshes, one process (C132) -/
set_option linter.unusedSectionVars false
set_option linter.unusedVariables false
set_option linter.unusedSimpArgs false
set_option synthInstance.maxHeartbeats 1000000
set_option synthInstance.maxSize 1000
set_option maxRecDepth 4000
namespace Verif.Props.Par
open Verif.Fvm Verif.Spec Verif.Conn Verif.Dom Verif.Geo Verif.Names Verif.MeshFile Verif.Part Verif.Comm Verif.Run Verif.Periodic Verif.Props.Per
open Verif.HaloGhost Verif.Interp Verif.Props.HG
variable {K : Type*} [Field K] [LinearOrder K] [IsStrictOrderedRing K]

section
variable {m : Mesh K} {D : Tables K} {side : Nat → Nat → List Nat} {opn : Nat → Nat → Nat} {out : Nat → Nat → Vec K} {F : List (List Nat)}
  {nm : Nat → Int} {g : Nat → Nat} {L : Nat → K} {r : K → K} {d : RankData K} {W : PWorld K}

/-- The periodic tables of the world. -/
theorem world_per (e : mkPWorld 2 r d D = some W) : update2d r (perMesh 2 D) (maxc D) (fun e => maxOver D.nbnodes (fun i => D.vertex i e)) (faceSides D)
    (nodeSides D) (fun f => D.cellid f 1) = some W.P := by
  unfold mkPWorld at e
  obtain ⟨t, et, e⟩ := Option.bind_eq_some_iff.mp e
  obtain ⟨hg, eh, rfl⟩ := Option.map_eq_some_iff.mp e
  unfold updatePer at et
  obtain ⟨s, es, rfl⟩ := Option.map_eq_some_iff.mp et
  exact es

/-- The largest coordinate of a node is the period. -/
theorem SDom.maxnode (h : SDom m D side opn out F nm g) (hv : m.Valid L r) {dd lo hi : Nat} (hd : dd < 3) {δ : K}
    (hf : m.Facing dd lo hi δ) (hex : ∃ b < m.nbnodes, labelOf m.node b = lo ∨ labelOf m.node b = hi) :
    maxOver D.nbnodes (fun i => D.vertex i dd) = δ := by
  obtain ⟨b, hb, hl⟩ := hex
  obtain ⟨c, l, x, ho, hon⟩ := hf.face b hb hl
  obtain ⟨a, ha, _⟩ := hon.1
  have hma : a ∈ nodesOf m.nodeid (m.dim + 1) c := ho.2.1.subset (by simp [ha])
  obtain ⟨k, hk, ek⟩ := List.mem_map.mp hma
  have hal : a < m.nbnodes := by rw [← ek]; exact hv.nodes c ho.1 k (List.mem_range.mp hk)
  rw [h.nn]
  refine maxOver_eq _ _ _ ?_ hal ?_
  · intro i hi
    show D.vertex i dd ≤ δ
    rw [h.vertex i hi dd hd]
    exact (hf.range b hb hl i hi).2
  · show D.vertex a dd = δ
    rw [h.vertex a hal dd hd]
    exact hf.high c l x ho hon a ha

theorem SDom.uses (h : SDom m D side opn out F nm g) {c x : Nat} (hc : c < m.n) :
    Uses D.cnode (m.dim + 1) c x ↔ Uses m.nodeid (m.dim + 1) c x := by
  have key : ∀ t : Nat → Nat → Nat, Uses t (m.dim + 1) c x ↔ x ∈ nodesOf t (m.dim + 1) c := by
    intro t
    unfold nodesOf
    constructor
    · rintro ⟨j, hj, e⟩; exact List.mem_map.mpr ⟨j, List.mem_range.mpr hj, e⟩
    · intro hm; obtain ⟨j, hj, e⟩ := List.mem_map.mp hm; exact ⟨j, List.mem_range.mp hj, e⟩
  rw [key, key]
  exact (h.cnode c hc).mem_iff

/-- The cells next to a periodic side, in the mesh. -/
theorem SDom.near (h : SDom m D side opn out F nm g) (hv : m.Valid L r) {s : Nat} (hs : s ∈ perSides m.dim) {c : Nat} (hc : c < m.n) :
    Near (perMesh m.dim D) (whereEq D.nbfaces D.name s) c ↔ m.NextTo s c := by
  constructor
  · rintro ⟨i, hi, hci⟩
    obtain ⟨hi1, hi2⟩ := mem_whereEq.mp hi
    obtain ⟨c2, hc2, j, hj, rfl, ho, hon, hu⟩ := h.named hv (List.mem_append_right _ hs) hi1 hi2
    have e0 : (perMesh m.dim D).cell0 (D.faceid c2 j) = c2 := by
      show idx (D.cellid (D.faceid c2 j) 0) = c2
      rw [h.cell0_one hc2 hj hu, idx_cast]
    rw [e0] at hci
    obtain ⟨_, hne, a, ha1, ha2⟩ := (mem_cellNeigh _ _ _ _ _).mp hci
    exact ⟨c2, _, _, ho, hon, fun e => hne e.symm, a, (h.uses hc).mp ha2, (h.uses hc2).mp ha1⟩
  · rintro ⟨c2, l, x, ho, hon, hne, a, ha1, ha2⟩
    obtain ⟨j, hj, hp, e, hlt, hn, hc0, hu⟩ := h.of_on ho (List.mem_append_right _ hs) hon
    refine ⟨D.faceid c2 j, mem_whereEq.mpr ⟨hlt, hn⟩, ?_⟩
    have e0 : (perMesh m.dim D).cell0 (D.faceid c2 j) = c2 := by
      show idx (D.cellid (D.faceid c2 j) 0) = c2
      rw [hc0, idx_cast]
    rw [e0]
    exact (mem_cellNeigh _ _ _ _ _).mpr ⟨h.nb ▸ hc, fun e => hne e.symm, a, (h.uses ho.1).mpr ha2, (h.uses hc).mpr ha1⟩

/-- The shift of the cells next to the sides `in` and `out`. -/
theorem SDom.shift_next (h : SDom m D side opn out F nm g) (hv : m.Valid L r) (h2 : m.dim = 2) (hw : m.Wide 11 22) (e : mkPWorld 2 r d D = some W)
    (hex : ∃ b < m.nbnodes, labelOf m.node b = 11 ∨ labelOf m.node b = 22) {c : Nat} (hc : c < m.n) :
    (m.NextTo 11 c → W.P.shift c 0 = L 0) ∧ (¬ m.NextTo 11 c → m.NextTo 22 c → W.P.shift c 0 = -L 0) := by
  have hs : ∀ s : Nat, s = 11 ∨ s = 22 → s ∈ perSides m.dim := by rintro s (rfl | rfl) <;> simp [perSides, h2]
  have hc0 : ∀ i ∈ (faceSides D).inn, ∀ k ∈ (faceSides D).out, (perMesh 2 D).cell0 i ≠ (perMesh 2 D).cell0 k := by
    intro i hi k hk e0
    obtain ⟨i1, i2⟩ := mem_whereEq.mp hi
    obtain ⟨k1, k2⟩ := mem_whereEq.mp hk
    obtain ⟨c1, hc1, j1, hj1, rfl, ho1, hon1, hu1⟩ := h.named hv (s := 11) (List.mem_append_right _ (hs _ (Or.inl rfl))) i1 i2
    obtain ⟨c2, hc2, j2, hj2, rfl, ho2, hon2, hu2⟩ := h.named hv (s := 22) (List.mem_append_right _ (hs _ (Or.inr rfl))) k1 k2
    have e0 : idx (D.cellid (D.faceid c1 j1) 0) = idx (D.cellid (D.faceid c2 j2) 0) := e0
    rw [h.cell0_one hc1 hj1 hu1, h.cell0_one hc2 hj2 hu2, idx_cast, idx_cast] at e0
    subst e0
    exact ((hw _ _ _ ho1).1 hon1).2 ((hw _ _ _ ho2).2 hon2).1
  obtain ⟨s, es, hsh⟩ := Per.C68_shift_x_2d r (perMesh 2 D) (maxc D) (fun e => maxOver D.nbnodes (fun i => D.vertex i e)) (faceSides D)
    (nodeSides D) (fun f => D.cellid f 1) (h2 ▸ h.perMesh2 hv) hc0
  rw [world_per e] at es
  have es := Option.some.inj es
  subst es
  have hmax : maxOver D.nbnodes (fun i => D.vertex i 0) = L 0 := h.maxnode hv (by omega) hv.x hex
  have n1 := h.near hv (hs 11 (Or.inl rfl)) hc
  have n2 := h.near hv (hs 22 (Or.inr rfl)) hc
  rw [h2] at n1 n2
  constructor
  · intro h1
    have := (hsh c).1 (n1.mpr h1)
    rw [this]; exact hmax
  · intro h1 h22
    have := (hsh c).2.1 (fun hn => h1 (n1.mp hn)) (n2.mpr h22)
    rw [this, ← hmax]

theorem SDom.shift_x (h : SDom m D side opn out F nm g) (hv : m.Valid L r) (h2 : m.dim = 2) (hw : m.Wide 11 22) (e : mkPWorld 2 r d D = some W)
    {c : Nat} {l : List Nat} {x : Nat} (ho : m.Outer c l x) : (m.On 11 l → W.P.shift c 0 = L 0) ∧ (m.On 22 l → W.P.shift c 0 = -L 0) := by
  have hlab : ∀ s : Nat, s = 11 ∨ s = 22 → m.On s l → ∃ b < m.nbnodes, labelOf m.node b = 11 ∨ labelOf m.node b = 22 := by
    intro s hs' hon
    obtain ⟨a, ha, ea⟩ := hon.1
    have hma : a ∈ nodesOf m.nodeid (m.dim + 1) c := ho.2.1.subset (by simp [ha])
    obtain ⟨k, hk, ek⟩ := List.mem_map.mp hma
    refine ⟨a, by rw [← ek]; exact hv.nodes c ho.1 k (List.mem_range.mp hk), ?_⟩
    rcases hs' with rfl | rfl
    · exact Or.inl ea
    · exact Or.inr ea
  constructor
  · intro hon
    exact (h.shift_next hv h2 hw e (hlab 11 (Or.inl rfl) hon) ho.1).1 ((hw _ _ _ ho).1 hon).1
  · intro hon
    exact (h.shift_next hv h2 hw e (hlab 22 (Or.inr rfl) hon) ho.1).2 ((hw _ _ _ ho).2 hon).2 ((hw _ _ _ ho).2 hon).1

/-- The centroid, from a side and the opposite corner. -/
theorem centroid_perm (m : Mesh K) (h2 : m.dim = 2) {c a b x : Nat} (hp : [a, b, x].Perm (nodesOf m.nodeid (m.dim + 1) c)) (k : Nat) :
    m.centroid c k = 1 / 3 * (pos m.node a k + pos m.node b k + pos m.node x k) := by
  have h := (hp.map (fun i => pos m.node i k)).sum_eq
  have e3 : List.range 3 = [0, 1, 2] := rfl
  rw [h2] at h
  simp [nodesOf, e3] at h
  unfold Mesh.centroid
  rw [show pos m.node a k + pos m.node b k + pos m.node x k = _ from (add_assoc _ _ _).trans h]
  ring

/-- A face on one of the sides `in`, `out`: its cell, and its two ends at different heights. -/
theorem SDom.side_x (h : SDom m D side opn out F nm g) (hv : m.Valid L r) (h2 : m.dim = 2) {s : Nat} (hs : s = 11 ∨ s = 22) {f : Nat} (hf : f < D.nbfaces)
    (hn : D.name f = (s : Int)) : ∃ c < m.n, ∃ j < m.dim + 1, D.faceid c j = f ∧ m.Outer c (side c j) (opn c j) ∧ m.On s (side c j) ∧ D.cellid f 0 = (c : Int) ∧
      ∃ a b, side c j = [a, b] ∧ a < m.nbnodes ∧ b < m.nbnodes ∧ a ≠ b ∧ pos m.node a 0 = D.fcenter f 0 ∧ pos m.node b 0 = D.fcenter f 0 ∧
        (s = 11 → D.fcenter f 0 < m.centroid c 0) ∧ (s = 22 → m.centroid c 0 < D.fcenter f 0) := by
  have hsp : s ∈ perSides m.dim := by rcases hs with rfl | rfl <;> simp [perSides, h2]
  obtain ⟨c, hc, j, hj, rfl, ho, hon, hu⟩ := h.named hv (List.mem_append_right _ hsp) hf hn
  refine ⟨c, hc, j, hj, rfl, ho, hon, h.cell0_one hc hj hu, ?_⟩
  obtain ⟨a, b, eab⟩ : ∃ a b, side c j = [a, b] := by
    have := h.side_length hc hj
    rw [h2] at this
    exact List.length_eq_two.mp this
  have la : a < m.nbnodes := h.side_lt hv hc hj (Or.inl (by simp [eab]))
  have lb : b < m.nbnodes := h.side_lt hv hc hj (Or.inl (by simp [eab]))
  have lx : opn c j < m.nbnodes := h.side_lt hv hc hj (Or.inr rfl)
  have hsd := h.sd c hc j hj
  rw [eab] at hsd
  have hne : a ≠ b := by
    have := hsd.nodup_iff.mpr (h.nodup c hc)
    simp at this
    tauto
  have hcen := centroid_perm m h2 (show [a, b, opn c j].Perm _ from hsd) 0
  obtain ⟨v, va, hv0⟩ : ∃ v, (∀ x ∈ side c j, pos m.node x 0 = v) ∧ ((s = 11 → v = 0) ∧ (s = 22 → v = L 0)) := by
    rcases hs with rfl | rfl
    · exact ⟨0, hv.x.low _ _ _ ho hon, fun _ => rfl, fun e => absurd e (by decide)⟩
    · exact ⟨L 0, hv.x.high _ _ _ ho hon, fun e => absurd e (by decide), fun _ => rfl⟩
  have hoff := h.off c hc j hj 0 (by omega) v va
  have ha := va a (by simp [eab])
  have hb := va b (by simp [eab])
  have hfc : D.fcenter (D.faceid c j) 0 = v := by
    rw [h.fcenter c hc j hj 0 (by omega)]
    exact centre_const m (h.side_length hc hj) (by omega) va
  obtain ⟨w, hw, ew⟩ := hon.1
  have hrg := hv.x.range w (h.side_lt hv hc hj (Or.inl hw)) (by rcases hs with rfl | rfl; exacts [Or.inl ew, Or.inr ew]) _ lx
  refine ⟨a, b, eab, la, lb, hne, ha.trans hfc.symm, hb.trans hfc.symm, ?_, ?_⟩
  · intro e
    rw [hfc, hcen, ha, hb]
    have hlt : v < pos m.node (opn c j) 0 := lt_of_le_of_ne (by rw [hv0.1 e]; exact hrg.1) (Ne.symm hoff)
    linarith
  · intro e
    rw [hfc, hcen, ha, hb]
    have hlt : pos m.node (opn c j) 0 < v := lt_of_le_of_ne (by rw [hv0.2 e]; exact hrg.2) hoff
    linarith

end
section
variable {m : Mesh K} {serial : RankData K} {L : Nat → K} {r : K → K}

theorem center_mesh (hv : m.Valid2 L r) (hr : m.Read serial) (sqrt : K → K) (trunc : K → Int) {C k : Nat} (hC : C < m.n) (hk : k < 2) :
    (build2 sqrt trunc 1 serial).center C k = m.centroid C k := by
  have hd : m.dim = 2 := hv.two
  have hrc := read_cells hr
  have hCs : C < serial.nodeid.length := by rw [hrc.1]; exact hC
  rw [center_build2 _ _ _ _ hCs]
  have vA : ∀ j < 3, ∀ k < 3, vtx serial (at2 0 serial.nodeid C j) k = pos m.node (m.nodeid C j) k := by
    intro j hj k hk
    rw [hrc.2.2.1 C hC j (by omega)]
    exact (hrc.2.2.2.1 _ (hv.nodes C hC j (by omega))).1 k hk
  have r0 : (row2 serial C).1 = at2 0 serial.nodeid C 0 := rfl
  have r1 : (row2 serial C).2.1 = at2 0 serial.nodeid C 1 := rfl
  have r2 : (row2 serial C).2.2 = at2 0 serial.nodeid C 2 := rfl
  unfold Mesh.centroid
  rw [r0, r1, r2, ← vA 0 (by omega) k (by omega), ← vA 1 (by omega) k (by omega), ← vA 2 (by omega) k (by omega)]
  interval_cases k <;> rfl

/-- The two nodes of a face. -/
theorem fnode_side (hv : m.Valid2 L r) (hr : m.Read serial) (sqrt : K → K) (hs : ∀ x, 0 < x → sqrt x ≠ 0) (trunc : K → Int)
    (htr : ∀ i : Nat, trunc (i : K) = i) {C j : Nat} (hC : C < m.n) (hj : j < m.dim + 1) :
    [((build2 sqrt trunc 1 serial).fnode ((build2 sqrt trunc 1 serial).faceid C j)).getD 0 0,
      ((build2 sqrt trunc 1 serial).fnode ((build2 sqrt trunc 1 serial).faceid C j)).getD 1 0].Perm (sid2 serial C j) := by
  have h := sdom2 hv hr sqrt hs trunc htr
  have hd : m.dim = 2 := hv.two
  obtain ⟨hlt, hp⟩ := h.built.faces.2.2.2 C (h.nb ▸ hC) j hj
  have hlen : (sid2 serial C j).length = 2 := (h.side_length hC hj).trans hd
  obtain ⟨x, y, exy⟩ := List.length_eq_two.mp (hp.length_eq.trans hlen)
  have e0 : ((build2 sqrt trunc 1 serial).fnode ((build2 sqrt trunc 1 serial).faceid C j)).getD 0 0 =
      ((fac2 serial).getD ((build2 sqrt trunc 1 serial).faceid C j) []).getD 0 0 := rfl
  have e1 : ((build2 sqrt trunc 1 serial).fnode ((build2 sqrt trunc 1 serial).faceid C j)).getD 1 0 =
      ((fac2 serial).getD ((build2 sqrt trunc 1 serial).faceid C j) []).getD 1 0 := rfl
  rw [e0, e1]
  rw [exy] at hp ⊢
  exact hp


/-- What the diamond of a face of one of the sides `in`, `out` is made of. -/
structure AcrossX (m : Mesh K) (serial : RankData K) (W : PWorld K) (f f' c c' : Nat) : Prop where
  kind : ∀ bc : Int → BCond K, (varFaces W.dim W.D bc).HasKind f .periodic
  left : idx (W.D.cellid f 0) = c
  right : idx (W.D.cellid f 1) = c'
  point : ∀ k < 2, right2 W.faceTabs f k = W.D.center c' k + (W.D.fcenter f k - W.D.fcenter f' k)
  fat : (W.D.vertex ((W.D.fnode f).getD 1 0) 0 - W.D.vertex ((W.D.fnode f).getD 0 0) 0) * (right2 W.faceTabs f 1 - W.D.center c 1)
      - (right2 W.faceTabs f 0 - W.D.center c 0) * (W.D.vertex ((W.D.fnode f).getD 1 0) 1 - W.D.vertex ((W.D.fnode f).getD 0 0) 1) ≠ 0
  ends : ∃ j < m.dim + 1, m.Outer c (sid2 serial c j) (sO serial c j) ∧ (W.D.name f = 11 → m.On 11 (sid2 serial c j)) ∧ (W.D.name f = 22 → m.On 22 (sid2 serial c j)) ∧
    [(W.D.fnode f).getD 0 0, (W.D.fnode f).getD 1 0].Perm (sid2 serial c j) ∧ ∀ k < 3, W.D.fcenter f k = m.centre (sid2 serial c j) k

theorem across_x (hv : m.Valid2 L r) (hr : m.Read serial) (sqrt : K → K) (hs : ∀ x, 0 < x → sqrt x ≠ 0) (trunc : K → Int)
    (htr : ∀ i : Nat, trunc (i : K) = i) (hw : m.Wide 11 22) {W : PWorld K} {p : Nat → Nat} (e : mkPWorld 2 r serial (build2 sqrt trunc 1 serial) = some W)
    (ok : WorldOk m L r serial (build2 sqrt trunc 1 serial) (out2 serial) W p) (pdom : PeriodicDomain m L W.D) {f f' : Nat} (hp : PartnerFaces W.D 2 L f f')
    (hname : W.D.name f = 11 ∨ W.D.name f = 22) {c c' : Nat} (hc : W.D.cellid f 0 = (c : Int)) (hc' : W.D.cellid f' 0 = (c' : Int)) :
    AcrossX m serial W f f' c c' := by
  have h := sdom2 hv hr sqrt hs trunc htr
  have hd : m.dim = 2 := hv.two
  have hW2 : W.dim = 2 := ok.dim.trans hd
  have hex := (pdom.exchange f f' (hd.symm ▸ hp)).1
  obtain ⟨c1, hD⟩ := ok.pd.eq
  have hfl : W.D.nbfaces = (build2 sqrt trunc 1 serial).nbfaces := by rw [hD]
  have hnm : W.D.name = (build2 sqrt trunc 1 serial).name := by rw [hD]
  have hfn : W.D.fnode = (build2 sqrt trunc 1 serial).fnode := by rw [hD]
  have hvx : W.D.vertex = (build2 sqrt trunc 1 serial).vertex := by rw [hD]
  have hce : W.D.center = (build2 sqrt trunc 1 serial).center := by rw [hD]
  have hfc : W.D.fcenter = (build2 sqrt trunc 1 serial).fcenter := by rw [hD]
  have hid : ∀ f, W.D.cellid f 0 = (build2 sqrt trunc 1 serial).cellid f 0 := by rw [hD]; intro f; simp
  have hin : W.D.innerfaces = (build2 sqrt trunc 1 serial).innerfaces := by rw [hD]
  have hpf : W.D.periodicboundaryfaces = (build2 sqrt trunc 1 serial).periodicboundaryfaces := by rw [hD]
  obtain ⟨lf, lf', t, ht, hcase⟩ := hp
  -- one of the two sides
  obtain ⟨s, s', hss, n1, n2, htrans⟩ : ∃ s s' : Nat, ((s = 11 ∧ s' = 22) ∨ (s = 22 ∧ s' = 11)) ∧ W.D.name f = (s : Int) ∧ W.D.name f' = (s' : Int) ∧
      IsTranslate 0 (if s = 11 then L 0 else -L 0) (W.D.fcenter f) (W.D.fcenter f') := by
    simp [perDirs] at ht
    rcases ht with rfl | rfl
    · rcases hcase with ⟨x1, x2, x3⟩ | ⟨x1, x2, x3⟩
      · exact ⟨11, 22, Or.inl ⟨rfl, rfl⟩, x1, x2, by simpa using x3⟩
      · exact ⟨22, 11, Or.inr ⟨rfl, rfl⟩, x1, x2, by simpa using x3⟩
    · exfalso
      rcases hcase with ⟨x1, x2, x3⟩ | ⟨x1, x2, x3⟩ <;> · rw [x1] at hname; rcases hname with q | q <;> · revert q; decide
  have hs1 : s = 11 ∨ s = 22 := by omega
  have hs2 : s' = 11 ∨ s' = 22 := by omega
  obtain ⟨C, hC, j, hj, ef, ho, hon, hcid, a1, b1, eab, la, lb, hab, ea, eb, hlo, hhi⟩ := h.side_x hv.toValid hd hs1 (hfl ▸ lf) (hnm ▸ n1)
  obtain ⟨C', hC', j', hj', ef', ho', hon', hcid', a2, b2, eab', la', lb', hab', ea', eb', hlo', hhi'⟩ := h.side_x hv.toValid hd hs2 (hfl ▸ lf') (hnm ▸ n2)
  obtain rfl : c = C := by have := hc.symm.trans ((hid _).trans hcid); exact_mod_cast this
  obtain rfl : c' = C' := by have := hc'.symm.trans ((hid _).trans hcid'); exact_mod_cast this
  have hsh : W.P.shift c' 0 = if s = 11 then -L 0 else L 0 := by
    have := h.shift_x hv.toValid hd hw e ho'
    rcases hss with ⟨rfl, rfl⟩ | ⟨rfl, rfl⟩
    · rw [this.2 hon']; simp
    · rw [this.1 hon']; simp
  have hperm := fnode_side hv hr sqrt hs trunc htr hC hj
  rw [← hfn, ef] at hperm
  rw [← hfc] at ea eb hlo hhi ea' eb' hlo' hhi'
  have hT0 := htrans 0 (by omega)
  have hT1 := htrans 1 (by omega)
  simp only [if_true, one_ne_zero, if_false] at hT0 hT1
  have c0 : idx (W.D.cellid f 0) = c := by rw [hc, idx_cast]
  have c1' : idx (W.D.cellid f 1) = c' := by rw [hex, hc', idx_cast]
  -- the point across the face
  have hR : ∀ k < 2, right2 W.faceTabs f k = W.D.center c' k + (W.D.fcenter f k - W.D.fcenter f' k) := by
    intro k hk
    have hx : right2 W.faceTabs f = shiftX (W.D.center c') (W.P.shift c') := by
      have hn : W.faceTabs.name f = (s : Int) := n1
      have hc1 : W.faceTabs.cellid1 f = c' := c1'
      unfold right2
      rw [hn, hc1]
      rcases hs1 with rfl | rfl <;> simp <;> rfl
    rw [hx]
    unfold shiftX
    interval_cases k
    · rw [if_pos rfl, hsh, hT0]
      split <;> ring
    · rw [if_neg (by omega), hT1]; ring
  -- the ends
  have hnd : ∀ j < 2, ∃ x, (W.D.fnode f).getD j 0 = x ∧ x < m.nbnodes ∧ pos m.node x 0 = W.D.fcenter f 0 := by
    intro i hi
    have hm : (W.D.fnode f).getD i 0 ∈ sid2 serial c j := by
      apply hperm.subset
      interval_cases i <;> simp
    rw [eab] at hm
    simp at hm
    rcases hm with hm | hm
    · exact ⟨a1, hm, la, ea⟩
    · exact ⟨b1, hm, lb, eb⟩
  obtain ⟨x0, e0, l0, p0⟩ := hnd 0 (by omega)
  obtain ⟨x1, e1, l1, p1⟩ := hnd 1 (by omega)
  have hx01 : x0 ≠ x1 := by
    rw [e0, e1, eab] at hperm
    have := hperm.symm.nodup_iff.mp (by simp [hab])
    simpa using this
  have vx : ∀ x < m.nbnodes, ∀ k < 3, W.D.vertex x k = pos m.node x k := by rw [hvx]; exact h.vertex
  have hy : W.D.vertex x1 1 - W.D.vertex x0 1 ≠ 0 := by
    intro hy
    rw [vx x1 l1 1 (by omega), vx x0 l0 1 (by omega), sub_eq_zero] at hy
    have hq : ∀ x, x ∈ [(W.D.fnode f).getD 0 0, (W.D.fnode f).getD 1 0] → ∃ i < 3, m.nodeid c i = x := by
      intro x hx
      have h1 := (h.sd c hC j hj).subset (List.mem_append_left _ (hperm.subset hx))
      unfold nodesOf at h1
      obtain ⟨i, hi, e⟩ := List.mem_map.mp h1
      exact ⟨i, by have := List.mem_range.mp hi; omega, e⟩
    obtain ⟨i0, h0, q0⟩ := hq x0 (List.mem_cons.mpr (Or.inl e0.symm))
    obtain ⟨i1, h1, q1⟩ := hq x1 (List.mem_cons.mpr (Or.inr (List.mem_cons.mpr (Or.inl e1.symm))))
    have hi01 : i0 ≠ i1 := by rintro rfl; exact hx01 (q0.symm.trans q1)
    have px : pos m.node (m.nodeid c i1) 0 = pos m.node (m.nodeid c i0) 0 := by rw [q0, q1, p0, p1]
    have py : pos m.node (m.nodeid c i1) 1 = pos m.node (m.nodeid c i0) 1 := by rw [q0, q1, hy]
    apply hv.area c hC
    unfold signedArea
    interval_cases i0 <;> interval_cases i1 <;> first | exact absurd rfl hi01 | (rw [px, py]; ring)
  have hcc : W.D.center c 0 = m.centroid c 0 := by rw [hce]; exact center_mesh hv hr sqrt trunc hC (by omega)
  have hcc' : W.D.center c' 0 = m.centroid c' 0 := by rw [hce]; exact center_mesh hv hr sqrt trunc hC' (by omega)
  have hxne : right2 W.faceTabs f 0 - W.D.center c 0 ≠ 0 := by
    rw [hR 0 (by omega), hcc, hcc']
    rcases hss with ⟨q1, q2⟩ | ⟨q1, q2⟩
    · have := hlo q1; have := hhi' q2; intro; linarith
    · have := hhi q1; have := hlo' q2; intro; linarith
  have hkind : ∀ bc : Int → BCond K, (varFaces W.dim W.D bc).HasKind f .periodic := by
    intro bc
    have hw' : ∀ (l : Int → Bool), f ∉ (locNames W.dim).flatMap (fun loc => if l loc then Var.facesNamed W.D.name W.D.nbfaces loc else []) := by
      intro l hm
      obtain ⟨loc, hloc, hm⟩ := List.mem_flatMap.mp hm
      split at hm
      · have : W.D.name f = loc := by simpa [Var.facesNamed] using (List.mem_filter.mp hm).2
        rw [← this, hW2] at hloc
        rcases hname with q | q <;> · rw [q] at hloc; revert hloc; decide
      · simp at hm
    refine ⟨?_, ?_, ?_, ?_, ?_⟩
    · show f ∈ W.D.periodicboundaryfaces
      rw [hpf]
      refine (h.per.2 f).mpr ⟨hfl ▸ lf, ?_⟩
      rw [← hnm, hd]
      rcases hname with q | q <;> · rw [q]; decide
    · show f ∉ W.D.innerfaces
      rw [hin]
      intro hm
      have := ((h.built.inner.2 f).mp hm).2
      rw [← hnm] at this
      rcases hname with q | q <;> · rw [q] at this; revert this; decide
    · show f ∉ W.D.halofaces
      rw [ok.ok.halo]; simp
    · exact hw' (fun loc => (bc loc).isDirichlet)
    · intro hm
      refine hw' (fun loc => !(bc loc).isDirichlet) ?_
      have hm' : f ∈ (locNames W.dim).flatMap (fun loc => if (bc loc).isDirichlet then [] else Var.facesNamed W.D.name W.D.nbfaces loc) := hm
      convert hm' using 3
      rename_i loc
      cases (bc loc).isDirichlet <;> simp
  refine ⟨hkind, c0, c1', hR, ?_, j, hj, ho, ?_, ?_, hperm, ?_⟩
  · rw [e0, e1, vx x1 l1 0 (by omega), vx x0 l0 0 (by omega), p0, p1, sub_self, zero_mul, zero_sub]
    exact neg_ne_zero.mpr (mul_ne_zero hxne hy)
  · intro q
    have : s = 11 := by have := n1.symm.trans q; exact_mod_cast this
    rw [← this]; exact hon
  · intro q
    have : s = 22 := by have := n1.symm.trans q; exact_mod_cast this
    rw [← this]; exact hon
  · intro k hk
    rw [hfc, ← ef]
    exact h.fcenter c hC j hj k hk

/-- **C132** (2D): on a triangular mesh periodic in `x`, several cells wide and high, the face gradient of a variable on a face of one of the
sides `in`, `out` is exact when the variable takes, at the two ends of the face, in its cell and in the cell behind the partner face moved
onto the face, the values of one affine function.  Partial: one process, two dimensions, the sides `in` and `out` (`C68_shift_y_2d_wrong`
shows that on the sides `upper`, `bottom` the cell is moved to the wrong side). -/
theorem C132_gradient_across_2d_partial (hv : m.Valid2 L r) (hr : m.Read serial) (sqrt : K → K) (hs : ∀ x, 0 < x → sqrt x ≠ 0) (trunc : K → Int)
    (htr : ∀ i : Nat, trunc (i : K) = i) (hw : m.Wide 11 22) : ∃ W, mkPWorld 2 r serial (build2 sqrt trunc 1 serial) = some W ∧
      ∀ f f', PartnerFaces W.D 2 L f f' → (W.D.name f = 11 ∨ W.D.name f = 22) →
        ∀ c c' : Nat, W.D.cellid f 0 = (c : Int) → W.D.cellid f' 0 = (c' : Int) →
        ∀ (bc : Int → BCond K) (v : Vari K) (node : Nat → K) (a : K) (g : Vec K),
          (∀ j < 2, node ((W.D.fnode f).getD j 0) = affine 2 a g (W.D.vertex ((W.D.fnode f).getD j 0))) →
          v.cell c = affine 2 a g (W.D.center c) →
          v.cell c' = affine 2 a g (fun k => W.D.center c' k + (W.D.fcenter f k - W.D.fcenter f' k)) →
          ∀ k < 2, W.faceGrads bc v.fields node f k = g k := by
  have h := sdom2 hv hr sqrt hs trunc htr
  have hd : m.dim = 2 := hv.two
  have hl : serial.vertex.length = m.nbnodes := (read_cells hr).2.1
  obtain ⟨W, p, e, ok⟩ := h.world hv.toValid hl
  have pdom := h.periodicDomain hv.toValid ok.pd
  rw [hd] at e
  have hW2 : W.dim = 2 := ok.dim.trans hd
  refine ⟨W, e, ?_⟩
  intro f f' hp hname c c' hc hc' bc v node a g hnode hvc hvc' k hk
  have A := across_x hv hr sqrt hs trunc htr hw e ok pdom hp hname hc hc'
  have key := C42_affine_exact_2d W.faceTabs (varFaces W.dim W.D bc) v.fields node (fun _ => (0, 0)) f .periodic (A.kind bc) a g ?_ ?_ ?_ ?_ ?_
  · unfold PWorld.faceGrads
    rw [if_pos hW2]
    interval_cases k
    · show (Interp.faceGradient2 W.faceTabs (varFaces W.dim W.D bc) v.fields node (fun _ => (0, 0)) f).1 = g 0
      rw [key]
    · show (Interp.faceGradient2 W.faceTabs (varFaces W.dim W.D bc) v.fields node (fun _ => (0, 0)) f).2 = g 1
      rw [key]
  · have := A.fat
    rw [← A.left] at this
    exact this
  · exact hnode 0 (by omega)
  · exact hnode 1 (by omega)
  · show v.cell (idx (W.D.cellid f 0)) = affine 2 a g (W.D.center (idx (W.D.cellid f 0)))
    rw [A.left]; exact hvc
  · show v.cell (idx (W.D.cellid f 1)) = affine 2 a g (right2 W.faceTabs f)
    rw [A.right, hvc']
    unfold affine
    congr 1
    exact Finset.sum_congr rfl (fun k hk => by rw [A.point k (Finset.mem_range.mp hk)])

end

/-! ## Example: the rectangle `[0,3] × [0,2]` cut into twelve triangles, periodic in `x`, walls at the top and the bottom -/

def ribbonCell (c j : Nat) : Nat :=
  c / 2 % 3 + 4 * (c / 6) + (if c % 2 = 0 then [0, 1, 4].getD j 0 else [1, 5, 4].getD j 0)
def ribbonNode (i : Nat) : ℚ × ℚ × ℚ × Nat :=
  (((i % 4 : Nat) : ℚ), ((i / 4 : Nat) : ℚ), 0, if i % 4 = 0 then 11 else if i % 4 = 3 then 22 else if i / 4 = 0 then 4 else if i / 4 = 2 then 3 else 0)
def ribbon : Mesh ℚ := ⟨2, ribbonCell, ribbonNode, 12, 12⟩

theorem ribbon_nodup : ∀ c < ribbon.n, (nodesOf ribbon.nodeid (ribbon.dim + 1) c).Nodup := by decide +kernel

theorem ribbon_x : ribbon.Facing 0 11 22 3 := by
  refine FacingCheck.facing (up := fun a => a + 3) (dn := fun a => a - 3) ⟨?_, ?_, ?_, ?_, ?_, ?_⟩ ribbon_nodup <;> decide +kernel

theorem ribbonValid : ribbon.Valid2 (fun _ => 3) (fun x => x) := by
  have hO := fun {c x l} (h : ribbon.Outer c l x) => outer_side ribbon ribbon_nodup h
  refine ⟨⟨by decide +kernel, by decide +kernel, ?_, ribbon_x, facing_absent _ _ _ _ _ (by decide +kernel) (by decide +kernel), fun h => absurd h (by decide),
    by decide +kernel, ?_, fun _ _ _ _ _ => rfl, fun _ _ _ _ _ _ _ => rfl⟩, rfl, by decide +kernel, ?_⟩
  · intro c l x ho
    obtain ⟨j, hj, hp, hOj⟩ := hO ho
    have D : ∀ c < ribbon.n, ∀ j < ribbon.dim + 1, OuterAt ribbon c j → ∃ s ∈ wallSides ribbon.dim ++ perSides ribbon.dim, ribbon.On s (sdOf ribbon c j) := by decide +kernel
    obtain ⟨s, hs, hon⟩ := D c ho.1 j hj hOj
    exact ⟨s, hs, on_perm hon hp.symm⟩
  · intro c l x c' l' x' ho ho' e
    obtain ⟨j, hj, hp, hOj⟩ := hO ho
    obtain ⟨j', hj', hp', hOj'⟩ := hO ho'
    have D : ∀ c < ribbon.n, ∀ j < ribbon.dim + 1, OuterAt ribbon c j → ∀ c' < ribbon.n, ∀ j' < ribbon.dim + 1, OuterAt ribbon c' j' → SameFace ribbon c j c' j' := by decide +kernel
    exact hp.trans ((D c ho.1 j hj hOj c' ho'.1 j' hj' hOj' (fun k hk => by rw [← centre_perm _ hp, ← centre_perm _ hp', e k hk])).trans hp'.symm)
  · intro c hc c' hc' hne a b x y h1 h2
    have D : ∀ c < 12, ∀ c' < 12, c ≠ c' → ∀ a ∈ nodesOf ribbonCell 3 c, ∀ b ∈ nodesOf ribbonCell 3 c, ∀ x ∈ nodesOf ribbonCell 3 c, [a, b, x].Perm (nodesOf ribbonCell 3 c) →
      ∀ y ∈ nodesOf ribbonCell 3 c', [a, b, y].Perm (nodesOf ribbonCell 3 c') →
      signedArea (pos ribbonNode a) (pos ribbonNode b) (pos ribbonNode x) * signedArea (pos ribbonNode a) (pos ribbonNode b) (pos ribbonNode y) < 0 := by decide +kernel
    exact D c hc c' hc' hne a (h1.subset (by simp)) b (h1.subset (by simp)) x (h1.subset (by simp)) h1 y (h2.subset (by simp)) h2

def ribbonSerial : RankData ℚ := expected 1 0 (serialWrite ribbonCell ribbonNode 12 12 3)
theorem ribbonRead : ribbon.Read ribbonSerial := C25_round_trip_serial (K := ℚ) _ _

/-- Next to a side, on the corners but one of a cell. -/
def NextAt (m : Mesh K) (s c c₂ j : Nat) : Prop :=
  OuterAt m c₂ j ∧ m.On s (sdOf m c₂ j) ∧ c₂ ≠ c ∧ ∃ a ∈ nodesOf m.nodeid (m.dim + 1) c, a ∈ nodesOf m.nodeid (m.dim + 1) c₂
instance (m : Mesh K) (s c c₂ j : Nat) : Decidable (NextAt m s c c₂ j) := by unfold NextAt; infer_instance

theorem mem_nodesOf_uses (m : Mesh K) (c x : Nat) : Uses m.nodeid (m.dim + 1) c x ↔ x ∈ nodesOf m.nodeid (m.dim + 1) c := by
  unfold nodesOf
  constructor
  · rintro ⟨j, hj, e⟩; exact List.mem_map.mpr ⟨j, List.mem_range.mpr hj, e⟩
  · intro hm; obtain ⟨j, hj, e⟩ := List.mem_map.mp hm; exact ⟨j, List.mem_range.mp hj, e⟩

theorem nextTo_iff (m : Mesh K) (hn : ∀ c < m.n, (nodesOf m.nodeid (m.dim + 1) c).Nodup) (s c : Nat) :
    m.NextTo s c ↔ ∃ c₂ < m.n, ∃ j < m.dim + 1, NextAt m s c c₂ j := by
  constructor
  · rintro ⟨c₂, l, x, ho, hon, hne, a, h1, h2⟩
    obtain ⟨j, hj, hp, hO⟩ := outer_side m hn ho
    exact ⟨c₂, ho.1, j, hj, hO, on_perm hon hp, hne, a, (mem_nodesOf_uses m c a).mp h1, (mem_nodesOf_uses m c₂ a).mp h2⟩
  · rintro ⟨c₂, hc, j, hj, hO, hon, hne, a, h1, h2⟩
    exact ⟨c₂, _, _, side_outer m hc hj hO (List.Perm.refl _), hon, hne, a, (mem_nodesOf_uses m c a).mpr h1, (mem_nodesOf_uses m c₂ a).mpr h2⟩

theorem ribbonWide : ribbon.Wide 11 22 := by
  intro c l x ho
  rw [nextTo_iff _ ribbon_nodup, nextTo_iff _ ribbon_nodup]
  obtain ⟨j, hj, hp, hO⟩ := outer_side ribbon ribbon_nodup ho
  have D : ∀ c < ribbon.n, ∀ j < ribbon.dim + 1, OuterAt ribbon c j →
      (ribbon.On 11 (sdOf ribbon c j) → (∃ c₂ < ribbon.n, ∃ j < ribbon.dim + 1, NextAt ribbon 11 c c₂ j) ∧ ¬ ∃ c₂ < ribbon.n, ∃ j < ribbon.dim + 1, NextAt ribbon 22 c c₂ j) ∧
      (ribbon.On 22 (sdOf ribbon c j) → (∃ c₂ < ribbon.n, ∃ j < ribbon.dim + 1, NextAt ribbon 22 c c₂ j) ∧ ¬ ∃ c₂ < ribbon.n, ∃ j < ribbon.dim + 1, NextAt ribbon 11 c c₂ j) := by
    decide +kernel
  obtain ⟨d1, d2⟩ := D c ho.1 j hj hO
  exact ⟨fun h => d1 (on_perm h hp), fun h => d2 (on_perm h hp)⟩

/-- The hypotheses of C132 are met by this mesh, whose sides `in` and `out` have faces. -/
example : ∃ c l x, ribbon.Outer c l x ∧ ribbon.On 11 l := ⟨0, _, _, side_outer ribbon (j := 1) (by decide) (by decide) (by decide +kernel) (List.Perm.refl _), by decide +kernel⟩
example := C132_gradient_across_2d_partial ribbonValid ribbonRead (fun x => x) (fun x hx => hx.ne') Rat.floor floor_nat ribbonWide

end Verif.Props.Par
