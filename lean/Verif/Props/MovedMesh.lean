import Verif.Props.Moved
import Verif.Props.RenumVar

/-! Helper lemmas for C129: the tables of a Domain built from a mesh file in other coordinates. -/
set_option linter.unusedSectionVars false
set_option linter.unusedVariables false
set_option linter.unusedSimpArgs false
namespace Verif.Props.Par
open Verif.Fvm Verif.Spec Verif.Conn Verif.Dom Verif.Geo Verif.Names Verif.MeshFile Verif.Part Verif.Comm Verif.Run
variable {K : Type*} [Field K] [LinearOrder K] [IsStrictOrderedRing K]

/-- The unit of area of the faces: a length in the plane, an area in space. -/
def faceUnit (M : Motion K) (dim : Nat) : K := M.scale ^ (dim - 1)

/-- The tables `L` are the tables `G` in other coordinates. -/
structure MovedT (M : Motion K) (dim : Nat) (G L : Tables K) : Prop where
  nbcells : L.nbcells = G.nbcells
  nbfaces : L.nbfaces = G.nbfaces
  faceid : L.faceid = G.faceid
  cellid : L.cellid = G.cellid
  name : L.name = G.name
  inner : L.innerfaces = G.innerfaces
  halof : L.halofaces = G.halofaces
  bnd : L.boundaryfaces = G.boundaryfaces
  per : L.periodicboundaryfaces = G.periodicboundaryfaces
  nbnodes : L.nbnodes = G.nbnodes
  fnode : L.fnode = G.fnode
  oldname : L.oldname = G.oldname
  nodename : L.nodename = G.nodename
  cnode : L.cnode = G.cnode
  vertex : ∀ s < G.nbnodes, ∀ k < 3, L.vertex s k = M.place (G.vertex s) k
  center : ∀ c < G.nbcells, ∀ k < 3, L.center c k = M.place (G.center c) k
  volume : ∀ c < G.nbcells, L.volume c = M.scale * faceUnit M dim * G.volume c
  fcenter : ∀ f < G.nbfaces, ∀ k < 3, L.fcenter f k = M.place (G.fcenter f) k
  normal : ∀ f < G.nbfaces, ∀ k < 3, L.normal f k = faceUnit M dim * M.turn (G.normal f) k
  mesure : ∀ f < G.nbfaces, L.mesure f = faceUnit M dim * G.mesure f

/-- The data read from two mesh files that differ in the coordinates only. -/
structure Twin (M : Motion K) (d1 nbnodes n : Nat) (d d' : RankData K) : Prop where
  len : d.nodeid.length = n
  nlen : d.vertex.length = nbnodes
  nlen' : d'.vertex.length = nbnodes
  rows : d'.nodeid = d.nodeid
  label : ∀ s, vtx d' s 3 = vtx d s 3
  vert : ∀ s < nbnodes, ∀ k < 3, vtx d' s k = M.place (vtx d s) k
  lt : ∀ c < n, ∀ j < d1, at2 0 d.nodeid c j < nbnodes

section two
variable {M : Motion K} {nbnodes n : Nat} {d d' : RankData K} {sqrt : K → K} {trunc : K → Int}

theorem placed_area (hM : M.Proper 2) {v v' : Nat → Vec K} {a b c : Nat} (ha : ∀ k < 3, v' a k = M.place (v a) k)
    (hb : ∀ k < 3, v' b k = M.place (v b) k) (hc : ∀ k < 3, v' c k = M.place (v c) k) :
    (v' b 0 - v' a 0) * (v' c 1 - v' a 1) - (v' b 1 - v' a 1) * (v' c 0 - v' a 0) =
      M.scale ^ 2 * ((v b 0 - v a 0) * (v c 1 - v a 1) - (v b 1 - v a 1) * (v c 0 - v a 0)) := by
  obtain ⟨e1, e2, e3, f1, f2, f3, f4, f5, f6⟩ := Motion.plane hM
  rw [ha 0 (by omega), ha 1 (by omega), hb 0 (by omega), hb 1 (by omega), hc 0 (by omega), hc 1 (by omega)]
  simp only [Motion.place, Motion.turn, e1, e2, f1, f2]
  linear_combination M.scale ^ 2 * ((v b 0 - v a 0) * (v c 1 - v a 1) - (v b 1 - v a 1) * (v c 0 - v a 0)) * e3

theorem Twin.row2 (t : Twin M 3 nbnodes n d d') (c : Nat) : row2 d' c = row2 d c := by unfold Par.row2; rw [t.rows]

theorem Twin.row2_lt (t : Twin M 3 nbnodes n d d') {c : Nat} (hc : c < n) :
    (Par.row2 d c).1 < nbnodes ∧ (Par.row2 d c).2.1 < nbnodes ∧ (Par.row2 d c).2.2 < nbnodes :=
  ⟨t.lt c hc 0 (by omega), t.lt c hc 1 (by omega), t.lt c hc 2 (by omega)⟩

theorem Twin.orow2 (hM : M.Proper 2) (t : Twin M 3 nbnodes n d d') (c : Nat) : orow2 d' c = orow2 d c := by
  by_cases hc : c < n
  · rw [orow2_eq d (by rw [t.len]; exact hc), orow2_eq d' (by rw [t.rows, t.len]; exact hc), t.row2]
    obtain ⟨h0, h1, h2⟩ := t.row2_lt hc
    have e := placed_area hM (t.vert _ h0) (t.vert _ h1) (t.vert _ h2)
    have s2 : 0 < M.scale ^ 2 := pow_pos hM.pos 2
    unfold orient2
    dsimp only
    rw [e]
    refine if_congr ?_ rfl rfl
    constructor
    · intro h; by_contra h0; push Not at h0; exact absurd h (not_lt.mpr (mul_nonneg s2.le h0))
    · intro h; exact mul_neg_of_pos_of_neg s2 h
  · unfold Par.orow2
    rw [(compute2d_apply (vtx d) d.nodeid.length ⟨Par.row2 d, fun _ _ => 0, fun _ => 0⟩ c).1, if_neg (by rw [t.len]; exact hc),
      (compute2d_apply (vtx d') d'.nodeid.length ⟨Par.row2 d', fun _ _ => 0, fun _ => 0⟩ c).1, if_neg (by rw [t.rows, t.len]; exact hc)]
    exact t.row2 c

theorem Twin.faces2 (hM : M.Proper 2) (t : Twin M 3 nbnodes n d d') :
    domainFaces 2 (fun i => col3 (Par.orow2 d' i)) d'.nodeid.length = domainFaces 2 (fun i => col3 (Par.orow2 d i)) d.nodeid.length := by
  rw [t.rows]
  congr 1
  funext i; rw [t.orow2 hM i]

/-- The nodes of a face are nodes of the mesh. -/
theorem Twin.fac2_lt (t : Twin M 3 nbnodes n d d') {f : Nat} (hf : f < (fac2 d).length) {k : Nat} (hk : k < 2) : at2 0 (fac2 d) f k < nbnodes := by
  have spec := facesSpec2 (fun x : K => x) (fun _ => 0) 1 d
  obtain ⟨_, i, hi, j, hj, hp⟩ := spec.2.2.1 _ (List.getElem_mem hf)
  have hlen2 : ∀ i j, (sid2 d i j).length = 2 := by intro i j; unfold sid2 side2; split <;> rfl
  have hm : at2 0 (fac2 d) f k ∈ (fac2 d)[f] := by
    have hl : ((fac2 d)[f]).length = 2 := by rw [hp.length_eq, hlen2]
    have e : at2 0 (fac2 d) f k = ((fac2 d)[f]).getD k 0 := by unfold at2; rw [List.getD_eq_getElem _ _ hf]
    rw [e, List.getD_eq_getElem _ _ (by omega : k < ((fac2 d)[f]).length)]
    exact List.getElem_mem _
  have h1 : at2 0 (fac2 d) f k ∈ [sA d i j, sB d i j] := by rw [← sid2_eq]; exact hp.mem_iff.mp hm
  have h2 : at2 0 (fac2 d) f k ∈ [sA d i j, sB d i j, sO d i j] := by
    simp only [List.mem_cons, List.not_mem_nil, or_false] at h1 ⊢; tauto
  have h3 := (Par.side_perm d hi hj).mem_iff.mp h2
  obtain ⟨x, y, z⟩ := t.row2_lt (by rw [← t.len]; exact hi)
  simp only [List.mem_cons, List.not_mem_nil, or_false] at h3
  rcases h3 with h | h | h <;> rw [h] <;> assumption

theorem placed_mean2 {v v' : Nat → Vec K} {a b : Nat} (ha : ∀ k < 3, v' a k = M.place (v a) k)
    (hb : ∀ k < 3, v' b k = M.place (v b) k) : ∀ k < 3, centerf2 v' a b k = M.place (centerf2 v a b) k := by
  intro k hk
  show 1 / 2 * (v' a k + v' b k) = _
  rw [ha k hk, hb k hk]
  simp only [Motion.place, Motion.turn, centerf2]
  ring

theorem placed_raw2 (hM : M.Proper 2) {v v' : Nat → Vec K} {a b : Nat} (ha : ∀ k < 3, v' a k = M.place (v a) k)
    (hb : ∀ k < 3, v' b k = M.place (v b) k) : ∀ k < 3, rawNormal2 v' a b k = M.scale * M.turn (rawNormal2 v a b) k := by
  obtain ⟨e1, e2, e3, f1, f2, f3, f4, f5, f6⟩ := Motion.plane hM
  intro k hk
  interval_cases k
  · simp only [rawNormal2, Motion.turn]
    rw [ha 1 (by omega), hb 1 (by omega)]
    simp only [Motion.place, Motion.turn, e1, e2, f1, f2]; ring
  · simp only [rawNormal2, Motion.turn]
    rw [ha 0 (by omega), hb 0 (by omega)]
    simp only [Motion.place, Motion.turn, e1, e2, f1, f2]; ring
  · simp only [rawNormal2, Motion.turn, f3, f4]; ring

theorem placed_normal2 (hM : M.Proper 2) {v v' : Nat → Vec K} {a b : Nat} {g g' : Vec K} (ha : ∀ k < 3, v' a k = M.place (v a) k)
    (hb : ∀ k < 3, v' b k = M.place (v b) k) (hg : ∀ k < 3, g' k = M.place g k) :
    ∀ k < 3, orientedNormal2 v' g' a b k = M.scale * M.turn (orientedNormal2 v g a b) k := by
  obtain ⟨e1, e2, e3, f1, f2, f3, f4, f5, f6⟩ := Motion.plane hM
  have r := placed_raw2 hM ha hb
  have c := placed_mean2 ha hb
  have s2 : 0 < M.scale ^ 2 := pow_pos hM.pos 2
  have et : tst v' g' a b = M.scale ^ 2 * tst v g a b := by
    unfold tst
    rw [r 0 (by omega), r 1 (by omega), c 0 (by omega), c 1 (by omega), hg 0 (by omega), hg 1 (by omega)]
    simp only [Motion.place, Motion.turn, e1, e2, f1, f2]
    linear_combination M.scale ^ 2 * ((g 0 - centerf2 v a b 0) * rawNormal2 v a b 0 + (g 1 - centerf2 v a b 1) * rawNormal2 v a b 1) * e3
  intro k hk
  rw [orientedNormal2_eq, orientedNormal2_eq, et]
  by_cases hp : tst v g a b > 0
  · rw [if_pos hp, if_pos (mul_pos s2 hp)]
    show -1 * rawNormal2 v' a b k = _
    rw [r k hk]; simp only [Motion.turn]; ring
  · rw [if_neg hp, if_neg (by intro h; exact hp ((mul_pos_iff_of_pos_left s2).mp h))]
    exact r k hk

theorem movedT2 (hM : M.Proper 2) (hsq : SqrtUnit sqrt (faceUnit M 2)) (t : Twin M 3 nbnodes n d d')
    (hfirst : ∀ f < (build2 sqrt trunc 1 d).nbfaces, idx ((build2 sqrt trunc 1 d).cellid f 0) < n) :
    MovedT M 2 (build2 sqrt trunc 1 d) (build2 sqrt trunc 1 d') := by
  have hu : faceUnit M 2 = M.scale := by simp [faceUnit]
  have F := t.faces2 hM
  have hfac : fac2 d' = fac2 d := congrArg Prod.fst F
  have hfid : (build2 sqrt trunc 1 d').faceid = (build2 sqrt trunc 1 d).faceid := congrArg Prod.snd F
  have hcof : createCellsOfFace (domainFaces 2 (fun i => col3 (Par.orow2 d' i)) d'.nodeid.length).2 d'.nodeid.length 3 noCells =
      createCellsOfFace (domainFaces 2 (fun i => col3 (Par.orow2 d i)) d.nodeid.length).2 d.nodeid.length 3 noCells := by
    rw [F, t.rows]
  have hcell : (build2 sqrt trunc 1 d').cellid = (build2 sqrt trunc 1 d).cellid := by
    show (fun (f k : Nat) => if k = 0 then (createCellsOfFace (domainFaces 2 (fun i => col3 (Par.orow2 d' i)) d'.nodeid.length).2 d'.nodeid.length 3
        noCells f).1 else (createCellsOfFace (domainFaces 2 (fun i => col3 (Par.orow2 d' i)) d'.nodeid.length).2 d'.nodeid.length 3 noCells f).2) = _
    rw [hcof]; rfl
  have hlab : (fun s => trunc (vtx d' s 3)) = fun s => trunc (vtx d s 3) := by funext s; rw [t.label]
  have hname : (build2 sqrt trunc 1 d').name = (build2 sqrt trunc 1 d).name := by
    show faceNames2 (fun f => (createCellsOfFace (domainFaces 2 (fun i => col3 (Par.orow2 d' i)) d'.nodeid.length).2 d'.nodeid.length 3
        noCells f).2) (at2 0 (fac2 d')) (fun s => trunc (vtx d' s 3)) (fac2 d').length = _
    rw [hcof, hfac, hlab]; rfl
  have hnb : (build2 sqrt trunc 1 d').nbfaces = (build2 sqrt trunc 1 d).nbfaces := by
    show (fac2 d').length = (fac2 d).length; rw [hfac]
  have hfam : families2 (build2 sqrt trunc 1 d').name (build2 sqrt trunc 1 d').nbfaces =
      families2 (build2 sqrt trunc 1 d).name (build2 sqrt trunc 1 d).nbfaces := by rw [hname, hnb]
  have hctr : ∀ c < n, ∀ k < 3, (build2 sqrt trunc 1 d').center c k = M.place ((build2 sqrt trunc 1 d).center c) k := by
    intro c hc k hk
    rw [center_build2 _ _ _ _ (by rw [t.rows, t.len]; exact hc), center_build2 _ _ _ _ (by rw [t.len]; exact hc), t.row2]
    obtain ⟨h0, h1, h2⟩ := t.row2_lt hc
    obtain ⟨e1, e2, e3, f1, f2, f3, f4, f5, f6⟩ := Motion.plane hM
    interval_cases k
    · simp only [Motion.place, Motion.turn, center2]
      rw [t.vert _ h0 0 (by omega), t.vert _ h1 0 (by omega), t.vert _ h2 0 (by omega)]
      simp only [Motion.place, Motion.turn, f1]; ring
    · simp only [Motion.place, Motion.turn, center2]
      rw [t.vert _ h0 1 (by omega), t.vert _ h1 1 (by omega), t.vert _ h2 1 (by omega)]
      simp only [Motion.place, Motion.turn, f2]; ring
    · simp only [center2, Motion.place, Motion.turn, f3, f4, f6]; ring
  have hnrm : ∀ f < (fac2 d).length, ∀ k < 3, (build2 sqrt trunc 1 d').normal f k = M.scale * M.turn ((build2 sqrt trunc 1 d).normal f) k := by
    intro f hf k hk
    rw [normal_build2 _ _ _ _ (by rw [hfac]; exact hf), normal_build2 _ _ _ _ hf, hfac, hcell]
    exact placed_normal2 hM (t.vert _ (t.fac2_lt hf (by omega))) (t.vert _ (t.fac2_lt hf (by omega))) (hctr _ (hfirst f hf)) k hk
  refine ⟨?_, hnb, hfid, hcell, hname, congrArg (·.getD 0 []) hfam, congrArg (·.getD 1 []) hfam, congrArg (·.getD 2 []) hfam,
    congrArg (·.getD 3 []) hfam, ?_, ?_, hlab, hlab, ?_, ?_, ?_, ?_, ?_, ?_, ?_⟩
  · show d'.nodeid.length = d.nodeid.length; rw [t.rows]
  · show d'.vertex.length = d.vertex.length; rw [t.nlen, t.nlen']
  · show (fun f => [at2 0 (fac2 d') f 0, at2 0 (fac2 d') f 1]) = fun f => [at2 0 (fac2 d) f 0, at2 0 (fac2 d) f 1]; rw [hfac]
  · show (fun c => col3 (Par.orow2 d' c)) = fun c => col3 (Par.orow2 d c); funext c; rw [t.orow2 hM]
  · intro s hs; exact t.vert s (by rw [← t.nlen]; exact hs)
  · intro c hc; exact hctr c (by rw [← t.len]; exact hc)
  · intro c hc
    have hc' : c < n := by rw [← t.len]; exact hc
    rw [volume_build2 _ _ _ _ (by rw [t.rows]; exact hc), volume_build2 _ _ _ _ hc, t.row2, hu]
    obtain ⟨h0, h1, h2⟩ := t.row2_lt hc'
    have e := placed_area hM (t.vert _ h0) (t.vert _ h1) (t.vert _ h2)
    unfold volume2
    dsimp only
    rw [show ∀ x1 y1 x2 y2 x3 y3 : K, (x1 - x2) * (y1 - y3) - (x1 - x3) * (y1 - y2) = (x2 - x1) * (y3 - y1) - (y2 - y1) * (x3 - x1) from
      fun _ _ _ _ _ _ => by ring, e, abs_mul, abs_of_pos (pow_pos hM.pos 2),
      show ∀ x1 y1 x2 y2 x3 y3 : K, (x1 - x2) * (y1 - y3) - (x1 - x3) * (y1 - y2) = (x2 - x1) * (y3 - y1) - (y2 - y1) * (x3 - x1) from
      fun _ _ _ _ _ _ => by ring]
    ring
  · intro f hf k hk
    have hf' : f < (fac2 d).length := hf
    rw [fcenter_build2 _ _ _ _ (by rw [hfac]; exact hf'), fcenter_build2 _ _ _ _ hf', hfac]
    exact placed_mean2 (t.vert _ (t.fac2_lt hf' (by omega))) (t.vert _ (t.fac2_lt hf' (by omega))) k hk
  · intro f hf k hk
    rw [hu]; exact hnrm f hf k hk
  · intro f hf
    have hf' : f < (fac2 d).length := hf
    rw [mesure_build2 _ _ _ _ (by rw [hfac]; exact hf'), mesure_build2 _ _ _ _ hf']
    unfold mesure2
    obtain ⟨e1, e2, e3, f1, f2, f3, f4, f5, f6⟩ := Motion.plane hM
    rw [hnrm f hf' 0 (by omega), hnrm f hf' 1 (by omega), ← hsq _ (add_nonneg (sq_nonneg _) (sq_nonneg _)), hu]
    congr 1
    simp only [Motion.turn, e1, e2, f1, f2]
    linear_combination M.scale ^ 2 * ((build2 sqrt trunc 1 d).normal f 0 ^ 2 + (build2 sqrt trunc 1 d).normal f 1 ^ 2) * e3

/-- The files of two meshes that differ in the coordinates only. -/
theorem twin_of {M : Motion K} {d1 : Nat} {nodeid : Nat → Nat → Nat} {node node' : Nat → K × K × K × Nat} {serial serial' : RankData K}
    (hp : Placed M node node' nbnodes) (hn : ∀ c < n, ∀ j < d1, nodeid c j < nbnodes)
    (hr : readMeshFile 1 0 (writeSerial (serialWrite nodeid node nbnodes n d1)) [] = some serial)
    (hr' : readMeshFile 1 0 (writeSerial (serialWrite nodeid node' nbnodes n d1)) [] = some serial') : Twin M d1 nbnodes n serial serial' := by
  have e : serial = expected 1 0 (serialWrite nodeid node nbnodes n d1) := by
    have := C25_round_trip_serial (K := K) (serialWrite nodeid node nbnodes n d1) []
    rw [this] at hr; exact (Option.some.inj hr).symm
  have e' : serial' = expected 1 0 (serialWrite nodeid node' nbnodes n d1) := by
    have := C25_round_trip_serial (K := K) (serialWrite nodeid node' nbnodes n d1) []
    rw [this] at hr'; exact (Option.some.inj hr').symm
  have hv : ∀ (nd : Nat → K × K × K × Nat) (s : Nat), s < nbnodes → vtx (expected 1 0 (serialWrite nodeid nd nbnodes n d1)) s =
      fun k => [(nd s).1, (nd s).2.1, (nd s).2.2.1, ((nd s).2.2.2 : K)].getD k 0 := by
    intro nd s hs
    funext k
    simp [vtx, at2, expected, serialWrite, hs]
  have hout : ∀ (nd : Nat → K × K × K × Nat) (s : Nat), ¬ s < nbnodes → ∀ k, vtx (expected 1 0 (serialWrite nodeid nd nbnodes n d1)) s k = 0 := by
    intro nd s hs k
    have : nbnodes ≤ s := by omega
    simp [vtx, at2, expected, serialWrite, this]
  subst e; subst e'
  refine ⟨by simp [expected, serialWrite], by simp [expected, serialWrite], by simp [expected, serialWrite], rfl, ?_, ?_, ?_⟩
  · intro s
    by_cases hs : s < nbnodes
    · rw [hv node' s hs, hv node s hs]
      have := (hp s hs).2
      unfold labelOf at this
      simp [this]
    · rw [hout node' s hs, hout node s hs]
  · intro s hs k hk
    rw [hv node' s hs, hv node s hs]
    have h0 := (hp s hs).1 k hk
    have e0 : ∀ (nd : Nat → K × K × K × Nat), ∀ k < 3, [(nd s).1, (nd s).2.1, (nd s).2.2.1, ((nd s).2.2.2 : K)].getD k 0 = pos nd s k := by
      intro nd k hk; interval_cases k <;> rfl
    show [(node' s).1, (node' s).2.1, (node' s).2.2.1, ((node' s).2.2.2 : K)].getD k 0 = _
    rw [e0 node' k hk, h0]
    simp only [Motion.place, Motion.turn]
    rw [e0 node 0 (by omega), e0 node 1 (by omega), e0 node 2 (by omega)]
  · intro c hc j hj
    have : at2 0 (expected 1 0 (serialWrite nodeid node nbnodes n d1)).nodeid c j = nodeid c j := by
      simp [expected, serialWrite, at2, List.getD, hc, hj]
    rw [this]; exact hn c hc j hj

end two

section three
variable {M : Motion K} {nbnodes n : Nat} {d d' : RankData K} {sqrt : K → K} {trunc : K → Int}

theorem Twin.row3 (t : Twin M 4 nbnodes n d d') (c : Nat) : row3 d' c = row3 d c := by unfold Par.row3; rw [t.rows]

theorem Twin.row3_lt (t : Twin M 4 nbnodes n d d') {c : Nat} (hc : c < n) :
    (Par.row3 d c).1 < nbnodes ∧ (Par.row3 d c).2.1 < nbnodes ∧ (Par.row3 d c).2.2.1 < nbnodes ∧ (Par.row3 d c).2.2.2 < nbnodes :=
  ⟨t.lt c hc 0 (by omega), t.lt c hc 1 (by omega), t.lt c hc 2 (by omega), t.lt c hc 3 (by omega)⟩

theorem Twin.faces3 (t : Twin M 4 nbnodes n d d') :
    domainFaces 3 (fun i => col4 (Par.row3 d' i)) d'.nodeid.length = domainFaces 3 (fun i => col4 (Par.row3 d i)) d.nodeid.length := by
  rw [t.rows]
  congr 1
  funext i; rw [t.row3 i]

/-- The nodes of a face are nodes of the mesh. -/
theorem Twin.fac3_lt (t : Twin M 4 nbnodes n d d') {f : Nat} (hf : f < (fac3 d).length) {k : Nat} (hk : k < 3) : at2 0 (fac3 d) f k < nbnodes := by
  have spec := facesSpec3 (fun x : K => x) (fun _ => 0) 1 d
  obtain ⟨_, i, hi, j, hj, hp⟩ := spec.2.2.1 _ (List.getElem_mem hf)
  have hm : at2 0 (fac3 d) f k ∈ (fac3 d)[f] := by
    have hl : ((fac3 d)[f]).length = 3 := by rw [hp.length_eq, sid3_length]
    have e : at2 0 (fac3 d) f k = ((fac3 d)[f]).getD k 0 := by unfold at2; rw [List.getD_eq_getElem _ _ hf]
    rw [e, List.getD_eq_getElem _ _ (by omega : k < ((fac3 d)[f]).length)]
    exact List.getElem_mem _
  have h1 : at2 0 (fac3 d) f k ∈ [tA d i j, tB d i j, tC d i j] := by rw [← sid3_eq]; exact hp.mem_iff.mp hm
  have h2 : at2 0 (fac3 d) f k ∈ [tA d i j, tB d i j, tC d i j, tO d i j] := by
    simp only [List.mem_cons, List.not_mem_nil, or_false] at h1 ⊢; tauto
  have h3 := (Par.side_perm3 d i hj).mem_iff.mp h2
  obtain ⟨x, y, z, w⟩ := t.row3_lt (by rw [← t.len]; exact hi)
  simp only [lst3, List.mem_cons, List.not_mem_nil, or_false] at h3
  rcases h3 with h | h | h | h <;> rw [h] <;> assumption

theorem placed_mean3 {v v' : Nat → Vec K} {a b c : Nat} (ha : ∀ k < 3, v' a k = M.place (v a) k)
    (hb : ∀ k < 3, v' b k = M.place (v b) k) (hc : ∀ k < 3, v' c k = M.place (v c) k) :
    ∀ k < 3, centerf3 v' a b c k = M.place (centerf3 v a b c) k := by
  intro k hk
  show 1 / 3 * (v' a k + v' b k + v' c k) = _
  rw [ha k hk, hb k hk, hc k hk]
  simp only [Motion.place, Motion.turn, centerf3]
  ring

/-- The vector between two points. -/
theorem placed_diff {v v' : Nat → Vec K} {a b : Nat} (ha : ∀ k < 3, v' a k = M.place (v a) k) (hb : ∀ k < 3, v' b k = M.place (v b) k) :
    ∀ k < 3, v' b k - v' a k = M.scale * M.turn (fun k => v b k - v a k) k := by
  intro k hk
  rw [ha k hk, hb k hk]
  simp only [Motion.place, Motion.turn]
  ring

/-- The vector product of two turned vectors. -/
theorem wedge_scaled (hM : M.Proper 3) {u v u' v' : Vec K} (hu : ∀ k < 3, u' k = M.scale * M.turn u k) (hv : ∀ k < 3, v' k = M.scale * M.turn v k) :
    ∀ k < 3, Geo.wedge u' v' k = M.scale ^ 2 * M.turn (Geo.wedge u v) k := by
  intro k hk
  rw [← Motion.turn_wedge hM u v k hk]
  interval_cases k <;> simp only [Geo.wedge] <;>
    simp only [hu 0 (by omega), hu 1 (by omega), hu 2 (by omega), hv 0 (by omega), hv 1 (by omega), hv 2 (by omega)] <;> ring

theorem raw3_wedge (v : Nat → Vec K) (a b c : Nat) (k : Nat) :
    rawNormal3 v a b c k = 1 / 2 * Geo.wedge (fun k => v b k - v a k) (fun k => v c k - v a k) k := by
  match k with
  | 0 => rfl
  | 1 => rfl
  | _ + 2 => rfl

theorem turn_smul (r : K) (u w : Vec K) (h : ∀ k < 3, u k = r * w k) (k : Nat) : M.turn u k = r * M.turn w k := by
  simp only [Motion.turn]
  rw [h 0 (by omega), h 1 (by omega), h 2 (by omega)]; ring

theorem placed_raw3 (hM : M.Proper 3) {v v' : Nat → Vec K} {a b c : Nat} (ha : ∀ k < 3, v' a k = M.place (v a) k)
    (hb : ∀ k < 3, v' b k = M.place (v b) k) (hc : ∀ k < 3, v' c k = M.place (v c) k) :
    ∀ k < 3, rawNormal3 v' a b c k = M.scale ^ 2 * M.turn (rawNormal3 v a b c) k := by
  intro k hk
  rw [raw3_wedge, wedge_scaled hM (placed_diff ha hb) (placed_diff ha hc) k hk,
    turn_smul (1 / 2) (rawNormal3 v a b c) _ (fun k _ => raw3_wedge v a b c k) k]
  ring

theorem placed_normal3 (hM : M.Proper 3) {v v' : Nat → Vec K} {a b c : Nat} {g g' : Vec K} (ha : ∀ k < 3, v' a k = M.place (v a) k)
    (hb : ∀ k < 3, v' b k = M.place (v b) k) (hc : ∀ k < 3, v' c k = M.place (v c) k) (hg : ∀ k < 3, g' k = M.place g k) :
    ∀ k < 3, orientedNormal3 v' g' a b c k = M.scale ^ 2 * M.turn (orientedNormal3 v g a b c) k := by
  have r := placed_raw3 hM ha hb hc
  have m := placed_mean3 ha hb hc
  have s2 : 0 < M.scale ^ 3 := pow_pos hM.pos 3
  have et : tst3 v' g' a b c = M.scale ^ 3 * tst3 v g a b c := by
    have dd := Motion.turn_dot hM (fun k => g k - centerf3 v a b c k) (rawNormal3 v a b c)
    have w : ∀ k < 3, g' k - centerf3 v' a b c k = M.scale * M.turn (fun k => g k - centerf3 v a b c k) k := by
      intro k hk; rw [hg k hk, m k hk]; simp only [Motion.place, Motion.turn]; ring
    unfold tst3
    rw [w 0 (by omega), w 1 (by omega), w 2 (by omega), r 0 (by omega), r 1 (by omega), r 2 (by omega)]
    linear_combination M.scale ^ 3 * dd
  intro k hk
  rw [orientedNormal3_eq, orientedNormal3_eq, et]
  by_cases hp : tst3 v g a b c > 0
  · rw [if_pos hp, if_pos (mul_pos s2 hp)]
    show -1 * rawNormal3 v' a b c k = _
    rw [r k hk]; simp only [Motion.turn]; ring
  · rw [if_neg hp, if_neg (by intro h; exact hp ((mul_pos_iff_of_pos_left s2).mp h))]
    exact r k hk

theorem placed_orient3 (hM : M.Proper 3) {v v' : Nat → Vec K} {a b c : Nat} {N N' : Vec K} (ha : ∀ k < 3, v' a k = M.place (v a) k)
    (hb : ∀ k < 3, v' b k = M.place (v b) k) (hc : ∀ k < 3, v' c k = M.place (v c) k) (hN : ∀ k < 3, N' k = M.scale ^ 2 * M.turn N k) :
    orientFace3 v' N' a b c = orientFace3 v N a b c := by
  have w := wedge_scaled hM (placed_diff ha hb) (placed_diff ha hc)
  have dd := Motion.turn_dot hM (Geo.wedge (fun k => v b k - v a k) (fun k => v c k - v a k)) N
  have e : dot3 (Geo.wedge (fun k => v' b k - v' a k) (fun k => v' c k - v' a k)) N' =
      M.scale ^ 4 * dot3 (Geo.wedge (fun k => v b k - v a k) (fun k => v c k - v a k)) N := by
    unfold dot3
    rw [w 0 (by omega), w 1 (by omega), w 2 (by omega), hN 0 (by omega), hN 1 (by omega), hN 2 (by omega)]
    linear_combination M.scale ^ 4 * dd
  have s4 : 0 < M.scale ^ 4 := pow_pos hM.pos 4
  unfold orientFace3
  dsimp only
  rw [e]
  refine if_congr ?_ rfl rfl
  constructor
  · intro h; by_contra h0; push Not at h0; exact absurd h (not_lt.mpr (mul_nonneg s4.le h0))
  · intro h; exact mul_neg_of_pos_of_neg s4 h

theorem movedT3 (hM : M.Proper 3) (hsq : SqrtUnit sqrt (faceUnit M 3)) (t : Twin M 4 nbnodes n d d')
    (hfirst : ∀ f < (build3 sqrt trunc 1 d).nbfaces, idx ((build3 sqrt trunc 1 d).cellid f 0) < n) :
    MovedT M 3 (build3 sqrt trunc 1 d) (build3 sqrt trunc 1 d') := by
  have hu : faceUnit M 3 = M.scale ^ 2 := by simp [faceUnit]
  have F := t.faces3
  have hfac : fac3 d' = fac3 d := congrArg Prod.fst F
  have hfid : (build3 sqrt trunc 1 d').faceid = (build3 sqrt trunc 1 d).faceid := congrArg Prod.snd F
  have hcof : createCellsOfFace (domainFaces 3 (fun i => col4 (Par.row3 d' i)) d'.nodeid.length).2 d'.nodeid.length 4 noCells =
      createCellsOfFace (domainFaces 3 (fun i => col4 (Par.row3 d i)) d.nodeid.length).2 d.nodeid.length 4 noCells := by
    rw [F, t.rows]
  have hcell : (build3 sqrt trunc 1 d').cellid = (build3 sqrt trunc 1 d).cellid := by
    show (fun (f k : Nat) => if k = 0 then (createCellsOfFace (domainFaces 3 (fun i => col4 (Par.row3 d' i)) d'.nodeid.length).2 d'.nodeid.length 4
        noCells f).1 else (createCellsOfFace (domainFaces 3 (fun i => col4 (Par.row3 d' i)) d'.nodeid.length).2 d'.nodeid.length 4 noCells f).2) = _
    rw [hcof]; rfl
  have hlab : (fun s => trunc (vtx d' s 3)) = fun s => trunc (vtx d s 3) := by funext s; rw [t.label]
  have hname : (build3 sqrt trunc 1 d').name = (build3 sqrt trunc 1 d).name := by
    show faceNames3 (fun f => (createCellsOfFace (domainFaces 3 (fun i => col4 (Par.row3 d' i)) d'.nodeid.length).2 d'.nodeid.length 4
        noCells f).2) (at2 0 (fac3 d')) (fun s => trunc (vtx d' s 3)) (fac3 d').length = _
    rw [hcof, hfac, hlab]; rfl
  have hnb : (build3 sqrt trunc 1 d').nbfaces = (build3 sqrt trunc 1 d).nbfaces := by
    show (fac3 d').length = (fac3 d).length; rw [hfac]
  have hfam : families3 (build3 sqrt trunc 1 d').name (build3 sqrt trunc 1 d').nbfaces =
      families3 (build3 sqrt trunc 1 d).name (build3 sqrt trunc 1 d).nbfaces := by rw [hname, hnb]
  have hctr : ∀ c < n, ∀ k < 3, (build3 sqrt trunc 1 d').center c k = M.place ((build3 sqrt trunc 1 d).center c) k := by
    intro c hc k hk
    rw [center_build3 _ _ _ _ (by rw [t.rows, t.len]; exact hc), center_build3 _ _ _ _ (by rw [t.len]; exact hc), t.row3]
    obtain ⟨h0, h1, h2, h3⟩ := t.row3_lt hc
    show 1 / 4 * (vtx d' _ k + vtx d' _ k + vtx d' _ k + vtx d' _ k) = _
    rw [t.vert _ h0 k hk, t.vert _ h1 k hk, t.vert _ h2 k hk, t.vert _ h3 k hk]
    simp only [Motion.place, Motion.turn, center3]; ring
  have hnrm : ∀ f < (fac3 d).length, ∀ k < 3, (build3 sqrt trunc 1 d').normal f k =
      M.scale ^ 2 * M.turn ((build3 sqrt trunc 1 d).normal f) k := by
    intro f hf k hk
    rw [normal_build3 _ _ _ _ (by rw [hfac]; exact hf), normal_build3 _ _ _ _ hf, hfac, hcell]
    exact placed_normal3 hM (t.vert _ (t.fac3_lt hf (by omega))) (t.vert _ (t.fac3_lt hf (by omega))) (t.vert _ (t.fac3_lt hf (by omega)))
      (hctr _ (hfirst f hf)) k hk
  refine ⟨?_, hnb, hfid, hcell, hname, congrArg (·.getD 0 []) hfam, congrArg (·.getD 1 []) hfam, congrArg (·.getD 2 []) hfam,
    congrArg (·.getD 3 []) hfam, ?_, ?_, hlab, hlab, ?_, ?_, ?_, ?_, ?_, ?_, ?_⟩
  · show d'.nodeid.length = d.nodeid.length; rw [t.rows]
  · show d'.vertex.length = d.vertex.length; rw [t.nlen, t.nlen']
  · have ho : oriente3dfacenodeid (fun f => let r := (fac3 d').getD f []; (r.getD 0 0, r.getD 1 0, r.getD 2 0)) (build3 sqrt trunc 1 d').normal
        (vtx d') (fac3 d').length = oriente3dfacenodeid (fun f => let r := (fac3 d).getD f []; (r.getD 0 0, r.getD 1 0, r.getD 2 0))
        (build3 sqrt trunc 1 d).normal (vtx d) (fac3 d).length := by
      funext f
      rw [oriente3d_apply, oriente3d_apply, hfac]
      by_cases hf : f < (fac3 d).length
      · rw [if_pos hf, if_pos hf]
        exact placed_orient3 hM (t.vert _ (t.fac3_lt hf (k := 0) (by omega))) (t.vert _ (t.fac3_lt hf (k := 1) (by omega)))
          (t.vert _ (t.fac3_lt hf (k := 2) (by omega))) (hnrm f hf)
      · rw [if_neg hf, if_neg hf]
    show (fun f => [col3 (oriente3dfacenodeid (fun f => let r := (fac3 d').getD f []; (r.getD 0 0, r.getD 1 0, r.getD 2 0))
        (build3 sqrt trunc 1 d').normal (vtx d') (fac3 d').length f) 0, col3 (oriente3dfacenodeid (fun f => let r := (fac3 d').getD f [];
        (r.getD 0 0, r.getD 1 0, r.getD 2 0)) (build3 sqrt trunc 1 d').normal (vtx d') (fac3 d').length f) 1,
        col3 (oriente3dfacenodeid (fun f => let r := (fac3 d').getD f []; (r.getD 0 0, r.getD 1 0, r.getD 2 0))
        (build3 sqrt trunc 1 d').normal (vtx d') (fac3 d').length f) 2]) = _
    rw [ho]; rfl
  · show (fun c => col4 (Par.row3 d' c)) = fun c => col4 (Par.row3 d c); funext c; rw [t.row3]
  · intro s hs; exact t.vert s (by rw [← t.nlen]; exact hs)
  · intro c hc; exact hctr c (by rw [← t.len]; exact hc)
  · intro c hc
    have hc' : c < n := by rw [← t.len]; exact hc
    rw [volume_build3 _ _ _ _ (by rw [t.rows]; exact hc), volume_build3 _ _ _ _ hc, t.row3, hu]
    obtain ⟨h0, h1, h2, h3⟩ := t.row3_lt hc'
    have u := placed_diff (t.vert _ h0) (t.vert _ h1)
    have w := wedge_scaled hM (placed_diff (t.vert _ h0) (t.vert _ h2)) (placed_diff (t.vert _ h0) (t.vert _ h3))
    have dd := Motion.turn_dot hM (fun k => vtx d (Par.row3 d c).2.1 k - vtx d (Par.row3 d c).1 k)
      (Geo.wedge (fun k => vtx d (Par.row3 d c).2.2.1 k - vtx d (Par.row3 d c).1 k) (fun k => vtx d (Par.row3 d c).2.2.2 k - vtx d (Par.row3 d c).1 k))
    unfold volume3
    dsimp only
    rw [u 0 (by omega), u 1 (by omega), u 2 (by omega), w 0 (by omega), w 1 (by omega), w 2 (by omega)]
    rw [show ∀ s a b c x y z : K, s * a * (s ^ 2 * x) + s * b * (s ^ 2 * y) + s * c * (s ^ 2 * z) = s ^ 3 * (a * x + b * y + c * z) from
      fun _ _ _ _ _ _ _ => by ring, dd, abs_mul, abs_of_pos (pow_pos hM.pos 3)]
    ring
  · intro f hf k hk
    have hf' : f < (fac3 d).length := hf
    rw [fcenter_build3 _ _ _ _ (by rw [hfac]; exact hf'), fcenter_build3 _ _ _ _ hf', hfac]
    exact placed_mean3 (t.vert _ (t.fac3_lt hf' (by omega))) (t.vert _ (t.fac3_lt hf' (by omega))) (t.vert _ (t.fac3_lt hf' (by omega))) k hk
  · intro f hf k hk
    rw [hu]; exact hnrm f hf k hk
  · intro f hf
    have hf' : f < (fac3 d).length := hf
    rw [mesure_build3 _ _ _ _ (by rw [hfac]; exact hf'), mesure_build3 _ _ _ _ hf']
    unfold mesure3
    have dd := Motion.turn_dot hM ((build3 sqrt trunc 1 d).normal f) ((build3 sqrt trunc 1 d).normal f)
    rw [hnrm f hf' 0 (by omega), hnrm f hf' 1 (by omega), hnrm f hf' 2 (by omega),
      ← hsq _ (add_nonneg (add_nonneg (sq_nonneg _) (sq_nonneg _)) (sq_nonneg _)), hu]
    congr 1
    linear_combination M.scale ^ 4 * dd

end three
end Verif.Props.Par
