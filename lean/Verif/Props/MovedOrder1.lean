import Verif.Props.MovedRun
import Verif.Props.RunStreamer

/-!
C129: the result of a run does not depend on the system of coordinates and the unit of length the mesh and the problem are written in
(first-order transport).
-/
set_option linter.unusedSectionVars false
set_option linter.unusedVariables false
set_option linter.unusedSimpArgs false
namespace Verif.Props.Par
open Verif.Fvm Verif.Spec Verif.Conn Verif.Dom Verif.Geo Verif.Names Verif.MeshFile Verif.Part Verif.Comm Verif.Run

section
variable {K : Type*} [Field K] [LinearOrder K] [IsStrictOrderedRing K]
variable {nodeid : Nat → Nat → Nat} {node node' : Nat → K × K × K × Nat} {nbnodes n : Nat} {M : Motion K}
variable {npart0 npart0' epart epart' : Nat → Nat} {SIZE SIZE' : Nat} {data data' : Nat → RankData K} {serial serial' : RankData K}
variable {S S' : Setup K} {init init' : K → K → K → K} {sqrt : K → K} {trunc : K → Int}

/-! ### the moved mesh is valid -/

theorem placed_nodeArea (hM : M.Proper 2) (hp : Placed M node node' nbnodes) {a b c : Nat} (ha : a < nbnodes) (hb : b < nbnodes) (hc : c < nbnodes) :
    signedArea (pos node' a) (pos node' b) (pos node' c) = M.scale ^ 2 * signedArea (pos node a) (pos node b) (pos node c) := by
  obtain ⟨p1, p2, p3, f1, f2, f3, f4, f5, f6⟩ := Motion.plane hM
  unfold signedArea
  rw [(hp a ha).1 0 (by omega), (hp a ha).1 1 (by omega), (hp b hb).1 0 (by omega), (hp b hb).1 1 (by omega), (hp c hc).1 0 (by omega),
    (hp c hc).1 1 (by omega)]
  simp only [Motion.place, Motion.turn, f1, f2, p1, p2]
  generalize pos node a 0 = a0
  generalize pos node a 1 = a1
  generalize pos node b 0 = b0
  generalize pos node b 1 = b1
  generalize pos node c 0 = c0
  generalize pos node c 1 = c1
  linear_combination (M.scale ^ 2 * ((b0 - a0) * (c1 - a1) - (c0 - a0) * (b1 - a1)) / 2) * p3

theorem placed_nodeVol (hM : M.Proper 3) (hp : Placed M node node' nbnodes) {a b c d : Nat} (ha : a < nbnodes) (hb : b < nbnodes) (hc : c < nbnodes)
    (hd : d < nbnodes) :
    signedVol (pos node' a) (pos node' b) (pos node' c) (pos node' d) = M.scale ^ 3 * signedVol (pos node a) (pos node b) (pos node c) (pos node d) := by
  have det := hM.det
  unfold signedVol
  rw [(hp a ha).1 0 (by omega), (hp a ha).1 1 (by omega), (hp a ha).1 2 (by omega), (hp b hb).1 0 (by omega), (hp b hb).1 1 (by omega),
    (hp b hb).1 2 (by omega), (hp c hc).1 0 (by omega), (hp c hc).1 1 (by omega), (hp c hc).1 2 (by omega), (hp d hd).1 0 (by omega),
    (hp d hd).1 1 (by omega), (hp d hd).1 2 (by omega)]
  simp only [Motion.place, Motion.turn]
  generalize pos node a 0 = a0
  generalize pos node a 1 = a1
  generalize pos node a 2 = a2
  generalize pos node b 0 = b0
  generalize pos node b 1 = b1
  generalize pos node b 2 = b2
  generalize pos node c 0 = c0
  generalize pos node c 1 = c1
  generalize pos node c 2 = c2
  generalize pos node d 0 = d0
  generalize pos node d 1 = d1
  generalize pos node d 2 = d2
  linear_combination (M.scale ^ 3 * ((b0 - a0) * ((c1 - a1) * (d2 - a2) - (c2 - a2) * (d1 - a1))
   - (b1 - a1) * ((c0 - a0) * (d2 - a2) - (c2 - a2) * (d0 - a0))
   + (b2 - a2) * ((c0 - a0) * (d1 - a1) - (c1 - a1) * (d0 - a0))) / 6) * det

theorem cell_corner {d1 : Nat} (hn : ∀ c < n, ∀ j < d1, nodeid c j < nbnodes) {c : Nat} (hc : c < n) {l : List Nat} (h : l.Perm (nodesOf nodeid d1 c)) :
    ∀ x ∈ l, x < nbnodes := by
  intro x hx
  obtain ⟨j, hj, rfl⟩ := List.mem_map.mp ((h.mem_iff).mp hx)
  exact hn c hc j (List.mem_range.mp hj)

theorem placed_valid2 (hM : M.Proper 2) (hp : Placed M node node' nbnodes) (vm : ValidMesh2 nodeid node nbnodes n) :
    ValidMesh2 nodeid node' nbnodes n where
  nodes := vm.nodes
  used := vm.used
  area := by
    intro c hc
    rw [placed_nodeArea hM hp (vm.nodes c hc 0 (by omega)) (vm.nodes c hc 1 (by omega)) (vm.nodes c hc 2 (by omega))]
    exact mul_ne_zero (pow_ne_zero _ hM.pos.ne') (vm.area c hc)
  opposite := by
    intro c hc c' hc' hne a b x y h1 h2
    have m1 := cell_corner vm.nodes hc h1
    have m2 := cell_corner vm.nodes hc' h2
    rw [placed_nodeArea hM hp (m1 a (by simp)) (m1 b (by simp)) (m1 x (by simp)), placed_nodeArea hM hp (m1 a (by simp)) (m1 b (by simp)) (m2 y (by simp))]
    have := mul_neg_of_pos_of_neg (mul_pos (pow_pos hM.pos 2) (pow_pos hM.pos 2)) (vm.opposite c hc c' hc' hne a b x y h1 h2)
    linarith [this]
  label := by
    intro c hc a b x h1 h2
    have m1 := cell_corner vm.nodes hc h1
    rw [(hp a (m1 a (by simp))).2, (hp b (m1 b (by simp))).2]
    exact vm.label c hc a b x h1 h2

theorem placed_valid3 (hM : M.Proper 3) (hp : Placed M node node' nbnodes) (vm : ValidMesh3 nodeid node nbnodes n) :
    ValidMesh3 nodeid node' nbnodes n where
  nodes := vm.nodes
  used := vm.used
  volume := by
    intro c hc
    rw [placed_nodeVol hM hp (vm.nodes c hc 0 (by omega)) (vm.nodes c hc 1 (by omega)) (vm.nodes c hc 2 (by omega)) (vm.nodes c hc 3 (by omega))]
    exact mul_ne_zero (pow_ne_zero _ hM.pos.ne') (vm.volume c hc)
  opposite := by
    intro c hc c' hc' hne a b d x y h1 h2
    have m1 := cell_corner vm.nodes hc h1
    have m2 := cell_corner vm.nodes hc' h2
    rw [placed_nodeVol hM hp (m1 a (by simp)) (m1 b (by simp)) (m1 d (by simp)) (m1 x (by simp)),
      placed_nodeVol hM hp (m1 a (by simp)) (m1 b (by simp)) (m1 d (by simp)) (m2 y (by simp))]
    have := mul_neg_of_pos_of_neg (mul_pos (pow_pos hM.pos 3) (pow_pos hM.pos 3)) (vm.opposite c hc c' hc' hne a b d x y h1 h2)
    linarith [this]
  label := by
    intro c hc a b d x h1 h2
    have m1 := cell_corner vm.nodes hc h1
    rw [(hp a (m1 a (by simp))).2, (hp b (m1 b (by simp))).2, (hp d (m1 d (by simp))).2]
    exact vm.label c hc a b d x h1 h2

/-! ### the trace of the diffusion -/

theorem rot_rows {dim : Nat} (hM : M.Proper dim) :
    (M.rot 0 0 * M.rot 0 0 + M.rot 0 1 * M.rot 0 1 + M.rot 0 2 * M.rot 0 2 = 1) ∧
    (M.rot 1 0 * M.rot 1 0 + M.rot 1 1 * M.rot 1 1 + M.rot 1 2 * M.rot 1 2 = 1) ∧
    (M.rot 2 0 * M.rot 2 0 + M.rot 2 1 * M.rot 2 1 + M.rot 2 2 * M.rot 2 2 = 1) := by
  obtain ⟨⟨x1, x2, x3⟩, ⟨y1, y2, y3⟩, z1, z2, z3⟩ := Motion.cross hM
  have d := hM.det
  refine ⟨?_, ?_, ?_⟩
  · linear_combination d - M.rot 0 0 * x1 - M.rot 0 1 * y1 - M.rot 0 2 * z1 +
      (M.rot 0 0 * (M.rot 1 1 * M.rot 2 2 - M.rot 2 1 * M.rot 1 2) + M.rot 0 1 * (M.rot 1 2 * M.rot 2 0 - M.rot 2 2 * M.rot 1 0) +
        M.rot 0 2 * (M.rot 1 0 * M.rot 2 1 - M.rot 2 0 * M.rot 1 1) - (M.rot 0 0 * (M.rot 1 1 * M.rot 2 2 - M.rot 2 1 * M.rot 1 2) - M.rot 1 0 * (M.rot 0 1 * M.rot 2 2 - M.rot 2 1 * M.rot 0 2)
    + M.rot 2 0 * (M.rot 0 1 * M.rot 1 2 - M.rot 1 1 * M.rot 0 2)))
  · linear_combination d - M.rot 1 0 * x2 - M.rot 1 1 * y2 - M.rot 1 2 * z2
  · linear_combination d - M.rot 2 0 * x3 - M.rot 2 1 * y3 - M.rot 2 2 * z3

theorem same_trace {dim : Nat} (hM : M.Proper dim) (hS : SameProblem M S S') :
    S'.Dxx + S'.Dyy + S'.Dzz = M.scale ^ 2 * (S.Dxx + S.Dyy + S.Dzz) := by
  obtain ⟨r0, r1, r2⟩ := rot_rows hM
  obtain ⟨a, b, c, -, -, -⟩ := Motion.dots hM
  have h := fun i hi j hj => hS.diff i hi j hj
  have h00 := h 0 (by omega) 0 (by omega)
  have h01 := h 0 (by omega) 1 (by omega)
  have h02 := h 0 (by omega) 2 (by omega)
  have h10 := h 1 (by omega) 0 (by omega)
  have h11 := h 1 (by omega) 1 (by omega)
  have h12 := h 1 (by omega) 2 (by omega)
  have h20 := h 2 (by omega) 0 (by omega)
  have h21 := h 2 (by omega) 1 (by omega)
  have h22 := h 2 (by omega) 2 (by omega)
  simp only [diffusion] at h00 h01 h02 h10 h11 h12 h20 h21 h22
  linear_combination M.rot 0 0 * h00 + M.rot 0 1 * h01 + M.rot 0 2 * h02 + M.rot 1 0 * h10 + M.rot 1 1 * h11 + M.rot 1 2 * h12 +
    M.rot 2 0 * h20 + M.rot 2 1 * h21 + M.rot 2 2 * h22 - S'.Dxx * r0 - S'.Dyy * r1 - S'.Dzz * r2 +
    M.scale ^ 2 * (S.Dxx * a + S.Dyy * b + S.Dzz * c)

/-! ### first-order runs -/

/-- C129 (2D, first order): one mesh file and the same file written in other coordinates (`Placed`: another origin, other axes, another unit
of length), the same problem in the new coordinates (`SameProblem`).  After any number of iterations of the order-1 transport driver both
runs have reached the same time and hold the same values. -/
theorem C129_order1_2d (vm : ValidMesh2 nodeid node nbnodes n) (hM : M.Proper 2) (hp : Placed M node node' nbnodes)
    (hr : readMeshFile 1 0 (writeSerial (serialWrite nodeid node nbnodes n 3)) [] = some serial)
    (hr' : readMeshFile 1 0 (writeSerial (serialWrite nodeid node' nbnodes n 3)) [] = some serial')
    (hsq : SqrtUnit sqrt M.scale) (htr : ∀ m : Nat, trunc (m : K) = m) (hS : SameProblem M S S') (hf : SameField M init init')
    (grads grads' : Nat → Nat → Grads K) (N : Nat) :
    ∃ (s' s : State K), loop 2 1 (fun _ => serial') (fun _ => build2 sqrt trunc 1 serial') S' grads'
          (start (fun _ => build2 sqrt trunc 1 serial') init') N = some s' ∧
      loop 2 1 (fun _ => serial) (fun _ => build2 sqrt trunc 1 serial) S grads (start (fun _ => build2 sqrt trunc 1 serial) init) N = some s ∧
      s'.time = s.time ∧ s'.iter = s.iter ∧ ∀ c < n, s'.cell 0 c = s.cell 0 c := by
  obtain ⟨d, h⟩ := launched_of_serial (centvol2 node nodeid) (by decide) vm.nodes vm.used hr
  have R := h.rankOf2 vm sqrt trunc htr (p := 0) (by decide)
  have hn : (build2 sqrt trunc 1 serial).nbcells = n := h.serial_cells.1
  have t := movedT2 (sqrt := sqrt) (trunc := trunc) hM (by simpa [faceUnit] using hsq) (twin_of hp vm.nodes hr hr')
    (fun f hf => by rw [← hn]; exact R.cG.left_lt hf)
  obtain ⟨s', s, e1, e2, m1, m2, m3⟩ := t.loop hM (Or.inl rfl) R.cG R.halo_nil (by decide) hS (same_trace hM hS) grads' grads
    (fun _ => serial') (fun _ => serial) hf N
  exact ⟨s', s, e1, e2, m2, m3, fun c hc => m1 c (by rw [hn]; exact hc)⟩

/-- C129 (3D, first order): see `C129_order1_2d`; in three dimensions the unit of the faces is the square of the unit of length. -/
theorem C129_order1_3d (vm : ValidMesh3 nodeid node nbnodes n) (hM : M.Proper 3) (hp : Placed M node node' nbnodes)
    (hr : readMeshFile 1 0 (writeSerial (serialWrite nodeid node nbnodes n 4)) [] = some serial)
    (hr' : readMeshFile 1 0 (writeSerial (serialWrite nodeid node' nbnodes n 4)) [] = some serial')
    (hsq : SqrtUnit sqrt (M.scale ^ 2)) (htr : ∀ m : Nat, trunc (m : K) = m) (hS : SameProblem M S S') (hf : SameField M init init')
    (grads grads' : Nat → Nat → Grads K) (N : Nat) :
    ∃ (s' s : State K), loop 3 1 (fun _ => serial') (fun _ => build3 sqrt trunc 1 serial') S' grads'
          (start (fun _ => build3 sqrt trunc 1 serial') init') N = some s' ∧
      loop 3 1 (fun _ => serial) (fun _ => build3 sqrt trunc 1 serial) S grads (start (fun _ => build3 sqrt trunc 1 serial) init) N = some s ∧
      s'.time = s.time ∧ s'.iter = s.iter ∧ ∀ c < n, s'.cell 0 c = s.cell 0 c := by
  obtain ⟨d, h⟩ := launched_of_serial (centvol3 node nodeid) (by decide) vm.nodes vm.used hr
  have R := h.rankOf3 vm sqrt trunc htr (p := 0) (by decide)
  have hn : (build3 sqrt trunc 1 serial).nbcells = n := h.serial_cells.1
  have t := movedT3 (sqrt := sqrt) (trunc := trunc) hM (by simpa [faceUnit] using hsq) (twin_of hp vm.nodes hr hr')
    (fun f hf => by rw [← hn]; exact R.cG.left_lt hf)
  obtain ⟨s', s, e1, e2, m1, m2, m3⟩ := t.loop hM (Or.inr rfl) R.cG R.halo_nil (by decide) hS (same_trace hM hS) grads' grads
    (fun _ => serial') (fun _ => serial) hf N
  exact ⟨s', s, e1, e2, m2, m3, fun c hc => m1 c (by rw [hn]; exact hc)⟩

/-- C129 (2D, first order, parallel runs): the two files may be shared between any numbers of processes in any two ways. -/
theorem C129_order1_parallel_2d (h : Launched 3 nodeid node (centvol2 node nodeid) npart0 epart nbnodes n SIZE data serial)
    (h' : Launched 3 nodeid node' (centvol2 node' nodeid) npart0' epart' nbnodes n SIZE' data' serial')
    (vm : ValidMesh2 nodeid node nbnodes n) (hM : M.Proper 2) (hp : Placed M node node' nbnodes) (hsq : SqrtUnit sqrt M.scale)
    (htr : ∀ m : Nat, trunc (m : K) = m) (hS : SameProblem M S S') (hf : SameField M init init') (grads grads' : Nat → Nat → Grads K) (N : Nat) :
    ∃ (s' s : State K), loop 2 SIZE' data' (fun p => build2 sqrt trunc SIZE' (data' p)) S' grads'
          (start (fun p => build2 sqrt trunc SIZE' (data' p)) init') N = some s' ∧
      loop 2 SIZE data (fun p => build2 sqrt trunc SIZE (data p)) S grads (start (fun p => build2 sqrt trunc SIZE (data p)) init) N = some s ∧
      s'.time = s.time ∧ s'.iter = s.iter ∧
      ∀ p < SIZE', ∀ q < SIZE, ∀ i j C, (data' p).loctoglob[i]? = some C → (data q).loctoglob[j]? = some C → s'.cell p i = s.cell q j := by
  obtain ⟨s', s, e1, e2, m1, m2, m3⟩ := C129_order1_2d vm hM hp h.hserial h'.hserial hsq htr hS hf grads grads' N
  obtain ⟨a', b', f1, f2, k1, k2, k3⟩ := C83_run_2d h' (placed_valid2 hM hp vm) sqrt trunc htr S' grads' grads' init' N
  obtain ⟨a, b, g1, g2, l1, l2, l3⟩ := C83_run_2d h vm sqrt trunc htr S grads grads init N
  rw [e1] at f2; cases f2
  rw [e2] at g2; cases g2
  refine ⟨a', a, f1, g1, by rw [k1, l1, m1], by rw [k2, l2, m2], fun p hp q hq i j C hi hj => ?_⟩
  rw [k3 p hp i C hi, l3 q hq j C hj, m3 C (((h'.cells hp).1.2 C).mp (List.mem_of_getElem? hi)).1]

/-- C129 (3D, first order, parallel runs): see `C129_order1_parallel_2d`. -/
theorem C129_order1_parallel_3d (h : Launched 4 nodeid node (centvol3 node nodeid) npart0 epart nbnodes n SIZE data serial)
    (h' : Launched 4 nodeid node' (centvol3 node' nodeid) npart0' epart' nbnodes n SIZE' data' serial')
    (vm : ValidMesh3 nodeid node nbnodes n) (hM : M.Proper 3) (hp : Placed M node node' nbnodes) (hsq : SqrtUnit sqrt (M.scale ^ 2))
    (htr : ∀ m : Nat, trunc (m : K) = m) (hS : SameProblem M S S') (hf : SameField M init init') (grads grads' : Nat → Nat → Grads K) (N : Nat) :
    ∃ (s' s : State K), loop 3 SIZE' data' (fun p => build3 sqrt trunc SIZE' (data' p)) S' grads'
          (start (fun p => build3 sqrt trunc SIZE' (data' p)) init') N = some s' ∧
      loop 3 SIZE data (fun p => build3 sqrt trunc SIZE (data p)) S grads (start (fun p => build3 sqrt trunc SIZE (data p)) init) N = some s ∧
      s'.time = s.time ∧ s'.iter = s.iter ∧
      ∀ p < SIZE', ∀ q < SIZE, ∀ i j C, (data' p).loctoglob[i]? = some C → (data q).loctoglob[j]? = some C → s'.cell p i = s.cell q j := by
  obtain ⟨s', s, e1, e2, m1, m2, m3⟩ := C129_order1_3d vm hM hp h.hserial h'.hserial hsq htr hS hf grads grads' N
  obtain ⟨a', b', f1, f2, k1, k2, k3⟩ := C83_run_3d h' (placed_valid3 hM hp vm) sqrt trunc htr S' grads' grads' init' N
  obtain ⟨a, b, g1, g2, l1, l2, l3⟩ := C83_run_3d h vm sqrt trunc htr S grads grads init N
  rw [e1] at f2; cases f2
  rw [e2] at g2; cases g2
  refine ⟨a', a, f1, g1, by rw [k1, l1, m1], by rw [k2, l2, m2], fun p hp q hq i j C hi hj => ?_⟩
  rw [k3 p hp i C hi, l3 q hq j C hj, m3 C (((h'.cells hp).1.2 C).mp (List.mem_of_getElem? hi)).1]

/-! ### every problem with equal diffusion coefficients has a counterpart in any coordinates -/

/-- The old coordinates of a point given in the new ones. -/
def Motion.back (M : Motion K) (x y z : K) : Nat → K := fun k =>
  (M.rot 0 k * (x - M.shift 0) + M.rot 1 k * (y - M.shift 1) + M.rot 2 k * (z - M.shift 2)) / M.scale

def moveField (M : Motion K) (f : K → K → K → K) : K → K → K → K := fun x y z => f (Motion.back M x y z 0) (Motion.back M x y z 1) (Motion.back M x y z 2)

def moveBC (M : Motion K) : BCond K → BCond K
  | .neumann => .neumann
  | .nonslip => .nonslip
  | .dirichlet v => .dirichlet (moveField M v)

/-- The problem written in the new coordinates. -/
def moveSetup (M : Motion K) (S : Setup K) : Setup K :=
  { S with
    bc := fun loc => moveBC M (S.bc loc)
    u := fun it x y z => M.scale * M.turn (velocity S it (Motion.back M x y z)) 0
    v := fun it x y z => M.scale * M.turn (velocity S it (Motion.back M x y z)) 1
    w := fun it x y z => M.scale * M.turn (velocity S it (Motion.back M x y z)) 2
    Dxx := M.scale ^ 2 * S.Dxx
    Dyy := M.scale ^ 2 * S.Dyy
    Dzz := M.scale ^ 2 * S.Dzz }

theorem back_place {dim : Nat} (hM : M.Proper dim) (p : Nat → K) {k : Nat} (hk : k < 3) :
    Motion.back M (M.place p 0) (M.place p 1) (M.place p 2) k = p k := by
  obtain ⟨a, b, c, ab, bc, ca⟩ := Motion.dots hM
  have hs := hM.pos.ne'
  simp only [Motion.back, Motion.place, Motion.turn]
  rw [div_eq_iff hs]
  interval_cases k
  · linear_combination M.scale * (p 0 * a + p 1 * ab + p 2 * ca)
  · linear_combination M.scale * (p 0 * ab + p 1 * b + p 2 * bc)
  · linear_combination M.scale * (p 0 * ca + p 1 * bc + p 2 * c)

theorem same_moveField {dim : Nat} (hM : M.Proper dim) (f : K → K → K → K) : SameField M f (moveField M f) := by
  intro p
  show f _ _ _ = _
  rw [back_place hM p (by omega), back_place hM p (by omega), back_place hM p (by omega)]

theorem velocity_back {dim : Nat} (hM : M.Proper dim) (S : Setup K) (it : Nat) (p : Nat → K) :
    velocity S it (Motion.back M (M.place p 0) (M.place p 1) (M.place p 2)) = velocity S it p := by
  funext k
  have b0 := back_place hM p (k := 0) (by omega)
  have b1 := back_place hM p (k := 1) (by omega)
  have b2 := back_place hM p (k := 2) (by omega)
  match k with
  | 0 => show S.u it _ _ _ = S.u it _ _ _; rw [b0, b1, b2]
  | 1 => show S.v it _ _ _ = S.v it _ _ _; rw [b0, b1, b2]
  | _ + 2 => show S.w it _ _ _ = S.w it _ _ _; rw [b0, b1, b2]

/-- The hypothesis `SameProblem` is met by any problem whose diffusion coefficients are equal, in any coordinates. -/
theorem same_moveSetup {dim : Nat} (hM : M.Proper dim) (S : Setup K) (h1 : S.Dyy = S.Dxx) (h2 : S.Dzz = S.Dxx) : SameProblem M S (moveSetup M S) where
  bc := by
    intro loc
    show SameBC M (S.bc loc) (moveBC M (S.bc loc))
    cases S.bc loc with
    | neumann => exact .neumann
    | nonslip => exact .nonslip
    | dirichlet v => exact .dirichlet (same_moveField hM v)
  vel := by
    intro it p k hk
    have e := velocity_back hM S it p
    interval_cases k
    · show M.scale * M.turn _ 0 = _; rw [e]
    · show M.scale * M.turn _ 1 = _; rw [e]
    · show M.scale * M.turn _ 2 = _; rw [e]
  cfl := rfl
  tfinal := rfl
  diff := by
    intro i hi j hj
    interval_cases i <;> interval_cases j <;> simp only [diffusion, moveSetup, h1, h2] <;> ring

end

/-! ### the strip turned by the angle of a 3-4-5 triangle, the chain turned by a quarter, the strip in another unit -/

def turn345 : Motion ℚ :=
  ⟨1, fun i j => if i = 0 ∧ j = 0 then 3 / 5 else if i = 0 ∧ j = 1 then - (4 / 5) else if i = 1 ∧ j = 0 then 4 / 5 else if i = 1 ∧ j = 1 then 3 / 5
    else if i = 2 ∧ j = 2 then 1 else 0, fun k => if k = 0 then 7 else if k = 1 then -2 else 0⟩

theorem turn345_proper : turn345.Proper 2 := by
  refine ⟨by decide +kernel, by decide +kernel, by decide +kernel, by decide +kernel⟩

/-- A mesh file written in the new coordinates. -/
def moveNode {K : Type*} [Field K] (M : Motion K) (node : Nat → K × K × K × Nat) (s : Nat) : K × K × K × Nat :=
  (M.place (pos node s) 0, M.place (pos node s) 1, M.place (pos node s) 2, labelOf node s)

theorem placed_moveNode {K : Type*} [Field K] (M : Motion K) (node : Nat → K × K × K × Nat) (nbnodes : Nat) : Placed M node (moveNode M node) nbnodes := by
  intro s _
  refine ⟨fun k hk => ?_, rfl⟩
  interval_cases k <;> rfl

theorem sqrt_unit_one {K : Type*} [Field K] [LinearOrder K] (sqrt : K → K) : SqrtUnit sqrt 1 := fun x _ => by rw [one_pow, one_mul, one_mul]

/-- The hypotheses of `C129_order1_2d` are met: the strip turned and shifted, any problem without diffusion. -/
example (S : Setup ℚ) (h1 : S.Dyy = S.Dxx) (h2 : S.Dzz = S.Dxx) (g1 g2 : Nat → Nat → Grads ℚ) (init : ℚ → ℚ → ℚ → ℚ) (N : Nat) :=
  C129_order1_2d stripValid turn345_proper (placed_moveNode turn345 stripNode 6) (C25_round_trip_serial (K := ℚ) _ _) (C25_round_trip_serial (K := ℚ) _ _)
    (sqrt_unit_one fun x => x) floor_nat (same_moveSetup turn345_proper S h1 h2) (same_moveField turn345_proper init) g1 g2 N

/-- A quarter turn about the first axis, in a unit of half the length: `(x, y, z) ↦ (2 x, -2 z, 2 y)`, shifted. -/
noncomputable def quarterHalf : Motion ℝ :=
  ⟨2, fun i j => if i = 0 ∧ j = 0 then 1 else if i = 1 ∧ j = 2 then -1 else if i = 2 ∧ j = 1 then 1 else 0, fun k => k⟩

theorem quarterHalf_proper : quarterHalf.Proper 3 := by
  refine ⟨by simp [quarterHalf], ?_, by simp [quarterHalf], by simp⟩
  intro i hi j hj
  interval_cases i <;> interval_cases j <;> simp [quarterHalf]

theorem sqrt_unit_real {ρ : ℝ} (h : 0 ≤ ρ) : SqrtUnit Real.sqrt ρ := fun x _ => by
  rw [Real.sqrt_mul (sq_nonneg ρ), Real.sqrt_sq h]

/-- The hypotheses of `C129_order1_3d` are met: the chain in the real numbers with the real square root, turned, shifted and in another unit. -/
example (S : Setup ℝ) (h1 : S.Dyy = S.Dxx) (h2 : S.Dzz = S.Dxx) (g1 g2 : Nat → Nat → Grads ℝ) (init : ℝ → ℝ → ℝ → ℝ) (N : Nat) :=
  C129_order1_3d (validReal3 chainValid) quarterHalf_proper (placed_moveNode quarterHalf (realNode chainNode) 6) (C25_round_trip_serial (K := ℝ) _ _)
    (C25_round_trip_serial (K := ℝ) _ _) (sqrt_unit_real (sq_nonneg _)) floor_real (same_moveSetup quarterHalf_proper S h1 h2)
    (same_moveField quarterHalf_proper init) g1 g2 N

/-- The turned strip on two processes. -/
def turnedData (p : Nat) : RankData ℚ :=
  expected 2 p (rankWrite exStrip (moveNode turn345 stripNode) (centvol2 (moveNode turn345 stripNode) exStrip) (partition exStrip exN exE 6 4 3)
    (halos (partition exStrip exN exE 6 4 3).cpart (partition exStrip exN exE 6 4 3).haloCell 2) 6 2 3 p)

theorem turnedLaunched : Launched 3 exStrip (moveNode turn345 stripNode) (centvol2 (moveNode turn345 stripNode) exStrip) exN exE 6 4 2 turnedData
    (expected 1 0 (serialWrite exStrip (moveNode turn345 stripNode) 6 4 3)) :=
  ⟨stripLaunched.hd, stripLaunched.hS, stripLaunched.he, stripLaunched.hok, stripLaunched.hused, stripLaunched.hnode,
    fun p hp => C25_round_trip_parallel (K := ℚ) 2 p (by decide) _, C25_round_trip_serial (K := ℚ) _ _⟩

/-- The hypotheses of `C129_order1_parallel_2d` are met. -/
example (S : Setup ℚ) (h1 : S.Dyy = S.Dxx) (h2 : S.Dzz = S.Dxx) (g1 g2 : Nat → Nat → Grads ℚ) (init : ℚ → ℚ → ℚ → ℚ) (N : Nat) :=
  C129_order1_parallel_2d stripLaunched turnedLaunched stripValid turn345_proper (placed_moveNode turn345 stripNode 6) (sqrt_unit_one fun x => x) floor_nat
    (same_moveSetup turn345_proper S h1 h2) (same_moveField turn345_proper init) g1 g2 N

/-- The chain turned by a quarter, in the rational numbers. -/
def quarter : Motion ℚ :=
  ⟨1, fun i j => if i = 0 ∧ j = 0 then 1 else if i = 1 ∧ j = 2 then -1 else if i = 2 ∧ j = 1 then 1 else 0, fun k => if k = 1 then 5 else 0⟩

theorem quarter_proper : quarter.Proper 3 := by
  refine ⟨by decide +kernel, by decide +kernel, by decide +kernel, by decide +kernel⟩

def turnedChainData (p : Nat) : RankData ℚ :=
  expected 2 p (rankWrite chainCell (moveNode quarter chainNode) (centvol3 (moveNode quarter chainNode) chainCell) (partition chainCell chainNodePart chainPart 6 3 4)
    (halos (partition chainCell chainNodePart chainPart 6 3 4).cpart (partition chainCell chainNodePart chainPart 6 3 4).haloCell 2) 6 2 4 p)

theorem turnedChainLaunched : Launched 4 chainCell (moveNode quarter chainNode) (centvol3 (moveNode quarter chainNode) chainCell)
    chainNodePart chainPart 6 3 2 turnedChainData (expected 1 0 (serialWrite chainCell (moveNode quarter chainNode) 6 3 4)) :=
  ⟨chainLaunched.hd, chainLaunched.hS, chainLaunched.he, chainLaunched.hok, chainLaunched.hused, chainLaunched.hnode,
    fun p hp => C25_round_trip_parallel (K := ℚ) 2 p (by decide) _, C25_round_trip_serial (K := ℚ) _ _⟩

/-- The hypotheses of `C129_order1_parallel_3d` are met. -/
example (S : Setup ℚ) (h1 : S.Dyy = S.Dxx) (h2 : S.Dzz = S.Dxx) (g1 g2 : Nat → Nat → Grads ℚ) (init : ℚ → ℚ → ℚ → ℚ) (N : Nat) :=
  C129_order1_parallel_3d chainLaunched turnedChainLaunched chainValid quarter_proper (placed_moveNode quarter chainNode 6)
    (by rw [show quarter.scale ^ 2 = (1 : ℚ) from by norm_num [quarter]]; exact sqrt_unit_one fun x => x) floor_nat
    (same_moveSetup quarter_proper S h1 h2) (same_moveField quarter_proper init) g1 g2 N

end Verif.Props.Par
