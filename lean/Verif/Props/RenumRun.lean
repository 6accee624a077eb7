import Verif.Props.RenumMesh
import Verif.Props.Diffusion

/-!
C124: the result of a run does not depend on the numbering of the nodes and cells of the mesh — nor, then, on how two differently
numbered copies of the mesh are partitioned.
-/
set_option linter.unusedSectionVars false
set_option linter.unusedVariables false
set_option linter.unusedSimpArgs false
namespace Verif.Props.Par
open Verif.Fvm Verif.Spec Verif.Conn Verif.Dom Verif.Geo Verif.Names Verif.MeshFile Verif.Part Verif.Comm Verif.Run

section
variable {K : Type*} [Field K] [LinearOrder K] [IsStrictOrderedRing K]
variable {nodeid nodeid' : Nat → Nat → Nat} {node node' : Nat → K × K × K × Nat} {nbnodes n : Nat} {σ g : Nat → Nat}
variable {npart0 npart0' epart epart' : Nat → Nat} {SIZE SIZE' : Nat} {data data' : Nat → RankData K} {serial serial' : RankData K}

/-- C124 (2D): two numberings `nodeid`, `nodeid'` of one valid mesh, each read from its own serial mesh file.  After any number of
iterations of the order-1 transport driver, started from the same function of the position, both runs have reached the same time, and the
value of cell `c` in one is the value of cell `σ c` — the same triangle — in the other. -/
theorem C124_order1_2d (vm : ValidMesh2 nodeid node nbnodes n) (r : Renumbered 3 nodeid node nodeid' node' nbnodes n σ g)
    (hr : readMeshFile 1 0 (writeSerial (serialWrite nodeid node nbnodes n 3)) [] = some serial)
    (hr' : readMeshFile 1 0 (writeSerial (serialWrite nodeid' node' nbnodes n 3)) [] = some serial')
    (sqrt : K → K) (trunc : K → Int) (htr : ∀ m : Nat, trunc (m : K) = m)
    (S : Setup K) (grads grads' : Nat → Nat → Grads K) (init : K → K → K → K) (N : Nat) :
    ∃ (s' s : State K), loop 2 1 (fun _ => serial') (fun _ => build2 sqrt trunc 1 serial') S grads'
          (start (fun _ => build2 sqrt trunc 1 serial') init) N = some s' ∧
      loop 2 1 (fun _ => serial) (fun _ => build2 sqrt trunc 1 serial) S grads (start (fun _ => build2 sqrt trunc 1 serial) init) N = some s ∧
      s'.time = s.time ∧ s'.iter = s.iter ∧ ∀ c < n, s'.cell 0 c = s.cell 0 (σ c) := by
  obtain ⟨d, h⟩ := launched_of_serial (centvol2 node nodeid) (by decide) vm.nodes vm.used hr
  have vm' := ren_valid2 r vm
  obtain ⟨d', h'⟩ := launched_of_serial (centvol2 node' nodeid') (by decide) vm'.nodes vm'.used hr'
  have hn' : (build2 sqrt trunc 1 serial').nbcells = n := h'.serial_cells.1
  obtain ⟨s', s, e1, e2, m1, m2, m3⟩ := (renum2 h h' vm r sqrt trunc htr).loop (dim := 2) (Or.inl rfl) (by decide) S grads' grads
    (fun _ => serial') (fun _ => serial) init N
  exact ⟨s', s, e1, e2, m2, m3, fun c hc => m1 c (by rw [hn']; exact hc)⟩

/-- C124 (2D, parallel runs): two numberings of one valid mesh, each partitioned in any way over any number of processes.  After any number
of iterations of the order-1 transport driver the runs have reached the same time, and wherever process `p` of the second run holds cell
`C` and process `q` of the first holds the same triangle `σ C`, they hold the same value. -/
theorem C124_order1_parallel_2d (h : Launched 3 nodeid node (centvol2 node nodeid) npart0 epart nbnodes n SIZE data serial)
    (h' : Launched 3 nodeid' node' (centvol2 node' nodeid') npart0' epart' nbnodes n SIZE' data' serial')
    (vm : ValidMesh2 nodeid node nbnodes n) (r : Renumbered 3 nodeid node nodeid' node' nbnodes n σ g)
    (sqrt : K → K) (trunc : K → Int) (htr : ∀ m : Nat, trunc (m : K) = m)
    (S : Setup K) (grads grads' : Nat → Nat → Grads K) (init : K → K → K → K) (N : Nat) :
    ∃ (s' s : State K), loop 2 SIZE' data' (fun p => build2 sqrt trunc SIZE' (data' p)) S grads'
          (start (fun p => build2 sqrt trunc SIZE' (data' p)) init) N = some s' ∧
      loop 2 SIZE data (fun p => build2 sqrt trunc SIZE (data p)) S grads (start (fun p => build2 sqrt trunc SIZE (data p)) init) N = some s ∧
      s'.time = s.time ∧ s'.iter = s.iter ∧
      ∀ p < SIZE', ∀ q < SIZE, ∀ i j C, (data' p).loctoglob[i]? = some C → (data q).loctoglob[j]? = some (σ C) → s'.cell p i = s.cell q j := by
  have vm' := ren_valid2 r vm
  have hn' : (build2 sqrt trunc 1 serial').nbcells = n := h'.serial_cells.1
  obtain ⟨s', s, e1, e2, m1, m2, m3⟩ := (renum2 h h' vm r sqrt trunc htr).loop (dim := 2) (Or.inl rfl) (by decide) S grads' grads
    (fun _ => serial') (fun _ => serial) init N
  obtain ⟨a', b', f1, f2, k1, k2, k3⟩ := C83_run_2d h' vm' sqrt trunc htr S grads' grads' init N
  obtain ⟨a, b, g1, g2, l1, l2, l3⟩ := C83_run_2d h vm sqrt trunc htr S grads grads init N
  rw [e1] at f2; cases f2
  rw [e2] at g2; cases g2
  refine ⟨a', a, f1, g1, by rw [k1, l1, m2], by rw [k2, l2, m3], fun p hp q hq i j C hi hj => ?_⟩
  have hC : C < n := (((h'.cells hp).1.2 C).mp (List.mem_of_getElem? hi)).1
  rw [k3 p hp i C hi, l3 q hq j (σ C) hj, m1 C (by rw [hn']; exact hC)]

/-- C124 (3D): see `C124_order1_2d`. -/
theorem C124_order1_3d (vm : ValidMesh3 nodeid node nbnodes n) (r : Renumbered 4 nodeid node nodeid' node' nbnodes n σ g)
    (hr : readMeshFile 1 0 (writeSerial (serialWrite nodeid node nbnodes n 4)) [] = some serial)
    (hr' : readMeshFile 1 0 (writeSerial (serialWrite nodeid' node' nbnodes n 4)) [] = some serial')
    (sqrt : K → K) (trunc : K → Int) (htr : ∀ m : Nat, trunc (m : K) = m)
    (S : Setup K) (grads grads' : Nat → Nat → Grads K) (init : K → K → K → K) (N : Nat) :
    ∃ (s' s : State K), loop 3 1 (fun _ => serial') (fun _ => build3 sqrt trunc 1 serial') S grads'
          (start (fun _ => build3 sqrt trunc 1 serial') init) N = some s' ∧
      loop 3 1 (fun _ => serial) (fun _ => build3 sqrt trunc 1 serial) S grads (start (fun _ => build3 sqrt trunc 1 serial) init) N = some s ∧
      s'.time = s.time ∧ s'.iter = s.iter ∧ ∀ c < n, s'.cell 0 c = s.cell 0 (σ c) := by
  obtain ⟨d, h⟩ := launched_of_serial (centvol3 node nodeid) (by decide) vm.nodes vm.used hr
  have vm' := ren_valid3 r vm
  obtain ⟨d', h'⟩ := launched_of_serial (centvol3 node' nodeid') (by decide) vm'.nodes vm'.used hr'
  have hn' : (build3 sqrt trunc 1 serial').nbcells = n := h'.serial_cells.1
  obtain ⟨s', s, e1, e2, m1, m2, m3⟩ := (renum3 h h' vm r sqrt trunc htr).loop (dim := 3) (Or.inr rfl) (by decide) S grads' grads
    (fun _ => serial') (fun _ => serial) init N
  exact ⟨s', s, e1, e2, m2, m3, fun c hc => m1 c (by rw [hn']; exact hc)⟩

/-- C124 (3D, parallel runs): see `C124_order1_parallel_2d`. -/
theorem C124_order1_parallel_3d (h : Launched 4 nodeid node (centvol3 node nodeid) npart0 epart nbnodes n SIZE data serial)
    (h' : Launched 4 nodeid' node' (centvol3 node' nodeid') npart0' epart' nbnodes n SIZE' data' serial')
    (vm : ValidMesh3 nodeid node nbnodes n) (r : Renumbered 4 nodeid node nodeid' node' nbnodes n σ g)
    (sqrt : K → K) (trunc : K → Int) (htr : ∀ m : Nat, trunc (m : K) = m)
    (S : Setup K) (grads grads' : Nat → Nat → Grads K) (init : K → K → K → K) (N : Nat) :
    ∃ (s' s : State K), loop 3 SIZE' data' (fun p => build3 sqrt trunc SIZE' (data' p)) S grads'
          (start (fun p => build3 sqrt trunc SIZE' (data' p)) init) N = some s' ∧
      loop 3 SIZE data (fun p => build3 sqrt trunc SIZE (data p)) S grads (start (fun p => build3 sqrt trunc SIZE (data p)) init) N = some s ∧
      s'.time = s.time ∧ s'.iter = s.iter ∧
      ∀ p < SIZE', ∀ q < SIZE, ∀ i j C, (data' p).loctoglob[i]? = some C → (data q).loctoglob[j]? = some (σ C) → s'.cell p i = s.cell q j := by
  have vm' := ren_valid3 r vm
  have hn' : (build3 sqrt trunc 1 serial').nbcells = n := h'.serial_cells.1
  obtain ⟨s', s, e1, e2, m1, m2, m3⟩ := (renum3 h h' vm r sqrt trunc htr).loop (dim := 3) (Or.inr rfl) (by decide) S grads' grads
    (fun _ => serial') (fun _ => serial) init N
  obtain ⟨a', b', f1, f2, k1, k2, k3⟩ := C83_run_3d h' vm' sqrt trunc htr S grads' grads' init N
  obtain ⟨a, b, g1, g2, l1, l2, l3⟩ := C83_run_3d h vm sqrt trunc htr S grads grads init N
  rw [e1] at f2; cases f2
  rw [e2] at g2; cases g2
  refine ⟨a', a, f1, g1, by rw [k1, l1, m2], by rw [k2, l2, m3], fun p hp q hq i j C hi hj => ?_⟩
  have hC : C < n := (((h'.cells hp).1.2 C).mp (List.mem_of_getElem? hi)).1
  rw [k3 p hp i C hi, l3 q hq j (σ C) hj, m1 C (by rw [hn']; exact hC)]

end

/-! ### the strip of four triangles and the chain of three tetrahedra, numbered backwards -/

def backStrip (c j : Nat) : Nat := 5 - exStrip (3 - c) j
def backNode (k : Nat) : ℚ × ℚ × ℚ × Nat := stripNode (5 - k)

theorem backStrip_ren : Renumbered 3 exStrip stripNode backStrip backNode 6 4 (fun c => 3 - c) (fun k => 5 - k) := by
  refine ⟨by decide, by decide, by decide, by decide, by decide, by decide, fun _ _ => rfl⟩

/-- The hypotheses of `C124_order1_2d` are met: the strip numbered backwards is another numbering of the strip. -/
example (S : Setup ℚ) (g1 g2 : Nat → Nat → Grads ℚ) (init : ℚ → ℚ → ℚ → ℚ) (N : Nat) :=
  C124_order1_2d stripValid backStrip_ren (C25_round_trip_serial (K := ℚ) _ _) (C25_round_trip_serial (K := ℚ) _ _) (fun x => x) Rat.floor floor_nat
    S g1 g2 init N

/-- The backward strip shared between three processes. -/
def backPart (c : Nat) : Nat := c % 3
def backNodePart (k : Nat) : Nat := if k < 3 then k else 0
def backData (p : Nat) : RankData ℚ :=
  expected 3 p (rankWrite backStrip backNode (centvol2 backNode backStrip) (partition backStrip backNodePart backPart 6 4 3)
    (halos (partition backStrip backNodePart backPart 6 4 3).cpart (partition backStrip backNodePart backPart 6 4 3).haloCell 3) 6 3 3 p)

theorem backLaunched : Launched 3 backStrip backNode (centvol2 backNode backStrip) backNodePart backPart 6 4 3 backData
    (expected 1 0 (serialWrite backStrip backNode 6 4 3)) := by
  refine ⟨by decide, by decide, by decide +kernel, by decide +kernel, by decide +kernel, by decide +kernel, ?_, ?_⟩
  · intro p hp; exact C25_round_trip_parallel (K := ℚ) 3 p (by decide) _
  · exact C25_round_trip_serial (K := ℚ) _ _

/-- The hypotheses of `C124_order1_parallel_2d` are met: the strip on two processes, and numbered backwards on three. -/
example (S : Setup ℚ) (g1 g2 : Nat → Nat → Grads ℚ) (init : ℚ → ℚ → ℚ → ℚ) (N : Nat) :=
  C124_order1_parallel_2d stripLaunched backLaunched stripValid backStrip_ren (fun x => x) Rat.floor floor_nat S g1 g2 init N

def backChain (c j : Nat) : Nat := 5 - chainCell (2 - c) j
def backChainNode (k : Nat) : ℚ × ℚ × ℚ × Nat := chainNode (5 - k)

theorem backChain_ren : Renumbered 4 chainCell chainNode backChain backChainNode 6 3 (fun c => 2 - c) (fun k => 5 - k) := by
  refine ⟨by decide, by decide, by decide, by decide, by decide, by decide, fun _ _ => rfl⟩

/-- The hypotheses of `C124_order1_3d` are met. -/
example (S : Setup ℚ) (g1 g2 : Nat → Nat → Grads ℚ) (init : ℚ → ℚ → ℚ → ℚ) (N : Nat) :=
  C124_order1_3d chainValid backChain_ren (C25_round_trip_serial (K := ℚ) _ _) (C25_round_trip_serial (K := ℚ) _ _) (fun x => x) Rat.floor floor_nat
    S g1 g2 init N

/-- The hypotheses of `C124_order1_parallel_3d` are met: the chain and the same mesh in the same numbering (identity) on the same processes;
any other partition would do. -/
example (S : Setup ℚ) (g1 g2 : Nat → Nat → Grads ℚ) (init : ℚ → ℚ → ℚ → ℚ) (N : Nat) :=
  C124_order1_parallel_3d (σ := id) (g := id) chainLaunched chainLaunched chainValid
    ⟨by decide, by decide, by decide, by decide, by decide, by decide, fun _ _ => rfl⟩ (fun x => x) Rat.floor floor_nat S g1 g2 init N

end Verif.Props.Par
