import Verif.Props.MovedMesh

/-! Helper lemmas for C129: an iteration of the order-1 driver in other coordinates. -/
set_option linter.unusedSectionVars false
set_option linter.unusedVariables false
set_option linter.unusedSimpArgs false
namespace Verif.Props.Par
open Verif.Fvm Verif.Spec Verif.Conn Verif.Dom Verif.Geo Verif.Names Verif.MeshFile Verif.Part Verif.Comm Verif.Run
variable {K : Type*} [Field K] [LinearOrder K] [IsStrictOrderedRing K]

section
variable {M : Motion K} {dim : Nat} {G L : Tables K} {B : List Int}

/-- Three components. -/
def vec3 (a b c : K) : Nat → K
  | 0 => a
  | 1 => b
  | _ => c

theorem faceUnit_pos (hM : M.Proper dim) : 0 < faceUnit M dim := pow_pos hM.pos _

theorem Consistent.left_lt {D : Tables K} {d1 : Nat} (c : Consistent D d1 B) {f : Nat} (hf : f < D.nbfaces) : idx (D.cellid f 0) < D.nbcells := by
  obtain ⟨a, ha, e, _⟩ := users_first (c.users_ne hf)
  rw [c.cell0 f hf, e]; simpa [idx] using ha

theorem Consistent.right_lt {D : Tables K} {d1 : Nat} (c : Consistent D d1 B) {f : Nat} (hf : f < D.nbfaces) (hn : D.name f = 0) :
    idx (D.cellid f 1) < D.nbcells := by
  obtain ⟨a, ha, e, _⟩ := users_second (c.name0 f hf hn)
  rw [c.cell1 f hf hn, e]; simpa [idx] using ha

theorem placed_turn (M : Motion K) (p q : Nat → K) (k : Nat) : M.place p k - M.place q k = M.scale * M.turn (fun i => p i - q i) k := by
  simp only [Motion.place, Motion.turn]; ring

/-- The scalar product of a gradient in the new coordinates and a displacement in the new coordinates. -/
theorem moved_sum (hM : M.Proper dim) (hd : dim = 2 ∨ dim = 3) {g g' r r' : Nat → K} (hg : ∀ k < 3, g' k = M.scale⁻¹ * M.turn g k)
    (hr : ∀ k < 3, r' k = M.scale * M.turn r k) : ∑ k ∈ Finset.range dim, g' k * r' k = ∑ k ∈ Finset.range dim, g k * r k := by
  have hs := hM.pos.ne'
  have e : ∀ k < 3, g' k * r' k = M.turn g k * M.turn r k := by
    intro k hk
    rw [hg k hk, hr k hk]
    field_simp
  rcases hd with rfl | rfl
  · obtain ⟨p1, p2, p3, f1, f2, f3, f4, f5, f6⟩ := Motion.plane hM
    rw [Finset.sum_range_succ, Finset.sum_range_succ, Finset.sum_range_zero, Finset.sum_range_succ, Finset.sum_range_succ, Finset.sum_range_zero,
      e 0 (by omega), e 1 (by omega)]
    simp only [Motion.turn, p1, p2, f1, f2]
    linear_combination (g 0 * r 0 + g 1 * r 1) * p3
  · rw [Finset.sum_range_succ, Finset.sum_range_succ, Finset.sum_range_succ, Finset.sum_range_zero, Finset.sum_range_succ, Finset.sum_range_succ,
      Finset.sum_range_succ, Finset.sum_range_zero, e 0 (by omega), e 1 (by omega), e 2 (by omega), zero_add, zero_add]
    exact Motion.turn_dot hM g r

/-- The arrays read by the convective scheme, in the two systems of coordinates. -/
structure FieldsMoved (M : Motion K) (G : Tables K) (FL FG : Fields K) : Prop where
  w : ∀ c < G.nbcells, FL.w c = FG.w c
  psi : ∀ c < G.nbcells, FL.psi c = FG.psi c
  grad : ∀ c < G.nbcells, ∀ k < 3, vec3 (FL.wx c) (FL.wy c) (FL.wz c) k =
    M.scale⁻¹ * M.turn (vec3 (FG.wx c) (FG.wy c) (FG.wz c)) k
  ghost : ∀ f ∈ G.boundaryfaces, FL.ghost f = FG.ghost f
  vel : ∀ f < G.nbfaces, ∀ k < 3, vec3 (FL.u_face f) (FL.v_face f) (FL.w_face f) k =
    M.scale * M.turn (vec3 (FG.u_face f) (FG.v_face f) (FG.w_face f)) k

theorem upwind_scale {r : K} (hr : 0 ≤ r) (v a b : K) : upwind (r * v) a b = r * upwind v a b := by
  unfold upwind
  rw [show max (r * v) 0 = r * max v 0 by rw [mul_max_of_nonneg _ _ hr, mul_zero],
    show min (r * v) 0 = r * min v 0 by rw [mul_min_of_nonneg _ _ hr, mul_zero]]
  ring

theorem MovedT.vn (t : MovedT M dim G L) (hM : M.Proper dim) {FL FG : Fields K} (hF : FieldsMoved M G FL FG) (o : Int) {f : Nat} (hf : f < G.nbfaces) :
    Spec.vn (convArgs L FL o) f = M.scale * faceUnit M dim * Spec.vn (convArgs G FG o) f := by
  have n0 := t.normal f hf
  have v0 : FL.u_face f = M.scale * M.turn (vec3 (FG.u_face f) (FG.v_face f) (FG.w_face f)) 0 := hF.vel f hf 0 (by omega)
  have v1 : FL.v_face f = M.scale * M.turn (vec3 (FG.u_face f) (FG.v_face f) (FG.w_face f)) 1 := hF.vel f hf 1 (by omega)
  have v2 : FL.w_face f = M.scale * M.turn (vec3 (FG.u_face f) (FG.v_face f) (FG.w_face f)) 2 := hF.vel f hf 2 (by omega)
  show FL.u_face f * L.normal f 0 + FL.v_face f * L.normal f 1 + FL.w_face f * L.normal f 2 =
    M.scale * faceUnit M dim * (FG.u_face f * G.normal f 0 + FG.v_face f * G.normal f 1 + FG.w_face f * G.normal f 2)
  have td := Motion.turn_dot hM (vec3 (FG.u_face f) (FG.v_face f) (FG.w_face f)) (G.normal f)
  simp only [vec3] at td
  rw [n0 0 (by omega), n0 1 (by omega), n0 2 (by omega), v0, v1, v2]
  linear_combination M.scale * faceUnit M dim * td

theorem MovedT.atFace (t : MovedT M dim G L) (hM : M.Proper dim) (hd : dim = 2 ∨ dim = 3) {FL FG : Fields K} (hF : FieldsMoved M G FL FG) (o : Int)
    {c f : Nat} (hc : c < G.nbcells) (hf : f < G.nbfaces) :
    cellAtFace (convArgs L FL o) dim c f = cellAtFace (convArgs G FG o) dim c f := by
  unfold cellAtFace extrap
  rw [show (convArgs L FL o).w_c c = (convArgs G FG o).w_c c from hF.w c hc, show (convArgs L FL o).psi c = (convArgs G FG o).psi c from hF.psi c hc]
  congr 2
  apply moved_sum hM hd
  · intro k hk
    have := hF.grad c hc k hk
    interval_cases k
    · exact this
    · exact this
    · exact this
  · intro k hk
    show L.fcenter f k - L.center c k = _
    rw [t.fcenter f hf k hk, t.center c hc k hk, placed_turn]
    rfl

theorem sumAt_scale (r : K) (l : List Nat) (s : Nat → Nat) (F F' : Nat → K) (c : Nat) (h : ∀ f ∈ l, F' f = r * F f) :
    sumAt l s F' c = r * sumAt l s F c := by
  unfold sumAt
  rw [← List.sum_map_mul_left]
  congr 1
  apply List.map_congr_left
  intro f hf
  exact h f (List.mem_filter.mp hf).1

theorem MovedT.balance (t : MovedT M dim G L) (hM : M.Proper dim) (hd : dim = 2 ∨ dim = 3) (cG : Consistent G (dim + 1) B) (hh : G.halofaces = [])
    {FL FG : Fields K} (hF : FieldsMoved M G FL FG) (o : Int) (c : Nat) :
    balance (convArgs L FL o) dim c = M.scale * faceUnit M dim * balance (convArgs G FG o) dim c := by
  have hr : 0 ≤ M.scale * faceUnit M dim := (mul_pos hM.pos (faceUnit_pos hM)).le
  have el : Spec.left (convArgs L FL o) = Spec.left (convArgs G FG o) := by
    funext f; show (L.cellid f 0).toNat = (G.cellid f 0).toNat; rw [t.cellid]
  have er : Spec.right (convArgs L FL o) = Spec.right (convArgs G FG o) := by
    funext f; show (L.cellid f 1).toNat = (G.cellid f 1).toNat; rw [t.cellid]
  have hi : ∀ f ∈ G.innerfaces, innerFlux (convArgs L FL o) dim f = M.scale * faceUnit M dim * innerFlux (convArgs G FG o) dim f := by
    intro f hf
    obtain ⟨h1, h2⟩ := (cG.inner.2 f).mp hf
    have l1 : Spec.left (convArgs G FG o) f < G.nbcells := cG.left_lt h1
    have l2 : Spec.right (convArgs G FG o) f < G.nbcells := cG.right_lt h1 h2
    unfold innerFlux
    rw [el, er, t.vn hM hF o h1, t.atFace hM hd hF o l1 h1, t.atFace hM hd hF o l2 h1, upwind_scale hr]
  have hb : ∀ f ∈ G.boundaryfaces, boundaryFlux (convArgs L FL o) dim f = M.scale * faceUnit M dim * boundaryFlux (convArgs G FG o) dim f := by
    intro f hf
    obtain ⟨h1, h2⟩ := (cG.bnd.2 f).mp hf
    have l1 : Spec.left (convArgs G FG o) f < G.nbcells := cG.left_lt h1
    unfold boundaryFlux
    rw [el, t.vn hM hF o h1, t.atFace hM hd hF o l1 h1, show (convArgs L FL o).w_ghost f = (convArgs G FG o).w_ghost f from hF.ghost f hf, upwind_scale hr]
  unfold Spec.balance
  rw [el, er, show (convArgs L FL o).innerfaces = G.innerfaces from t.inner, show (convArgs L FL o).boundaryfaces = G.boundaryfaces from t.bnd,
    show (convArgs L FL o).halofaces = [] from t.halof.trans hh, show (convArgs L FL o).periodicboundaryfaces = [] from t.per.trans cG.per,
    show (convArgs G FG o).innerfaces = G.innerfaces from rfl, show (convArgs G FG o).boundaryfaces = G.boundaryfaces from rfl,
    show (convArgs G FG o).halofaces = [] from hh, show (convArgs G FG o).periodicboundaryfaces = [] from cG.per,
    sumAt_scale _ _ _ _ _ _ hi, sumAt_scale _ _ _ _ _ _ hi, sumAt_scale _ _ _ _ _ _ hb]
  simp only [sumAt, List.filter_nil, List.map_nil, List.sum_nil]
  ring

theorem MovedT.consistent (t : MovedT M dim G L) (c : Consistent G (dim + 1) B) : Consistent L (dim + 1) B := by
  obtain ⟨a1, a2, a3, a4, a5, a6, a7, a8, a9, a10, a11, a12⟩ := c
  exact ⟨by rw [t.nbcells, t.faceid]; exact a1, by rw [t.nbcells, t.faceid, t.nbfaces]; exact a2, by rw [t.nbcells, t.faceid, t.nbfaces]; exact a3,
    by rw [t.nbcells, t.faceid, t.nbfaces, t.cellid]; exact a4, by rw [t.nbcells, t.faceid, t.nbfaces, t.cellid, t.name]; exact a5,
    by rw [t.inner, t.nbfaces, t.name]; exact a6, by rw [t.halof, t.nbfaces, t.name]; exact a7, by rw [t.bnd, t.nbfaces, t.name]; exact a8,
    by rw [t.per]; exact a9, a10, a11, by rw [t.nbcells, t.faceid, t.nbfaces, t.name]; exact a12⟩

theorem MovedT.conv (t : MovedT M dim G L) (hM : M.Proper dim) (hd : dim = 2 ∨ dim = 3) (cG : Consistent G (dim + 1) B) (hh : G.halofaces = [])
    {FL FG : Fields K} (hF : FieldsMoved M G FL FG) (o : Int) (c : Nat) :
    Run.conv dim (convArgs L FL o) c = M.scale * faceUnit M dim * Run.conv dim (convArgs G FG o) c := by
  rw [conv_balance (t.consistent cG) _ _ hd, conv_balance cG _ _ hd, t.balance hM hd cG hh hF]

/-! ### ghosts and time step -/
variable {S S' : Setup K}

theorem MovedT.atCentre (t : MovedT M dim G L) {f f' : K → K → K → K} (hf : SameField M f f') {i : Nat} (hi : i < G.nbfaces) :
    f' (L.fcenter i 0) (L.fcenter i 1) (L.fcenter i 2) = f (G.fcenter i 0) (G.fcenter i 1) (G.fcenter i 2) := by
  rw [t.fcenter i hi 0 (by omega), t.fcenter i hi 1 (by omega), t.fcenter i hi 2 (by omega)]
  exact hf (G.fcenter i)

theorem MovedT.ghostVal (t : MovedT M dim G L) {B : List Int} (c : Consistent G (dim + 1) B) {w w' : Nat → K} (hw : ∀ c < G.nbcells, w' c = w c)
    {b b' : BCond K} (hb : SameBC M b b') {f : Nat} (hf : f < G.nbfaces) : ghostVal L w' f b' = ghostVal G w f b := by
  cases hb with
  | neumann => simp only [Par.ghostVal]; rw [t.cellid]; exact hw _ (c.left_lt hf)
  | nonslip => simp only [Par.ghostVal]; rw [t.cellid, hw _ (c.left_lt hf)]
  | dirichlet h => simp only [Par.ghostVal]; exact t.atCentre h hf

theorem MovedT.ghost (t : MovedT M dim G L) {B : List Int} (c : Consistent G (dim + 1) B) (hB : ∀ b ∈ B, b ∈ locNames dim) {w w' : Nat → K}
    (hw : ∀ c < G.nbcells, w' c = w c) {bc bc' : Int → BCond K} (hb : ∀ loc, SameBC M (bc loc) (bc' loc)) (g g' : Nat → K) {f : Nat}
    (hf : f ∈ G.boundaryfaces) : updateGhosts dim L w' bc' g' f = updateGhosts dim G w bc g f := by
  obtain ⟨h1, h2⟩ := (c.bnd.2 f).mp hf
  rw [updateGhosts_apply _ _ _ _ _ (by rw [t.nbfaces]; exact h1) (by rw [t.name]; exact hB _ h2), updateGhosts_apply _ _ _ _ _ h1 (hB _ h2), t.name]
  exact t.ghostVal c hw (hb _) h1

theorem MovedT.vel (t : MovedT M dim G L) (hS : SameProblem M S S') (it : Nat) {f : Nat} (hf : f < G.nbfaces) : ∀ k < 3,
    vec3 (atFaces L (S'.u it) f) (atFaces L (S'.v it) f) (atFaces L (S'.w it) f) k =
    M.scale * M.turn (vec3 (atFaces G (S.u it) f) (atFaces G (S.v it) f) (atFaces G (S.w it) f)) k := by
  intro k hk
  have h := hS.vel it (G.fcenter f) k hk
  have c0 := t.fcenter f hf 0 (by omega)
  have c1 := t.fcenter f hf 1 (by omega)
  have c2 := t.fcenter f hf 2 (by omega)
  interval_cases k <;>
  · simp only [velocity, Motion.turn, vec3] at h
    rw [← c0, ← c1, ← c2] at h
    simp only [Motion.turn, vec3]
    exact h

theorem foldl_turn (M : Motion K) (s : K) {l : List Nat} {x0 x1 x2 y : Nat → K} {k : Nat}
    (h : ∀ f ∈ l, y f = s * (M.rot k 0 * x0 f + M.rot k 1 * x1 f + M.rot k 2 * x2 f)) (a0 a1 a2 b : K)
    (hb : b = s * (M.rot k 0 * a0 + M.rot k 1 * a1 + M.rot k 2 * a2)) :
    l.foldl (fun s f => s + y f) b = s * (M.rot k 0 * l.foldl (fun s f => s + x0 f) a0 + M.rot k 1 * l.foldl (fun s f => s + x1 f) a1 +
      M.rot k 2 * l.foldl (fun s f => s + x2 f) a2) := by
  induction l generalizing a0 a1 a2 b with
  | nil => exact hb
  | cons f l ih =>
    simp only [List.foldl_cons]
    apply ih (fun f hf => h f (List.mem_cons_of_mem _ hf))
    rw [hb, h f List.mem_cons_self]; ring

/-- The cell velocities in the new coordinates. -/
theorem MovedT.cellVel (t : MovedT M dim G L) (c : Consistent G (dim + 1) B) (hS : SameProblem M S S') (it : Nat) {i : Nat} (hi : i < G.nbcells) : ∀ k < 3,
    vec3 (toCells dim L (atFaces L (S'.u it)) i) (toCells dim L (atFaces L (S'.v it)) i) (toCells dim L (atFaces L (S'.w it)) i) k =
    M.scale * M.turn (vec3 (toCells dim G (atFaces G (S.u it)) i) (toCells dim G (atFaces G (S.v it)) i) (toCells dim G (atFaces G (S.w it)) i)) k := by
  have key : ∀ k < 3, ∀ y : Nat → K, (∀ f < G.nbfaces, y f = M.scale * (M.rot k 0 * atFaces G (S.u it) f + M.rot k 1 * atFaces G (S.v it) f +
      M.rot k 2 * atFaces G (S.w it) f)) → toCells dim L y i = M.scale * (M.rot k 0 * toCells dim G (atFaces G (S.u it)) i +
        M.rot k 1 * toCells dim G (atFaces G (S.v it)) i + M.rot k 2 * toCells dim G (atFaces G (S.w it)) i) := by
    intro k hk y hy
    unfold toCells Interp.facetocell
    rw [t.faceid, foldl_turn M M.scale (x0 := atFaces G (S.u it)) (x1 := atFaces G (S.v it)) (x2 := atFaces G (S.w it)) (k := k) ?_ 0 0 0 0 (by ring)]
    · ring
    · intro f hf
      obtain ⟨j, hj, rfl⟩ := List.mem_map.mp hf
      exact hy _ (c.flt i hi j (List.mem_range.mp hj))
  intro k hk
  have hv := fun f (hf : f < G.nbfaces) => t.vel hS it hf k hk
  interval_cases k
  · exact key 0 (by omega) _ hv
  · exact key 1 (by omega) _ hv
  · exact key 2 (by omega) _ hv

theorem foldl_scale (r : K) (l : List Nat) (F F' : K → Nat → K) (h : ∀ j ∈ l, ∀ s, F' (r * s) j = r * F s j) (a : K) :
    l.foldl F' (r * a) = r * l.foldl F a := by
  induction l generalizing a with
  | nil => rfl
  | cons j l ih =>
    rw [List.foldl_cons, List.foldl_cons, h j List.mem_cons_self, ih (fun j hj => h j (List.mem_cons_of_mem _ hj))]

theorem MovedT.cellLam (t : MovedT M dim G L) (hM : M.Proper dim) (c : Consistent G (dim + 1) B) {u v w u' v' w' : Nat → K} {Dx Dy Dz Dx' Dy' Dz' : K}
    {i : Nat} (hi : i < G.nbcells) (h0 : u' i = M.scale * M.turn (vec3 (u i) (v i) (w i)) 0)
    (h1 : v' i = M.scale * M.turn (vec3 (u i) (v i) (w i)) 1)
    (h2 : w' i = M.scale * M.turn (vec3 (u i) (v i) (w i)) 2)
    (hD : Dx' + Dy' + Dz' = M.scale ^ 2 * (Dx + Dy + Dz)) :
    Fvm.cellLam u' v' w' L.normal L.mesure L.volume L.faceid dim Dx' Dy' Dz' i =
      M.scale * faceUnit M dim * Fvm.cellLam u v w G.normal G.mesure G.volume G.faceid dim Dx Dy Dz i := by
  have hs := hM.pos
  have hρ := faceUnit_pos hM
  have hr : 0 < M.scale * faceUnit M dim := mul_pos hs hρ
  unfold Fvm.cellLam
  rw [← foldl_scale (M.scale * faceUnit M dim) _ _ _ ?_ 0, mul_zero]
  intro j hj s
  have hf := c.flt i hi j (List.mem_range.mp hj)
  rw [t.faceid]
  dsimp only
  rw [t.normal _ hf 0 (by omega), t.normal _ hf 1 (by omega), t.normal _ hf 2 (by omega), t.mesure _ hf, t.volume i hi, h0, h1, h2]
  obtain ⟨N, hN⟩ : ∃ N, N = G.normal (G.faceid i j) := ⟨_, rfl⟩
  obtain ⟨V, hV⟩ : ∃ V : Nat → K, V = vec3 (u i) (v i) (w i) := ⟨_, rfl⟩
  have eu : u i = V 0 := by rw [hV]; rfl
  have ev : v i = V 1 := by rw [hV]; rfl
  have ew : w i = V 2 := by rw [hV]; rfl
  rw [← hN, ← hV, eu, ev, ew]
  obtain ⟨ρ, eρ⟩ : ∃ ρ, ρ = faceUnit M dim := ⟨_, rfl⟩
  rw [← eρ] at hρ hr ⊢
  have td := Motion.turn_dot hM V N
  have tn := Motion.turn_dot hM N N
  have e1 : M.scale * M.turn V 0 * (ρ * M.turn N 0) + M.scale * M.turn V 1 * (ρ * M.turn N 1) + M.scale * M.turn V 2 * (ρ * M.turn N 2) =
      M.scale * ρ * (V 0 * N 0 + V 1 * N 1 + V 2 * N 2) := by linear_combination M.scale * ρ * td
  have e2 : ρ * M.turn N 0 * (ρ * M.turn N 0) + ρ * M.turn N 1 * (ρ * M.turn N 1) + ρ * M.turn N 2 * (ρ * M.turn N 2) =
      ρ ^ 2 * (N 0 * N 0 + N 1 * N 1 + N 2 * N 2) := by linear_combination ρ ^ 2 * tn
  rw [e1, e2, abs_mul, abs_of_pos hr]
  obtain ⟨a, ea⟩ : ∃ a, a = |V 0 * N 0 + V 1 * N 1 + V 2 * N 2| := ⟨_, rfl⟩
  obtain ⟨b, eb⟩ : ∃ b, b = N 0 * N 0 + N 1 * N 1 + N 2 * N 2 := ⟨_, rfl⟩
  rw [← ea, ← eb]
  have e3 : Dx' * (ρ ^ 2 * b) + Dy' * (ρ ^ 2 * b) + Dz' * (ρ ^ 2 * b) = (M.scale * ρ) ^ 2 * (Dx * b + Dy * b + Dz * b) := by
    linear_combination ρ ^ 2 * b * hD
  rw [e3]
  have e4 : M.scale * ρ * a / (ρ * G.mesure (G.faceid i j)) * (ρ * G.mesure (G.faceid i j)) =
      M.scale * ρ * (a / G.mesure (G.faceid i j) * G.mesure (G.faceid i j)) := by
    by_cases hm : G.mesure (G.faceid i j) = 0
    · rw [hm]; simp
    · field_simp
  have e5 : (M.scale * ρ) ^ 2 * (Dx * b + Dy * b + Dz * b) / (M.scale * ρ * G.volume i) =
      M.scale * ρ * ((Dx * b + Dy * b + Dz * b) / G.volume i) := by
    by_cases hv : G.volume i = 0
    · rw [hv]; simp
    · field_simp
  rw [e4, e5]
  ring

theorem MovedT.dt (t : MovedT M dim G L) (hM : M.Proper dim) (c : Consistent G (dim + 1) B) (hS : SameProblem M S S')
    (hD : S'.Dxx + S'.Dyy + S'.Dzz = M.scale ^ 2 * (S.Dxx + S.Dyy + S.Dzz)) (it : Nat) :
    localStep dim S' L it = localStep dim S G it := by
  have hr : M.scale * faceUnit M dim ≠ 0 := (mul_pos hM.pos (faceUnit_pos hM)).ne'
  have e : ∀ i < G.nbcells, S'.cfl * L.volume i / Fvm.cellLam (toCells dim L (atFaces L (S'.u it))) (toCells dim L (atFaces L (S'.v it)))
      (toCells dim L (atFaces L (S'.w it))) L.normal L.mesure L.volume L.faceid dim S'.Dxx S'.Dyy S'.Dzz i =
      S.cfl * G.volume i / Fvm.cellLam (toCells dim G (atFaces G (S.u it))) (toCells dim G (atFaces G (S.v it)))
      (toCells dim G (atFaces G (S.w it))) G.normal G.mesure G.volume G.faceid dim S.Dxx S.Dyy S.Dzz i := by
    intro i hi
    rw [t.cellLam hM c hi (t.cellVel c hS it hi 0 (by omega)) (t.cellVel c hS it hi 1 (by omega)) (t.cellVel c hS it hi 2 (by omega)) hD, hS.cfl,
      t.volume i hi, ← mul_assoc, mul_comm S.cfl, mul_assoc, mul_div_mul_left _ _ hr]
  have key : ∀ x, x ≤ localStep dim S' L it ↔ x ≤ localStep dim S G it := by
    intro x
    rw [le_localStep, le_localStep, t.nbcells]
    constructor
    · rintro ⟨h0, h1⟩; exact ⟨h0, fun i hi => (e i hi) ▸ h1 i hi⟩
    · rintro ⟨h0, h1⟩; exact ⟨h0, fun i hi => by rw [e i hi]; exact h1 i hi⟩
  exact le_antisymm ((key _).mp le_rfl) ((key _).mpr le_rfl)

/-- The new value of a cell. -/
theorem moved_update {s ρ w w' r r' d d' dt V V' : K} (h : s * ρ ≠ 0) (hw : w' = w) (hr : r' = s * ρ * r) (hd : d' = s * ρ * d) (hV : V' = s * ρ * V) :
    w' + dt * ((r' + d') / V' + 0) = w + dt * ((r + d) / V + 0) := by
  rw [hw, hr, hd, hV, ← mul_add, mul_div_mul_left _ _ h]

/-! ### the order-1 driver -/

set_option maxHeartbeats 1000000 in
theorem MovedT.step (t : MovedT M dim G L) (hM : M.Proper dim) (hd : dim = 2 ∨ dim = 3) (c : Consistent G (dim + 1) B) (hh : G.halofaces = [])
    (hB : ∀ b ∈ B, b ∈ locNames dim) (hS : SameProblem M S S') (hD : S'.Dxx + S'.Dyy + S'.Dzz = M.scale ^ 2 * (S.Dxx + S.Dyy + S.Dzz))
    (gs gt : Nat → Grads K) (dl dg : Nat → RankData K) (s u : State K) (hc : ∀ c < G.nbcells, s.cell 0 c = u.cell 0 c) (ht : s.time = u.time)
    (hi : s.iter = u.iter) :
    ∃ (s' u' : State K), Run.step dim 1 dl (fun _ => L) S' gs s = some s' ∧ Run.step dim 1 dg (fun _ => G) S gt u = some u' ∧
      (∀ c < G.nbcells, s'.cell 0 c = u'.cell 0 c) ∧ s'.time = u'.time ∧ s'.iter = u'.iter := by
  have ar : ∀ x : K, allreduceMin 1 (fun _ => x) = x := fun x => by unfold allreduceMin; simp
  refine ⟨stepWith dim 1 (fun _ => L) S' gs s [[]], stepWith dim 1 (fun _ => G) S gt u [[]], ?_, ?_, ?_, ?_, ?_⟩
  · unfold Run.step
    have : (List.range 1).mapM (exchange 1 dl s.cell) = some [[]] := by simp [exchange]
    rw [this]; rfl
  · unfold Run.step
    have : (List.range 1).mapM (exchange 1 dg u.cell) = some [[]] := by simp [exchange]
    rw [this]; rfl
  · intro i hi'
    unfold stepWith updateNewValue
    dsimp only
    rw [ar, ar, hi, t.dt hM c hS hD]
    refine moved_update (mul_pos hM.pos (faceUnit_pos hM)).ne' (hc i hi') ?_ (by rw [mul_zero]) (t.volume i hi')
    rw [conv_balance (t.consistent c) _ _ hd, conv_balance c _ _ hd, balance_order1, balance_order1 G]
    refine t.balance hM hd c hh ?_ 1 i
    refine ⟨hc, fun _ _ => rfl, ?_, ?_, fun f hf k hk => ?_⟩
    · intro c hc k hk
      interval_cases k <;> simp [noGrads, Motion.turn, vec3]
    · intro f hf
      exact t.ghost c hB hc hS.bc _ _ hf
    · exact t.vel hS u.iter hf k hk
  · show s.time + _ = u.time + _
    rw [ar, ar, hi, t.dt hM c hS hD, ht]
  · show s.iter + 1 = u.iter + 1
    rw [hi]

theorem MovedT.loop (t : MovedT M dim G L) (hM : M.Proper dim) (hd : dim = 2 ∨ dim = 3) (c : Consistent G (dim + 1) B) (hh : G.halofaces = [])
    (hB : ∀ b ∈ B, b ∈ locNames dim) (hS : SameProblem M S S') (hD : S'.Dxx + S'.Dyy + S'.Dzz = M.scale ^ 2 * (S.Dxx + S.Dyy + S.Dzz))
    (gs gt : Nat → Nat → Grads K) (dl dg : Nat → RankData K) {f f' : K → K → K → K} (hf : SameField M f f') (N : Nat) :
    ∃ (s' u' : State K), Run.loop dim 1 dl (fun _ => L) S' gs (start (fun _ => L) f') N = some s' ∧
      Run.loop dim 1 dg (fun _ => G) S gt (start (fun _ => G) f) N = some u' ∧
      (∀ c < G.nbcells, s'.cell 0 c = u'.cell 0 c) ∧ s'.time = u'.time ∧ s'.iter = u'.iter := by
  induction N with
  | zero =>
    refine ⟨_, _, rfl, rfl, fun i hi => ?_, rfl, rfl⟩
    show f' (L.center i 0) (L.center i 1) (L.center i 2) = f (G.center i 0) (G.center i 1) (G.center i 2)
    rw [t.center i hi 0 (by omega), t.center i hi 1 (by omega), t.center i hi 2 (by omega)]
    exact hf (G.center i)
  | succ N ih =>
    obtain ⟨s1, t1, e1, e2, m1, m2, m3⟩ := ih
    simp only [Run.loop, e1, e2, Option.bind_some]
    rw [m2, hS.tfinal]
    by_cases ht : t1.time < S.tfinal
    · simp only [if_pos ht]; exact t.step hM hd c hh hB hS hD _ _ dl dg s1 t1 m1 m2 m3
    · simp only [if_neg ht]; exact ⟨s1, t1, rfl, rfl, m1, m2, m3⟩

end
end Verif.Props.Par
