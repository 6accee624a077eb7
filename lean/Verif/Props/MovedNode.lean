import Verif.Props.MovedKern
import Verif.Props.MovedRun
import Verif.Props.RenumVar

/-! Helper lemmas for C129: node values, gradients, limiter and dissipation in other coordinates. -/
set_option linter.unusedSectionVars false
set_option linter.unusedVariables false
set_option linter.unusedSimpArgs false
namespace Verif.Props.Par
open Verif.Fvm Verif.Spec Verif.Conn Verif.Dom Verif.Geo Verif.Names Verif.MeshFile Verif.Part Verif.Comm Verif.Run Verif.HaloGhost Verif.Interp
variable {K : Type*} [Field K] [LinearOrder K] [IsStrictOrderedRing K]
variable {M : Motion K} {dim : Nat}

/-- A point with its value, in the new coordinates. -/
def movPt (M : Motion K) (dim : Nat) (e : Vec K × K) : Vec K × K := cut dim (M.place e.1, e.2)

theorem place_cut_eq (hM : M.Proper dim) (hd : dim = 2 ∨ dim = 3) (p : Vec K) (x : K) {k : Nat} (hk : k < dim) :
    M.place (cut dim (p, x)).1 k = M.place p k := by
  rcases hd with rfl | rfl
  · obtain ⟨p1, p2, p3, f1, f2, f3, f4, f5, f6⟩ := Motion.plane hM
    interval_cases k <;> simp [cut, Motion.place, Motion.turn, f1, f2]
  · interval_cases k <;> simp [cut, Motion.place, Motion.turn]

theorem movPt_cut (hM : M.Proper dim) (hd : dim = 2 ∨ dim = 3) {p p' : Vec K} {x x' : K} (hp : ∀ k < dim, p' k = M.place p k) (hx : x' = x) :
    cut dim (p', x') = movPt M dim (cut dim (p, x)) := by
  subst hx
  refine cut_eq (fun k hk => ?_) rfl
  rw [place_cut_eq hM hd p _ hk, hp k hk]

theorem gradPts2_moved (hM : M.Proper 2) (a b l r : Vec K × K) {k : Nat} (hk : k < 3) :
    gradPts2 (movPt M 2 a) (movPt M 2 b) (movPt M 2 l) (movPt M 2 r) k = M.scale⁻¹ * M.turn (gradPts2 a b l r) k := by
  obtain ⟨p1, p2, p3, f1, f2, f3, f4, f5, f6⟩ := Motion.plane hM
  have hs := hM.pos.ne'
  obtain ⟨air, eair⟩ : ∃ x, x = (b.1 0 - a.1 0) * (r.1 1 - l.1 1) + (l.1 0 - r.1 0) * (b.1 1 - a.1 1) := ⟨_, rfl⟩
  have hair : ((movPt M 2 b).1 0 - (movPt M 2 a).1 0) * ((movPt M 2 r).1 1 - (movPt M 2 l).1 1) +
      ((movPt M 2 l).1 0 - (movPt M 2 r).1 0) * ((movPt M 2 b).1 1 - (movPt M 2 a).1 1) = M.scale ^ 2 * air := by
    rw [eair]
    simp [movPt, cut, Motion.place, Motion.turn, f1, f2, p1, p2]
    linear_combination M.scale ^ 2 * ((b.1 0 - a.1 0) * (r.1 1 - l.1 1) + (l.1 0 - r.1 0) * (b.1 1 - a.1 1)) * p3
  have key : ∀ N n : K, N = M.scale * n → N / (M.scale ^ 2 * air) = M.scale⁻¹ * (n / air) := by
    intro N n h
    rw [h]
    by_cases h0 : air = 0
    · rw [h0]; simp
    · field_simp
  have e0 : gradPts2 a b l r 0 = ((a.2 - b.2) * (l.1 1 - r.1 1) + (l.2 - r.2) * (b.1 1 - a.1 1)) / air := by rw [eair]; rfl
  have e1 : gradPts2 a b l r 1 = - (((a.2 - b.2) * (l.1 0 - r.1 0) + (l.2 - r.2) * (b.1 0 - a.1 0)) / air) := by rw [eair]; rfl
  have e2 : gradPts2 a b l r 2 = 0 := rfl
  have o0 : gradPts2 (movPt M 2 a) (movPt M 2 b) (movPt M 2 l) (movPt M 2 r) 0 =
      ((a.2 - b.2) * ((movPt M 2 l).1 1 - (movPt M 2 r).1 1) + (l.2 - r.2) * ((movPt M 2 b).1 1 - (movPt M 2 a).1 1)) / (M.scale ^ 2 * air) := by
    rw [← hair]; rfl
  have o1 : gradPts2 (movPt M 2 a) (movPt M 2 b) (movPt M 2 l) (movPt M 2 r) 1 =
      - (((a.2 - b.2) * ((movPt M 2 l).1 0 - (movPt M 2 r).1 0) + (l.2 - r.2) * ((movPt M 2 b).1 0 - (movPt M 2 a).1 0)) / (M.scale ^ 2 * air)) := by
    rw [← hair]; rfl
  have o2 : gradPts2 (movPt M 2 a) (movPt M 2 b) (movPt M 2 l) (movPt M 2 r) 2 = 0 := rfl
  have c0 : ∀ e : Vec K × K, (movPt M 2 e).1 0 = M.scale * (M.rot 0 0 * e.1 0 + M.rot 0 1 * e.1 1) + M.shift 0 := by
    intro e; simp [movPt, cut, Motion.place, Motion.turn, f1]
  have c1 : ∀ e : Vec K × K, (movPt M 2 e).1 1 = M.scale * (- M.rot 0 1 * e.1 0 + M.rot 0 0 * e.1 1) + M.shift 1 := by
    intro e; simp [movPt, cut, Motion.place, Motion.turn, f2, p1, p2]
  interval_cases k
  · rw [o0, c1, c1, c1, c1]
    unfold Motion.turn
    rw [e0, e1, e2, key _ (M.rot 0 0 * ((a.2 - b.2) * (l.1 1 - r.1 1) + (l.2 - r.2) * (b.1 1 - a.1 1)) -
      M.rot 0 1 * ((a.2 - b.2) * (l.1 0 - r.1 0) + (l.2 - r.2) * (b.1 0 - a.1 0))) (by ring)]
    ring
  · rw [o1, c0, c0, c0, c0]
    unfold Motion.turn
    rw [e0, e1, e2, p1, p2, key _ (M.rot 0 0 * ((a.2 - b.2) * (l.1 0 - r.1 0) + (l.2 - r.2) * (b.1 0 - a.1 0)) +
      M.rot 0 1 * ((a.2 - b.2) * (l.1 1 - r.1 1) + (l.2 - r.2) * (b.1 1 - a.1 1))) (by ring)]
    ring
  · rw [o2]; unfold Motion.turn; rw [e2, f3, f4]; ring

theorem wedge_congr3 {u u' v v' : Vec K} (hu : ∀ k < 3, u k = u' k) (hv : ∀ k < 3, v k = v' k) : ∀ k < 3, wedge u v k = wedge u' v' k := by
  intro k hk
  interval_cases k <;> simp only [wedge, hu 0 (by omega), hu 1 (by omega), hu 2 (by omega), hv 0 (by omega), hv 1 (by omega), hv 2 (by omega)]

theorem wedge_smul (s t : K) (u v : Vec K) : ∀ k < 3, wedge (fun k => s * u k) (fun k => t * v k) k = s * t * wedge u v k := by
  intro k hk
  interval_cases k <;> simp only [wedge] <;> ring

theorem gradPts3_moved (hM : M.Proper 3) (a b c l r : Vec K × K) {k : Nat} (hk : k < 3) :
    gradPts3 (movPt M 3 a) (movPt M 3 b) (movPt M 3 c) (movPt M 3 l) (movPt M 3 r) k = M.scale⁻¹ * M.turn (gradPts3 a b c l r) k := by
  have hs := hM.pos.ne'
  have c0 : ∀ e e' : Vec K × K, ∀ k < 3, (movPt M 3 e).1 k - (movPt M 3 e').1 k = M.scale * M.turn (fun k => e.1 k - e'.1 k) k := by
    intro e e' k hk
    interval_cases k <;> simp [movPt, cut, Motion.place, Motion.turn] <;> ring
  have hN : ∀ k < 3, wedge (fun k => (movPt M 3 b).1 k - (movPt M 3 a).1 k) (fun k => (movPt M 3 c).1 k - (movPt M 3 a).1 k) k =
      M.scale ^ 2 * M.turn (wedge (fun k => b.1 k - a.1 k) (fun k => c.1 k - a.1 k)) k := by
    intro k hk
    rw [wedge_congr3 (c0 b a) (c0 c a) k hk, wedge_smul _ _ _ _ k hk, Motion.turn_wedge hM _ _ k hk]; ring
  have hW : ∀ k < 3, wedge (fun k => (movPt M 3 r).1 k - (movPt M 3 l).1 k)
      (fun k => ((movPt M 3 c).1 k - (movPt M 3 b).1 k) * (a.2 - c.2) + ((movPt M 3 a).1 k - (movPt M 3 c).1 k) * (b.2 - c.2)) k =
      M.scale ^ 2 * M.turn (wedge (fun k => r.1 k - l.1 k) (fun k => (c.1 k - b.1 k) * (a.2 - c.2) + (a.1 k - c.1 k) * (b.2 - c.2))) k := by
    intro k hk
    rw [wedge_congr3 (c0 r l) (v' := fun k => M.scale * M.turn (fun k => (c.1 k - b.1 k) * (a.2 - c.2) + (a.1 k - c.1 k) * (b.2 - c.2)) k) ?_ k hk,
      wedge_smul _ _ _ _ k hk, Motion.turn_wedge hM _ _ k hk]
    · ring
    · intro k hk
      rw [c0 c b k hk, c0 a c k hk]
      simp only [Motion.turn]; ring
  obtain ⟨N, eN⟩ : ∃ N : Vec K, N = wedge (fun k => b.1 k - a.1 k) (fun k => c.1 k - a.1 k) := ⟨_, rfl⟩
  obtain ⟨W, eW⟩ : ∃ N : Vec K, N = wedge (fun k => r.1 k - l.1 k) (fun k => (c.1 k - b.1 k) * (a.2 - c.2) + (a.1 k - c.1 k) * (b.2 - c.2)) := ⟨_, rfl⟩
  obtain ⟨s, es⟩ : ∃ s : Vec K, s = fun k => r.1 k - l.1 k := ⟨_, rfl⟩
  have hden : dot3 (wedge (fun k => (movPt M 3 b).1 k - (movPt M 3 a).1 k) (fun k => (movPt M 3 c).1 k - (movPt M 3 a).1 k))
      (fun k => (movPt M 3 r).1 k - (movPt M 3 l).1 k) = M.scale ^ 3 * dot3 N s := by
    have td := Motion.turn_dot hM N s
    simp only [dot3]
    rw [hN 0 (by omega), hN 1 (by omega), hN 2 (by omega), c0 r l 0 (by omega), c0 r l 1 (by omega), c0 r l 2 (by omega), ← eN, ← es]
    linear_combination M.scale ^ 3 * td
  have e1 : gradPts3 (movPt M 3 a) (movPt M 3 b) (movPt M 3 c) (movPt M 3 l) (movPt M 3 r) k =
      (M.scale ^ 2 * M.turn W k + M.scale ^ 2 * M.turn N k * (r.2 - l.2)) / (M.scale ^ 3 * dot3 N s) := by
    rw [← hden, eN, eW, ← hN k hk, ← hW k hk]; rfl
  have e2 : ∀ j, gradPts3 a b c l r j = (W j + N j * (r.2 - l.2)) / dot3 N s := by
    intro j; rw [eN, eW, es]; rfl
  rw [e1]
  unfold Motion.turn
  rw [e2, e2, e2]
  by_cases h0 : dot3 N s = 0
  · rw [h0]; simp
  · field_simp
    ring


/-! ### ghost points -/

theorem ghostcenter2_moved (hM : M.Proper 2) {x1 x2 v1 x1' x2' v1' : Vec K} (h1 : ∀ k < 2, x1' k = M.place x1 k) (h2 : ∀ k < 2, x2' k = M.place x2 k)
    (hv : ∀ k < 2, v1' k = M.place v1 k) :
    (ghostcenter2 x1' x2' v1').1 = M.scale * (M.rot 0 0 * (ghostcenter2 x1 x2 v1).1 + M.rot 0 1 * (ghostcenter2 x1 x2 v1).2.1) + M.shift 0 ∧
    (ghostcenter2 x1' x2' v1').2.1 = M.scale * (M.rot 1 0 * (ghostcenter2 x1 x2 v1).1 + M.rot 1 1 * (ghostcenter2 x1 x2 v1).2.1) + M.shift 1 := by
  obtain ⟨p1, p2, p3, f1, f2, f3, f4, f5, f6⟩ := Motion.plane hM
  have hs := hM.pos.ne'
  have c0 : ∀ e : Vec K, M.place e 0 = M.scale * (M.rot 0 0 * e 0 + M.rot 0 1 * e 1) + M.shift 0 := by
    intro e; simp [Motion.place, Motion.turn, f1]
  have c1 : ∀ e : Vec K, M.place e 1 = M.scale * (- M.rot 0 1 * e 0 + M.rot 0 0 * e 1) + M.shift 1 := by
    intro e; simp [Motion.place, Motion.turn, f2, p1, p2]
  have hg : ((v1' 0 - x2' 0) * (x1' 0 - x2' 0) + (v1' 1 - x2' 1) * (x1' 1 - x2' 1)) / ((x1' 0 - x2' 0) ^ 2 + (x1' 1 - x2' 1) ^ 2) =
      ((v1 0 - x2 0) * (x1 0 - x2 0) + (v1 1 - x2 1) * (x1 1 - x2 1)) / ((x1 0 - x2 0) ^ 2 + (x1 1 - x2 1) ^ 2) := by
    rw [h1 0 (by omega), h1 1 (by omega), h2 0 (by omega), h2 1 (by omega), hv 0 (by omega), hv 1 (by omega), c0, c0, c0, c1, c1, c1]
    conv_rhs => rw [← mul_div_mul_left _ _ (pow_ne_zero 2 hs)]
    congr 1
    · linear_combination M.scale ^ 2 * ((v1 0 - x2 0) * (x1 0 - x2 0) + (v1 1 - x2 1) * (x1 1 - x2 1)) * p3
    · linear_combination M.scale ^ 2 * ((x1 0 - x2 0) ^ 2 + (x1 1 - x2 1) ^ 2) * p3
  unfold ghostcenter2
  dsimp only
  rw [hg]
  generalize ((v1 0 - x2 0) * (x1 0 - x2 0) + (v1 1 - x2 1) * (x1 1 - x2 1)) / ((x1 0 - x2 0) ^ 2 + (x1 1 - x2 1) ^ 2) = γ
  rw [h1 0 (by omega), h1 1 (by omega), h2 0 (by omega), h2 1 (by omega), hv 0 (by omega), hv 1 (by omega), c0, c0, c0, c1, c1, c1, p1, p2]
  constructor <;> ring

theorem ghostcenter3_moved (hM : M.Proper 3) {ρ : K} (hρ : ρ ≠ 0) {nn fc v nn' fc' v' : Vec K} {m m' : K} (hn : ∀ k < 3, nn' k = ρ * M.turn nn k)
    (hm : m' = ρ * m) (hf : ∀ k < 3, fc' k = M.place fc k) (hv : ∀ k < 3, v' k = M.place v k) {k : Nat} (hk : k < 3) :
    (ghostcenter3 nn' m' fc' v').1 k = M.place (ghostcenter3 nn m fc v).1 k := by
  have e1 : ∀ k < 3, nn' k / m' = M.turn (fun k => nn k / m) k := by
    intro k hk
    rw [hn k hk, hm, mul_div_mul_left _ _ hρ]
    simp only [Motion.turn]; ring
  have e2 : ∀ k < 3, fc' k - v' k = M.scale * M.turn (fun k => fc k - v k) k := by
    intro k hk
    rw [hf k hk, hv k hk, placed_turn]
  obtain ⟨N, eN⟩ : ∃ N : Vec K, N = fun k => nn k / m := ⟨_, rfl⟩
  obtain ⟨u, eu⟩ : ∃ u : Vec K, u = fun k => fc k - v k := ⟨_, rfl⟩
  have hg : dot3 (fun k => fc' k - v' k) (fun k => nn' k / m') = M.scale * dot3 u N := by
    have td := Motion.turn_dot hM u N
    simp only [dot3]
    rw [e1 0 (by omega), e1 1 (by omega), e1 2 (by omega), e2 0 (by omega), e2 1 (by omega), e2 2 (by omega), ← eN, ← eu]
    linear_combination M.scale * td
  unfold ghostcenter3
  dsimp only
  rw [hg, e1 k hk, hv k hk]
  simp only [Motion.place, Motion.turn]
  rw [← eN, ← eu]
  simp only [eN]
  ring

/-- Two files of one mesh in two systems of coordinates, with their nodes. -/
structure MovedN (M : Motion K) (dim n nbnodes : Nat) (t : Nat → Nat → Nat) (G L : Tables K) (B : List Int) : Prop where
  mov : MovedT M dim G L
  hM : M.Proper dim
  hd : dim = 2 ∨ dim = 3
  cG : Consistent G (dim + 1) B
  hh : G.halofaces = []
  hBe : B = if dim = 2 then [1, 2, 3, 4] else [1, 2, 3, 4, 5, 6]
  hB : ∀ b ∈ B, b ∈ locNames dim
  nG : G.nbcells = n
  nbG : G.nbnodes = nbnodes
  cellid : ∀ i, (nodeCells G.cnode G.nbcells (dim + 1)).1 i = users t (dim + 1) n i
  cnode : ∀ c < n, ∀ j < dim + 1, G.cnode c j < nbnodes
  fnode : ∀ c < n, ∀ j < dim + 1, (G.fnode (G.faceid c j)).length = dim ∧ ∀ x ∈ G.fnode (G.faceid c j), x < nbnodes
  names : ∀ f < G.nbfaces, G.name f = 0 ∨ G.name f ∈ B
  lab : ∀ F ∈ G.boundaryfaces, ∀ s ∈ G.fnode F, G.oldname s ∈ B

section
variable {n nbnodes : Nat} {t : Nat → Nat → Nat} {G L : Tables K} {B : List Int}

theorem MovedN.cL (h : MovedN M dim n nbnodes t G L B) : Consistent L (dim + 1) B := h.mov.consistent h.cG

theorem MovedN.fn (h : MovedN M dim n nbnodes t G L B) {f : Nat} (hf : f < G.nbfaces) : (G.fnode f).length = dim ∧ ∀ x ∈ G.fnode f, x < nbnodes := by
  obtain ⟨c, hc, j, hj, rfl⟩ := h.cG.fsurj f hf
  rw [h.nG] at hc
  exact h.fnode c hc j hj

theorem MovedN.ghostPt (h : MovedN M dim n nbnodes t G L B) {f : Nat} (hf : f < G.nbfaces) {k : Nat} (hk : k < dim) :
    (ghostPoint dim L f).getD k 0 = M.place (fun k => (ghostPoint dim G f).getD k 0) k := by
  have hM := h.hM
  have hv := h.mov.center _ (h.cG.left_lt hf)
  rw [← h.mov.cellid] at hv
  obtain ⟨hl, hlt⟩ := h.fn hf
  rcases h.hd with rfl | rfl
  · have vert : ∀ i < 2, ∀ k < 2, L.vertex ((L.fnode f).getD i 0) k = M.place (G.vertex ((G.fnode f).getD i 0)) k := by
      intro i hi k hk
      rw [h.mov.fnode]
      refine h.mov.vertex _ ?_ k (by omega)
      rw [h.nbG]
      exact hlt _ (by rw [List.getD_eq_getElem _ _ (by omega)]; exact List.getElem_mem _)
    obtain ⟨g1, g2⟩ := ghostcenter2_moved hM (vert 1 (by omega)) (vert 0 (by omega)) (fun k hk => hv k (by omega))
    obtain ⟨p1, p2, p3, f1, f2, f3, f4, f5, f6⟩ := Motion.plane hM
    unfold ghostPoint
    simp only [if_true]
    rw [h.mov.cellid] at g1 g2 ⊢
    interval_cases k
    · show (ghostcenter2 _ _ _).1 = _
      rw [g1]; simp [Motion.place, Motion.turn]
    · show (ghostcenter2 _ _ _).2.1 = _
      rw [g2]; simp [Motion.place, Motion.turn]
  · have g := fun k hk => ghostcenter3_moved hM (faceUnit_pos hM).ne' (h.mov.normal f hf) (h.mov.mesure f hf) (h.mov.fcenter f hf) hv (k := k) hk
    unfold ghostPoint
    simp only [show ¬ (3 = 2) by decide, if_false]
    rw [h.mov.cellid] at g ⊢
    interval_cases k
    · show (ghostcenter3 _ _ _ _).1 0 = _
      rw [g 0 (by omega)]; simp [Motion.place, Motion.turn]
    · show (ghostcenter3 _ _ _ _).1 1 = _
      rw [g 1 (by omega)]; simp [Motion.place, Motion.turn]
    · show (ghostcenter3 _ _ _ _).1 2 = _
      rw [g 2 (by omega)]; simp [Motion.place, Motion.turn]

theorem MovedN.entry (h : MovedN M dim n nbnodes t G L B) {W W' : Nat → K} (hW : ∀ c < n, W' c = W c) {c : Nat} (hc : c < n) :
    EC dim L W' c = movPt M dim (EC dim G W c) := by
  have := h.hd
  exact movPt_cut h.hM h.hd (fun k hk => h.mov.center c (by rw [h.nG]; exact hc) k (by omega)) (hW c hc)

theorem MovedN.ghost_entry (h : MovedN M dim n nbnodes t G L B) {bc bc' : Int → BCond K} (hb : ∀ loc, SameBC M (bc loc) (bc' loc)) {W W' : Nat → K}
    (hW : ∀ c < n, W' c = W c) {f : Nat} (hf : f < G.nbfaces) : EF dim L W' bc' f = movPt M dim (EF dim G W bc f) := by
  refine movPt_cut h.hM h.hd (fun k hk => h.ghostPt hf hk) ?_
  rw [h.mov.name]
  exact h.mov.ghostVal h.cG (by rw [h.nG]; exact hW) (hb _) hf

theorem MovedN.bf (h : MovedN M dim n nbnodes t G L B) (s : Nat) : Par.bf L s = Par.bf G s := by
  unfold Par.bf; rw [h.mov.nbfaces, h.mov.bnd, h.mov.fnode]

theorem MovedN.cellidL (h : MovedN M dim n nbnodes t G L B) (i : Nat) : (nodeCells L.cnode L.nbcells (dim + 1)).1 i = users t (dim + 1) n i := by
  rw [h.mov.cnode, h.mov.nbcells]; exact h.cellid i

/-- The value of a node. -/
theorem MovedN.nodeValue (h : MovedN M dim n nbnodes t G L B) {bc bc' : Int → BCond K} (hb : ∀ loc, SameBC M (bc loc) (bc' loc)) (dL dG : RankData K)
    {hgL hgG : HGResult K} (sL : HGSerial dim L nbnodes hgL) (sG : HGSerial dim G nbnodes hgG) {wL wG : Interp.Fields K} (vL : ValuesG dim L bc' wL)
    (vG : ValuesG dim G bc wG) (hW : ∀ c < n, wL.c c = wG.c c) {s : Nat} (hs : s < nbnodes) :
    nodeValues dim 1 dL L hgL wL s = nodeValues dim 1 dG G hgG wG s := by
  have st : MovedSt M dim (nodeStencil dim (nodeTabs dim 1 dG G hgG) wG s) (nodeStencil dim (nodeTabs dim 1 dL L hgL) wL s) := by
    unfold MovedSt
    rw [ser_nodeStencil h.cL h.hB bc' dL h.cellidL sL vL hs, ser_nodeStencil h.cG h.hB bc dG h.cellid sG vG hs, List.map_append, List.map_map, List.map_map,
      h.bf]
    congr 1
    · apply List.map_congr_left
      intro c hc
      exact h.entry hW ((mem_users _ _ _ _ _).mp hc).1
    · apply List.map_congr_left
      intro f hf
      exact h.ghost_entry hb hW ((mem_bf _ _ _).mp hf).1
  have hv : ∀ k < 3, L.vertex s k = M.place (G.vertex s) k := h.mov.vertex s (by rw [h.nbG]; exact hs)
  have hM := h.hM
  unfold nodeValues
  rcases h.hd with rfl | rfl
  · rw [if_pos rfl, if_pos rfl]
    exact node_moved2 hM _ _ _ _ _ _ (fun k hk => hv k (by omega)) st
  · rw [if_neg (by decide), if_neg (by decide)]
    exact node_moved3 hM _ _ _ _ _ _ (fun k hk => hv k hk) st

/-- The gradient of a cell. -/
theorem MovedN.cellGrad (h : MovedN M dim n nbnodes t G L B) {bc bc' : Int → BCond K} (hb : ∀ loc, SameBC M (bc loc) (bc' loc)) (dL dG : RankData K)
    {hgL hgG : HGResult K} (sL : HGSerial dim L nbnodes hgL) (sG : HGSerial dim G nbnodes hgG) {wL wG : Interp.Fields K} (vL : ValuesG dim L bc' wL)
    (vG : ValuesG dim G bc wG) (hW : ∀ c < n, wL.c c = wG.c c) {c : Nat} (hc : c < n) : ∀ k < 3,
    vec3 (cellGrads dim 1 dL L hgL wL c).1 (cellGrads dim 1 dL L hgL wL c).2.1 (cellGrads dim 1 dL L hgL wL c).2.2 k =
      M.scale⁻¹ * M.turn (vec3 (cellGrads dim 1 dG G hgG wG c).1 (cellGrads dim 1 dG G hgG wG c).2.1 (cellGrads dim 1 dG G hgG wG c).2.2) k := by
  have hcc := h.mov.center c (by rw [h.nG]; exact hc)
  have hlabL : ∀ F ∈ L.boundaryfaces, ∀ s ∈ L.fnode F, L.oldname s ∈ B := by rw [h.mov.bnd, h.mov.fnode, h.mov.oldname]; exact h.lab
  have st : ∀ m : Int, (∀ b ∈ B, b ≤ m) → MovedSt M dim (cellStencil m (nodeTabs dim 1 dG G hgG) (cellTabs dim 1 dG G) wG [] c)
      (cellStencil m (nodeTabs dim 1 dL L hgL) (cellTabs dim 1 dL L) wL [] c) := by
    intro m hm
    unfold MovedSt
    rw [ser_cellStencil h.cL h.hB bc' dL hlabL sL vL (by rw [h.mov.cnode]; exact h.cnode c hc) m hm,
      ser_cellStencil h.cG h.hB bc dG h.lab sG vG (h.cnode c hc) m hm, List.map_append, List.map_map, List.map_flatMap, h.mov.cnode, h.mov.nbcells]
    congr 1
    · apply List.map_congr_left
      intro x hx
      have := ((mem_cellNeigh _ _ _ _ _).mp hx).1
      rw [h.nG] at this
      exact h.entry hW this
    · apply List.flatMap_congr
      intro s hs
      rw [h.bf, List.map_map]
      apply List.map_congr_left
      intro f hf
      exact h.ghost_entry hb hW ((mem_bf _ _ _).mp hf).1
  have hB := h.hBe
  have hM := h.hM
  unfold cellGrads
  rcases h.hd with rfl | rfl
  · have st := st 4 (by rw [hB]; decide)
    rw [if_pos rfl, if_pos rfl, gradFit2, gradFit2]
    have e : ∀ size d (D : Tables K) hg w c, cellPeriodic2 (nodeTabs 2 size d D hg) (cellTabs 2 size d D) w c = [] := by
      intro size d D hg w c
      simp [cellPeriodic2, periodicPart, nodeTabs, cellTabs]
    rw [e, e]
    have gm := gradFit_moved hM (Or.inl rfl) st (fun k hk => hcc k (by omega)) (wL.c c)
    obtain ⟨p1, p2, p3, f1, f2, f3, f4, f5, f6⟩ := Motion.plane hM
    show ∀ k < 3, vec3 (gradFit 2 (L.center c) (wL.c c) _ 0) (gradFit 2 (L.center c) (wL.c c) _ 1) 0 k = _
    rw [gm, hW c hc]
    intro k hk
    interval_cases k
    · simp [vec3, Motion.turn, Matrix.mulVec, dotProduct, Fin.sum_univ_two, rotM, nodeTabs]
    · simp [vec3, Motion.turn, Matrix.mulVec, dotProduct, Fin.sum_univ_two, rotM, nodeTabs]
    · simp [vec3, Motion.turn, f3, f4]
  · have st := st 6 (by rw [hB]; decide)
    rw [if_neg (by decide), if_neg (by decide), gradFit3 _ _ _ _ rfl, gradFit3 _ _ _ _ rfl]
    have gm := gradFit_moved hM (Or.inr rfl) st (fun k hk => hcc k hk) (wL.c c)
    show ∀ k < 3, vec3 (gradFit 3 (L.center c) (wL.c c) _ 0) (gradFit 3 (L.center c) (wL.c c) _ 1) (gradFit 3 (L.center c) (wL.c c) _ 2) k = _
    rw [gm, hW c hc]
    intro k hk
    interval_cases k <;>
    simp [vec3, Motion.turn, Matrix.mulVec, dotProduct, Fin.sum_univ_three, rotM, nodeTabs]

/-- The sides of a face. -/
theorem MovedN.across (h : MovedN M dim n nbnodes t G L B) {bc bc' : Int → BCond K} (hb : ∀ loc, SameBC M (bc loc) (bc' loc))
    {wL wG : Interp.Fields K} (vL : ValuesG dim L bc' wL) (vG : ValuesG dim G bc wG) (hW : ∀ c < n, wL.c c = wG.c c) {f : Nat} (hf : f < G.nbfaces) :
    sideL dim L wL f = movPt M dim (sideL dim G wG f) ∧ sideR dim L wL f = movPt M dim (sideR dim G wG f) := by
  have hl := h.cG.left_lt hf
  have entry : ∀ e < n, cut dim (L.center e, wL.c e) = movPt M dim (cut dim (G.center e, wG.c e)) := fun e he => h.entry hW he
  unfold sideL sideR
  rw [h.mov.cellid]
  refine ⟨entry _ (by rw [← h.nG]; exact hl), ?_⟩
  unfold otherPt otherVal
  rw [h.mov.name, h.mov.cellid]
  by_cases h0 : G.name f = 0
  · rw [if_pos h0, if_pos h0, if_pos h0, if_pos h0]
    exact entry _ (by rw [← h.nG]; exact h.cG.right_lt hf h0)
  · have hne10 : G.name f ≠ 10 := by
      intro e
      have := (h.cG.halo.2 f).mpr ⟨hf, e⟩
      rw [h.hh] at this
      simp at this
    rw [if_neg h0, if_neg h0, if_neg h0, if_neg h0, if_neg hne10, if_neg hne10, if_neg hne10, if_neg hne10]
    have hbn : f ∈ G.boundaryfaces := (h.cG.bnd.2 f).mpr ⟨hf, (h.names f hf).resolve_left h0⟩
    refine movPt_cut h.hM h.hd (fun k hk => h.ghostPt hf hk) ?_
    obtain ⟨gL, eL⟩ := vL.ghost
    obtain ⟨gG, eG⟩ := vG.ghost
    rw [eL, eG]
    exact h.mov.ghost h.cG h.hB (by rw [h.nG]; exact hW) hb _ _ hbn


theorem MovedN.nameOk (h : MovedN M dim n nbnodes t G L B) {f : Nat} (hf : f < G.nbfaces) : G.name f = 0 ∨ G.name f = 10 ∨ G.name f ∈ B := by
  rcases h.names f hf with e | e
  · exact Or.inl e
  · exact Or.inr (Or.inr e)

/-- The limiter of a cell. -/
theorem MovedN.limiter_eq (h : MovedN M dim n nbnodes t G L B) {bc bc' : Int → BCond K} (hb : ∀ loc, SameBC M (bc loc) (bc' loc))
    {wL wG : Interp.Fields K} (vL : ValuesG dim L bc' wL) (vG : ValuesG dim G bc wG) (hW : ∀ c < n, wL.c c = wG.c c) (eps : K)
    (gL gG : Nat → K × K × K) {c : Nat} (hc : c < n) (hgr : ∀ k < 3, vec3 (gL c).1 (gL c).2.1 (gL c).2.2 k =
      M.scale⁻¹ * M.turn (vec3 (gG c).1 (gG c).2.1 (gG c).2.2) k) : limiter dim eps L wL gL c = limiter dim eps G wG gG c := by
  have hcG : c < G.nbcells := by rw [h.nG]; exact hc
  have flt : ∀ f ∈ (List.range (dim + 1)).map (G.faceid c), f < G.nbfaces := by
    intro f hf
    obtain ⟨j, hj, rfl⟩ := List.mem_map.mp hf
    exact h.cG.flt c hcG j (List.mem_range.mp hj)
  have nmG : ∀ f ∈ (List.range (dim + 1)).map (G.faceid c), G.name f = 0 ∨ G.name f = 10 ∨
      G.name f ∈ (if dim = 2 then [1, 2, 3, 4] else [1, 2, 3, 4, 5, 6] : List Int) := by
    intro f hf
    rw [← h.hBe]; exact h.nameOk (flt f hf)
  unfold limiter barthLimiter
  rw [h.mov.faceid, limiterBounds_eq dim h.hd L wL _ c (by rw [h.mov.name]; exact nmG), limiterBounds_eq dim h.hd G wG _ _ nmG, hW c hc]
  have hbd : ((List.range (dim + 1)).map (G.faceid c)).foldl (fun b f => (max b.1 (max (sideL dim L wL f).2 (sideR dim L wL f).2),
        min b.2 (min (sideL dim L wL f).2 (sideR dim L wL f).2))) (wG.c c, wG.c c) =
      ((List.range (dim + 1)).map (G.faceid c)).foldl (fun b f => (max b.1 (max (sideL dim G wG f).2 (sideR dim G wG f).2),
        min b.2 (min (sideL dim G wG f).2 (sideR dim G wG f).2))) (wG.c c, wG.c c) := by
    apply List.foldl_ext
    intro b f hf
    obtain ⟨e1, e2⟩ := h.across hb vL vG hW (flt f hf)
    rw [e1, e2]
    rfl
  rw [hbd]
  generalize ((List.range (dim + 1)).map (G.faceid c)).foldl (fun b f => (max b.1 (max (sideL dim G wG f).2 (sideR dim G wG f).2),
        min b.2 (min (sideL dim G wG f).2 (sideR dim G wG f).2))) (wG.c c, wG.c c) = bb
  apply List.foldl_ext
  intro b f hf
  have key := moved_sum h.hM h.hd hgr (r := fun k => G.fcenter f k - G.center c k) (r' := fun k => L.fcenter f k - L.center c k) (by
    intro k hk
    rw [h.mov.fcenter f (flt f hf) k hk, h.mov.center c hcG k hk, placed_turn])
  dsimp only
  rcases h.hd with rfl | rfl
  · simp only [Finset.sum_range_succ, Finset.sum_range_zero, zero_add, vec3] at key
    simp only [show ¬ (2 = 3) by decide, if_false]
    rw [key]
  · simp only [Finset.sum_range_succ, Finset.sum_range_zero, zero_add, vec3] at key
    simp only [if_true]
    rw [key]

/-- The gradient on a face. -/
theorem MovedN.faceGrads_eq (h : MovedN M dim n nbnodes t G L B) (hw : dim = 3 → WedgeOk G ∧ WedgeOk L) {bc bc' : Int → BCond K}
    (hb : ∀ loc, SameBC M (bc loc) (bc' loc)) {wL wG : Interp.Fields K} (vL : ValuesG dim L bc' wL) (vG : ValuesG dim G bc wG)
    (hW : ∀ c < n, wL.c c = wG.c c) (nL nG : Nat → K) (hN : ∀ i < nbnodes, nL i = nG i) {f : Nat} (hf : f < G.nbfaces) {k : Nat} (hk : k < 3) :
    faceGrads dim L bc' wL nL f k = M.scale⁻¹ * M.turn (faceGrads dim G bc wG nG f) k := by
  obtain ⟨hlen, hlt⟩ := h.fn hf
  have nm := h.nameOk hf
  have nmL : L.name f = 0 ∨ L.name f = 10 ∨ L.name f ∈ B := by rw [h.mov.name]; exact nm
  have hfL : f < L.nbfaces := by rw [h.mov.nbfaces]; exact hf
  obtain ⟨sl, sr⟩ := h.across hb vL vG hW hf
  have pt : ∀ i < dim, cut dim (nodePt L nL f i) = movPt M dim (cut dim (nodePt G nG f i)) := by
    intro i hi
    have hi' := hlt ((G.fnode f).getD i 0) (by rw [List.getD_eq_getElem _ _ (by omega)]; exact List.getElem_mem _)
    unfold nodePt
    rw [h.mov.fnode]
    have := h.hd
    exact movPt_cut h.hM h.hd (fun k hk => h.mov.vertex _ (by rw [h.nbG]; exact hi') k (by omega)) (hN _ hi')
  have hB := h.hBe
  have cG := h.cG
  have cL := h.cL
  have hM := h.hM
  rcases h.hd with rfl | rfl
  · rw [faceGrads_pts2 cL hB bc' wL nL hfL nmL, pt 0 (by omega), pt 1 (by omega), sl, sr, gradPts2_moved hM _ _ _ _ hk]
    simp only [Motion.turn]
    rw [faceGrads_pts2 cG hB bc wG nG hf nm, faceGrads_pts2 cG hB bc wG nG hf nm, faceGrads_pts2 cG hB bc wG nG hf nm]
  · obtain ⟨wG', wL'⟩ := hw rfl
    rw [faceGrads_pts3 cL hB wL' bc' wL nL hfL nmL hk, pt 0 (by omega), pt 1 (by omega), pt 2 (by omega), sl, sr, gradPts3_moved hM _ _ _ _ _ hk]
    simp only [Motion.turn]
    rw [faceGrads_pts3 cG hB wG' bc wG nG hf nm (show 0 < 3 by omega), faceGrads_pts3 cG hB wG' bc wG nG hf nm (show 1 < 3 by omega),
      faceGrads_pts3 cG hB wG' bc wG nG hf nm (show 2 < 3 by omega)]

/-- The dissipative residual of a cell. -/
theorem MovedN.dissip_eq (h : MovedN M dim n nbnodes t G L B) {S S' : Setup K} (hS : SameProblem M S S') (gL gG : Nat → Vec K)
    (hg : ∀ f < G.nbfaces, ∀ k < 3, gL f k = M.scale⁻¹ * M.turn (gG f) k) {c : Nat} (hc : c < n) :
    Run.dissip L S' gL c = M.scale * faceUnit M dim * Run.dissip G S gG c := by
  have hcG : c < G.nbcells := by rw [h.nG]; exact hc
  have hs := h.hM.pos.ne'
  rw [h.cL.dissip S' gL (by rw [h.mov.nbcells]; exact hcG), h.cG.dissip S gG hcG, Finset.mul_sum]
  apply Finset.sum_congr rfl
  intro j hj
  have hf := h.cG.flt c hcG j (Finset.mem_range.mp hj)
  rw [h.mov.faceid]
  generalize G.faceid c j = f at hf
  have flux : diffFlux (fun f => gL f 0) (fun f => gL f 1) (fun f => gL f 2) L.normal S'.Dxx S'.Dyy S'.Dzz f =
      M.scale * faceUnit M dim * diffFlux (fun f => gG f 0) (fun f => gG f 1) (fun f => gG f 2) G.normal S.Dxx S.Dyy S.Dzz f := by
    rw [diffFlux_pos L S' gL f _ (fun k hk => rfl), diffFlux_pos G S gG f _ (fun k hk => rfl)]
    unfold outFlux
    have td := Motion.turn_dot h.hM (vec3 (S.Dxx * gG f 0) (S.Dyy * gG f 1) (S.Dzz * gG f 2)) (G.normal f)
    have hD : ∀ i < 3, diffusion S' i * M.turn (gG f) i = M.scale ^ 2 * M.turn (vec3 (S.Dxx * gG f 0) (S.Dyy * gG f 1) (S.Dzz * gG f 2)) i := by
      intro i hi
      have d0 := hS.diff i hi 0 (by omega)
      have d1 := hS.diff i hi 1 (by omega)
      have d2 := hS.diff i hi 2 (by omega)
      rw [show diffusion S 0 = S.Dxx from rfl] at d0
      rw [show diffusion S 1 = S.Dyy from rfl] at d1
      rw [show diffusion S 2 = S.Dzz from rfl] at d2
      simp only [Motion.turn, vec3]
      linear_combination gG f 0 * d0 + gG f 1 * d1 + gG f 2 * d2
    have h0 : S'.Dxx * M.turn (gG f) 0 = _ := hD 0 (by omega)
    have h1 : S'.Dyy * M.turn (gG f) 1 = _ := hD 1 (by omega)
    have h2 : S'.Dzz * M.turn (gG f) 2 = _ := hD 2 (by omega)
    rw [hg f hf 0 (by omega), hg f hf 1 (by omega), hg f hf 2 (by omega), h.mov.normal f hf 0 (by omega), h.mov.normal f hf 1 (by omega),
      h.mov.normal f hf 2 (by omega)]
    generalize M.turn (vec3 (S.Dxx * gG f 0) (S.Dyy * gG f 1) (S.Dzz * gG f 2)) = X at h0 h1 h2 td
    simp only [vec3] at td
    generalize M.turn (gG f) = Y at h0 h1 h2
    generalize M.turn (G.normal f) = Z at td
    have e : M.scale⁻¹ * M.scale ^ 2 = M.scale := by field_simp
    have r : S'.Dxx * (M.scale⁻¹ * Y 0) * (faceUnit M dim * Z 0) + S'.Dyy * (M.scale⁻¹ * Y 1) * (faceUnit M dim * Z 1) +
        S'.Dzz * (M.scale⁻¹ * Y 2) * (faceUnit M dim * Z 2) = M.scale⁻¹ * M.scale ^ 2 * faceUnit M dim * (X 0 * Z 0 + X 1 * Z 1 + X 2 * Z 2) := by
      linear_combination M.scale⁻¹ * faceUnit M dim * (Z 0 * h0 + Z 1 * h1 + Z 2 * h2)
    rw [r, td, e]
  unfold Par.diffTerm
  rw [flux, h.mov.cellid, h.mov.name]
  split_ifs <;> ring

end
end Verif.Props.Par
