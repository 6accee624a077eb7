import Verif.Props.ParLaunch
import Verif.Props.FvmStability
import Verif.Model.Run
import Verif.Props.Variable

/-! Helper lemmas for the parallel theorems: an iteration of the transport driver on all ranks against the serial one. -/
set_option linter.unusedSectionVars false
set_option linter.unusedVariables false
set_option linter.unusedSimpArgs false
namespace Verif.Props.Par
open Verif.Fvm Verif.Spec Verif.Conn Verif.Dom Verif.Geo Verif.Names Verif.MeshFile Verif.Part Verif.Comm Verif.Run
variable {K : Type*} [Field K] [LinearOrder K] [IsStrictOrderedRing K]

/-! ### normals up to sign, boundary faces -/
section
variable {L G : Tables K} {d1 : Nat} {φ : Nat → Nat} {mine : Nat → Prop} {ext : List (List Nat)} {B : List Int} {out : Nat → Nat → Vec K}

theorem RankOf.normalL_pm (h : RankOf L G d1 φ mine ext B out) {c : Nat} (hc : c < L.nbcells) {j : Nat} (hj : j < d1) :
    ∃ ε : K, (ε = 1 ∨ ε = -1) ∧ ∀ k < 3, L.normal (L.faceid c j) k = ε * out (φ c) j k := by
  have hf := h.cL.flt c hc j hj
  obtain ⟨e, he, h2, j', hj', h3⟩ := users_first (h.cL.users_ne hf)
  rw [← h.cL.cell0 _ hf] at h2
  by_cases hce : e = c
  · subst hce
    exact ⟨1, Or.inl rfl, fun k hk => by rw [h.normalL e hc j hj h2 k hk]; ring⟩
  · refine ⟨-1, Or.inr rfl, fun k hk => ?_⟩
    rw [← h3] at h2 ⊢
    rw [h.normalL e he j' hj' h2 k hk, h.opp (φ e) (h.sub.lt e he).1 (φ c) (h.sub.lt c hc).1 (fun x => hce (h.sub.inj he hc x)) j' hj' j hj
      ((h.sub.same e he c hc j' hj' j hj).mp h3) k hk]
    ring

theorem RankOf.normalG_pm (h : RankOf L G d1 φ mine ext B out) {C : Nat} (hC : C < G.nbcells) {j : Nat} (hj : j < d1) :
    ∃ ε : K, (ε = 1 ∨ ε = -1) ∧ ∀ k < 3, G.normal (G.faceid C j) k = ε * out C j k := by
  have hf := h.cG.flt C hC j hj
  obtain ⟨e, he, h2, j', hj', h3⟩ := users_first (h.cG.users_ne hf)
  rw [← h.cG.cell0 _ hf] at h2
  by_cases hce : e = C
  · subst hce
    exact ⟨1, Or.inl rfl, fun k hk => by rw [h.normalG e hC j hj h2 k hk]; ring⟩
  · refine ⟨-1, Or.inr rfl, fun k hk => ?_⟩
    rw [← h3] at h2 ⊢
    rw [h.normalG e he j' hj' h2 k hk, h.opp e he C hC hce j' hj' j hj h3 k hk]
    ring

/-- The stored normals of a face on a rank and in serial are equal or opposite. -/
theorem RankOf.normal_pm (h : RankOf L G d1 φ mine ext B out) {c : Nat} (hc : c < L.nbcells) {j : Nat} (hj : j < d1) :
    ∃ ε : K, (ε = 1 ∨ ε = -1) ∧ ∀ k < 3, L.normal (L.faceid c j) k = ε * G.normal (G.faceid (φ c) j) k := by
  obtain ⟨a, ha, h1⟩ := h.normalL_pm hc hj
  obtain ⟨b, hb, h2⟩ := h.normalG_pm (h.sub.lt c hc).1 hj
  refine ⟨a * b, by rcases ha with rfl | rfl <;> rcases hb with rfl | rfl <;> simp, fun k hk => ?_⟩
  rw [h1 k hk, h2 k hk]
  rcases hb with rfl | rfl <;> ring

/-- A boundary face of a rank is a boundary face of the domain, with the same name and the same cell. -/
theorem RankOf.boundary (h : RankOf L G d1 φ mine ext B out) {c : Nat} (hc : c < L.nbcells) {j : Nat} (hj : j < d1)
    (hb : L.faceid c j ∈ L.boundaryfaces) : L.name (L.faceid c j) = G.name (G.faceid (φ c) j) ∧ L.name (L.faceid c j) ∈ B ∧
    L.cellid (L.faceid c j) 0 = (c : Int) ∧ G.cellid (G.faceid (φ c) j) 0 = (φ c : Int) := by
  have hf := h.cL.flt c hc j hj
  have hFF := h.cG.flt (φ c) (h.sub.lt c hc).1 j hj
  have hB := ((h.cL.bnd.2 _).mp hb).2
  obtain ⟨nLh, nLn⟩ := h.nameL c hc j hj
  have hno : ¬ ∃ E < G.nbcells, ¬ mine E ∧ Uses G.faceid d1 E (G.faceid (φ c) j) := by
    intro he
    rw [(nLh he).1] at hB
    exact h.cL.B10 hB
  obtain ⟨n2, n1⟩ := nLn hno
  rcases h.sub.cases hc hj with ⟨uG, uL⟩ | ⟨e, he, hne, ⟨j', hj', hfe, hFe⟩, hu⟩ | ⟨E, hE, hmE, ⟨j', hj', hFE⟩, uL, uG⟩
  · refine ⟨n1 (by rw [uL]; rfl), hB, ?_, ?_⟩
    · rw [h.cL.cell0 _ hf, uL]; simp [twoOf]
    · rw [h.cG.cell0 _ hFF, uG]; simp [twoOf]
  · exfalso
    rw [n2 (by rcases hu with ⟨_, u⟩ | ⟨_, u⟩ <;> rw [u] <;> rfl)] at hB
    exact h.cL.B0 hB
  · exact absurd ⟨E, hE, hmE, j', hj', hFE⟩ hno

end

/-! ### order 1 -/

/-- Fields without gradients. -/
def noGrads (F : Fields K) : Fields K :=
  { F with wx := fun _ => 0, wy := fun _ => 0, wz := fun _ => 0, psi := fun _ => 0, wx_halo := [], wy_halo := [], wz_halo := [],
           psi_halo := [] }

theorem extrap_one (dim : Nat) (w ψ : K) (g r : Nat → K) : extrap dim 1 w ψ g r = w := by
  unfold extrap; simp

theorem balance_order1 (D : Tables K) (F : Fields K) (dim c : Nat) :
    balance (convArgs D F 1) dim c = balance (convArgs D (noGrads F) 1) dim c := by
  have e1 : innerFlux (convArgs D F 1) dim = innerFlux (convArgs D (noGrads F) 1) dim := by
    funext f; unfold innerFlux cellAtFace
    rw [show (convArgs D F 1).order = 1 from rfl, show (convArgs D (noGrads F) 1).order = 1 from rfl]
    simp only [extrap_one]; rfl
  have e2 : periodicFlux (convArgs D F 1) dim = periodicFlux (convArgs D (noGrads F) 1) dim := by
    funext f; unfold periodicFlux cellAtFace imageAtFace
    rw [show (convArgs D F 1).order = 1 from rfl, show (convArgs D (noGrads F) 1).order = 1 from rfl]
    simp only [extrap_one]; rfl
  have e3 : haloFlux (convArgs D F 1) dim = haloFlux (convArgs D (noGrads F) 1) dim := by
    funext f; unfold haloFlux cellAtFace haloAtFace
    rw [show (convArgs D F 1).order = 1 from rfl, show (convArgs D (noGrads F) 1).order = 1 from rfl]
    simp only [extrap_one]; rfl
  have e4 : boundaryFlux (convArgs D F 1) dim = boundaryFlux (convArgs D (noGrads F) 1) dim := by
    funext f; unfold boundaryFlux cellAtFace
    rw [show (convArgs D F 1).order = 1 from rfl, show (convArgs D (noGrads F) 1).order = 1 from rfl]
    simp only [extrap_one]; rfl
  unfold balance
  rw [e1, e2, e3, e4]; rfl

theorem conv_balance {D : Tables K} {d1 : Nat} {B : List Int} (h : Consistent D d1 B) (F : Fields K) (o : Int) {dim : Nat}
    (hd : dim = 2 ∨ dim = 3) (c : Nat) : Run.conv dim (convArgs D F o) c = balance (convArgs D F o) dim c := by
  have hp : (convArgs D F o).periodicboundaryfaces = [] := h.per
  unfold Run.conv
  rcases hd with rfl | rfl
  · rw [if_pos rfl]; exact conv2_eq_balance _ (by rw [hp]; simp) c
  · rw [if_neg (by decide)]; exact conv3_eq_balance _ (by rw [hp]; simp) c

/-! ### ghosts -/

/-- The value a boundary condition gives on face `f`. -/
def ghostVal (D : Tables K) (cell : Nat → K) (f : Nat) : BCond K → K
  | .neumann => cell (idx (D.cellid f 0))
  | .nonslip => -1 * cell (idx (D.cellid f 0))
  | .dirichlet v => v (D.fcenter f 0) (D.fcenter f 1) (D.fcenter f 2)

theorem ghostOne_apply (D : Tables K) (cell : Nat → K) (b : BCond K) (loc : Int) (g : Nat → K) (f : Nat) :
    ghostOne D cell b loc g f = if f < D.nbfaces ∧ D.name f = loc then ghostVal D cell f b else g f := by
  have hm : f ∈ Var.facesNamed D.name D.nbfaces loc ↔ f < D.nbfaces ∧ D.name f = loc := by
    unfold Var.facesNamed; simp
  unfold ghostOne
  cases b with
  | neumann =>
    simp only [Var.ghostNeumann]
    rw [Var.foldl_setAt_val]; simp only [hm, ghostVal]
  | nonslip =>
    simp only [Var.ghostNonslip]
    rw [Var.foldl_setAt_val]; simp only [hm, ghostVal]
  | dirichlet v =>
    simp only [Var.ghostDirichlet]
    rw [Var.foldl_setAt_val]; simp only [hm, ghostVal]

theorem updateGhosts_aux (D : Tables K) (cell : Nat → K) (bc : Int → BCond K) (f : Nat) (hf : f < D.nbfaces) (locs : List Int)
    (g : Nat → K) : locs.foldl (fun g loc => ghostOne D cell (bc loc) loc g) g f =
      if D.name f ∈ locs then ghostVal D cell f (bc (D.name f)) else g f := by
  induction locs generalizing g with
  | nil => simp
  | cons l ls ih =>
    rw [List.foldl_cons, ih, ghostOne_apply]
    by_cases h1 : D.name f ∈ ls
    · rw [if_pos h1, if_pos (List.mem_cons_of_mem _ h1)]
    · rw [if_neg h1]
      by_cases h2 : D.name f = l
      · rw [if_pos ⟨hf, h2⟩, if_pos (by rw [h2]; simp), h2]
      · rw [if_neg (fun x => h2 x.2), if_neg (by simp [h1, h2])]

theorem updateGhosts_apply (dim : Nat) (D : Tables K) (cell : Nat → K) (bc : Int → BCond K) (g : Nat → K) {f : Nat} (hf : f < D.nbfaces)
    (hn : D.name f ∈ locNames dim) : updateGhosts dim D cell bc g f = ghostVal D cell f (bc (D.name f)) := by
  unfold updateGhosts; rw [updateGhosts_aux _ _ _ _ hf, if_pos hn]

/-! ### time step -/

theorem le_foldl_min {α : Type*} (l : List α) (f : α → K) (m x : K) :
    x ≤ l.foldl (fun m p => min m (f p)) m ↔ x ≤ m ∧ ∀ p ∈ l, x ≤ f p := by
  induction l generalizing m with
  | nil => simp
  | cons a l ih => rw [List.foldl_cons, ih, le_min_iff]; simp; tauto

theorem le_localStep (dim : Nat) (S : Setup K) (D : Tables K) (it : Nat) (x : K) : x ≤ localStep dim S D it ↔ x ≤ 1000000 ∧ ∀ c < D.nbcells,
    x ≤ S.cfl * D.volume c / cellLam (toCells dim D (atFaces D (S.u it))) (toCells dim D (atFaces D (S.v it)))
      (toCells dim D (atFaces D (S.w it))) D.normal D.mesure D.volume D.faceid dim S.Dxx S.Dyy S.Dzz c := by
  unfold localStep timeStep timeStepOver
  rw [le_foldl_min]; simp

/-! ### an iteration -/

/-- The tables of all ranks against those of the serial run. -/
structure RunPair (dim SIZE n : Nat) (epart : Nat → Nat) (data : Nat → RankData K) (L : Nat → Tables K) (G : Tables K) (B : List Int)
    (out : Nat → Nat → Vec K) : Prop where
  hd : dim = 2 ∨ dim = 3
  hS : 1 < SIZE
  hB : ∀ b ∈ B, b ∈ locNames dim
  nG : G.nbcells = n
  he : ∀ C < n, epart C < SIZE
  len : ∀ p < SIZE, (L p).nbcells = (data p).loctoglob.length
  rank : ∀ p < SIZE, RankOf (L p) G (dim + 1) (phi (data p)) (fun C => epart C = p) (data p).halosext B out
  ext : ∀ p < SIZE, ∀ row ∈ (data p).halosext, ∀ E, row.head? = some E → E < n
  volume : ∀ p < SIZE, ∀ c < (L p).nbcells, (L p).volume c = G.volume (phi (data p) c)
  mesure : ∀ p < SIZE, ∀ c < (L p).nbcells, ∀ j < dim + 1, (L p).mesure ((L p).faceid c j) = G.mesure (G.faceid (phi (data p) c) j)
  halo : ∀ (cell : Nat → Nat → K) (W : Nat → K), (∀ p < SIZE, Restricts (data p).loctoglob (cell p) W) → ∀ p < SIZE,
    ∃ halo : List K, updateHalo SIZE data cell p = some halo ∧
      ∀ (k : Nat) row E, (data p).halosext[k]? = some row → row.head? = some E → halo.getD k 0 = W E

section
variable {dim SIZE n : Nat} {epart : Nat → Nat} {data : Nat → RankData K} {L : Nat → Tables K} {G : Tables K} {B : List Int}
  {out : Nat → Nat → Vec K}

theorem restricts_iff (h : RunPair dim SIZE n epart data L G B out) {p : Nat} (hp : p < SIZE) {α : Type*} (loc glob : Nat → α) :
    Restricts (data p).loctoglob loc glob ↔ ∀ c < (L p).nbcells, loc c = glob (phi (data p) c) := by
  rw [h.len p hp]
  constructor
  · intro hr c hc; exact hr c _ (phi_get hc)
  · intro hr j g hj
    obtain ⟨hlt, e⟩ := List.getElem?_eq_some_iff.mp hj
    rw [hr j hlt, phi, List.getD_eq_getElem _ _ hlt, e]

theorem atFaces_eq (h : RunPair dim SIZE n epart data L G B out) {p : Nat} (hp : p < SIZE) (f : K → K → K → K) {c : Nat}
    (hc : c < (L p).nbcells) {j : Nat} (hj : j < dim + 1) :
    atFaces (L p) f ((L p).faceid c j) = atFaces G f (G.faceid (phi (data p) c) j) := by
  have := (h.rank p hp).fcenter c hc j hj
  unfold atFaces
  rw [this 0 (by omega), this 1 (by omega), this 2 (by omega)]

theorem toCells_eq (h : RunPair dim SIZE n epart data L G B out) {p : Nat} (hp : p < SIZE) (f : K → K → K → K) {c : Nat}
    (hc : c < (L p).nbcells) : toCells dim (L p) (atFaces (L p) f) c = toCells dim G (atFaces G f) (phi (data p) c) := by
  unfold toCells Interp.facetocell
  congr 1
  rw [List.foldl_map, List.foldl_map]
  apply List.foldl_ext
  intro s j hj
  rw [atFaces_eq h hp f hc (List.mem_range.mp hj)]

theorem cellLam_match (h : RunPair dim SIZE n epart data L G B out) {p : Nat} (hp : p < SIZE) (u v w U V W : Nat → K) (Dxx Dyy Dzz : K)
    {c : Nat} (hc : c < (L p).nbcells) (hu : u c = U (phi (data p) c)) (hv : v c = V (phi (data p) c)) (hw : w c = W (phi (data p) c)) :
    cellLam u v w (L p).normal (L p).mesure (L p).volume (L p).faceid dim Dxx Dyy Dzz c =
      cellLam U V W G.normal G.mesure G.volume G.faceid dim Dxx Dyy Dzz (phi (data p) c) := by
  unfold cellLam
  apply List.foldl_ext
  intro s j hj
  obtain ⟨ε, hε, hnn⟩ := (h.rank p hp).normal_pm hc (List.mem_range.mp hj)
  have a0 := hnn 0 (by omega)
  have a1 := hnn 1 (by omega)
  have a2 := hnn 2 (by omega)
  dsimp only
  rw [h.volume p hp c hc, h.mesure p hp c hc j (List.mem_range.mp hj), hu, hv, hw, a0, a1, a2]
  rcases hε with rfl | rfl
  · simp only [one_mul]
  · have e : ∀ a b c : K, a * (-1 * b) = - (a * b) := fun a b c => by ring
    rw [show U (phi (data p) c) * (-1 * G.normal (G.faceid (phi (data p) c) j) 0) + V (phi (data p) c) * (-1 * G.normal (G.faceid (phi (data p) c) j) 1)
        + W (phi (data p) c) * (-1 * G.normal (G.faceid (phi (data p) c) j) 2) =
      - (U (phi (data p) c) * G.normal (G.faceid (phi (data p) c) j) 0 + V (phi (data p) c) * G.normal (G.faceid (phi (data p) c) j) 1
        + W (phi (data p) c) * G.normal (G.faceid (phi (data p) c) j) 2) by ring, abs_neg]
    simp only [neg_one_mul, neg_mul_neg]

/-- The global time step is the serial one. -/
theorem dt_match (h : RunPair dim SIZE n epart data L G B out) (S : Setup K) (it : Nat) :
    allreduceMin SIZE (fun p => localStep dim S (L p) it) = allreduceMin 1 (fun _ => localStep dim S G it) := by
  have key : ∀ x, x ≤ allreduceMin SIZE (fun p => localStep dim S (L p) it) ↔ x ≤ localStep dim S G it := by
    intro x
    unfold allreduceMin
    rw [le_foldl_min, le_localStep dim S G]
    have hS := h.hS
    constructor
    · rintro ⟨h0, h1⟩
      refine ⟨((le_localStep _ _ _ _ _).mp h0).1, fun C hC => ?_⟩
      rw [h.nG] at hC
      have hp := h.he C hC
      obtain ⟨c, hc, e⟩ := (h.rank _ hp).sub.surj C (by rw [h.nG]; exact hC) rfl
      have := ((le_localStep _ _ _ _ _).mp (h1 _ (List.mem_range.mpr hp))).2 c hc
      rw [h.volume _ hp c hc, cellLam_match h hp _ _ _ _ _ _ _ _ _ hc (toCells_eq h hp _ hc) (toCells_eq h hp _ hc) (toCells_eq h hp _ hc), e] at this
      exact this
    · rintro ⟨h0, h1⟩
      have hall : ∀ p < SIZE, x ≤ localStep dim S (L p) it := by
        intro p hp
        refine (le_localStep _ _ _ _ _).mpr ⟨h0, fun c hc => ?_⟩
        rw [h.volume _ hp c hc, cellLam_match h hp _ _ _ _ _ _ _ _ _ hc (toCells_eq h hp _ hc) (toCells_eq h hp _ hc) (toCells_eq h hp _ hc)]
        exact h1 _ ((h.rank p hp).sub.lt c hc).1
      exact ⟨hall 0 (by omega), fun p hp => hall p (List.mem_range.mp hp)⟩
  have e1 : allreduceMin 1 (fun _ => localStep dim S G it) = localStep dim S G it := by
    unfold allreduceMin; simp
  rw [e1]
  exact le_antisymm ((key _).mp le_rfl) ((key _).mpr le_rfl)

/-- The state of a parallel run is the restriction of the state of the serial run. -/
structure StateMatch (SIZE : Nat) (data : Nat → RankData K) (s t : State K) : Prop where
  cell : ∀ p < SIZE, Restricts (data p).loctoglob (s.cell p) (t.cell 0)
  time : s.time = t.time
  iter : s.iter = t.iter

theorem mapM_range_some {α : Type*} (n : Nat) (f : Nat → Option α) (h : ∀ p < n, ∃ x, f p = some x) :
    ∃ l : List α, (List.range n).mapM f = some l ∧ l.length = n ∧ ∀ p < n, l[p]? = f p := by
  induction n with
  | zero => exact ⟨[], rfl, rfl, fun p hp => by omega⟩
  | succ n ih =>
    obtain ⟨l, h1, h2, h3⟩ := ih (fun p hp => h p (by omega))
    obtain ⟨x, hx⟩ := h n (by omega)
    refine ⟨l ++ [x], ?_, by simp [h2], fun p hp => ?_⟩
    · rw [List.range_succ, List.mapM_append, h1]; simp [hx]
    · by_cases hpn : p < n
      · rw [List.getElem?_append_left (by omega), h3 p hpn]
      · obtain rfl : p = n := by omega
        rw [List.getElem?_append_right (by omega), hx]; simp [h2]

theorem ghostVal_match (h : RunPair dim SIZE n epart data L G B out) {p : Nat} (hp : p < SIZE) (cell W : Nat → K)
    (hr : ∀ c < (L p).nbcells, cell c = W (phi (data p) c)) {c : Nat} (hc : c < (L p).nbcells) {j : Nat} (hj : j < dim + 1)
    (hb : (L p).faceid c j ∈ (L p).boundaryfaces) (b : BCond K) :
    ghostVal (L p) cell ((L p).faceid c j) b = ghostVal G W (G.faceid (phi (data p) c) j) b := by
  obtain ⟨_, _, c0, C0⟩ := (h.rank p hp).boundary hc hj hb
  have hf := (h.rank p hp).fcenter c hc j hj
  cases b with
  | neumann => simp only [ghostVal]; rw [c0, C0]; simpa [idx] using hr c hc
  | nonslip => simp only [ghostVal]; rw [c0, C0]; simpa [idx] using hr c hc
  | dirichlet v => simp only [ghostVal]; rw [hf 0 (by omega), hf 1 (by omega), hf 2 (by omega)]

set_option maxHeartbeats 1000000 in
theorem step_match (h : RunPair dim SIZE n epart data L G B out) (S : Setup K) (gs gt : Nat → Grads K) (serial : Nat → RankData K)
    (s t : State K) (hm : StateMatch SIZE data s t) :
    ∃ (s' t' : State K), step dim SIZE data L S gs s = some s' ∧ step dim 1 serial (fun _ => G) S gt t = some t' ∧ StateMatch SIZE data s' t' := by
  have hS1 : ¬ SIZE = 1 := by have := h.hS; omega
  have hex : ∀ p < SIZE, ∃ x, exchange SIZE data s.cell p = some x := by
    intro p hp
    obtain ⟨halo, h1, _⟩ := h.halo s.cell (t.cell 0) hm.cell p hp
    exact ⟨halo, by unfold exchange; rw [if_neg hS1]; exact h1⟩
  obtain ⟨halos, hh1, hh2, hh3⟩ := mapM_range_some SIZE _ hex
  have hdt := dt_match h S s.iter
  refine ⟨stepWith dim SIZE L S gs s halos, stepWith dim 1 (fun _ => G) S gt t [[]], ?_, ?_, ?_⟩
  · unfold step; rw [hh1]; rfl
  · unfold step
    have : (List.range 1).mapM (exchange 1 serial t.cell) = some [[]] := by simp [exchange]
    rw [this]; rfl
  refine ⟨?_, ?_, ?_⟩
  · intro p hp
    rw [restricts_iff h hp]
    intro c hc
    have hr := (restricts_iff h hp _ _).mp (hm.cell p hp)
    unfold stepWith updateNewValue
    dsimp only
    rw [hdt, ← hm.iter, hr c hc, h.volume p hp c hc]
    have hC := ((h.rank p hp).sub.lt c hc).1
    rw [conv_balance (h.rank p hp).cL _ _ h.hd, conv_balance (h.rank p hp).cG _ _ h.hd, balance_order1, balance_order1 G]
    rw [rank_balance (h.rank p hp) (FL := noGrads _) (FG := noGrads _) ?_ 1 dim (by rcases h.hd with e | e <;> omega) c hc]
    refine ⟨fun c hc => ⟨hr c hc, rfl, rfl, rfl, rfl⟩, ?_, ?_, ?_⟩
    · intro k row E hk hE hEn
      refine ⟨?_, rfl, rfl, rfl, rfl⟩
      obtain ⟨halo, h1, h2⟩ := h.halo s.cell (t.cell 0) hm.cell p hp
      have e : halos[p]? = some halo := by
        rw [hh3 p hp]; unfold exchange; rw [if_neg hS1]; exact h1
      have e' : halos.getD p [] = halo := by rw [List.getD_eq_getElem?_getD, e]; rfl
      show (halos.getD p []).getD k 0 = t.cell 0 E
      rw [e']; exact h2 k row E hk hE
    · intro c hc j hj
      exact ⟨atFaces_eq h hp _ hc hj, atFaces_eq h hp _ hc hj, atFaces_eq h hp _ hc hj⟩
    · intro c hc j hj hb
      obtain ⟨e1, e2, _, _⟩ := (h.rank p hp).boundary hc hj hb
      show updateGhosts dim (L p) (s.cell p) S.bc (s.ghost p) _ = updateGhosts dim G (t.cell 0) S.bc (t.ghost 0) _
      rw [updateGhosts_apply _ _ _ _ _ ((h.rank p hp).cL.flt c hc j hj) (h.hB _ e2),
        updateGhosts_apply _ _ _ _ _ ((h.rank p hp).cG.flt _ ((h.rank p hp).sub.lt c hc).1 j hj) (h.hB _ (e1 ▸ e2)), ← e1]
      exact ghostVal_match h hp _ _ hr hc hj hb _
  · show s.time + _ = t.time + _
    rw [hdt, hm.time, hm.iter]
  · show s.iter + 1 = t.iter + 1
    rw [hm.iter]

theorem loop_match (h : RunPair dim SIZE n epart data L G B out) (S : Setup K) (gs gt : Nat → Nat → Grads K) (serial : Nat → RankData K)
    (s t : State K) (hm : StateMatch SIZE data s t) (N : Nat) :
    ∃ (s' t' : State K), loop dim SIZE data L S gs s N = some s' ∧ loop dim 1 serial (fun _ => G) S gt t N = some t' ∧
      StateMatch SIZE data s' t' := by
  induction N with
  | zero => exact ⟨s, t, rfl, rfl, hm⟩
  | succ N ih =>
    obtain ⟨s1, t1, e1, e2, m1⟩ := ih
    simp only [loop, e1, e2, Option.bind_some]
    rw [m1.time]
    by_cases ht : t1.time < S.tfinal
    · simp only [if_pos ht]; exact step_match h S _ _ serial s1 t1 m1
    · simp only [if_neg ht]; exact ⟨s1, t1, rfl, rfl, m1⟩

theorem start_match (h : RunPair dim SIZE n epart data L G B out) (f : K → K → K → K) :
    StateMatch SIZE data (start L f) (start (fun _ => G) f) := by
  refine ⟨fun p hp => ?_, rfl, rfl⟩
  rw [restricts_iff h hp]
  intro c hc
  have := (h.rank p hp).center c hc
  show f _ _ _ = f _ _ _
  rw [this 0 (by omega), this 1 (by omega), this 2 (by omega)]

end
end Verif.Props.Par
