import Verif.Props.ParVar
import Verif.Props.Diamond

/-! Helper lemmas for the parallel theorems: face gradients and the dissipative residual, on a rank and in the serial run. -/
set_option linter.unusedSectionVars false
set_option linter.unusedVariables false
set_option linter.unusedSimpArgs false
namespace Verif.Props.Par
open Verif.Fvm Verif.Spec Verif.Conn Verif.Dom Verif.Geo Verif.Names Verif.MeshFile Verif.Part Verif.Comm Verif.Run Verif.HaloGhost Verif.Interp Verif.Props.HG
variable {K : Type*} [Field K] [LinearOrder K] [IsStrictOrderedRing K]

/-! ### the gradient of a diamond as a function of its points -/

/-- The gradient on the diamond with face nodes `a`, `b` and side points `l`, `r` (2D). -/
def gradPts2 (a b l r : Vec K × K) : Vec K := fun k =>
  let air := (b.1 0 - a.1 0) * (r.1 1 - l.1 1) + (l.1 0 - r.1 0) * (b.1 1 - a.1 1)
  match k with
  | 0 => ((a.2 - b.2) * (l.1 1 - r.1 1) + (l.2 - r.2) * (b.1 1 - a.1 1)) / air
  | 1 => - (((a.2 - b.2) * (l.1 0 - r.1 0) + (l.2 - r.2) * (b.1 0 - a.1 0)) / air)
  | _ => 0

theorem div_flip {x y x' y' : K} (h1 : x = -x') (h2 : y = -y') : x / y = x' / y' := by rw [h1, h2, neg_div_neg_eq]

theorem gradPts2_swap (a b l r : Vec K × K) : gradPts2 b a l r = gradPts2 a b l r := by
  funext k
  match k with
  | 0 => exact div_flip (by ring) (by ring)
  | 1 => exact congrArg (fun x => -x) (div_flip (by ring) (by ring))
  | k + 2 => rfl

theorem gradPts2_sides (a b l r : Vec K × K) : gradPts2 a b r l = gradPts2 a b l r := by
  funext k
  match k with
  | 0 => exact div_flip (by ring) (by ring)
  | 1 => exact congrArg (fun x => -x) (div_flip (by ring) (by ring))
  | k + 2 => rfl

theorem gradPts2_cut (a b l r : Vec K × K) : gradPts2 (cut 2 a) (cut 2 b) (cut 2 l) (cut 2 r) = gradPts2 a b l r := by
  funext k
  unfold gradPts2 cut
  match k with
  | 0 => simp
  | 1 => simp
  | k + 2 => rfl

theorem diamondGrad2_pts (F : FaceTabs K) (i : Nat) (vi1 vi2 vv1 vv2 : K) :
    (diamondGrad2 (faceGradientInfo2 F i) vi1 vi2 vv1 vv2).1 = gradPts2 (F.vertexn (F.nodeid i 0), vi1) (F.vertexn (F.nodeid i 1), vi2)
      (F.centerc (F.cellid0 i), vv1) (right2 F i, vv2) 0 ∧
    (diamondGrad2 (faceGradientInfo2 F i) vi1 vi2 vv1 vv2).2 = gradPts2 (F.vertexn (F.nodeid i 0), vi1) (F.vertexn (F.nodeid i 1), vi2)
      (F.centerc (F.cellid0 i), vv1) (right2 F i, vv2) 1 := by
  simp only [diamondGrad2, faceGradientInfo2, gradPts2]
  have e : ∀ A : K, 2 * (1 / 2 * A) = A := fun A => by ring
  rw [e]
  constructor
  · rw [one_div, mul_comm, ← div_eq_mul_inv]; congr 1; ring
  · rw [neg_div, one_div, neg_mul, mul_comm, ← div_eq_mul_inv]; congr 2; ring

/-- The gradient on the diamond with face nodes `a`, `b`, `c` and side points `l`, `r` (3D). -/
def gradPts3 (a b c l r : Vec K × K) : Vec K := fun k =>
  let N : Vec K := wedge (fun k => b.1 k - a.1 k) (fun k => c.1 k - a.1 k)
  let s : Vec K := fun k => r.1 k - l.1 k
  (wedge s (fun k => (c.1 k - b.1 k) * (a.2 - c.2) + (a.1 k - c.1 k) * (b.2 - c.2)) k + N k * (r.2 - l.2)) / dot3 N s

theorem wedge_val (u v : Vec K) : wedge u v 0 = u 1 * v 2 - u 2 * v 1 ∧ wedge u v 1 = u 2 * v 0 - u 0 * v 2 ∧
    ∀ k, wedge u v (k + 2) = u 0 * v 1 - u 1 * v 0 := by
  refine ⟨?_, ?_, fun k => ?_⟩ <;> simp only [wedge]

theorem gradPts3_swap (a b c l r : Vec K × K) : gradPts3 b a c l r = gradPts3 a b c l r := by
  funext k
  unfold gradPts3
  dsimp only
  apply div_flip
  · match k with
    | 0 => simp only [wedge_val]; ring
    | 1 => simp only [wedge_val]; ring
    | k + 2 => simp only [wedge_val]; ring
  · simp only [dot3, wedge]; ring

theorem gradPts3_cycle (a b c l r : Vec K × K) : gradPts3 b c a l r = gradPts3 a b c l r := by
  funext k
  unfold gradPts3
  dsimp only
  congr 1
  · match k with
    | 0 => simp only [wedge_val]; ring
    | 1 => simp only [wedge_val]; ring
    | k + 2 => simp only [wedge_val]; ring
  · simp only [dot3, wedge]; ring

theorem gradPts3_sides (a b c l r : Vec K × K) : gradPts3 a b c r l = gradPts3 a b c l r := by
  funext k
  unfold gradPts3
  dsimp only
  apply div_flip
  · match k with
    | 0 => simp only [wedge_val]; ring
    | 1 => simp only [wedge_val]; ring
    | k + 2 => simp only [wedge_val]; ring
  · simp only [dot3, wedge]; ring

theorem gradPts3_cut (a b c l r : Vec K × K) (k : Nat) :
    gradPts3 (cut 3 a) (cut 3 b) (cut 3 c) (cut 3 l) (cut 3 r) k = gradPts3 a b c l r k := by
  unfold gradPts3 cut
  match k with
  | 0 => simp [wedge, dot3]
  | 1 => simp [wedge, dot3]
  | k + 2 => simp [wedge, dot3]

/-- The stored normal of a face is half the vector product of two of its edges. -/
def WedgeOk (D : Tables K) : Prop := ∀ f < D.nbfaces, ∀ k < 3,
  wedge (fun k => D.vertex ((D.fnode f).getD 1 0) k - D.vertex ((D.fnode f).getD 0 0) k)
    (fun k => D.vertex ((D.fnode f).getD 2 0) k - D.vertex ((D.fnode f).getD 0 0) k) k = 2 * D.normal f k

theorem diamondGrad3_pts (F : FaceTabs K) (i : Nat) (VA VB VC VL VR : K)
    (hn : ∀ k < 3, wedge (fun k => F.vertexn (F.nodeid i 1) k - F.vertexn (F.nodeid i 0) k)
      (fun k => F.vertexn (F.nodeid i 2) k - F.vertexn (F.nodeid i 0) k) k = 2 * F.normal i k) {k : Nat} (hk : k < 3) :
    diamondGrad3 (faceGradientInfo3 F i) (F.normal i) VA VB VC VC VL VR k = gradPts3 (F.vertexn (F.nodeid i 0), VA) (F.vertexn (F.nodeid i 1), VB)
      (F.vertexn (F.nodeid i 2), VC) (F.centerc (F.cellid0 i), VL) (right3 F i, VR) k := by
  have n0 := hn 0 (by omega)
  have n1 := hn 1 (by omega)
  have n2 := hn 2 (by omega)
  have nk := hn k hk
  unfold diamondGrad3 gradPts3
  simp only [faceGradientInfo3]
  generalize hN : wedge (fun k => F.vertexn (F.nodeid i 1) k - F.vertexn (F.nodeid i 0) k)
      (fun k => F.vertexn (F.nodeid i 2) k - F.vertexn (F.nodeid i 0) k) = N at *
  rw [← mul_div_mul_left _ _ (two_ne_zero (α := K))]
  congr 1
  · rw [nk]
    have : k = 0 ∨ k = 1 ∨ k = 2 := by omega
    rcases this with rfl | rfl | rfl <;> simp only [wedge] <;> ring
  · simp only [dot3]; rw [n0, n1, n2]; ring

/-! ### the computed face gradient -/

theorem hasKind_of {D : Tables K} {d1 : Nat} {B : List Int} (h : Consistent D d1 B) {dim : Nat} (hB : ∀ b ∈ B, b ∈ locNames dim)
    (hBn : ∀ l ∈ locNames dim, l ≠ 0 ∧ l ≠ 10) (bc : Int → BCond K) (w : Interp.Fields K) {f : Nat} (hf : f < D.nbfaces)
    (hn : D.name f = 0 ∨ D.name f = 10 ∨ D.name f ∈ B) :
    ∃ kind, (varFaces dim D bc).HasKind f kind ∧ otherValue (faceTabs dim D) w f kind = otherVal D w f := by
  have hdir : f ∈ (varFaces dim D bc).dirichlet ↔ D.name f ∈ locNames dim ∧ (bc (D.name f)).isDirichlet = true := by
    simp only [varFaces, List.mem_flatMap]
    constructor
    · rintro ⟨l, hl, hm⟩
      split_ifs at hm with hb
      · have : D.name f = l := by simpa [Var.facesNamed, hf] using hm
        rw [this]; exact ⟨hl, hb⟩
      · simp at hm
    · rintro ⟨hl, hb⟩
      exact ⟨_, hl, by rw [if_pos hb]; simp [Var.facesNamed, hf]⟩
  have hneu : f ∈ (varFaces dim D bc).neumann ↔ D.name f ∈ locNames dim ∧ ¬ (bc (D.name f)).isDirichlet = true := by
    simp only [varFaces, List.mem_flatMap]
    constructor
    · rintro ⟨l, hl, hm⟩
      split_ifs at hm with hb
      · simp at hm
      · have : D.name f = l := by simpa [Var.facesNamed, hf] using hm
        rw [this]; exact ⟨hl, hb⟩
    · rintro ⟨hl, hb⟩
      exact ⟨_, hl, by rw [if_neg hb]; simp [Var.facesNamed, hf]⟩
  have hin : f ∈ (varFaces dim D bc).inner ↔ D.name f = 0 := by
    show f ∈ D.innerfaces ↔ _
    rw [h.inner.2]; simp [hf]
  have hha : f ∈ (varFaces dim D bc).halo ↔ D.name f = 10 := by
    show f ∈ D.halofaces ↔ _
    rw [h.halo.2]; simp [hf]
  have hpe : f ∉ (varFaces dim D bc).periodic := by
    show f ∉ D.periodicboundaryfaces
    rw [h.per]; simp
  have nl : D.name f = 0 ∨ D.name f = 10 → D.name f ∉ locNames dim := by
    rintro (e | e) hm
    · exact (hBn _ hm).1 e
    · exact (hBn _ hm).2 e
  unfold otherVal
  rcases hn with e | e | e
  · refine ⟨.inner, ⟨hin.mpr e, hpe, ?_, ?_, ?_⟩, ?_⟩
    · rw [hha, e]; decide
    · rw [hdir]; exact fun x => nl (Or.inl e) x.1
    · rw [hneu]; exact fun x => nl (Or.inl e) x.1
    · rw [if_pos e]; rfl
  · refine ⟨.halo, ⟨hha.mpr e, ?_, hpe, ?_, ?_⟩, ?_⟩
    · rw [hin, e]; decide
    · rw [hdir]; exact fun x => nl (Or.inr e) x.1
    · rw [hneu]; exact fun x => nl (Or.inr e) x.1
    · rw [if_neg (by rw [e]; decide), if_pos e]; rfl
  · have n0 : D.name f ≠ 0 := fun x => h.B0 (x ▸ e)
    have n10 : D.name f ≠ 10 := fun x => h.B10 (x ▸ e)
    rw [if_neg n0, if_neg n10]
    by_cases hb : (bc (D.name f)).isDirichlet = true
    · refine ⟨.dirichlet, ⟨hdir.mpr ⟨hB _ e, hb⟩, ?_, hpe, ?_, ?_⟩, rfl⟩
      · rw [hin]; exact n0
      · rw [hha]; exact n10
      · rw [hneu]; exact fun x => x.2 hb
    · refine ⟨.neumann, ⟨hneu.mpr ⟨hB _ e, hb⟩, ?_, hpe, ?_, ?_⟩, rfl⟩
      · rw [hin]; exact n0
      · rw [hha]; exact n10
      · rw [hdir]; exact fun x => hb x.2

/-- Node `k` of face `f` with its value. -/
def nodePt (D : Tables K) (node : Nat → K) (f k : Nat) : Vec K × K := (D.vertex ((D.fnode f).getD k 0), node ((D.fnode f).getD k 0))

theorem right_eq {dim : Nat} (D : Tables K) (f : Nat)
    (hn : D.name f = 0 ∨ D.name f = 10 ∨ D.name f ∈ (if dim = 2 then [1, 2, 3, 4] else [1, 2, 3, 4, 5, 6] : List Int)) (hd : dim = 2 ∨ dim = 3) :
    (if dim = 2 then right2 (faceTabs dim D) f else right3 (faceTabs dim D) f) = otherPt dim D f := by
  unfold otherPt
  rcases hd with rfl | rfl
  · rw [if_pos rfl]
    unfold right2
    simp only [faceTabs]
    rcases hn with e | e | e
    · simp [e]
    · simp [e]
    · simp only [if_true, List.mem_cons, List.not_mem_nil, or_false] at e
      rcases e with e | e | e | e <;> simp [e, bndOf, bnd2]
  · rw [if_neg (by decide)]
    unfold right3
    simp only [faceTabs]
    rcases hn with e | e | e
    · simp [e]
    · simp [e]
    · simp only [show ¬ (3 = 2) by decide, if_false, List.mem_cons, List.not_mem_nil, or_false] at e
      rcases e with e | e | e | e | e | e <;> simp [e, bndOf, bnd3]

theorem faceGrads_pts2 {D : Tables K} {B : List Int} (h : Consistent D 3 B) (hB : B = [1, 2, 3, 4]) (bc : Int → BCond K) (w : Interp.Fields K)
    (node : Nat → K) {f : Nat} (hf : f < D.nbfaces) (hn : D.name f = 0 ∨ D.name f = 10 ∨ D.name f ∈ B) (k : Nat) :
    faceGrads 2 D bc w node f k = gradPts2 (cut 2 (nodePt D node f 0)) (cut 2 (nodePt D node f 1)) (sideL 2 D w f) (sideR 2 D w f) k := by
  subst hB
  obtain ⟨kind, hk, ho⟩ := hasKind_of h (dim := 2) (by decide) (by decide) bc w hf hn
  unfold faceGrads sideL sideR
  rw [if_pos rfl, gradPts2_cut]
  rw [faceGradient2_apply _ _ _ _ _ _ kind hk, ho]
  obtain ⟨e1, e2⟩ := diamondGrad2_pts (faceTabs 2 D) f (node ((faceTabs 2 D).nodeid f 0)) (node ((faceTabs 2 D).nodeid f 1)) (w.c ((faceTabs 2 D).cellid0 f))
    (otherVal D w f)
  have er := right_eq (dim := 2) D f (by simpa using hn) (Or.inl rfl)
  rw [if_pos rfl] at er
  rw [er] at e1 e2
  match k with
  | 0 => exact e1
  | 1 => exact e2
  | k + 2 => rfl

theorem faceGrads_pts3 {D : Tables K} {B : List Int} (h : Consistent D 4 B) (hB : B = [1, 2, 3, 4, 5, 6]) (hw : WedgeOk D) (bc : Int → BCond K)
    (w : Interp.Fields K) (node : Nat → K) {f : Nat} (hf : f < D.nbfaces) (hn : D.name f = 0 ∨ D.name f = 10 ∨ D.name f ∈ B) {k : Nat} (hk3 : k < 3) :
    faceGrads 3 D bc w node f k = gradPts3 (cut 3 (nodePt D node f 0)) (cut 3 (nodePt D node f 1)) (cut 3 (nodePt D node f 2))
      (sideL 3 D w f) (sideR 3 D w f) k := by
  subst hB
  obtain ⟨kind, hk, ho⟩ := hasKind_of h (dim := 3) (by decide) (by decide) bc w hf hn
  unfold faceGrads sideL sideR
  rw [if_neg (by decide), gradPts3_cut]
  rw [faceGradient3_apply _ _ _ _ _ _ kind hk, ho]
  have e1 := diamondGrad3_pts (faceTabs 3 D) f (node ((faceTabs 3 D).nodeid f 0)) (node ((faceTabs 3 D).nodeid f 1)) (node ((faceTabs 3 D).nodeid f 2))
    (w.c ((faceTabs 3 D).cellid0 f)) (otherVal D w f) (fun k hk => hw f hf k hk) hk3
  have er := right_eq (dim := 3) D f (by simpa using hn) (Or.inr rfl)
  rw [if_neg (by decide)] at er
  rw [er] at e1
  exact e1

section
variable {dim : Nat} {nodeid : Nat → Nat → Nat} {node : Nat → K × K × K × Nat} {cv : Nat → List K} {npart0 epart : Nat → Nat}
  {nbnodes n SIZE : Nat} {data : Nat → RankData K} {serial : RankData K} {L : Nat → Tables K} {G : Tables K} {B : List Int}
  {out : Nat → Nat → Vec K} {trunc : K → Int}

theorem perm_two {a b x y : Nat} (h : [x, y].Perm [a, b]) : (x = a ∧ y = b) ∨ (x = b ∧ y = a) := by
  have := List.mem_permutations'.mpr h
  simpa [List.permutations', List.permutations'Aux, or_assoc] using this
theorem list2 (l : List Nat) (h : l.length = 2) : l = [l.getD 0 0, l.getD 1 0] := by
  match l, h with | [a, b], _ => rfl
theorem list3 (l : List Nat) (h : l.length = 3) : l = [l.getD 0 0, l.getD 1 0, l.getD 2 0] := by
  match l, h with | [a, b, c], _ => rfl

/-- The gradient on a face of a rank is the gradient on the same face in the serial run. -/
theorem NodePair.faceGrads_eq (h : NodePair dim nodeid node cv npart0 epart nbnodes n SIZE data serial L G B out trunc)
    (hw : dim = 3 → WedgeOk G ∧ ∀ p < SIZE, WedgeOk (L p))
    (bc : Int → BCond K) {p : Nat} (hp : p < SIZE) {hg : HGResult K} {wL wG : Interp.Fields K}
    (vL : ValuesOk dim SIZE data L G wG.c bc p hg wL) (vG : ValuesG dim G bc wG) (nL nG : Nat → K)
    (hN : ∀ i < (L p).nbnodes, nL i = nG (gOf (data p) i)) {c : Nat} (hc : c < (L p).nbcells) {j : Nat} (hj : j < dim + 1) {k : Nat} (hk : k < 3) :
    faceGrads dim (L p) bc wL nL ((L p).faceid c j) k = faceGrads dim G bc wG nG (G.faceid (phi (data p) c) j) k := by
  have R := h.run.rank p hp
  have hC := (R.sub.lt c hc).1
  have hf := R.cL.flt c hc j hj
  have hFF := R.cG.flt (phi (data p) c) hC j hj
  have nmL : (L p).name ((L p).faceid c j) = 0 ∨ (L p).name ((L p).faceid c j) = 10 ∨ (L p).name ((L p).faceid c j) ∈ B := by
    rcases R.kinds hc hj with ⟨_, _, hB, _⟩ | ⟨_, _, _, hLn, _⟩ | ⟨_, _, _, _, hLn, _⟩
    · exact Or.inr (Or.inr hB)
    · exact Or.inl hLn
    · exact Or.inr (Or.inl hLn)
  have nmG : G.name (G.faceid (phi (data p) c) j) = 0 ∨ G.name (G.faceid (phi (data p) c) j) = 10 ∨ G.name (G.faceid (phi (data p) c) j) ∈ B := by
    rcases R.kinds hc hj with ⟨_, _, hB, hnm, _⟩ | ⟨_, _, _, _, hGn, _⟩ | ⟨_, _, _, _, _, hGn, _⟩
    · exact Or.inr (Or.inr (hnm ▸ hB))
    · exact Or.inl hGn
    · exact Or.inl hGn
  obtain ⟨hnd, hlen, _⟩ := h.fnodeG (phi (data p) c) (by rw [← h.run.nG]; exact hC) j hj
  have sf := h.sameFace p hp c hc j hj
  have hlenL : ((L p).fnode ((L p).faceid c j)).length = dim := by
    have := sf.length_eq; rw [List.length_map, hlen] at this; exact this
  have ac := h.across bc hp vL vG hc hj
  -- the nodes of the face
  have pt : ∀ i ∈ (L p).fnode ((L p).faceid c j), cut dim ((L p).vertex i, nL i) = cut dim (G.vertex (gOf (data p) i), nG (gOf (data p) i)) := by
    intro i hi
    obtain ⟨x, hx, rfl⟩ := h.fnodeL p hp c hc j hj i hi
    have hlt : at2 0 (data p).nodeid c x < (L p).nbnodes := by
      rw [h.nbL p hp]; exact h.hl.node_lt hp (by rw [← h.nL hp]; exact hc) hx
    refine cut_eq (fun k hk => ?_) (hN _ hlt)
    rw [h.vertexL p hp, h.vertexG]
    exact h.hl.vertex_eq hp (by rw [← h.nbL p hp]; exact hlt) k (by have := h.run.hd; omega)
  have hB := h.hBe
  rcases h.run.hd with rfl | rfl
  · rw [faceGrads_pts2 R.cL hB bc wL nL hf nmL, faceGrads_pts2 R.cG hB bc wG nG hFF nmG]
    have eL := list2 _ hlenL
    have eG := list2 _ hlen
    have p0 := pt ((L p).fnode ((L p).faceid c j) |>.getD 0 0) (by rw [eL]; simp)
    have p1 := pt ((L p).fnode ((L p).faceid c j) |>.getD 1 0) (by rw [eL]; simp)
    have hpm : [gOf (data p) ((L p).fnode ((L p).faceid c j) |>.getD 0 0), gOf (data p) ((L p).fnode ((L p).faceid c j) |>.getD 1 0)].Perm
        [(G.fnode (G.faceid (phi (data p) c) j)).getD 0 0, (G.fnode (G.faceid (phi (data p) c) j)).getD 1 0] := by
      rw [← eG]
      refine List.Perm.trans (List.Perm.of_eq ?_) sf
      conv_rhs => rw [eL]
      rfl
    have step : gradPts2 (cut 2 (nodePt (L p) nL ((L p).faceid c j) 0)) (cut 2 (nodePt (L p) nL ((L p).faceid c j) 1))
        (sideL 2 (L p) wL ((L p).faceid c j)) (sideR 2 (L p) wL ((L p).faceid c j)) =
        gradPts2 (cut 2 (nodePt G nG (G.faceid (phi (data p) c) j) 0)) (cut 2 (nodePt G nG (G.faceid (phi (data p) c) j) 1))
        (sideL 2 (L p) wL ((L p).faceid c j)) (sideR 2 (L p) wL ((L p).faceid c j)) := by
      unfold nodePt
      rw [p0, p1]
      rcases perm_two hpm with e | e
      · rw [e.1, e.2]
      · rw [e.1, e.2, gradPts2_swap]
    rw [step]
    rcases ac with ⟨a1, a2⟩ | ⟨a1, a2⟩
    · rw [a1, a2]
    · rw [a1, a2, gradPts2_sides]
  · obtain ⟨wG', wL'⟩ := hw rfl
    rw [faceGrads_pts3 R.cL hB (wL' p hp) bc wL nL hf nmL hk, faceGrads_pts3 R.cG hB wG' bc wG nG hFF nmG hk]
    have eL := list3 _ hlenL
    have eG := list3 _ hlen
    have p0 := pt ((L p).fnode ((L p).faceid c j) |>.getD 0 0) (by rw [eL]; simp)
    have p1 := pt ((L p).fnode ((L p).faceid c j) |>.getD 1 0) (by rw [eL]; simp)
    have p2 := pt ((L p).fnode ((L p).faceid c j) |>.getD 2 0) (by rw [eL]; simp)
    have hpm : [gOf (data p) ((L p).fnode ((L p).faceid c j) |>.getD 0 0), gOf (data p) ((L p).fnode ((L p).faceid c j) |>.getD 1 0),
        gOf (data p) ((L p).fnode ((L p).faceid c j) |>.getD 2 0)].Perm
        [(G.fnode (G.faceid (phi (data p) c) j)).getD 0 0, (G.fnode (G.faceid (phi (data p) c) j)).getD 1 0,
          (G.fnode (G.faceid (phi (data p) c) j)).getD 2 0] := by
      rw [← eG]
      refine List.Perm.trans (List.Perm.of_eq ?_) sf
      conv_rhs => rw [eL]
      rfl
    have step : gradPts3 (cut 3 (nodePt (L p) nL ((L p).faceid c j) 0)) (cut 3 (nodePt (L p) nL ((L p).faceid c j) 1))
        (cut 3 (nodePt (L p) nL ((L p).faceid c j) 2))
        (sideL 3 (L p) wL ((L p).faceid c j)) (sideR 3 (L p) wL ((L p).faceid c j)) =
        gradPts3 (cut 3 (nodePt G nG (G.faceid (phi (data p) c) j) 0)) (cut 3 (nodePt G nG (G.faceid (phi (data p) c) j) 1))
        (cut 3 (nodePt G nG (G.faceid (phi (data p) c) j) 2))
        (sideL 3 (L p) wL ((L p).faceid c j)) (sideR 3 (L p) wL ((L p).faceid c j)) := by
      unfold nodePt
      rw [p0, p1, p2]
      rcases perm3 hpm with e | e | e | e | e | e <;> obtain ⟨e0, e1, e2⟩ := e <;> rw [e0, e1, e2]
      all_goals first
        | rfl
        | exact gradPts3_swap _ _ _ _ _
        | exact gradPts3_cycle _ _ _ _ _
        | exact (gradPts3_cycle _ _ _ _ _).symm
        | exact (gradPts3_cycle _ _ _ _ _).trans (gradPts3_swap _ _ _ _ _)
        | exact (gradPts3_cycle _ _ _ _ _).trans (gradPts3_cycle _ _ _ _ _)
        | exact (gradPts3_swap _ _ _ _ _).trans (gradPts3_cycle _ _ _ _ _)
    rw [step]
    rcases ac with ⟨a1, a2⟩ | ⟨a1, a2⟩
    · rw [a1, a2]
    · rw [a1, a2, gradPts3_sides]

end
end Verif.Props.Par
