import Verif.Props.PerDir

/-! Helper lemmas for the theorems on meshes with periodic sides: the periodic update succeeds and pairs the periodic faces. -/
set_option linter.unusedSectionVars false
set_option linter.unusedVariables false
set_option linter.unusedSimpArgs false
namespace Verif.Props.Par
open Verif.Fvm Verif.Spec Verif.Conn Verif.Dom Verif.Geo Verif.Names Verif.MeshFile Verif.Part Verif.Comm Verif.Run Verif.Periodic
variable {K : Type*} [Field K] [LinearOrder K] [IsStrictOrderedRing K]

section
variable {m : Mesh K} {D : Tables K} {side : Nat → Nat → List Nat} {opn : Nat → Nat → Nat} {out : Nat → Nat → Vec K} {F : List (List Nat)}
  {nm : Nat → Int} {g : Nat → Nat} {L : Nat → K} {r : K → K}

theorem centre_const (m : Mesh K) {l : List Nat} (hlen : l.length = m.dim) (hd : 0 < m.dim) {d : Nat} {x : K} (h : ∀ a ∈ l, pos m.node a d = x) :
    m.centre l d = x := by
  unfold Mesh.centre
  rw [List.map_congr_left h, List.map_const', List.sum_replicate, hlen, nsmul_eq_mul]
  have : (m.dim : K) ≠ 0 := by exact_mod_cast hd.ne'
  field_simp

theorem centre_le (m : Mesh K) {l : List Nat} (hlen : l.length = m.dim) (hd : 0 < m.dim) {d : Nat} {x : K} (h : ∀ a ∈ l, pos m.node a d ≤ x) :
    m.centre l d ≤ x := by
  unfold Mesh.centre
  have hpos : (0 : K) < (m.dim : K) := by exact_mod_cast hd
  rw [div_le_iff₀ hpos]
  have : (l.map (fun a => pos m.node a d)).sum ≤ (l.map (fun _ => x)).sum := List.sum_le_sum h
  rw [List.map_const', List.sum_replicate, hlen, nsmul_eq_mul] at this
  linarith

/-- The largest coordinate of a face centre is the period. -/
theorem SDom.maxcoord (h : SDom m D side opn out F nm g) (hv : m.Valid L r) {d lo hi : Nat} (hd : d < 3) {δ : K} (hhi : hi ∈ perSides m.dim)
    (hf : m.Facing d lo hi δ) (hex : ∃ b < m.nbnodes, labelOf m.node b = lo ∨ labelOf m.node b = hi) :
    maxOver D.nbfaces (fun f => D.fcenter f d) = δ := by
  obtain ⟨b, hb, hl⟩ := hex
  have hpos : 0 < m.dim := by rcases h.dim with e | e <;> omega
  obtain ⟨c, l, x, ho, hon⟩ := hf.face b hb hl
  obtain ⟨j, hj, hp, _, hlt, _⟩ := h.of_on ho (by simp [hhi]) hon
  refine maxOver_eq _ _ _ ?_ hlt ?_
  · intro f hf'
    obtain ⟨c, hc, j, hj, rfl⟩ := h.fsurj f hf'
    show D.fcenter (D.faceid c j) d ≤ δ
    rw [h.fcenter c hc j hj d hd]
    exact centre_le m (h.side_length hc hj) hpos (fun a ha => (hf.range b hb hl a (h.side_lt hv hc hj (Or.inl ha))).2)
  · show D.fcenter (D.faceid c j) d = δ
    rw [h.fcenter c ho.1 j hj d hd, ← centre_perm m hp]
    have hlen : l.length = m.dim := hp.length_eq.trans (h.side_length ho.1 hj)
    exact centre_const m hlen hpos (hf.high c l x ho hon)

theorem apart_names (n : Nat) (nm : Nat → Int) (a b c d : Int) (h : a ≠ c ∧ a ≠ d ∧ b ≠ c ∧ b ≠ d) :
    Apart (whereEq n nm a) (whereEq n nm b) (whereEq n nm c) (whereEq n nm d) := by
  intro i h1 h2
  simp only [mem_whereEq] at h1 h2
  obtain ⟨p1, p2, p3, p4⟩ := h
  rcases h1 with ⟨_, h1⟩ | ⟨_, h1⟩ <;> rcases h2 with ⟨_, h2⟩ | ⟨_, h2⟩ <;> rw [h1] at h2 <;> contradiction

/-- The largest coordinates of the face centres, in the order of the axes. -/
def maxc (D : Tables K) (e : Nat) : K := maxOver D.nbfaces (fun f => D.fcenter f e)

theorem SDom.perMesh2 (h : SDom m D side opn out F nm g) (hv : m.Valid L r) : PeriodicMesh2 r (perMesh m.dim D) (maxc D) (faceSides D) (nodeSides D) := by
  have p : ∀ s ∈ [11, 22, 33, 44], s ∈ perSides m.dim := by
    intro s hs; unfold perSides; rcases h.dim with e | e <;> simp [e] <;> simp at hs <;> omega
  refine ⟨?_, ?_, ?_, ?_⟩
  · exact h.dir hv (by omega) (p 11 (by simp)) (p 22 (by simp)) (by decide) hv.x (fun hex => h.maxcoord hv (by omega) (p 22 (by simp)) hv.x hex)
  · exact periodicDir_symm (h.dir hv (by omega) (p 44 (by simp)) (p 33 (by simp)) (by decide) hv.y
      (fun hex => h.maxcoord hv (by omega) (p 33 (by simp)) hv.y hex))
  · exact apart_names _ _ 11 22 33 44 (by decide)
  · exact apart_names _ _ 11 22 33 44 (by decide)

theorem SDom.perMesh3 (h : SDom m D side opn out F nm g) (hv : m.Valid L r) (h3 : m.dim = 3) :
    PeriodicMesh3 r (perMesh m.dim D) (maxc D) (faceSides D) (nodeSides D) := by
  have p : ∀ s ∈ [11, 22, 33, 44, 55, 66], s ∈ perSides m.dim := by
    intro s hs; unfold perSides; simp [h3]; simpa using hs
  refine ⟨h.perMesh2 hv, ?_, ?_, ?_, ?_, ?_⟩
  · exact periodicDir_symm (h.dir hv (by omega) (p 66 (by simp)) (p 55 (by simp)) (by decide) (hv.z h3)
      (fun hex => h.maxcoord hv (by omega) (p 55 (by simp)) (hv.z h3) hex))
  · exact apart_names _ _ 11 22 55 66 (by decide)
  · exact apart_names _ _ 11 22 55 66 (by decide)
  · exact apart_names _ _ 33 44 55 66 (by decide)
  · exact apart_names _ _ 33 44 55 66 (by decide)

/-- Each periodic direction: axis, sides, `Facing`. -/
theorem valid_facing (hv : m.Valid L r) (hd : m.dim = 2 ∨ m.dim = 3) {t : Nat × Nat × Nat} (ht : t ∈ perDirs m.dim) :
    m.Facing t.1 t.2.1 t.2.2 (L t.1) ∧ t.1 < m.dim ∧ t.2.1 ∈ perSides m.dim ∧ t.2.2 ∈ perSides m.dim ∧ t.2.1 ≠ t.2.2 := by
  rcases hd with e | e
  · simp [perDirs, e] at ht
    rcases ht with rfl | rfl
    · exact ⟨hv.x, by omega, by simp [perSides, e], by simp [perSides, e], by simp⟩
    · exact ⟨hv.y, by omega, by simp [perSides, e], by simp [perSides, e], by simp⟩
  · simp [perDirs, e] at ht
    rcases ht with rfl | rfl | rfl
    · exact ⟨hv.x, by omega, by simp [perSides, e], by simp [perSides, e], by simp⟩
    · exact ⟨hv.y, by omega, by simp [perSides, e], by simp [perSides, e], by simp⟩
    · exact ⟨hv.z e, by omega, by simp [perSides, e], by simp [perSides, e], by simp⟩

theorem perSides_dir {dim s : Nat} (hd : dim = 2 ∨ dim = 3) (hs : s ∈ perSides dim) : ∃ t ∈ perDirs dim, s = t.2.1 ∨ s = t.2.2 := by
  rcases hd with rfl | rfl <;> simp [perSides] at hs <;> simp [perDirs] <;> omega

theorem perNames_iff {dim : Nat} {x : Int} : x ∈ perNames dim ↔ ∃ s ∈ perSides dim, x = (s : Int) := by
  unfold perNames; simp [eq_comm]

/-- Names determine the direction. -/
theorem perDirs_inj {dim : Nat} (hd : dim = 2 ∨ dim = 3) {t t' : Nat × Nat × Nat} (ht : t ∈ perDirs dim) (ht' : t' ∈ perDirs dim) :
    (t.2.1 = t'.2.1 → t = t') ∧ (t.2.2 = t'.2.2 → t = t') ∧ t.2.1 ≠ t'.2.2 := by
  rcases hd with rfl | rfl
  · simp [perDirs] at ht ht'
    rcases ht with rfl | rfl <;> rcases ht' with rfl | rfl <;> simp
  · simp [perDirs] at ht ht'
    rcases ht with rfl | rfl | rfl <;> rcases ht' with rfl | rfl | rfl <;> simp

theorem partnerFaces_symm {dim : Nat} {f f' : Nat} (h : PartnerFaces D dim L f f') : PartnerFaces D dim L f' f := by
  obtain ⟨h1, h2, t, ht, h3 | h3⟩ := h
  · exact ⟨h2, h1, t, ht, Or.inr ⟨h3.2.1, h3.1, isTranslate_neg h3.2.2⟩⟩
  · refine ⟨h2, h1, t, ht, Or.inl ⟨h3.2.1, h3.1, ?_⟩⟩
    have := isTranslate_neg h3.2.2
    rwa [neg_neg] at this

/-- Every periodic face has a partner. -/
theorem SDom.partner_exists (h : SDom m D side opn out F nm g) (hv : m.Valid L r) {f : Nat} (hf : f ∈ D.periodicboundaryfaces) :
    ∃ f', PartnerFaces D m.dim L f f' := by
  obtain ⟨lf, hn⟩ := (h.per.2 f).mp hf
  obtain ⟨s, hs, e⟩ := perNames_iff.mp hn
  obtain ⟨t, ht, hst⟩ := perSides_dir h.dim hs
  obtain ⟨hF, hd, p1, p2, hne⟩ := valid_facing hv h.dim ht
  rcases hst with rfl | rfl
  · obtain ⟨c, hc, j, hj, c', hc', j', hj', l', _, _, _, _, _, _, _, _, lf', nf', _, htr⟩ := h.partner hv (by simp [p1]) (by simp [p2]) hF.up lf e
    exact ⟨_, lf, lf', t, ht, Or.inl ⟨e, nf', htr⟩⟩
  · obtain ⟨c, hc, j, hj, c', hc', j', hj', l', _, _, _, _, _, _, _, _, lf', nf', _, htr⟩ := h.partner hv (by simp [p2]) (by simp [p1]) hF.down lf e
    exact ⟨_, lf, lf', t, ht, Or.inr ⟨e, nf', htr⟩⟩

/-- Faces of the same periodic side with the same centre are the same. -/
theorem SDom.centre_inj (h : SDom m D side opn out F nm g) (hv : m.Valid L r) {s : Nat} (hs : s ∈ perSides m.dim) {f f' : Nat} (hf : f < D.nbfaces)
    (hf' : f' < D.nbfaces) (hn : D.name f = (s : Int)) (hn' : D.name f' = (s : Int)) (e : ∀ k < 3, D.fcenter f k = D.fcenter f' k) : f = f' := by
  refine h.keysDistinct hv hs f (mem_whereEq.mpr ⟨hf, hn⟩) f' (mem_whereEq.mpr ⟨hf', hn'⟩) ?_
  show keyAt r (D.fcenter f) = keyAt r (D.fcenter f')
  simp only [keyAt]
  rw [e 0 (by omega), e 1 (by omega), e 2 (by omega)]

theorem SDom.partner_unique (h : SDom m D side opn out F nm g) (hv : m.Valid L r) {f f1 f2 : Nat} (h1 : PartnerFaces D m.dim L f f1)
    (h2 : PartnerFaces D m.dim L f f2) : f1 = f2 := by
  obtain ⟨_, l1, t1, ht1, h1⟩ := h1
  obtain ⟨_, l2, t2, ht2, h2⟩ := h2
  have I := perDirs_inj h.dim ht1 ht2
  have I' := perDirs_inj h.dim ht2 ht1
  obtain ⟨hF, hd, p1, p2, hne⟩ := valid_facing hv h.dim ht1
  rcases h1 with ⟨a1, b1, c1⟩ | ⟨a1, b1, c1⟩ <;> rcases h2 with ⟨a2, b2, c2⟩ | ⟨a2, b2, c2⟩
  · obtain rfl := I.1 (by rw [a1] at a2; exact_mod_cast a2)
    exact h.centre_inj hv p2 l1 l2 b1 b2 (fun k hk => by rw [c1 k hk, c2 k hk])
  · rw [a1] at a2; exact absurd (by exact_mod_cast a2) I.2.2
  · rw [a1] at a2; exact absurd (by exact_mod_cast a2.symm) I'.2.2
  · obtain rfl := I.2.1 (by rw [a1] at a2; exact_mod_cast a2)
    exact h.centre_inj hv p1 l1 l2 b1 b2 (fun k hk => by rw [c1 k hk, c2 k hk])

/-- Partner faces have opposite normals. -/
theorem SDom.partner_normal (h : SDom m D side opn out F nm g) (hv : m.Valid L r) {f f' : Nat} (hp : PartnerFaces D m.dim L f f') :
    ∀ k < 3, D.normal f' k = - D.normal f k := by
  have key : ∀ f f', f < D.nbfaces → f' < D.nbfaces → (∃ t ∈ perDirs m.dim,
      D.name f = (t.2.1 : Int) ∧ D.name f' = (t.2.2 : Int) ∧ IsTranslate t.1 (L t.1) (D.fcenter f) (D.fcenter f')) →
      ∀ k < 3, D.normal f' k = - D.normal f k := by
    rintro f f' lf lf' ⟨t, ht, a1, b1, c1⟩
    obtain ⟨hF, hd, p1, p2, hne⟩ := valid_facing hv h.dim ht
    obtain ⟨c, hc, j, hj, c', hc', j', hj', l', ef, ho, hon, hc0, ho', hon', hp', htr, lf2, nf2, hc0', htr'⟩ :=
      h.partner hv (by simp [p1]) (by simp [p2]) hF.up lf a1
    have e' : f' = D.faceid c' j' := h.centre_inj hv p2 lf' lf2 b1 nf2 (fun k hk => by rw [c1 k hk, htr' k hk])
    subst e'
    subst ef
    intro k hk
    rw [h.normal c hc j hj hc0 k hk, h.normal c' hc' j' hj' hc0' k hk]
    have lo0 := hF.low _ _ _ ho hon
    have hi0 := hF.high _ _ _ ho' hon'
    have hi1 : ∀ a ∈ side c' j', pos m.node a t.1 = L t.1 := fun a ha => hi0 a (hp'.symm.subset ha)
    refine h.flip c hc c' hc' j hj j' hj' t.1 hd (L t.1) 0 (L t.1) _ _ (List.Perm.refl _) hp' htr lo0 hi0 ?_ k hk
    obtain ⟨⟨b, hb, eb⟩, _⟩ := hon
    have R := hF.range b (h.side_lt hv hc hj (Or.inl hb)) (Or.inl eb)
    have r1 := R (opn c j) (h.side_lt hv hc hj (Or.inr rfl))
    have r2 := R (opn c' j') (h.side_lt hv hc' hj' (Or.inr rfl))
    have o1 := h.off c hc j hj t.1 hd 0 lo0
    have o2 := h.off c' hc' j' hj' t.1 hd (L t.1) hi1
    have q1 : 0 < pos m.node (opn c j) t.1 := lt_of_le_of_ne r1.1 (Ne.symm o1)
    have q2 : pos m.node (opn c' j') t.1 < L t.1 := lt_of_le_of_ne r2.2 o2
    rw [sub_zero]
    exact mul_neg_of_pos_of_neg q1 (by linarith)
  obtain ⟨lf, lf', t, ht, h1 | h1⟩ := hp
  · exact key f f' lf lf' ⟨t, ht, h1⟩
  · intro k hk
    have := key f' f lf' lf ⟨t, ht, h1.2.1, h1.1, by have := isTranslate_neg h1.2.2; rwa [neg_neg] at this⟩ k hk
    rw [this, neg_neg]

/-- The Domain after the periodic update. -/
structure PDom (m : Mesh K) (D D' : Tables K) (L : Nat → K) : Prop where
  /-- only the second cell of periodic faces changes -/
  eq : ∃ c1 : Nat → Int, D' = { D with cellid := fun f k => if k = 0 then D.cellid f 0 else c1 f }
  others : ∀ f, f < D.nbfaces → f ∉ D.periodicboundaryfaces → D'.cellid f 1 = D.cellid f 1
  cells : ∀ f f', PartnerFaces D m.dim L f f' → D'.cellid f 1 = D.cellid f' 0

theorem SDom.cell0_nat (h : SDom m D side opn out F nm g) {f : Nat} (hf : f < D.nbfaces) : ∃ c < m.n, D.cellid f 0 = (c : Int) := by
  obtain ⟨a, ha, e, _⟩ := users_first (h.users_ne hf)
  exact ⟨a, h.nb ▸ ha, by rw [h.built.cell0 f hf, e]⟩

theorem SDom.update (h : SDom m D side opn out F nm g) (hv : m.Valid L r) : ∃ D' s, updatePer m.dim r D = some (D', s) ∧ PDom m D D' L := by
  have hc0 : ∀ f, f < D.nbfaces → (((perMesh m.dim D).cell0 f : Nat) : Int) = D.cellid f 0 := by
    intro f hf
    obtain ⟨c, _, e⟩ := h.cell0_nat hf
    show ((idx (D.cellid f 0) : Nat) : Int) = _
    rw [e]; simp [idx]
  have hM : ∀ t ∈ perDirs m.dim, ∀ f < D.nbfaces, (D.name f = (t.2.1 : Int) ∨ D.name f = (t.2.2 : Int)) → maxc D t.1 = L t.1 := by
    intro t ht f lf hn
    obtain ⟨hF, hd, p1, p2, hne⟩ := valid_facing hv h.dim ht
    refine h.maxcoord hv (by rcases h.dim with e | e <;> omega) p2 hF ?_
    rcases hn with hn | hn
    · obtain ⟨c, hc, j, hj, rfl, ho, ⟨⟨a, ha, ea⟩, _⟩, hu⟩ := h.named hv (by simp [p1]) lf hn
      exact ⟨a, h.side_lt hv hc hj (Or.inl ha), Or.inl ea⟩
    · obtain ⟨c, hc, j, hj, rfl, ho, ⟨⟨a, ha, ea⟩, _⟩, hu⟩ := h.named hv (by simp [p2]) lf hn
      exact ⟨a, h.side_lt hv hc hj (Or.inl ha), Or.inr ea⟩
  have hnot : ∀ f, f < D.nbfaces → f ∉ D.periodicboundaryfaces → ∀ s ∈ perSides m.dim, D.name f ≠ (s : Int) := by
    intro f lf hf s hs e
    exact hf ((h.per.2 f).mpr ⟨lf, perNames_iff.mpr ⟨s, hs, e⟩⟩)
  -- the pairs of a direction
  have fin : ∀ (s : PState K) (t : Nat × Nat × Nat), t ∈ perDirs m.dim →
      (Partners (perMesh m.dim D) s.cell1 t.1 (maxc D t.1) (whereEq D.nbfaces D.name t.2.1) (whereEq D.nbfaces D.name t.2.2) ∨
       Partners (perMesh m.dim D) s.cell1 t.1 (-maxc D t.1) (whereEq D.nbfaces D.name t.2.2) (whereEq D.nbfaces D.name t.2.1)) →
      ∀ f f', f < D.nbfaces → f' < D.nbfaces → D.name f = (t.2.1 : Int) → D.name f' = (t.2.2 : Int) →
        IsTranslate t.1 (L t.1) (D.fcenter f) (D.fcenter f') → s.cell1 f = D.cellid f' 0 ∧ s.cell1 f' = D.cellid f 0 := by
    intro s t ht hP f f' lf lf' a b htr
    have eM := hM t ht f lf (Or.inl a)
    rw [eM] at hP
    have m1 : f ∈ whereEq D.nbfaces D.name t.2.1 := mem_whereEq.mpr ⟨lf, a⟩
    have m2 : f' ∈ whereEq D.nbfaces D.name t.2.2 := mem_whereEq.mpr ⟨lf', b⟩
    rcases hP with hP | hP
    · have := hP f m1 f' m2 htr
      rw [hc0 f lf, hc0 f' lf'] at this
      exact this
    · have := hP f' m2 f m1 (isTranslate_neg htr)
      rw [hc0 f lf, hc0 f' lf'] at this
      exact this.symm
  have fin2 : ∀ (s : PState K), (∀ t ∈ perDirs m.dim,
      (Partners (perMesh m.dim D) s.cell1 t.1 (maxc D t.1) (whereEq D.nbfaces D.name t.2.1) (whereEq D.nbfaces D.name t.2.2) ∨
       Partners (perMesh m.dim D) s.cell1 t.1 (-maxc D t.1) (whereEq D.nbfaces D.name t.2.2) (whereEq D.nbfaces D.name t.2.1))) →
      ∀ f f', PartnerFaces D m.dim L f f' → s.cell1 f = D.cellid f' 0 := by
    rintro s hs f f' ⟨lf, lf', t, ht, ⟨a, b, c⟩ | ⟨a, b, c⟩⟩
    · exact (fin s t ht (hs t ht) f f' lf lf' a b c).1
    · have := isTranslate_neg c
      rw [neg_neg] at this
      exact (fin s t ht (hs t ht) f' f lf' lf b a this).2
  rcases h.dim with e2 | e3
  · obtain ⟨s, es, px, py, ho, _⟩ := Per.C68_partners_2d_partial r (perMesh m.dim D) (maxc D) (fun e => maxOver D.nbnodes (fun i => D.vertex i e)) (faceSides D)
      (nodeSides D) (fun f => D.cellid f 1) (h.perMesh2 hv)
    refine ⟨_, s, ?_, ⟨s.cell1, rfl⟩, ?_, ?_⟩
    · unfold updatePer
      dsimp only
      rw [if_pos e2]
      have : update2d r (perMesh m.dim D) (fun e => maxOver D.nbfaces fun f => D.fcenter f e) (fun e => maxOver D.nbnodes (fun i => D.vertex i e)) (faceSides D)
        (nodeSides D) (fun f => D.cellid f 1) = some s := es
      rw [this]; rfl
    · intro f lf hf
      have hn := hnot f lf hf
      have q : ∀ x ∈ [11, 22, 33, 44], f ∉ whereEq D.nbfaces D.name ((x : Nat) : Int) := by
        intro x hx hm
        exact hn x (by simp [perSides, e2]; simpa using hx) (mem_whereEq.mp hm).2
      exact ho f (q 11 (by simp)) (q 22 (by simp)) (q 33 (by simp)) (q 44 (by simp))
    · apply fin2 s
      intro t ht
      simp [perDirs, e2] at ht
      rcases ht with rfl | rfl
      · exact Or.inl px
      · exact Or.inr py
  · obtain ⟨s, es, px, py, pz, ho, _⟩ := Per.C68_partners_3d r (perMesh m.dim D) (maxc D) (fun e => maxOver D.nbnodes (fun i => D.vertex i e)) (faceSides D)
      (nodeSides D) (fun f => D.cellid f 1) (h.perMesh3 hv e3)
    refine ⟨_, s, ?_, ⟨s.cell1, rfl⟩, ?_, ?_⟩
    · unfold updatePer
      dsimp only
      rw [if_neg (by omega)]
      have : update3d r (perMesh m.dim D) (fun e => maxOver D.nbfaces fun f => D.fcenter f e) (fun e => maxOver D.nbnodes (fun i => D.vertex i e)) (faceSides D)
        (nodeSides D) (fun f => D.cellid f 1) = some s := es
      rw [this]; rfl
    · intro f lf hf
      have hn := hnot f lf hf
      have q : ∀ x ∈ [11, 22, 33, 44, 55, 66], f ∉ whereEq D.nbfaces D.name ((x : Nat) : Int) := by
        intro x hx hm
        exact hn x (by simp [perSides, e3]; simpa using hx) (mem_whereEq.mp hm).2
      exact ho f (q 11 (by simp)) (q 22 (by simp)) (q 33 (by simp)) (q 44 (by simp)) (q 55 (by simp)) (q 66 (by simp))
    · apply fin2 s
      intro t ht
      simp [perDirs, e3] at ht
      rcases ht with rfl | rfl | rfl
      · exact Or.inl px
      · exact Or.inr py
      · exact Or.inr pz

end
end Verif.Props.Par
