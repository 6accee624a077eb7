import Verif.Props.PerWorld
import Verif.Props.PerSer2
import Verif.Props.PeriodicExample

/-!
# Periodic sides on several processes (C103)

`update_pediodic_info_*` (ddm/domain.py:517-530) is called on every process with the faces of that process only: a process that holds a
face of a periodic side must also hold its partner.
-/
set_option linter.unusedSectionVars false
set_option linter.unusedVariables false
set_option linter.unusedSimpArgs false
namespace Verif.Props.Par
open Verif.Fvm Verif.Spec Verif.Conn Verif.Dom Verif.Geo Verif.Names Verif.MeshFile Verif.Part Verif.Comm Verif.Run Verif.Periodic Verif.Props.Per
variable {K : Type*} [Field K] [LinearOrder K] [IsStrictOrderedRing K]

theorem repl_ne {d : Nat} (hd : d < 3) (x : K) (r : K → K) (v w : Nat → K) (h : ∃ k < 3, k ≠ d ∧ r (w k) ≠ r (v k)) : keyAt r w ≠ repl d x (keyAt r v) := by
  intro e
  obtain ⟨k, hk, hne, h⟩ := h
  unfold keyAt repl at e
  apply h
  match d, hd, k, hk with
  | 0, _, 1, _ | 0, _, 2, _ | 1, _, 0, _ | 1, _, 2, _ | 2, _, 0, _ | 2, _, 1, _ => simp at e; tauto
  | 0, _, 0, _ | 1, _, 1, _ | 2, _, 2, _ => exact absurd rfl hne

theorem facesDir_none (r : K → K) (m : PMesh K) {d : Nat} (hd : d < 3) (lk : K → K → K) (δ va vb : K) (A B : List Nat) (s : PState K)
    (h : (∃ f ∈ A, ∀ f' ∈ B, ∃ k < 3, k ≠ d ∧ r (m.centerf f' k) ≠ r (m.centerf f k)) ∨
      (∃ f ∈ B, ∀ f' ∈ A, ∃ k < 3, k ≠ d ∧ r (m.centerf f' k) ≠ r (m.centerf f k))) : facesDir r m d lk δ va vb A B s = none := by
  have key : ∀ (X : List Nat) (f : Nat) (x : K), (∀ f' ∈ X, ∃ k < 3, k ≠ d ∧ r (m.centerf f' k) ≠ r (m.centerf f k)) →
      keyGet (faceDict r m X) (repl d x (keyAt r (m.centerf f))) = none := by
    intro X f x hX
    apply foldlM_none_of_key
    intro e he
    obtain ⟨f', hf', rfl⟩ := List.mem_map.mp he
    exact repl_ne hd x r _ _ (hX f' hf')
  unfold facesDir
  rcases h with ⟨f, hf, h⟩ | ⟨f, hf, h⟩
  · rw [facePass_none _ _ _ _ _ _ ⟨f, hf, key B f _ h⟩]; rfl
  · cases e : facePass m (faceDict r m B) (fun i => repl d (lk (m.centerf i d) δ) (keyAt r (m.centerf i))) d va A s with
    | none => rfl
    | some t =>
      simp only [Option.bind_eq_bind, Option.bind_some]
      exact facePass_none _ _ _ _ _ _ ⟨f, hf, key A f _ h⟩ _

/-- `f` is a face of a periodic side of direction `t` and no face of the facing side lies opposite to it. -/
def Alone (D : Tables K) (r : K → K) (t : Nat × Nat × Nat) (f : Nat) : Prop :=
  f < D.nbfaces ∧ ∃ s s' : Nat, ((s = t.2.1 ∧ s' = t.2.2) ∨ (s = t.2.2 ∧ s' = t.2.1)) ∧ D.name f = (s : Int) ∧
    ∀ f' < D.nbfaces, D.name f' = (s' : Int) → ∃ k < 3, k ≠ t.1 ∧ r (D.fcenter f' k) ≠ r (D.fcenter f k)

/-- **C103, what is wrong**: a process one of whose faces lies on a periodic side and which holds no face opposite to it (its partner is on
another process) cannot build its Domain: `update_pediodic_info_*` fails with a `KeyError`.  For any tables, in 2D and 3D, for every periodic
side. -/
theorem C103_missing_partner_raises {dim : Nat} (hd : dim = 2 ∨ dim = 3) (r : K → K) (D : Tables K) {t : Nat × Nat × Nat} (ht : t ∈ perDirs dim) {f : Nat}
    (h : Alone D r t f) : updatePer dim r D = none := by
  obtain ⟨lf, s, s', hs, hn, hno⟩ := h
  have X : ∀ (m : PMesh K) (d : Nat), m.centerf = D.fcenter → ∀ A B : List Nat, t.1 = d → d < 3 →
      (∀ x, x ∈ A ↔ x < D.nbfaces ∧ D.name x = (s : Int)) → (∀ x, x ∈ B ↔ x < D.nbfaces ∧ D.name x = (s' : Int)) →
      ∀ lk δ va vb st, facesDir r m d lk δ va vb A B st = none ∧ facesDir r m d lk δ va vb B A st = none := by
    intro m d hm A B htd hd3 hA hB lk δ va vb st
    have h1 : ∃ f ∈ A, ∀ f' ∈ B, ∃ k < 3, k ≠ d ∧ r (m.centerf f' k) ≠ r (m.centerf f k) := by
      refine ⟨f, (hA f).mpr ⟨lf, hn⟩, fun f' hf' => ?_⟩
      obtain ⟨l', n'⟩ := (hB f').mp hf'
      rw [hm, ← htd]
      exact hno f' l' n'
    exact ⟨facesDir_none r m hd3 _ _ _ _ _ _ _ (Or.inl h1), facesDir_none r m hd3 _ _ _ _ _ _ _ (Or.inr h1)⟩
  have mem : ∀ l : Nat, ∀ x, x ∈ (List.range D.nbfaces).filter (fun f => D.name f = (l : Int)) ↔ x < D.nbfaces ∧ D.name x = (l : Int) := by
    intro l x; simp
  have bindnone : ∀ (o : Option (PState K)) (g : PState K → Option (PState K)), (∀ s, g s = none) → o.bind g = none := by
    intro o g h; cases o with
    | none => rfl
    | some x => exact h x
  have X0 : t.1 = 0 → t.2 = (11, 22) → ∀ (m : PMesh K) lk δ va vb st, m.centerf = D.fcenter →
      facesDir r m 0 lk δ va vb (faceSides D).inn (faceSides D).out st = none := by
    intro e1 e2 m lk δ va vb st hm
    rcases hs with ⟨a, b⟩ | ⟨a, b⟩ <;> rw [e2] at a b <;> subst a <;> subst b
    · exact (X m 0 hm _ _ e1 (by omega) (mem 11) (mem 22) _ _ _ _ st).1
    · exact (X m 0 hm _ _ e1 (by omega) (mem 22) (mem 11) _ _ _ _ st).2
  have X1 : t.1 = 1 → t.2 = (44, 33) → ∀ (m : PMesh K) lk δ va vb st, m.centerf = D.fcenter →
      facesDir r m 1 lk δ va vb (faceSides D).upper (faceSides D).bottom st = none := by
    intro e1 e2 m lk δ va vb st hm
    rcases hs with ⟨a, b⟩ | ⟨a, b⟩ <;> rw [e2] at a b <;> subst a <;> subst b
    · exact (X m 1 hm _ _ e1 (by omega) (mem 44) (mem 33) _ _ _ _ st).2
    · exact (X m 1 hm _ _ e1 (by omega) (mem 33) (mem 44) _ _ _ _ st).1
  have X2 : t.1 = 2 → t.2 = (66, 55) → ∀ (m : PMesh K) lk δ va vb st, m.centerf = D.fcenter →
      facesDir r m 2 lk δ va vb (faceSides D).front (faceSides D).back st = none := by
    intro e1 e2 m lk δ va vb st hm
    rcases hs with ⟨a, b⟩ | ⟨a, b⟩ <;> rw [e2] at a b <;> subst a <;> subst b
    · exact (X m 2 hm _ _ e1 (by omega) (mem 66) (mem 55) _ _ _ _ st).2
    · exact (X m 2 hm _ _ e1 (by omega) (mem 55) (mem 66) _ _ _ _ st).1
  unfold updatePer
  dsimp only
  rw [Option.map_eq_none_iff]
  rcases hd with rfl | rfl
  · rw [if_pos rfl]
    unfold update2d
    simp only [Option.bind_eq_bind]
    simp [perDirs] at ht
    rcases ht with rfl | rfl
    · unfold dirX
      simp only [Option.bind_eq_bind]
      rw [X0 rfl rfl _ _ _ _ _ _ rfl]; rfl
    · apply bindnone
      intro st
      unfold dirY2
      simp only [Option.bind_eq_bind]
      rw [X1 rfl rfl _ _ _ _ _ st rfl]; rfl
  · rw [if_neg (by omega)]
    unfold update3d
    simp only [Option.bind_eq_bind]
    simp [perDirs] at ht
    rcases ht with rfl | rfl | rfl
    · unfold dirX
      simp only [Option.bind_eq_bind]
      rw [X0 rfl rfl _ _ _ _ _ _ rfl]; rfl
    · apply bindnone
      intro st
      unfold dirY3
      simp only [Option.bind_eq_bind]
      rw [X1 rfl rfl _ _ _ _ _ st rfl]; rfl
    · apply bindnone
      intro st
      apply bindnone
      intro st
      unfold dirZ3
      simp only [Option.bind_eq_bind]
      rw [X2 rfl rfl _ _ _ _ _ st rfl]; rfl

theorem name2_22 {p q : Int} (h : name2 p q = 22) : p = 22 := by
  unfold name2 at h
  split at h
  · exact h
  · repeat' split at h
    all_goals omega

theorem side_of (d : RankData K) {c a b x : Nat} (hc : c < d.nodeid.length)
    (hp : [a, b, x].Perm [at2 0 d.nodeid c 0, at2 0 d.nodeid c 1, at2 0 d.nodeid c 2]) : ∃ j < 3, (sid2 d c j).Perm [a, b] := by
  have hside := fun j (hj : j < 3) => Par.side_perm d hc hj
  have hr : row2 d c = (at2 0 d.nodeid c 0, at2 0 d.nodeid c 1, at2 0 d.nodeid c 2) := rfl
  have fin : ∀ j < 3, sO d c j = x → (sid2 d c j).Perm [a, b] := by
    intro j hj e
    have h1 : [sA d c j, sB d c j, sO d c j].Perm [at2 0 d.nodeid c 0, at2 0 d.nodeid c 1, at2 0 d.nodeid c 2] := hside j hj
    rw [e] at h1
    have h2 : ([sA d c j, sB d c j] ++ [x]).Perm ([a, b] ++ [x]) := h1.trans hp.symm
    rw [sid2_eq]
    exact (List.perm_append_right_iff [x]).mp h2
  have hx : x ∈ [at2 0 d.nodeid c 0, at2 0 d.nodeid c 1, at2 0 d.nodeid c 2] := hp.subset (by simp)
  have h0 : [sA d c 0, sB d c 0, sO d c 0].Perm [at2 0 d.nodeid c 0, at2 0 d.nodeid c 1, at2 0 d.nodeid c 2] := hside 0 (by omega)
  have hx := h0.symm.subset hx
  have e1 : sA d c 0 = sO d c 1 := rfl
  have e2 : sB d c 0 = sO d c 2 := rfl
  simp only [List.mem_cons, List.not_mem_nil, or_false] at hx
  rcases hx with e | e | e
  · exact ⟨1, by omega, fin 1 (by omega) (by rw [e, e1])⟩
  · exact ⟨2, by omega, fin 2 (by omega) (by rw [e, e2])⟩
  · exact ⟨0, by omega, fin 0 (by omega) e.symm⟩

theorem mem_of_side (d : RankData K) {c j z : Nat} (hc : c < d.nodeid.length) (hj : j < 3) (hz : z ∈ sid2 d c j) :
    z ∈ [at2 0 d.nodeid c 0, at2 0 d.nodeid c 1, at2 0 d.nodeid c 2] := by
  have h1 : [sA d c j, sB d c j, sO d c j].Perm [at2 0 d.nodeid c 0, at2 0 d.nodeid c 1, at2 0 d.nodeid c 2] := Par.side_perm d hc hj
  apply h1.subset
  rw [sid2_eq] at hz
  simp only [List.mem_cons, List.not_mem_nil, or_false] at hz ⊢
  tauto

/-- C103, the usual case (2D): the cells of a process have a face on the left periodic side (both corners labelled 11, in no other cell of the
process and in no halo cell), and none of the nodes of the process is labelled 22.  Then the process raises. -/
theorem C103_split_sides_raise_2d (sqrt : K → K) (trunc : K → Int) (size : Nat) (r : K → K) (d : RankData K) (hext : ∀ row ∈ d.halosext, row.length = 4)
    {c a b x : Nat} (hc : c < d.nodeid.length) (hp : [a, b, x].Perm [at2 0 d.nodeid c 0, at2 0 d.nodeid c 1, at2 0 d.nodeid c 2])
    (ha : trunc (at2 0 d.vertex a 3) = 11) (hb : trunc (at2 0 d.vertex b 3) = 11)
    (hone : ∀ c' < d.nodeid.length, c' ≠ c → ¬ (a ∈ [at2 0 d.nodeid c' 0, at2 0 d.nodeid c' 1, at2 0 d.nodeid c' 2] ∧
      b ∈ [at2 0 d.nodeid c' 0, at2 0 d.nodeid c' 1, at2 0 d.nodeid c' 2]))
    (hhalo : ∀ row ∈ d.halosext, ¬ (d.nodeloctoglob.getD a 0 ∈ row.tail ∧ d.nodeloctoglob.getD b 0 ∈ row.tail))
    (hno : ∀ s, trunc (at2 0 d.vertex s 3) ≠ 22) : updatePer 2 r (build2 sqrt trunc size d) = none := by
  obtain ⟨D, hD⟩ : ∃ D, D = build2 sqrt trunc size d := ⟨_, rfl⟩
  have B := built2 sqrt trunc size d hext
  rw [← hD] at B
  have hnb : D.nbcells = d.nodeid.length := by rw [hD]; rfl
  obtain ⟨j, hj, hsj⟩ := side_of d hc hp
  obtain ⟨_, _, _, hfi⟩ := B.faces
  obtain ⟨lf, hperm⟩ := hfi c (hnb ▸ hc) j hj
  have lf' : D.faceid c j < D.nbfaces := B.nb ▸ lf
  have hrow : ((fac2 d).getD (D.faceid c j) []).Perm [a, b] := hperm.trans hsj
  have hnf : ¬ Foreign 2 (extOf size d) (gOf d) ((fac2 d).getD (D.faceid c j) []) := by
    rintro ⟨row, hr, s, hsub, _, hps⟩
    have hr' : row ∈ d.halosext := by
      unfold extOf at hr
      split at hr
      · exact hr
      · simp at hr
    refine hhalo row hr' ⟨hsub.subset (hps.subset (List.mem_map.mpr ⟨a, hrow.symm.subset (by simp), rfl⟩)), hsub.subset (hps.subset (List.mem_map.mpr ⟨b, hrow.symm.subset (by simp), rfl⟩))⟩
  have hu : users D.faceid 3 D.nbcells (D.faceid c j) = [c] := by
    have hnd : (users D.faceid 3 D.nbcells (D.faceid c j)).Nodup := List.nodup_range.filter _
    have hm : c ∈ users D.faceid 3 D.nbcells (D.faceid c j) := (mem_users _ _ _ _ _).mpr ⟨hnb ▸ hc, j, hj, rfl⟩
    have hall : ∀ y ∈ users D.faceid 3 D.nbcells (D.faceid c j), y = c := by
      intro y hy
      obtain ⟨hy1, j', hj', e⟩ := (mem_users _ _ _ _ _).mp hy
      by_contra hne
      obtain ⟨_, hp'⟩ := hfi y hy1 j' hj'
      rw [e] at hp'
      have h2 : [a, b].Perm (sid2 d y j') := hrow.symm.trans hp'
      have hy2 : y < d.nodeid.length := hnb ▸ hy1
      exact hone y hy2 hne ⟨mem_of_side d hy2 hj' (h2.subset (by simp)), mem_of_side d hy2 hj' (h2.subset (by simp))⟩
    have := List.eq_replicate_of_mem hall
    rw [this] at hnd ⊢
    have hl : (users D.faceid 3 D.nbcells (D.faceid c j)).length = 1 := by
      have h1 := List.nodup_replicate.mp hnd
      have h2 := List.length_pos_of_mem hm
      omega
    rw [hl]; rfl
  have hname : D.name (D.faceid c j) = 11 := by
    rw [B.one _ lf' hnf (by rw [hu]; rfl)]
    have hlab : ∀ z ∈ (fac2 d).getD (D.faceid c j) [], trunc (at2 0 d.vertex z 3) = 11 := by
      intro z hz
      have := hrow.subset hz
      simp only [List.mem_cons, List.not_mem_nil, or_false] at this
      rcases this with rfl | rfl
      · exact ha
      · exact hb
    have hlen : ((fac2 d).getD (D.faceid c j) []).length = 2 := by rw [hrow.length_eq]; rfl
    have hat : ∀ k < 2, at2 0 (fac2 d) (D.faceid c j) k ∈ (fac2 d).getD (D.faceid c j) [] := by
      intro k hk
      unfold at2
      rw [List.getD_eq_getElem (l := (fac2 d).getD (D.faceid c j) []) (hn := by omega)]
      exact List.getElem_mem _
    unfold nm2
    show name2 (trunc (at2 0 d.vertex _ 3)) (trunc (at2 0 d.vertex _ 3)) = 11
    rw [hlab _ (hat 0 (by omega)), hlab _ (hat 1 (by omega))]
    rfl
  rw [← hD]
  refine C103_missing_partner_raises (Or.inl rfl) r D (t := (0, 11, 22)) (by simp [perDirs]) (f := D.faceid c j) ⟨lf', 11, 22, Or.inl ⟨rfl, rfl⟩, hname, ?_⟩
  intro f' lf2 hn'
  exfalso
  have hn' : D.name f' = 22 := hn'
  by_cases hF : Foreign 2 (extOf size d) (gOf d) ((fac2 d).getD f' [])
  · rw [(B.foreign f' lf2 hF).1] at hn'; exact absurd hn' (by decide)
  · by_cases h1 : (users D.faceid 3 D.nbcells f').length = 1
    · rw [B.one f' lf2 hF h1] at hn'
      exact hno _ (name2_22 hn')
    · rw [B.two f' lf2 hF h1] at hn'; exact absurd hn' (by decide)

/-! ### the hypotheses are met: the fully periodic mesh `torus`, its left half on process 0, its right half on process 1 -/

def torusPart (c : Nat) : Nat := c / 2
def torusNodePart (i : Nat) : Nat := if i % 3 = 2 then 1 else 0
def torusHalf (p : Nat) : RankData ℚ :=
  expected 2 p (rankWrite torusCell torusNode (centvol2 torusNode torusCell) (partition torusCell torusNodePart torusPart 6 4 3)
    (halos (partition torusCell torusNodePart torusPart 6 4 3).cpart (partition torusCell torusNodePart torusPart 6 4 3).haloCell 2) 6 2 3 p)

theorem torusHalf_labels : ∀ s, Rat.floor (at2 0 (torusHalf 0).vertex s 3) ≠ 22 := by
  intro s
  have hl : (torusHalf 0).vertex.length = 4 := by decide +kernel
  by_cases hs : s < 4
  · have D : ∀ s < 4, Rat.floor (at2 0 (torusHalf 0).vertex s 3) ≠ 22 := by decide +kernel
    exact D s hs
  · have e : at2 0 (torusHalf 0).vertex s 3 = 0 := by
      unfold at2
      rw [List.getD_eq_default (l := (torusHalf 0).vertex) (hn := by omega)]; rfl
    rw [e]; decide +kernel

/-- Process 0 fails although the mesh is valid (`torusValid`) and one process builds its Domain (`C100_domain_2d`). -/
theorem C103_torus_split_raises : updatePer 2 (fun x => x) (build2 (fun x => x) Rat.floor 2 (torusHalf 0)) = none :=
  C103_split_sides_raise_2d (fun x => x) Rat.floor 2 (fun x => x) (torusHalf 0) (by decide +kernel) (c := 0) (a := 0) (b := 2) (x := 1) (by decide +kernel)
    (by decide +kernel) (by decide +kernel) (by decide +kernel) (by decide +kernel) (by decide +kernel) torusHalf_labels

end Verif.Props.Par
