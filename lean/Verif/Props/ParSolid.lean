import Verif.Props.ParDiff
import Verif.Props.Parallel3
import Verif.Props.FvmStability

/-! Helper lemmas for the run theorems: the cells of a Domain built from a valid mesh are closed, have positive volumes and faces of nonzero measure. -/
set_option linter.unusedSectionVars false
set_option linter.unusedVariables false
set_option linter.unusedSimpArgs false
namespace Verif.Props.Par
open Verif.Fvm Verif.Spec Verif.Conn Verif.Dom Verif.Geo Verif.Names Verif.MeshFile Verif.Part Verif.Comm Verif.Run
variable {K : Type*} [Field K] [LinearOrder K] [IsStrictOrderedRing K]

theorem out2_closed (d : RankData K) {c : Nat} (hc : c < d.nodeid.length) (k : Nat) (hk : k < 3) :
    ∑ j ∈ Finset.range 3, out2 d c j k = 0 := by
  have key : ∀ j < 3, tst (vtx d) (center2 (vtx d) (row2 d c).1 (row2 d c).2.1 (row2 d c).2.2) (sA d c j) (sB d c j) =
      2 / 3 * signedArea (vtx d (orow2 d c).1) (vtx d (orow2 d c).2.1) (vtx d (orow2 d c).2.2) := by
    intro j hj
    rw [tst_side d hc hj]
    interval_cases j
    · rfl
    · show _ * signedArea (vtx d (orow2 d c).2.1) (vtx d (orow2 d c).2.2) (vtx d (orow2 d c).1) = _
      unfold signedArea; ring
    · show _ * signedArea (vtx d (orow2 d c).2.2) (vtx d (orow2 d c).1) (vtx d (orow2 d c).2.1) = _
      unfold signedArea; ring
  have e : ∀ j < 3, out2 d c j = if 2 / 3 * signedArea (vtx d (orow2 d c).1) (vtx d (orow2 d c).2.1) (vtx d (orow2 d c).2.2) > 0
      then fun k => -1 * rawNormal2 (vtx d) (sA d c j) (sB d c j) k else rawNormal2 (vtx d) (sA d c j) (sB d c j) := by
    intro j hj
    unfold out2
    rw [orientedNormal2_eq, key j hj]
  simp only [Finset.sum_range_succ, Finset.sum_range_zero, e 0 (by omega), e 1 (by omega), e 2 (by omega)]
  have s0 : sA d c 0 = (orow2 d c).1 ∧ sB d c 0 = (orow2 d c).2.1 := ⟨rfl, rfl⟩
  have s1 : sA d c 1 = (orow2 d c).2.1 ∧ sB d c 1 = (orow2 d c).2.2 := ⟨rfl, rfl⟩
  have s2 : sA d c 2 = (orow2 d c).2.2 ∧ sB d c 2 = (orow2 d c).1 := ⟨rfl, rfl⟩
  rw [s0.1, s0.2, s1.1, s1.2, s2.1, s2.2]
  split <;> interval_cases k <;> simp only [rawNormal2] <;> ring

theorem out3_closed (d : RankData K) {c : Nat} (hne : NonFlat3 d c) (k : Nat) (hk : k < 3) : ∑ j ∈ Finset.range 4, out3 d c j k = 0 := by
  obtain ⟨V, hV⟩ : ∃ V, V = signedVol (vtx d (row3 d c).1) (vtx d (row3 d c).2.1) (vtx d (row3 d c).2.2.1) (vtx d (row3 d c).2.2.2) := ⟨_, rfl⟩
  have hV0 : V ≠ 0 := hV ▸ hne
  have e : ∀ j < 4, ∀ t, 3 / 4 * signedVol (vtx d (tA d c j)) (vtx d (tB d c j)) (vtx d (tC d c j)) (vtx d (tO d c j)) = t → out3 d c j =
      if t > 0 then fun k => -1 * rawNormal3 (vtx d) (tA d c j) (tB d c j) (tC d c j) k else rawNormal3 (vtx d) (tA d c j) (tB d c j) (tC d c j) := by
    intro j hj t ht
    unfold out3
    rw [orientedNormal3_eq, tst3_side d c hj, ht]
  have e0 := e 0 (by omega) (3 / 4 * V) (by rw [hV]; rfl)
  have e1 := e 1 (by omega) (3 / 4 * V) (by
    rw [hV]
    show _ * signedVol (vtx d (row3 d c).2.2.1) (vtx d (row3 d c).2.2.2) (vtx d (row3 d c).1) (vtx d (row3 d c).2.1) = _
    unfold signedVol; ring)
  have e2 := e 2 (by omega) (3 / 4 * -V) (by
    rw [hV]
    show _ * signedVol (vtx d (row3 d c).1) (vtx d (row3 d c).2.1) (vtx d (row3 d c).2.2.2) (vtx d (row3 d c).2.2.1) = _
    unfold signedVol; ring)
  have e3 := e 3 (by omega) (3 / 4 * -V) (by
    rw [hV]
    show _ * signedVol (vtx d (row3 d c).2.2.2) (vtx d (row3 d c).2.1) (vtx d (row3 d c).2.2.1) (vtx d (row3 d c).1) = _
    unfold signedVol; ring)
  simp only [Finset.sum_range_succ, Finset.sum_range_zero, e0, e1, e2, e3]
  have s0 : tA d c 0 = (row3 d c).1 ∧ tB d c 0 = (row3 d c).2.1 ∧ tC d c 0 = (row3 d c).2.2.1 := ⟨rfl, rfl, rfl⟩
  have s1 : tA d c 1 = (row3 d c).2.2.1 ∧ tB d c 1 = (row3 d c).2.2.2 ∧ tC d c 1 = (row3 d c).1 := ⟨rfl, rfl, rfl⟩
  have s2 : tA d c 2 = (row3 d c).1 ∧ tB d c 2 = (row3 d c).2.1 ∧ tC d c 2 = (row3 d c).2.2.2 := ⟨rfl, rfl, rfl⟩
  have s3 : tA d c 3 = (row3 d c).2.2.2 ∧ tB d c 3 = (row3 d c).2.1 ∧ tC d c 3 = (row3 d c).2.2.1 := ⟨rfl, rfl, rfl⟩
  rw [s0.1, s0.2.1, s0.2.2, s1.1, s1.2.1, s1.2.2, s2.1, s2.2.1, s2.2.2, s3.1, s3.2.1, s3.2.2]
  rcases lt_or_gt_of_ne hV0 with h | h
  · rw [if_neg (by linarith), if_neg (by linarith), if_pos (by linarith), if_pos (by linarith)]
    interval_cases k <;> simp only [rawNormal3] <;> ring
  · rw [if_pos (by linarith), if_pos (by linarith), if_neg (by linarith), if_neg (by linarith)]
    interval_cases k <;> simp only [rawNormal3] <;> ring

theorem out2_ne (d : RankData K) {c : Nat} (hc : c < d.nodeid.length) (hne : NonFlat d c) {j : Nat} (hj : j < 3) :
    0 < out2 d c j 0 ^ 2 + out2 d c j 1 ^ 2 := by
  have h := tst_side_ne d hc hne hj
  have e : out2 d c j 0 ^ 2 + out2 d c j 1 ^ 2 = rawNormal2 (vtx d) (sA d c j) (sB d c j) 0 ^ 2 + rawNormal2 (vtx d) (sA d c j) (sB d c j) 1 ^ 2 := by
    unfold out2; rw [orientedNormal2_eq]; split <;> ring
  rw [e]
  by_contra hn
  have h0 : rawNormal2 (vtx d) (sA d c j) (sB d c j) 0 = 0 := by nlinarith [sq_nonneg (rawNormal2 (vtx d) (sA d c j) (sB d c j) 0), sq_nonneg (rawNormal2 (vtx d) (sA d c j) (sB d c j) 1)]
  have h1 : rawNormal2 (vtx d) (sA d c j) (sB d c j) 1 = 0 := by nlinarith [sq_nonneg (rawNormal2 (vtx d) (sA d c j) (sB d c j) 0), sq_nonneg (rawNormal2 (vtx d) (sA d c j) (sB d c j) 1)]
  apply h
  unfold tst
  rw [h0, h1]; ring

theorem out3_ne (d : RankData K) {c : Nat} (hne : NonFlat3 d c) {j : Nat} (hj : j < 4) :
    0 < out3 d c j 0 ^ 2 + out3 d c j 1 ^ 2 + out3 d c j 2 ^ 2 := by
  have h := tst3_side_ne d hne hj
  obtain ⟨r, hr⟩ : ∃ r, r = rawNormal3 (vtx d) (tA d c j) (tB d c j) (tC d c j) := ⟨_, rfl⟩
  have e : out3 d c j 0 ^ 2 + out3 d c j 1 ^ 2 + out3 d c j 2 ^ 2 = r 0 ^ 2 + r 1 ^ 2 + r 2 ^ 2 := by
    unfold out3; rw [orientedNormal3_eq, ← hr]; split <;> ring
  rw [e]
  by_contra hn
  have h0 : r 0 = 0 := by nlinarith [sq_nonneg (r 0), sq_nonneg (r 1), sq_nonneg (r 2)]
  have h1 : r 1 = 0 := by nlinarith [sq_nonneg (r 0), sq_nonneg (r 1), sq_nonneg (r 2)]
  have h2 : r 2 = 0 := by nlinarith [sq_nonneg (r 0), sq_nonneg (r 1), sq_nonneg (r 2)]
  apply h
  unfold tst3
  rw [← hr, h0, h1, h2]; ring

theorem out2_span (d : RankData K) {c : Nat} (hc : c < d.nodeid.length) (hne : NonFlat d c) (v : Vec K)
    (hv : ∀ j < 3, v 0 * out2 d c j 0 + v 1 * out2 d c j 1 = 0) : v 0 = 0 ∧ v 1 = 0 := by
  have hraw : ∀ j < 3, v 0 * rawNormal2 (vtx d) (sA d c j) (sB d c j) 0 + v 1 * rawNormal2 (vtx d) (sA d c j) (sB d c j) 1 = 0 := by
    intro j hj
    have := hv j hj
    unfold out2 at this
    rw [orientedNormal2_eq] at this
    split at this
    · linarith
    · exact this
  have hD := tst_side_ne d hc hne (j := 0) (by omega)
  rw [tst_side d hc (by omega)] at hD
  have h0 := hraw 0 (by omega)
  have h1 := hraw 1 (by omega)
  have s0 : sA d c 0 = (orow2 d c).1 ∧ sB d c 0 = (orow2 d c).2.1 := ⟨rfl, rfl⟩
  have s1 : sA d c 1 = (orow2 d c).2.1 ∧ sB d c 1 = (orow2 d c).2.2 := ⟨rfl, rfl⟩
  have s2 : sO d c 0 = (orow2 d c).2.2 := rfl
  rw [s0.1, s0.2, s2] at hD
  rw [s0.1, s0.2] at h0
  rw [s1.1, s1.2] at h1
  simp only [rawNormal2] at h0 h1
  unfold signedArea at hD
  constructor
  · refine (mul_eq_zero.mp ?_).resolve_right hD
    linear_combination (vtx d (orow2 d c).2.2 0 - vtx d (orow2 d c).2.1 0) * (1 / 3) * h0 + (vtx d (orow2 d c).2.1 0 - vtx d (orow2 d c).1 0) * (-1 / 3) * h1
  · refine (mul_eq_zero.mp ?_).resolve_right hD
    linear_combination (vtx d (orow2 d c).2.1 1 - vtx d (orow2 d c).2.2 1) * (-1 / 3) * h0 + (vtx d (orow2 d c).1 1 - vtx d (orow2 d c).2.1 1) * (1 / 3) * h1

theorem out3_span (d : RankData K) {c : Nat} (hne : NonFlat3 d c) (v : Vec K)
    (hv : ∀ j < 4, v 0 * out3 d c j 0 + v 1 * out3 d c j 1 + v 2 * out3 d c j 2 = 0) : v 0 = 0 ∧ v 1 = 0 ∧ v 2 = 0 := by
  have hraw : ∀ j < 4, v 0 * rawNormal3 (vtx d) (tA d c j) (tB d c j) (tC d c j) 0 + v 1 * rawNormal3 (vtx d) (tA d c j) (tB d c j) (tC d c j) 1 +
      v 2 * rawNormal3 (vtx d) (tA d c j) (tB d c j) (tC d c j) 2 = 0 := by
    intro j hj
    have := hv j hj
    unfold out3 at this
    rw [orientedNormal3_eq] at this
    split at this
    · linarith
    · exact this
  have h0 := hraw 0 (by omega)
  have h1 := hraw 1 (by omega)
  have h2 := hraw 2 (by omega)
  have s0 : tA d c 0 = (row3 d c).1 ∧ tB d c 0 = (row3 d c).2.1 ∧ tC d c 0 = (row3 d c).2.2.1 := ⟨rfl, rfl, rfl⟩
  have s1 : tA d c 1 = (row3 d c).2.2.1 ∧ tB d c 1 = (row3 d c).2.2.2 ∧ tC d c 1 = (row3 d c).1 := ⟨rfl, rfl, rfl⟩
  have s2 : tA d c 2 = (row3 d c).1 ∧ tB d c 2 = (row3 d c).2.1 ∧ tC d c 2 = (row3 d c).2.2.2 := ⟨rfl, rfl, rfl⟩
  rw [s0.1, s0.2.1, s0.2.2] at h0
  rw [s1.1, s1.2.1, s1.2.2] at h1
  rw [s2.1, s2.2.1, s2.2.2] at h2
  unfold NonFlat3 at hne
  simp only [rawNormal3] at h0 h1 h2
  generalize vtx d (row3 d c).1 = A at *
  generalize vtx d (row3 d c).2.1 = B at *
  generalize vtx d (row3 d c).2.2.1 = C at *
  generalize vtx d (row3 d c).2.2.2 = D at *
  unfold signedVol at hne
  refine ⟨(mul_eq_zero.mp ?_).resolve_right hne, (mul_eq_zero.mp ?_).resolve_right hne, (mul_eq_zero.mp ?_).resolve_right hne⟩
  · linear_combination (B 0 - A 0) / 3 * h1 - (C 0 - A 0) / 3 * h2 + (D 0 - A 0) / 3 * h0
  · linear_combination (B 1 - A 1) / 3 * h1 - (C 1 - A 1) / 3 * h2 + (D 1 - A 1) / 3 * h0
  · linear_combination (B 2 - A 2) / 3 * h1 - (C 2 - A 2) / 3 * h2 + (D 2 - A 2) / 3 * h0

/-- The cells of the mesh are closed and not degenerate. -/
structure Solid (G : Tables K) (dim : Nat) (out : Nat → Nat → Vec K) : Prop where
  closed : ∀ C < G.nbcells, ∀ k < 3, ∑ j ∈ Finset.range (dim + 1), out C j k = 0
  vpos : ∀ C < G.nbcells, 0 < G.volume C
  big : ∀ C < G.nbcells, ∀ j < dim + 1, 0 < out C j 0 ^ 2 + out C j 1 ^ 2 + out C j 2 ^ 2
  mes : ∀ C < G.nbcells, ∀ j < dim + 1, G.mesure (G.faceid C j) ≠ 0
  span : ∀ C < G.nbcells, ∀ v : Vec K, (∀ j < dim + 1, v 0 * out C j 0 + v 1 * out C j 1 + v 2 * out C j 2 = 0) → ∀ k < dim, v k = 0

section
variable {nodeid : Nat → Nat → Nat} {node : Nat → K × K × K × Nat} {npart0 epart : Nat → Nat}
  {nbnodes n SIZE : Nat} {data : Nat → RankData K} {serial : RankData K}

theorem out2_third (d : RankData K) (c j : Nat) : out2 d c j 2 = 0 := by
  unfold out2; rw [orientedNormal2_eq]; split <;> simp [rawNormal2]

theorem Launched.solid2 (h : Launched 3 nodeid node (centvol2 node nodeid) npart0 epart nbnodes n SIZE data serial) (vm : ValidMesh2 nodeid node nbnodes n)
    (sqrt : K → K) (hs : ∀ x, 0 < x → sqrt x ≠ 0) (trunc : K → Int) (htr : ∀ m : Nat, trunc (m : K) = m) :
    Solid (build2 sqrt trunc 1 serial) 2 (out2 serial) := by
  have hn : (build2 sqrt trunc 1 serial).nbcells = n := h.serial_cells.1
  have hl : ∀ C < (build2 sqrt trunc 1 serial).nbcells, C < serial.nodeid.length := fun C hC => hC
  refine ⟨fun C hC k hk => out2_closed serial (hl C hC) k hk, ?_, ?_, ?_, ?_⟩
  · intro C hC
    rw [volume_build2 _ _ _ _ (hl C hC), volume2_eq]
    exact abs_pos.mpr (h.nonFlatS vm (hn ▸ hC))
  · intro C hC j hj
    have := out2_ne serial (hl C hC) (h.nonFlatS vm (hn ▸ hC)) hj
    nlinarith [sq_nonneg (out2 serial C j 2)]
  · intro C hC j hj
    obtain ⟨hF, _⟩ := face_perm2 sqrt trunc 1 serial (hl C hC) hj
    have h0 : 0 < SIZE := by have := h.hS; omega
    obtain ⟨ε, hε, hnn⟩ := (h.rankOf2 vm sqrt trunc htr h0).normalG_pm hC hj
    rw [mesure_build2 _ _ _ _ hF, mesure2_even sqrt _ _ ε hε hnn]
    exact hs _ (out2_ne serial (hl C hC) (h.nonFlatS vm (hn ▸ hC)) hj)
  · intro C hC v hv k hk
    have := out2_span serial (hl C hC) (h.nonFlatS vm (hn ▸ hC)) v (fun j hj => by
      have := hv j hj; rw [out2_third] at this; linarith)
    interval_cases k
    · exact this.1
    · exact this.2

theorem Launched.solid3 (h : Launched 4 nodeid node (centvol3 node nodeid) npart0 epart nbnodes n SIZE data serial) (vm : ValidMesh3 nodeid node nbnodes n)
    (sqrt : K → K) (hs : ∀ x, 0 < x → sqrt x ≠ 0) (trunc : K → Int) (htr : ∀ m : Nat, trunc (m : K) = m) :
    Solid (build3 sqrt trunc 1 serial) 3 (out3 serial) := by
  have hn : (build3 sqrt trunc 1 serial).nbcells = n := h.serial_cells.1
  have hl : ∀ C < (build3 sqrt trunc 1 serial).nbcells, C < serial.nodeid.length := fun C hC => hC
  refine ⟨fun C hC k hk => out3_closed serial (h.nonFlatS3 vm (hn ▸ hC)) k hk, ?_, ?_, ?_, ?_⟩
  · intro C hC
    rw [volume_build3 _ _ _ _ (hl C hC), volume3_eq]
    exact abs_pos.mpr (h.nonFlatS3 vm (hn ▸ hC))
  · intro C hC j hj
    exact out3_ne serial (h.nonFlatS3 vm (hn ▸ hC)) hj
  · intro C hC j hj
    obtain ⟨hF, _⟩ := face_perm3 sqrt trunc 1 serial (hl C hC) hj
    have h0 : 0 < SIZE := by have := h.hS; omega
    obtain ⟨ε, hε, hnn⟩ := (h.rankOf3 vm sqrt trunc htr h0).normalG_pm hC hj
    rw [mesure_build3 _ _ _ _ hF]
    unfold mesure3
    apply hs
    rw [hnn 0 (by omega), hnn 1 (by omega), hnn 2 (by omega)]
    have := out3_ne serial (h.nonFlatS3 vm (hn ▸ hC)) hj
    rcases hε with rfl | rfl <;> nlinarith
  · intro C hC v hv k hk
    have := out3_span serial (h.nonFlatS3 vm (hn ▸ hC)) v (fun j hj => hv j hj)
    interval_cases k
    · exact this.1
    · exact this.2.1
    · exact this.2.2

end
end Verif.Props.Par
