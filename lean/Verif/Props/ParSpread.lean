import Verif.Props.ParInsul

/-! Helper lemmas: the interpolation stencil of every node of a mesh whose cells are spread around their nodes is not flat. -/
set_option linter.unusedSectionVars false
set_option linter.unusedVariables false
set_option linter.unusedSimpArgs false
namespace Verif.Props.Par
open Verif.Fvm Verif.Spec Verif.Conn Verif.Dom Verif.Geo Verif.Names Verif.MeshFile Verif.Part Verif.Comm Verif.Run Verif.HaloGhost Verif.Interp
variable {K : Type*} [Field K] [LinearOrder K] [IsStrictOrderedRing K]
section
variable {nodeid : Nat → Nat → Nat} {node : Nat → K × K × K × Nat} {npart0 epart : Nat → Nat}
  {nbnodes n SIZE : Nat} {data : Nat → RankData K} {serial : RankData K}

theorem ghost_dir2 (A B v : Vec K) (hl : (B 0 - A 0) ^ 2 + (B 1 - A 1) ^ 2 ≠ 0) (ht : (v 1 - A 1) * (A 0 - B 0) - (v 0 - A 0) * (A 1 - B 1) ≠ 0)
    (a b : K) (h : a * (ghostcenter2 B A v).1 + b * (ghostcenter2 B A v).2.1 = a * v 0 + b * v 1) :
    a * (A 1 - B 1) + b * (B 0 - A 0) = 0 := by
  have key : 2 * ((v 1 - A 1) * (A 0 - B 0) - (v 0 - A 0) * (A 1 - B 1)) * (a * (A 1 - B 1) + b * (B 0 - A 0)) = 0 := by
    obtain ⟨w, hw⟩ : ∃ w, w = (B 0 - A 0) ^ 2 + (B 1 - A 1) ^ 2 := ⟨_, rfl⟩
    simp only [ghostcenter2] at h
    rw [← hw] at hl h
    field_simp at h
    rw [hw] at h
    linear_combination h
  rcases mul_eq_zero.mp key with h1 | h1
  · exact absurd h1 (mul_ne_zero two_ne_zero ht)
  · exact h1

/-- The test direction of `Surrounded` is parallel to the outer edges of the node. -/
theorem outer_dir2 (h : Launched 3 nodeid node (centvol2 node nodeid) npart0 epart nbnodes n SIZE data serial)
    (vm : ValidMesh2 nodeid node nbnodes n) (sqrt : K → K) (trunc : K → Int) (htr : ∀ m : Nat, trunc (m : K) = m) {C s x : Nat} (hC : C < n)
    (hsx : s ≠ x) (hs : Uses nodeid 3 C s) (hx : Uses nodeid 3 C x) (ho : ∀ c' < n, c' ≠ C → ¬ (Uses nodeid 3 c' s ∧ Uses nodeid 3 c' x))
    (u : Nat → K) (c : K) (h1 : ∑ k ∈ Finset.range 2, u k * (build2 sqrt trunc 1 serial).center C k = c)
    (h2 : ∀ f ∈ (build2 sqrt trunc 1 serial).boundaryfaces, s ∈ (build2 sqrt trunc 1 serial).fnode f →
      ∑ k ∈ Finset.range 2, u k * (ghostPoint 2 (build2 sqrt trunc 1 serial) f).getD k 0 = c) :
    u 0 * (pos node s 1 - pos node x 1) + u 1 * (pos node x 0 - pos node s 0) = 0 := by
  have np := h.nodePair2 vm sqrt trunc htr
  have h0 : 0 < SIZE := by have := np.run.hS; omega
  have R := np.run.rank 0 h0
  have hCG : C < (build2 sqrt trunc 1 serial).nbcells := np.run.nG ▸ hC
  have hCl : C < serial.nodeid.length := hCG
  obtain ⟨j, hj, pj⟩ := np.faceG C hC [s, x] (by simpa using hsx) rfl (by simp [hs, hx])
  have pj' := pj
  rcases R.gkinds hCG hj with ⟨_, hb, _, e0⟩ | ⟨E, hE, hEC, _, _, _, hcell⟩
  · have hg := h2 _ hb (pj.subset (by simp))
    have hne := h.nonFlatS vm hC
    rw [ghostPoint_side2 sqrt trunc 1 serial hCl hj hne e0, ← h1, center_build2 _ _ _ _ hCl] at hg
    simp only [Finset.sum_range_succ, Finset.sum_range_zero, zero_add, List.getD_cons_zero, List.getD_cons_succ] at hg
    have hA := signedArea_edge (signedArea_perm_ne (vtx serial) _ _ _ _ _ _ (Par.side_perm serial hCl hj) hne)
    have ht := tst_side_ne serial hCl hne hj
    obtain ⟨f, hf⟩ : ∃ f, f = (build2 sqrt trunc 1 serial).faceid C j := ⟨_, rfl⟩
    have hlt : s < nbnodes ∧ x < nbnodes := by
      obtain ⟨i, hi, rfl⟩ := hs
      obtain ⟨i', hi', rfl⟩ := hx
      exact ⟨vm.nodes C hC i hi, vm.nodes C hC i' hi'⟩
    have hpm : [sA serial C j, sB serial C j].Perm [s, x] := by
      refine (face_perm2 sqrt trunc 1 serial hCl hj).2.symm.trans ?_
      have := list2_eta (np.fnodeG C hC j hj).2.1
      refine List.Perm.trans ?_ pj.symm
      rw [← this]
      exact List.Perm.refl _
    have hvs := h.serial_cells.2.2.1
    have vs : ∀ k < 3, vtx serial s k = pos node s k := (hvs s hlt.1).1
    have vx : ∀ k < 3, vtx serial x k = pos node x k := (hvs x hlt.2).1
    have key := ghost_dir2 _ _ _ (by
        intro e; apply hA; rw [← e]; ring) (by
        intro e; apply ht; simp only [tst, rawNormal2, centerf2]; linear_combination -e) _ _ hg
    rcases perm2 hpm with ⟨e1, e2⟩ | ⟨e1, e2⟩
    · rw [e1, e2, vs 0 (by omega), vs 1 (by omega), vx 0 (by omega), vx 1 (by omega)] at key
      exact key
    · rw [e1, e2, vs 0 (by omega), vs 1 (by omega), vx 0 (by omega), vx 1 (by omega)] at key
      linear_combination -key
  · exfalso
    have hF := R.cG.flt C hCG j hj
    have hu : Uses (build2 sqrt trunc 1 serial).faceid 3 E ((build2 sqrt trunc 1 serial).faceid C j) := by
      obtain ⟨a, ha, ea, ua⟩ := users_first (R.cG.users_ne hF)
      obtain ⟨b, hb, eb, ub⟩ := users_second (R.cG.name0 _ hF ‹_›)
      rcases hcell with ⟨_, e⟩ | ⟨e, _⟩
      · rw [R.cG.cell1 _ hF ‹_›, eb] at e
        obtain rfl : b = E := by exact_mod_cast e
        exact ub
      · rw [R.cG.cell0 _ hF, ea] at e
        obtain rfl : a = E := by exact_mod_cast e
        exact ua
    obtain ⟨i, hi, e⟩ := hu
    have hEn : E < n := np.run.nG ▸ hE
    have hall := (np.fnodeG E hEn i hi).2.2
    rw [e] at hall
    exact ho E hEn hEC ⟨hall s (pj.subset (by simp)), hall x (pj.subset (by simp))⟩

theorem ghost_dir3 (nrm fc v : Vec K) (m : K) (hm : m ≠ 0)
    (ht : (fc 0 - v 0) * nrm 0 + (fc 1 - v 1) * nrm 1 + (fc 2 - v 2) * nrm 2 ≠ 0) (a b c : K)
    (h : a * (ghostcenter3 nrm m fc v).1 0 + b * (ghostcenter3 nrm m fc v).1 1 + c * (ghostcenter3 nrm m fc v).1 2 = a * v 0 + b * v 1 + c * v 2) :
    a * nrm 0 + b * nrm 1 + c * nrm 2 = 0 := by
  have key : 2 * ((fc 0 - v 0) * nrm 0 + (fc 1 - v 1) * nrm 1 + (fc 2 - v 2) * nrm 2) * (a * nrm 0 + b * nrm 1 + c * nrm 2) = 0 := by
    simp only [ghostcenter3, dot3] at h
    field_simp at h
    linear_combination h
  rcases mul_eq_zero.mp key with h1 | h1
  · exact absurd h1 (mul_ne_zero two_ne_zero ht)
  · exact h1

/-- The test direction of `Surrounded` is parallel to the outer faces of the node (3D). -/
theorem outer_dir3 (h : Launched 4 nodeid node (centvol3 node nodeid) npart0 epart nbnodes n SIZE data serial)
    (vm : ValidMesh3 nodeid node nbnodes n) (sqrt : K → K) (hsq : ∀ x, 0 < x → sqrt x ≠ 0) (trunc : K → Int) (htr : ∀ m : Nat, trunc (m : K) = m)
    {C s x y : Nat} (hC : C < n) (hnd : [s, x, y].Nodup) (hs : Uses nodeid 4 C s) (hx : Uses nodeid 4 C x) (hy : Uses nodeid 4 C y)
    (ho : ∀ c' < n, c' ≠ C → ¬ (Uses nodeid 4 c' s ∧ Uses nodeid 4 c' x ∧ Uses nodeid 4 c' y))
    (u : Nat → K) (c : K) (h1 : ∑ k ∈ Finset.range 3, u k * (build3 sqrt trunc 1 serial).center C k = c)
    (h2 : ∀ f ∈ (build3 sqrt trunc 1 serial).boundaryfaces, s ∈ (build3 sqrt trunc 1 serial).fnode f →
      ∑ k ∈ Finset.range 3, u k * (ghostPoint 3 (build3 sqrt trunc 1 serial) f).getD k 0 = c) :
    u 0 * cross node s x y 0 + u 1 * cross node s x y 1 + u 2 * cross node s x y 2 = 0 := by
  have np := h.nodePair3 vm sqrt trunc htr
  have h0 : 0 < SIZE := by have := np.run.hS; omega
  have R := np.run.rank 0 h0
  have hCG : C < (build3 sqrt trunc 1 serial).nbcells := np.run.nG ▸ hC
  have hCl : C < serial.nodeid.length := hCG
  obtain ⟨j, hj, pj⟩ := np.faceG C hC [s, x, y] hnd rfl (by simp [hs, hx, hy])
  rcases R.gkinds hCG hj with ⟨_, hb, _, e0⟩ | ⟨E, hE, hEC, _, _, _, hcell⟩
  · have hg := h2 _ hb (pj.subset (by simp))
    have hne := h.nonFlatS3 vm hC
    have hmes := (h.solid3 vm sqrt hsq trunc htr).mes C hCG j hj
    have hN := normal_first3 sqrt trunc 1 serial hCl hj hne e0
    have hfc := fcenter_side3 sqrt trunc 1 serial hCl hj
    have hlt : s < nbnodes ∧ x < nbnodes ∧ y < nbnodes := by
      obtain ⟨i, hi, rfl⟩ := hs
      obtain ⟨i', hi', rfl⟩ := hx
      obtain ⟨i2, hi2, rfl⟩ := hy
      exact ⟨vm.nodes C hC i hi, vm.nodes C hC i' hi', vm.nodes C hC i2 hi2⟩
    have hpm : [tA serial C j, tB serial C j, tC serial C j].Perm [s, x, y] := by
      rw [← sid3_eq serial C j]
      exact (fnode_perm3 sqrt trunc 1 serial hCl hj).symm.trans pj.symm
    have hvs := h.serial_cells.2.2.1
    have vs : ∀ k < 3, vtx serial s k = pos node s k := (hvs s hlt.1).1
    have vx : ∀ k < 3, vtx serial x k = pos node x k := (hvs x hlt.2.1).1
    have vy : ∀ k < 3, vtx serial y k = pos node y k := (hvs y hlt.2.2).1
    have ht := tst3_side_ne serial hne hj
    obtain ⟨ε, hε, hout⟩ : ∃ ε : K, (ε = 1 ∨ ε = -1) ∧ ∀ k, out3 serial C j k = ε * rawNormal3 (vtx serial) (tA serial C j) (tB serial C j) (tC serial C j) k := by
      unfold out3
      rw [orientedNormal3_eq]
      split
      · exact ⟨-1, Or.inr rfl, fun _ => rfl⟩
      · exact ⟨1, Or.inl rfl, fun _ => (one_mul _).symm⟩
    unfold ghostPoint at hg
    rw [if_neg (by omega), e0, ← h1] at hg
    dsimp only at hg
    rw [show idx ((C : Nat) : Int) = C by simp [idx]] at hg
    simp only [Finset.sum_range_succ, Finset.sum_range_zero, zero_add, List.getD_cons_zero, List.getD_cons_succ] at hg
    have key := ghost_dir3 _ _ _ _ hmes (by
        rw [hN, hfc, center_build3 _ _ _ _ hCl]
        intro e; apply ht
        simp only [hout] at e
        unfold tst3
        rw [show cen3 serial C = center3 (vtx serial) (row3 serial C).1 (row3 serial C).2.1 (row3 serial C).2.2.1 (row3 serial C).2.2.2 from rfl]
        rcases hε with rfl | rfl
        · linear_combination -e
        · linear_combination e) _ _ _ hg
    rw [hN] at key
    simp only [hout] at key
    have key2 : u 0 * rawNormal3 (vtx serial) (tA serial C j) (tB serial C j) (tC serial C j) 0 +
        u 1 * rawNormal3 (vtx serial) (tA serial C j) (tB serial C j) (tC serial C j) 1 +
        u 2 * rawNormal3 (vtx serial) (tA serial C j) (tB serial C j) (tC serial C j) 2 = 0 := by
      rcases hε with rfl | rfl
      · linear_combination key
      · linear_combination -key
    have ns : ∀ k < 3, pos node s k = vtx serial s k := fun k hk => (vs k hk).symm
    rcases perm3 hpm with e | e | e | e | e | e <;> obtain ⟨e1, e2, e3⟩ := e <;> rw [e1, e2, e3] at key2 <;>
      simp only [cross, rawNormal3, vs 0 (by omega), vs 1 (by omega), vs 2 (by omega), vx 0 (by omega), vx 1 (by omega), vx 2 (by omega),
        vy 0 (by omega), vy 1 (by omega), vy 2 (by omega)] at key2 ⊢ <;> first | linear_combination 2 * key2 | linear_combination -2 * key2
  · exfalso
    have hF := R.cG.flt C hCG j hj
    have hu : Uses (build3 sqrt trunc 1 serial).faceid 4 E ((build3 sqrt trunc 1 serial).faceid C j) := by
      obtain ⟨a, ha, ea, ua⟩ := users_first (R.cG.users_ne hF)
      obtain ⟨b, hb, eb, ub⟩ := users_second (R.cG.name0 _ hF ‹_›)
      rcases hcell with ⟨_, e⟩ | ⟨e, _⟩
      · rw [R.cG.cell1 _ hF ‹_›, eb] at e
        obtain rfl : b = E := by exact_mod_cast e
        exact ub
      · rw [R.cG.cell0 _ hF, ea] at e
        obtain rfl : a = E := by exact_mod_cast e
        exact ua
    obtain ⟨i, hi, e⟩ := hu
    have hEn : E < n := np.run.nG ▸ hE
    have hall := (np.fnodeG E hEn i hi).2.2
    rw [e] at hall
    exact ho E hEn hEC ⟨hall s (pj.subset (by simp)), hall x (pj.subset (by simp)), hall y (pj.subset (by simp))⟩

theorem surrounded2 (h : Launched 3 nodeid node (centvol2 node nodeid) npart0 epart nbnodes n SIZE data serial)
    (vm : ValidMesh2 nodeid node nbnodes n) (sqrt : K → K) (trunc : K → Int) (htr : ∀ m : Nat, trunc (m : K) = m) {s : Nat}
    (hsp : Spread2 nodeid node n s) : Surrounded 2 nodeid n (build2 sqrt trunc 1 serial) s := by
  intro u c h1 h2
  have hvs := h.serial_cells.2.2.1
  obtain ⟨z0, z1⟩ := hsp u c (fun C hC hu => by
      have e := h1 C hC hu
      rw [center_build2 _ _ _ _ (by rw [h.serial_cells.1]; exact hC), h.row2S hC] at e
      simp only [Finset.sum_range_succ, Finset.sum_range_zero, zero_add, center2] at e
      have q : ∀ j < 3, ∀ k < 3, vtx serial (nodeid C j) k = pos node (nodeid C j) k := fun j hj => (hvs _ (vm.nodes C hC j hj)).1
      rw [q 0 (by omega) 0 (by omega), q 0 (by omega) 1 (by omega), q 1 (by omega) 0 (by omega), q 1 (by omega) 1 (by omega),
        q 2 (by omega) 0 (by omega), q 2 (by omega) 1 (by omega)] at e
      exact e)
    (fun C hC x hsx hs hx ho => outer_dir2 h vm sqrt trunc htr hC hsx hs hx ho u c (h1 C hC hs) h2)
  intro k hk
  interval_cases k
  · exact z0
  · exact z1

theorem surrounded3 (h : Launched 4 nodeid node (centvol3 node nodeid) npart0 epart nbnodes n SIZE data serial)
    (vm : ValidMesh3 nodeid node nbnodes n) (sqrt : K → K) (hsq : ∀ x, 0 < x → sqrt x ≠ 0) (trunc : K → Int) (htr : ∀ m : Nat, trunc (m : K) = m)
    {s : Nat} (hsp : Spread3 nodeid node n s) : Surrounded 3 nodeid n (build3 sqrt trunc 1 serial) s := by
  intro u c h1 h2
  have hvs := h.serial_cells.2.2.1
  obtain ⟨z0, z1, z2⟩ := hsp u c (fun C hC hu => by
      have e := h1 C hC hu
      rw [center_build3 _ _ _ _ (by rw [h.serial_cells.1]; exact hC), h.row3S hC] at e
      simp only [Finset.sum_range_succ, Finset.sum_range_zero, zero_add, center3] at e ⊢
      have q : ∀ j < 4, ∀ k < 3, vtx serial (nodeid C j) k = pos node (nodeid C j) k := fun j hj => (hvs _ (vm.nodes C hC j hj)).1
      rw [q 0 (by omega) 0 (by omega), q 0 (by omega) 1 (by omega), q 0 (by omega) 2 (by omega), q 1 (by omega) 0 (by omega),
        q 1 (by omega) 1 (by omega), q 1 (by omega) 2 (by omega), q 2 (by omega) 0 (by omega), q 2 (by omega) 1 (by omega),
        q 2 (by omega) 2 (by omega), q 3 (by omega) 0 (by omega), q 3 (by omega) 1 (by omega), q 3 (by omega) 2 (by omega)] at e
      exact e)
    (fun C hC x y hnd hs hx hy ho => outer_dir3 h vm sqrt hsq trunc htr hC hnd hs hx hy ho u c (h1 C hC hs) h2)
  intro k hk
  interval_cases k
  · exact z0
  · exact z1
  · exact z2

end
end Verif.Props.Par
