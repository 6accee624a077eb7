import Verif.Spec.Frames
import Mathlib.Tactic.Linarith
import Mathlib.Tactic.Ring
import Mathlib.Tactic.FieldSimp
import Mathlib.Algebra.Order.Archimedean.Basic

/-! Helper lemmas for C125-C127: the result files of a loop. -/
set_option linter.unusedSectionVars false
set_option linter.unusedVariables false
set_option linter.unusedSimpArgs false
namespace Verif.Frames
open Verif.Spec
variable {σ K : Type*} [Field K] [LinearOrder K]
variable {D : Driver σ K} {tot : σ → σ → Int} {s0 : σ}

theorem reaches_det {i : Nat} {s t : σ} (h : Reaches D s0 i s) (h' : Reaches D s0 i t) : s = t := by
  induction h generalizing t with
  | zero => cases h'; rfl
  | succ _ _ e ih =>
    cases h' with
    | succ a _ e' =>
      have := ih a; subst this
      rw [e] at e'; cases e'; rfl

theorem reaches_before {i j : Nat} {s : σ} (h : Reaches D s0 i s) (hj : j < i) : ∃ t, Reaches D s0 j t ∧ D.time t < D.tfinal := by
  induction h with
  | zero => omega
  | succ a ht e ih =>
    rcases Nat.lt_succ_iff_lt_or_eq.mp hj with h1 | rfl
    · exact ih h1
    · exact ⟨_, a, ht⟩

/-- The number of iterations of a finished run is unique. -/
theorem ends_unique {n n' : Nat} {s t : σ} (h : EndsAt D s0 n s) (h' : EndsAt D s0 n' t) : n = n' ∧ s = t := by
  have key : ∀ {a b : Nat} {s t : σ}, EndsAt D s0 a s → EndsAt D s0 b t → ¬ a < b := by
    intro a b s t ha hb hlt
    obtain ⟨u, hu, ht⟩ := reaches_before hb.1 hlt
    rw [reaches_det hu ha.1] at ht
    exact absurd ha.2 (not_le.mpr ht)
  have : n = n' := by have := key h h'; have := key h' h; omega
  subst this
  exact ⟨rfl, reaches_det h.1 h'.1⟩

/-- What `niter== 1 or niter%tot == 0` decides. -/
theorem due_ok {niter : Nat} {t : Int} {b : Bool} (h : due niter t = .ok b) : b = true ↔ niter = 1 ∨ t ∣ (niter : Int) := by
  unfold due at h
  split_ifs at h with h1 h2
  · cases h; simp [h1]
  · cases h
    simp only [decide_eq_true_eq]
    rw [← Int.dvd_iff_emod_eq_zero]
    simp [h1]

/-- The state of the loop after `N` turns. -/
theorem loop_inv (N : Nat) (r : RunSt σ) (h : loop D tot (begin_ s0) N = .ok r) :
    ∃ n, Reaches D s0 n r.state ∧ r.niter = n + 1 ∧ r.miter = r.saved.length ∧ (n = N ∨ (n < N ∧ D.tfinal ≤ D.time r.state)) ∧
      FilesOf D tot s0 n r.saved := by
  induction N generalizing r with
  | zero =>
    simp only [loop, Except.ok.injEq] at h
    subst h
    refine ⟨0, .zero, rfl, rfl, Or.inl rfl, ⟨?_, ?_, ?_, ?_⟩⟩
    · intro m e he; simp [begin_] at he
    · exact List.Pairwise.nil
    · intro e he; simp [begin_] at he
    · intro i s s' hi; omega
  | succ N ih =>
    unfold loop at h
    cases h1 : loop D tot (begin_ s0) N with
    | error e => rw [h1] at h; simp at h
    | ok q =>
      rw [h1] at h
      simp only at h
      obtain ⟨n, hr, hn, hm, hc, hf⟩ := ih q h1
      by_cases ht : D.time q.state < D.tfinal
      · rw [if_pos ht] at h
        have hnN : n = N := by
          rcases hc with rfl | ⟨_, h2⟩
          · rfl
          · exact absurd h2 (not_le.mpr ht)
        unfold iterate at h
        cases hs : D.step q.state with
        | none => rw [hs] at h; simp at h
        | some s' =>
          rw [hs] at h
          simp only at h
          cases hd : due q.niter (tot q.state s') with
          | error e => rw [hd] at h; simp at h
          | ok b =>
            rw [hd] at h
            simp only [Except.ok.injEq] at h
            subst h
            have hb := due_ok hd
            rw [hn] at hb
            have hr' : Reaches D s0 (n + 1) s' := .succ hr ht hs
            refine ⟨n + 1, hr', by simp [hn], ?_, Or.inl (by omega), ?_⟩
            · cases b <;> simp [hm]
            · refine ⟨?_, ?_, ?_, ?_⟩
              · intro m e he
                cases b with
                | false => exact hf.numbered m e he
                | true =>
                  simp only [if_true] at he
                  rcases Nat.lt_trichotomy m q.saved.length with hl | hl | hl
                  · rw [List.getElem?_append_left hl] at he; exact hf.numbered m e he
                  · rw [List.getElem?_append_right (by omega)] at he
                    subst hl
                    simp only [Nat.sub_self, List.getElem?_cons_zero, Option.some.injEq] at he
                    subst he; exact hm
                  · rw [List.getElem?_eq_none (by simp; omega)] at he; cases he
              · cases b with
                | false => exact hf.increasing
                | true =>
                  simp only [if_true]
                  rw [List.pairwise_append]
                  refine ⟨hf.increasing, List.pairwise_singleton _ _, ?_⟩
                  intro a ha c hc
                  rw [List.mem_singleton] at hc; subst hc
                  have := (hf.content a ha).2.1
                  show a.niter < q.niter
                  omega
              · intro e he
                cases b with
                | false => have := hf.content e he; exact ⟨this.1, by omega, this.2.2⟩
                | true =>
                  simp only [if_true, List.mem_append, List.mem_singleton] at he
                  rcases he with he | rfl
                  · have := hf.content e he; exact ⟨this.1, by omega, this.2.2⟩
                  · refine ⟨by simp [hn], by simp [hn], ?_⟩
                    show Reaches D s0 q.niter s'
                    rw [hn]; exact hr'
              · intro i s t hi h2 h3
                rcases Nat.lt_succ_iff_lt_or_eq.mp hi with hlt | rfl
                · rw [← hf.when_ i s t hlt h2 h3]
                  cases b with
                  | false => rfl
                  | true =>
                    simp only [if_true]
                    constructor
                    · rintro ⟨e, he, ee⟩
                      rw [List.mem_append, List.mem_singleton] at he
                      rcases he with he | rfl
                      · exact ⟨e, he, ee⟩
                      · simp only at ee; omega
                    · rintro ⟨e, he, ee⟩; exact ⟨e, List.mem_append_left _ he, ee⟩
                · obtain rfl := reaches_det h2 hr
                  obtain rfl := reaches_det h3 hr'
                  have hbb : (i = 0 ∨ tot q.state t ∣ ((i + 1 : Nat) : Int)) ↔ b = true := by
                    rw [hb]; constructor
                    · rintro (rfl | h); exacts [Or.inl rfl, Or.inr h]
                    · rintro (h | h); exacts [Or.inl (by omega), Or.inr h]
                  rw [hbb]
                  cases b with
                  | false =>
                    simp only [Bool.false_eq_true, if_false, iff_false, not_exists, not_and]
                    intro e he ee
                    have := (hf.content e he).2.1
                    omega
                  | true =>
                    simp only [if_true, iff_true]
                    exact ⟨⟨q.miter, q.niter, t⟩, by simp, hn⟩
      · rw [if_neg ht] at h
        simp only [Except.ok.injEq] at h
        subst h
        refine ⟨n, hr, hn, hm, Or.inr ⟨?_, not_lt.mp ht⟩, hf⟩
        rcases hc with rfl | ⟨h2, _⟩ <;> omega

/-- A loop whose iterations all succeed and whose `tot` never vanishes does not fail. -/
theorem loop_ok (hstep : ∀ i s, Reaches D s0 i s → D.time s < D.tfinal → ∃ s', D.step s = some s')
    (htot : ∀ i s s', 1 ≤ i → Reaches D s0 i s → D.time s < D.tfinal → D.step s = some s' → tot s s' ≠ 0) (N : Nat) :
    ∃ r, loop D tot (begin_ s0) N = .ok r := by
  induction N with
  | zero => exact ⟨_, rfl⟩
  | succ N ih =>
    obtain ⟨q, hq⟩ := ih
    obtain ⟨n, hr, hn, hm, hc, hf⟩ := loop_inv N q hq
    unfold loop
    rw [hq]
    simp only
    by_cases ht : D.time q.state < D.tfinal
    · rw [if_pos ht]
      obtain ⟨s', hs⟩ := hstep n q.state hr ht
      unfold iterate
      rw [hs]
      simp only
      have : ∃ b, due q.niter (tot q.state s') = .ok b := by
        unfold due
        by_cases h1 : q.niter = 1
        · exact ⟨true, by rw [if_pos h1]⟩
        · have := htot n q.state s' (by omega) hr ht hs
          exact ⟨_, by rw [if_neg h1, if_neg this]⟩
      obtain ⟨b, hb⟩ := this
      rw [hb]
      exact ⟨_, rfl⟩
    · rw [if_neg ht]; exact ⟨q, rfl⟩

/-- Once the run is over nothing changes any more. -/
theorem loop_stays {N M : Nat} {r : RunSt σ} (h : loop D tot (begin_ s0) N = .ok r) (ht : D.tfinal ≤ D.time r.state) (hM : N ≤ M) :
    loop D tot (begin_ s0) M = .ok r := by
  induction M, hM using Nat.le_induction with
  | base => exact h
  | succ M _ ih => unfold loop; rw [ih]; simp only; rw [if_neg (not_lt.mpr ht)]

/-- An error is final. -/
theorem loop_error {N M : Nat} {e : Err} (h : loop D tot (begin_ s0) N = .error e) (hM : N ≤ M) : loop D tot (begin_ s0) M = .error e := by
  induction M, hM using Nat.le_induction with
  | base => exact h
  | succ M _ ih => unfold loop; rw [ih]

/-- The files written when `tot` is the same in every iteration. -/
theorem count_le {T : Nat} (hT : 0 < T) (htot : ∀ i s s', Reaches D s0 i s → D.step s = some s' → tot s s' = T) (N : Nat) (r : RunSt σ)
    (h : loop D tot (begin_ s0) N = .ok r) : r.saved.length ≤ 1 + (r.niter - 1) / T ∧ (r.niter = 1 → r.saved.length = 0) := by
  induction N generalizing r with
  | zero =>
    simp only [loop, Except.ok.injEq] at h
    subst h
    simp [begin_]
  | succ N ih =>
    unfold loop at h
    cases h1 : loop D tot (begin_ s0) N with
    | error e => rw [h1] at h; simp at h
    | ok q =>
      rw [h1] at h
      simp only at h
      obtain ⟨i1, i2⟩ := ih q h1
      obtain ⟨n, hr, hn, _⟩ := loop_inv N q h1
      by_cases ht : D.time q.state < D.tfinal
      · rw [if_pos ht] at h
        unfold iterate at h
        cases hs : D.step q.state with
        | none => rw [hs] at h; simp at h
        | some s' =>
          rw [hs] at h
          simp only at h
          rw [htot n _ _ hr hs] at h
          cases hd : due q.niter T with
          | error e => rw [hd] at h; simp at h
          | ok b =>
            rw [hd] at h
            simp only [Except.ok.injEq] at h
            subst h
            have hb := due_ok hd
            dsimp only
            refine ⟨?_, fun h => absurd h (by omega)⟩
            rw [hn] at i1 i2 hb ⊢
            simp only [Nat.add_sub_cancel] at i1 ⊢
            rw [Nat.succ_div]
            cases b with
            | false => simp only [Bool.false_eq_true, if_false]; omega
            | true =>
              simp only [if_true, List.length_append, List.length_cons, List.length_nil]
              rcases hb.mp rfl with h0 | h0
              · have := i2 h0; rw [this]; exact Nat.le_add_right _ _
              · rw [if_pos (by exact_mod_cast h0)]; omega
      · rw [if_neg ht] at h
        simp only [Except.ok.injEq] at h
        subst h
        exact ⟨i1, i2⟩

section
variable [IsStrictOrderedRing K]

/-- The time after `i` steps of the same length. -/
theorem time_const {δ : K} (hδ : ∀ i s s', Reaches D s0 i s → D.time s < D.tfinal → D.step s = some s' → D.time s' = D.time s + δ) (h0 : D.time s0 = 0)
    {i : Nat} {s : σ} (h : Reaches D s0 i s) : D.time s = i * δ := by
  induction h with
  | zero => simp [h0]
  | succ a ht e ih => rw [hδ _ _ _ a ht e, ih]; push_cast; ring

theorem trunc_nonneg {trunc : K → Int} (htr : Truncates trunc) {x : K} (hx : 0 ≤ x) : 0 ≤ trunc x := by
  have h := (htr x hx).2
  by_contra hn
  have : trunc x + 1 ≤ 0 := by omega
  have h2 : ((trunc x + 1 : Int) : K) ≤ ((0 : Int) : K) := Int.cast_le.mpr this
  push_cast at h2
  linarith

theorem totPlus_pos {trunc : K → Int} (htr : Truncates trunc) {T dt : K} (hT : 0 ≤ T) (hd : 0 < dt) : 0 < totPlus trunc T dt := by
  unfold totPlus
  have := trunc_nonneg htr (x := T / dt / 50) (by positivity)
  omega

theorem trunc_eq_iff {trunc : K → Int} (htr : Truncates trunc) {x : K} (hx : 0 ≤ x) (m : Int) : trunc x = m ↔ (m : K) ≤ x ∧ x < m + 1 := by
  obtain ⟨h1, h2⟩ := htr x hx
  constructor
  · rintro rfl; exact ⟨h1, h2⟩
  · rintro ⟨h3, h4⟩
    have a : (m : K) < (trunc x + 1 : Int) := by push_cast; linarith
    have b : ((trunc x : Int) : K) < (m + 1 : Int) := by push_cast; linarith
    have a := Int.cast_lt.mp a
    have b := Int.cast_lt.mp b
    omega

/-- Steps bounded below: the run ends. -/
theorem ends_of_lower [Archimedean K] {δ : K} (hδ : 0 < δ) (hstep : ∀ s, ∃ s', D.step s = some s' ∧ D.time s + δ ≤ D.time s') :
    ∃ n s, EndsAt D s0 n s := by
  have run : ∀ M : Nat, (∃ n s, EndsAt D s0 n s) ∨ ∃ s, Reaches D s0 M s ∧ D.time s0 + M * δ ≤ D.time s := by
    intro M
    induction M with
    | zero => exact Or.inr ⟨s0, .zero, by simp⟩
    | succ M ih =>
      rcases ih with h | ⟨s, hr, ht⟩
      · exact Or.inl h
      · by_cases hl : D.time s < D.tfinal
        · obtain ⟨s', e, h1⟩ := hstep s
          exact Or.inr ⟨s', .succ hr hl e, by push_cast; linarith⟩
        · exact Or.inl ⟨M, s, hr, not_lt.mp hl⟩
  obtain ⟨M, hM⟩ := Archimedean.arch (D.tfinal - D.time s0) hδ
  rw [nsmul_eq_mul] at hM
  rcases run M with h | ⟨s, hr, ht⟩
  · exact h
  · exact ⟨M, s, hr, by linarith⟩

/-- A run that ends, whose `tot` never vanishes: what the loop leaves. -/
theorem loop_of_ends {n : Nat} {s : σ} (h : EndsAt D s0 n s)
    (hstep : ∀ s, ∃ s', D.step s = some s')
    (htot : ∀ i s s', 1 ≤ i → Reaches D s0 i s → D.time s < D.tfinal → D.step s = some s' → tot s s' ≠ 0) :
    ∃ r, (∀ N ≥ n, loop D tot (begin_ s0) N = .ok r) ∧ r.state = s ∧ FilesOf D tot s0 n r.saved := by
  obtain ⟨r, hr⟩ := loop_ok (fun i s _ _ => hstep s) htot n
  obtain ⟨m, h1, h2, h3, h4, h5⟩ := loop_inv n r hr
  have hm : m = n := by
    rcases h4 with h4 | ⟨_, h4⟩
    · exact h4
    · exact (ends_unique ⟨h1, h4⟩ h).1
  subst hm
  have hs := reaches_det h1 h.1
  exact ⟨r, fun N hN => loop_stays hr (by rw [hs]; exact h.2) hN, hs, h5⟩

/-- A run with a constant time step writes at most 51 files in the loop. -/
theorem count_const {trunc : K → Int} (htr : Truncates trunc) {δ : K} (hδ : 0 < δ)
    (hstep : ∀ i s s', Reaches D s0 i s → D.time s < D.tfinal → D.step s = some s' → D.time s' = D.time s + δ) (h0 : D.time s0 = 0)
    (N : Nat) (r : RunSt σ) (h : loop D (fun s s' => totPlus trunc D.tfinal (D.time s' - D.time s)) (begin_ s0) N = .ok r) :
    r.saved.length ≤ 51 := by
  obtain ⟨n, hr, hn, hm, hc, hf⟩ := loop_inv N r h
  rcases Nat.eq_zero_or_pos n with rfl | hpos
  · have : r.saved = [] := by
      apply List.eq_nil_iff_forall_not_mem.mpr
      intro e he
      have := hf.content e he
      omega
    simp [this]
  · obtain ⟨t, ht, hl⟩ := reaches_before hr (Nat.sub_lt hpos Nat.one_pos)
    rw [time_const hstep h0 ht] at hl
    have hT : 0 < D.tfinal := lt_of_le_of_lt (by positivity) hl
    have hp := totPlus_pos htr hT.le hδ
    obtain ⟨T, eT⟩ := Int.eq_ofNat_of_zero_le hp.le
    have hTpos : 0 < T := by
      have : (0 : Int) < T := by rw [← eT]; exact hp
      exact_mod_cast this
    -- the loop sees the same `tot` in every iteration
    have key : ∀ M q, loop D (fun s s' => totPlus trunc D.tfinal (D.time s' - D.time s)) (begin_ s0) M = .ok q →
        loop D (fun _ _ => (T : Int)) (begin_ s0) M = .ok q := by
      intro M
      induction M with
      | zero => intro q hq; exact hq
      | succ M ih =>
        intro q hq
        unfold loop at hq ⊢
        cases h1 : loop D (fun s s' => totPlus trunc D.tfinal (D.time s' - D.time s)) (begin_ s0) M with
        | error e => rw [h1] at hq; simp at hq
        | ok p =>
          rw [h1] at hq
          rw [ih p h1]
          simp only at hq ⊢
          by_cases hlt : D.time p.state < D.tfinal
          · rw [if_pos hlt] at hq ⊢
            obtain ⟨k, hk, _⟩ := loop_inv M p h1
            unfold iterate at hq ⊢
            cases hs : D.step p.state with
            | none => rw [hs] at hq; simp at hq
            | some s' =>
              rw [hs] at hq
              simp only at hq ⊢
              rw [hstep k _ _ hk hlt hs, add_sub_cancel_left, eT] at hq
              exact hq
          · rw [if_neg hlt] at hq ⊢; exact hq
    have hcnt := (count_le hTpos (fun _ _ _ _ _ => rfl) N r (key N r h)).1
    rw [hn, Nat.add_sub_cancel] at hcnt
    have hlt : ((n - 1 : Nat) : K) < 50 * T := by
      have h1 := (htr (D.tfinal / δ / 50) (by positivity)).2
      have h2 : (trunc (D.tfinal / δ / 50) : K) + 1 = T := by
        have : ((totPlus trunc D.tfinal δ : Int) : K) = (T : Int) := by rw [eT]
        unfold totPlus at this
        push_cast at this
        exact this
      rw [h2, div_lt_iff₀ (by norm_num), div_lt_iff₀ hδ] at h1
      have h3 : ((n - 1 : Nat) : K) * δ < (T * 50) * δ := lt_trans hl h1
      have := lt_of_mul_lt_mul_right h3 hδ.le
      linarith
    have hlt : n - 1 < 50 * T := by exact_mod_cast hlt
    have : n / T ≤ 50 := Nat.le_of_lt_succ (by
      rw [Nat.div_lt_iff_lt_mul hTpos]
      calc n ≤ 50 * T := by omega
        _ < 51 * T := by omega)
    omega

/-- A run with a constant time step `δ` and `tfinal = 100.5 δ`: it ends after 101 iterations, and no file is written in the last one. -/
theorem last_missed {trunc : K → Int} (htr : Truncates trunc) {δ : K} (hδ : 0 < δ)
    (hsome : ∀ s, ∃ s', D.step s = some s' ∧ D.time s' = D.time s + δ) (h0 : D.time s0 = 0) (hT : D.tfinal = 201 / 2 * δ) :
    ∃ r, (∀ N ≥ 101, loop D (fun s s' => totPlus trunc D.tfinal (D.time s' - D.time s)) (begin_ s0) N = .ok r) ∧
      EndsAt D s0 101 r.state ∧ ∀ e ∈ r.saved, e.niter ≤ 99 := by
  have hstep : ∀ i s s', Reaches D s0 i s → D.time s < D.tfinal → D.step s = some s' → D.time s' = D.time s + δ := by
    intro i s s' _ _ e
    obtain ⟨t, e', h⟩ := hsome s
    rw [e] at e'; cases e'; exact h
  have reach : ∀ i ≤ 101, ∃ s, Reaches D s0 i s := by
    intro i
    induction i with
    | zero => intro _; exact ⟨s0, .zero⟩
    | succ i ih =>
      intro hi
      obtain ⟨s, hs⟩ := ih (by omega)
      obtain ⟨s', e, _⟩ := hsome s
      refine ⟨s', .succ hs ?_ e⟩
      rw [time_const hstep h0 hs, hT]
      apply mul_lt_mul_of_pos_right _ hδ
      have : (i : K) ≤ 100 := by exact_mod_cast (by omega : i ≤ 100)
      linarith
  obtain ⟨s, hs⟩ := reach 101 le_rfl
  have hend : EndsAt D s0 101 s := by
    refine ⟨hs, ?_⟩
    rw [time_const hstep h0 hs, hT]
    apply mul_le_mul_of_nonneg_right _ hδ.le
    norm_num
  have hq : D.tfinal / δ / 50 = 201 / 100 := by rw [hT]; field_simp; norm_num
  have htot : totPlus trunc D.tfinal δ = 3 := by
    unfold totPlus
    rw [hq, (trunc_eq_iff htr (by norm_num) 2).mpr ⟨by norm_num, by norm_num⟩]
    rfl
  have he : ∀ i s s', Reaches D s0 i s → D.time s < D.tfinal → D.step s = some s' → totPlus trunc D.tfinal (D.time s' - D.time s) = 3 := by
    intro i s s' a b c
    rw [hstep i s s' a b c, add_sub_cancel_left, htot]
  obtain ⟨r, h1, h2, h3⟩ := loop_of_ends (tot := fun s s' => totPlus trunc D.tfinal (D.time s' - D.time s)) hend
    (fun s => (hsome s).imp fun _ h => h.1) (fun i s s' _ a b c => by rw [he i s s' a b c]; decide)
  refine ⟨r, h1, by rw [h2]; exact hend, ?_⟩
  intro e hm
  obtain ⟨k1, k2, k3⟩ := h3.content e hm
  by_contra hlt
  obtain ⟨a, ha, hal⟩ := reaches_before k3 (Nat.sub_lt k1 Nat.one_pos)
  have hb : Reaches D s0 (e.niter - 1 + 1) e.state := by rw [Nat.sub_add_cancel k1]; exact k3
  have := (h3.when_ (e.niter - 1) a e.state (by omega) ha hb).mp ⟨e, hm, by omega⟩
  rcases this with h | h
  · omega
  · have hst : D.step a = some e.state := by
      cases hb with
      | succ x y z => rw [reaches_det ha x]; exact z
    rw [he _ _ _ ha hal hst] at h
    have : e.niter = 100 ∨ e.niter = 101 := by omega
    rcases this with h' | h' <;> rw [h'] at h <;> norm_num at h

end
end Verif.Frames
