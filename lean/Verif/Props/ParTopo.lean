import Verif.Lemmas.Conn

/-! Helper lemmas for the parallel theorems: faces of a submesh and of the whole mesh. -/
set_option linter.unusedSectionVars false
set_option linter.unusedVariables false
set_option linter.unusedSimpArgs false
namespace Verif.Props.Par
open Verif.Conn Verif.Spec

/-- The cells of the rank are numbered by `φ` in the whole mesh, and its faces are the faces of the whole mesh. -/
structure SubMesh (fL fG : Nat → Nat → Nat) (nL nG d1 : Nat) (φ : Nat → Nat) (mine : Nat → Prop) : Prop where
  lt : ∀ c < nL, φ c < nG ∧ mine (φ c)
  mono : ∀ c c', c < c' → c' < nL → φ c < φ c'
  surj : ∀ C < nG, mine C → ∃ c < nL, φ c = C
  same : ∀ c < nL, ∀ c' < nL, ∀ j < d1, ∀ j' < d1, (fL c j = fL c' j' ↔ fG (φ c) j = fG (φ c') j')
  two : ∀ F, (users fG d1 nG F).length ≤ 2

variable {fL fG : Nat → Nat → Nat} {nL nG d1 : Nat} {φ : Nat → Nat} {mine : Nat → Prop}

theorem SubMesh.inj (h : SubMesh fL fG nL nG d1 φ mine) {c c' : Nat} (hc : c < nL) (hc' : c' < nL) (e : φ c = φ c') : c = c' := by
  rcases Nat.lt_trichotomy c c' with h1 | h1 | h1
  · have := h.mono c c' h1 hc'; omega
  · exact h1
  · have := h.mono c' c h1 hc; omega

theorem SubMesh.mem (h : SubMesh fL fG nL nG d1 φ mine) {c j c' : Nat} (hc : c < nL) (hj : j < d1) :
    c' ∈ users fL d1 nL (fL c j) ↔ c' < nL ∧ φ c' ∈ users fG d1 nG (fG (φ c) j) := by
  rw [mem_users, mem_users]
  constructor
  · rintro ⟨h1, j', hj', e⟩
    exact ⟨h1, (h.lt c' h1).1, j', hj', (h.same c' h1 c hc j' hj' j hj).mp e⟩
  · rintro ⟨h1, _, j', hj', e⟩
    exact ⟨h1, j', hj', (h.same c' h1 c hc j' hj' j hj).mpr e⟩

theorem users_eq_of (t : Nat → Nat → Nat) (d1 n x : Nat) (l : List Nat) (hs : l.Pairwise (· < ·))
    (hm : ∀ c, c ∈ users t d1 n x ↔ c ∈ l) : users t d1 n x = l :=
  Lists.unique (P := fun c => c ∈ l) ⟨users_sorted t d1 n x, hm⟩ ⟨hs, fun _ => Iff.rfl⟩

/-- The three kinds of sides of a cell of the rank. -/
theorem SubMesh.cases (h : SubMesh fL fG nL nG d1 φ mine) {c j : Nat} (hc : c < nL) (hj : j < d1) :
    (users fG d1 nG (fG (φ c) j) = [φ c] ∧ users fL d1 nL (fL c j) = [c]) ∨
    (∃ e < nL, e ≠ c ∧ (∃ j' < d1, fL e j' = fL c j ∧ fG (φ e) j' = fG (φ c) j) ∧
      ((users fG d1 nG (fG (φ c) j) = [φ c, φ e] ∧ users fL d1 nL (fL c j) = [c, e]) ∨
       (users fG d1 nG (fG (φ c) j) = [φ e, φ c] ∧ users fL d1 nL (fL c j) = [e, c]))) ∨
    (∃ E < nG, ¬ mine E ∧ (∃ j' < d1, fG E j' = fG (φ c) j) ∧ users fL d1 nL (fL c j) = [c] ∧
      (users fG d1 nG (fG (φ c) j) = [φ c, E] ∨ users fG d1 nG (fG (φ c) j) = [E, φ c])) := by
  have hmem : φ c ∈ users fG d1 nG (fG (φ c) j) := (mem_users _ _ _ _ _).mpr ⟨(h.lt c hc).1, j, hj, rfl⟩
  have hsort := users_sorted fG d1 nG (fG (φ c) j)
  have htwo := h.two (fG (φ c) j)
  have hL := fun c' => h.mem (c' := c') hc hj
  have single : ∀ E, ¬ mine E → (∀ x, x ∈ users fG d1 nG (fG (φ c) j) → x = φ c ∨ x = E) → users fL d1 nL (fL c j) = [c] := by
    intro E hE hx
    apply users_eq_of _ _ _ _ _ (by simp)
    intro c'
    rw [hL c', List.mem_singleton]
    constructor
    · rintro ⟨h1, h2⟩
      rcases hx _ h2 with e | e
      · exact h.inj h1 hc e
      · exact absurd (e ▸ (h.lt c' h1).2) hE
    · rintro rfl; exact ⟨hc, hmem⟩
  have other : ∀ E, E ∈ users fG d1 nG (fG (φ c) j) → E < nG ∧ ∃ j' < d1, fG E j' = fG (φ c) j := by
    intro E hE
    obtain ⟨h1, j', hj', e⟩ := (mem_users _ _ _ _ _).mp hE
    exact ⟨h1, j', hj', e⟩
  match hl : users fG d1 nG (fG (φ c) j) with
  | [] => rw [hl] at hmem; simp at hmem
  | [a] =>
    rw [hl] at hmem
    obtain rfl : φ c = a := by simpa using hmem
    left
    refine ⟨rfl, ?_⟩
    apply users_eq_of _ _ _ _ _ (by simp)
    intro c'
    rw [hL c', hl, List.mem_singleton, List.mem_singleton]
    constructor
    · rintro ⟨h1, h2⟩; exact h.inj h1 hc h2
    · rintro rfl; exact ⟨hc, rfl⟩
  | [a, b] =>
    rw [hl] at hmem hsort
    have hab : a < b := by simpa using hsort
    right
    have key : ∀ E, E ≠ φ c → (([a, b] = [φ c, E]) ∨ [a, b] = [E, φ c]) → (∃ e < nL, φ e = E) ∨ ¬ mine E := by
      intro E _ hh
      by_cases hm : mine E
      · left
        have : E ∈ users fG d1 nG (fG (φ c) j) := by
          rw [hl]; rcases hh with hh | hh <;> rw [hh] <;> simp
        exact h.surj E (other E this).1 hm
      · right; exact hm
    have fin : ∀ E, E ≠ φ c → ((([a, b] = [φ c, E]) ∧ φ c < E) ∨ ([a, b] = [E, φ c] ∧ E < φ c)) →
        (∃ e < nL, e ≠ c ∧ (∃ j' < d1, fL e j' = fL c j ∧ fG (φ e) j' = fG (φ c) j) ∧
      (([a, b] = [φ c, φ e] ∧ users fL d1 nL (fL c j) = [c, e]) ∨
       ([a, b] = [φ e, φ c] ∧ users fL d1 nL (fL c j) = [e, c]))) ∨
    (∃ E < nG, ¬ mine E ∧ (∃ j' < d1, fG E j' = fG (φ c) j) ∧ users fL d1 nL (fL c j) = [c] ∧
      ([a, b] = [φ c, E] ∨ [a, b] = [E, φ c])) := by
      intro E hE hh
      have hin : E ∈ users fG d1 nG (fG (φ c) j) := by
        rw [hl]; rcases hh with hh | hh <;> rw [hh.1] <;> simp
      obtain ⟨hElt, jE, hjE, heE⟩ := other E hin
      rcases key E hE (hh.imp And.left And.left) with ⟨e, he, rfl⟩ | hm
      · left
        have hne : e ≠ c := fun e' => hE (by rw [e'])
        refine ⟨e, he, hne, ⟨jE, hjE, (h.same e he c hc jE hjE j hj).mpr heE, heE⟩, ?_⟩
        have memL : ∀ c', c' ∈ users fL d1 nL (fL c j) ↔ c' = c ∨ c' = e := by
          intro c'
          rw [hL c', hl]
          have : ∀ x, x ∈ [a, b] ↔ x = φ c ∨ x = φ e := by
            intro x
            rcases hh with hh | hh <;> rw [hh.1] <;> simp <;> tauto
          rw [this]
          constructor
          · rintro ⟨h1, h2 | h2⟩
            · left; exact h.inj h1 hc h2
            · right; exact h.inj h1 he h2
          · rintro (rfl | rfl)
            · exact ⟨hc, Or.inl rfl⟩
            · exact ⟨he, Or.inr rfl⟩
        rcases hh with ⟨h1, h2⟩ | ⟨h1, h2⟩
        · left
          refine ⟨h1, users_eq_of _ _ _ _ _ ?_ (fun c' => by rw [memL]; simp)⟩
          have : c < e := by
            rcases Nat.lt_trichotomy c e with h3 | h3 | h3
            · exact h3
            · exact absurd h3.symm hne
            · have := h.mono e c h3 hc; omega
          simpa using this
        · right
          refine ⟨h1, users_eq_of _ _ _ _ _ ?_ (fun c' => by rw [memL]; simp; tauto)⟩
          have : e < c := by
            rcases Nat.lt_trichotomy c e with h3 | h3 | h3
            · have := h.mono c e h3 he; omega
            · exact absurd h3.symm hne
            · exact h3
          simpa using this
      · right
        refine ⟨E, hElt, hm, ⟨jE, hjE, heE⟩, single E hm ?_, hh.imp And.left And.left⟩
        intro x hx
        rw [hl] at hx
        rcases hh with hh | hh <;> rw [hh.1] at hx <;> simp at hx <;> tauto
    have : φ c = a ∨ φ c = b := by simpa using hmem
    rcases this with e | e
    · exact fin b (by omega) (Or.inl ⟨by rw [e], by omega⟩)
    · exact fin a (by omega) (Or.inr ⟨by rw [e], by omega⟩)
  | a :: b :: d :: t => rw [hl] at htwo; simp at htwo

end Verif.Props.Par
