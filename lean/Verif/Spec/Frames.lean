import Verif.Model.Frames

/-! # Vocabulary for the result files of a run (C125-C127) -/
namespace Verif.Spec
open Verif.Frames
variable {σ K : Type*} [Field K] [LinearOrder K]

/-- `s` is the state after exactly `i` iterations, each begun before `tfinal`. -/
inductive Reaches (D : Driver σ K) (s0 : σ) : Nat → σ → Prop
  | zero : Reaches D s0 0 s0
  | succ {i : Nat} {s s' : σ} : Reaches D s0 i s → D.time s < D.tfinal → D.step s = some s' → Reaches D s0 (i + 1) s'

/-- The run is over after `n` iterations, in the state `s`. -/
def EndsAt (D : Driver σ K) (s0 : σ) (n : Nat) (s : σ) : Prop := Reaches D s0 n s ∧ D.tfinal ≤ D.time s

/-- `trunc` is Python's `int` on non-negative numbers. -/
def Truncates (trunc : K → Int) : Prop := ∀ x, 0 ≤ x → (trunc x : K) ≤ x ∧ x < trunc x + 1

/-- The files of a run that is over after `n` iterations, in the state `s`: numbered 0, 1, 2, ... without gap or repetition; the file
written in iteration `k` holds the values after `k` iterations; later files belong to later iterations; and the iterations in which a
file is written are the first and those whose number is a multiple of the `tot` of the iteration. -/
structure FilesOf (D : Driver σ K) (tot : σ → σ → Int) (s0 : σ) (n : Nat) (files : List (Saved σ)) : Prop where
  numbered : ∀ (m : Nat) (e : Saved σ), files[m]? = some e → e.miter = m
  increasing : files.Pairwise (fun a b => a.niter < b.niter)
  content : ∀ e ∈ files, 1 ≤ e.niter ∧ e.niter ≤ n ∧ Reaches D s0 e.niter e.state
  when_ : ∀ i s s', i < n → Reaches D s0 i s → Reaches D s0 (i + 1) s' →
    ((∃ e ∈ files, e.niter = i + 1) ↔ i = 0 ∨ tot s s' ∣ ((i + 1 : Nat) : Int))

end Verif.Spec
