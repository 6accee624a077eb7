import Verif.Model.RunStreamer
import Verif.Spec.LinField
import Verif.Spec.Fvm

/-!
# Vocabulary for streamer runs (C114, C115)
-/
namespace Verif.Spec
open Verif Verif.Dom Verif.Run Verif.Geo Verif.Fvm
open scoped BigOperators

/-- The total charge, in elementary charges: ions minus electrons, integrated over the cells of all processes. -/
noncomputable def totalCharge (W : World ℝ) (s : StrState) : ℝ :=
  ∑ p ∈ Finset.range W.SIZE, ∑ c ∈ Finset.range (W.D p).nbcells, (W.D p).volume c * (s.ni p c - (s.V p).cell c)

/-- The electrons leaving the domain per unit of time in the iteration from `s` to `s'`: through every boundary face of every process the
drift velocity of the iteration carries the density of the cell. -/
noncomputable def electronOutflow (W : World ℝ) (s s' : StrState) : ℝ :=
  ∑ p ∈ Finset.range W.SIZE, ((W.D p).boundaryfaces.map (fun f => (s.V p).cell ((W.D p).cellid f 0).toNat * through (W.D p) (s'.vel p) f)).sum

/-- `r` is the source of the potential in state `s`, by the number of the cell in the whole mesh: `1.8096e-8` times the excess of electrons. -/
def SourceOf (W : World ℝ) (s : StrState) (r : Nat → ℝ) : Prop :=
  ∀ p < W.SIZE, ∀ c < (W.D p).nbcells, r (if W.SIZE = 1 then c else (W.data p).loctoglob.getD c 0) = 1.8096e-8 * ((s.V p).cell c - s.ni p c)

/-- The flux of the field of state `s` out of the domain. -/
noncomputable def fieldOutflow (W : World ℝ) (s : StrState) : ℝ :=
  ∑ p ∈ Finset.range W.SIZE, ((W.D p).boundaryfaces.map (through (W.D p) (s.el p))).sum

/-- Gauss's law in the iteration from `s` to `s'`: out of every cell of every process the field has a flux proportional to the charge of the
cell, and out of the domain a flux proportional to the total charge. -/
def GaussStep (W : World ℝ) (s s' : StrState) : Prop :=
  (∀ p < W.SIZE, ∀ c < (W.D p).nbcells,
    fieldOut (W.D p) (W.dim + 1) (s'.el p) c = 1.8096e-8 * ((W.D p).volume c * (s.ni p c - (s.V p).cell c))) ∧
  fieldOutflow W s' = 1.8096e-8 * totalCharge W s

/-- The electrons which should enter cell `c` of a process from cells of other processes, per unit of time: through every face of `c` shared with
another process the velocity `vel` carries the density `u` (by the number of the cell in the whole mesh; the first entry of the row of
`halosext` is that number) of the cell on the other side. -/
noncomputable def interfaceInflow (D : MeshFile.RankData ℝ) (T : Tables ℝ) (u : Nat → ℝ) (vel : Nat → Vec ℝ) (c : Nat) : ℝ :=
  ((T.halofaces.filter (fun f => (T.cellid f 0).toNat = c)).map
    (fun f => u ((D.halosext.getD (T.halofid f) []).getD 0 0) * max (- through T vel f) 0)).sum

end Verif.Spec
