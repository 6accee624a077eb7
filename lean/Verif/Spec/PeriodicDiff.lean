import Verif.Spec.PeriodicRun
import Verif.Spec.Interp
import Verif.Model.RunPer

/-! # Specification: runs with diffusion on triangular meshes with periodic sides -/
namespace Verif.Spec
open Verif Verif.Dom Verif.Geo Verif.MeshFile Verif.Run Verif.Interp
variable {K : Type*} [Field K] [LinearOrder K]

/-- The points around node `i` used by the interpolation to the nodes: centres of its triangles, mirror points of the wall edges at it,
centres of the triangles of its periodic partner, translated by the shift of the Domain. -/
def nodePoints (W : PWorld K) (i : Nat) : List (Vec K) := (nodeStencil 2 W.nodeTabs ⟨fun _ => 0, fun _ => 0, fun _ => 0, fun _ => 0⟩ i).map Prod.fst

/-- The centroid of triangle `C`. -/
def Mesh.centroid (m : Mesh K) (C k : Nat) : K := 1 / 3 * (pos m.node (m.nodeid C 0) k + pos m.node (m.nodeid C 1) k + pos m.node (m.nodeid C 2) k)

/-- The centroids of the triangles at node `s` are not on a line. -/
def Mesh.ManyTriangles (m : Mesh K) (s : Nat) : Prop :=
  ∀ (u : Nat → K) (c : K), (∀ C < m.n, Uses m.nodeid 3 C s → u 0 * m.centroid C 0 + u 1 * m.centroid C 1 = c) → u 0 = 0 ∧ u 1 = 0

/-- What diffuses into the domain through the listed faces: the sum of `(D grad) · n` with the face gradients `g`. -/
def diffusedIn (D : Tables K) (S : Setup K) (g : Nat → Vec K) (faces : List Nat) : K :=
  (faces.map (diffFlux (fun f => g f 0) (fun f => g f 1) (fun f => g f 2) D.normal S.Dxx S.Dyy S.Dzz)).sum

end Verif.Spec
