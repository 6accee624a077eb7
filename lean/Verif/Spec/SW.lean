import Verif.Model.SW

/-!
# Vocabulary for the shallow-water model (C53-C60, C74-C76)
-/
namespace Verif.SW
open Verif

/-- The flux of the shallow-water equations (with a passive scalar and a fixed bottom) through a face with normal vector `n` (its length
is the length of the face): `(q, q u + g h²/2 n_x, q v + g h²/2 n_y, q C, 0)`, `q = h (u n_x + v n_y)`. -/
noncomputable def physFlux (w : W5) (n : Nat → ℝ) (grav : ℝ) : W5 :=
  let u := w 1 / w 0
  let v := w 2 / w 0
  let q := w 1 * n 0 + w 2 * n 1
  ![q, q * u + grav * w 0 ^ 2 / 2 * n 0, q * v + grav * w 0 ^ 2 / 2 * n 1, q * (w 3 / w 0), 0]

/-- The matrix of the shallow-water equations in the direction of a face, normal velocity `u`, tangential velocity `v`, concentration
`C`, `c² = g h` (the bottom slope is the last column). -/
def jacobian (u v C c : ℝ) : Fin 5 → Fin 5 → ℝ := fun i j => match i, j with
  | 0, 1 => 1
  | 1, 0 => c ^ 2 - u ^ 2 | 1, 1 => 2 * u | 1, 4 => c ^ 2
  | 2, 0 => -(u * v) | 2, 1 => v | 2, 2 => u
  | 3, 0 => -(u * C) | 3, 1 => C | 3, 3 => u
  | _, _ => 0

/-- The average of a velocity component weighted with the square roots of the depths (`q` is the discharge). -/
noncomputable def roeMean (l r : W5) (k : Fin 5) : ℝ :=
  (Real.sqrt (l 0) * (l k / l 0) + Real.sqrt (r 0) * (r k / r 0)) / (Real.sqrt (l 0) + Real.sqrt (r 0))

/-- The component of the vector `(x, y)` along the normal, and along the tangent (the normal turned by a quarter counterclockwise). -/
noncomputable def along (n : Nat → ℝ) (mes x y : ℝ) : ℝ := x * (n 0 / mes) + y * (n 1 / mes)
noncomputable def across (n : Nat → ℝ) (mes x y : ℝ) : ℝ := -x * (n 1 / mes) + y * (n 0 / mes)

/-- A state seen in the frame of the face. -/
noncomputable def inFrame (w : W5) (n : Nat → ℝ) (mes : ℝ) : W5 :=
  ![w 0, along n mes (w 1) (w 2), across n mes (w 1) (w 2), w 3, w 4]

/-- `x ↦ n·x` with the opposite normal. -/
def flipN (n : Nat → ℝ) : Nat → ℝ := fun k => -n k

end Verif.SW

namespace Verif.SW
open Verif

/-- The flux through a face of each family, from its first cell outwards. -/
noncomputable def innerFlux (a : Args) (i : Nat) : W5 :=
  srnh (a.fromCell (a.cell0 i) i) (a.fromCell (a.cell1 i) i) (a.normalf i) (a.mesuref i) g0
noncomputable def haloFlux (a : Args) (i : Nat) : W5 :=
  srnh (a.fromCell (a.cell0 i) i) (a.fromHalo (a.halofid i) i) (a.normalf i) (a.mesuref i) g0
noncomputable def boundaryFlux (a : Args) (i : Nat) : W5 :=
  srnh (a.fromCell (a.cell0 i) i) (a.ghost i) (a.normalf i) (a.mesuref i) g0

/-- All cells attached to faces of the lists are among the `n` cells of the rank. -/
structure CellsOK (a : Args) (n : Nat) : Prop where
  inner0 : ∀ i ∈ a.innerfaces, a.cell0 i < n
  inner1 : ∀ i ∈ a.innerfaces, a.cell1 i < n
  halo0 : ∀ i ∈ a.halofaces, a.cell0 i < n
  bnd0 : ∀ i ∈ a.boundaryfaces, a.cell0 i < n

/-- Halo cell `h` of one rank is cell `c` of another: same state, same gradients and limiter, same centre. -/
structure HaloIsCell (a : Args) (h : Nat) (b : Args) (c : Nat) : Prop where
  state : a.halo h = b.c c
  h_x : a.hx_halo h = b.h_x c
  h_y : a.hy_halo h = b.h_y c
  hc_x : a.hcx_halo h = b.hc_x c
  hc_y : a.hcy_halo h = b.hc_y c
  psi : a.psi_halo h = b.psi c
  center : a.centerh h = b.centerc c

/-- The halo faces of the ranks `0..R-1` are matched: the partner of face `f` of rank `q` is the same face seen by the rank on its other
side: same midpoint, same length, opposite normal, same order of the scheme, the halo cell of one side is the cell of the other. -/
structure RankPairing (R : Nat) (A : Nat → Args) (p : Nat × Nat → Nat × Nat) : Prop where
  nodup : ∀ q < R, (A q).halofaces.Nodup
  rank : ∀ q < R, ∀ f ∈ (A q).halofaces, (p (q, f)).1 < R
  mem : ∀ q < R, ∀ f ∈ (A q).halofaces, (p (q, f)).2 ∈ (A (p (q, f)).1).halofaces
  invol : ∀ q < R, ∀ f ∈ (A q).halofaces, p (p (q, f)) = (q, f)
  order : ∀ q < R, ∀ f ∈ (A q).halofaces, (A (p (q, f)).1).order = (A q).order
  point : ∀ q < R, ∀ f ∈ (A q).halofaces, (A (p (q, f)).1).centerf (p (q, f)).2 = (A q).centerf f
  seen : ∀ q < R, ∀ f ∈ (A q).halofaces, HaloIsCell (A q) ((A q).halofid f) (A (p (q, f)).1) ((A (p (q, f)).1).cell0 (p (q, f)).2)
  normal : ∀ q < R, ∀ f ∈ (A q).halofaces, (A (p (q, f)).1).normalf (p (q, f)).2 = flipN ((A q).normalf f)
  length : ∀ q < R, ∀ f ∈ (A q).halofaces, (A (p (q, f)).1).mesuref (p (q, f)).2 = (A q).mesuref f

/-- A state at rest with free surface at level `H` and positive depth. -/
def Rest (H : ℝ) (w : W5) : Prop := 0 < w 0 ∧ w 1 = 0 ∧ w 2 = 0 ∧ w 0 + w 4 = H

/-- A lake at rest: cells, ghosts and halo cells. -/
structure LakeAtRest (a : Args) (w : Nat → W5) (n : Nat) (H : ℝ) : Prop where
  cell : ∀ c < n, Rest H (w c)
  ghost : ∀ i ∈ a.boundaryfaces, Rest H (a.ghost i)
  halo : ∀ i ∈ a.halofaces, Rest H (a.halo (a.halofid i))

/-- A triangulation with `n` cells: the faces incident to a cell are its three faces; the cell tables agree with the face tables; the outward
normals of a cell add up to zero and two of them are independent. -/
structure TriMesh (a : Args) (t : CellTabs) (n : Nat) : Prop where
  cells : CellsOK a n
  distinct : ∀ i ∈ a.innerfaces, a.cell0 i ≠ a.cell1 i
  faces : ∀ c < n, (a.innerfaces.filter (fun i => a.cell0 i = c ∨ a.cell1 i = c) ++ a.halofaces.filter (fun i => a.cell0 i = c)
    ++ a.boundaryfaces.filter (fun i => a.cell0 i = c)).Perm [t.faceid c 0, t.faceid c 1, t.faceid c 2]
  normal : ∀ c < n, ∀ j < 3, ∀ k < 2,
    t.nf c j k = if a.cell0 (t.faceid c j) = c then a.normalf (t.faceid c j) k else -a.normalf (t.faceid c j) k
  nameInner : ∀ i ∈ a.innerfaces, t.namef i = 0
  nameHalo : ∀ i ∈ a.halofaces, t.namef i = 10
  nameBnd : ∀ i ∈ a.boundaryfaces, t.namef i ≠ 0 ∧ t.namef i ≠ 10
  halofid : ∀ i ∈ a.halofaces, t.halofid i = a.halofid i
  other : ∀ c < n, ∀ j < 3, t.namef (t.faceid c j) = 0 →
    t.cellfid c j = if a.cell0 (t.faceid c j) = c then a.cell1 (t.faceid c j) else a.cell0 (t.faceid c j)
  closed : ∀ c < n, ∀ k < 2, t.nf c 0 k + t.nf c 1 k + t.nf c 2 k = 0
  area : ∀ c < n, t.nf c 0 0 * t.nf c 1 1 - t.nf c 0 1 * t.nf c 1 0 ≠ 0

/-- The spectral radius of a cell: `Σ_faces |u·n| + sqrt(g h) |face| + (Dxx + Dyy) |n|² / volume`. -/
noncomputable def cellRate (c : Nat → W5) (normal : Nat → Nat → ℝ) (mesure volume : Nat → ℝ) (faceid : Nat → Nat → Nat) (Dxx Dyy : ℝ) (i : Nat) : ℝ :=
  ∑ j ∈ Finset.range 3, (|c i 1 / c i 0 * normal (faceid i j) 0 + c i 2 / c i 0 * normal (faceid i j) 1|
    + Real.sqrt (9.81 * c i 0) * mesure (faceid i j)
    + (Dxx + Dyy) * (normal (faceid i j) 0 ^ 2 + normal (faceid i j) 1 ^ 2) / volume i)

/-- The terms without which a step cannot be made. -/
def needed : List String := ["dissipation", "source", "coriolis"]

end Verif.SW
