import Verif.Model.Fvm

/-!
# Specification vocabulary for the explicit finite-volume schemes

Textbook formulas, independent of the loop structure of the model: the only thing taken from the
model is the record of input arrays.
-/
namespace Verif.Spec

open Verif.Fvm
variable {K : Type*} [Field K] [LinearOrder K]

/-- Textbook upwind flux: `(v·n)⁺ w_l + (v·n)⁻ w_r`. -/
def upwind (vn wl wr : K) : K := max vn 0 * wl + min vn 0 * wr

/-- `v·n` on face `i`. -/
def vn (a : ConvArgs K) (i : Nat) : K :=
  a.u_face i * a.normalf i 0 + a.v_face i * a.normalf i 1 + a.w_face i * a.normalf i 2

/-- Limited linear extrapolation `w + (order-1) ψ ∇w·r` using the first `dim` components. -/
def extrap (dim : Nat) (order : Int) (w ψ : K) (g r : Nat → K) : K :=
  w + ((order : K) - 1) * ψ * ∑ k ∈ Finset.range dim, g k * r k

/-- Components of the cell gradient. -/
def cellGrad (a : ConvArgs K) (c : Nat) : Nat → K
  | 0 => a.w_x c
  | 1 => a.w_y c
  | _ => a.w_z c

/-- Components of the gradient in a halo cell. -/
def haloGrad (a : ConvArgs K) (c : Nat) : Nat → K
  | 0 => a.wx_halo c
  | 1 => a.wy_halo c
  | _ => a.wz_halo c

/-- first and second cell of face `i` -/
def left (a : ConvArgs K) (i : Nat) : Nat := (a.cellidf i 0).toNat
def right (a : ConvArgs K) (i : Nat) : Nat := (a.cellidf i 1).toNat

/-- value extrapolated from cell `c` to the centre of face `i` -/
def cellAtFace (a : ConvArgs K) (dim c i : Nat) : K :=
  extrap dim a.order (a.w_c c) (a.psi c) (cellGrad a c) (fun k => a.centerf i k - a.centerc c k)

/-- value extrapolated from halo cell `h` to the centre of face `i` -/
def haloAtFace (a : ConvArgs K) (dim h i : Nat) : K :=
  extrap dim a.order (a.w_halo h) (a.psi_halo h) (haloGrad a h) (fun k => a.centerf i k - a.centerh h k)

/-- Direction of a periodic label: 11, 22 ↦ x; 33, 44 ↦ y; 55, 66 ↦ z. -/
def perDir (name : Int) : Nat := if name = 11 ∨ name = 22 then 0 else if name = 33 ∨ name = 44 then 1 else 2

/-- value extrapolated from the periodic image (centre translated by `shift` in the periodic direction)
of cell `c` to the centre of face `i` -/
def imageAtFace (a : ConvArgs K) (dim c i : Nat) : K :=
  extrap dim a.order (a.w_c c) (a.psi c) (cellGrad a c)
    (fun k => a.centerf i k - (a.centerc c k + if k = perDir (a.name i) then a.shift c k else 0))

/-- The upwind flux through a face of each family, from its first cell outwards. -/
def innerFlux (a : ConvArgs K) (dim i : Nat) : K :=
  upwind (vn a i) (cellAtFace a dim (left a i) i) (cellAtFace a dim (right a i) i)
def periodicFlux (a : ConvArgs K) (dim i : Nat) : K :=
  upwind (vn a i) (cellAtFace a dim (left a i) i) (imageAtFace a dim (right a i) i)
def haloFlux (a : ConvArgs K) (dim i : Nat) : K :=
  upwind (vn a i) (cellAtFace a dim (left a i) i) (haloAtFace a dim (a.halofid i) i)
def boundaryFlux (a : ConvArgs K) (dim i : Nat) : K :=
  upwind (vn a i) (cellAtFace a dim (left a i) i) (a.w_ghost i)

/-- Sum of `F i` over the faces `i` of the list `l` whose attached cell `side i` is `c`. -/
def sumAt (l : List Nat) (side : Nat → Nat) (F : Nat → K) (c : Nat) : K :=
  ((l.filter (fun i => side i = c)).map F).sum

/-- The finite-volume balance of cell `c`: minus what leaves through faces of which `c` is the first cell,
plus what enters through inner faces of which `c` is the second cell. -/
def balance (a : ConvArgs K) (dim c : Nat) : K :=
  - sumAt a.innerfaces (left a) (innerFlux a dim) c
  + sumAt a.innerfaces (right a) (innerFlux a dim) c
  - sumAt a.periodicboundaryfaces (left a) (periodicFlux a dim) c
  - sumAt a.halofaces (left a) (haloFlux a dim) c
  - sumAt a.boundaryfaces (left a) (boundaryFlux a dim) c

/-- The face lists are usable: every dereferenced cell index is in range (`n` cells) and the periodic list
only contains faces with a periodic label of the dimension. -/
structure FacesOK (a : ConvArgs K) (dim n : Nat) : Prop where
  inner_l : ∀ i ∈ a.innerfaces, InRange (a.cellidf i 0) n
  inner_r : ∀ i ∈ a.innerfaces, InRange (a.cellidf i 1) n
  per_l : ∀ i ∈ a.periodicboundaryfaces, InRange (a.cellidf i 0) n
  halo_l : ∀ i ∈ a.halofaces, InRange (a.cellidf i 0) n
  bnd_l : ∀ i ∈ a.boundaryfaces, InRange (a.cellidf i 0) n
  per_name : ∀ i ∈ a.periodicboundaryfaces,
    a.name i = 11 ∨ a.name i = 22 ∨ a.name i = 33 ∨ a.name i = 44 ∨ (dim = 3 ∧ (a.name i = 55 ∨ a.name i = 66))

/-- Net sum over cell `c` of a face quantity `V` counted positively outwards. -/
def outSum (a : ConvArgs K) (V : Nat → K) (c : Nat) : K :=
  sumAt a.innerfaces (left a) V c - sumAt a.innerfaces (right a) V c
  + sumAt a.periodicboundaryfaces (left a) V c + sumAt a.halofaces (left a) V c
  + sumAt a.boundaryfaces (left a) V c

/-- The outgoing normals of cell `c` add up to the zero vector. -/
def ClosedCell (a : ConvArgs K) (c : Nat) : Prop :=
  ∀ k < 3, outSum a (fun i => a.normalf i k) c = 0

/-- The face velocities have zero discrete divergence in cell `c`. -/
def DivFree (a : ConvArgs K) (c : Nat) : Prop := outSum a (vn a) c = 0

/-- Volume rate entering cell `c`. -/
def inflow (a : ConvArgs K) (c : Nat) : K :=
  sumAt a.innerfaces (left a) (fun i => max (- vn a i) 0) c
  + sumAt a.innerfaces (right a) (fun i => max (vn a i) 0) c
  + sumAt a.periodicboundaryfaces (left a) (fun i => max (- vn a i) 0) c
  + sumAt a.halofaces (left a) (fun i => max (- vn a i) 0) c
  + sumAt a.boundaryfaces (left a) (fun i => max (- vn a i) 0) c

/-- All data seen by the scheme lie in `[m, M]` (cells `0..n-1`, ghosts of boundary faces, halos). -/
structure DataIn (a : ConvArgs K) (n : Nat) (m M : K) : Prop where
  cell : ∀ c < n, m ≤ a.w_c c ∧ a.w_c c ≤ M
  ghost : ∀ i ∈ a.boundaryfaces, m ≤ a.w_ghost i ∧ a.w_ghost i ≤ M
  halo : ∀ i ∈ a.halofaces, m ≤ a.w_halo (a.halofid i) ∧ a.w_halo (a.halofid i) ≤ M

/-- `p` pairs the periodic faces: the partner face has the same velocity, the opposite normal, exchanged
cells, the same periodic direction and is the face translated by the shift. -/
structure PeriodicPairing (a : ConvArgs K) (dim : Nat) (p : Nat → Nat) : Prop where
  nodup : a.periodicboundaryfaces.Nodup
  mem : ∀ i ∈ a.periodicboundaryfaces, p i ∈ a.periodicboundaryfaces
  invol : ∀ i ∈ a.periodicboundaryfaces, p (p i) = i
  vel : ∀ i ∈ a.periodicboundaryfaces,
    a.u_face (p i) = a.u_face i ∧ a.v_face (p i) = a.v_face i ∧ a.w_face (p i) = a.w_face i
  normal : ∀ i ∈ a.periodicboundaryfaces, ∀ k < 3, a.normalf (p i) k = - a.normalf i k
  cells : ∀ i ∈ a.periodicboundaryfaces, left a (p i) = right a i
  dir : ∀ i ∈ a.periodicboundaryfaces, perDir (a.name (p i)) = perDir (a.name i)
  trans : ∀ i ∈ a.periodicboundaryfaces, ∀ k < dim,
    a.centerf (p i) k = a.centerf i k - (if k = perDir (a.name i) then a.shift (right a i) k else 0)

/-- All faces of cell `c`, counted with multiplicity. -/
def incident (a : ConvArgs K) (c : Nat) : List Nat :=
  a.innerfaces.filter (fun i => left a i = c) ++ a.innerfaces.filter (fun i => right a i = c)
  ++ a.periodicboundaryfaces.filter (fun i => left a i = c) ++ a.halofaces.filter (fun i => left a i = c)
  ++ a.boundaryfaces.filter (fun i => left a i = c)

/-- Diffusive flux `∇w·D n` through face `i`. -/
def diffFlux (wx wy wz : Nat → K) (normalf : Nat → Nat → K) (Dxx Dyy Dzz : K) (i : Nat) : K :=
  wx i * (Dxx * normalf i 0) + wy i * (Dyy * normalf i 1) + wz i * (Dzz * normalf i 2)

/-- The data seen by the scheme are the constant `q`, gradients vanish and the velocity is `(u,v,w)`. -/
structure FreeStream (a : ConvArgs K) (n : Nat) (q u v w : K) : Prop where
  cell : ∀ c < n, a.w_c c = q
  ghost : ∀ i ∈ a.boundaryfaces, a.w_ghost i = q
  halo : ∀ i ∈ a.halofaces, a.w_halo (a.halofid i) = q
  perCell : ∀ i ∈ a.periodicboundaryfaces, InRange (a.cellidf i 1) n
  grad : ∀ c < n, a.w_x c = 0 ∧ a.w_y c = 0 ∧ a.w_z c = 0
  gradh : ∀ i ∈ a.halofaces, a.wx_halo (a.halofid i) = 0 ∧ a.wy_halo (a.halofid i) = 0 ∧ a.wz_halo (a.halofid i) = 0
  vel : ∀ i, a.u_face i = u ∧ a.v_face i = v ∧ a.w_face i = w

end Verif.Spec

namespace Verif.Spec
open Verif.Fvm
variable {K : Type*} [Field K] [LinearOrder K]

/-- Spectral radius of a cell used by the CFL condition:
`Σ_faces |v·n| + (Dxx+Dyy+Dzz) |n|² / volume`. -/
def cflRate (u v w : Nat → K) (normal : Nat → Nat → K) (volume : Nat → K) (faceid : Nat → Nat → Nat)
    (dim : Nat) (Dxx Dyy Dzz : K) (i : Nat) : K :=
  ∑ j ∈ Finset.range (dim + 1),
    (|u i * normal (faceid i j) 0 + v i * normal (faceid i j) 1 + w i * normal (faceid i j) 2|
      + (Dxx + Dyy + Dzz)
        * (normal (faceid i j) 0 ^ 2 + normal (faceid i j) 1 ^ 2 + normal (faceid i j) 2 ^ 2) / volume i)

end Verif.Spec
