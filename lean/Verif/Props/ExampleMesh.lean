import Verif.Spec.Fvm

/-!
A concrete mesh used in the non-vacuity examples: the unit square cut into two triangles.
Nodes `(0,0) (1,0) (1,1) (0,1)`; cells `T0 = (0,1,2)`, `T1 = (0,2,3)`;
faces `f0 = 01` (bottom), `f1 = 12` (right), `f2 = 02` (inner, from `T0` to `T1`),
`f3 = 23` (top), `f4 = 30` (left).
-/
namespace Verif.Ex
open Verif.Fvm

/-- Arguments of the 2D scheme on the two-triangle square, velocity `(1,2)`, order 1. -/
def sq : ConvArgs ℚ where
  w_c := fun c => if c = 0 then 3 else 5
  w_ghost := fun i => if i = 0 then 3 else if i = 1 then 3 else if i = 3 then 5 else 4
  w_halo := fun _ => 0
  u_face := fun _ => 1
  v_face := fun _ => 2
  w_face := fun _ => 0
  w_x := fun _ => 0
  w_y := fun _ => 0
  w_z := fun _ => 0
  wx_halo := fun _ => 0
  wy_halo := fun _ => 0
  wz_halo := fun _ => 0
  psi := fun _ => 1
  psi_halo := fun _ => 1
  centerc := fun c k => if k = 2 then 0 else if c = k then 2/3 else 1/3
  centerf := fun i k => match i, k with
    | 0, 0 => 1/2 | 1, 0 => 1 | 1, 1 => 1/2 | 2, 0 => 1/2 | 2, 1 => 1/2
    | 3, 0 => 1/2 | 3, 1 => 1 | 4, 1 => 1/2 | _, _ => 0
  centerh := fun _ _ => 0
  cellidf := fun i k => match i, k with
    | 0, 0 => 0 | 1, 0 => 0 | 2, 0 => 0 | 2, 1 => 1 | 3, 0 => 1 | 4, 0 => 1 | _, _ => -1
  normalf := fun i k => match i, k with
    | 0, 1 => -1 | 1, 0 => 1 | 2, 0 => -1 | 2, 1 => 1 | 3, 1 => 1 | 4, 0 => -1 | _, _ => 0
  halofid := fun _ => 0
  name := fun i => match i with | 0 => 3 | 1 => 2 | 3 => 4 | 4 => 1 | _ => 0
  innerfaces := [2]
  halofaces := []
  boundaryfaces := [0, 1, 3, 4]
  periodicboundaryfaces := []
  shift := fun _ _ => 0
  order := 1

/-- The same square with left/right and bottom/top glued together (all boundary faces periodic),
and a second order reconstruction with nonzero gradients. -/
def torus : ConvArgs ℚ :=
  { sq with
    cellidf := fun i k => match i, k with
      | 0, 0 => 0 | 0, 1 => 1 | 1, 0 => 0 | 1, 1 => 1 | 2, 0 => 0 | 2, 1 => 1
      | 3, 0 => 1 | 3, 1 => 0 | 4, 0 => 1 | 4, 1 => 0 | _, _ => -1
    name := fun i => match i with | 0 => 33 | 1 => 22 | 3 => 44 | 4 => 11 | _ => 0
    boundaryfaces := []
    periodicboundaryfaces := [0, 1, 3, 4]
    -- cell 1 is seen from the faces 0 (bottom) and 1 (right); cell 0 from 3 (top) and 4 (left)
    shift := fun c k => match c, k with
      | 1, 0 => 1 | 1, 1 => -1 | 0, 0 => -1 | 0, 1 => 1 | _, _ => 0
    w_x := fun c => if c = 0 then 2 else 7
    w_y := fun c => if c = 0 then -1 else 4
    order := 2 }

/-- Pairing of the periodic faces of `torus`. -/
def torusPair : Nat → Nat
  | 0 => 3 | 3 => 0 | 1 => 4 | 4 => 1 | i => i

/-- `faceid` of the square: the faces of the two triangles. -/
def sqFaceid : Nat → Nat → Nat := fun c j => match c, j with
  | 0, 0 => 0 | 0, 1 => 1 | 0, 2 => 2 | 1, 0 => 2 | 1, 1 => 3 | 1, 2 => 4 | _, _ => 0

end Verif.Ex
