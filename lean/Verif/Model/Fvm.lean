import Verif.Basic.Arr

/-!
# Model of `manapy/fvm/pyccel_fvm.py` and `manapy/tools/pyccel_tools.py`

Scalars: any linearly ordered field `K` (exact arithmetic).  Arrays: `Nat → K`.
In-place kernels return the array they overwrite.
-/
namespace Verif.Fvm

variable {K : Type*}

/-- The arguments of `explicitscheme_convective_2d/3d` (fvm/pyccel_fvm.py:44-52 and 168-176), same names.
`centerg` and `mesuref` are passed by the code but never read, so they are omitted. -/
structure ConvArgs (K : Type*) where
  w_c : Nat → K
  w_ghost : Nat → K
  w_halo : Nat → K
  u_face : Nat → K
  v_face : Nat → K
  w_face : Nat → K
  w_x : Nat → K
  w_y : Nat → K
  w_z : Nat → K
  wx_halo : Nat → K
  wy_halo : Nat → K
  wz_halo : Nat → K
  psi : Nat → K
  psi_halo : Nat → K
  centerc : Nat → Nat → K
  centerf : Nat → Nat → K
  centerh : Nat → Nat → K
  /-- `cellidf[i][0]`, `cellidf[i][1]` (`-1` when absent) -/
  cellidf : Nat → Nat → Int
  normalf : Nat → Nat → K
  halofid : Nat → Nat
  name : Nat → Int
  innerfaces : List Nat
  halofaces : List Nat
  boundaryfaces : List Nat
  periodicboundaryfaces : List Nat
  shift : Nat → Nat → K
  order : Int

section
variable [Field K] [LinearOrder K]

/-- fvm/pyccel_fvm.py:29-41 `compute_upwind_flux`; returns `flux_w[0]`. -/
def computeUpwindFlux (w_l w_r u_face v_face w_face : K) (normal : Nat → K) : K :=
  let sign := u_face * normal 0 + v_face * normal 1 + w_face * normal 2
  let sol := if sign ≥ 0 then w_l else w_r
  sign * sol

/-- fvm/pyccel_fvm.py:4-27 `explicitscheme_dissipative`: body of the face loop. -/
def dissipStep (wx_face wy_face wz_face : Nat → K) (cellidf : Nat → Nat → Int)
    (normalf : Nat → Nat → K) (namef : Nat → Int) (Dxx Dyy Dzz : K)
    (dissip_w : Nat → K) (i : Nat) : Nat → K :=
  let norm := normalf i
  let q := Dxx * wx_face i * norm 0 + Dyy * wy_face i * norm 1 + Dzz * wz_face i * norm 2
  let flux_w := q
  if namef i = 0 then
    subAt (addAt dissip_w (idx (cellidf i 0)) flux_w) (idx (cellidf i 1)) flux_w
  else
    addAt dissip_w (idx (cellidf i 0)) flux_w

/-- fvm/pyccel_fvm.py:4-27 `explicitscheme_dissipative` (`nbface = len(cellidf)`). -/
def explicitschemeDissipative (nbface : Nat) (wx_face wy_face wz_face : Nat → K)
    (cellidf : Nat → Nat → Int) (normalf : Nat → Nat → K) (namef : Nat → Int)
    (Dxx Dyy Dzz : K) : Nat → K :=
  (List.range nbface).foldl
    (dissipStep wx_face wy_face wz_face cellidf normalf namef Dxx Dyy Dzz) (fun _ => 0)

namespace ConvArgs
variable (a : ConvArgs K)

/-- `cellidf[i][0]` used as an index. -/
def cl (i : Nat) : Nat := idx (a.cellidf i 0)
/-- `cellidf[i][1]` used as an index. -/
def cr (i : Nat) : Nat := idx (a.cellidf i 1)

/-! ### 2D scheme, fvm/pyccel_fvm.py:43-165 -/

/-- Inner face loop body, fvm/pyccel_fvm.py:65-89. -/
def innerStep2 (rez_w : Nat → K) (i : Nat) : Nat → K :=
  let w_l := a.w_c (a.cl i)
  let normal := a.normalf i
  let w_r := a.w_c (a.cr i)
  let r_l0 := a.centerf i 0 - a.centerc (a.cl i) 0
  let r_r0 := a.centerf i 0 - a.centerc (a.cr i) 0
  let r_l1 := a.centerf i 1 - a.centerc (a.cl i) 1
  let r_r1 := a.centerf i 1 - a.centerc (a.cr i) 1
  let w_l := w_l + ((a.order - 1 : Int) : K) * a.psi (a.cl i) * (a.w_x (a.cl i) * r_l0 + a.w_y (a.cl i) * r_l1)
  let w_r := w_r + ((a.order - 1 : Int) : K) * a.psi (a.cr i) * (a.w_x (a.cr i) * r_r0 + a.w_y (a.cr i) * r_r1)
  let flux_w := computeUpwindFlux w_l w_r (a.u_face i) (a.v_face i) (a.w_face i) normal
  addAt (subAt rez_w (a.cl i) flux_w) (a.cr i) flux_w

/-- Loop-carried state of the periodic loop: the residual and the work arrays `r_l`, `r_r`
(which keep their previous contents when `name[i]` is not a periodic label of the dimension). -/
structure PerState (K : Type*) where
  rez : Nat → K
  r_l : Nat → K
  r_r : Nat → K

/-- Periodic face loop body, fvm/pyccel_fvm.py:91-118.
(The two `if`s are exclusive, so they are written as `else if`.) -/
def periodicStep2 (s : PerState K) (i : Nat) : PerState K :=
  let w_l := a.w_c (a.cl i)
  let normal := a.normalf i
  let w_r := a.w_c (a.cr i)
  let d_l := fun k => a.centerf i k - a.centerc (a.cl i) k
  let d_r := fun k => a.centerf i k - a.centerc (a.cr i) k
  let r_l := if a.name i = 11 ∨ a.name i = 22 ∨ a.name i = 33 ∨ a.name i = 44 then d_l else s.r_l
  let r_r :=
    if a.name i = 11 ∨ a.name i = 22 then setAt d_r 0 (d_r 0 - a.shift (a.cr i) 0)
    else if a.name i = 33 ∨ a.name i = 44 then setAt d_r 1 (d_r 1 - a.shift (a.cr i) 1)
    else s.r_r
  let w_l := w_l + ((a.order - 1 : Int) : K) * a.psi (a.cl i) * (a.w_x (a.cl i) * r_l 0 + a.w_y (a.cl i) * r_l 1)
  let w_r := w_r + ((a.order - 1 : Int) : K) * a.psi (a.cr i) * (a.w_x (a.cr i) * r_r 0 + a.w_y (a.cr i) * r_r 1)
  let flux_w := computeUpwindFlux w_l w_r (a.u_face i) (a.v_face i) (a.w_face i) normal
  { rez := subAt s.rez (a.cl i) flux_w, r_l := r_l, r_r := r_r }

/-- Halo face loop body, fvm/pyccel_fvm.py:121-143. -/
def haloStep2 (rez_w : Nat → K) (i : Nat) : Nat → K :=
  let w_l := a.w_c (a.cl i)
  let normal := a.normalf i
  let w_r := a.w_halo (a.halofid i)
  let r_l0 := a.centerf i 0 - a.centerc (a.cl i) 0
  let r_r0 := a.centerf i 0 - a.centerh (a.halofid i) 0
  let r_l1 := a.centerf i 1 - a.centerc (a.cl i) 1
  let r_r1 := a.centerf i 1 - a.centerh (a.halofid i) 1
  let w_l := w_l + ((a.order - 1 : Int) : K) * a.psi (a.cl i) * (a.w_x (a.cl i) * r_l0 + a.w_y (a.cl i) * r_l1)
  let w_r := w_r + ((a.order - 1 : Int) : K) * a.psi_halo (a.halofid i)
    * (a.wx_halo (a.halofid i) * r_r0 + a.wy_halo (a.halofid i) * r_r1)
  let flux_w := computeUpwindFlux w_l w_r (a.u_face i) (a.v_face i) (a.w_face i) normal
  subAt rez_w (a.cl i) flux_w

/-- Boundary face loop body, fvm/pyccel_fvm.py:145-165. -/
def boundaryStep2 (rez_w : Nat → K) (i : Nat) : Nat → K :=
  let w_l := a.w_c (a.cl i)
  let normal := a.normalf i
  let w_r := a.w_ghost i
  let r_l0 := a.centerf i 0 - a.centerc (a.cl i) 0
  let r_l1 := a.centerf i 1 - a.centerc (a.cl i) 1
  let w_l := w_l + ((a.order - 1 : Int) : K) * a.psi (a.cl i) * (a.w_x (a.cl i) * r_l0 + a.w_y (a.cl i) * r_l1)
  let flux_w := computeUpwindFlux w_l w_r (a.u_face i) (a.v_face i) (a.w_face i) normal
  subAt rez_w (a.cl i) flux_w

/-- fvm/pyccel_fvm.py:43-165 `explicitscheme_convective_2d`; returns `rez_w`.
(The initial contents of `r_l`, `r_r` when the periodic loop starts are irrelevant to the theorems,
which assume periodic labels on the periodic list; zeros are used, fvm/pyccel_fvm.py:57-60.) -/
def explicitschemeConvective2d : Nat → K :=
  let rez := a.innerfaces.foldl a.innerStep2 (fun _ => 0)
  let s := a.periodicboundaryfaces.foldl a.periodicStep2 ⟨rez, fun _ => 0, fun _ => 0⟩
  let rez := a.halofaces.foldl a.haloStep2 s.rez
  a.boundaryfaces.foldl a.boundaryStep2 rez

/-! ### 3D scheme, fvm/pyccel_fvm.py:167-304 -/

/-- Inner face loop body, fvm/pyccel_fvm.py:190-216. -/
def innerStep3 (rez_w : Nat → K) (i : Nat) : Nat → K :=
  let w_l := a.w_c (a.cl i)
  let normal := a.normalf i
  let w_r := a.w_c (a.cr i)
  let r_l := fun k => a.centerf i k - a.centerc (a.cl i) k
  let r_r := fun k => a.centerf i k - a.centerc (a.cr i) k
  let w_l := w_l + ((a.order - 1 : Int) : K) * a.psi (a.cl i)
    * (a.w_x (a.cl i) * r_l 0 + a.w_y (a.cl i) * r_l 1 + a.w_z (a.cl i) * r_l 2)
  let w_r := w_r + ((a.order - 1 : Int) : K) * a.psi (a.cr i)
    * (a.w_x (a.cr i) * r_r 0 + a.w_y (a.cr i) * r_r 1 + a.w_z (a.cr i) * r_r 2)
  let flux_w := computeUpwindFlux w_l w_r (a.u_face i) (a.v_face i) (a.w_face i) normal
  addAt (subAt rez_w (a.cl i) flux_w) (a.cr i) flux_w

/-- Periodic face loop body, fvm/pyccel_fvm.py:218-253. -/
def periodicStep3 (s : PerState K) (i : Nat) : PerState K :=
  let w_l := a.w_c (a.cl i)
  let normal := a.normalf i
  let w_r := a.w_c (a.cr i)
  let d_l := fun k => a.centerf i k - a.centerc (a.cl i) k
  let d_r := fun k => a.centerf i k - a.centerc (a.cr i) k
  let r_l := if a.name i = 11 ∨ a.name i = 22 ∨ a.name i = 33 ∨ a.name i = 44
      ∨ a.name i = 55 ∨ a.name i = 66 then d_l else s.r_l
  let r_r :=
    if a.name i = 11 ∨ a.name i = 22 then setAt d_r 0 (d_r 0 - a.shift (a.cr i) 0)
    else if a.name i = 33 ∨ a.name i = 44 then setAt d_r 1 (d_r 1 - a.shift (a.cr i) 1)
    else if a.name i = 55 ∨ a.name i = 66 then setAt d_r 2 (d_r 2 - a.shift (a.cr i) 2)
    else s.r_r
  let w_l := w_l + ((a.order - 1 : Int) : K) * a.psi (a.cl i)
    * (a.w_x (a.cl i) * r_l 0 + a.w_y (a.cl i) * r_l 1 + a.w_z (a.cl i) * r_l 2)
  let w_r := w_r + ((a.order - 1 : Int) : K) * a.psi (a.cr i)
    * (a.w_x (a.cr i) * r_r 0 + a.w_y (a.cr i) * r_r 1 + a.w_z (a.cr i) * r_r 2)
  let flux_w := computeUpwindFlux w_l w_r (a.u_face i) (a.v_face i) (a.w_face i) normal
  { rez := subAt s.rez (a.cl i) flux_w, r_l := r_l, r_r := r_r }

/-- Halo face loop body, fvm/pyccel_fvm.py:256-280. -/
def haloStep3 (rez_w : Nat → K) (i : Nat) : Nat → K :=
  let w_l := a.w_c (a.cl i)
  let normal := a.normalf i
  let w_r := a.w_halo (a.halofid i)
  let r_l := fun k => a.centerf i k - a.centerc (a.cl i) k
  let r_r := fun k => a.centerf i k - a.centerh (a.halofid i) k
  let w_l := w_l + ((a.order - 1 : Int) : K) * a.psi (a.cl i)
    * (a.w_x (a.cl i) * r_l 0 + a.w_y (a.cl i) * r_l 1 + a.w_z (a.cl i) * r_l 2)
  let w_r := w_r + ((a.order - 1 : Int) : K) * a.psi_halo (a.halofid i)
    * (a.wx_halo (a.halofid i) * r_r 0 + a.wy_halo (a.halofid i) * r_r 1 + a.wz_halo (a.halofid i) * r_r 2)
  let flux_w := computeUpwindFlux w_l w_r (a.u_face i) (a.v_face i) (a.w_face i) normal
  subAt rez_w (a.cl i) flux_w

/-- Boundary face loop body, fvm/pyccel_fvm.py:282-304. -/
def boundaryStep3 (rez_w : Nat → K) (i : Nat) : Nat → K :=
  let w_l := a.w_c (a.cl i)
  let normal := a.normalf i
  let w_r := a.w_ghost i
  let r_l := fun k => a.centerf i k - a.centerc (a.cl i) k
  let w_l := w_l + ((a.order - 1 : Int) : K) * a.psi (a.cl i)
    * (a.w_x (a.cl i) * r_l 0 + a.w_y (a.cl i) * r_l 1 + a.w_z (a.cl i) * r_l 2)
  let flux_w := computeUpwindFlux w_l w_r (a.u_face i) (a.v_face i) (a.w_face i) normal
  subAt rez_w (a.cl i) flux_w

/-- fvm/pyccel_fvm.py:167-304 `explicitscheme_convective_3d`; returns `rez_w`. -/
def explicitschemeConvective3d : Nat → K :=
  let rez := a.innerfaces.foldl a.innerStep3 (fun _ => 0)
  let s := a.periodicboundaryfaces.foldl a.periodicStep3 ⟨rez, fun _ => 0, fun _ => 0⟩
  let rez := a.halofaces.foldl a.haloStep3 s.rez
  a.boundaryfaces.foldl a.boundaryStep3 rez

end ConvArgs

/-! ### `manapy/tools/pyccel_tools.py` -/

/-- tools/pyccel_tools.py:49-61: the value of `lam` after the inner loop over the faces of cell `i`.
`mes = sqrt(n0²+n1²+n2²)` is used only through `mes**2`, modelled as `n0²+n1²+n2²`. -/
def cellLam (u v w : Nat → K) (normal : Nat → Nat → K) (mesure volume : Nat → K)
    (faceid : Nat → Nat → Nat) (dim : Nat) (Dxx Dyy Dzz : K) (i : Nat) : K :=
  (List.range (dim + 1)).foldl (fun lam j =>
    let norm := normal (faceid i j)
    let u_n := |u i * norm 0 + v i * norm 1 + w i * norm 2|
    let lam_convect := u_n / mesure (faceid i j)
    let lam := lam + lam_convect * mesure (faceid i j)
    let mes2 := norm 0 * norm 0 + norm 1 * norm 1 + norm 2 * norm 2
    let lam_diff := Dxx * mes2 + Dyy * mes2 + Dzz * mes2
    lam + lam_diff / volume i) 0

/-- tools/pyccel_tools.py:36-65 `time_step`, for the cells of the list `cells` visited in that order
(the code visits `0, 1, …, nbelement-1`). -/
def timeStepOver (cells : List Nat) (u v w : Nat → K) (cfl : K) (normal : Nat → Nat → K)
    (mesure volume : Nat → K) (faceid : Nat → Nat → Nat) (dim : Nat) (Dxx Dyy Dzz : K) : K :=
  cells.foldl (fun dt i =>
    min dt (cfl * volume i / cellLam u v w normal mesure volume faceid dim Dxx Dyy Dzz i)) 1000000

/-- tools/pyccel_tools.py:36-65 `time_step` (`nbelement = len(faceid)`). -/
def timeStep (nbelement : Nat) (u v w : Nat → K) (cfl : K) (normal : Nat → Nat → K)
    (mesure volume : Nat → K) (faceid : Nat → Nat → Nat) (dim : Nat) (Dxx Dyy Dzz : K) : K :=
  timeStepOver (List.range nbelement) u v w cfl normal mesure volume faceid dim Dxx Dyy Dzz

/-- tools/pyccel_tools.py:67-71 `update_new_value` (the arguments `u_c, v_c, P_c` are not used). -/
def updateNewValue (ne_c rez_ne dissip_ne src_ne : Nat → K) (dtime : K) (vol : Nat → K) : Nat → K :=
  fun i => ne_c i + dtime * ((rez_ne i + dissip_ne i) / vol i + src_ne i)

end
end Verif.Fvm
