import Verif.Basic.Arr
import Mathlib.Analysis.SpecialFunctions.Trigonometric.Inverse
import Mathlib.Analysis.SpecialFunctions.Pow.Real
import Mathlib.Analysis.Real.Sqrt

/-!
# Model of the shallow-water model (`models/SWModel/tools.py`, `models/SWModel/core.py`)

Real arithmetic instead of floating point; a division by zero gives 0 here and inf/nan in the code (the theorems show where divisors
cannot vanish).  The five arrays `h, hu, hv, hc, Z` are one array of vectors: component 0 `h`, 1 `hu`, 2 `hv`, 3 `hc`, 4 `Z`.
-/
namespace Verif.SW
open Verif

/-- `(h, hu, hv, hc, Z)` in one cell. -/
abbrev W5 := Fin 5 → ℝ

/-- models/SWModel/tools.py:376, 85, 22: `grav = 9.81`. -/
noncomputable def g0 : ℝ := 9.81

/-- models/SWModel/tools.py:187-189: `As = 0`, `xi = 1/(1-p)`, `p = 0.4`. -/
def srnhAs : ℝ := 0
noncomputable def srnhXi : ℝ := 1 / (1 - 0.4)

/-- models/SWModel/tools.py:279-302: `sign`, 0 below `epsilon = 1e-10`. -/
noncomputable def sgn (x : ℝ) : ℝ := if abs x < 1e-10 then 0 else x / abs x

/-- `Q` (models/SWModel/tools.py:247). -/
noncomputable def eigQ (grav hroe uroe vroe : ℝ) : ℝ :=
  let d := srnhAs * srnhXi * (3 * uroe ^ 2 + vroe ^ 2)
  (-(uroe ^ 2 + 3 * grav * (hroe + d))) / 9

/-- `R` (models/SWModel/tools.py:248). -/
noncomputable def eigR (grav hroe uroe vroe : ℝ) : ℝ :=
  let d := srnhAs * srnhXi * (3 * uroe ^ 2 + vroe ^ 2)
  uroe * (9 * grav * (2 * hroe - d) - 2 * uroe ^ 2) / 54

/-- models/SWModel/tools.py:245-254: `(lambda1, lambda2, lambda3)`. -/
noncomputable def eigs (grav hroe uroe vroe : ℝ) : ℝ × ℝ × ℝ :=
  let Q := eigQ grav hroe uroe vroe
  let R := eigR grav hroe uroe vroe
  let theta := Real.arccos (R / Real.sqrt (-(Q ^ 3)))
  (2 * Real.sqrt (-Q) * Real.cos (theta / 3) + 2 / 3 * uroe,
   2 * Real.sqrt (-Q) * Real.cos ((theta + 2 * Real.pi) / 3) + 2 / 3 * uroe,
   2 * Real.sqrt (-Q) * Real.cos ((theta + 4 * Real.pi) / 3) + 2 / 3 * uroe)

/-- models/SWModel/tools.py:255-340: the matrix `rmat` (rows `h, hu, hv, hc, Z`). -/
noncomputable def rmat (sound uroe vroe croe beta lambda1 lambda2 lambda3 : ℝ) : Fin 5 → Fin 5 → ℝ :=
  let lambda4 := uroe
  let lambda5 := uroe
  let alpha1 := lambda1 - uroe
  let alpha2 := lambda2 - uroe
  let alpha3 := lambda3 - uroe
  let gamma1 := sound ^ 2 - uroe ^ 2 + lambda2 * lambda3 - beta * alpha2 * alpha3 * vroe
  let gamma2 := sound ^ 2 - uroe ^ 2 + lambda1 * lambda3 - beta * alpha1 * alpha3 * vroe
  let gamma3 := sound ^ 2 - uroe ^ 2 + lambda1 * lambda2 - beta * alpha1 * alpha2 * vroe
  let sigma1 := -alpha1 * alpha2 + alpha2 * alpha3 - alpha1 * alpha3 + alpha1 ^ 2
  let sigma2 := alpha1 * alpha2 + alpha2 * alpha3 - alpha1 * alpha3 - alpha2 ^ 2
  let sigma3 := alpha1 * alpha2 - alpha2 * alpha3 - alpha1 * alpha3 + alpha3 ^ 2
  let sign1 := sgn lambda1
  let sign2 := sgn lambda2
  let sign3 := sgn lambda3
  let sign4 := sgn lambda4
  let sign5 := sgn lambda5
  let e1 := alpha1 ^ 2 / sound ^ 2 - 1
  let e2 := alpha2 ^ 2 / sound ^ 2 - 1
  let e3 := alpha3 ^ 2 / sound ^ 2 - 1
  fun i j => match i, j with
  | 0, 0 => sign1 * (gamma1 / sigma1) - sign2 * (gamma2 / sigma2) + sign3 * (gamma3 / sigma3) + sign5 * (beta * vroe)
  | 1, 0 => lambda1 * sign1 * (gamma1 / sigma1) - lambda2 * sign2 * (gamma2 / sigma2) + lambda3 * sign3 * (gamma3 / sigma3)
      + sign5 * (beta * uroe * vroe)
  | 2, 0 => vroe * sign1 * (gamma1 / sigma1) - vroe * sign2 * (gamma2 / sigma2) + vroe * sign3 * (gamma3 / sigma3)
      - vroe * sign5 * (1 - beta * vroe)
  | 3, 0 => croe * sign1 * (gamma1 / sigma1) - croe * sign2 * (gamma2 / sigma2) + croe * sign3 * (gamma3 / sigma3) - croe * sign4
      + croe * sign5 * beta * vroe
  | 4, 0 => e1 * sign1 * (gamma1 / sigma1) - e2 * sign2 * (gamma2 / sigma2) + e3 * sign3 * (gamma3 / sigma3) - sign5 * (beta * vroe)
  | 0, 1 => -sign1 * (alpha2 + alpha3) / sigma1 + sign2 * (alpha1 + alpha3) / sigma2 - sign3 * (alpha1 + alpha2) / sigma3
  | 1, 1 => -lambda1 * sign1 * (alpha2 + alpha3) / sigma1 + lambda2 * sign2 * (alpha1 + alpha3) / sigma2
      - lambda3 * sign3 * (alpha1 + alpha2) / sigma3
  | 2, 1 => -vroe * sign1 * (alpha2 + alpha3) / sigma1 + vroe * sign2 * (alpha1 + alpha3) / sigma2
      - vroe * sign3 * (alpha1 + alpha2) / sigma3
  | 3, 1 => -croe * sign1 * (alpha2 + alpha3) / sigma1 + croe * sign2 * (alpha1 + alpha3) / sigma2
      - croe * sign3 * (alpha1 + alpha2) / sigma3
  | 4, 1 => -e1 * sign1 * (alpha2 + alpha3) / sigma1 + e2 * sign2 * (alpha1 + alpha3) / sigma2
      - e3 * sign3 * (alpha1 + alpha2) / sigma3
  | 0, 2 => sign1 * beta * alpha2 * alpha3 / sigma1 - sign2 * beta * alpha1 * alpha3 / sigma2 + sign3 * beta * alpha1 * alpha2 / sigma3
      - sign5 * beta
  | 1, 2 => lambda1 * sign1 * beta * alpha2 * alpha3 / sigma1 - lambda2 * sign2 * beta * alpha1 * alpha3 / sigma2
      + lambda3 * sign3 * beta * alpha1 * alpha2 / sigma3 - sign5 * beta * uroe
  | 2, 2 => vroe * sign1 * beta * alpha2 * alpha3 / sigma1 - vroe * sign2 * beta * alpha1 * alpha3 / sigma2
      + vroe * sign3 * beta * alpha1 * alpha2 / sigma3 + sign5 * (1 - beta * vroe)
  | 3, 2 => croe * sign1 * beta * alpha2 * alpha3 / sigma1 - croe * sign2 * beta * alpha1 * alpha3 / sigma2
      + croe * sign3 * beta * alpha1 * alpha2 / sigma3 - croe * sign5 * beta
  | 4, 2 => e1 * sign1 * beta * alpha2 * alpha3 / sigma1 - e2 * sign2 * beta * alpha1 * alpha3 / sigma2
      + e3 * sign3 * beta * alpha1 * alpha2 / sigma3 + sign5 * beta
  | 0, 3 => 0
  | 1, 3 => 0
  | 2, 3 => 0
  | 3, 3 => sign4
  | 4, 3 => 0
  | 0, 4 => sign1 * sound ^ 2 / sigma1 - sign2 * sound ^ 2 / sigma2 + sign3 * sound ^ 2 / sigma3
  | 1, 4 => lambda1 * sign1 * sound ^ 2 / sigma1 - lambda2 * sign2 * sound ^ 2 / sigma2 + lambda3 * sign3 * sound ^ 2 / sigma3
  | 2, 4 => vroe * sign1 * sound ^ 2 / sigma1 - vroe * sign2 * sound ^ 2 / sigma2 + vroe * sign3 * sound ^ 2 / sigma3
  | 3, 4 => croe * sign1 * sound ^ 2 / sigma1 - croe * sign2 * sound ^ 2 / sigma2 + croe * sign3 * sound ^ 2 / sigma3
  | 4, 4 => e1 * sign1 * sound ^ 2 / sigma1 - e2 * sign2 * sound ^ 2 / sigma2 + e3 * sign3 * sound ^ 2 / sigma3

/-- Roe average of two velocities (models/SWModel/tools.py:195-202). -/
noncomputable def roeAvg (hl hr ql qr : ℝ) : ℝ :=
  (ql / hl * Real.sqrt hl + qr / hr * Real.sqrt hr) / (Real.sqrt hl + Real.sqrt hr)

/-- models/SWModel/tools.py:205-212: normal component of the Roe velocity. -/
noncomputable def uRoe (l r : W5) (normal : Nat → ℝ) (mesure : ℝ) : ℝ :=
  (roeAvg (l 0) (r 0) (l 1) (r 1) * normal 0 + roeAvg (l 0) (r 0) (l 2) (r 2) * normal 1) / mesure

/-- models/SWModel/tools.py:207-213: tangential component (`ninv = (-normal[1], normal[0])`). -/
noncomputable def vRoe (l r : W5) (normal : Nat → ℝ) (mesure : ℝ) : ℝ :=
  (roeAvg (l 0) (r 0) (l 1) (r 1) * (-1 * normal 1) + roeAvg (l 0) (r 0) (l 2) (r 2) * normal 0) / mesure

/-- models/SWModel/tools.py:216-242: the state in the frame of the face: `(h, hu·n, hv·t, hc, Z)`. -/
noncomputable def rotate (w : W5) (normal : Nat → ℝ) (mesure : ℝ) : W5 :=
  ![w 0, (w 1 * normal 0 + w 2 * normal 1) / mesure, (w 1 * (-1 * normal 1) + w 2 * normal 0) / mesure, w 3, w 4]

/-- models/SWModel/tools.py:215-358: the predicted state on the face, in the frame of the face. -/
noncomputable def predict (l r : W5) (normal : Nat → ℝ) (mesure grav : ℝ) : W5 :=
  let hroe := (l 0 + r 0) / 2
  let uroe := uRoe l r normal mesure
  let vroe := vRoe l r normal mesure
  let croe := roeAvg (l 0) (r 0) (l 3) (r 3)
  let wl := rotate l normal mesure
  let wr := rotate r normal mesure
  let sound := Real.sqrt (grav * hroe)
  let beta := 2 * srnhAs * srnhXi * vroe / hroe
  let e := eigs grav hroe uroe vroe
  let m := rmat sound uroe vroe croe beta e.1 e.2.1 e.2.2
  fun i => (wl i + wr i) / 2 - (∑ j, m i j * (wr j - wl j)) / 2

/-- models/SWModel/tools.py:178-368 `srnh_scheme`: the array `flux`. -/
noncomputable def srnh (l r : W5) (normal : Nat → ℝ) (mesure grav : ℝ) : W5 :=
  let w := predict l r normal mesure grav
  let unew := (w 1 * normal 0 + w 2 * -1 * normal 1) / mesure
  let vnew := (w 1 * -1 * (-1 * normal 1) + w 2 * normal 0) / mesure
  let q_s := normal 0 * unew + normal 1 * vnew
  ![q_s,
    q_s * unew / w 0 + 0.5 * grav * w 0 * w 0 * normal 0,
    q_s * vnew / w 0 + 0.5 * grav * w 0 * w 0 * normal 1,
    q_s * w 3 / w 0,
    srnhAs * srnhXi * normal 0 * unew * (unew ^ 2 + vnew ^ 2) / w 0 ^ 3
      + srnhAs * srnhXi * normal 1 * vnew * (unew ^ 2 + vnew ^ 2) / w 0 ^ 3]

/-- The mesh tables and fields used by the shallow-water kernels. -/
structure Args where
  /-- cells, ghosts (by face), halo cells -/
  c : Nat → W5
  ghost : Nat → W5
  halo : Nat → W5
  /-- `h_x, h_y, hc_x, hc_y, psi` on cells and halo cells -/
  h_x : Nat → ℝ
  h_y : Nat → ℝ
  hc_x : Nat → ℝ
  hc_y : Nat → ℝ
  psi : Nat → ℝ
  hx_halo : Nat → ℝ
  hy_halo : Nat → ℝ
  hcx_halo : Nat → ℝ
  hcy_halo : Nat → ℝ
  psi_halo : Nat → ℝ
  centerc : Nat → Nat → ℝ
  centerf : Nat → Nat → ℝ
  centerh : Nat → Nat → ℝ
  cell0 : Nat → Nat
  cell1 : Nat → Nat
  mesuref : Nat → ℝ
  normalf : Nat → Nat → ℝ
  halofid : Nat → Nat
  innerfaces : List Nat
  halofaces : List Nat
  boundaryfaces : List Nat
  order : Int

namespace Args
variable (a : Args)

/-- models/SWModel/tools.py:415-419: reconstruction of `h` and `hc` (not of `hu`, `hv`, `Z`). -/
noncomputable def recon (w : W5) (hx hy hcx hcy psi : ℝ) (x : Nat → ℝ) (i : Nat) : W5 :=
  let r0 := a.centerf i 0 - x 0
  let r1 := a.centerf i 1 - x 1
  ![w 0 + (a.order - 1) * psi * (hx * r0 + hy * r1), w 1, w 2, w 3 + (a.order - 1) * psi * (hcx * r0 + hcy * r1), w 4]

/-- The reconstruction from cell `c` at face `i`. -/
noncomputable def fromCell (c i : Nat) : W5 := a.recon (a.c c) (a.h_x c) (a.h_y c) (a.hc_x c) (a.hc_y c) (a.psi c) (a.centerc c) i

/-- The reconstruction from halo cell `h` at face `i` (models/SWModel/tools.py:459-478). -/
noncomputable def fromHalo (h i : Nat) : W5 :=
  a.recon (a.halo h) (a.hx_halo h) (a.hy_halo h) (a.hcx_halo h) (a.hcy_halo h) (a.psi_halo h) (a.centerh h) i

/-- models/SWModel/tools.py:385-433. -/
noncomputable def innerStep (rez : Nat → W5) (i : Nat) : Nat → W5 :=
  let flux := srnh (a.fromCell (a.cell0 i) i) (a.fromCell (a.cell1 i) i) (a.normalf i) (a.mesuref i) g0
  addAt (subAt rez (a.cell0 i) flux) (a.cell1 i) flux

/-- models/SWModel/tools.py:435-480. -/
noncomputable def haloStep (rez : Nat → W5) (i : Nat) : Nat → W5 :=
  subAt rez (a.cell0 i) (srnh (a.fromCell (a.cell0 i) i) (a.fromHalo (a.halofid i) i) (a.normalf i) (a.mesuref i) g0)

/-- models/SWModel/tools.py:482-523 (the ghost value is not reconstructed). -/
noncomputable def boundaryStep (rez : Nat → W5) (i : Nat) : Nat → W5 :=
  subAt rez (a.cell0 i) (srnh (a.fromCell (a.cell0 i) i) (a.ghost i) (a.normalf i) (a.mesuref i) g0)

/-- models/SWModel/tools.py:370-523 `explicitscheme_convective_SW`. -/
noncomputable def convective : Nat → W5 :=
  let rez := a.innerfaces.foldl a.innerStep (fun _ => 0)
  let rez := a.halofaces.foldl a.haloStep rez
  a.boundaryfaces.foldl a.boundaryStep rez

end Args

/-- The cell tables used by the source term. -/
structure CellTabs where
  /-- `faceidc[i][j]`, `cellidc[i][j]`, `normalc[i][j]`, `j < 3` -/
  faceid : Nat → Nat → Nat
  cellfid : Nat → Nat → Nat
  nf : Nat → Nat → Nat → ℝ
  center : Nat → Nat → ℝ
  /-- `vertexn[nodeidc[i][1]]` -/
  vertex1 : Nat → Nat → ℝ
  namef : Nat → Int
  halofid : Nat → Nat

/-- models/SWModel/tools.py:104-130: depth and bottom on the other side of face `j` of cell `i`. -/
def srcOther (t : CellTabs) (c ghost halo : Nat → W5) (i j : Nat) : W5 :=
  let f := t.faceid i j
  if t.namef f = 10 then halo (t.halofid f) else if t.namef f = 0 then c (t.cellfid i j) else ghost f

/-- models/SWModel/tools.py:65-175 `term_source_srnh_SW`, component `k` (0: `src_hu`, 1: `src_hv`); `src_h`, `src_hc`, `src_Z` are set to
0. -/
noncomputable def srcMomentum (t : CellTabs) (c ghost halo : Nat → W5) (i k : Nat) : ℝ :=
  let ss := t.nf i
  let h1p := c i 0
  let z1p := c i 4
  let hp := fun j => srcOther t c ghost halo i j 0
  let zv := fun j => srcOther t c ghost halo i j 4
  let mata := fun j => hp j * ss j 0
  let matb := fun j => hp j * ss j 1
  let q := fun j => 0.5 * (h1p + hp j) * 0.5 * (h1p + hp j)
  let c1 := 0 + q 0 * ss 0 0 + q 1 * ss 1 0 + q 2 * ss 2 0
  let c2 := 0 + q 0 * ss 0 1 + q 1 * ss 1 1 + q 2 * ss 2 1
  let c3 := 3 * h1p
  let delta := (mata 1 * matb 2 - mata 2 * matb 1) - (mata 0 * matb 2 - matb 0 * mata 2) + (mata 0 * matb 1 - matb 0 * mata 1)
  let deltax := c3 * (mata 1 * matb 2 - mata 2 * matb 1) - (c1 * matb 2 - c2 * mata 2) + (c1 * matb 1 - c2 * mata 1)
  let deltay := (c1 * matb 2 - c2 * mata 2) - c3 * (mata 0 * matb 2 - matb 0 * mata 2) + (mata 0 * c2 - matb 0 * c1)
  let deltaz := (mata 1 * c2 - matb 1 * c1) - (mata 0 * c2 - matb 0 * c1) + c3 * (mata 0 * matb 1 - matb 0 * mata 1)
  let h_1 := deltax / delta
  let h_2 := deltay / delta
  let h_3 := deltaz / delta
  let z_1 := z1p + h1p - h_1
  let z_2 := z1p + h1p - h_2
  let z_3 := z1p + h1p - h_3
  let G := t.center i
  let b := t.vertex1 i
  let ns0 : Nat → ℝ := fun k => if k = 0 then G 1 - b 1 else if k = 1 then -(G 0 - b 0) else 0
  let ns1 : Nat → ℝ := fun k => ns0 k - ss 1 k
  let ns2 : Nat → ℝ := fun k => ns0 k + ss 0 k
  let s_1 := 0.5 * h_1 * (zv 0 * ss 0 k + z_2 * ns0 k + z_3 * (-1) * ns2 k)
  let s_2 := 0.5 * h_2 * (zv 1 * ss 1 k + z_1 * (-1) * ns0 k + z_3 * ns1 k)
  let s_3 := 0.5 * h_3 * (zv 2 * ss 2 k + z_1 * ns2 k + z_2 * (-1) * ns1 k)
  (-g0) * (s_1 + s_2 + s_3)

/-- The whole source (models/SWModel/tools.py:170-175). -/
noncomputable def source (t : CellTabs) (c ghost halo : Nat → W5) (i : Nat) : W5 :=
  ![0, srcMomentum t c ghost halo i 0, srcMomentum t c ghost halo i 1, 0, 0]

/-- models/SWModel/tools.py:526-531 `term_coriolis_SW`: `(corio_hu, corio_hv)` in a cell. -/
noncomputable def coriolis (w : W5) (f_c : ℝ) : ℝ × ℝ := (f_c * w 1, -f_c * w 2)

/-- models/SWModel/tools.py:534-551 `term_friction_SW` in a cell. -/
noncomputable def friction (w : W5) (grav eta time : ℝ) : W5 :=
  let ufric := w 1 / w 0
  let vfric := w 2 / w 0
  let A := 1 + grav * time * eta ^ 2 * Real.sqrt (ufric ^ 2 + vfric ^ 2) / (w 0 ^ ((4 : ℝ) / 3))
  ![w 0, w 1 / A, w 2 / A, w 3, w 4]

/-- models/SWModel/tools.py:553-564 `term_wind_SW`. -/
noncomputable def wind (uwind vwind : ℝ) : ℝ × ℝ :=
  let WNORME := Real.sqrt (uwind ^ 2 + vwind ^ 2)
  let CW := 1.28 * (0.75 + 0.067 * WNORME) * 1e-3
  (CW * uwind * WNORME, CW * vwind * WNORME)

/-- models/SWModel/tools.py:3-15 `update_SW` in a cell. -/
noncomputable def updateCell (w rez src : W5) (dissip_hc : ℝ) (corio wind : ℝ × ℝ) (dtime vol : ℝ) : W5 :=
  ![w 0 + dtime * (rez 0 + src 0) / vol,
    w 1 + dtime * ((rez 1 + src 1) / vol + corio.1 + wind.1),
    w 2 + dtime * ((rez 2 + src 2) / vol + corio.2 + wind.2),
    w 3 + dtime * (rez 3 + src 3 - dissip_hc) / vol,
    w 4 + dtime * (rez 4 + src 4) / vol]

/-- models/SWModel/tools.py:30-43: `lam` of cell `i`. -/
noncomputable def cellLam (c : Nat → W5) (normal : Nat → Nat → ℝ) (mesure volume : Nat → ℝ) (faceid : Nat → Nat → Nat) (Dxx Dyy : ℝ) (i : Nat) : ℝ :=
  let velson := Real.sqrt (g0 * c i 0)
  (List.range 3).foldl (fun lam j =>
    let norm := normal (faceid i j)
    let u_n := |c i 1 / c i 0 * norm 0 + c i 2 / c i 0 * norm 1|
    let lam_convect := u_n / mesure (faceid i j) + velson
    let lam := lam + lam_convect * mesure (faceid i j)
    let mes := Real.sqrt (norm 0 * norm 0 + norm 1 * norm 1)
    let lam_diff := Dxx * mes ^ 2 + Dyy * mes ^ 2
    lam + lam_diff / volume i) 0

/-- models/SWModel/tools.py:18-47 `time_step_SW`. -/
noncomputable def timeStep (n : Nat) (c : Nat → W5) (cfl : ℝ) (normal : Nat → Nat → ℝ) (mesure volume : Nat → ℝ) (faceid : Nat → Nat → Nat)
    (Dxx Dyy : ℝ) : ℝ :=
  (List.range n).foldl (fun dt i => min dt (cfl * volume i / cellLam c normal mesure volume faceid Dxx Dyy i)) 1e6

/-- models/SWModel/core.py:128-150 `update_solution` on the cells: friction, convective residual, dissipation (given), source, Coriolis,
update; no wind.  `ext` gives ghosts, halo cells, gradients and mesh tables at this step (`ext.c` is not used: the cells are those after
friction). -/
structure StepData where
  ext : Args
  cells : CellTabs
  volume : Nat → ℝ
  dissip_hc : Nat → ℝ
  mann : ℝ
  fc : ℝ
  time_step : ℝ

noncomputable def step (w : Nat → W5) (d : StepData) : Nat → W5 :=
  let w := fun i => friction (w i) g0 d.mann d.time_step
  let a := { d.ext with c := w }
  let rez := a.convective
  let src := source d.cells w a.ghost a.halo
  fun i => updateCell (w i) (rez i) (src i) (d.dissip_hc i) (coriolis (w i) d.fc) (0, 0) d.time_step (d.volume i)

end Verif.SW

namespace Verif.SW

/-- Error of the constructor or of a step. -/
inductive Err where
  | value (msg : String)
  | keyError (key : String)
  | typeError
  | attribute (name : String)
deriving DecidableEq, Repr

/-- Parameters read by the constructor. -/
structure Coeffs (K : Type) where
  Dx : K
  Dy : K
  Mann : K
  fc : K
deriving DecidableEq, Repr

/-- `"key" not in self.parameters` then `self.parameters["key"]`; `parameters=None` raises TypeError. -/
def getParam {K : Type} (parameters : Option (String → Option K)) (key msg : String) : Except Err K :=
  match parameters with
  | none => .error .typeError
  | some p => match p key with
    | none => .error (.value msg)
    | some x => .ok x

/-- models/SWModel/core.py:30-33: the list of terms; the second component is the list object of the caller afterwards
(`terms.extend(["convective"])`). -/
def initTerms (terms : Option (List String)) : List String × Option (List String) :=
  match terms with
  | none => (["source", "dissipation", "coriolis", "friction", "convective"], none)
  | some t => (t ++ ["convective"], some (t ++ ["convective"]))

/-- models/SWModel/core.py:43-71: the coefficients. -/
def initCoeffs {K : Type} [Zero K] (terms : List String) (parameters : Option (String → Option K)) : Except Err (Coeffs K) := do
  let (Dx, Dy) ← if "dissipation" ∈ terms then do
      let x ← getParam parameters "Dx" "Dx number must be given"
      let y ← getParam parameters "Dy" "Dy number must be given"
      pure (x, y)
    else pure (0, 0)
  let Mann ← if "friction" ∈ terms then getParam parameters "Manning" "Manning number must be given" else pure 0
  let fc ← if "coriolis" ∈ terms then do
      let _ ← getParam parameters "CoriolisForce" "Coriolis Force number must be given"
      match parameters with
      | none => .error .typeError
      | some p => match p "Manning" with
        | none => .error (.keyError "Manning")
        | some x => pure x
    else pure 0
  pure { Dx, Dy, Mann, fc }

/-- ast/core.py:151-153: a `Variable` has the arrays named in `terms`; reading another one raises AttributeError. -/
def useArray (terms : List String) (name : String) : Except Err Unit :=
  if name ∈ terms then .ok () else .error (.attribute name)

/-- models/SWModel/core.py:128-150 `update_solution`: the term arrays it touches, in order (friction works in place). -/
def updateArrays (terms : List String) : Except Err Unit := do
  useArray terms "convective"
  useArray terms "dissipation"
  useArray terms "source"
  useArray terms "coriolis"
  useArray terms "convective"
  useArray terms "source"
  useArray terms "dissipation"
  useArray terms "coriolis"

/-- Constructor followed by one `update_solution`. -/
def runModel {K : Type} [Zero K] (terms : Option (List String)) (parameters : Option (String → Option K)) : Except Err (Coeffs K) := do
  let t := (initTerms terms).1
  let c ← initCoeffs t parameters
  updateArrays t
  pure c

end Verif.SW
