import Verif.Basic.Arr

/-!
# Model of the geometric kernels of `manapy/ddm/pyccel_ddm.py` and `manapy/ddm/numba_ddm.py`

`vertex s k` is coordinate `k` of node `s` (`vertex[s][3]` is the label and is not used here).
Square roots are a parameter `sqrt : K → K`; the theorems assume `SqrtSpec sqrt`
(instantiated by `Real.sqrt`).
-/
namespace Verif.Geo

variable {K : Type*} [Field K] [LinearOrder K]

/-- A row `a[i][0:3]` of an array, as a function of the column. -/
abbrev Vec (K : Type*) := Nat → K

/-- `for i in range(n): a[i] = f i` (each iteration writes only row `i`). -/
def writeRows {α : Type*} (n : Nat) (f : Nat → α) (a : Nat → α) : Nat → α :=
  (List.range n).foldl (fun a i => setAt a i (f i)) a

/-! ## 2D cells -/

/-- ddm/pyccel_ddm.py:162 `center[i]` for a triangle with nodes `s_1 s_2 s_3`. -/
def center2 (vertex : Nat → Vec K) (s_1 s_2 s_3 : Nat) : Vec K :=
  fun k => match k with
    | 0 => 1 / 3 * (vertex s_1 0 + vertex s_2 0 + vertex s_3 0)
    | 1 => 1 / 3 * (vertex s_1 1 + vertex s_2 1 + vertex s_3 1)
    | _ => 0

/-- ddm/pyccel_ddm.py:163 `volume[i]`. -/
def volume2 (vertex : Nat → Vec K) (s_1 s_2 s_3 : Nat) : K :=
  let x_1 := vertex s_1 0; let y_1 := vertex s_1 1
  let x_2 := vertex s_2 0; let y_2 := vertex s_2 1
  let x_3 := vertex s_3 0; let y_3 := vertex s_3 1
  (1 / 2) * |(x_1 - x_2) * (y_1 - y_3) - (x_1 - x_3) * (y_1 - y_2)|

/-- ddm/pyccel_ddm.py:165-167: the (possibly reordered) node row of the cell. -/
def orient2 (vertex : Nat → Vec K) (s_1 s_2 s_3 : Nat) : Nat × Nat × Nat :=
  let x_1 := vertex s_1 0; let y_1 := vertex s_1 1
  let x_2 := vertex s_2 0; let y_2 := vertex s_2 1
  let x_3 := vertex s_3 0; let y_3 := vertex s_3 1
  let var1 := (x_2 - x_1) * (y_3 - y_1) - (y_2 - y_1) * (x_3 - x_1)
  if var1 < 0 then (s_1, s_3, s_2) else (s_1, s_2, s_3)

/-- The three arrays written by `Compute_2dcentervolumeOfCell`. -/
structure Cells2 (K : Type*) where
  nodeid : Nat → Nat × Nat × Nat
  center : Nat → Vec K
  volume : Nat → K

/-- ddm/pyccel_ddm.py:147-167 `Compute_2dcentervolumeOfCell` (the arrays `center`, `volume` and `nodeid`
are written in place; `nodeid[i]` is the triple of the first three columns). -/
def compute2dCenterVolume (vertex : Nat → Vec K) (nbelements : Nat) (s : Cells2 K) : Cells2 K :=
  (List.range nbelements).foldl (fun s i =>
    let (s_1, s_2, s_3) := s.nodeid i
    { center := setAt s.center i (center2 vertex s_1 s_2 s_3)
      volume := setAt s.volume i (volume2 vertex s_1 s_2 s_3)
      nodeid := setAt s.nodeid i (orient2 vertex s_1 s_2 s_3) }) s

/-! ## 3D cells -/

/-- ddm/numba_ddm.py:57-65 `wedge_3d` (also inlined in ddm/pyccel_ddm.py:202-204). -/
def wedge (u v : Vec K) : Vec K :=
  fun k => match k with
    | 0 => u 1 * v 2 - u 2 * v 1
    | 1 => u 2 * v 0 - u 0 * v 2
    | _ => u 0 * v 1 - u 1 * v 0

/-- ddm/numba_ddm.py:67-69 `dot_vec3`. -/
def dot3 (u v : Vec K) : K := u 0 * v 0 + u 1 * v 1 + u 2 * v 2

/-- ddm/numba_ddm.py:71-73 `det_vec_3d`. -/
def detVec3d (u v w : Vec K) : K := dot3 u (wedge v w)

/-- ddm/pyccel_ddm.py:194-196 `center[i]` of a tetrahedron. -/
def center3 (vertex : Nat → Vec K) (s_1 s_2 s_3 s_4 : Nat) : Vec K :=
  fun k => 1 / 4 * (vertex s_1 k + vertex s_2 k + vertex s_3 k + vertex s_4 k)

/-- ddm/pyccel_ddm.py:198-206 `volume[i]` of a tetrahedron. -/
def volume3 (vertex : Nat → Vec K) (s_1 s_2 s_3 s_4 : Nat) : K :=
  let u : Vec K := fun k => vertex s_2 k - vertex s_1 k
  let v : Vec K := fun k => vertex s_3 k - vertex s_1 k
  let w : Vec K := fun k => vertex s_4 k - vertex s_1 k
  let wedge := wedge v w
  1 / 6 * |u 0 * wedge 0 + u 1 * wedge 1 + u 2 * wedge 2|

/-- ddm/pyccel_ddm.py:169-206 `Compute_3dcentervolumeOfCell`; returns `(center, volume)`. -/
def compute3dCenterVolume (nodeid : Nat → Nat × Nat × Nat × Nat) (vertex : Nat → Vec K) (nbelements : Nat)
    (center : Nat → Vec K) (volume : Nat → K) : (Nat → Vec K) × (Nat → K) :=
  (writeRows nbelements (fun i => let (a, b, c, d) := nodeid i; center3 vertex a b c d) center,
   writeRows nbelements (fun i => let (a, b, c, d) := nodeid i; volume3 vertex a b c d) volume)

/-! ## Faces -/

/-- ddm/pyccel_ddm.py:49-50: the unoriented `norm` of a 2D face with nodes `n0 n1` (`norm[2]` stays 0). -/
def rawNormal2 (vertex : Nat → Vec K) (n0 n1 : Nat) : Vec K :=
  fun k => match k with
    | 0 => vertex n0 1 - vertex n1 1
    | 1 => vertex n1 0 - vertex n0 0
    | _ => 0

/-- ddm/pyccel_ddm.py:52 `centerf[i]` in 2D. -/
def centerf2 (vertex : Nat → Vec K) (n0 n1 : Nat) : Vec K :=
  fun k => 1 / 2 * (vertex n0 k + vertex n1 k)

/-- ddm/pyccel_ddm.py:54-59: orientation of the normal with respect to the first cell (centre `g`). -/
def orientedNormal2 (vertex : Nat → Vec K) (g : Vec K) (n0 n1 : Nat) : Vec K :=
  let norm := rawNormal2 vertex n0 n1
  let snorm : Vec K := fun k => g k - centerf2 vertex n0 n1 k
  if snorm 0 * norm 0 + snorm 1 * norm 1 > 0 then fun k => -1 * norm k else norm

/-- ddm/pyccel_ddm.py:61 `mesuref[i]` in 2D. -/
def mesure2 (sqrt : K → K) (n : Vec K) : K := sqrt (n 0 ^ 2 + n 1 ^ 2)

/-- ddm/pyccel_ddm.py:12-61 `create_info_2dfaces`, geometric part: arrays `normalf`, `centerf`, `mesuref`
(the naming part is `Verif.Naming.nameFace2`). -/
def createInfo2dfaces (sqrt : K → K) (cellid : Nat → Nat → Nat) (nodeid : Nat → Nat → Nat) (vertex : Nat → Vec K)
    (centerc : Nat → Vec K) (nbfaces : Nat) (normalf centerf : Nat → Vec K) (mesuref : Nat → K) :
    (Nat → Vec K) × (Nat → Vec K) × (Nat → K) :=
  (writeRows nbfaces (fun i => orientedNormal2 vertex (centerc (cellid i 0)) (nodeid i 0) (nodeid i 1)) normalf,
   writeRows nbfaces (fun i => centerf2 vertex (nodeid i 0) (nodeid i 1)) centerf,
   writeRows nbfaces (fun i =>
     mesure2 sqrt (orientedNormal2 vertex (centerc (cellid i 0)) (nodeid i 0) (nodeid i 1))) mesuref)

/-- ddm/pyccel_ddm.py:129-134: unoriented area normal of a 3D face. -/
def rawNormal3 (vertex : Nat → Vec K) (n0 n1 n2 : Nat) : Vec K :=
  let u : Vec K := fun k => vertex n1 k - vertex n0 k
  let v : Vec K := fun k => vertex n2 k - vertex n0 k
  fun k => match k with
    | 0 => 1 / 2 * (u 1 * v 2 - u 2 * v 1)
    | 1 => 1 / 2 * (u 2 * v 0 - u 0 * v 2)
    | _ => 1 / 2 * (u 0 * v 1 - u 1 * v 0)

/-- ddm/pyccel_ddm.py:136 `centerf[i]` in 3D. -/
def centerf3 (vertex : Nat → Vec K) (n0 n1 n2 : Nat) : Vec K :=
  fun k => 1 / 3 * (vertex n0 k + vertex n1 k + vertex n2 k)

/-- ddm/pyccel_ddm.py:138-143. -/
def orientedNormal3 (vertex : Nat → Vec K) (g : Vec K) (n0 n1 n2 : Nat) : Vec K :=
  let norm := rawNormal3 vertex n0 n1 n2
  let snorm : Vec K := fun k => g k - centerf3 vertex n0 n1 n2 k
  if snorm 0 * norm 0 + snorm 1 * norm 1 + snorm 2 * norm 2 > 0 then fun k => -1 * norm k else norm

/-- ddm/pyccel_ddm.py:145 `mesuref[i]` in 3D. -/
def mesure3 (sqrt : K → K) (n : Vec K) : K := sqrt (n 0 ^ 2 + n 1 ^ 2 + n 2 ^ 2)

/-- ddm/pyccel_ddm.py:63-145 `create_info_3dfaces`, geometric part. -/
def createInfo3dfaces (sqrt : K → K) (cellid : Nat → Nat → Nat) (nodeid : Nat → Nat → Nat) (vertex : Nat → Vec K)
    (centerc : Nat → Vec K) (nbfaces : Nat) (normalf centerf : Nat → Vec K) (mesuref : Nat → K) :
    (Nat → Vec K) × (Nat → Vec K) × (Nat → K) :=
  (writeRows nbfaces (fun i =>
      orientedNormal3 vertex (centerc (cellid i 0)) (nodeid i 0) (nodeid i 1) (nodeid i 2)) normalf,
   writeRows nbfaces (fun i => centerf3 vertex (nodeid i 0) (nodeid i 1) (nodeid i 2)) centerf,
   writeRows nbfaces (fun i => mesure3 sqrt
      (orientedNormal3 vertex (centerc (cellid i 0)) (nodeid i 0) (nodeid i 1) (nodeid i 2))) mesuref)

/-- ddm/pyccel_ddm.py:277-280: outgoing normal of face `f` for a cell of centre `G`. -/
def outNormal (G c normal : Vec K) : Vec K :=
  if (G 0 - c 0) * normal 0 + (G 1 - c 1) * normal 1 + (G 2 - c 2) * normal 2 < 0 then normal
  else fun k => -1 * normal k

/-- ddm/pyccel_ddm.py:259-282 `create_NormalFacesOfCell`; `nf[i][j]` for `j < dim+1`.
The Domain calls it only in 2D (ddm/domain.py:427-429). -/
def createNormalFacesOfCell (centerc centerf : Nat → Vec K) (faceid : Nat → Nat → Nat) (normal : Nat → Vec K)
    (nbelements : Nat) (nf : Nat → Nat → Vec K) (dim : Nat) : Nat → Nat → Vec K :=
  (List.range nbelements).foldl (fun nf i =>
    (List.range (dim + 1)).foldl (fun nf j =>
      setAt nf i (setAt (nf i) j (outNormal (centerc i) (centerf (faceid i j)) (normal (faceid i j))))) nf) nf

/-- ddm/numba_ddm.py:75-92 `oriente_3dfacenodeid`: new node row of a face. -/
def orientFace3 (vertex : Nat → Vec K) (normal : Vec K) (n1 n2 n3 : Nat) : Nat × Nat × Nat :=
  let v1 : Vec K := fun k => vertex n2 k - vertex n1 k
  let v2 : Vec K := fun k => vertex n3 k - vertex n1 k
  if dot3 (wedge v1 v2) normal < 0 then (n1, n3, n2) else (n1, n2, n3)

/-- ddm/numba_ddm.py:75-92 `oriente_3dfacenodeid` over all faces. -/
def oriente3dfacenodeid (nodeid : Nat → Nat × Nat × Nat) (normal : Nat → Vec K) (vertex : Nat → Vec K)
    (nbfaces : Nat) : Nat → Nat × Nat × Nat :=
  (List.range nbfaces).foldl (fun nodeid i =>
    let (n1, n2, n3) := nodeid i
    setAt nodeid i (orientFace3 vertex (normal i) n1 n2 n3)) nodeid

/-! ## Ghost centres -/

/-- ddm/numba_ddm.py:447-459: `(v_2[0], v_2[1], gamma)` of a 2D boundary face whose nodes have coordinates
`x_1 = vertex[nodeid[i][1]]`, `x_2 = vertex[nodeid[i][0]]` and whose cell centre is `v_1`. -/
def ghostcenter2 (x_1 x_2 v_1 : Vec K) : K × K × K :=
  let gamma := ((v_1 0 - x_2 0) * (x_1 0 - x_2 0) + (v_1 1 - x_2 1) * (x_1 1 - x_2 1))
    / ((x_1 0 - x_2 0) ^ 2 + (x_1 1 - x_2 1) ^ 2)
  let kk0 := gamma * x_1 0 + (1 - gamma) * x_2 0
  let kk1 := gamma * x_1 1 + (1 - gamma) * x_2 1
  (2 * kk0 + (-1 * v_1 0), 2 * kk1 + (-1 * v_1 1), gamma)

/-- ddm/numba_ddm.py:621-641: `(v_2, gamma)` of a 3D boundary face. -/
def ghostcenter3 (normal : Vec K) (mesure : K) (centerf v_1 : Vec K) : Vec K × K :=
  let n : Vec K := fun k => normal k / mesure
  let u : Vec K := fun k => centerf k - v_1 k
  let gamma := dot3 u n
  let kk : Vec K := fun k => v_1 k + gamma * n k
  (fun k => 2 * kk k + (-1 * v_1 k), gamma)

/-- ddm/pyccel_ddm.py:5-11 `compute_K`: row `i` of `K` (`dim` columns are written). -/
def computeK (name : Nat → Int) (ghost centerc : Nat → Vec K) (cl : Nat → Nat) (dim : Nat) (Kf : Nat → Vec K)
    (nbfaces : Nat) : Nat → Vec K :=
  (List.range nbfaces).foldl (fun Kf i =>
    if name i ≤ 4 ∧ name i ≠ 0 then
      setAt Kf i (fun k => if k < dim then 1 / 2 * (centerc (cl i) k + ghost i k) else Kf i k)
    else Kf) Kf

end Verif.Geo
