import Verif.Model.Conn
import Verif.Model.Output

/-!
# Model of the mesh object as `readmesh` uses it (`ddm/meshpartitioning.py:50-179`)

`load_gmsh_mesh` (lines 50-53) calls `meshio`, which is not modelled: a mesh is what it returns for a dictionary mesh, the rows of
`mesh.cells[typeOfCells]`, the points, and the boundary elements with their physical tags.
-/
namespace Verif.Gmsh
open Verif Verif.Conn Verif.Output
variable {K : Type*}

/-- ddm/meshpartitioning.py:55-66 `create_cell_nodeid`: every row is sorted in place. -/
def cellNodeid (cells : Nat → List Nat) (c j : Nat) : Nat := (sortRow (cells c)).getD j 0

/-- ddm/meshpartitioning.py:134-137 `create_nodes` and 173-179: a row of the `nodes` section is the point followed by the label
`define_ghost_node` gives the node (the files of several processes hold the same rows, lines 302-307). -/
def fileNode (points : Nat → K × K × K) (els : List BElem) (periodic : Nat → Int) (k : Nat) : K × K × K × Nat :=
  ((points k).1, (points k).2.1, (points k).2.2, (ghostNodes els periodic k).toNat)

end Verif.Gmsh
