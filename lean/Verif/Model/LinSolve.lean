import Verif.Model.LinSys
import Verif.Model.Variable

/-!
# Model of `LinearSystem` (`ast/linearsystem.py`): boundary data, right-hand sides, `solve`

All processes are modelled together: the state gives for every rank the numpy arrays its attributes refer to.  Arrays live in one heap
indexed by references (two attributes may refer to the same array).  The factorisation and the triangular solves of
SuperLU/UMFPACK/MUMPS/PETSc are an arbitrary function `S` of the right-hand side (trusted: it solves the assembled system; for PETSc this
ignores the tolerance and the initial guess of the iteration).  The `len(rhs)` assertions are assumed to pass.  A statement
executed by all ranks is executed rank by rank: ranks share no memory outside the collectives, so the order is irrelevant.
-/
namespace Verif.LinSolve
open Verif Verif.Var

variable {K : Type*}

/-! ## Boundary data: `domain.Pbordnode`, `domain.Pbordface` -/

/-- The two arrays stored on the *domain*. -/
structure PBord (K : Type*) where
  node : Nat → K
  face : Nat → K

/-- ast/core.py:175-176, ast/linearsystem.py:45-46: both arrays are replaced by zeros. -/
def pbordZero [Zero K] : PBord K := ⟨fun _ => 0, fun _ => 0⟩

/-- ast/linearsystem.py:53-61: one boundary of `self.var.BCs.values()`; `rhs_value_dirichlet_face`/`_node` are
ast/pyccel_functions.py:10-21. -/
def pbordStep [One K] (d : Dom) (h : Heap K) (loc : Loc) (b : Boundary) (p : PBord K) : PBord K :=
  match b.bctype with
  | .dirichlet => { face := (d.faces loc).foldl (fun a i => setAt a i (h.val b.valueface i)) p.face
                    node := (d.nodes loc).foldl (fun a i => setAt a i (h.val b.valuenode i)) p.node }
  | .neumann => { p with node := (d.nodes loc).foldl (fun a i => setAt a i 1) p.node }
  | _ => p

/-- ast/linearsystem.py:45-61: the boundary data set by `LinearSystem(domain, var)`; `locs` are the keys of `var.BCs` in order. -/
def pbordInit [Zero K] [One K] (d : Dom) (locs : List Loc) (v : VState K) : Except PyErr (PBord K) :=
  locs.foldlM (fun p loc => match v.bcs loc with
    | none => .error .attributeError
    | some b => .ok (pbordStep d v.heap loc b p)) pbordZero

/-- What happens to the boundary data of a domain when objects are created on it. -/
inductive Creation (K : Type*)
  /-- `Variable(domain, ...)`, also through `a + b` (ast/core.py:357-391) -/
  | variable
  /-- `LinearSystem(domain, var)` -/
  | system (locs : List Loc) (v : VState K)
  /-- anything else: `update_ghost_value`, `solve`, `compute_Sol_gradient`, ... -/
  | use

/-- The boundary data after a creation. -/
def create [Zero K] [One K] (d : Dom) (p : PBord K) : Creation K → Except PyErr (PBord K)
  | .variable => .ok pbordZero
  | .system locs v => pbordInit d locs v
  | .use => .ok p

/-! ## Solving -/

inductive Solver | spsolve | umfpack | mumps | petsc
deriving DecidableEq

/-- What does not change during the life of a system. -/
structure Env (K : Type*) where
  solver : Solver
  SIZE : Nat
  localsize : Nat → Nat
  loctoglob : Nat → Nat → Nat
  /-- `cells.tc` on rank 0 -/
  tc : List Nat
  /-- right-hand side ↦ solution -/
  S : (Nat → K) → Nat → K

/-- ast/linearsystem.py:82: `comm.allreduce(self.localsize)`. -/
def Env.globalsize (E : Env K) : Nat := (List.range E.SIZE).foldl (fun n p => n + E.localsize p) 0

/-- The arrays of the processes. -/
structure St (K : Type*) where
  heap : Nat → Nat → K
  /-- next unused reference -/
  next : Nat
  /-- `self.rhs0_glob` (`rhs0_loc` for PETSc) of a rank; `none` is Python's `None` -/
  rhs0 : Nat → Option Nat
  /-- `self.var.cell` of a rank -/
  cell : Nat → Nat
  /-- `self.sol` of a rank -/
  sol : Nat → Nat
  /-- `self.x1converted` of rank 0 -/
  x1converted : Nat → K
  /-- the distributed PETSc vector `self.rhs` -/
  prhs : Nat → K

/-- A new array. -/
def St.alloc (s : St K) (a : Nat → K) : St K × Nat := ({ s with heap := setAt s.heap s.next a, next := s.next + 1 }, s.next)

/-- In-place modification of an array. -/
def St.store (s : St K) (r : Nat) (a : Nat → K) : St K := { s with heap := setAt s.heap r a }

section
variable [Add K]

/-- ast/linearsystem.py:84-131: the array `rhs0` of a rank after `__init__`.  `bnd p` is what `compute_global_rhs` (`compute_local_rhs`
for PETSc) computes on rank `p`, `ctor p` is the constructor argument `rhs` given on rank `p`. -/
def initRhs0 [Zero K] (E : Env K) (bnd : Nat → Nat → K) (ctor : Nat → Option (Nat → K)) (p : Nat) : Except PyErr (Option (Nat → K)) :=
  let plus := fun a => match ctor p with | none => a | some r => fun i => a i + r i
  match E.solver with
  | .spsolve => if E.SIZE = 1 then .ok (some (plus (bnd p))) else .error .assertionError
  | .umfpack => if E.SIZE = 1 then .ok (some (bnd p)) else .error .assertionError
  | .petsc => .ok (some (plus (bnd p)))
  | .mumps =>
    if p = 0 then .ok (some (plus (fun g => (List.range E.SIZE).foldl (fun a q => a + bnd q g) 0)))
    else match ctor p with
      | none => .ok none                  -- `comm.reduce` returns None on the other ranks
      | some _ => .error .typeError       -- `len(None)`

/-- ast/linearsystem.py:27-131: the system on all ranks; rank `p`'s `rhs0` is array `p`, its `var.cell` (contents `cell0 p`) is array
`SIZE + p`. -/
def mkSystem [Zero K] (E : Env K) (bnd : Nat → Nat → K) (ctor : Nat → Option (Nat → K)) (cell0 : Nat → Nat → K) : Except PyErr (St K) := do
  let l ← (List.range E.SIZE).mapM (initRhs0 E bnd ctor)
  return { heap := fun r => if r < E.SIZE then ((l.getD r none).getD (fun _ => 0)) else cell0 (r - E.SIZE)
           next := 2 * E.SIZE
           rhs0 := fun p => (l.getD p none).map (fun _ => p)
           cell := fun p => E.SIZE + p
           sol := fun p => p
           x1converted := fun _ => 0
           prhs := fun _ => 0 }

/-- ast/linearsystem.py:345-350, 358-363, 372-377, 394-399: `rhs0` if no argument is given, otherwise the *new* array `rhs + rhs0`. -/
def effRhs (s : St K) (p : Nat) (arg : Option Nat) : Except PyErr (St K × Option Nat) :=
  match arg with
  | none => .ok (s, s.rhs0 p)
  | some r => match s.rhs0 p with
    | none => .error .typeError
    | some r0 =>
      let sr := s.alloc (fun i => s.heap r i + s.heap r0 i)
      .ok (sr.1, some sr.2)

/-- ast/linearsystem.py:352-355, 365-369 (`spsolve`, `umfpack`): the solution is a new array, `var.cell` becomes that array. -/
def solveSeq (E : Env K) (s : St K) (args : Nat → Option Nat) : Except PyErr (St K) := do
  let (s, r) ← effRhs s 0 (args 0)
  match r with
  | none => .error .typeError
  | some r =>
    let sr := s.alloc (E.S (s.heap r))
    .ok { sr.1 with sol := setAt sr.1.sol 0 sr.2, cell := setAt sr.1.cell 0 sr.2 }

/-- ast/pyccel_functions.py:4-7 `convert_solution`. -/
def convertSolution (x1 x1converted : Nat → K) (tc : List Nat) (b0Size : Nat) : Nat → K :=
  (List.range b0Size).foldl (fun o i => setAt o i (x1 (tc.getD i 0))) x1converted

/-- `comm.Scatterv([x1converted, sendcounts1, DOUBLE], self.var.cell, root=0)` (ast/linearsystem.py:391, 426): rank `p` receives
`localsize p` entries, starting where the block of rank `p - 1` ends, into its array `var.cell` in place. -/
def scatterv (E : Env K) (s : St K) : St K :=
  (List.range E.SIZE).foldl (fun s p =>
    let off := ((List.range p).map E.localsize).sum
    s.store (s.cell p) (fun j => if j < E.localsize p then s.x1converted (off + j) else s.heap (s.cell p) j)) s

/-- `self.sol = array` on rank 0. -/
def St.setSol (s : St K) (r : Nat) : St K := { s with sol := setAt s.sol 0 r }

/-- ast/linearsystem.py:379-391: rank 0 solves in a copy of its right-hand side (array `r`), converts and scatters. -/
def mumpsRun (E : Env K) (s : St K) (r : Nat) : St K :=
  let sr := s.alloc (s.heap r)                        -- self.sol = rhs.copy()
  let s := sr.1.setSol sr.2
  let s := s.store (s.sol 0) (E.S (s.heap (s.sol 0))) -- ctx.run(job=3) solves in place
  scatterv E { s with x1converted := convertSolution (s.heap (s.sol 0)) s.x1converted E.tc E.globalsize }

/-- ast/linearsystem.py:371-391 (`mumps`). -/
def solveMumps (E : Env K) (s : St K) (args : Nat → Option Nat) : Except PyErr (St K) := do
  let (s, r) ← effRhs s 0 (args 0)
  let s ← (List.range (E.SIZE - 1)).foldlM (fun s p => (effRhs s (p + 1) (args (p + 1))).map Prod.fst) s
  match r with
  | none => .error .typeError
  | some r => .ok (mumpsRun E s r)

/-- ast/linearsystem.py:394-402: rank `p` inserts its right-hand side into the distributed PETSc vector. -/
def petscRank (E : Env K) (args : Nat → Option Nat) (s : St K) (p : Nat) : Except PyErr (St K) :=
  match effRhs s p (args p) with
  | .error e => .error e
  | .ok (_, none) => .error .typeError
  | .ok (s, some r) => .ok { s with prhs := (List.range (E.localsize p)).foldl (fun v i => setAt v (E.loctoglob p i) (s.heap r i)) s.prhs }

/-- ast/linearsystem.py:393-426 (`petsc`). -/
def solvePetsc (E : Env K) (s : St K) (args : Nat → Option Nat) : Except PyErr (St K) :=
  match (List.range E.SIZE).foldlM (petscRank E args) s with
  | .error e => .error e
  | .ok s => .ok (scatterv E { s with x1converted := convertSolution (E.S s.prhs) s.x1converted E.tc E.globalsize })

/-- ast/linearsystem.py:343-426 `solve(rhs=...)`; `args p` is the argument on rank `p`. -/
def solve (E : Env K) (s : St K) (args : Nat → Option Nat) : Except PyErr (St K) :=
  match E.solver with
  | .spsolve | .umfpack => solveSeq E s args
  | .mumps => solveMumps E s args
  | .petsc => solvePetsc E s args

/-- What a program does with a system and its arrays. -/
inductive Op (K : Type*)
  /-- a new array of the user -/
  | alloc (a : Nat → K)
  /-- `array[i] = x` -/
  | poke (r i : Nat) (x : K)
  /-- `var.cell[i] = x` on rank `p` -/
  | pokeCell (p i : Nat) (x : K)
  | solve (args : Nat → Option Nat)

/-- One operation. -/
def step (E : Env K) (s : St K) : Op K → Except PyErr (St K)
  | .alloc a => .ok (s.alloc a).1
  | .poke r i x => .ok (s.store r (setAt (s.heap r) i x))
  | .pokeCell p i x => .ok (s.store (s.cell p) (setAt (s.heap (s.cell p)) i x))
  | .solve args => solve E s args

/-- A history. -/
def run (E : Env K) (s : St K) (ops : List (Op K)) : Except PyErr (St K) := ops.foldlM (step E) s
end

end Verif.LinSolve
