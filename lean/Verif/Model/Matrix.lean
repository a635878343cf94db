import Verif.Model.Vector
import Mathlib.Algebra.BigOperators.Intervals

/-! Model of `include/GooseFEM/Matrix.h` (classes `Matrix`, `MatrixSolver`) and of the parts of
Eigen's sparse module that it uses. -/

namespace GF

/-- `Eigen::SparseMatrix<double>`: dimensions and entries.  Simplification: entries that are not
stored are represented by the zero they stand for. -/
structure Mat (α : Type) where
  nr : Nat
  nc : Nat
  e : Nat → Nat → α

/-- `Eigen::Triplet<double>` -/
structure Trip (α : Type) where
  r : Nat
  c : Nat
  v : α

namespace Mat
variable {α : Type}

/-- a freshly resized sparse matrix: no stored entries -/
def zero [Zero α] (nr nc : Nat) : Mat α := ⟨nr, nc, fun _ _ => 0⟩

/-- `A.setFromTriplets(T.begin(), T.end())` on a matrix of the given dimensions: duplicates are
summed, earlier contents are discarded; an out-of-range index is undefined behaviour. -/
def setFromTriplets [Zero α] [Add α] (nr nc : Nat) (T : List (Trip α)) : Res (Mat α) :=
  if T.all (fun t => decide (t.r < nr) && decide (t.c < nc)) then
    .ok ⟨nr, nc, fun r c => (T.map fun t => if t.r = r ∧ t.c = c then t.v else 0).sum⟩
  else .ub

/-- `A += B` -/
def add [Add α] (A B : Mat α) : Mat α := ⟨A.nr, A.nc, fun r c => A.e r c + B.e r c⟩

open Finset in
/-- `A * x` for an Eigen vector `x`; a size mismatch is undefined behaviour (Eigen asserts it). -/
def mulVec [NonUnitalNonAssocSemiring α] (A : Mat α) (x : Ten α) : Res (Ten α) :=
  if x.shape = [A.nc] then do
    let l ← x.flat
    .ok (Ten.of [A.nr] fun ix => ∑ c ∈ range A.nc, A.e (ix.getD 0 0) c * l.getD c 0)
  else .ub

end Mat

/-- `class Matrix`, Matrix.h:653-700: mesh tables (same members as `Vector`), the sparse matrix and
the flag that signals changes to the solver. -/
structure SMatrix (α : Type) where
  V : Vector
  A : Mat α
  changed : Bool

namespace SMatrix
variable {α : Type}

/-- Constructor, Matrix.h:679-693 (the table members are set as in `Vector`). -/
def new [Zero α] (conn dofs : Ten Nat) : Res (SMatrix α) := do
  let V ← Vector.new conn dofs
  .ok ⟨V, Mat.zero V.ndof V.ndof, true⟩

/-- the loop of `assemble_impl`, Matrix.h:709-723: one triplet per element-matrix entry -/
def triplets (V : Vector) (elemmat : Ten α) : Res (List (Trip α)) :=
  mapRes (fun (x : Nat × Nat × Nat × Nat × Nat) => do
    let (e, m, i, n, j) := x
    let cm ← V.conn.get [e, m]
    let r ← V.dofs.get [cm, i]
    let cn ← V.conn.get [e, n]
    let c ← V.dofs.get [cn, j]
    let v ← elemmat.get [e, m * V.ndim + i, n * V.ndim + j]
    .ok ⟨r, c, v⟩) (it5 V.nelem V.nne V.ndim V.nne V.ndim)

/-- `assemble`, Matrix.h:705-727 -/
def assemble [Zero α] [Add α] (M : SMatrix α) (elemmat : Ten α) : Res (SMatrix α) := do
  let T ← triplets M.V elemmat
  let A ← Mat.setFromTriplets M.V.ndof M.V.ndof T
  .ok ⟨M.V, A, true⟩

/-- the loop shared by `set` and `add`, Matrix.h:749-753 and 780-784 -/
def blockTriplets (rows cols : List Nat) (matrix : Ten α) : Res (List (Trip α)) :=
  mapRes (fun (x : Nat × Nat) => do
    let r ← lget rows x.1
    let c ← lget cols x.2
    let v ← matrix.get [x.1, x.2]
    .ok ⟨r, c, v⟩) (it2 rows.length cols.length)

/-- `set(rows, cols, matrix)`, Matrix.h:737-757 -/
def set [Zero α] [Add α] (M : SMatrix α) (rows cols : List Nat) (matrix : Ten α) :
    Res (SMatrix α) := do
  let T ← blockTriplets rows cols matrix
  let A ← Mat.setFromTriplets M.V.ndof M.V.ndof T
  .ok ⟨M.V, A, true⟩

/-- `add(rows, cols, matrix)`, Matrix.h:766-789 -/
def add [Zero α] [Add α] (M : SMatrix α) (rows cols : List Nat) (matrix : Ten α) :
    Res (SMatrix α) := do
  let T ← blockTriplets rows cols matrix
  let B ← Mat.setFromTriplets M.V.ndof M.V.ndof T
  .ok ⟨M.V, M.A.add B, true⟩

/-- `Todense`, Matrix.h:338-343, 793-802.  Simplification: the loop over stored entries of a
zero-filled array is written as a loop over all entries. -/
def todense [Zero α] (M : SMatrix α) : Res (Ten α) :=
  forEach (it2 M.A.nr M.A.nc) (fun ret rc => ret.set [rc.1, rc.2] (M.A.e rc.1 rc.2))
    (Ten.full [M.V.ndof, M.V.ndof] 0)

/-- `Eigen_AsDofs_nodevec`, Matrix.h:825-839: zero-initialised vector, then the parallel loop of
`Vector::asDofs` (same text). -/
def eigenAsDofs [Zero α] (V : Vector) (σ : Sched) (nodevec : Ten α) : Res (Ten α) :=
  V.asDofs_nodevec σ nodevec (Ten.empty [V.ndof])

/-- `Eigen_asNode_dofval_nodevec`, Matrix.h:848-859: the parallel loop of `Vector::asNode` (same
text) into an existing node vector. -/
def eigenAsNode (V : Vector) (σ : Sched) (dofval nodevec : Ten α) : Res (Ten α) :=
  V.asNode_dofval σ dofval nodevec

/-- `Dot(dofval)`, Matrix.h:377-383, 811-815 -/
def dot_dofval [NonUnitalNonAssocSemiring α] (M : SMatrix α) (x : Ten α) : Res (Ten α) := M.A.mulVec x

/-- `Dot(nodevec)`, Matrix.h:363-369, 805-808; `b` is allocated like `x` -/
def dot_nodevec [NonUnitalNonAssocSemiring α] (M : SMatrix α) (σ τ : Sched) (x : Ten α) :
    Res (Ten α) := do
  let u ← eigenAsDofs M.V σ x
  let b ← M.A.mulVec u
  eigenAsNode M.V τ b (Ten.empty x.shape)

end SMatrix

/-- The template argument `Solver` (e.g. `Eigen::SimplicialLDLT`): `compute(A)` followed by
`solve(b)` returns `run A b`.  Its accuracy is a hypothesis of the theorems that need it. -/
structure LinSolver (α : Type) where
  run : Mat α → (Nat → α) → Nat → α

/-- `S` solves linear systems with the matrix `A` exactly. -/
def LinSolver.ExactOn {α : Type} [NonUnitalNonAssocSemiring α] (S : LinSolver α) (A : Mat α) : Prop :=
  ∀ b : Nat → α, ∀ r, r < A.nr → ∑ c ∈ Finset.range A.nc, A.e r c * S.run A b c = b r

/-- State of a `MatrixSolver*` object, Matrix.h:893-896: the factorised matrix inside `m_solver` (none
before the first `compute`) and `m_factor`. -/
structure SolverState (α : Type) where
  fact : Option (Mat α)
  factor : Bool

/-- a default-constructed solver -/
def SolverState.init {α : Type} : SolverState α := ⟨none, true⟩

/-- `factorize(A)`, Matrix.h:900-908 (same logic in MatrixPartitioned.h:633-641 with `A.m_Auu`):
given the flag `changed` of the matrix object and the matrix to factorise, the new solver state and
the new value of the flag. -/
def SolverState.factorize {α : Type} (s : SolverState α) (changed : Bool) (A : Mat α) :
    SolverState α × Bool :=
  if !changed && !s.factor then (s, changed)
  else (⟨some A, false⟩, false)

/-- `m_solver.solve(b)`: the solution for the matrix that was factorised last. -/
def SolverState.solve {α : Type} [Zero α] (S : LinSolver α) (s : SolverState α) (b : Ten α) :
    Res (Ten α) :=
  match s.fact with
  | none => .ub
  | some A =>
    if b.shape = [A.nr] then do
      let l ← b.flat
      .ok (Ten.of [A.nc] fun ix => S.run A (fun i => l.getD i 0) (ix.getD 0 0))
    else .ub

/-- `MatrixSolver::Solve(A, b)` on DOF vectors, Matrix.h:886-891 -/
def SolverState.solve_dofval {α : Type} [Zero α] (S : LinSolver α) (s : SolverState α)
    (M : SMatrix α) (b : Ten α) : Res (SolverState α × SMatrix α × Ten α) := do
  let (s', ch) := s.factorize M.changed M.A
  let x ← s'.solve S b
  .ok (s', { M with changed := ch }, x)

/-- `MatrixSolver::Solve(A, b)` on node vectors, Matrix.h:878-883 -/
def SolverState.solve_nodevec {α : Type} [Zero α] (S : LinSolver α) (s : SolverState α)
    (M : SMatrix α) (σ τ : Sched) (b : Ten α) : Res (SolverState α × SMatrix α × Ten α) := do
  let (s', ch) := s.factorize M.changed M.A
  let B ← SMatrix.eigenAsDofs M.V σ b
  let X ← s'.solve S B
  let x ← SMatrix.eigenAsNode M.V τ X (Ten.empty b.shape)
  .ok (s', { M with changed := ch }, x)

end GF
