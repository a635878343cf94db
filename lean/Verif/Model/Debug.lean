import Verif.Model.VectorPartitioned
import Verif.Model.MatrixDiagonal
import Verif.Model.Element
import Verif.Model.VectorPartitionedTyings

/-! The build with assertions, `GOOSEFEM_ENABLE_ASSERT`: each function with the assertions that it makes.  The code after the
assertions is the same as without them, so it is not repeated.  Nested calls are calls to the functions with assertions. -/

namespace GF

/-- `GOOSEFEM_ASSERT(p)` with `GOOSEFEM_ENABLE_ASSERT` defined: throws a `std::runtime_error`, config.h:65-95 -/
def gassert (p : Prop) [Decidable p] : Res Unit := if p then .ok () else .throws

namespace Vector
variable {α : Type}

/-- Constructor, Vector.h:33-47, with its assertions (those on the rank hold: the static rank is two). -/
def new_checked (conn dofs : Ten Nat) : Res Vector := do
  let V ← Vector.new conn dofs
  let a ← amax conn
  gassert (a + 1 ≤ V.nnode)
  gassert (V.ndof ≤ V.nnode * V.ndim)
  .ok V

/-- `copy`, Vector.h:127-133 -/
def copy_checked (V : Vector) (src dest : Ten α) : Res (Ten α) := do
  gassert (src.shape = V.shape_nodevec)
  gassert (dest.shape = V.shape_nodevec)
  V.copy src dest

/-- Vector.h:569-585 -/
def asDofs_nodevec_checked [Zero α] (V : Vector) (σ : Sched) (arg ret : Ten α) : Res (Ten α) := do
  gassert (arg.shape = V.shape_nodevec)
  gassert (ret.shape = V.shape_dofval)
  V.asDofs_nodevec σ arg ret

/-- Vector.h:591-609 -/
def asDofs_elemvec_checked [Zero α] (V : Vector) (σ : Sched) (arg ret : Ten α) : Res (Ten α) := do
  gassert (arg.shape = V.shape_elemvec)
  gassert (ret.shape = V.shape_dofval)
  V.asDofs_elemvec σ arg ret

/-- Vector.h:615-629 -/
def asNode_dofval_checked (V : Vector) (σ : Sched) (arg ret : Ten α) : Res (Ten α) := do
  gassert (arg.shape = V.shape_dofval)
  gassert (ret.shape = V.shape_nodevec)
  V.asNode_dofval σ arg ret

/-- Vector.h:635-653 -/
def asNode_elemvec_checked [Zero α] (V : Vector) (σ : Sched) (arg ret : Ten α) : Res (Ten α) := do
  gassert (arg.shape = V.shape_elemvec)
  gassert (ret.shape = V.shape_nodevec)
  V.asNode_elemvec σ arg ret

/-- Vector.h:659-675; `arg.size() == m_ndof` for an array of rank one -/
def asElement_dofval_checked (V : Vector) (σ : Sched) (arg ret : Ten α) : Res (Ten α) := do
  gassert (arg.shape.prod = V.ndof)
  gassert (ret.shape = V.shape_elemvec)
  V.asElement_dofval σ arg ret

/-- Vector.h:681-697 -/
def asElement_nodevec_checked (V : Vector) (σ : Sched) (arg ret : Ten α) : Res (Ten α) := do
  gassert (arg.shape = V.shape_nodevec)
  gassert (ret.shape = V.shape_elemvec)
  V.asElement_nodevec σ arg ret

/-- Vector.h:703-718 -/
def assembleDofs_nodevec_checked [Zero α] [Add α] (V : Vector) (arg ret : Ten α) : Res (Ten α) := do
  gassert (arg.shape = V.shape_nodevec)
  gassert (ret.shape = V.shape_dofval)
  V.assembleDofs_nodevec arg ret

/-- Vector.h:724-741 -/
def assembleDofs_elemvec_checked [Zero α] [Add α] (V : Vector) (arg ret : Ten α) : Res (Ten α) := do
  gassert (arg.shape = V.shape_elemvec)
  gassert (ret.shape = V.shape_dofval)
  V.assembleDofs_elemvec arg ret

/-- rank dispatch, Vector.h:405-435 -/
def asDofs_checked [Zero α] (V : Vector) (σ : Sched) (arg ret : Ten α) : Res (Ten α) :=
  if arg.rank = 2 then V.asDofs_nodevec_checked σ arg ret
  else if arg.rank = 3 then V.asDofs_elemvec_checked σ arg ret
  else .throws

/-- rank dispatch, Vector.h:440-470 -/
def asNode_checked [Zero α] (V : Vector) (σ : Sched) (arg ret : Ten α) : Res (Ten α) :=
  if arg.rank = 1 then V.asNode_dofval_checked σ arg ret
  else if arg.rank = 3 then V.asNode_elemvec_checked σ arg ret
  else .throws

/-- rank dispatch, Vector.h:475-505 -/
def asElement_checked (V : Vector) (σ : Sched) (arg ret : Ten α) : Res (Ten α) :=
  if arg.rank = 1 then V.asElement_dofval_checked σ arg ret
  else if arg.rank = 2 then V.asElement_nodevec_checked σ arg ret
  else .throws

/-- rank dispatch, Vector.h:510-540 -/
def assembleDofs_checked [Zero α] [Add α] (V : Vector) (arg ret : Ten α) : Res (Ten α) :=
  if arg.rank = 2 then V.assembleDofs_nodevec_checked arg ret
  else if arg.rank = 3 then V.assembleDofs_elemvec_checked arg ret
  else .throws

/-- `AsDofs`, Vector.h:142-159 -/
def AsDofs_checked [Zero α] (V : Vector) (σ : Sched) (arg : Ten α) : Res (Ten α) :=
  V.asDofs_checked σ arg (Ten.empty V.shape_dofval)

/-- `AsNode`, Vector.h:168-185 -/
def AsNode_checked [Zero α] (V : Vector) (σ : Sched) (arg : Ten α) : Res (Ten α) :=
  V.asNode_checked σ arg (Ten.empty V.shape_nodevec)

/-- `AsElement`, Vector.h:194-211 -/
def AsElement_checked (V : Vector) (σ : Sched) (arg : Ten α) : Res (Ten α) :=
  V.asElement_checked σ arg (Ten.empty V.shape_elemvec)

/-- `AssembleDofs`, Vector.h:220-237 -/
def AssembleDofs_checked [Zero α] [Add α] (V : Vector) (arg : Ten α) : Res (Ten α) :=
  V.assembleDofs_checked arg (Ten.empty V.shape_dofval)

/-- Vector.h:747-757 -/
def assembleNode_elemvec_checked [Zero α] [Add α] (V : Vector) (σ : Sched) (arg ret : Ten α) : Res (Ten α) := do
  gassert (arg.shape = V.shape_elemvec)
  gassert (ret.shape = V.shape_nodevec)
  let dofval ← V.AssembleDofs_checked arg
  V.asNode_checked σ dofval ret

/-- rank dispatch, Vector.h:545-563 -/
def assembleNode_checked [Zero α] [Add α] (V : Vector) (σ : Sched) (arg ret : Ten α) : Res (Ten α) :=
  if arg.rank = 3 then V.assembleNode_elemvec_checked σ arg ret else .throws

/-- `AssembleNode`, Vector.h:246-263 -/
def AssembleNode_checked [Zero α] [Add α] (V : Vector) (σ : Sched) (arg : Ten α) : Res (Ten α) :=
  V.assembleNode_checked σ arg (Ten.empty V.shape_nodevec)

end Vector

namespace VectorPartitioned
variable {α : Type}

/-- Constructor, VectorPartitioned.h:72-87: that of `Vector`, then `is_unique(iip)` and `amax(iip) <= amax(dofs)` -/
def new_checked (conn dofs : Ten Nat) (iip : List Nat) : Res VectorPartitioned := do
  let _ ← Vector.new_checked conn dofs
  gassert iip.Nodup
  let P ← VectorPartitioned.new conn dofs iip
  gassert (iip.foldl max 0 + 1 ≤ P.V.ndof)
  .ok P

/-- VectorPartitioned.h:200-214 -/
def copy_u_checked (P : VectorPartitioned) (σ : Sched) (src dest : Ten α) : Res (Ten α) := do
  gassert (src.shape = [P.V.nnode, P.V.ndim])
  gassert (dest.shape = [P.V.nnode, P.V.ndim])
  P.copy_u σ src dest

/-- VectorPartitioned.h:253-267 -/
def copy_p_checked (P : VectorPartitioned) (σ : Sched) (src dest : Ten α) : Res (Ten α) := do
  gassert (src.shape = [P.V.nnode, P.V.ndim])
  gassert (dest.shape = [P.V.nnode, P.V.ndim])
  P.copy_p σ src dest

/-- VectorPartitioned.h:293-314; here and below the arguments `dofval_*` have rank one -/
def DofsFromParitioned_checked [Zero α] (P : VectorPartitioned) (σ : Sched) (u p : Ten α) : Res (Ten α) := do
  gassert (u.shape = [P.nnu])
  gassert (p.shape = [P.nnp])
  P.DofsFromParitioned σ u p

/-- VectorPartitioned.h:344-365 -/
def NodeFromPartitioned_checked (P : VectorPartitioned) (σ : Sched) (u p : Ten α) : Res (Ten α) := do
  gassert (u.shape = [P.nnu])
  gassert (p.shape = [P.nnp])
  P.NodeFromPartitioned σ u p

/-- VectorPartitioned.h:395-418 -/
def ElementFromPartitioned_checked (P : VectorPartitioned) (σ : Sched) (u p : Ten α) : Res (Ten α) := do
  gassert (u.shape = [P.nnu])
  gassert (p.shape = [P.nnp])
  P.ElementFromPartitioned σ u p

/-- VectorPartitioned.h:446-455 -/
def AsDofs_u_dofval_checked (P : VectorPartitioned) (σ : Sched) (x : Ten α) : Res (Ten α) := do
  gassert (x.shape = [P.V.ndof])
  P.AsDofs_u_dofval σ x

/-- VectorPartitioned.h:481-496 -/
def AsDofs_u_nodevec_checked [Zero α] (P : VectorPartitioned) (σ : Sched) (x : Ten α) : Res (Ten α) := do
  gassert (x.shape = [P.V.nnode, P.V.ndim])
  P.AsDofs_u_nodevec σ x

/-- VectorPartitioned.h:522-539 -/
def AsDofs_u_elemvec_checked [Zero α] (P : VectorPartitioned) (σ : Sched) (x : Ten α) : Res (Ten α) := do
  gassert (x.shape = [P.V.nelem, P.V.nne, P.V.ndim])
  P.AsDofs_u_elemvec σ x

/-- VectorPartitioned.h:567-576 -/
def AsDofs_p_dofval_checked (P : VectorPartitioned) (σ : Sched) (x : Ten α) : Res (Ten α) := do
  gassert (x.shape = [P.V.ndof])
  P.AsDofs_p_dofval σ x

/-- VectorPartitioned.h:602-617 -/
def AsDofs_p_nodevec_checked [Zero α] (P : VectorPartitioned) (σ : Sched) (x : Ten α) : Res (Ten α) := do
  gassert (x.shape = [P.V.nnode, P.V.ndim])
  P.AsDofs_p_nodevec σ x

/-- VectorPartitioned.h:643-660 -/
def AsDofs_p_elemvec_checked [Zero α] (P : VectorPartitioned) (σ : Sched) (x : Ten α) : Res (Ten α) := do
  gassert (x.shape = [P.V.nelem, P.V.nne, P.V.ndim])
  P.AsDofs_p_elemvec σ x

end VectorPartitioned
/-! The functions below assert the shapes on entry; the assertions of the functions that they call repeat these (Matrix.h:827, 850,
851, MatrixPartitioned.h:455-501) and are not written twice.  `A.size() == n` is asserted of arrays of rank one. -/

namespace SMatrix
variable {α : Type}

/-- Constructor, Matrix.h:679-693 -/
def new_checked [Zero α] (conn dofs : Ten Nat) : Res (SMatrix α) := do
  let M ← SMatrix.new conn dofs
  let a ← amax conn
  gassert (a + 1 ≤ M.V.nnode)
  gassert (M.V.ndof ≤ M.V.nnode * M.V.ndim)
  .ok M

/-- `assemble`, Matrix.h:327-332 -/
def assemble_checked [Zero α] [Add α] (M : SMatrix α) (elemmat : Ten α) : Res (SMatrix α) := do
  gassert (elemmat.shape = [M.V.nelem, M.V.nne * M.V.ndim, M.V.nne * M.V.ndim])
  M.assemble elemmat

/-- `set`, Matrix.h:737-757: the assertions on the two extents of `matrix` (an array of rank two), then `amax(cols) < m_ndof` and
`amax(rows) < m_ndof`, where the maximum of no numbers is zero -/
def set_checked [Zero α] [Add α] (M : SMatrix α) (rows cols : List Nat) (matrix : Ten α) : Res (SMatrix α) := do
  gassert (matrix.shape = [rows.length, cols.length])
  gassert (cols.foldl max 0 < M.V.ndof)
  gassert (rows.foldl max 0 < M.V.ndof)
  M.set rows cols matrix

/-- `add`, Matrix.h:766-789 -/
def add_checked [Zero α] [Add α] (M : SMatrix α) (rows cols : List Nat) (matrix : Ten α) : Res (SMatrix α) := do
  gassert (matrix.shape = [rows.length, cols.length])
  gassert (cols.foldl max 0 < M.V.ndof)
  gassert (rows.foldl max 0 < M.V.ndof)
  M.add rows cols matrix

/-- `Dot(nodevec)`, Matrix.h:363-369 -/
def dot_nodevec_checked [NonUnitalNonAssocSemiring α] (M : SMatrix α) (σ τ : Sched) (x : Ten α) : Res (Ten α) := do
  gassert (x.shape = [M.V.nnode, M.V.ndim])
  M.dot_nodevec σ τ x

/-- `Dot(dofval)`, Matrix.h:377-383 -/
def dot_dofval_checked [NonUnitalNonAssocSemiring α] (M : SMatrix α) (x : Ten α) : Res (Ten α) := do
  gassert (x.shape = [M.V.ndof])
  M.dot_dofval x

end SMatrix

/-- `MatrixSolver::Solve(A, b)` on DOF vectors, Matrix.h:122-129 -/
def SolverState.solve_dofval_checked {α : Type} [Zero α] (S : LinSolver α) (s : SolverState α) (M : SMatrix α) (b : Ten α) :
    Res (SolverState α × SMatrix α × Ten α) := do
  gassert (b.shape = [M.V.ndof])
  s.solve_dofval S M b

/-- `MatrixSolver::Solve(A, b)` on node vectors, Matrix.h:106-113 -/
def SolverState.solve_nodevec_checked {α : Type} [Zero α] (S : LinSolver α) (s : SolverState α) (M : SMatrix α) (σ τ : Sched)
    (b : Ten α) : Res (SolverState α × SMatrix α × Ten α) := do
  gassert (b.shape = [M.V.nnode, M.V.ndim])
  s.solve_nodevec S M σ τ b

namespace MatrixPartitioned
variable {α : Type}

/-- Constructor, MatrixPartitioned.h:87-121: the assertions 102-105 follow the tables and precede the renumbering 107-114 -/
def new_checked [Zero α] (conn dofs : Ten Nat) (iip : List Nat) : Res (MatrixPartitioned α) := do
  let _ ← VectorPartitioned.new_checked conn dofs iip
  MatrixPartitioned.new conn dofs iip

/-- `assemble`, Matrix.h:327-332 and MatrixPartitioned.h:157-210 -/
def assemble_checked [Zero α] [Add α] (M : MatrixPartitioned α) (elemmat : Ten α) : Res (MatrixPartitioned α) := do
  gassert (elemmat.shape = [M.P.V.nelem, M.P.V.nne * M.P.V.ndim, M.P.V.nne * M.P.V.ndim])
  M.assemble elemmat

/-- `set`, MatrixPartitioned.h:220-261 -/
def set_checked [Zero α] [Add α] (M : MatrixPartitioned α) (rows cols : List Nat) (matrix : Ten α) :
    Res (MatrixPartitioned α) := do
  gassert (matrix.shape = [rows.length, cols.length])
  gassert (cols.foldl max 0 < M.P.V.ndof)
  gassert (rows.foldl max 0 < M.P.V.ndof)
  M.set rows cols matrix

/-- `add`, MatrixPartitioned.h:270-320 -/
def add_checked [Zero α] [Add α] (M : MatrixPartitioned α) (rows cols : List Nat) (matrix : Ten α) :
    Res (MatrixPartitioned α) := do
  gassert (matrix.shape = [rows.length, cols.length])
  gassert (cols.foldl max 0 < M.P.V.ndof)
  gassert (rows.foldl max 0 < M.P.V.ndof)
  M.add rows cols matrix

/-- `Dot(nodevec)`, Matrix.h:363-369 -/
def dot_nodevec_checked [NonUnitalNonAssocSemiring α] (M : MatrixPartitioned α) (σ : Nat → Sched) (x : Ten α) : Res (Ten α) := do
  gassert (x.shape = [M.P.V.nnode, M.P.V.ndim])
  M.dot_nodevec σ x

/-- `Dot(dofval)`, Matrix.h:377-383 -/
def dot_dofval_checked [NonUnitalNonAssocSemiring α] (M : MatrixPartitioned α) (σ : Nat → Sched) (x : Ten α) : Res (Ten α) := do
  gassert (x.shape = [M.P.V.ndof])
  M.dot_dofval σ x

/-- `Reaction(x, b)` on node vectors, Matrix.h:489-497 -/
def reaction_nodevec_checked [NonUnitalNonAssocSemiring α] (M : MatrixPartitioned α) (σ : Nat → Sched) (x b : Ten α) :
    Res (Ten α) := do
  gassert (x.shape = [M.P.V.nnode, M.P.V.ndim])
  gassert (b.shape = [M.P.V.nnode, M.P.V.ndim])
  M.reaction_nodevec σ x b

/-- `Reaction(x, b)` on DOF vectors, Matrix.h:507-515 -/
def reaction_dofval_checked [NonUnitalNonAssocSemiring α] (M : MatrixPartitioned α) (σ : Nat → Sched) (x b : Ten α) :
    Res (Ten α) := do
  gassert (x.shape = [M.P.V.ndof])
  gassert (b.shape = [M.P.V.ndof])
  M.reaction_dofval σ x b

/-- `Reaction_p(x_u, x_p)`, Matrix.h:553-561 and MatrixPartitioned.h:436-449 -/
def reaction_p_checked [NonUnitalNonAssocSemiring α] (M : MatrixPartitioned α) (xu xp : Ten α) : Res (Ten α) := do
  gassert (xu.shape = [M.P.nnu])
  gassert (xp.shape = [M.P.nnp])
  M.reaction_p xu xp

/-- `Solve(A, b, x)` on node vectors, Matrix.h:163-172 -/
def solve_nodevec_checked [NonUnitalNonAssocRing α] (S : LinSolver α) (s : SolverState α) (M : MatrixPartitioned α)
    (σ : Nat → Sched) (b x : Ten α) : Res (SolverState α × MatrixPartitioned α × Ten α) := do
  gassert (b.shape = [M.P.V.nnode, M.P.V.ndim])
  gassert (x.shape = [M.P.V.nnode, M.P.V.ndim])
  M.solve_nodevec S s σ b x

/-- `Solve(A, b, x)` on DOF vectors, Matrix.h:182-191 -/
def solve_dofval_checked [NonUnitalNonAssocRing α] (S : LinSolver α) (s : SolverState α) (M : MatrixPartitioned α)
    (σ : Nat → Sched) (b x : Ten α) : Res (SolverState α × MatrixPartitioned α × Ten α) := do
  gassert (b.shape = [M.P.V.ndof])
  gassert (x.shape = [M.P.V.ndof])
  M.solve_dofval S s σ b x

/-- `Solve_u(A, b_u, x_p)`, MatrixPartitioned.h:544-556 -/
def solve_u_checked [NonUnitalNonAssocRing α] (S : LinSolver α) (s : SolverState α) (M : MatrixPartitioned α) (bu xp : Ten α) :
    Res (SolverState α × MatrixPartitioned α × Ten α) := do
  gassert (bu.shape = [M.P.nnu])
  gassert (xp.shape = [M.P.nnp])
  M.solve_u S s bu xp

end MatrixPartitioned

namespace MatrixDiagonal
variable {α : Type}

/-- `assemble`, Matrix.h:327-332 and MatrixDiagonal.h:151-167: `isDiagonal` compares with `eps` -/
def assemble_checked [LinearOrder α] [Neg α] [Zero α] [Add α] (eps : α) (M : MatrixDiagonal α) (elemmat : Ten α) :
    Res (MatrixDiagonal α) := do
  gassert (elemmat.shape = [M.V.nelem, M.V.nne * M.V.ndim, M.V.nne * M.V.ndim])
  let b ← Element.isDiagonal eps elemmat
  gassert (b = true)
  M.assemble elemmat

/-- `set`, MatrixDiagonal.h:185-190 -/
def set_checked (M : MatrixDiagonal α) (a : Ten α) : Res (MatrixDiagonal α) := do
  gassert (a.shape = [M.V.ndof])
  M.set a

/-- `Dot(nodevec)`, Matrix.h:363-369 -/
def dot_nodevec_checked [Mul α] (M : MatrixDiagonal α) (σ : Sched) (x : Ten α) : Res (Ten α) := do
  gassert (x.shape = [M.V.nnode, M.V.ndim])
  M.dot_nodevec σ x

/-- `Dot(dofval)`, Matrix.h:377-383 -/
def dot_dofval_checked [Zero α] [Mul α] (M : MatrixDiagonal α) (x : Ten α) : Res (Ten α) := do
  gassert (x.shape = [M.V.ndof])
  M.dot_dofval x

/-- `Solve(b)` on node vectors, MatrixDiagonal.h:53-58, 237-250 -/
def solve_nodevec_checked [Zero α] [One α] [Mul α] [Div α] (M : MatrixDiagonal α) (σ : Nat → Sched) (b : Ten α) :
    Res (MatrixDiagonal α × Ten α) := do
  gassert (b.shape = [M.V.nnode, M.V.ndim])
  M.solve_nodevec σ b

/-- `Solve(b)` on DOF vectors, MatrixDiagonal.h:70-75, 253-259 -/
def solve_dofval_checked [Zero α] [One α] [Mul α] [Div α] (M : MatrixDiagonal α) (σ : Sched) (b : Ten α) :
    Res (MatrixDiagonal α × Ten α) := do
  gassert (b.shape = [M.V.ndof])
  M.solve_dofval σ b

end MatrixDiagonal

namespace MatrixDiagonalPartitioned
variable {α : Type}

/-- Constructor, MatrixDiagonalPartitioned.h:42-69: the assertions of lines 56-59 are those of `VectorPartitioned` (in another order) -/
def new_checked (conn dofs : Ten Nat) (iip : List Nat) : Res (MatrixDiagonalPartitioned α) := do
  let _ ← VectorPartitioned.new_checked conn dofs iip
  MatrixDiagonalPartitioned.new conn dofs iip

/-- `assemble`, MatrixDiagonalPartitioned.h:73-98 -/
def assemble_checked [LinearOrder α] [Neg α] [Zero α] [Add α] (eps : α) (M : MatrixDiagonalPartitioned α) (elemmat : Ten α) :
    Res (MatrixDiagonalPartitioned α) := do
  gassert (elemmat.shape = [M.P.V.nelem, M.P.V.nne * M.P.V.ndim, M.P.V.nne * M.P.V.ndim])
  let b ← Element.isDiagonal eps elemmat
  gassert (b = true)
  M.assemble elemmat

/-- `set`, MatrixDiagonalPartitioned.h:121-136 -/
def set_checked (M : MatrixDiagonalPartitioned α) (σ : Nat → Sched) (a : Ten α) : Res (MatrixDiagonalPartitioned α) := do
  gassert (a.shape = [M.P.V.ndof])
  M.set σ a

/-- `Dot(nodevec)`, MatrixDiagonalPartitioned.h:189-208 -/
def dot_nodevec_checked [Mul α] (M : MatrixDiagonalPartitioned α) (σ : Sched) (x : Ten α) : Res (Ten α) := do
  gassert (x.shape = [M.P.V.nnode, M.P.V.ndim])
  M.dot_nodevec σ x

/-- `Dot(dofval)`, MatrixDiagonalPartitioned.h:211-225 -/
def dot_dofval_checked [Mul α] (M : MatrixDiagonalPartitioned α) (σ : Nat → Sched) (x : Ten α) : Res (Ten α) := do
  gassert (x.shape = [M.P.V.ndof])
  M.dot_dofval σ x

/-- `Dot_u(x_u, x_p)`, MatrixDiagonalPartitioned.h:235-264 -/
def dot_u_checked [Mul α] (M : MatrixDiagonalPartitioned α) (σ : Sched) (xu xp : Ten α) : Res (Ten α) := do
  gassert (xu.shape = [M.P.nnu])
  gassert (xp.shape = [M.P.nnp])
  M.dot_u σ xu xp

/-- `Dot_p(x_u, x_p)`, MatrixDiagonalPartitioned.h:272-302 -/
def dot_p_checked [Mul α] (M : MatrixDiagonalPartitioned α) (σ : Sched) (xu xp : Ten α) : Res (Ten α) := do
  gassert (xu.shape = [M.P.nnu])
  gassert (xp.shape = [M.P.nnp])
  M.dot_p σ xu xp

/-- `solve(b, x)` on node vectors, MatrixDiagonalPartitioned.h:306-321 -/
def solve_nodevec_checked [Zero α] [One α] [Mul α] [Div α] (M : MatrixDiagonalPartitioned α) (σ : Nat → Sched) (b x : Ten α) :
    Res (MatrixDiagonalPartitioned α × Ten α) := do
  gassert (b.shape = [M.P.V.nnode, M.P.V.ndim])
  gassert (x.shape = [M.P.V.nnode, M.P.V.ndim])
  M.solve_nodevec σ b x

/-- `solve(b, x)` on DOF vectors, MatrixDiagonalPartitioned.h:324-335 -/
def solve_dofval_checked [Zero α] [One α] [Mul α] [Div α] (M : MatrixDiagonalPartitioned α) (σ : Nat → Sched) (b x : Ten α) :
    Res (MatrixDiagonalPartitioned α × Ten α) := do
  gassert (b.shape = [M.P.V.ndof])
  gassert (x.shape = [M.P.V.ndof])
  M.solve_dofval σ b x

/-- `Solve_u(b_u, x_p)`, MatrixDiagonalPartitioned.h:344-374 -/
def solve_u_checked [Zero α] [One α] [Mul α] [Div α] (M : MatrixDiagonalPartitioned α) (σ : Nat → Sched) (bu xp : Ten α) :
    Res (MatrixDiagonalPartitioned α × Ten α) := do
  gassert (bu.shape = [M.P.nnu])
  gassert (xp.shape = [M.P.nnp])
  M.solve_u σ bu xp

/-- `Reaction(x, b)` on node vectors, MatrixDiagonalPartitioned.h:378-391 -/
def reaction_nodevec_checked [Mul α] (M : MatrixDiagonalPartitioned α) (σ : Sched) (x b : Ten α) : Res (Ten α) := do
  gassert (x.shape = [M.P.V.nnode, M.P.V.ndim])
  gassert (b.shape = [M.P.V.nnode, M.P.V.ndim])
  M.reaction_nodevec σ x b

/-- `Reaction(x, b)` on DOF vectors, MatrixDiagonalPartitioned.h:394-403 -/
def reaction_dofval_checked [Mul α] (M : MatrixDiagonalPartitioned α) (σ : Sched) (x b : Ten α) : Res (Ten α) := do
  gassert (x.shape = [M.P.V.ndof])
  gassert (b.shape = [M.P.V.ndof])
  M.reaction_dofval σ x b

/-- `reaction_p(x_u, x_p, b_p)`, MatrixDiagonalPartitioned.h:405-421 -/
def reaction_p_checked [Mul α] (M : MatrixDiagonalPartitioned α) (σ : Sched) (xu xp bp : Ten α) : Res (Ten α) := do
  gassert (xu.shape = [M.P.nnu])
  gassert (xp.shape = [M.P.nnp])
  gassert (bp.shape = [M.P.nnp])
  M.reaction_p σ xu xp bp

end MatrixDiagonalPartitioned

namespace VectorPartitionedTyings
variable {α : Type}

/-- Constructor, VectorPartitionedTyings.h:91-111: that of `Vector`, then the assertions of lines 94, 95, 109 and 110 (in line 110
`m_ndof` is compared to what it was computed from, Vector.h:41). -/
def new_checked (conn dofs : Ten Nat) (Cdu Cdp Cdi : Mat α) : Res (VectorPartitionedTyings α) := do
  let _ ← Vector.new_checked conn dofs
  gassert (Cdu.nr = Cdp.nr)
  gassert (Cdi.nr = Cdp.nr)
  let P ← VectorPartitionedTyings.new conn dofs Cdu Cdp Cdi
  gassert (Cdi.nc = P.nni)
  let a ← amax P.V.dofs
  gassert (P.V.ndof = a + 1)
  .ok P

/-- `copy_p`, VectorPartitionedTyings.h:188-199; arrays of rank one -/
def copy_p_checked (P : VectorPartitionedTyings α) (σ : Sched) (src dest : Ten α) : Res (Ten α) := do
  gassert (src.rank = 1)
  gassert (dest.rank = 1)
  gassert (src.shape.prod = P.V.ndof ∨ src.shape.prod = P.nni)
  gassert (dest.shape.prod = P.V.ndof ∨ dest.shape.prod = P.nni)
  P.copy_p σ src dest

/-- `AsDofs_i`, VectorPartitionedTyings.h:209-251 (the assertion in `Eigen_asDofs_d`, line 60, is the same as that of line 226) -/
def AsDofs_i_checked [NonUnitalNonAssocSemiring α] (P : VectorPartitionedTyings α) (σ : Nat → Sched) (x : Ten α) :
    Res (Ten α) := do
  gassert (x.shape = P.V.shape_nodevec)
  P.AsDofs_i σ x

end VectorPartitionedTyings
end GF
