import Verif.Model.VectorPartitioned
import Verif.Model.Matrix

/-! Model of `include/GooseFEM/MatrixPartitioned.h` (classes `MatrixPartitioned` and
`MatrixPartitionedSolver`).  A call that contains several parallel loops takes a family `σ` of
schedules, one per loop. -/

namespace GF

/-- entry-wise combination of two Eigen vectors; a size mismatch is undefined behaviour (Eigen
asserts it) -/
def vzip {α : Type} [Zero α] (f : α → α → α) (x y : Ten α) : Res (Ten α) :=
  if x.shape = y.shape then do
    let a ← x.flat
    let b ← y.flat
    .ok (Ten.of x.shape fun ix => f (a.getD (ix.getD 0 0) 0) (b.getD (ix.getD 0 0) 0))
  else .ub

/-- the four triplet lists `m_Tuu, m_Tup, m_Tpu, m_Tpp`, MatrixPartitioned.h:63-66 -/
structure Trip4 (α : Type) where
  uu : List (Trip α)
  up : List (Trip α)
  pu : List (Trip α)
  pp : List (Trip α)

/-- the four blocks `m_Auu, m_Aup, m_Apu, m_App`, MatrixPartitioned.h:58-61 -/
structure Mat4 (α : Type) where
  uu : Mat α
  up : Mat α
  pu : Mat α
  pp : Mat α

namespace Trip4
variable {α : Type}

def nil : Trip4 α := ⟨[], [], [], []⟩

/-- the `if`-chain of MatrixPartitioned.h:177-198, 241-252 and 296-307: append one entry to the block
it belongs to -/
def push (nnu : Nat) (T : Trip4 α) (t : Trip α) : Trip4 α :=
  if t.r < nnu ∧ t.c < nnu then { T with uu := T.uu ++ [⟨t.r, t.c, t.v⟩] }
  else if t.r < nnu then { T with up := T.up ++ [⟨t.r, t.c - nnu, t.v⟩] }
  else if t.c < nnu then { T with pu := T.pu ++ [⟨t.r - nnu, t.c, t.v⟩] }
  else { T with pp := T.pp ++ [⟨t.r - nnu, t.c - nnu, t.v⟩] }

/-- the four `setFromTriplets` calls, MatrixPartitioned.h:205-208, 256-259 and 311-314 -/
def toMat4 [Zero α] [Add α] (nnu nnp : Nat) (T : Trip4 α) : Res (Mat4 α) := do
  let uu ← Mat.setFromTriplets nnu nnu T.uu
  let up ← Mat.setFromTriplets nnu nnp T.up
  let pu ← Mat.setFromTriplets nnp nnu T.pu
  let pp ← Mat.setFromTriplets nnp nnp T.pp
  .ok ⟨uu, up, pu, pp⟩

end Trip4

/-- members of `MatrixPartitioned`, MatrixPartitioned.h:58-70 and Matrix.h:193-205, 418-422; the mesh
tables, `iiu`, `iip` and `part` are those of a `VectorPartitioned` -/
structure MatrixPartitioned (α : Type) where
  P : VectorPartitioned
  part1d : Ten Nat
  A : Mat4 α
  changed : Bool

namespace MatrixPartitioned
variable {α : Type}

/-- Constructor, MatrixPartitioned.h:87-121 (lines 93-111 as in `VectorPartitioned`) -/
def new [Zero α] (conn dofs : Ten Nat) (iip : List Nat) : Res (MatrixPartitioned α) := do
  let P ← VectorPartitioned.new conn dofs iip
  let part1d ← Reorder.apply [P.iiu, P.iip] (Ten.of [P.V.ndof] fun ix => ix.getD 0 0)
  .ok ⟨P, part1d, ⟨Mat.zero P.nnu P.nnu, Mat.zero P.nnu P.nnp, Mat.zero P.nnp P.nnu,
    Mat.zero P.nnp P.nnp⟩, true⟩

/-- the loop of `assemble_impl`, MatrixPartitioned.h:166-203 -/
def assembleLoop (P : VectorPartitioned) (elemmat : Ten α) : Res (Trip4 α) :=
  forEach (it5 P.V.nelem P.V.nne P.V.ndim P.V.nne P.V.ndim) (fun T x => do
    let (e, m, i, n, j) := x
    let cm ← P.V.conn.get [e, m]
    let di ← P.part.get [cm, i]
    let cn ← P.V.conn.get [e, n]
    let dj ← P.part.get [cn, j]
    let v ← elemmat.get [e, m * P.V.ndim + i, n * P.V.ndim + j]
    .ok (T.push P.nnu ⟨di, dj, v⟩)) Trip4.nil

/-- `assemble`, MatrixPartitioned.h:157-210 -/
def assemble [Zero α] [Add α] (M : MatrixPartitioned α) (elemmat : Ten α) :
    Res (MatrixPartitioned α) := do
  let T ← assembleLoop M.P elemmat
  let A ← T.toMat4 M.P.nnu M.P.nnp
  .ok { M with A := A, changed := true }

/-- the loop shared by `set` and `add`, MatrixPartitioned.h:235-254 and 290-309 -/
def blockLoop (M : MatrixPartitioned α) (rows cols : List Nat) (matrix : Ten α) : Res (Trip4 α) :=
  forEach (it2 rows.length cols.length) (fun T x => do
    let r ← lget rows x.1
    let di ← M.part1d.get [r]
    let c ← lget cols x.2
    let dj ← M.part1d.get [c]
    let v ← matrix.get [x.1, x.2]
    .ok (T.push M.P.nnu ⟨di, dj, v⟩)) Trip4.nil

/-- `set`, MatrixPartitioned.h:220-261 -/
def set [Zero α] [Add α] (M : MatrixPartitioned α) (rows cols : List Nat) (matrix : Ten α) :
    Res (MatrixPartitioned α) := do
  let T ← M.blockLoop rows cols matrix
  let A ← T.toMat4 M.P.nnu M.P.nnp
  .ok { M with A := A, changed := true }

/-- `add`, MatrixPartitioned.h:270-320 -/
def add [Zero α] [Add α] (M : MatrixPartitioned α) (rows cols : List Nat) (matrix : Ten α) :
    Res (MatrixPartitioned α) := do
  let T ← M.blockLoop rows cols matrix
  let B ← T.toMat4 M.P.nnu M.P.nnp
  .ok { M with A := ⟨M.A.uu.add B.uu, M.A.up.add B.up, M.A.pu.add B.pu, M.A.pp.add B.pp⟩,
               changed := true }

/-- one loop of `todense_impl`: write the entries of a block at the given rows and columns.
Simplification: the loop over stored entries is written as a loop over all entries. -/
def denseBlock (rows cols : List Nat) (B : Mat α) (ret : Ten α) : Res (Ten α) :=
  forEach (it2 B.nr B.nc) (fun ret rc => do
    let r ← lget rows rc.1
    let c ← lget cols rc.2
    ret.set [r, c] (B.e rc.1 rc.2)) ret

/-- `Todense`, MatrixPartitioned.h:324-351 and Matrix.h:338-343 -/
def todense [Zero α] (M : MatrixPartitioned α) : Res (Ten α) := do
  let r ← denseBlock M.P.iiu M.P.iiu M.A.uu (Ten.full [M.P.V.ndof, M.P.V.ndof] 0)
  let r ← denseBlock M.P.iiu M.P.iip M.A.up r
  let r ← denseBlock M.P.iip M.P.iiu M.A.pu r
  denseBlock M.P.iip M.P.iip M.A.pp r

/-- `m_Auu * X_u + m_Aup * X_p`, MatrixPartitioned.h:361, 386 -/
def rowU [NonUnitalNonAssocSemiring α] (M : MatrixPartitioned α) (xu xp : Ten α) : Res (Ten α) := do
  let a ← M.A.uu.mulVec xu
  let b ← M.A.up.mulVec xp
  vzip (· + ·) a b

/-- `m_Apu * X_u + m_App * X_p`, MatrixPartitioned.h:362, 387, 408, 428, 446-448 -/
def rowP [NonUnitalNonAssocSemiring α] (M : MatrixPartitioned α) (xu xp : Ten α) : Res (Ten α) := do
  let a ← M.A.pu.mulVec xu
  let b ← M.A.pp.mulVec xp
  vzip (· + ·) a b

/-- the parallel loop `ret(ii(d)) = val(d)`, MatrixPartitioned.h:390-397, 431-433, 609-611 -/
def putDofs (σ : Sched) (ii : List Nat) (n : Nat) (val ret : Ten α) : Res (Ten α) :=
  forEach (σ.run (it1 n)) (fun ret d => do
    let k ← lget ii d
    let a ← val.get [d]
    ret.set [k] a) ret

/-- `Dot(dofval)`, MatrixPartitioned.h:378-398; `AsDofs_u/p(dofval)` (lines 453-465, 485-497) have the
text of `VectorPartitioned` -/
def dot_dofval [NonUnitalNonAssocSemiring α] (M : MatrixPartitioned α) (σ : Nat → Sched)
    (x : Ten α) : Res (Ten α) := do
  let xu ← M.P.AsDofs_u_dofval (σ 0) x
  let xp ← M.P.AsDofs_p_dofval (σ 1) x
  let bu ← M.rowU xu xp
  let bp ← M.rowP xu xp
  let r ← putDofs (σ 2) M.P.iiu M.P.nnu bu (Ten.empty [M.P.V.ndof])
  putDofs (σ 3) M.P.iip M.P.nnp bp r

/-- `Dot(nodevec)`, MatrixPartitioned.h:354-375; `AsDofs_u/p(nodevec)` (lines 467-483, 499-515) have
the text of `VectorPartitioned`, and so has the loop 364-374 (`NodeFromPartitioned`) -/
def dot_nodevec [NonUnitalNonAssocSemiring α] (M : MatrixPartitioned α) (σ : Nat → Sched)
    (x : Ten α) : Res (Ten α) := do
  let xu ← M.P.AsDofs_u_nodevec (σ 0) x
  let xp ← M.P.AsDofs_p_nodevec (σ 1) x
  let bu ← M.rowU xu xp
  let bp ← M.rowP xu xp
  M.P.NodeFromPartitioned (σ 2) bu bp

/-- `Reaction(x, b)` on DOF vectors, MatrixPartitioned.h:421-434 and Matrix.h:507-515 -/
def reaction_dofval [NonUnitalNonAssocSemiring α] (M : MatrixPartitioned α) (σ : Nat → Sched)
    (x b : Ten α) : Res (Ten α) := do
  let xu ← M.P.AsDofs_u_dofval (σ 0) x
  let xp ← M.P.AsDofs_p_dofval (σ 1) x
  let bp ← M.rowP xu xp
  putDofs (σ 2) M.P.iip M.P.nnp bp b

/-- `Reaction(x, b)` on node vectors, MatrixPartitioned.h:401-418 and Matrix.h:489-497 -/
def reaction_nodevec [NonUnitalNonAssocSemiring α] (M : MatrixPartitioned α) (σ : Nat → Sched)
    (x b : Ten α) : Res (Ten α) := do
  let xu ← M.P.AsDofs_u_nodevec (σ 0) x
  let xp ← M.P.AsDofs_p_nodevec (σ 1) x
  let bp ← M.rowP xu xp
  forEach ((σ 2).run (it2 M.P.V.nnode M.P.V.ndim)) (fun ret mi => do
    let k ← M.P.part.get [mi.1, mi.2]
    if M.P.nnu ≤ k then
      let a ← bp.get [k - M.P.nnu]
      ret.set [mi.1, mi.2] a
    else .ok ret) b

/-- `Reaction_p(x_u, x_p)`, MatrixPartitioned.h:436-449 and Matrix.h:553-561 -/
def reaction_p [NonUnitalNonAssocSemiring α] (M : MatrixPartitioned α) (xu xp : Ten α) :
    Res (Ten α) := M.rowP xu xp

/-- `m_solver.solve(B_u - A.m_Aup * X_p)`, MatrixPartitioned.h:588, 606, 619-623 -/
def solveRhs [NonUnitalNonAssocRing α] (S : LinSolver α) (s : SolverState α)
    (M : MatrixPartitioned α) (bu xp : Ten α) : Res (Ten α) := do
  let w ← M.A.up.mulVec xp
  let rhs ← vzip (· - ·) bu w
  s.solve S rhs

/-- `Solve(A, b, x)` on node vectors, MatrixPartitioned.h:583-598 and Matrix.h:163-172 -/
def solve_nodevec [NonUnitalNonAssocRing α] (S : LinSolver α) (s : SolverState α)
    (M : MatrixPartitioned α) (σ : Nat → Sched) (b x : Ten α) :
    Res (SolverState α × MatrixPartitioned α × Ten α) := do
  let (s', ch) := s.factorize M.changed M.A.uu
  let bu ← M.P.AsDofs_u_nodevec (σ 0) b
  let xp ← M.P.AsDofs_p_nodevec (σ 1) x
  let xu ← M.solveRhs S s' bu xp
  let r ← forEach ((σ 2).run (it2 M.P.V.nnode M.P.V.ndim)) (fun ret mi => do
    let k ← M.P.part.get [mi.1, mi.2]
    if k < M.P.nnu then
      let a ← xu.get [k]
      ret.set [mi.1, mi.2] a
    else .ok ret) x
  .ok (s', { M with changed := ch }, r)

/-- `Solve(A, b, x)` on DOF vectors, MatrixPartitioned.h:601-612 and Matrix.h:182-191 -/
def solve_dofval [NonUnitalNonAssocRing α] (S : LinSolver α) (s : SolverState α)
    (M : MatrixPartitioned α) (σ : Nat → Sched) (b x : Ten α) :
    Res (SolverState α × MatrixPartitioned α × Ten α) := do
  let (s', ch) := s.factorize M.changed M.A.uu
  let bu ← M.P.AsDofs_u_dofval (σ 0) b
  let xp ← M.P.AsDofs_p_dofval (σ 1) x
  let xu ← M.solveRhs S s' bu xp
  let r ← putDofs (σ 2) M.P.iiu M.P.nnu xu x
  .ok (s', { M with changed := ch }, r)

/-- `Solve_u(A, b_u, x_p)`, MatrixPartitioned.h:544-556, 614-624 -/
def solve_u [NonUnitalNonAssocRing α] (S : LinSolver α) (s : SolverState α)
    (M : MatrixPartitioned α) (bu xp : Ten α) :
    Res (SolverState α × MatrixPartitioned α × Ten α) := do
  let (s', ch) := s.factorize M.changed M.A.uu
  let xu ← M.solveRhs S s' bu xp
  .ok (s', { M with changed := ch }, xu)

end MatrixPartitioned
end GF
