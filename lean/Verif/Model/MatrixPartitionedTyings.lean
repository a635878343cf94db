import Verif.Model.VectorPartitionedTyings
import Verif.Model.MatrixPartitioned

/-! Model of `include/GooseFEM/MatrixPartitionedTyings.h`.  The nine blocks (and the nine triplet
lists) are indexed by two groups: `0` = unknown, `1` = prescribed, `2` = dependent. -/

namespace GF

/-- `A * B` (Eigen); a size mismatch is undefined behaviour (Eigen asserts it) -/
def Mat.mul {α : Type} [NonUnitalNonAssocSemiring α] (A B : Mat α) : Res (Mat α) :=
  if A.nc = B.nr then
    .ok ⟨A.nr, B.nc, fun r c => ∑ k ∈ Finset.range A.nc, A.e r k * B.e k c⟩
  else .ub

/-- `m_Tuu, m_Tup, ...`, MatrixPartitionedTyings.h:57-65 -/
abbrev Trip9 (α : Type) := Nat → Nat → List (Trip α)

/-- `push_back` on one of the nine lists -/
def Trip9.app {α : Type} (T : Trip9 α) (g h : Nat) (t : Trip α) : Trip9 α :=
  fun g' h' => if g' = g ∧ h' = h then T g' h' ++ [t] else T g' h'

/-- the `if`-chain of MatrixPartitionedTyings.h:236-288 -/
def Trip9.push {α : Type} (nnu nni : Nat) (T : Trip9 α) (t : Trip α) : Trip9 α :=
  if t.r < nnu ∧ t.c < nnu then T.app 0 0 ⟨t.r, t.c, t.v⟩
  else if t.r < nnu ∧ t.c < nni then T.app 0 1 ⟨t.r, t.c - nnu, t.v⟩
  else if t.r < nnu then T.app 0 2 ⟨t.r, t.c - nni, t.v⟩
  else if t.r < nni ∧ t.c < nnu then T.app 1 0 ⟨t.r - nnu, t.c, t.v⟩
  else if t.r < nni ∧ t.c < nni then T.app 1 1 ⟨t.r - nnu, t.c - nnu, t.v⟩
  else if t.r < nni then T.app 1 2 ⟨t.r - nnu, t.c - nni, t.v⟩
  else if t.c < nnu then T.app 2 0 ⟨t.r - nni, t.c, t.v⟩
  else if t.c < nni then T.app 2 1 ⟨t.r - nni, t.c - nnu, t.v⟩
  else T.app 2 2 ⟨t.r - nni, t.c - nni, t.v⟩

/-- the blocks `m_Auu ... m_Add`, MatrixPartitionedTyings.h:44-52 -/
structure Mat9 (α : Type) where
  uu : Mat α
  up : Mat α
  pu : Mat α
  pp : Mat α
  ud : Mat α
  pd : Mat α
  du : Mat α
  dp : Mat α
  dd : Mat α

/-- the nine `setFromTriplets` calls, MatrixPartitionedTyings.h:295-303 -/
def Trip9.toMat9 {α : Type} [Zero α] [Add α] (nnu nnp nnd : Nat) (T : Trip9 α) : Res (Mat9 α) := do
  let uu ← Mat.setFromTriplets nnu nnu (T 0 0)
  let up ← Mat.setFromTriplets nnu nnp (T 0 1)
  let pu ← Mat.setFromTriplets nnp nnu (T 1 0)
  let pp ← Mat.setFromTriplets nnp nnp (T 1 1)
  let ud ← Mat.setFromTriplets nnu nnd (T 0 2)
  let pd ← Mat.setFromTriplets nnp nnd (T 1 2)
  let du ← Mat.setFromTriplets nnd nnu (T 2 0)
  let dp ← Mat.setFromTriplets nnd nnp (T 2 1)
  let dd ← Mat.setFromTriplets nnd nnd (T 2 2)
  .ok ⟨uu, up, pu, pp, ud, pd, du, dp, dd⟩

/-- members, MatrixPartitionedTyings.h:44-69 and Matrix.h:193-205, 418-422, 587-591; `V` holds the mesh
tables with `ndof = nni + nnd`.  `m_ACpu`, `m_ACpp`, `m_Cpd` are never read and left out. -/
structure MatrixPartitionedTyings (α : Type) where
  V : Vector
  nnu : Nat
  nnp : Nat
  nni : Nat
  nnd : Nat
  iiu : List Nat
  iip : List Nat
  iii : List Nat
  iid : List Nat
  Cdu : Mat α
  Cdp : Mat α
  Cud : Mat α
  A : Mat9 α
  ACuu : Mat α
  ACup : Mat α
  changed : Bool

namespace MatrixPartitionedTyings
variable {α : Type}

/-- Constructor, MatrixPartitionedTyings.h:86-135 (assertions off) -/
def new [Zero α] (conn dofs : Ten Nat) (Cdu Cdp : Mat α) : Res (MatrixPartitionedTyings α) :=
  match conn.shape, dofs.shape with
  | [nelem, nne], [nnode, ndim] =>
    let nnu := Cdu.nc
    let nnp := Cdp.nc
    let nnd := Cdp.nr
    let nni := nnu + nnp
    .ok ⟨⟨conn, dofs, nelem, nne, nnode, ndim, nni + nnd⟩, nnu, nnp, nni, nnd, List.range nnu,
      (List.range nnp).map (nnu + ·), List.range nni, (List.range nnd).map (nni + ·), Cdu, Cdp,
      Cdu.transpose, ⟨Mat.zero nnu nnu, Mat.zero nnu nnp, Mat.zero nnp nnu, Mat.zero nnp nnp,
      Mat.zero nnu nnd, Mat.zero nnp nnd, Mat.zero nnd nnu, Mat.zero nnd nnp, Mat.zero nnd nnd⟩,
      Mat.zero 0 0, Mat.zero 0 0, true⟩
  | _, _ => .ub

/-- the loop of `assemble_impl`, MatrixPartitionedTyings.h:225-293 -/
def assembleLoop (M : MatrixPartitionedTyings α) (elemmat : Ten α) : Res (Trip9 α) :=
  forEach (it5 M.V.nelem M.V.nne M.V.ndim M.V.nne M.V.ndim) (fun T x => do
    let (e, m, i, n, j) := x
    let cm ← M.V.conn.get [e, m]
    let di ← M.V.dofs.get [cm, i]
    let cn ← M.V.conn.get [e, n]
    let dj ← M.V.dofs.get [cn, j]
    let v ← elemmat.get [e, m * M.V.ndim + i, n * M.V.ndim + j]
    .ok (Trip9.push M.nnu M.nni T ⟨di, dj, v⟩)) (fun _ _ => [])

/-- `assemble`, MatrixPartitionedTyings.h:210-305 -/
def assemble [Zero α] [Add α] (M : MatrixPartitionedTyings α) (elemmat : Ten α) :
    Res (MatrixPartitionedTyings α) := do
  let T ← M.assembleLoop elemmat
  let A ← T.toMat9 M.nnu M.nnp M.nnd
  .ok { M with A := A, changed := true }

/-- `Todense`, MatrixPartitionedTyings.h:308-366 and Matrix.h:338-343 -/
def todense [Zero α] (M : MatrixPartitionedTyings α) : Res (Ten α) := do
  let r ← MatrixPartitioned.denseBlock M.iiu M.iiu M.A.uu (Ten.full [M.V.ndof, M.V.ndof] 0)
  let r ← MatrixPartitioned.denseBlock M.iiu M.iip M.A.up r
  let r ← MatrixPartitioned.denseBlock M.iip M.iiu M.A.pu r
  let r ← MatrixPartitioned.denseBlock M.iip M.iip M.A.pp r
  let r ← MatrixPartitioned.denseBlock M.iid M.iiu M.A.du r
  let r ← MatrixPartitioned.denseBlock M.iid M.iip M.A.dp r
  let r ← MatrixPartitioned.denseBlock M.iiu M.iid M.A.ud r
  let r ← MatrixPartitioned.denseBlock M.iip M.iid M.A.pd r
  MatrixPartitioned.denseBlock M.iid M.iid M.A.dd r

/-- `dot` and `reaction` in all variants, MatrixPartitionedTyings.h:368-410 -/
def dot (_M : MatrixPartitionedTyings α) (_x : Ten α) : Res (Ten α) := .throws
/-- MatrixPartitionedTyings.h:384-410 -/
def reaction (_M : MatrixPartitionedTyings α) (_x _b : Ten α) : Res (Ten α) := .throws

/-- the loop `dofval_x(d) = dofval(ii(d))`, MatrixPartitionedTyings.h:414-426, 446-458, 478-490 -/
def takeLoop (σ : Sched) (ii : List Nat) (n : Nat) (x : Ten α) : Res (Ten α) :=
  forEach (σ.run (it1 n)) (fun ret d => do
    let k ← lget ii d
    let a ← x.get [k]
    ret.set [d] a) (Ten.empty [n])

/-- `AsDofs_u(dofval)`, MatrixPartitionedTyings.h:414-426 -/
def AsDofs_u_dofval (M : MatrixPartitionedTyings α) (σ : Sched) (x : Ten α) : Res (Ten α) :=
  takeLoop σ M.iiu M.nnu x
/-- `AsDofs_p(dofval)`, MatrixPartitionedTyings.h:446-458 -/
def AsDofs_p_dofval (M : MatrixPartitionedTyings α) (σ : Sched) (x : Ten α) : Res (Ten α) :=
  takeLoop σ M.iip M.nnp x
/-- `AsDofs_d(dofval)`, MatrixPartitionedTyings.h:478-490; it reads `m_iip` (line 486) -/
def AsDofs_d_dofval (M : MatrixPartitionedTyings α) (σ : Sched) (x : Ten α) : Res (Ten α) :=
  takeLoop σ M.iip M.nnd x
/-- `AsDofs_u(nodevec)`, MatrixPartitionedTyings.h:428-444 -/
def AsDofs_u_nodevec [Zero α] (M : MatrixPartitionedTyings α) (σ : Sched) (x : Ten α) :
    Res (Ten α) :=
  windowLoop M.V σ (fun k => decide (k < M.nnu)) 0 x (Ten.full [M.nnu] 0)
/-- `AsDofs_p(nodevec)`, MatrixPartitionedTyings.h:460-476 -/
def AsDofs_p_nodevec [Zero α] (M : MatrixPartitionedTyings α) (σ : Sched) (x : Ten α) :
    Res (Ten α) :=
  windowLoop M.V σ (fun k => decide (M.nnu ≤ k) && decide (k < M.nni)) M.nnu x (Ten.full [M.nnp] 0)
/-- `AsDofs_d(nodevec)`, MatrixPartitionedTyings.h:492-508 -/
def AsDofs_d_nodevec [Zero α] (M : MatrixPartitionedTyings α) (σ : Sched) (x : Ten α) :
    Res (Ten α) :=
  windowLoop M.V σ (fun k => decide (M.nni ≤ k)) M.nni x (Ten.full [M.nnd] 0)

/-- `A + B * C + D * E + D * F * C`: the right-hand sides of MatrixPartitionedTyings.h:661 and 663 -/
def condense [NonUnitalNonAssocSemiring α] (A Ad C Cud Adx Add : Mat α) : Res (Mat α) := do
  let a ← Ad.mul C
  let b ← Cud.mul Adx
  let c ← Cud.mul Add
  let d ← c.mul C
  .ok (((A.add a).add b).add d)

/-- `factorize(A)`, MatrixPartitionedTyings.h:655-674 -/
def factorize [NonUnitalNonAssocSemiring α] (s : SolverState α) (M : MatrixPartitionedTyings α) :
    Res (SolverState α × MatrixPartitionedTyings α) :=
  if !M.changed && !s.factor then .ok (s, M)
  else do
    let ACuu ← condense M.A.uu M.A.ud M.Cdu M.Cud M.A.du M.A.dd
    let ACup ← condense M.A.up M.A.ud M.Cdp M.Cud M.A.dp M.A.dd
    .ok (⟨some ACuu, false⟩, { M with ACuu := ACuu, ACup := ACup, changed := false })

/-- `m_solver.solve(B_u - A.m_ACup * X_p)`, MatrixPartitionedTyings.h:550, 575, 641-645 -/
def solveRhs [NonUnitalNonAssocRing α] (S : LinSolver α) (s : SolverState α)
    (M : MatrixPartitionedTyings α) (bu xp : Ten α) : Res (Ten α) := do
  let w ← M.ACup.mulVec xp
  let rhs ← vzip (· - ·) bu w
  s.solve S rhs

/-- `A.m_Cdu * X_u + A.m_Cdp * X_p`, MatrixPartitionedTyings.h:551, 576 -/
def dependent [NonUnitalNonAssocSemiring α] (M : MatrixPartitionedTyings α) (xu xp : Ten α) :
    Res (Ten α) := do
  let a ← M.Cdu.mulVec xu
  let b ← M.Cdp.mulVec xp
  vzip (· + ·) a b

/-- `Solve(A, b, x)` on node vectors, MatrixPartitionedTyings.h:539-564 and Matrix.h:163-172 -/
def solve_nodevec [NonUnitalNonAssocRing α] (S : LinSolver α) (s : SolverState α)
    (M : MatrixPartitionedTyings α) (σ : Nat → Sched) (b x : Ten α) :
    Res (SolverState α × MatrixPartitionedTyings α × Ten α) := do
  let (s', M') ← factorize s M
  let bu ← M'.AsDofs_u_nodevec (σ 0) b
  let bd ← M'.AsDofs_d_nodevec (σ 1) b
  let xp ← M'.AsDofs_p_nodevec (σ 2) x
  let w ← M'.Cud.mulVec bd
  let bu ← vzip (· + ·) bu w
  let xu ← solveRhs S s' M' bu xp
  let xd ← M'.dependent xu xp
  let r ← forEach ((σ 3).run (it2 M'.V.nnode M'.V.ndim)) (fun ret mi => do
    let k ← M'.V.dofs.get [mi.1, mi.2]
    if k < M'.nnu then
      let a ← xu.get [k]
      ret.set [mi.1, mi.2] a
    else if M'.nni ≤ k then
      let a ← xd.get [k - M'.nni]
      ret.set [mi.1, mi.2] a
    else .ok ret) x
  .ok (s', M', r)

/-- `Solve(A, b, x)` on DOF vectors, MatrixPartitionedTyings.h:566-587 and Matrix.h:182-191 -/
def solve_dofval [NonUnitalNonAssocRing α] (S : LinSolver α) (s : SolverState α)
    (M : MatrixPartitionedTyings α) (σ : Nat → Sched) (b x : Ten α) :
    Res (SolverState α × MatrixPartitionedTyings α × Ten α) := do
  let (s', M') ← factorize s M
  let bu ← M'.AsDofs_u_dofval (σ 0) b
  let _bd ← M'.AsDofs_d_dofval (σ 1) b
  let xp ← M'.AsDofs_p_dofval (σ 2) x
  let xu ← solveRhs S s' M' bu xp
  let xd ← M'.dependent xu xp
  let r ← MatrixPartitioned.putDofs (σ 3) M'.iiu M'.nnu xu x
  let r ← MatrixPartitioned.putDofs (σ 4) M'.iid M'.nnd xd r
  .ok (s', M', r)

/-- `Solve_u(A, b_u, b_d, x_p)`, MatrixPartitionedTyings.h:601-646; `b_d` is not used -/
def solve_u [NonUnitalNonAssocRing α] (S : LinSolver α) (s : SolverState α)
    (M : MatrixPartitionedTyings α) (bu _bd xp : Ten α) :
    Res (SolverState α × MatrixPartitionedTyings α × Ten α) := do
  let (s', M') ← factorize s M
  let xu ← solveRhs S s' M' bu xp
  .ok (s', M', xu)

end MatrixPartitionedTyings
end GF
