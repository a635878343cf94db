import Verif.Model.MatrixPartitioned
import Mathlib.Algebra.Field.Defs

/-! Model of `include/GooseFEM/MatrixDiagonal.h` and `include/GooseFEM/MatrixDiagonalPartitioned.h`.
Real numbers are elements of a field; `1.0 / 0.0` is whatever the field returns, the theorems that
need it exclude it. -/

namespace GF

/-- members of `MatrixDiagonal`, MatrixDiagonal.h:262-263 and Matrix.h:193-205 -/
structure MatrixDiagonal (α : Type) where
  V : Vector
  A : Ten α
  inv : Ten α
  changed : Bool

/-- the loop `inv(d) = 1.0 / A(d)`, MatrixDiagonal.h:274-277 and MatrixDiagonalPartitioned.h:445-448 -/
def invLoop {α : Type} [One α] [Div α] (σ : Sched) (n : Nat) (A inv : Ten α) : Res (Ten α) :=
  forEach (σ.run (it1 n)) (fun r d => do
    let a ← A.get [d]
    r.set [d] (1 / a)) inv

namespace MatrixDiagonal
variable {α : Type}

/-- Constructor, MatrixDiagonal.h:133-147 -/
def new (conn dofs : Ten Nat) : Res (MatrixDiagonal α) := do
  let V ← Vector.new conn dofs
  .ok ⟨V, Ten.empty [V.ndof], Ten.empty [V.ndof], true⟩

/-- `assemble`, MatrixDiagonal.h:151-167 -/
def assemble [Zero α] [Add α] (M : MatrixDiagonal α) (elemmat : Ten α) : Res (MatrixDiagonal α) := do
  let A ← forEach (it3 M.V.nelem M.V.nne M.V.ndim) (fun r emi => do
    let n ← M.V.conn.get [emi.1, emi.2.1]
    let d ← M.V.dofs.get [n, emi.2.2]
    let v ← elemmat.get [emi.1, emi.2.1 * M.V.ndim + emi.2.2, emi.2.1 * M.V.ndim + emi.2.2]
    r.addAt [d] v) (Ten.full M.A.shape 0)
  .ok { M with A := A, changed := true }

/-- `Todense`, MatrixDiagonal.h:170-178 and Matrix.h:338-343 -/
def todense [Zero α] (M : MatrixDiagonal α) (σ : Sched) : Res (Ten α) :=
  forEach (σ.run (it1 M.V.ndof)) (fun r d => do
    let a ← M.A.get [d]
    r.set [d, d] a) (Ten.full [M.V.ndof, M.V.ndof] 0)

/-- `set(A)`, MatrixDiagonal.h:185-190: `std::copy` of all entries of the argument -/
def set (M : MatrixDiagonal α) (a : Ten α) : Res (MatrixDiagonal α) := do
  let l ← a.flat
  let A ← forEach (it1 l.length) (fun (r : Ten α) d => do
    let v ← lget l d
    r.set [d] v) M.A
  .ok { M with A := A, changed := true }

/-- `Dot(nodevec)`, MatrixDiagonal.h:213-224 and Matrix.h:363-369 -/
def dot_nodevec [Mul α] (M : MatrixDiagonal α) (σ : Sched) (x : Ten α) : Res (Ten α) :=
  forEach (σ.run (it2 M.V.nnode M.V.ndim)) (fun b mi => do
    let d ← M.V.dofs.get [mi.1, mi.2]
    let a ← M.A.get [d]
    let v ← x.get [mi.1, mi.2]
    b.set [mi.1, mi.2] (a * v)) (Ten.empty x.shape)

/-- `Dot(dofval)`, MatrixDiagonal.h:227-233: `b = m_A * x` entry by entry -/
def dot_dofval [Zero α] [Mul α] (M : MatrixDiagonal α) (x : Ten α) : Res (Ten α) :=
  vzip (· * ·) M.A x

/-- `factorize`, MatrixDiagonal.h:268-280 -/
def factorize [One α] [Div α] (M : MatrixDiagonal α) (σ : Sched) : Res (MatrixDiagonal α) :=
  if !M.changed then .ok M
  else do
    let r ← invLoop σ M.V.ndof M.A M.inv
    .ok { M with inv := r, changed := false }

/-- `Solve(b)` on node vectors, MatrixDiagonal.h:53-58, 237-250 -/
def solve_nodevec [Zero α] [One α] [Mul α] [Div α] (M : MatrixDiagonal α) (σ : Nat → Sched) (b : Ten α) :
    Res (MatrixDiagonal α × Ten α) := do
  let M' ← M.factorize (σ 0)
  let x ← forEach ((σ 1).run (it2 M'.V.nnode M'.V.ndim)) (fun x mi => do
    let d ← M'.V.dofs.get [mi.1, mi.2]
    let a ← M'.inv.get [d]
    let v ← b.get [mi.1, mi.2]
    x.set [mi.1, mi.2] (a * v)) (Ten.empty b.shape)
  .ok (M', x)

/-- `Solve(b)` on DOF vectors, MatrixDiagonal.h:70-75, 253-259 -/
def solve_dofval [Zero α] [One α] [Mul α] [Div α] (M : MatrixDiagonal α) (σ : Sched) (b : Ten α) :
    Res (MatrixDiagonal α × Ten α) := do
  let M' ← M.factorize σ
  let x ← vzip (· * ·) M'.inv b
  .ok (M', x)

end MatrixDiagonal

/-- members of `MatrixDiagonalPartitioned`, MatrixDiagonalPartitioned.h:425-436; the class declares
its own `m_nnp` (line 436) and leaves the member of the same name of `MatrixPartitionedBase`
(Matrix.h:422), here `base_nnp`, without a value -/
structure MatrixDiagonalPartitioned (α : Type) where
  P : VectorPartitioned
  Auu : Ten α
  App : Ten α
  inv_uu : Ten α
  changed : Bool
  base_nnp : Option Nat

namespace MatrixDiagonalPartitioned
variable {α : Type}

/-- Constructor, MatrixDiagonalPartitioned.h:42-69 (lines 48-65 as in `VectorPartitioned`) -/
def new (conn dofs : Ten Nat) (iip : List Nat) : Res (MatrixDiagonalPartitioned α) := do
  let P ← VectorPartitioned.new conn dofs iip
  .ok ⟨P, Ten.empty [P.nnu], Ten.empty [P.nnp], Ten.empty [P.nnu], true, none⟩

/-- `assemble`, MatrixDiagonalPartitioned.h:73-98 -/
def assemble [Zero α] [Add α] (M : MatrixDiagonalPartitioned α) (elemmat : Ten α) :
    Res (MatrixDiagonalPartitioned α) := do
  let A ← forEach (it3 M.P.V.nelem M.P.V.nne M.P.V.ndim) (fun (r : Ten α × Ten α) emi => do
    let n ← M.P.V.conn.get [emi.1, emi.2.1]
    let d ← M.P.part.get [n, emi.2.2]
    let v ← elemmat.get [emi.1, emi.2.1 * M.P.V.ndim + emi.2.2, emi.2.1 * M.P.V.ndim + emi.2.2]
    if d < M.P.nnu then do
      let u ← r.1.addAt [d] v
      .ok (u, r.2)
    else do
      let p ← r.2.addAt [d - M.P.nnu] v
      .ok (r.1, p)) (Ten.full M.Auu.shape 0, Ten.full M.App.shape 0)
  .ok { M with Auu := A.1, App := A.2, changed := true }

/-- the loop `ret(ii(d), ii(d)) = A(d)`, MatrixDiagonalPartitioned.h:105-113 -/
def putDiag (σ : Sched) (ii : List Nat) (n : Nat) (val ret : Ten α) : Res (Ten α) :=
  forEach (σ.run (it1 n)) (fun ret d => do
    let k ← lget ii d
    let a ← val.get [d]
    ret.set [k, k] a) ret

/-- `Todense`, MatrixDiagonalPartitioned.h:101-114 and Matrix.h:338-343 -/
def todense [Zero α] (M : MatrixDiagonalPartitioned α) (σ : Nat → Sched) : Res (Ten α) := do
  let r ← putDiag (σ 0) M.P.iiu M.P.nnu M.Auu (Ten.full [M.P.V.ndof, M.P.V.ndof] 0)
  putDiag (σ 1) M.P.iip M.P.nnp M.App r

/-- `data`, MatrixDiagonalPartitioned.h:142-157 -/
def data [Zero α] (M : MatrixDiagonalPartitioned α) (σ : Nat → Sched) : Res (Ten α) := do
  let r ← MatrixPartitioned.putDofs (σ 0) M.P.iiu M.P.nnu M.Auu (Ten.full [M.P.V.ndof] 0)
  MatrixPartitioned.putDofs (σ 1) M.P.iip M.P.nnp M.App r

/-- the loop `A(d) = a(ii(d))`, MatrixDiagonalPartitioned.h:125-133 -/
def takeDofs (σ : Sched) (ii : List Nat) (n : Nat) (a ret : Ten α) : Res (Ten α) :=
  forEach (σ.run (it1 n)) (fun ret d => do
    let k ← lget ii d
    let v ← a.get [k]
    ret.set [d] v) ret

/-- `set(A)`, MatrixDiagonalPartitioned.h:121-136 -/
def set (M : MatrixDiagonalPartitioned α) (σ : Nat → Sched) (a : Ten α) :
    Res (MatrixDiagonalPartitioned α) := do
  let u ← takeDofs (σ 0) M.P.iiu M.P.nnu a M.Auu
  let p ← takeDofs (σ 1) M.P.iip M.P.nnp a M.App
  .ok { M with Auu := u, App := p, changed := true }

/-- `Dot(nodevec)`, MatrixDiagonalPartitioned.h:189-208 and Matrix.h:363-369 -/
def dot_nodevec [Mul α] (M : MatrixDiagonalPartitioned α) (σ : Sched) (x : Ten α) : Res (Ten α) :=
  forEach (σ.run (it2 M.P.V.nnode M.P.V.ndim)) (fun b mi => do
    let d ← M.P.part.get [mi.1, mi.2]
    if d < M.P.nnu then
      let a ← M.Auu.get [d]
      let v ← x.get [mi.1, mi.2]
      b.set [mi.1, mi.2] (a * v)
    else
      let a ← M.App.get [d - M.P.nnu]
      let v ← x.get [mi.1, mi.2]
      b.set [mi.1, mi.2] (a * v)) (Ten.empty x.shape)

/-- the loop `b(ii(d)) = A(d) * x(ii(d))`, MatrixDiagonalPartitioned.h:216-224, 331-334, 399-402 -/
def mulDofs [Mul α] (σ : Sched) (ii : List Nat) (n : Nat) (A x b : Ten α) : Res (Ten α) :=
  forEach (σ.run (it1 n)) (fun b d => do
    let k ← lget ii d
    let a ← A.get [d]
    let v ← x.get [k]
    b.set [k] (a * v)) b

/-- `Dot(dofval)`, MatrixDiagonalPartitioned.h:211-225 and Matrix.h:377-383 -/
def dot_dofval [Mul α] (M : MatrixDiagonalPartitioned α) (σ : Nat → Sched) (x : Ten α) :
    Res (Ten α) := do
  let b ← mulDofs (σ 0) M.P.iiu M.P.nnu M.Auu x (Ten.empty x.shape)
  mulDofs (σ 1) M.P.iip M.P.nnp M.App x b

/-- the loop `b(d) = A(d) * x(d)`, MatrixDiagonalPartitioned.h:260-263, 298-301, 370-373, 417-420 -/
def mulLoop [Mul α] (σ : Sched) (n : Nat) (A x b : Ten α) : Res (Ten α) :=
  forEach (σ.run (it1 n)) (fun b d => do
    let a ← A.get [d]
    let v ← x.get [d]
    b.set [d] (a * v)) b

/-- `Dot_u(x_u, x_p)`, MatrixDiagonalPartitioned.h:235-264 -/
def dot_u [Mul α] (M : MatrixDiagonalPartitioned α) (σ : Sched) (xu _xp : Ten α) : Res (Ten α) :=
  mulLoop σ M.P.nnu M.Auu xu (Ten.empty [M.P.nnu])

/-- `Dot_p(x_u, x_p)`, MatrixDiagonalPartitioned.h:272-302 -/
def dot_p [Mul α] (M : MatrixDiagonalPartitioned α) (σ : Sched) (_xu xp : Ten α) : Res (Ten α) :=
  mulLoop σ M.P.nnp M.App xp (Ten.empty [M.P.nnp])

/-- `factorize`, MatrixDiagonalPartitioned.h:439-451 -/
def factorize [One α] [Div α] (M : MatrixDiagonalPartitioned α) (σ : Sched) :
    Res (MatrixDiagonalPartitioned α) :=
  if !M.changed then .ok M
  else do
    let r ← invLoop σ M.P.nnu M.Auu M.inv_uu
    .ok { M with inv_uu := r, changed := false }

/-- `solve(b, x)` on node vectors, MatrixDiagonalPartitioned.h:306-321 and MatrixDiagonal.h:87-90.
`Solve(b)` (MatrixDiagonal.h:53-58) passes an `xt::empty` array of the shape of `b` as `x`. -/
def solve_nodevec [Zero α] [One α] [Mul α] [Div α] (M : MatrixDiagonalPartitioned α) (σ : Nat → Sched) (b x : Ten α) :
    Res (MatrixDiagonalPartitioned α × Ten α) := do
  let M' ← M.factorize (σ 0)
  let x ← forEach ((σ 1).run (it2 M'.P.V.nnode M'.P.V.ndim)) (fun x mi => do
    let k ← M'.P.part.get [mi.1, mi.2]
    if k < M'.P.nnu then
      let a ← M'.inv_uu.get [k]
      let v ← b.get [mi.1, mi.2]
      x.set [mi.1, mi.2] (a * v)
    else .ok x) x
  .ok (M', x)

/-- `solve(b, x)` on DOF vectors, MatrixDiagonalPartitioned.h:324-335 and MatrixDiagonal.h:102-105.
`Solve(b)` (MatrixDiagonal.h:70-75) passes an `xt::empty` array of the shape of `b` as `x`. -/
def solve_dofval [Zero α] [One α] [Mul α] [Div α] (M : MatrixDiagonalPartitioned α) (σ : Nat → Sched) (b x : Ten α) :
    Res (MatrixDiagonalPartitioned α × Ten α) := do
  let M' ← M.factorize (σ 0)
  let x ← mulDofs (σ 1) M'.P.iiu M'.P.nnu M'.inv_uu b x
  .ok (M', x)

/-- `Solve_u(b_u, x_p)`, MatrixDiagonalPartitioned.h:344-374 -/
def solve_u [Zero α] [One α] [Mul α] [Div α] (M : MatrixDiagonalPartitioned α) (σ : Nat → Sched) (bu _xp : Ten α) :
    Res (MatrixDiagonalPartitioned α × Ten α) := do
  let M' ← M.factorize (σ 0)
  let x ← mulLoop (σ 1) M'.P.nnu M'.inv_uu bu (Ten.empty [M'.P.nnu])
  .ok (M', x)

/-- `Reaction(x, b)` on node vectors, MatrixDiagonalPartitioned.h:378-391 and Matrix.h:489-497 -/
def reaction_nodevec [Mul α] (M : MatrixDiagonalPartitioned α) (σ : Sched) (x b : Ten α) :
    Res (Ten α) :=
  forEach (σ.run (it2 M.P.V.nnode M.P.V.ndim)) (fun b mi => do
    let k ← M.P.part.get [mi.1, mi.2]
    if M.P.nnu ≤ k then
      let a ← M.App.get [k - M.P.nnu]
      let v ← x.get [mi.1, mi.2]
      b.set [mi.1, mi.2] (a * v)
    else .ok b) b

/-- `Reaction(x, b)` on DOF vectors, MatrixDiagonalPartitioned.h:394-403 and Matrix.h:507-515 -/
def reaction_dofval [Mul α] (M : MatrixDiagonalPartitioned α) (σ : Sched) (x b : Ten α) :
    Res (Ten α) := mulDofs σ M.P.iip M.P.nnp M.App x b

/-- `reaction_p(x_u, x_p, b_p)`, MatrixDiagonalPartitioned.h:405-421 and Matrix.h:571-578 -/
def reaction_p [Mul α] (M : MatrixDiagonalPartitioned α) (σ : Sched) (_xu xp bp : Ten α) :
    Res (Ten α) := mulLoop σ M.P.nnp M.App xp bp

/-- `Reaction_p(x_u, x_p)`, Matrix.h:553-561: allocates with `m_nnp` of the base class (line 558) -/
def Reaction_p [Mul α] (M : MatrixDiagonalPartitioned α) (σ : Sched) (xu xp : Ten α) :
    Res (Ten α) :=
  match M.base_nnp with
  | none => .ub
  | some n => M.reaction_p σ xu xp (Ten.empty [n])

end MatrixDiagonalPartitioned
end GF
