import Verif.Model.MatrixDiagonal
import Verif.Spec.Matrix
import Verif.Spec.VectorPartitioned
import Mathlib.Algebra.BigOperators.Intervals

/-! Specification of the diagonal matrix classes: the object stands for a diagonal `a`, one value per
DOF, and its cached inverse is either out of date and flagged as such, or correct. -/

namespace GF
open Finset
variable {α : Type}

/-- the diagonal assembled from the diagonals of the element matrices -/
def diagAssembled [AddCommMonoid α] (V : Vector) (c d : Nat → Nat → Nat) (k : Nat → Nat → Nat → α)
    (r : Nat) : α :=
  ∑ e ∈ range V.nelem, ∑ m ∈ range V.nne, ∑ i ∈ range V.ndim,
    if d (c e m) i = r then k e (m * V.ndim + i) (m * V.ndim + i) else 0

/-- State of a `MatrixDiagonal` object.  `o` is the current diagonal (`none` before the first
`assemble` or `set`). -/
structure MatrixDiagonal.Holds [One α] [Div α] (M : MatrixDiagonal α) (c d : Nat → Nat → Nat)
    (o : Option (Nat → α)) : Prop where
  base : M.V.Holds c d
  A_shape : M.A.shape = [M.V.ndof]
  A : ∀ a, o = some a → Is1 M.A M.V.ndof a
  inv_shape : M.inv.shape = [M.V.ndof]
  cache : M.changed = true ∨ ∃ a, o = some a ∧ Is1 M.inv M.V.ndof (fun k => 1 / a k)

/-- calls that change a `MatrixDiagonal` or use its cache -/
inductive DiagOp (α : Type) where
  | assemble (K : Ten α)
  | set (σ : Nat → Sched) (a : Ten α)
  | solve_dofval (σ : Nat → Sched) (b x : Ten α)
  | solve_nodevec (σ : Nat → Sched) (b x : Ten α)

/-- arguments have the documented shape, no solving before the first `assemble` or `set`; the
diagonal `a` becomes `a'` -/
inductive DiagOpSpec [AddCommMonoid α] (V : Vector) (c d : Nat → Nat → Nat) :
    DiagOp α → Option (Nat → α) → Option (Nat → α) → Prop where
  | assemble {K k a} (hK : Is3 K V.nelem (V.nne * V.ndim) (V.nne * V.ndim) k) :
      DiagOpSpec V c d (.assemble K) a (some (diagAssembled V c d k))
  | set {σ A a f} (hA : Is1 A V.ndof f) : DiagOpSpec V c d (.set σ A) a (some f)
  | solve_dofval {σ b x a f g} (hb : Is1 b V.ndof f) (hx : Is1 x V.ndof g) :
      DiagOpSpec V c d (.solve_dofval σ b x) (some a) (some a)
  | solve_nodevec {σ b x a f g} (hb : Is2 b V.nnode V.ndim f) (hx : Is2 x V.nnode V.ndim g) :
      DiagOpSpec V c d (.solve_nodevec σ b x) (some a) (some a)

/-- the diagonal after a history of calls -/
inductive DiagRunSpec [AddCommMonoid α] (V : Vector) (c d : Nat → Nat → Nat) :
    List (DiagOp α) → Option (Nat → α) → Option (Nat → α) → Prop where
  | nil {a} : DiagRunSpec V c d [] a a
  | cons {op ops a a' a''} (h : DiagOpSpec V c d op a a') (hs : DiagRunSpec V c d ops a' a'') :
      DiagRunSpec V c d (op :: ops) a a''

/-- run one call on the model of `MatrixDiagonal` (`Solve(b)` overwrites all of `x`) -/
def MatrixDiagonal.step [Field α] (M : MatrixDiagonal α) : DiagOp α → Res (MatrixDiagonal α)
  | .assemble K => M.assemble K
  | .set _ a => M.set a
  | .solve_dofval σ b _ => do let r ← M.solve_dofval (σ 0) b; .ok r.1
  | .solve_nodevec σ b _ => do let r ← M.solve_nodevec σ b; .ok r.1

/-- run a history -/
def MatrixDiagonal.run [Field α] (M : MatrixDiagonal α) (ops : List (DiagOp α)) :
    Res (MatrixDiagonal α) := forEach ops MatrixDiagonal.step M

/-- State of a `MatrixDiagonalPartitioned` object.  `o` is the current diagonal (`none` before the
first `assemble` or `set`); every DOF number occurs in the DOF table. -/
structure MatrixDiagonalPartitioned.Holds [Field α] (M : MatrixDiagonalPartitioned α)
    (c d q : Nat → Nat → Nat) (o : Option (Nat → α)) : Prop where
  base : M.P.Holds c d q
  surj : ∀ k, k < M.P.V.ndof → ∃ m i, m < M.P.V.nnode ∧ i < M.P.V.ndim ∧ d m i = k
  A_shape : M.Auu.shape = [M.P.nnu] ∧ M.App.shape = [M.P.nnp]
  Auu : ∀ a, o = some a → Is1 M.Auu M.P.nnu (fun k => a (M.P.iiu.getD k 0))
  App : ∀ a, o = some a → Is1 M.App M.P.nnp (fun k => a (M.P.iip.getD k 0))
  inv_shape : M.inv_uu.shape = [M.P.nnu]
  cache : M.changed = true ∨ ∃ a, o = some a ∧
    Is1 M.inv_uu M.P.nnu (fun k => 1 / a (M.P.iiu.getD k 0))

/-- run one call on the model of `MatrixDiagonalPartitioned` -/
def MatrixDiagonalPartitioned.step [Field α] (M : MatrixDiagonalPartitioned α) :
    DiagOp α → Res (MatrixDiagonalPartitioned α)
  | .assemble K => M.assemble K
  | .set σ a => M.set σ a
  | .solve_dofval σ b x => do let r ← M.solve_dofval σ b x; .ok r.1
  | .solve_nodevec σ b x => do let r ← M.solve_nodevec σ b x; .ok r.1

/-- run a history -/
def MatrixDiagonalPartitioned.run [Field α] (M : MatrixDiagonalPartitioned α) (ops : List (DiagOp α)) :
    Res (MatrixDiagonalPartitioned α) := forEach ops MatrixDiagonalPartitioned.step M

end GF
