import Verif.Model.MatrixPartitionedTyings
import Verif.Spec.Vector
import Verif.Spec.Matrix

namespace GF
variable {α : Type}

/-- `B` is the `nr × nc` block of the dense matrix `D` that starts at row `lo` and column `lo'`. -/
def IsBlock (B : Mat α) (nr nc lo lo' : Nat) (D : Nat → Nat → α) : Prop :=
  B.nr = nr ∧ B.nc = nc ∧ ∀ a b, a < nr → b < nc → B.e a b = D (lo + a) (lo' + b)

/-- The nine blocks hold the dense matrix `D`. -/
structure Mat9.Holds (A : Mat9 α) (nnu nnp nnd : Nat) (D : Nat → Nat → α) : Prop where
  uu : IsBlock A.uu nnu nnu 0 0 D
  up : IsBlock A.up nnu nnp 0 nnu D
  pu : IsBlock A.pu nnp nnu nnu 0 D
  pp : IsBlock A.pp nnp nnp nnu nnu D
  ud : IsBlock A.ud nnu nnd 0 (nnu + nnp) D
  pd : IsBlock A.pd nnp nnd nnu (nnu + nnp) D
  du : IsBlock A.du nnd nnu (nnu + nnp) 0 D
  dp : IsBlock A.dp nnd nnp (nnu + nnp) nnu D
  dd : IsBlock A.dd nnd nnd (nnu + nnp) (nnu + nnp) D

/-- State of a `MatrixPartitionedTyings`: connectivity `c`, renumbered DOFs `d` using every number
below `nni + nnd`, tying matrices of matching dimensions, blocks holding the dense matrix `D`. -/
structure MatrixPartitionedTyings.Holds (M : MatrixPartitionedTyings α) (c d : Nat → Nat → Nat)
    (D : Nat → Nat → α) : Prop where
  base : M.V.Holds c d
  nni : M.nni = M.nnu + M.nnp
  ndof : M.V.ndof = M.nni + M.nnd
  iiu : M.iiu = List.range M.nnu
  iip : M.iip = (List.range M.nnp).map (M.nnu + ·)
  iid : M.iid = (List.range M.nnd).map (M.nni + ·)
  surj : ∀ k, k < M.V.ndof → ∃ m i, m < M.V.nnode ∧ i < M.V.ndim ∧ d m i = k
  Cdu : M.Cdu.nr = M.nnd ∧ M.Cdu.nc = M.nnu
  Cdp : M.Cdp.nr = M.nnd ∧ M.Cdp.nc = M.nnp
  Cud : M.Cud = M.Cdu.transpose
  blocks : M.A.Holds M.nnu M.nnp M.nnd D

/-- The solver is up to date: it will factorise (changed matrix or new solver), or it holds the
factorisation of the condensed matrix and the condensed coupling of the current blocks. -/
def MatrixPartitionedTyings.Fresh [NonUnitalNonAssocSemiring α] (s : SolverState α)
    (M : MatrixPartitionedTyings α) : Prop :=
  M.changed = true ∨ s.factor = true ∨
    ∃ Auu Aup, MatrixPartitionedTyings.condense M.A.uu M.A.ud M.Cdu M.Cud M.A.du M.A.dd = .ok Auu ∧
      MatrixPartitionedTyings.condense M.A.up M.A.ud M.Cdp M.Cud M.A.dp M.A.dd = .ok Aup ∧
      s.fact = some Auu ∧ M.ACup = Aup

open Finset in
/-- The condensed residual for unknown DOF `a`: the residual `A x - b` of DOF `a` plus the residuals of
the dependent DOFs, weighted by the tying matrix. -/
def MatrixPartitionedTyings.condResidual [Ring α] (M : MatrixPartitionedTyings α)
    (D : Nat → Nat → α) (x b : Nat → α) (a : Nat) : α :=
  (∑ k ∈ range M.V.ndof, D a k * x k - b a) +
    ∑ r ∈ range M.nnd, M.Cdu.e r a * (∑ k ∈ range M.V.ndof, D (M.nni + r) k * x k - b (M.nni + r))

end GF
