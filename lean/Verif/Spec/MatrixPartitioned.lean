import Verif.Model.MatrixPartitioned
import Verif.Spec.VectorPartitioned
import Verif.Spec.Matrix

/-! Specification of the data in a `MatrixPartitioned`: the four blocks together are one dense matrix
`D` on the DOFs. -/

namespace GF
variable {α : Type}

/-- The four blocks hold the dense matrix `D`: the entry for row `r` and column `s` is stored at the
positions of `r` and `s` in the lists of unknown and prescribed DOFs. -/
structure Mat4.Holds (A : Mat4 α) (iiu iip : List Nat) (D : Nat → Nat → α) : Prop where
  uu_dim : A.uu.nr = iiu.length ∧ A.uu.nc = iiu.length
  up_dim : A.up.nr = iiu.length ∧ A.up.nc = iip.length
  pu_dim : A.pu.nr = iip.length ∧ A.pu.nc = iiu.length
  pp_dim : A.pp.nr = iip.length ∧ A.pp.nc = iip.length
  uu : ∀ a b r s, iiu[a]? = some r → iiu[b]? = some s → A.uu.e a b = D r s
  up : ∀ a b r s, iiu[a]? = some r → iip[b]? = some s → A.up.e a b = D r s
  pu : ∀ a b r s, iip[a]? = some r → iiu[b]? = some s → A.pu.e a b = D r s
  pp : ∀ a b r s, iip[a]? = some r → iip[b]? = some s → A.pp.e a b = D r s

/-- State of a `MatrixPartitioned` object: a valid partition in which every DOF number occurs, and
blocks holding the dense matrix `D`. -/
structure MatrixPartitioned.Holds (M : MatrixPartitioned α) (c d q : Nat → Nat → Nat)
    (D : Nat → Nat → α) : Prop where
  base : M.P.Holds c d q
  surj : ∀ k, k < M.P.V.ndof → ∃ m i, m < M.P.V.nnode ∧ i < M.P.V.ndim ∧ d m i = k
  part1d_shape : M.part1d.shape = [M.P.V.ndof]
  part1d : ∀ k, k < M.P.V.ndof → ∃ a, M.part1d.v [k] = some a ∧
    (M.P.iiu ++ M.P.iip)[a]? = some k
  blocks : M.A.Holds M.P.iiu M.P.iip D

namespace MatrixPartitioned

/-- run one operation on the model -/
def step [Zero α] [Add α] (M : MatrixPartitioned α) : SMatrix.Op α → Res (MatrixPartitioned α)
  | .assemble K => M.assemble K
  | .set rows cols B => M.set rows cols B
  | .add rows cols B => M.add rows cols B

/-- run a history of operations -/
def run [Zero α] [Add α] (M : MatrixPartitioned α) (ops : List (SMatrix.Op α)) :
    Res (MatrixPartitioned α) := forEach ops step M

end MatrixPartitioned
end GF
