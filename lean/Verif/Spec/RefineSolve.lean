import Verif.Spec.Energy
import Verif.Model.RefineRegular

/-! Specification of C116: one structure, on a mesh and on a refinement of that mesh. -/

namespace GF
open Finset
variable {α : Type} [Field α]

/-- node `π m` of the fine mesh has the position of node `m` of the coarse mesh -/
def SamePlace (M M' : Regular2d α) (π : Nat → Nat) : Prop :=
  ∀ x x', M.coor = .ok x → M'.coor = .ok x' → ∀ m, m < M.nnode → π m < M'.nnode ∧ ∀ i, i < 2 → x'.v [π m, i] = x.v [m, i]

/-- the DOF of the fine mesh with the position and direction of DOF `k` of the coarse mesh -/
def fineDof (π : Nat → Nat) (k : Nat) : Nat := π (k / 2) * 2 + k % 2

/-- supports, prescribed displacements and point loads of the coarse mesh with `n` DOFs, at the same places of the fine mesh with
`n'` DOFs: there is no other support and no other load -/
structure SameSupports (n n' : Nat) (π : Nat → Nat) (iip iip' : List Nat) (g g' f f' : Nat → α) : Prop where
  nodup : iip'.Nodup
  supports : ∀ l, l ∈ iip' ↔ ∃ k ∈ iip, fineDof π k = l
  values : ∀ k ∈ iip, f' (fineDof π k) = f k
  load : ∀ k, k < n → g' (fineDof π k) = g k
  unloaded : ∀ l, l < n' → (∀ k, k < n → fineDof π k ≠ l) → g' l = 0

/-- The static response of the mesh `M`.

    vector = Vector(M.conn(), M.dofs()); elem = Quad4.Quadrature(vector.AsElement(M.coor()))
    K = MatrixPartitioned(M.conn(), M.dofs(), iip); K.assemble(elem.Int_gradN_dot_tensor4_dot_gradNT_dV(C))
    u = MatrixPartitionedSolver().Solve(K, b, u) -/
def regularStatics [LinearOrder α] (M : Regular2d α) (s : α) (σ τ ρ : Sched) (υ : Nat → Sched) (S : LinSolver α) (iip : List Nat) (C b u : Ten α) :
    Res (Vector × Element.Quadrature α × Ten α) := do
  let conn ← Quad4.Regular.conn M
  let coor ← M.coor
  let dofs := meshDofs M.nnode M.ndim
  let (V, Q) ← setup s σ τ conn dofs coor
  let y ← solveLinear S ρ υ conn dofs iip Q C b u
  return (V, Q, y)

end GF
