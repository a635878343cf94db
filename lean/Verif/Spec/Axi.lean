import Verif.Spec.System
import Verif.Spec.Box
import Verif.Model.ElementAxi

/-! Specification vocabulary for whole axisymmetric systems. Nodes are given by `(z, r)`, nodal vectors by `(axial, radial)`
components; tensors are 3 x 3 in the order `(r, θ, z)`. `pi` stands for the constant `M_PI`. -/

namespace GF
open Finset
variable {α : Type} [Field α]

/-- the cross-section `x` (in which the second coordinate starts at zero) placed at distance `R` from the axis -/
def ringPos (R : α) (x : Nat → Nat → α) (m i : Nat) : α := if i = 0 then x m 0 else R + x m 1

/-! User programs, compare Spec/System.lean. -/

/-- `coor[:, 1] += R` -/
def addRadius (R : α) (coor : Ten α) : Ten α :=
  { coor with v := fun ix => (coor.v ix).map fun a => if ix.getD 1 0 = 1 then R + a else a }

/-- `vector = Vector(conn, dofs); elem = Element::Quad4::QuadratureAxisymmetric(vector.AsElement(coor))` -/
def setupAxi (s pi : α) (σ τ : Sched) (conn dofs : Ten Nat) (coor : Ten α) : Res (Vector × Element.QuadratureAxi α) := do
  let V ← Vector.new conn dofs
  let xe ← V.AsElement σ coor
  let Q ← Element.Axi.newGauss s pi τ xe
  return (V, Q)

/-- `vector.AssembleDofs(elem.Int_gradN_dot_tensor2_dV(Sig))` -/
def internalForceAxi (σ : Sched) (V : Vector) (Q : Element.QuadratureAxi α) (sig : Ten α) : Res (Ten α) := do
  let fe ← Element.Axi.Int_gradN_dot_tensor2_dV Q σ sig
  V.AssembleDofs fe

/-- `elem.GradN_vector(vector.AsElement(u))` -/
def gradientAxi (σ τ : Sched) (V : Vector) (Q : Element.QuadratureAxi α) (u : Ten α) : Res (Ten α) := do
  let ue ← V.AsElement σ u
  Element.Axi.GradN_vector Q τ ue

/-- `elem.SymGradN_vector(vector.AsElement(u))` -/
def strainAxi (σ τ : Sched) (V : Vector) (Q : Element.QuadratureAxi α) (u : Ten α) : Res (Ten α) := do
  let ue ← V.AsElement σ u
  Element.Axi.SymGradN_vector Q τ ue

/-- `K.assemble(elem.Int_gradN_dot_tensor4_dot_gradNT_dV(C)); K.Dot(u)` -/
def stiffnessDotAxi (σ : Sched) (M : SMatrix α) (Q : Element.QuadratureAxi α) (C u : Ten α) : Res (Ten α) := do
  let K ← Element.Axi.Int_gradN_dot_tensor4_dot_gradNT_dV Q σ C
  let M ← M.assemble K
  M.dot_dofval u

/-- the linear problem: `K = MatrixPartitioned(conn, dofs, iip); Solver = MatrixPartitionedSolver();
K.assemble(elem.Int_gradN_dot_tensor4_dot_gradNT_dV(C)); u = Solver.Solve(K, b, u)` -/
def solveLinearAxi (S : LinSolver α) (ρ : Sched) (υ : Nat → Sched) (conn dofs : Ten Nat) (iip : List Nat) (Q : Element.QuadratureAxi α)
    (C b u : Ten α) : Res (Ten α) := do
  let M ← MatrixPartitioned.new conn dofs iip
  let K ← Element.Axi.Int_gradN_dot_tensor4_dot_gradNT_dV Q ρ C
  let M ← M.assemble K
  let (_, _, y) ← M.solve_dofval S SolverState.init υ b u
  return y

/-- The force on DOF `k` due to the constant traction `(t_z, t_r)` on the ring swept by the edge from `p` to `q`, where
`t` is the stress `S` on the plane of the edge (`y m 0 = z`, `y m 1 = r`). It is the exact integral of the traction times the
linear interpolation along the edge: with the circumference `2 π r`, node `p` carries `2 π (2 r_p + r_q) / 6` of it. -/
def ringForce (pi : α) (d : Nat → Nat → Nat) (y S : Nat → Nat → α) (k p q : Nat) : α :=
  2 * pi * ∑ j ∈ range 2,
    (if j = 0 then edgeNormal y p q 0 * S 2 2 + edgeNormal y p q 1 * S 0 2
      else edgeNormal y p q 1 * S 0 0 + edgeNormal y p q 0 * S 2 0) *
    ((2 * y p 1 + y q 1) / 6 * (if d p j = k then 1 else 0) + (y p 1 + 2 * y q 1) / 6 * (if d q j = k then 1 else 0))

/-- the DOFs `f` are those of a translation `b` along the axis -/
def AxialTranslation (nn : Nat) (d : Nat → Nat → Nat) (f : Nat → α) (b : α) : Prop :=
  ∀ m, m < nn → f (d m 0) = b ∧ f (d m 1) = 0

end GF
