import Verif.Spec.Surface
import Verif.Model.Vector
import Verif.Model.ElementQuad4
import Verif.Spec.Element
import Verif.Model.MatrixPartitioned
import Mathlib.Algebra.Field.Basic

/-! Specification vocabulary for whole systems (mesh, DOFs, quadrature together). -/

namespace GF
open Finset
variable {α : Type} [Field α]

/-- outward normal, times the length, of the edge from node `p` to node `q` of an element or body that lies to the left of
the edge (component `i`); `x m i` are the positions of the nodes -/
def edgeNormal (x : Nat → Nat → α) (p q i : Nat) : α := if i = 0 then x q 1 - x p 1 else x p 0 - x q 0

/-- the force on DOF `k` due to the constant traction `t_j = Σ_i n_i S_ij` on the edge from `p` to `q`: half of the force on
the edge acts on each of its end points; `d m j` is the DOF of component `j` of node `m` -/
def tractionForce (d : Nat → Nat → Nat) (x : Nat → Nat → α) (S : Nat → Nat → α) (k p q : Nat) : α :=
  ∑ j ∈ range 2, (∑ i ∈ range 2, edgeNormal x p q i * S i j) / 2 *
    ((if d p j = k then 1 else 0) + (if d q j = k then 1 else 0))

/-- `n` is the number of DOFs: one more than the highest DOF of `nn` nodes with two components -/
def NumDofs (nn : Nat) (d : Nat → Nat → Nat) (n : Nat) : Prop :=
  (∀ m i, m < nn → i < 2 → d m i < n) ∧ ∃ m i, m < nn ∧ i < 2 ∧ n = d m i + 1

/-! User programs: the calls of a typical simulation (compare docs/examples/statics), with the meshes and the material
left open; the arithmetic of the numbers is left open too where it does not matter. `σ` are the schedules of the parallel loops; `s` is the position `1 / sqrt 3` of the Gauss points. -/

/-- `vector = Vector(conn, dofs); elem = Quadrature(vector.AsElement(coor))` -/
def setup {α : Type} [Zero α] [One α] [Add α] [Sub α] [Mul α] [Div α] [Neg α] [NatCast α] (s : α) (σ τ : Sched) (conn dofs : Ten Nat) (coor : Ten α) : Res (Vector × Element.Quadrature α) := do
  let V ← Vector.new conn dofs
  let xe ← V.AsElement σ coor
  let Q ← Element.Quad4.newGauss s τ xe
  return (V, Q)

/-- `vector.AssembleDofs(elem.Int_gradN_dot_tensor2_dV(Sig))` -/
def internalForce {α : Type} [Zero α] [One α] [Add α] [Sub α] [Mul α] [Div α] [Neg α] [NatCast α] (σ : Sched) (V : Vector) (Q : Element.Quadrature α) (sig : Ten α) : Res (Ten α) := do
  let fe ← Element.Quad4.Int_gradN_dot_tensor2_dV Q σ sig
  V.AssembleDofs fe

/-- `K.assemble(elem.Int_gradN_dot_tensor4_dot_gradNT_dV(C)); K.Dot(u)` -/
def stiffnessDot (σ : Sched) (M : SMatrix α) (Q : Element.Quadrature α) (C u : Ten α) : Res (Ten α) := do
  let K ← Q.Int_gradN_dot_tensor4_dot_gradNT_dV σ C
  let M ← M.assemble K
  M.dot_dofval u

/-- the gradient of the displacement at the integration points: `elem.GradN_vector(vector.AsElement(u))` -/
def gradient {α : Type} [Zero α] [One α] [Add α] [Sub α] [Mul α] [Div α] [Neg α] [NatCast α] (σ τ : Sched) (V : Vector) (Q : Element.Quadrature α) (u : Ten α) : Res (Ten α) := do
  let ue ← V.AsElement σ u
  Element.Quad4.GradN_vector Q τ ue

/-- the linear problem: `K = MatrixPartitioned(conn, dofs, iip); Solver = MatrixPartitionedSolver();
K.assemble(elem.Int_gradN_dot_tensor4_dot_gradNT_dV(C)); u = Solver.Solve(K, b, u)` -/
def solveLinear (S : LinSolver α) (ρ : Sched) (υ : Nat → Sched) (conn dofs : Ten Nat) (iip : List Nat) (Q : Element.Quadrature α)
    (C b u : Ten α) : Res (Ten α) := do
  let M ← MatrixPartitioned.new conn dofs iip
  let K ← Q.Int_gradN_dot_tensor4_dot_gradNT_dV ρ C
  let M ← M.assemble K
  let (_, _, y) ← M.solve_dofval S SolverState.init υ b u
  return y

/-- the matrix that the solver factorizes: `K = MatrixPartitioned(conn, dofs, iip);
K.assemble(elem.Int_gradN_dot_tensor4_dot_gradNT_dV(C)); K.data_uu()` (MatrixPartitioned.h:126-129) -/
def stiffnessBlock (ρ : Sched) (conn dofs : Ten Nat) (iip : List Nat) (Q : Element.Quadrature α) (C : Ten α) : Res (Mat α) := do
  let M ← MatrixPartitioned.new conn dofs iip
  let K ← Q.Int_gradN_dot_tensor4_dot_gradNT_dV ρ C
  let M ← M.assemble K
  return M.A.uu

/-! Material and boundary conditions. -/

/-- `S` solves every regular linear system exactly -/
def LinSolver.Direct (S : LinSolver α) : Prop := ∀ A : Mat α, A.nr = A.nc →
  (∀ z : Nat → α, (∀ r, r < A.nr → ∑ k ∈ range A.nc, A.e r k * z k = 0) → ∀ k, k < A.nc → z k = 0) → S.ExactOn A

/-- `A` is symmetric and positive definite -/
structure Mat.Spd [LT α] (A : Mat α) : Prop where
  square : A.nr = A.nc
  symm : ∀ i j, i < A.nr → j < A.nr → A.e i j = A.e j i
  pos : ∀ z : Nat → α, (∃ k, k < A.nr ∧ z k ≠ 0) → 0 < ∑ i ∈ range A.nr, ∑ j ∈ range A.nr, z i * A.e i j * z j

/-- `S` solves every linear system exactly whose matrix is symmetric and positive definite. This is all that one can ask of the
default `Eigen::SimplicialLDLT` (Matrix.h:866, MatrixPartitioned.h:525, MatrixPartitionedTyings.h:527), which reads only the lower
triangle of the matrix, and does not pivot. -/
def LinSolver.Ldlt [LT α] (S : LinSolver α) : Prop := ∀ A : Mat α, A.Spd → S.ExactOn A

/-- the tangent has the major symmetry (`n` dimensions) -/
def Major (n : Nat) (C : Nat → Nat → Nat → Nat → α) : Prop :=
  ∀ i j k l, i < n → j < n → k < n → l < n → C i j k l = C k l i j

/-- the solver fits the problem: it solves every regular system, or it is the default one and the tangent of the problem is
symmetric (`sym`) -/
def LinSolver.Suits [LT α] (S : LinSolver α) (sym : Prop) : Prop := S.Direct ∨ S.Ldlt ∧ sym

/-- a tangent `C` that responds to the strain only, and whose energy is positive unless the strain is zero
(`g` is the gradient of the displacement; its symmetric part is the strain) -/
structure Elastic [LE α] (C : Nat → Nat → Nat → Nat → α) : Prop where
  minor : ∀ i j k l, i < 2 → j < 2 → k < 2 → l < 2 → C i j k l = C i j l k
  nonneg : ∀ g, 0 ≤ Element.Quad4.power 2 (Element.Quad4.ddot 2 C g) g
  pos : ∀ g, Element.Quad4.power 2 (Element.Quad4.ddot 2 C g) g = 0 → g 0 0 = 0 ∧ g 1 1 = 0 ∧ g 0 1 + g 1 0 = 0

/-- the DOFs `f` are those of an infinitesimal rigid motion: translation `(b₀, b₁)` and rotation `θ` about the origin -/
def RigidMotion (nn : Nat) (d : Nat → Nat → Nat) (x : Nat → Nat → α) (f : Nat → α) (θ b₀ b₁ : α) : Prop :=
  ∀ m, m < nn → f (d m 0) = b₀ - θ * x m 1 ∧ f (d m 1) = b₁ + θ * x m 0

/-- the prescribed DOFs `iip` admit no rigid motion -/
def Supported (nn : Nat) (d : Nat → Nat → Nat) (x : Nat → Nat → α) (iip : List Nat) : Prop :=
  ∀ f θ b₀ b₁, RigidMotion nn d x f θ b₀ b₁ → (∀ k ∈ iip, f k = 0) → θ = 0 ∧ b₀ = 0 ∧ b₁ = 0

end GF
