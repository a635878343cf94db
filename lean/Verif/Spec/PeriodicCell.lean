import Verif.Spec.System
import Verif.Model.TyingsPeriodic
import Verif.Model.MatrixPartitionedTyings
import Verif.Spec.Mesh

/-! Specification vocabulary for periodic unit cells: the program of docs/examples/statics/periodic_elastoplastic.py (with the
mesh and the material left open), and what it means to solve the problem of the cell. -/

namespace GF
open Finset
variable {α : Type} [Field α]

/-- the objects in the program -/
structure PeriodicCell (α : Type) where
  control : Control α
  tyings : Periodic α
  vector : VectorPartitionedTyings α
  elem : Element.Quadrature α
  K : MatrixPartitionedTyings α

/-- The first part of the program.

    control = Tyings.Control(coor, dofs)
    iip = concatenate((control.controlDofs.ravel(), control.dofs[origin, :].ravel()))
    tyings = Tyings.Periodic(control.coor, control.dofs, control.controlDofs, pairs, iip)
    vector = VectorPartitionedTyings(conn, tyings.dofs, tyings.Cdu, tyings.Cdp, tyings.Cdi)
    elem = Element.Quad4.Quadrature(vector.AsElement(control.coor))
    K = MatrixPartitionedTyings(conn, tyings.dofs, tyings.Cdu, tyings.Cdp) -/
def PeriodicCell.new (s : α) (σ τ : Sched) (conn dofs : Ten Nat) (coor : Ten α) (pairs : Ten Nat) (origin : Nat) :
    Res (PeriodicCell α) := do
  let control ← Control.new coor dofs
  let a ← control.control_dofs.flat
  let b ← mapRes (fun i => control.dofs.get [origin, i]) (List.range 2)
  let tyings ← Periodic.new control.coor control.dofs control.control_dofs pairs (a ++ b)
  let Cdu ← tyings.Cdu
  let Cdp ← tyings.Cdp
  let Cdi ← tyings.Cdi
  let vector ← VectorPartitionedTyings.new conn tyings.dofs Cdu Cdp Cdi
  let xe ← vector.V.AsElement σ control.coor
  let elem ← Element.Quad4.newGauss s τ xe
  let K ← MatrixPartitionedTyings.new conn tyings.dofs Cdu Cdp
  return ⟨control, tyings, vector, elem, K⟩

/-- `K.assemble(elem.Int_gradN_dot_tensor4_dot_gradNT_dV(C)); u = MatrixPartitionedTyingsSolver().Solve(K, b, u)` -/
def PeriodicCell.solve (Z : PeriodicCell α) (S : LinSolver α) (ρ : Sched) (υ : Nat → Sched) (C b u : Ten α) : Res (Ten α) := do
  let Ke ← Z.elem.Int_gradN_dot_tensor4_dot_gradNT_dV ρ C
  let K ← Z.K.assemble Ke
  let (_, _, y) ← K.solve_nodevec S SolverState.init υ b u
  return y

/-- `vector.AsDofs_i(vector.AssembleNode(elem.Int_gradN_dot_tensor2_dV(Sig)))` -/
def PeriodicCell.internalForce (Z : PeriodicCell α) (ρ ω : Sched) (υ : Nat → Sched) (sig : Ten α) : Res (Ten α) := do
  let fe ← Element.Quad4.Int_gradN_dot_tensor2_dV Z.elem ρ sig
  let f ← Z.vector.V.AssembleNode ω fe
  Z.vector.AsDofs_i υ f

/-- a field on the `nn` nodes of the mesh and the two control nodes after them is periodic up to the macroscopic gradient
`U (nn + j) l = ∂u_j/∂x_l` that is stored in its control nodes -/
def PeriodicField (nn np : Nat) (P : Nat → Nat → Nat) (x U : Nat → Nat → α) : Prop :=
  ∀ k j, k < np → j < 2 → U (P k 1) j - U (P k 0) j = ∑ l ∈ range 2, (x (P k 1) l - x (P k 0) l) * U (nn + j) l

/-- `γ e q i j` is the gradient `∂u_j/∂x_i` of the node vector `U` at the Gauss points, according to the library -/
def GradientOf (V : Vector) (Q : Element.Quadrature α) (n ne : Nat) (U : Nat → Nat → α) (γ : Nat → Nat → Nat → Nat → α) : Prop :=
  ∀ (σ τ : Sched) (u : Ten α), Is2 u n 2 U → IsOk (gradient σ τ V Q u) fun t => Is4 t ne 4 2 2 γ

/-- the virtual work of the stress `S` on the gradient `γ`: the integral of `S_ij γ_ij` -/
def virtualWork (ne : Nat) (vol : Nat → Nat → α) (S γ : Nat → Nat → Nat → Nat → α) : α :=
  ∑ e ∈ range ne, ∑ q ∈ range 4, Element.Quad4.power 2 (S e q) (γ e q) * vol e q

/-- `Y` solves the problem of the periodic unit cell: its macroscopic gradient and the displacement of node `o` are those of
`U`, it is periodic up to the macroscopic gradient, and the stress `C : grad Y` is in equilibrium with the load `B` on the
nodes: their virtual work is equal for all periodic virtual displacements that keep node `o` in place -/
structure SolvesCell (V : Vector) (Q : Element.Quadrature α) (nn ne np : Nat) (P : Nat → Nat → Nat) (x : Nat → Nat → α) (o : Nat)
    (C : Nat → Nat → Nat → Nat → Nat → Nat → α) (vol : Nat → Nat → α) (B U Y : Nat → Nat → α) : Prop where
  gradient : ∀ j l, j < 2 → l < 2 → Y (nn + j) l = U (nn + j) l
  fixed : ∀ i, i < 2 → Y o i = U o i
  periodic : PeriodicField nn np P x Y
  weak : ∀ g γ W, GradientOf V Q (nn + 2) ne Y g → GradientOf V Q (nn + 2) ne W γ →
    (∀ j l, j < 2 → l < 2 → W (nn + j) l = 0) → (∀ i, i < 2 → W o i = 0) → PeriodicField nn np P x W →
    virtualWork ne vol (fun e q => Element.Quad4.ddot 2 (C e q) (g e q)) γ = ∑ m ∈ range nn, ∑ i ∈ range 2, B m i * W m i

end GF
