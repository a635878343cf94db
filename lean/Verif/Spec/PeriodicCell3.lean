import Verif.Spec.PeriodicCell
import Verif.Spec.Box

/-! Specification vocabulary for periodic unit cells in three dimensions: the program of docs/examples/statics/periodic_elastoplastic.py
with a mesh of `Hex8` elements (compare Spec/PeriodicCell.lean). -/

namespace GF
open Finset
variable {α : Type} [Field α]

/-- The first part of the program.

    control = Tyings.Control(coor, dofs)
    iip = concatenate((control.controlDofs.ravel(), control.dofs[origin, :].ravel()))
    tyings = Tyings.Periodic(control.coor, control.dofs, control.controlDofs, pairs, iip)
    vector = VectorPartitionedTyings(conn, tyings.dofs, tyings.Cdu, tyings.Cdp, tyings.Cdi)
    elem = Element.Hex8.Quadrature(vector.AsElement(control.coor))
    K = MatrixPartitionedTyings(conn, tyings.dofs, tyings.Cdu, tyings.Cdp) -/
def PeriodicCell.new3 (s : α) (σ τ : Sched) (conn dofs : Ten Nat) (coor : Ten α) (pairs : Ten Nat) (origin : Nat) :
    Res (PeriodicCell α) := do
  let control ← Control.new coor dofs
  let a ← control.control_dofs.flat
  let b ← mapRes (fun i => control.dofs.get [origin, i]) (List.range 3)
  let tyings ← Periodic.new control.coor control.dofs control.control_dofs pairs (a ++ b)
  let Cdu ← tyings.Cdu
  let Cdp ← tyings.Cdp
  let Cdi ← tyings.Cdi
  let vector ← VectorPartitionedTyings.new conn tyings.dofs Cdu Cdp Cdi
  let xe ← vector.V.AsElement σ control.coor
  let elem ← Element.Hex8.newGauss s τ xe
  let K ← MatrixPartitionedTyings.new conn tyings.dofs Cdu Cdp
  return ⟨control, tyings, vector, elem, K⟩

/-- `vector.AsDofs_i(vector.AssembleNode(elem.Int_gradN_dot_tensor2_dV(Sig)))` -/
def PeriodicCell.internalForce3 (Z : PeriodicCell α) (ρ ω : Sched) (υ : Nat → Sched) (sig : Ten α) : Res (Ten α) := do
  let fe ← Element.Hex8.Int_gradN_dot_tensor2_dV Z.elem ρ sig
  let f ← Z.vector.V.AssembleNode ω fe
  Z.vector.AsDofs_i υ f

/-- a field on the `nn` nodes of the mesh and the three control nodes after them is periodic up to the macroscopic gradient
`U (nn + j) l = ∂u_j/∂x_l` that is stored in its control nodes -/
def PeriodicField3 (nn np : Nat) (P : Nat → Nat → Nat) (x U : Nat → Nat → α) : Prop :=
  ∀ k j, k < np → j < 3 → U (P k 1) j - U (P k 0) j = ∑ l ∈ range 3, (x (P k 1) l - x (P k 0) l) * U (nn + j) l

/-- `γ e q i j` is the gradient `∂u_j/∂x_i` of the node vector `U` at the Gauss points, according to the library -/
def GradientOf3 (V : Vector) (Q : Element.Quadrature α) (n ne : Nat) (U : Nat → Nat → α) (γ : Nat → Nat → Nat → Nat → α) : Prop :=
  ∀ (σ τ : Sched) (u : Ten α), Is2 u n 3 U → IsOk (gradient3 σ τ V Q u) fun t => Is4 t ne 8 3 3 γ

/-- the virtual work of the stress `S` on the gradient `γ`: the integral of `S_ij γ_ij` -/
def virtualWork3 (ne : Nat) (vol : Nat → Nat → α) (S γ : Nat → Nat → Nat → Nat → α) : α :=
  ∑ e ∈ range ne, ∑ q ∈ range 8, Element.Quad4.power 3 (S e q) (γ e q) * vol e q

/-- `Y` solves the problem of the periodic unit cell (see `SolvesCell`) -/
structure SolvesCell3 (V : Vector) (Q : Element.Quadrature α) (nn ne np : Nat) (P : Nat → Nat → Nat) (x : Nat → Nat → α) (o : Nat)
    (C : Nat → Nat → Nat → Nat → Nat → Nat → α) (vol : Nat → Nat → α) (B U Y : Nat → Nat → α) : Prop where
  gradient : ∀ j l, j < 3 → l < 3 → Y (nn + j) l = U (nn + j) l
  fixed : ∀ i, i < 3 → Y o i = U o i
  periodic : PeriodicField3 nn np P x Y
  weak : ∀ g γ W, GradientOf3 V Q (nn + 3) ne Y g → GradientOf3 V Q (nn + 3) ne W γ →
    (∀ j l, j < 3 → l < 3 → W (nn + j) l = 0) → (∀ i, i < 3 → W o i = 0) → PeriodicField3 nn np P x W →
    virtualWork3 ne vol (fun e q => Element.Quad4.ddot 3 (C e q) (g e q)) γ = ∑ m ∈ range nn, ∑ i ∈ range 3, B m i * W m i

end GF
