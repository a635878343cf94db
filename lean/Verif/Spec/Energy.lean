import Verif.Spec.PeriodicCell

/-! Specification for the energy theorems (C109). -/

namespace GF
open Finset
variable {α : Type} [Field α]

/-- `γ e q i j` is the gradient `∂u_j/∂x_i` of the DOF vector `f` at the Gauss points, according to the library -/
def DofGradient (V : Vector) (Q : Element.Quadrature α) (n ne : Nat) (f : Nat → α) (γ : Nat → Nat → Nat → Nat → α) : Prop :=
  ∀ (σ τ : Sched) (u : Ten α), Is1 u n f → IsOk (gradient σ τ V Q u) fun t => Is4 t ne 4 2 2 γ

/-- the potential energy: half the integral of `(C : γ) γ`, minus the work of the load `g` on the displacement `f` -/
def potential (n ne : Nat) (vol : Nat → Nat → α) (C : Nat → Nat → Nat → Nat → Nat → Nat → α) (g f : Nat → α)
    (γ : Nat → Nat → Nat → Nat → α) : α :=
  virtualWork ne vol (fun e q => Element.Quad4.ddot 2 (C e q) (γ e q)) γ / 2 - ∑ k ∈ range n, g k * f k

end GF
