import Verif.Spec.Axi

/-! Specification for the energy theorems of axisymmetric statics (C115). -/

namespace GF
open Finset
variable {α : Type} [Field α]

/-- `γ e q i j` is the gradient of the DOF vector `f` at the Gauss points in the order `(r, θ, z)`, according to the library -/
def DofGradientAxi (V : Vector) (Q : Element.QuadratureAxi α) (n ne : Nat) (f : Nat → α) (γ : Nat → Nat → Nat → Nat → α) : Prop :=
  ∀ (σ τ : Sched) (u : Ten α), Is1 u n f → IsOk (gradientAxi σ τ V Q u) fun t => Is4 t ne 4 3 3 γ

/-- the work of the stress `S` on the gradient `γ`: the integral of `S_ij γ_ij`, over all nine components -/
def virtualWorkAxi (ne : Nat) (vol : Nat → Nat → α) (S γ : Nat → Nat → Nat → Nat → α) : α :=
  ∑ e ∈ range ne, ∑ q ∈ range 4, Element.Quad4.power 3 (S e q) (γ e q) * vol e q

/-- the potential energy: half the integral of `(C : γ) γ`, minus the work of the load `g` on the displacement `f` -/
def potentialAxi (n ne : Nat) (vol : Nat → Nat → α) (C : Nat → Nat → Nat → Nat → Nat → Nat → α) (g f : Nat → α)
    (γ : Nat → Nat → Nat → Nat → α) : α :=
  virtualWorkAxi ne vol (fun e q => Element.Quad4.ddot 3 (C e q) (γ e q)) γ / 2 - ∑ k ∈ range n, g k * f k

end GF
