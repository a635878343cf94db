import Verif.Spec.DynamicsAxi

/-! Specification vocabulary for a critical time step of axisymmetric bodies that is computed per element. -/

namespace GF
open Finset
variable {α : Type} [Field α]

/-- strain, in integration point `q` of the ring element `e`, of the displacement of its nodes with axial components `w n 0` and radial
components `w n 1`: `G` are the gradients of the shape functions in the (axial, radial) plane, and `T` the shape functions over the radius.
Order of the components: radial, hoop, axial -/
def elemStrainAxi (G : Nat → Nat → Nat → Nat → α) (T : Nat → Nat → Nat → α) (e q : Nat) (w : Nat → Nat → α) (i j : Nat) : α :=
  match i, j with
  | 0, 0 => ∑ n ∈ range 4, G e q n 1 * w n 1
  | 1, 1 => ∑ n ∈ range 4, T e q n * w n 1
  | 2, 2 => ∑ n ∈ range 4, G e q n 0 * w n 0
  | 0, 2 => 1 / 2 * (∑ n ∈ range 4, G e q n 1 * w n 0 + ∑ n ∈ range 4, G e q n 0 * w n 1)
  | 2, 0 => 1 / 2 * (∑ n ∈ range 4, G e q n 1 * w n 0 + ∑ n ∈ range 4, G e q n 0 * w n 1)
  | _, _ => 0

/-- twice the elastic energy of the ring element `e` for the displacement `w` of its nodes -/
def elemWorkAxi (G : Nat → Nat → Nat → Nat → α) (T : Nat → Nat → Nat → α) (vol : Nat → Nat → α) (C : Nat → Nat → Nat → Nat → Nat → Nat → α) (e : Nat)
    (w : Nat → Nat → α) : α :=
  ∑ q ∈ range 4, Element.Quad4.power 3 (Element.Quad4.ddot 3 (C e q) (elemStrainAxi G T e q w)) (elemStrainAxi G T e q w) * vol e q

/-- a bound of the stiffness of element `e`: `Σ_q vol_q Σ_n ((∂N_n / ∂z)² + (∂N_n / ∂r)² + (N_n / r)²)` -/
def elemGradientAxi (G : Nat → Nat → Nat → Nat → α) (T : Nat → Nat → Nat → α) (vol : Nat → Nat → α) (e : Nat) : α :=
  ∑ q ∈ range 4, (∑ n ∈ range 4, (G e q n 0 ^ 2 + G e q n 1 ^ 2 + T e q n ^ 2)) * vol e q

end GF
