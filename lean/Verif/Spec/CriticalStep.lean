import Verif.Spec.Dynamics
import Verif.Spec.Dynamics3

/-! Specification vocabulary for a critical time step that is computed per element. -/

namespace GF
open Finset
variable {α : Type} [Field α]

/-- symmetric gradient, in integration point `q` of element `e`, of the displacement `w n j` of its `nne` nodes, with the shape function
gradients `G` -/
def elemStrain (nne : Nat) (G : Nat → Nat → Nat → Nat → α) (e q : Nat) (w : Nat → Nat → α) (i j : Nat) : α :=
  1 / 2 * ∑ n ∈ range nne, (G e q n i * w n j + G e q n j * w n i)

/-- twice the elastic energy of element `e`, with `nne` integration points, for the displacement `w` of its nodes -/
def elemWork (nd nne : Nat) (G : Nat → Nat → Nat → Nat → α) (vol : Nat → Nat → α) (C : Nat → Nat → Nat → Nat → Nat → Nat → α) (e : Nat)
    (w : Nat → Nat → α) : α :=
  ∑ q ∈ range nne, Element.Quad4.power nd (Element.Quad4.ddot nd (C e q) (elemStrain nne G e q w)) (elemStrain nne G e q w) * vol e q

/-- a bound of the stiffness of element `e` that needs the gradients and the volumes only: `Σ_q vol_q Σ_ni (∂N_n / ∂x_i)²` -/
def elemGradient (nd nne : Nat) (G : Nat → Nat → Nat → Nat → α) (vol : Nat → Nat → α) (e : Nat) : α :=
  ∑ q ∈ range nne, (∑ n ∈ range nne, ∑ i ∈ range nd, G e q n i ^ 2) * vol e q

end GF
