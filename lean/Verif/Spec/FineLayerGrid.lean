import Verif.Spec.FineLayer
import Mathlib.Algebra.Order.Ring.Defs

/-! Specification vocabulary for the element selections of `Quad4::FineLayer`. -/

namespace GF
open FineLayerSpec
variable {α : Type}

/-- the layers and the width to which a selection of rows `[r0, r1)` is rounded: the layers `lo`, ..., `hi` are
those that overlap with the rows; `u` is the width of the widest elements in these layers -/
structure FineLayerSpec.Region (n : Nat) (w g : Nat → Nat) (r0 r1 lo hi u : Nat) : Prop where
  le : lo ≤ hi
  lt : hi < 2 * n - 1
  lo0 : height (fun k => g (dist n k)) lo ≤ r0
  lo1 : r0 < height (fun k => g (dist n k)) (lo + 1)
  hi0 : height (fun k => g (dist n k)) hi < r1
  hi1 : r1 ≤ height (fun k => g (dist n k)) (hi + 1)
  widest : ∀ i, lo ≤ i → i ≤ hi → w (dist n i) ≤ u
  attained : ∃ i, lo ≤ i ∧ i ≤ hi ∧ w (dist n i) = u

/-- all corners of element `e` are in the box `[X0, X1] × [Y0, Y1]` (in units of `h`) -/
def FineLayerSpec.InBox [Mul α] [NatCast α] [LE α] (h : α) (x : Nat → Nat → α) (c : Nat → Nat → Nat) (X0 X1 Y0 Y1 : Nat) (e : Nat) : Prop :=
  ∀ j, j < 4 → h * (X0 : α) ≤ x (c e j) 0 ∧ x (c e j) 0 ≤ h * (X1 : α) ∧
    h * (Y0 : α) ≤ x (c e j) 1 ∧ x (c e j) 1 ≤ h * (Y1 : α)


/-- element `e`, moved over `d` columns to the right and over any number of periods of `nelx` columns, lies in the box
`[X0, X1] × [Y0, Y1]` (in units of `h`) -/
def FineLayerSpec.PeriodicInBox [Ring α] [LE α] (nelx d : Nat) (h : α) (x : Nat → Nat → α) (c : Nat → Nat → Nat)
    (X0 X1 Y0 Y1 : Nat) (e : Nat) : Prop :=
  ∃ z : ℤ, ∀ j, j < 4 →
    h * (X0 : α) ≤ x (c e j) 0 + h * (d : α) + z * (h * (nelx : α)) ∧
    x (c e j) 0 + h * (d : α) + z * (h * (nelx : α)) ≤ h * (X1 : α) ∧
    h * (Y0 : α) ≤ x (c e j) 1 ∧ x (c e j) 1 ≤ h * (Y1 : α)

end GF
