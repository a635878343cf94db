import Verif.Spec.Element

/-! Specification vocabulary for the measures of a mesh. -/

namespace GF
open Finset
variable {α : Type}

/-- the share of corner `m` in the area of a quadrilateral: half of the (signed) area of the triangle formed by the
corner and its two neighbours, i.e. a quarter of the cross product of the two sides that leave the corner -/
def cornerShare [Field α] (X : Nat → Nat → α) (m : Nat) : α :=
  let p := X ((m + 3) % 4)
  let q := X ((m + 1) % 4)
  ((q 0 - X m 0) * (p 1 - X m 1) - (q 1 - X m 1) * (p 0 - X m 0)) / 4

/-- `IsSqrt f`: `f` is the square root on non-negative numbers -/
def IsSqrt [Field α] [LinearOrder α] (f : α → α) : Prop := ∀ x, 0 ≤ x → 0 ≤ f x ∧ f x * f x = x

/-- the corners form a parallelogram -/
def Parallelogram (X : Nat → Nat → α) [Field α] : Prop :=
  ∀ j, j < 2 → X 0 j + X 2 j = X 1 j + X 3 j

end GF
