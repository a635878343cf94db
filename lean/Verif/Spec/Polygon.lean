import Mathlib.Algebra.Order.Field.Basic

/-! Specification vocabulary: quadrilaterals in the plane. -/

namespace GF.ElemSpec
variable {α : Type} [Field α]

/-- twice the signed area of the triangle `a b c` -/
def turn (a b c : Nat → α) : α := (b 0 - a 0) * (c 1 - a 1) - (b 1 - a 1) * (c 0 - a 0)

variable [LinearOrder α]

/-- strictly convex quadrilateral, counter-clockwise: every corner turns left -/
def Convex4 (X : Nat → Nat → α) : Prop :=
  0 < turn (X 3) (X 0) (X 1) ∧ 0 < turn (X 0) (X 1) (X 2) ∧ 0 < turn (X 1) (X 2) (X 3) ∧
    0 < turn (X 2) (X 3) (X 0)

/-- the point `p` is in the (closed) quadrilateral with corners `X 0, .., X 3`, counter-clockwise -/
def InQuad (X : Nat → Nat → α) (p : Nat → α) : Prop :=
  ∀ j, j < 4 → 0 ≤ turn (X j) (X ((j + 1) % 4)) p

/-- the point `p` is strictly inside the quadrilateral -/
def InsideQuad (X : Nat → Nat → α) (p : Nat → α) : Prop :=
  ∀ j, j < 4 → 0 < turn (X j) (X ((j + 1) % 4)) p

end GF.ElemSpec
