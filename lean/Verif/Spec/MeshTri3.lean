import Verif.Spec.Mesh
import Mathlib.Algebra.Order.Field.Basic

/-! Plane geometry of triangles. -/

namespace GF
variable {α : Type}

/-- twice the signed area of the triangle `p q r` (positive: counter-clockwise) -/
def area2 [Ring α] (p q r : Nat → α) : α :=
  (q 0 - p 0) * (r 1 - p 1) - (r 0 - p 0) * (q 1 - p 1)

/-- the point `(u, v)` lies in the closed triangle `p q r` -/
def InTriangle [Field α] [LinearOrder α] (p q r : Nat → α) (u v : α) : Prop :=
  ∃ a b c : α, 0 ≤ a ∧ 0 ≤ b ∧ 0 ≤ c ∧ a + b + c = 1 ∧
    u = a * p 0 + b * q 0 + c * r 0 ∧ v = a * p 1 + b * q 1 + c * r 1

end GF
