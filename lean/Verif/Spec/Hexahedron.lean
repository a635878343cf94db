import Verif.Spec.Basic
import Mathlib.Algebra.Order.Field.Basic

/-! Specification vocabulary: hexahedra with the local node numbering of GooseFEM (`Hex8`: nodes `0, 1, 2, 3`
counter-clockwise seen from outside at one end ... nodes `4, 5, 6, 7` at the other end, edges `j -- j + 4`). -/

namespace GF
variable {α : Type}

/-- six times the signed volume of the tetrahedron `a, b, c, p` (positive if `p` is on the side of the plane
through `a`, `b`, `c` from which `a, b, c` runs counter-clockwise) -/
def tetDet [Ring α] (a b c p : Nat → α) : α :=
  (b 0 - a 0) * ((c 1 - a 1) * (p 2 - a 2) - (c 2 - a 2) * (p 1 - a 1)) -
  (b 1 - a 1) * ((c 0 - a 0) * (p 2 - a 2) - (c 2 - a 2) * (p 0 - a 0)) +
  (b 2 - a 2) * ((c 0 - a 0) * (p 1 - a 1) - (c 1 - a 1) * (p 0 - a 0))

/-- the six faces (local node numbers), numbered counter-clockwise seen from inside -/
def hexFaces : List (List Nat) :=
  [[0, 1, 2, 3], [4, 7, 6, 5], [0, 4, 5, 1], [3, 2, 6, 7], [0, 3, 7, 4], [1, 5, 6, 2]]

/-- corner `k` of face `f` -/
def hexFace (f k : Nat) : Nat := (hexFaces.getD f []).getD k 0

/-- position of `p` with respect to the plane of face `f` (the plane through its first three corners):
positive inside -/
def hexSide [Ring α] (X : Nat → Nat → α) (f : Nat) (p : Nat → α) : α :=
  tetDet (X (hexFace f 0)) (X (hexFace f 1)) (X (hexFace f 2)) p

section order
variable [Ring α] [LinearOrder α]

/-- the eight points are the corners of a convex hexahedron with plane faces, numbered as in `Hex8`: the four
corners of each face are in one plane and the other four corners are strictly on the inner side of it -/
def ConvexHex (X : Nat → Nat → α) : Prop :=
  ∀ f j, f < 6 → j < 8 → if j ∈ hexFaces.getD f [] then hexSide X f (X j) = 0 else 0 < hexSide X f (X j)

/-- `p` is in the (closed) hexahedron -/
def InHex (X : Nat → Nat → α) (p : Nat → α) : Prop := ∀ f, f < 6 → 0 ≤ hexSide X f p

/-- `p` is in the interior of the hexahedron -/
def InsideHex (X : Nat → Nat → α) (p : Nat → α) : Prop := ∀ f, f < 6 → 0 < hexSide X f p

end order

/-- the corners of the unit cube, numbered as in `Hex8` (ElementHex8.h: local coordinates) -/
def unitCube : List (List Int) :=
  [[0, 0, 0], [1, 0, 0], [1, 1, 0], [0, 1, 0], [0, 0, 1], [1, 0, 1], [1, 1, 1], [0, 1, 1]]

/-- the orientation of the faces is right: the unit cube is a convex hexahedron in this sense -/
example : ConvexHex (fun j k => (unitCube.getD j []).getD k 0) := by
  have : ∀ f, f ∈ List.range 6 → ∀ j, j ∈ List.range 8 →
    if j ∈ hexFaces.getD f [] then hexSide (fun j k => (unitCube.getD j []).getD k 0) f ((fun j k => (unitCube.getD j []).getD k 0) j) = 0
    else (0 : Int) < hexSide (fun j k => (unitCube.getD j []).getD k 0) f ((fun j k => (unitCube.getD j []).getD k 0) j) := by
    decide +kernel
  exact fun f j hf hj => this f (List.mem_range.2 hf) j (List.mem_range.2 hj)

end GF
