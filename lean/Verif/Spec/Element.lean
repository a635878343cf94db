import Verif.Spec.Basic
import Mathlib.Algebra.BigOperators.Group.Finset.Basic
import Mathlib.Algebra.Field.Basic

/-! Specification vocabulary for finite elements: the textbook definitions of the reference elements,
independent of the tables and loops of the code. -/

namespace GF
open Finset

variable {α : Type}

/-- `Is4 t n m k l f`: `t` is a fully initialised 4-d array with entries `f a b c d`. -/
def Is4 (t : Ten α) (n m k l : Nat) (f : Nat → Nat → Nat → Nat → α) : Prop :=
  t.shape = [n, m, k, l] ∧
    ∀ a b c d, a < n → b < m → c < k → d < l → t.v [a, b, c, d] = some (f a b c d)

/-- `Is6 t .. f`: `t` is a fully initialised 6-d array. -/
def Is6 (t : Ten α) (n m k l o p : Nat) (f : Nat → Nat → Nat → Nat → Nat → Nat → α) : Prop :=
  t.shape = [n, m, k, l, o, p] ∧
    ∀ a b c d g h, a < n → b < m → c < k → d < l → g < o → h < p →
      t.v [a, b, c, d, g, h] = some (f a b c d g h)

namespace ElemSpec
variable [Field α]

/-- local coordinates of the four corners of the reference square, counter-clockwise -/
def corner4 (m : Nat) (i : Nat) : α :=
  match m, i with
  | 0, 0 => -1 | 0, _ => -1
  | 1, 0 => 1 | 1, _ => -1
  | 2, 0 => 1 | 2, _ => 1
  | _, 0 => -1 | _, _ => 1

/-- bilinear shape function of corner `m` of the reference square `[-1, 1]^2` -/
def N4 (m : Nat) (ξ η : α) : α := (1 + corner4 m 0 * ξ) * (1 + corner4 m 1 * η) / 4

/-- isoparametric map: position `j` of the material point with local coordinates `ξ, η` in an element with
nodal positions `X m j` -/
def map4 (X : Nat → Nat → α) (j : Nat) (ξ η : α) : α := ∑ m ∈ range 4, N4 m ξ η * X m j

/-- The partial derivative in local direction `i` of a function that is affine in each of its two variables (such as
`N4 m` and `map4 X j`): it equals the difference quotient with step one. -/
def part2 (f : α → α → α) (i : Nat) (ξ η : α) : α :=
  if i = 0 then f (ξ + 1) η - f ξ η else f ξ (η + 1) - f ξ η

/-- Jacobian matrix of the isoparametric map: derivative in local direction `i` of the position `j` -/
def jac4 (X : Nat → Nat → α) (ξ η : α) (i j : Nat) : α := part2 (map4 X j) i ξ η

/-- Jacobian determinant -/
def det4 (X : Nat → Nat → α) (ξ η : α) : α :=
  jac4 X ξ η 0 0 * jac4 X ξ η 1 1 - jac4 X ξ η 0 1 * jac4 X ξ η 1 0

/-- signed area of the quadrilateral with the given corners (shoelace formula) -/
def area4 (X : Nat → Nat → α) : α :=
  ((X 0 0 * X 1 1 - X 1 0 * X 0 1) + (X 1 0 * X 2 1 - X 2 0 * X 1 1) +
    (X 2 0 * X 3 1 - X 3 0 * X 2 1) + (X 3 0 * X 0 1 - X 0 0 * X 3 1)) / 2

/-- local coordinates of the eight corners of the reference cube: bottom face counter-clockwise, then top face -/
def corner8 (m : Nat) (i : Nat) : α :=
  if i = 2 then (if m < 4 then -1 else 1) else corner4 (m % 4) i

/-- trilinear shape function of corner `m` of the reference cube `[-1, 1]^3` -/
def N8 (m : Nat) (ξ η ζ : α) : α :=
  (1 + corner8 m 0 * ξ) * (1 + corner8 m 1 * η) * (1 + corner8 m 2 * ζ) / 8

/-- isoparametric map of the hexahedron -/
def map8 (X : Nat → Nat → α) (j : Nat) (ξ η ζ : α) : α := ∑ m ∈ range 8, N8 m ξ η ζ * X m j

/-- The partial derivative in local direction `i` of a function that is affine in each of its three variables. -/
def part3 (f : α → α → α → α) (i : Nat) (ξ η ζ : α) : α :=
  if i = 0 then f (ξ + 1) η ζ - f ξ η ζ
  else if i = 1 then f ξ (η + 1) ζ - f ξ η ζ
  else f ξ η (ζ + 1) - f ξ η ζ

/-- Jacobian matrix of the isoparametric map of the hexahedron -/
def jac8 (X : Nat → Nat → α) (ξ η ζ : α) (i j : Nat) : α := part3 (map8 X j) i ξ η ζ

/-- determinant of a 3 x 3 matrix (expansion along the first row) -/
def matDet3 (J : Nat → Nat → α) : α :=
  J 0 0 * (J 1 1 * J 2 2 - J 1 2 * J 2 1) - J 0 1 * (J 1 0 * J 2 2 - J 1 2 * J 2 0) +
    J 0 2 * (J 1 0 * J 2 1 - J 1 1 * J 2 0)

/-- Jacobian determinant of the hexahedron -/
def det8 (X : Nat → Nat → α) (ξ η ζ : α) : α := matDet3 (jac8 X ξ η ζ)

/-- the nodal values `U e m j` of every element are those of the affine field `u_j(x) = b_j + Σ_k A_jk x_k` -/
def AffineField (nd nne ne : Nat) (X U : Nat → Nat → Nat → α) (A : Nat → Nat → α) (b : Nat → α) : Prop :=
  ∀ e m j, e < ne → m < nne → j < nd → U e m j = b j + ∑ k ∈ range nd, A j k * X e m k

/-- What is asked of the element mass matrices `M` (rows and columns: nodal components `m * nd + i`) for the
density `R e q`, integration volumes `V e q`, and shape functions `N q m`. -/
structure MassLaws (nne nd ne nip : Nat) (N : Nat → Nat → α) (R V : Nat → Nat → α)
    (M : Nat → Nat → Nat → α) : Prop where
  /-- symmetric -/
  symm : ∀ e a b, e < ne → a < nne * nd → b < nne * nd → M e a b = M e b a
  /-- different components do not interact -/
  decoupled : ∀ e m n i j, e < ne → m < nne → n < nne → i < nd → j < nd → i ≠ j →
    M e (m * nd + i) (n * nd + j) = 0
  /-- per component the entries add up to the total mass of the element -/
  total : ∀ e i, e < ne → i < nd →
    ∑ m ∈ range nne, ∑ n ∈ range nne, M e (m * nd + i) (n * nd + i) = ∑ q ∈ range nip, R e q * V e q
  /-- the quadratic form is (twice) the kinetic energy of the interpolated velocity field -/
  energy : ∀ e, e < ne → ∀ v : Nat → α,
    ∑ m ∈ range nne, ∑ i ∈ range nd, ∑ n ∈ range nne, ∑ j ∈ range nd,
        v (m * nd + i) * M e (m * nd + i) (n * nd + j) * v (n * nd + j) =
      ∑ q ∈ range nip, R e q * V e q * ∑ i ∈ range nd, (∑ m ∈ range nne, N q m * v (m * nd + i)) ^ 2

/-- The element stiffness matrices `K` (rows and columns: nodal components `m * nd + j`) for the
tangent `C`: linearisation data only, see the theorems for the relation with the internal force. -/
structure StiffLaws (nne nd ne nip : Nat) (C : Nat → Nat → Nat → Nat → Nat → Nat → α)
    (K : Nat → Nat → Nat → α) : Prop where
  /-- symmetric if the tangent is (`δσ_ij = C_ijkl δu_l,k`) -/
  symm : (∀ e q i j k l, e < ne → q < nip → i < nd → j < nd → k < nd → l < nd →
      C e q i j k l = C e q l k j i) →
    ∀ e a b, e < ne → a < nne * nd → b < nne * nd → K e a b = K e b a
  /-- a rigid translation gives no force -/
  translation : ∀ e a k, e < ne → a < nne * nd → k < nd → ∑ n ∈ range nne, K e a (n * nd + k) = 0

end ElemSpec

namespace Element.Quad4
variable [Field α]

/-- the work of the stress `S` on the gradient `g`: `Σ_ij S_ij g_ij` -/
def power (td : Nat) (S g : Nat → Nat → α) : α := ∑ i ∈ range td, ∑ j ∈ range td, S i j * g i j

/-- double contraction `(C : g)_ij = Σ_kl C_ijkl g_lk` -/
def ddot (td : Nat) (C : Nat → Nat → Nat → Nat → α) (g : Nat → Nat → α) (i j : Nat) : α :=
  ∑ k ∈ range td, ∑ l ∈ range td, C i j k l * g l k

end Element.Quad4
end GF
