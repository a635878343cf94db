import Verif.Spec.Basic
import Verif.Spec.Polygon
import Mathlib.Algebra.BigOperators.Group.Finset.Basic

/-! Specification vocabulary: a two-dimensional mesh as an oriented surface with a boundary. -/

namespace GF
open Finset

variable {A : Type} [AddCommGroup A]

/-- sum of `f` over the oriented edges of all elements: element `e` has the nodes `c e 0, .., c e (nne - 1)`, its
edges lead from each node to the next one, and from the last one to the first one -/
def edgeSum (nne ne : Nat) (c : Nat → Nat → Nat) (f : Nat → Nat → A) : A :=
  ∑ e ∈ range ne, ∑ a ∈ range nne, f (c e a) (c e ((a + 1) % nne))

/-- sum of `f` along the path `P 0, .., P (l - 1)` -/
def pathSum (l : Nat) (P : Nat → Nat) (f : Nat → Nat → A) : A := ∑ i ∈ range (l - 1), f (P i) (P (i + 1))

/-- The boundary of the mesh consists of the four sides, given as lists of nodes: bottom and top from left to right, left
and right from bottom to top. For *every* quantity on oriented edges that changes sign with the orientation, the sum
over the edges of all elements is the sum along the boundary, counter-clockwise. (So all other edges cancel: they are
shared by two elements in opposite direction.) -/
structure Perimeter (nne ne : Nat) (c : Nat → Nat → Nat) (nb : Nat) (B : Nat → Nat) (nr : Nat) (R : Nat → Nat)
    (nt : Nat) (T : Nat → Nat) (nl : Nat) (L : Nat → Nat) : Prop where
  /-- the sides meet at the corners -/
  bl : B 0 = L 0
  br : B (nb - 1) = R 0
  tl : T 0 = L (nl - 1)
  tr : T (nt - 1) = R (nr - 1)
  stokes : ∀ {A : Type} [AddCommGroup A] (f : Nat → Nat → A), (∀ p q, f q p = - f p q) →
    edgeSum nne ne c f = pathSum nb B f + pathSum nr R f - pathSum nt T f - pathSum nl L f

/-- a connectivity of `ne` elements, and the four lists of nodes of the sides, as returned by a mesh: all are fully
initialised, and the sides are the boundary of the mesh -/
def HasPerimeter (nne ne : Nat) (conn bottom right top left : Res (Ten Nat)) : Prop :=
  ∃ ct c bt nb B rt nr R tt nt T lt nl L, conn = .ok ct ∧ Is2 ct ne nne c ∧ bottom = .ok bt ∧ Is1 bt nb B ∧
    right = .ok rt ∧ Is1 rt nr R ∧ top = .ok tt ∧ Is1 tt nt T ∧ left = .ok lt ∧ Is1 lt nl L ∧
    Perimeter nne ne c nb B nr R nt T nl L

/-- the four sides of a mesh: `bottom` and `top` from left to right, `left` and `right` from bottom to top -/
structure Outline where
  nb : Nat
  bottom : Nat → Nat
  nr : Nat
  right : Nat → Nat
  nt : Nat
  top : Nat → Nat
  nl : Nat
  left : Nat → Nat

/-- sum of `f` along the boundary, counter-clockwise (`f` changes sign with the orientation) -/
def Outline.sum (O : Outline) (f : Nat → Nat → A) : A :=
  pathSum O.nb O.bottom f + pathSum O.nr O.right f - pathSum O.nt O.top f - pathSum O.nl O.left f

/-- A conforming mesh of the rectangle `[0, Lx] x [0, Ly]` with `ne` convex quadrilaterals (element `e` has the nodes
`c e 0, .., c e 3`, counter-clockwise) and `nn` nodes (node `m` at `(x m 0, x m 1)`); opposite sides of the rectangle carry
the same nodes, up to a translation. -/
structure RectMesh {α : Type} [Field α] [LinearOrder α] (nn ne : Nat) (c : Nat → Nat → Nat) (x : Nat → Nat → α) (Lx Ly : α)
    (O : Outline) : Prop where
  nodes : 0 < nn
  valid : ∀ e a, e < ne → a < 4 → c e a < nn
  convex : ∀ e, e < ne → ElemSpec.Convex4 fun a => x (c e a)
  perimeter : Perimeter 4 ne c O.nb O.bottom O.nr O.right O.nt O.top O.nl O.left
  sizes : 0 < O.nb ∧ O.nt = O.nb ∧ 0 < O.nl ∧ O.nr = O.nl
  bottom : ∀ i, i < O.nb → O.bottom i < nn ∧ x (O.bottom i) 1 = 0
  top : ∀ i, i < O.nt → O.top i < nn ∧ x (O.top i) 1 = Ly ∧ x (O.top i) 0 = x (O.bottom i) 0
  left : ∀ i, i < O.nl → O.left i < nn ∧ x (O.left i) 0 = 0
  right : ∀ i, i < O.nr → O.right i < nn ∧ x (O.right i) 0 = Lx ∧ x (O.right i) 1 = x (O.left i) 1
  /-- the nodes of a side are listed in the order of their position -/
  bottom_mono : ∀ i, i + 1 < O.nb → x (O.bottom i) 0 < x (O.bottom (i + 1)) 0
  left_mono : ∀ i, i + 1 < O.nl → x (O.left i) 1 < x (O.left (i + 1)) 1
  /-- all nodes are in the rectangle, no two nodes coincide -/
  inside : ∀ m, m < nn → 0 ≤ x m 0 ∧ x m 0 ≤ Lx ∧ 0 ≤ x m 1 ∧ x m 1 ≤ Ly
  distinct : ∀ m m', m < nn → m' < nn → x m 0 = x m' 0 → x m 1 = x m' 1 → m = m'
  /-- unless the rectangle is degenerate, every node is a corner of an element -/
  used : 0 < Lx → 0 < Ly → ∀ m, m < nn → ∃ e a, e < ne ∧ a < 4 ∧ c e a = m

/-- the arrays returned by the functions of a mesh are those of the given mesh -/
structure MeshArrays {α : Type} (nn ne : Nat) (c : Nat → Nat → Nat) (x : Nat → Nat → α) (O : Outline) (conn : Res (Ten Nat))
    (coor : Res (Ten α)) (bottom right top left : Res (Ten Nat)) : Prop where
  conn : IsOk conn fun t => Is2 t ne 4 c
  coor : IsOk coor fun t => Is2 t nn 2 x
  bottom : IsOk bottom fun t => Is1 t O.nb O.bottom
  right : IsOk right fun t => Is1 t O.nr O.right
  top : IsOk top fun t => Is1 t O.nt O.top
  left : IsOk left fun t => Is1 t O.nl O.left

/-- number of elements with an edge from `p` to `q` (counted with multiplicity) -/
def edgeCount (nne ne : Nat) (c : Nat → Nat → Nat) (p q : Nat) : Nat :=
  ∑ e ∈ range ne, ∑ a ∈ range nne, if c e a = p ∧ c e ((a + 1) % nne) = q then 1 else 0

end GF
