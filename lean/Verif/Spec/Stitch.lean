import Verif.Spec.Basic
import Mathlib.Algebra.BigOperators.Group.Finset.Basic
import Mathlib.Algebra.Order.Ring.Abs
import Mathlib.Algebra.Order.Field.Basic

/-! Specification vocabulary for stitched meshes. -/

namespace GF
open Finset
variable {α : Type}

/-- A mesh: `nn` nodes with coordinates `x n k`, `ne` elements with nodes `C e m`. -/
structure MeshData (α : Type) where
  nn : Nat
  ne : Nat
  x : Nat → Nat → α
  C : Nat → Nat → Nat

/-- the arrays `coor`, `conn` hold the mesh `m` (with `nd` coordinates per node, `nne` nodes per element), all of whose
elements refer to existing nodes -/
def MeshData.Held (m : MeshData α) (nd nne : Nat) (coor : Ten α) (conn : Ten Nat) : Prop :=
  Is2 coor m.nn nd m.x ∧ Is2 conn m.ne nne m.C ∧ ∀ e i, e < m.ne → i < nne → m.C e i < m.nn

/-- two points are equal up to the tolerance in every coordinate -/
def PtClose (close : α → α → Bool) (nd : Nat) (p q : Nat → α) : Prop := ∀ k, k < nd → close (p k) (q k) = true

/-- two points have the same coordinates -/
def PtEq (nd : Nat) (p q : Nat → α) : Prop := ∀ k, k < nd → p k = q k

/-- a node of mesh `b` is close to at most one node of mesh `a` -/
def Unambiguous (close : α → α → Bool) (nd na : Nat) (xa : Nat → Nat → α) (nb : Nat) (xb : Nat → Nat → α) : Prop :=
  ∀ p, p < nb → ∀ r r', r < na → r' < na → PtClose close nd (xb p) (xa r) → PtClose close nd (xb p) (xa r') → r = r'

/-- first element of sub-mesh `i` -/
def elemOffset (m : Nat → MeshData α) (i : Nat) : Nat := ∑ j ∈ range i, (m j).ne

/-- node `n` of sub-mesh `i` comes before node `p` of sub-mesh `j`: it is part of an earlier sub-mesh, or of the same one with a
lower number -/
def Earlier (i n j p : Nat) : Prop := i < j ∨ i = j ∧ n < p

/-- The nodes of a combined mesh are numbered in the order in which they first appear: a node that is not the same as any earlier
node has a higher number than all of them. -/
def Numbered (K : Nat) (nn : Nat → Nat) (P : Nat → Nat → Nat) : Prop :=
  ∀ j p, j < K → p < nn j → (∀ i n, n < nn i → Earlier i n j p → P i n ≠ P j p) → ∀ i n, n < nn i → Earlier i n j p → P i n < P j p

/-- What a combined mesh (`N` nodes at `X`, elements `CC`) of the sub-meshes `m 0 .. m (K - 1)` has to satisfy, where
node `n` of sub-mesh `i` is node `P i n` of the combined mesh. -/
structure Combined (close : α → α → Bool) (nd nne K : Nat) (m : Nat → MeshData α) (N : Nat) (X : Nat → Nat → α)
    (CC : Nat → Nat → Nat) (P : Nat → Nat → Nat) : Prop where
  /-- node maps are valid -/
  node_lt : ∀ i n, i < K → n < (m i).nn → P i n < N
  /-- elements refer to existing nodes -/
  conn_lt : ∀ e k, e < elemOffset m K → k < nne → CC e k < N
  /-- element `e` of sub-mesh `i` is element `elemOffset m i + e` and connects the images of the same nodes -/
  conn : ∀ i e k, i < K → e < (m i).ne → k < nne → CC (elemOffset m i + e) k = P i ((m i).C e k)
  /-- nodes do not move, except that a node that is merged moves to the close position of the earlier node -/
  pos : ∀ i n, i < K → n < (m i).nn → PtEq nd (X (P i n)) ((m i).x n) ∨ PtClose close nd ((m i).x n) (X (P i n))
  /-- a node that is close to a node of an earlier sub-mesh is merged with it -/
  merged : ∀ i j n p, i < j → j < K → n < (m i).nn → p < (m j).nn →
    (PtClose close nd ((m j).x p) (X (P i n)) ↔ P j p = P i n)
  /-- two nodes of the same sub-mesh are merged only if both are merged with the same earlier node -/
  inj : ∀ i n n', i < K → n < (m i).nn → n' < (m i).nn → P i n = P i n' → n = n' ∨
    (PtClose close nd ((m i).x n) (X (P i n)) ∧ PtClose close nd ((m i).x n') (X (P i n)) ∧
      ∃ j p, j < i ∧ p < (m j).nn ∧ P j p = P i n)
  /-- every node of the combined mesh is a node of a sub-mesh, at its original position -/
  surj : ∀ r, r < N → ∃ i n, i < K ∧ n < (m i).nn ∧ P i n = r ∧ PtEq nd (X r) ((m i).x n)
  /-- the nodes are numbered in the order in which they first appear -/
  order : Numbered K (fun i => (m i).nn) P

/-- `|a - b|` at most `atol`, or at most `rtol` times the larger of `|a|` and `|b|` (the library's `isclose`) -/
def iscloseSpec {α : Type} [Field α] [LinearOrder α] (rtol atol a b : α) : Bool :=
  decide (|a - b| ≤ atol) || decide (|a - b| ≤ rtol * max |a| |b|)

end GF
