import Verif.Spec.Polygon
import Mathlib.Algebra.BigOperators.Group.Finset.Basic

/-! Specification vocabulary for the map of a `FineLayer` mesh to a regular mesh. -/

namespace GF
open ElemSpec
variable {α : Type} [Field α]

/-- `f` is the part of the cell with corners `C` that is covered by the (convex) element with corners `X`:
everything, the half on one side of a diagonal of the cell, or nothing -/
def Overlap [LinearOrder α] (C X : Nat → Nat → α) (f : α) : Prop :=
  (f = 1 ∧ ∀ p, InQuad C p → InQuad X p) ∨
  (f = 1 / 2 ∧ ∃ j, j < 4 ∧ ∀ p, InQuad C p → (InQuad X p ↔ 0 ≤ turn (C j) (C ((j + 2) % 4)) p)) ∨
  (f = 0 ∧ ∀ p, InsideQuad C p → ¬ InQuad X p)

/-- the total fraction with which regular element `k` is listed for element `e` -/
def mapWeight (elem : List (List Nat)) (frac : List (List α)) (e k : Nat) : α :=
  ((((elem.getD e []).zip (frac.getD e [])).filter (fun p => p.1 == k)).map (·.2)).sum

end GF
