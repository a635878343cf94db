import Verif.Spec.Basic
import Mathlib.Algebra.Ring.Defs
import Mathlib.Data.Int.Cast.Defs

/-! Specification vocabulary for meshes. -/

namespace GF
variable {α : Type}

/-- `NodeSet r P R`: the call `r` returns a 1-d list of exactly the nodes satisfying `P`, ordered by `R`
(for a strict order `R` this excludes duplicates). -/
def NodeSet (r : Res (Ten Nat)) (P : Nat → Prop) (R : Nat → Nat → Prop) : Prop :=
  ∃ t n f, r = .ok t ∧ Is1 t n f ∧ (∀ i j, i < j → j < n → R (f i) (f j)) ∧
    ∀ k, (∃ i, i < n ∧ f i = k) ↔ P k

/-- the points `p` and `q` differ by a vector of the lattice spanned by `(Lx, 0)` and `(0, Ly)` -/
def LatticeEq2 [Ring α] (Lx Ly : α) (p q : Nat → α) : Prop :=
  ∃ a b : ℤ, q 0 = p 0 + a * Lx ∧ q 1 = p 1 + b * Ly

/-- The boundary sets of a rectangular mesh of size `Lx × Ly` whose node `k` is at `(x k 0, x k 1)`: bottom,
top, left, right edges and the same without corners. -/
structure EdgeSets [Zero α] [LT α] (nnode : Nat) (Lx Ly : α) (x : Nat → Nat → α)
    (bottom top left right bottomOpen topOpen leftOpen rightOpen : Res (Ten Nat)) : Prop where
  bottom : NodeSet bottom (fun k => k < nnode ∧ x k 1 = 0) (fun a b => x a 0 < x b 0)
  top : NodeSet top (fun k => k < nnode ∧ x k 1 = Ly) (fun a b => x a 0 < x b 0)
  left : NodeSet left (fun k => k < nnode ∧ x k 0 = 0) (fun a b => x a 1 < x b 1)
  right : NodeSet right (fun k => k < nnode ∧ x k 0 = Lx) (fun a b => x a 1 < x b 1)
  bottomOpen : NodeSet bottomOpen (fun k => k < nnode ∧ x k 1 = 0 ∧ 0 < x k 0 ∧ x k 0 < Lx)
    (fun a b => x a 0 < x b 0)
  topOpen : NodeSet topOpen (fun k => k < nnode ∧ x k 1 = Ly ∧ 0 < x k 0 ∧ x k 0 < Lx)
    (fun a b => x a 0 < x b 0)
  leftOpen : NodeSet leftOpen (fun k => k < nnode ∧ x k 0 = 0 ∧ 0 < x k 1 ∧ x k 1 < Ly)
    (fun a b => x a 1 < x b 1)
  rightOpen : NodeSet rightOpen (fun k => k < nnode ∧ x k 0 = Lx ∧ 0 < x k 1 ∧ x k 1 < Ly)
    (fun a b => x a 1 < x b 1)

/-- the four corner nodes of a rectangular mesh -/
structure CornerNodes [Zero α] (nnode : Nat) (Lx Ly : α) (x : Nat → Nat → α) (bl br tl tr : Nat) :
    Prop where
  bl : bl < nnode ∧ x bl 0 = 0 ∧ x bl 1 = 0
  br : br < nnode ∧ x br 0 = Lx ∧ x br 1 = 0
  tl : tl < nnode ∧ x tl 0 = 0 ∧ x tl 1 = Ly
  tr : tr < nnode ∧ x tr 0 = Lx ∧ x tr 1 = Ly

/-- a table of `n` periodic pairs `(P k 0, P k 1)` = (independent node, dependent node) -/
structure PeriodicPairs [Add α] (nnode : Nat) (Lx Ly : α) (x : Nat → Nat → α) (n : Nat)
    (P : Nat → Nat → Nat) : Prop where
  valid : ∀ k j, k < n → j < 2 → P k j < nnode
  shift : ∀ k, k < n → (x (P k 1) 0 = x (P k 0) 0 ∨ x (P k 1) 0 = x (P k 0) 0 + Lx) ∧
    (x (P k 1) 1 = x (P k 0) 1 ∨ x (P k 1) 1 = x (P k 0) 1 + Ly)
  distinct : ∀ k k', k < n → k' < n → P k 1 = P k' 1 → k = k'
  independent : ∀ k k', k < n → k' < n → P k 0 ≠ P k' 1
  dependent : ∀ m, m < nnode → ((∃ k, k < n ∧ P k 1 = m) ↔ x m 0 = Lx ∨ x m 1 = Ly)

end GF
