import Verif.Spec.Mesh

/-! Specification vocabulary for three-dimensional meshes. -/

namespace GF
variable {α : Type}

/-- position of a coordinate along one axis of a box `[0, L]` -/
inductive Loc where
  | lo | hi | all | mid
deriving DecidableEq

/-- `lo`: at `0`; `hi`: at `L`; `all`: anywhere; `mid`: strictly between -/
def Loc.holds [Zero α] [LT α] : Loc → α → α → Prop
  | .lo, v, _ => v = 0
  | .hi, v, L => v = L
  | .all, _, _ => True
  | .mid, v, L => 0 < v ∧ v < L

/-- node `k` of a mesh with `nnode` nodes at `(x k 0, x k 1, x k 2)` in the box `[0,Lx]×[0,Ly]×[0,Lz]` is a
node whose three coordinates are located as prescribed by `lx`, `ly`, `lz` -/
def At3 [Zero α] [LT α] (nnode : Nat) (Lx Ly Lz : α) (x : Nat → Nat → α) (lx ly lz : Loc) (k : Nat) : Prop :=
  k < nnode ∧ lx.holds (x k 0) Lx ∧ ly.holds (x k 1) Ly ∧ lz.holds (x k 2) Lz

/-- the points `p` and `q` differ by a vector of the lattice of the box -/
def LatticeEq3 [Ring α] (Lx Ly Lz : α) (p q : Nat → α) : Prop :=
  ∃ a b c : ℤ, q 0 = p 0 + a * Lx ∧ q 1 = p 1 + b * Ly ∧ q 2 = p 2 + c * Lz

/-- a table of `n` periodic pairs `(P k 0, P k 1)` = (independent node, dependent node) -/
structure PeriodicPairs3 [Add α] (nnode : Nat) (Lx Ly Lz : α) (x : Nat → Nat → α) (n : Nat)
    (P : Nat → Nat → Nat) : Prop where
  valid : ∀ k j, k < n → j < 2 → P k j < nnode
  shift : ∀ k, k < n → (x (P k 1) 0 = x (P k 0) 0 ∨ x (P k 1) 0 = x (P k 0) 0 + Lx) ∧
    (x (P k 1) 1 = x (P k 0) 1 ∨ x (P k 1) 1 = x (P k 0) 1 + Ly) ∧
    (x (P k 1) 2 = x (P k 0) 2 ∨ x (P k 1) 2 = x (P k 0) 2 + Lz)
  distinct : ∀ k k', k < n → k' < n → P k 1 = P k' 1 → k = k'
  independent : ∀ k k', k < n → k' < n → P k 0 ≠ P k' 1
  dependent : ∀ m, m < nnode → ((∃ k, k < n ∧ P k 1 = m) ↔ x m 0 = Lx ∨ x m 1 = Ly ∨ x m 2 = Lz)

/-- the same, without the nodes in `skip`: they appear in no pair -/
structure PeriodicPairs3Except [Add α] (skip : Nat → Prop) (nnode : Nat) (Lx Ly Lz : α) (x : Nat → Nat → α) (n : Nat)
    (P : Nat → Nat → Nat) : Prop where
  valid : ∀ k j, k < n → j < 2 → P k j < nnode
  shift : ∀ k, k < n → (x (P k 1) 0 = x (P k 0) 0 ∨ x (P k 1) 0 = x (P k 0) 0 + Lx) ∧
    (x (P k 1) 1 = x (P k 0) 1 ∨ x (P k 1) 1 = x (P k 0) 1 + Ly) ∧
    (x (P k 1) 2 = x (P k 0) 2 ∨ x (P k 1) 2 = x (P k 0) 2 + Lz)
  distinct : ∀ k k', k < n → k' < n → P k 1 = P k' 1 → k = k'
  independent : ∀ k k', k < n → k' < n → P k 0 ≠ P k' 1
  kept : ∀ k, k < n → ¬ skip (P k 0)
  dependent : ∀ m, m < nnode → ((∃ k, k < n ∧ P k 1 = m) ↔ (x m 0 = Lx ∨ x m 1 = Ly ∨ x m 2 = Lz) ∧ ¬ skip m)

/-- order of nodes: by `y`, then by `x`, then by `z` -/
def BeforeYXZ [LT α] (x : Nat → Nat → α) (a b : Nat) : Prop :=
  x a 1 < x b 1 ∨ (x a 1 = x b 1 ∧ (x a 0 < x b 0 ∨ (x a 0 = x b 0 ∧ x a 2 < x b 2)))

/-- a height strictly inside the lowest or the highest layer, of thickness `b`, of a mesh of height `Ly` -/
def OuterLayer [Zero α] [LT α] [Sub α] (Ly b y : α) : Prop := (0 < y ∧ y < b) ∨ (Ly - b < y ∧ y < Ly)

/-- offset of local node `m` of a hexahedron in direction `j`: the standard node order (counter-clockwise in
the front face, then in the back face) -/
def hexOffset (m j : Nat) : Nat :=
  if j = 0 then (if m = 1 ∨ m = 2 ∨ m = 5 ∨ m = 6 then 1 else 0)
  else if j = 1 then (if m = 2 ∨ m = 3 ∨ m = 6 ∨ m = 7 then 1 else 0)
  else (if 4 ≤ m then 1 else 0)

end GF
