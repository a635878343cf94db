import Verif.Spec.System

/-! Specification of C111: two descriptions of the same structure. -/

namespace GF
variable {α : Type} [Field α]

/-- `π` is a permutation of `0, …, n - 1` -/
structure Renumbers (n : Nat) (π : Nat → Nat) : Prop where
  lt : ∀ k, k < n → π k < n
  inj : ∀ k l, k < n → l < n → π k = π l → k = l

/-- Two descriptions of the same structure: node `m` and element `e` of the first are node `π m` and element `ψ e` of the
second; the nodes have the same positions, the elements the same nodes and the same material; components that share a DOF in the
first share a DOF in the second and the other way around; the same components are prescribed, to the same values, and the loads on
them are the same. -/
structure SameStructure (nn ne : Nat) (π ψ : Nat → Nat) (c c' : Nat → Nat → Nat) (x x' : Nat → Nat → α) (d d' : Nat → Nat → Nat)
    (C C' : Nat → Nat → Nat → Nat → Nat → Nat → α) (iip iip' : List Nat) (g g' f f' : Nat → α) : Prop where
  nodes : Renumbers nn π
  elems : Renumbers ne ψ
  conn : ∀ e m, e < ne → m < 4 → c' (ψ e) m = π (c e m)
  coor : ∀ m i, m < nn → i < 2 → x' (π m) i = x m i
  material : ∀ e q i j k l, e < ne → q < 4 → i < 2 → j < 2 → k < 2 → l < 2 → C' (ψ e) q i j k l = C e q i j k l
  ties : ∀ m i n j, m < nn → i < 2 → n < nn → j < 2 → (d m i = d n j ↔ d' (π m) i = d' (π n) j)
  prescribed : ∀ m i, m < nn → i < 2 → (d m i ∈ iip ↔ d' (π m) i ∈ iip')
  values : ∀ m i, m < nn → i < 2 → d m i ∈ iip → f' (d' (π m) i) = f (d m i)
  load : ∀ m i, m < nn → i < 2 → g' (d' (π m) i) = g (d m i)

end GF
