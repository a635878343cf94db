import Verif.Spec.SameStructure

/-! Specification of C114: two descriptions of the same structure in three dimensions. -/

namespace GF
variable {α : Type} [Field α]

/-- Two descriptions of the same structure: node `m` and element `e` of the first are node `π m` and element `ψ e` of the
second; the nodes have the same positions, the elements the same nodes and the same material; components that share a DOF in the
first share a DOF in the second and the other way around; the same components are prescribed, to the same values, and the loads on
them are the same. -/
structure SameStructure3 (nn ne : Nat) (π ψ : Nat → Nat) (c c' : Nat → Nat → Nat) (x x' : Nat → Nat → α) (d d' : Nat → Nat → Nat)
    (C C' : Nat → Nat → Nat → Nat → Nat → Nat → α) (iip iip' : List Nat) (g g' f f' : Nat → α) : Prop where
  nodes : Renumbers nn π
  elems : Renumbers ne ψ
  conn : ∀ e m, e < ne → m < 8 → c' (ψ e) m = π (c e m)
  coor : ∀ m i, m < nn → i < 3 → x' (π m) i = x m i
  material : ∀ e q i j k l, e < ne → q < 8 → i < 3 → j < 3 → k < 3 → l < 3 → C' (ψ e) q i j k l = C e q i j k l
  ties : ∀ m i n j, m < nn → i < 3 → n < nn → j < 3 → (d m i = d n j ↔ d' (π m) i = d' (π n) j)
  prescribed : ∀ m i, m < nn → i < 3 → (d m i ∈ iip ↔ d' (π m) i ∈ iip')
  values : ∀ m i, m < nn → i < 3 → d m i ∈ iip → f' (d' (π m) i) = f (d m i)
  load : ∀ m i, m < nn → i < 3 → g' (d' (π m) i) = g (d m i)

end GF
