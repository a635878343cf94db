import Verif.Spec.Dynamics3

/-! Specification vocabulary for the critical time step in three dimensions. -/

namespace GF

/-- All elements are boxes aligned with the axes, with edges of length at least `h`: the nodes of element `e` are the corners of
`[o 0, o 0 + l 0] × [o 1, o 1 + l 1] × [o 2, o 2 + l 2]` in the standard order (`hexOffset m i` is 0 or 1). -/
def Cuboids {α : Type} [Field α] [LE α] (ne : Nat) (c : Nat → Nat → Nat) (x : Nat → Nat → α) (h : α) : Prop :=
  ∀ e, e < ne → ∃ o l : Nat → α, ∀ i, i < 3 → h ≤ l i ∧ ∀ m, m < 8 → x (c e m) i = o i + l i * (hexOffset m i : α)

end GF
