import Verif.Spec.Basic

/-! Vocabulary for the build with assertions (`GOOSEFEM_ENABLE_ASSERT`). -/

namespace GF

/-- all cells of an array hold a value: what a user passes to a function -/
def Complete {α : Type} (t : Ten α) : Prop := ∀ ix, inb t.shape ix = true → ∃ a, t.v ix = some a

/-- an array of the given shape, all cells of which hold a value -/
def CompleteOf {α : Type} (sh : List Nat) (t : Ten α) : Prop := t.shape = sh ∧ Complete t

/-- The build with assertions is a faithful watchdog of the build without: if the arguments are `valid` it does the same as the
build without assertions, which completes with a `good` result; otherwise it throws. -/
def Checked {β : Type} (checked unchecked : Res β) (valid : Prop) (good : β → Prop) : Prop :=
  (valid → checked = unchecked ∧ IsOk unchecked good) ∧ (¬ valid → checked = .throws)

end GF
