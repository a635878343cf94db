import Verif.Base
import Mathlib.Tactic.TypeStar

/-! Independence of the OpenMP schedule. -/

namespace GF

/-- The outcome does not depend on the schedule(s): if the call succeeds for some schedule it succeeds with exactly the same
result for all others. Nothing is assumed about the arithmetic of the entries (rounding, no associativity): the same result
means the same bits. -/
def Indep {S : Type*} {β : Type} (f : S → Res β) : Prop := ∀ (σ τ : S) (t : β), f σ = .ok t → f τ = .ok t

end GF
