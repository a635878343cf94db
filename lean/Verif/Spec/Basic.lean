import Verif.Base

/-! Specification vocabulary: what it means for an array to hold given entries. -/

namespace GF

variable {α : Type}

/-- `Is1 t n f`: `t` is a fully initialised 1-d array of length `n` with entries `f i`. -/
def Is1 (t : Ten α) (n : Nat) (f : Nat → α) : Prop :=
  t.shape = [n] ∧ ∀ i, i < n → t.v [i] = some (f i)

/-- `Is2 t n m f`: `t` is a fully initialised `n × m` array with entries `f i j`. -/
def Is2 (t : Ten α) (n m : Nat) (f : Nat → Nat → α) : Prop :=
  t.shape = [n, m] ∧ ∀ i j, i < n → j < m → t.v [i, j] = some (f i j)

/-- `Is3 t n m k f`: `t` is a fully initialised `n × m × k` array with entries `f i j l`. -/
def Is3 (t : Ten α) (n m k : Nat) (f : Nat → Nat → Nat → α) : Prop :=
  t.shape = [n, m, k] ∧ ∀ i j l, i < n → j < m → l < k → t.v [i, j, l] = some (f i j l)

/-- `Full t f`: `t` (of any rank) is fully initialised with entries `f ix`. -/
def Full (t : Ten α) (f : List Nat → α) : Prop :=
  ∀ ix, inb t.shape ix = true → t.v ix = some (f ix)

/-- `IsOk r P`: the call terminates normally, without undefined behaviour, with a result
satisfying `P`. -/
def IsOk {β : Type} (r : Res β) (P : β → Prop) : Prop := ∃ b, r = .ok b ∧ P b

/-- 1-d array literal -/
def lit1 (l : List α) [Inhabited α] : Ten α :=
  Ten.of [l.length] fun ix => l.getD (ix.getD 0 0) default

/-- 2-d array literal (rows of length `m`) -/
def lit2 [Inhabited α] (m : Nat) (l : List (List α)) : Ten α :=
  Ten.of [l.length, m] fun ix => (l.getD (ix.getD 0 0) []).getD (ix.getD 1 0) default

end GF
