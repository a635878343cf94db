import Verif.Model.StopList

/-! What a stop list should contain, stated on the history of public calls. -/

namespace GF.StopList

variable {β : Type}

/-- window size after a history of calls -/
def size (n : Nat) : List (Op β) → Nat
  | [] => n
  | .resetN m :: h => size m h
  | _ :: h => size n h

/-- residuals inserted since the last reset (oldest first), for a history in chronological order -/
def since : List (Op β) → List (Dbl β) → List (Dbl β)
  | [], acc => acc
  | .roll_insert r :: h, acc => since h (acc ++ [r])
  | _ :: h, _ => since h []

/-- the last `n` of an infinite past of `inf`s followed by `l` -/
def window (n : Nat) (l : List (Dbl β)) : List (Dbl β) :=
  (List.replicate n Dbl.inf ++ l).drop l.length

/-- no `reset(0)` occurs -/
def positive : List (Op β) → Prop
  | [] => True
  | .resetN m :: h => 0 < m ∧ positive h
  | _ :: h => positive h

/-- order of extended residuals, as a real order (not-a-number excluded) -/
def lt [LinearOrder β] : Dbl β → Dbl β → Prop
  | .num a, .num b => a < b
  | .num _, .inf => True
  | _, _ => False

/-- non-strict order, `nan` unordered -/
def le [LinearOrder β] : Dbl β → Dbl β → Prop
  | .num a, .num b => a ≤ b
  | .num _, .inf => True
  | .inf, .inf => True
  | _, _ => False

end GF.StopList
