import Verif.Base
import Mathlib.Order.Defs.LinearOrder

/-! Model of `include/GooseFEM/Iterate.h` (class `GooseFEM::Iterate::StopList`). -/

namespace GF

/-- A `double`: a number of the ordered set `β`, `+infinity`, or not-a-number.  (`-infinity` is not
modelled: residuals are norms.) -/
inductive Dbl (β : Type) : Type where
  | num (b : β)
  | inf
  | nan
deriving DecidableEq, Repr

namespace Dbl
variable {β : Type} [LinearOrder β]

/-- IEEE `a > b`: false as soon as one operand is not-a-number -/
def gt : Dbl β → Dbl β → Bool
  | nan, _ => false
  | _, nan => false
  | num a, num b => decide (b < a)
  | inf, num _ => true
  | _, inf => false

/-- IEEE `a >= b` -/
def ge : Dbl β → Dbl β → Bool
  | nan, _ => false
  | _, nan => false
  | num a, num b => decide (b ≤ a)
  | inf, _ => true
  | num _, inf => false

end Dbl

/-- `class StopList`, member: Iterate.h:114 -/
structure StopList (β : Type) where
  res : List (Dbl β)

namespace StopList
variable {β : Type}

/-- `reset()`, Iterate.h:43-46: `std::fill(begin, end, infinity)` -/
def reset (s : StopList β) : StopList β := ⟨s.res.map fun _ => .inf⟩

/-- `std::vector::resize(n)`: keep the first entries, append zeros -/
def resize [Zero β] (s : StopList β) (n : Nat) : StopList β :=
  ⟨s.res.take n ++ List.replicate (n - s.res.length) (.num 0)⟩

/-- `reset(n)`, Iterate.h:53-57 -/
def resetN [Zero β] (s : StopList β) (n : Nat) : StopList β := (s.resize n).reset

/-- constructor, Iterate.h:34-38 -/
def new [Zero β] (n : Nat) : StopList β := (resize ⟨[]⟩ n).reset

/-- `std::rotate(begin, begin + 1, end)` on a list: `begin + 1` of an empty vector is undefined -/
def rotate1 {γ : Type} : List γ → Res (List γ)
  | [] => .ub
  | a :: l => .ok (l ++ [a])

/-- `v.back() = a` -/
def setBack {γ : Type} (l : List γ) (a : γ) : Res (List γ) :=
  match l with
  | [] => .ub
  | _ => .ok (l.dropLast ++ [a])

/-- `roll_insert(res)`, Iterate.h:69-73 -/
def roll_insert (s : StopList β) (r : Dbl β) : Res (StopList β) := do
  let l ← rotate1 s.res
  let l ← setBack l r
  .ok ⟨l⟩

/-- `std::is_sorted(first, last, comp)`: no neighbouring pair with `comp(next, previous)` -/
def isSorted {γ : Type} (comp : γ → γ → Bool) : List γ → Bool
  | [] => true
  | [_] => true
  | a :: b :: l => !comp b a && isSorted comp (b :: l)

variable [LinearOrder β]

/-- `descending()`, Iterate.h:80-83 -/
def descending (s : StopList β) : Bool := isSorted Dbl.gt s.res

/-- `all_less(tol)`, Iterate.h:91-94 -/
def all_less (s : StopList β) (tol : Dbl β) : Bool := !(s.res.any fun i => i.ge tol)

/-- `data()`, Iterate.h:99-102 -/
def data (s : StopList β) : List (Dbl β) := s.res

/-- the mutating part of the public interface -/
inductive Op (β : Type) : Type where
  | reset
  | resetN (n : Nat)
  | roll_insert (r : Dbl β)

/-- one public call -/
def step [Zero β] (s : StopList β) : Op β → Res (StopList β)
  | .reset => .ok s.reset
  | .resetN n => .ok (s.resetN n)
  | .roll_insert r => s.roll_insert r

end StopList
end GF
