import Mathlib.Logic.Function.Basic
import Mathlib.Data.List.Basic
import Mathlib.Tactic.Common

/-!
# Machine model

Outcomes of C++ calls, arrays and loops.  Nothing in this file is specific to one class of
GooseFEM; it models the array library (xtensor) and the control flow used throughout
`/repo/include/GooseFEM`.
-/

namespace GF

/-- Outcome of a C++ call.
* `ok a`   : the call returns (or stores) `a`;
* `throws` : a `std::runtime_error` is thrown;
* `ub`     : an access outside an array, a read of a never-written cell, a wrap-around of an unsigned
  subtraction used as an index, or a division by zero on integers happens. -/
inductive Res (α : Type) : Type where
  | ok (a : α) : Res α
  | throws : Res α
  | ub : Res α
deriving Repr, DecidableEq

namespace Res

def bind {α β : Type} (x : Res α) (f : α → Res β) : Res β :=
  match x with
  | ok a => f a
  | throws => throws
  | ub => ub

instance : Monad Res where
  pure := Res.ok
  bind := Res.bind

end Res

/-- `inb shape idx`: the multi-index `idx` addresses a cell of an array of shape `shape`. -/
def inb : List Nat → List Nat → Bool
  | [], [] => true
  | n :: sh, i :: ix => decide (i < n) && inb sh ix
  | _, _ => false

/-- An `xt::xtensor` / `xt::xarray`: run-time shape and cells.  A cell holding `none` has been
allocated (`xt::empty`) but never written. -/
structure Ten (α : Type) where
  shape : List Nat
  v : List Nat → Option α

namespace Ten

variable {α : Type}

/-- `xt::empty<double>(shape)` -/
def empty (sh : List Nat) : Ten α := ⟨sh, fun _ => none⟩

/-- `xt::empty` followed by `fill(a)`; `xt::zeros`, `xt::ones` -/
def full (sh : List Nat) (a : α) : Ten α := ⟨sh, fun _ => some a⟩

/-- build an array from its entries -/
def of (sh : List Nat) (f : List Nat → α) : Ten α := ⟨sh, fun ix => some (f ix)⟩

/-- `arr(i, j, ...)` as r-value -/
def get (t : Ten α) (ix : List Nat) : Res α :=
  if inb t.shape ix then
    match t.v ix with
    | some a => .ok a
    | none => .ub
  else .ub

/-- `arr(i, j, ...) = a` -/
def set (t : Ten α) (ix : List Nat) (a : α) : Res (Ten α) :=
  if inb t.shape ix then .ok ⟨t.shape, Function.update t.v ix (some a)⟩ else .ub

/-- `arr(i, j, ...) += a` -/
def addAt [Add α] (t : Ten α) (ix : List Nat) (a : α) : Res (Ten α) := do
  let b ← t.get ix
  t.set ix (b + a)

/-- `arr.dimension()` -/
def rank (t : Ten α) : Nat := t.shape.length

end Ten

/-- `for (auto it : its) { body }`: run `body` for the listed iterations, in that order. -/
def forEach.{u} {σ : Type} {ι : Type u} : List ι → (σ → ι → Res σ) → σ → Res σ
  | [], _, s => .ok s
  | i :: l, f, s => (f s i).bind (forEach l f)

/-- `std::transform`-like traversal: apply a checked operation to every entry, in order. -/
def mapRes {α β : Type} (f : α → Res β) : List α → Res (List β)
  | [] => .ok []
  | a :: l => do
    let b ← f a
    let r ← mapRes f l
    .ok (b :: r)

/-- all multi-indices of an array, row-major (xtensor's default layout and iteration order) -/
def indices : List Nat → List (List Nat)
  | [] => [[]]
  | n :: sh => (List.range n).flatMap fun i => (indices sh).map fun ix => i :: ix

/-- the entries of an array in iteration order (`arr.begin()` .. `arr.end()`) -/
def Ten.flat {α : Type} (t : Ten α) : Res (List α) := mapRes t.get (indices t.shape)

/-- `xt::amax(arr)()` for an unsigned array (the reducer starts at the lowest value, 0) -/
def amax (t : Ten Nat) : Res Nat := do
  let l ← t.flat
  .ok (l.foldl max 0)

/-- An OpenMP scheduler: `#pragma omp parallel for` executes the iterations of the loop in an
arbitrary order.  Statement-level atomicity is assumed. -/
structure Sched where
  run : {ι : Type} → List ι → List ι
  perm : ∀ {ι : Type} (l : List ι), (run l).Perm l

/-- the sequential schedule (no OpenMP) -/
def Sched.seq : Sched := ⟨fun l => l, fun _ => List.Perm.refl _⟩

/-- a schedule that runs every loop backwards -/
def Sched.rev : Sched := ⟨fun l => l.reverse, fun l => List.reverse_perm l⟩

/-- iterations of `for (i = 0; i < n; ++i)` -/
def it1 (n : Nat) : List Nat := List.range n

/-- iterations of two nested loops, in program order -/
def it2 (n m : Nat) : List (Nat × Nat) :=
  (List.range n).flatMap fun i => (List.range m).map fun j => (i, j)

/-- iterations of three nested loops, in program order -/
def it3 (n m k : Nat) : List (Nat × Nat × Nat) :=
  (List.range n).flatMap fun i => (it2 m k).map fun j => (i, j)

/-- iterations of five nested loops, in program order -/
def it5 (n m k l o : Nat) : List (Nat × Nat × Nat × Nat × Nat) :=
  (List.range n).flatMap fun a => (List.range m).flatMap fun b =>
    (it3 k l o).map fun j => (a, b, j)

/-- element access of a 1-d index array that is modelled as a list -/
def lget {α : Type} (l : List α) (i : Nat) : Res α :=
  match l[i]? with
  | some a => .ok a
  | none => .ub

/-- `xt::unique` of the entries `l`: the distinct values in ascending order (library function,
modelled by its specification). -/
def unique (l : List Nat) : List Nat := (List.range (l.foldl max 0 + 1)).filter fun k => l.contains k

/-- `xt::setdiff1d(a, b)`: the distinct values of `a` that are not in `b`, in ascending order (library
function, modelled by its specification). -/
def setdiff1d (a b : List Nat) : List Nat := (unique a).filter fun k => !b.contains k

end GF
