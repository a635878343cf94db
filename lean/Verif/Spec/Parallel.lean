import Verif.Base

/-! Shared-memory semantics of a parallel loop at the level of single memory accesses. It is independent of the model of the
loops as permutations of their iterations (`Sched`). -/

namespace GF
variable {L α β γ : Type}

/-- What an iteration does, access by access: it reads a cell of a shared array and continues with the value, or it writes a
value to a cell, or it ends with an outcome. Everything that does not touch the arrays that are written in the loop (reads of
constant arrays, arithmetic, private scratch memory) is part of the continuation. -/
inductive Prog (L α β : Type) where
  | ret (r : Res β)
  | read (l : L) (k : α → Prog L α β)
  | write (l : L) (a : α) (k : Prog L α β)

namespace Prog

/-- sequential composition -/
def bind : Prog L α β → (β → Prog L α γ) → Prog L α γ
  | .ret (.ok b), f => f b
  | .ret .throws, _ => .ret .throws
  | .ret .ub, _ => .ret .ub
  | .read l k, f => .read l fun a => (k a).bind f
  | .write l a k, f => .write l a (k.bind f)

instance : Monad (Prog L α) where
  pure b := .ret (.ok b)
  bind := bind

/-- something that does not touch the shared arrays -/
def local' (r : Res β) : Prog L α β := .ret r

instance : MonadLift Res (Prog L α) := ⟨local'⟩

/-- `arr(l) = a` -/
def put (l : L) (a : α) : Prog L α Unit := .write l a (.ret (.ok ()))

/-- `arr(l)` -/
def fetch (l : L) : Prog L α α := .read l fun a => .ret (.ok a)

/-- `arr(l) += a`: a read followed by a write, not atomic -/
def add [Add α] (l : L) (a : α) : Prog L α Unit := .read l fun b => .write l (b + a) (.ret (.ok ()))

/-- `for (auto i : l) { body }` inside of one iteration -/
def loop {ι : Type} (f : ι → Prog L α Unit) : List ι → Prog L α Unit
  | [] => .ret (.ok ())
  | i :: l => (f i).bind fun _ => loop f l

end Prog

/-- the shared memory (a cell that was never written is `none`) and the iterations that are in progress -/
structure Config (L α : Type) where
  mem : L → Option α
  threads : List (Prog L α Unit)

/-- one memory access of any one of the iterations; `valid` are the cells that exist -/
inductive Access [DecidableEq L] (valid : L → Bool) : Config L α → Config L α → Prop where
  | read {m ts i l k a} : ts[i]? = some (.read l k) → valid l = true → m l = some a → Access valid ⟨m, ts⟩ ⟨m, ts.set i (k a)⟩
  | write {m ts i l a k} : ts[i]? = some (.write l a k) → valid l = true →
      Access valid ⟨m, ts⟩ ⟨Function.update m l (some a), ts.set i k⟩

/-- `n` accesses, in any order that keeps the order inside of every iteration -/
inductive Accesses [DecidableEq L] (valid : L → Bool) : Nat → Config L α → Config L α → Prop where
  | none {c} : Accesses valid 0 c c
  | more {n c c' c''} : Accesses valid n c c' → Access valid c' c'' → Accesses valid (n + 1) c c''

/-- the cell that is accessed next -/
def Prog.next : Prog L α β → Option L
  | .ret _ => none
  | .read l _ => some l
  | .write l _ _ => some l

/-- the next access is a write -/
def Prog.writes : Prog L α β → Prop
  | .write _ _ _ => True
  | _ => False

/-- data race: two iterations are about to access the same cell, and one of the accesses is a write -/
def Config.Race (c : Config L α) : Prop :=
  ∃ (i j : Nat) (p q : Prog L α Unit) (l : L), i ≠ j ∧ c.threads[i]? = some p ∧ c.threads[j]? = some q ∧ p.next = some l ∧ q.next = some l ∧ p.writes

/-- the next action of some iteration is an access outside of the arrays, a read of a cell that was never written, or it ended
with an exception or with undefined behaviour -/
def Config.Wrong (valid : L → Bool) (c : Config L α) : Prop :=
  ∃ p ∈ c.threads, match p with
    | .ret r => r ≠ .ok ()
    | .read l _ => valid l = false ∨ c.mem l = none
    | .write l _ _ => valid l = false

/-- all iterations have ended normally -/
def Config.Done (c : Config L α) : Prop := ∀ p ∈ c.threads, p = .ret (.ok ())

/-- However the accesses of the iterations are interleaved: there is no data race, nothing goes wrong, some iteration can
always go on until all have ended, which is the case after finitely many accesses; and then the shared memory is `m'`. -/
def RaceFree [DecidableEq L] (valid : L → Bool) (m : L → Option α) (threads : List (Prog L α Unit)) (m' : L → Option α) : Prop :=
  (∀ n c, Accesses valid n ⟨m, threads⟩ c → ¬ c.Race ∧ ¬ c.Wrong valid ∧ (c.Done → c.mem = m') ∧ (¬ c.Done → ∃ c', Access valid c c')) ∧
  ∃ N, ∀ n c, Accesses valid n ⟨m, threads⟩ c → n ≤ N

/-- the cells of two arrays: `(false, _)` of the first, `(true, _)` of the second -/
def inBoth (a b : List Nat) : Bool × List Nat → Bool
  | (false, ix) => inb a ix
  | (true, ix) => inb b ix

/-- the contents of two arrays -/
def both (a b : Ten α) : Bool × List Nat → Option α
  | (false, ix) => a.v ix
  | (true, ix) => b.v ix

/-- a data race is possible -/
def HasRace [DecidableEq L] (valid : L → Bool) (m : L → Option α) (threads : List (Prog L α Unit)) : Prop :=
  ∃ n c, Accesses valid n ⟨m, threads⟩ c ∧ c.Race

/-- However the accesses of the iterations are interleaved, one access at a time: nothing goes wrong, the loop ends, and then the
shared memory is `m'`. Data races are not excluded. -/
def SameResult [DecidableEq L] (valid : L → Bool) (m : L → Option α) (threads : List (Prog L α Unit)) (m' : L → Option α) : Prop :=
  (∀ n c, Accesses valid n ⟨m, threads⟩ c → ¬ c.Wrong valid ∧ (c.Done → c.mem = m') ∧ (¬ c.Done → ∃ c', Access valid c c')) ∧
  ∃ N, ∀ n c, Accesses valid n ⟨m, threads⟩ c → n ≤ N

/-- rows `a` and `b` of the table have an entry in common (first `m` columns), one with the property `keep` -/
def RowsShare (t : Ten Nat) (keep : Nat → Prop) (m a b : Nat) : Prop :=
  ∃ (i j k : Nat), keep k ∧ i < m ∧ j < m ∧ t.get [a, i] = .ok k ∧ t.get [b, j] = .ok k

/-- elements `a` and `b` have a DOF in common, one with the property `keep` -/
def ElemsShare (conn dofs : Ten Nat) (keep : Nat → Prop) (nne ndim a b : Nat) : Prop :=
  ∃ (i j n n' x y k : Nat), keep k ∧ i < nne ∧ j < nne ∧ x < ndim ∧ y < ndim ∧ conn.get [a, i] = .ok n ∧ conn.get [b, j] = .ok n' ∧
    dofs.get [n, x] = .ok k ∧ dofs.get [n', y] = .ok k

end GF
