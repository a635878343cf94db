import Verif.Model.MatrixPartitioned
import Verif.Spec.MatrixPartitioned

/-! Histories of calls on several matrix objects and several solver objects. -/

namespace GF

/-- What a history needs to know about a matrix class `β`: its `m_changed` flag, the block that its
solver factorises, the modifying calls and the solving calls. -/
structure SolverClass (β α : Type) where
  changed : β → Bool
  block : β → Mat α
  ModOp : Type
  modify : β → ModOp → Res β
  SolveOp : Type 1
  solve : SolverState α → β → SolveOp → Res (SolverState α × β × Ten α)

/-- The two facts about the calls on which the cache argument rests. -/
structure SolverClass.Lawful {β α : Type} (C : SolverClass β α) : Prop where
  modify_changed : ∀ m o m', C.modify m o = .ok m' → C.changed m' = true
  solve_factorize : ∀ s m o s' m' x, C.solve s m o = .ok (s', m', x) →
    (s', C.changed m') = s.factorize (C.changed m) (C.block m) ∧ C.block m' = C.block m

/-- All matrix and solver objects of a program. -/
structure World (β α : Type) where
  mat : Nat → β
  sol : Nat → SolverState α

/-- One call: modify matrix `i`, or solve with solver `j` on matrix `i`. -/
inductive World.Op {β α : Type} (C : SolverClass β α) where
  | modify (i : Nat) (o : C.ModOp)
  | solve (j i : Nat) (o : C.SolveOp)

def World.step {β α : Type} (C : SolverClass β α) (w : World β α) : World.Op C → Res (World β α)
  | .modify i o => do
    let m ← C.modify (w.mat i) o
    .ok { w with mat := Function.update w.mat i m }
  | .solve j i o => do
    let r ← C.solve (w.sol j) (w.mat i) o
    .ok ⟨Function.update w.mat i r.2.1, Function.update w.sol j r.1⟩

/-- run a history -/
def World.run {β α : Type} (C : SolverClass β α) (w : World β α) (h : List (World.Op C)) :
    Res (World β α) := forEach h (World.step C) w

/-- The discipline: solver `j` is only used on matrix `i` if `R j i`, where `R` pairs every solver with
at most one matrix and every matrix with at most one solver. -/
structure Paired (R : Nat → Nat → Prop) : Prop where
  one_matrix : ∀ j i i', R j i → R j i' → i = i'
  one_solver : ∀ j j' i, R j i → R j' i → j = j'

/-- the history only uses solvers on their own matrix -/
def Disciplined {β α : Type} (C : SolverClass β α) (R : Nat → Nat → Prop) (h : List (World.Op C)) :
    Prop := ∀ j i o, World.Op.solve j i o ∈ h → R j i

/-- the solving calls on a `Matrix` -/
inductive SMatrix.SolveOp (α : Type) where
  | dofval (b : Ten α)
  | nodevec (σ τ : Sched) (b : Ten α)

/-- `Matrix` with `MatrixSolver` -/
def SMatrix.solverClass {α : Type} [Zero α] [Add α] (S : LinSolver α) : SolverClass (SMatrix α) α where
  changed M := M.changed
  block M := M.A
  ModOp := SMatrix.Op α
  modify := SMatrix.step
  SolveOp := SMatrix.SolveOp α
  solve s M o := match o with
    | .dofval b => s.solve_dofval S M b
    | .nodevec σ τ b => s.solve_nodevec S M σ τ b

/-- the solving calls on a `MatrixPartitioned` -/
inductive MatrixPartitioned.SolveOp (α : Type) where
  | dofval (σ : Nat → Sched) (b x : Ten α)
  | nodevec (σ : Nat → Sched) (b x : Ten α)
  | u (bu xp : Ten α)

/-- `MatrixPartitioned` with `MatrixPartitionedSolver` -/
def MatrixPartitioned.solverClass {α : Type} [NonUnitalNonAssocRing α] (S : LinSolver α) :
    SolverClass (MatrixPartitioned α) α where
  changed M := M.changed
  block M := M.A.uu
  ModOp := SMatrix.Op α
  modify := MatrixPartitioned.step
  SolveOp := MatrixPartitioned.SolveOp α
  solve s M o := match o with
    | .dofval σ b x => M.solve_dofval S s σ b x
    | .nodevec σ b x => M.solve_nodevec S s σ b x
    | .u bu xp => M.solve_u S s bu xp

end GF
