import Verif.Spec.System

/-! A reference implementation of the default solver, `Eigen::SimplicialLDLT` (Matrix.h:866, MatrixPartitioned.h:525,
MatrixPartitionedTyings.h:527): elimination without pivoting that reads the lower triangle of the matrix only. Eigen itself is not
part of the repository; it also reorders the unknowns (`AMDOrdering`) to keep the factors sparse, and stores the factors. Both have
no effect in exact arithmetic. -/

namespace GF
open Finset
variable {α : Type} [Field α]

/-- the solution of `n` equations with matrix `a` and right-hand side `b`: the last unknown is eliminated, the remaining `n - 1`
equations are solved, and the last unknown follows -/
def ldltRun : Nat → (Nat → Nat → α) → (Nat → α) → Nat → α
  | 0, _, _ => fun _ => 0
  | n + 1, a, b =>
    let z := ldltRun n (fun i j => a i j - a n i * a n j / a n n) (fun i => b i - a n i * b n / a n n)
    fun k => if k = n then (b n - ∑ j ∈ range n, a n j * z j) / a n n else z k

/-- `Eigen::SimplicialLDLT` -/
def ldlt : LinSolver α := ⟨fun A b => ldltRun A.nr A.e b⟩

end GF
