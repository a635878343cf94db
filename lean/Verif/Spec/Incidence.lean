import Verif.Spec.Basic

/-! Specification vocabulary for incidence lists. -/

namespace GF

/-- number of the indices `m < n` with the given property -/
def countIf (n : Nat) (p : Nat → Bool) : Nat := ((List.range n).filter p).length

/-- `RowsCount R N f`: `R` has `N` rows, and row `n` contains every number `e` exactly `f n e` times -/
def RowsCount (R : List (List Nat)) (N : Nat) (f : Nat → Nat → Nat) : Prop :=
  R.length = N ∧ ∀ n, n < N → ∃ row, R[n]? = some row ∧ ∀ e, row.count e = f n e

/-- every row is in ascending order -/
def Ascending (R : List (List Nat)) : Prop := ∀ row ∈ R, row.Pairwise (· ≤ ·)

/-- A DOF table in which two nodes share either all or none of their DOFs, component by component (as in a
periodic mesh). -/
def TiedTable (nnode ndim : Nat) (D : Nat → Nat → Nat) : Prop :=
  ∀ m n i j, m < nnode → n < nnode → i < ndim → j < ndim → D m i = D n j →
    i = j ∧ ∀ k, k < ndim → D m k = D n k

/-- the nodes `m` and `n` share their DOFs -/
def tied (ndim : Nat) (D : Nat → Nat → Nat) (m n : Nat) : Bool :=
  (List.range ndim).all fun k => D m k == D n k

end GF
