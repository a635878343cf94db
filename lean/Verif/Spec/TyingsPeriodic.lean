import Verif.Model.TyingsPeriodic
import Verif.Spec.Basic
import Mathlib.Algebra.BigOperators.Intervals

/-! Specification of periodic tyings. -/

namespace GF
namespace Periodic
open Finset
variable {α : Type}

/-- Valid arguments of the constructor: coordinates `x`, DOFs `d`, control DOFs `c`, pairs
(independent node, dependent node) `t`.  No DOF is dependent twice, prescribed or control DOFs and
the DOFs of independent nodes are not dependent, and the given DOF numbers occur in `d`. -/
structure Input (nnode ndim nties : Nat) (d c t : Nat → Nat → Nat) (iip : List Nat) : Prop where
  tie_lt : ∀ i, i < nties → t i 0 < nnode ∧ t i 1 < nnode
  dep_inj : ∀ i j i' j', i < nties → j < ndim → i' < nties → j' < ndim →
    d (t i 1) j = d (t i' 1) j' → i = i' ∧ j = j'
  iip_nodup : iip.Nodup
  iip_mem : ∀ k ∈ iip, ∃ m i, m < nnode ∧ i < ndim ∧ d m i = k
  iip_indep : ∀ i j, i < nties → j < ndim → d (t i 1) j ∉ iip
  ind_indep : ∀ i j i' j', i < nties → j < ndim → i' < nties → j' < ndim →
    d (t i 0) j ≠ d (t i' 1) j'
  ctrl_mem : ∀ j k, j < ndim → k < ndim → ∃ m i, m < nnode ∧ i < ndim ∧ d m i = c j k
  ctrl_indep : ∀ j k i j', j < ndim → k < ndim → i < nties → j' < ndim → c j k ≠ d (t i 1) j'

/-- The state of a `Tyings::Periodic` object: renumbered DOFs `q`, renumbered control DOFs `p`,
coordinates `x` and pairs `t`; independent DOFs come first, then the dependent ones in the order of
the pairs. -/
structure Holds (T : Periodic α) (nnode : Nat) (x : Nat → Nat → α) (q p t : Nat → Nat → Nat) :
    Prop where
  coor : Is2 T.coor nnode T.ndim x
  dofs : Is2 T.dofs nnode T.ndim q
  control : Is2 T.control T.ndim T.ndim p
  tyings : Is2 T.tyings T.nties 2 t
  tie_lt : ∀ i, i < T.nties → t i 0 < nnode ∧ t i 1 < nnode
  nnd : T.nnd = T.nties * T.ndim
  nni : T.nni = T.nnu + T.nnp
  ind : ∀ i j, i < T.nties → j < T.ndim → q (t i 0) j < T.nni
  ctrl : ∀ j k, j < T.ndim → k < T.ndim → p j k < T.nni
  dep : ∀ i j, i < T.nties → j < T.ndim → q (t i 1) j = T.nni + (i * T.ndim + j)

end Periodic
end GF
