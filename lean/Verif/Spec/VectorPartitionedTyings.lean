import Verif.Model.VectorPartitionedTyings
import Verif.Spec.Vector

namespace GF

/-- The data a `VectorPartitionedTyings` holds: connectivity `c`, renumbered DOFs `d` that use every
number below `nni + nnd`, and the tying matrix `C` (`nnd × nni`, entries `C r k`). -/
structure VectorPartitionedTyings.Holds {α : Type} (P : VectorPartitionedTyings α)
    (c d : Nat → Nat → Nat) (C : Nat → Nat → α) : Prop where
  base : P.V.Holds c d
  nni : P.nni = P.nnu + P.nnp
  iiu : P.iiu = List.range P.nnu
  iip : P.iip = (List.range P.nnp).map (P.nnu + ·)
  iii : P.iii = List.range P.nni
  iid : P.iid = (List.range P.nnd).map (P.nni + ·)
  ndof : P.V.ndof = P.nni + P.nnd
  surj : ∀ k, k < P.V.ndof → ∃ m i, m < P.V.nnode ∧ i < P.V.ndim ∧ d m i = k
  dim : P.Cid.nr = P.nni ∧ P.Cid.nc = P.nnd
  Cid : ∀ k r, k < P.nni → r < P.nnd → P.Cid.e k r = C r k

end GF
