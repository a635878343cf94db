import Verif.Model.VectorPartitioned
import Verif.Spec.Vector

namespace GF
namespace VectorPartitioned

/-- The data a `VectorPartitioned` holds: connectivity `c`, DOF table `d`, partitioned numbering `q`.
`iiu` is the ascending list of the DOFs that are not prescribed, `q m i` is the position of DOF
`d m i` in `iiu ++ iip`.  Established by the constructor (`C12_constructor`). -/
structure Holds (P : VectorPartitioned) (c d q : Nat → Nat → Nat) : Prop where
  base : P.V.Holds c d
  nnu : P.nnu = P.iiu.length
  nnp : P.nnp = P.iip.length
  sorted : P.iiu.Pairwise (· < ·)
  nodup : (P.iiu ++ P.iip).Nodup
  iiu_mem : ∀ k, k ∈ P.iiu ↔ (∃ m i, m < P.V.nnode ∧ i < P.V.ndim ∧ d m i = k) ∧ k ∉ P.iip
  iip_lt : ∀ k ∈ P.iip, k < P.V.ndof
  part : Is2 P.part P.V.nnode P.V.ndim q
  pos : ∀ m i, m < P.V.nnode → i < P.V.ndim → (P.iiu ++ P.iip)[q m i]? = some (d m i)

end VectorPartitioned
end GF
