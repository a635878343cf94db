import Verif.Model.Vector
import Verif.Spec.Basic

namespace GF
namespace Vector

/-- The data a `Vector` holds: connectivity `c`, DOF table `d`, all node numbers and DOF numbers in
range.  Established by the constructor (`Vector.new_spec`). -/
structure Holds (V : Vector) (c d : Nat → Nat → Nat) : Prop where
  conn : Is2 V.conn V.nelem V.nne c
  dofs : Is2 V.dofs V.nnode V.ndim d
  conn_lt : ∀ e m, e < V.nelem → m < V.nne → c e m < V.nnode
  dofs_lt : ∀ m i, m < V.nnode → i < V.ndim → d m i < V.ndof

end Vector
end GF
