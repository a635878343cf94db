import Verif.Model.Element
import Verif.Spec.Element

/-! What a quadrature object stores. -/

namespace GF.Element
variable {α : Type}

/-- The arrays of a quadrature object hold the given shape functions `N`, global gradients `G` and volumes
`V`. -/
structure Holds (Q : Quadrature α) (nne nd td ne nip : Nat) (N : Nat → Nat → α)
    (G : Nat → Nat → Nat → Nat → α) (V : Nat → Nat → α) : Prop where
  nne_eq : Q.nne = nne
  nd_eq : Q.ndim = nd
  td_eq : Q.tdim = td
  ne_eq : Q.nelem = ne
  nip_eq : Q.nip = nip
  N_is : Is2 Q.N nip nne N
  G_is : Is4 Q.dNx ne nip nne nd G
  V_is : Is2 Q.vol ne nip V

end GF.Element
