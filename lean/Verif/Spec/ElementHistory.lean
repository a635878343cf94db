import Verif.Model.ElementAxi
import Verif.Model.ElementHex8
import Verif.Spec.Element

/-! Life of a quadrature object: the constructor, then any number of calls of `update_x`. -/

namespace GF.Element
variable {α : Type} [Field α]

/-- `Quad4.Live td thick ne nip Ξ W Q X`: `Q` was constructed with integration points `Ξ q` and weights `W q`, then
updated any number of times, under arbitrary OpenMP schedules; the last coordinates were `X e m i`.  (`td = 2`,
`thick = 1`: `Quad4::Quadrature`; `td = 3`: `Quad4::QuadraturePlanar` with thickness `thick`.) -/
inductive Quad4.Live (td : Nat) (thick : α) (ne nip : Nat) (Ξ : Nat → Nat → α) (W : Nat → α) :
    Quadrature α → (Nat → Nat → Nat → α) → Prop
  | new {σ : Sched} {x xi w : Ten α} {Q : Quadrature α} {X} (hx : Is3 x ne 4 2 X) (hxi : Is2 xi nip 2 Ξ)
      (hw : Is1 w nip W) (h : Quad4.construct td thick σ x xi w = .ok Q) : Live td thick ne nip Ξ W Q X
  | update {σ : Sched} {x : Ten α} {Q Q' : Quadrature α} {X X'} (hQ : Live td thick ne nip Ξ W Q X)
      (hx : Is3 x ne 4 2 X') (h : Quad4.update_x thick σ Q x = .ok Q') : Live td thick ne nip Ξ W Q' X'

/-- `Axi.Live pi ne nip Ξ W A X`: the same for `Quad4::QuadratureAxisymmetric`; nodal coordinates are (z, r). -/
inductive Axi.Live (pi : α) (ne nip : Nat) (Ξ : Nat → Nat → α) (W : Nat → α) :
    QuadratureAxi α → (Nat → Nat → Nat → α) → Prop
  | new {σ : Sched} {x xi w : Ten α} {A : QuadratureAxi α} {X} (hx : Is3 x ne 4 2 X) (hxi : Is2 xi nip 2 Ξ)
      (hw : Is1 w nip W) (h : Axi.new pi σ x xi w = .ok A) : Live pi ne nip Ξ W A X
  | update {σ : Sched} {x : Ten α} {A A' : QuadratureAxi α} {X X'} (hA : Live pi ne nip Ξ W A X)
      (hx : Is3 x ne 4 2 X') (h : Axi.update_x pi σ A x = .ok A') : Live pi ne nip Ξ W A' X'

/-- `Hex8.Live ne nip Ξ W Q X`: the same for `Hex8::Quadrature`. -/
inductive Hex8.Live (ne nip : Nat) (Ξ : Nat → Nat → α) (W : Nat → α) :
    Quadrature α → (Nat → Nat → Nat → α) → Prop
  | new {σ : Sched} {x xi w : Ten α} {Q : Quadrature α} {X} (hx : Is3 x ne 8 3 X) (hxi : Is2 xi nip 3 Ξ)
      (hw : Is1 w nip W) (h : Hex8.new σ x xi w = .ok Q) : Live ne nip Ξ W Q X
  | update {σ : Sched} {x : Ten α} {Q Q' : Quadrature α} {X X'} (hQ : Live ne nip Ξ W Q X)
      (hx : Is3 x ne 8 3 X') (h : Hex8.update_x σ Q x = .ok Q') : Live ne nip Ξ W Q' X'

end GF.Element
