import Verif.Model.ElementQuad4

/-! Model of `include/GooseFEM/ElementHex8.h`.  Gradients, interpolation, stiffness and the Jacobian are the generic
functions of `Element.h`. -/

namespace GF.Element.Hex8
variable {α : Type} [Zero α] [One α] [Add α] [Sub α] [Mul α] [Div α] [Neg α] [NatCast α]

/-- the assignments of `Gauss::xi()`, ElementHex8.h:45-85; `s` stands for `1.0 / std::sqrt(3.0)` -/
def Gauss.xiFill (s : α) (t : Ten α) : Res (Ten α) := do
  let t ← t.set [0, 0] (-s)
  let t ← t.set [0, 1] (-s)
  let t ← t.set [0, 2] (-s)
  let t ← t.set [1, 0] s
  let t ← t.set [1, 1] (-s)
  let t ← t.set [1, 2] (-s)
  let t ← t.set [2, 0] s
  let t ← t.set [2, 1] s
  let t ← t.set [2, 2] (-s)
  let t ← t.set [3, 0] (-s)
  let t ← t.set [3, 1] s
  let t ← t.set [3, 2] (-s)
  let t ← t.set [4, 0] (-s)
  let t ← t.set [4, 1] (-s)
  let t ← t.set [4, 2] s
  let t ← t.set [5, 0] s
  let t ← t.set [5, 1] (-s)
  let t ← t.set [5, 2] s
  let t ← t.set [6, 0] s
  let t ← t.set [6, 1] s
  let t ← t.set [6, 2] s
  let t ← t.set [7, 0] (-s)
  let t ← t.set [7, 1] s
  t.set [7, 2] s

/-- `Gauss::xi()`, ElementHex8.h:45-85 -/
def Gauss.xi (s : α) : Res (Ten α) := Gauss.xiFill s (Ten.empty [8, 3])

/-- `Gauss::w()`, ElementHex8.h:92-108 -/
def Gauss.w : Res (Ten α) := do
  let t ← (Ten.empty [8] : Ten α).set [0] 1
  let t ← t.set [1] 1
  let t ← t.set [2] 1
  let t ← t.set [3] 1
  let t ← t.set [4] 1
  let t ← t.set [5] 1
  let t ← t.set [6] 1
  let t ← t.set [7] 1
  .ok t

/-- the assignments of `Nodal::xi()`, ElementHex8.h:135-175 -/
def Nodal.xiFill (t : Ten α) : Res (Ten α) := do
  let t ← t.set [0, 0] (-1)
  let t ← t.set [0, 1] (-1)
  let t ← t.set [0, 2] (-1)
  let t ← t.set [1, 0] 1
  let t ← t.set [1, 1] (-1)
  let t ← t.set [1, 2] (-1)
  let t ← t.set [2, 0] 1
  let t ← t.set [2, 1] 1
  let t ← t.set [2, 2] (-1)
  let t ← t.set [3, 0] (-1)
  let t ← t.set [3, 1] 1
  let t ← t.set [3, 2] (-1)
  let t ← t.set [4, 0] (-1)
  let t ← t.set [4, 1] (-1)
  let t ← t.set [4, 2] 1
  let t ← t.set [5, 0] 1
  let t ← t.set [5, 1] (-1)
  let t ← t.set [5, 2] 1
  let t ← t.set [6, 0] 1
  let t ← t.set [6, 1] 1
  let t ← t.set [6, 2] 1
  let t ← t.set [7, 0] (-1)
  let t ← t.set [7, 1] 1
  t.set [7, 2] 1

/-- `Nodal::xi()`, ElementHex8.h:135-175 -/
def Nodal.xi : Res (Ten α) := Nodal.xiFill (Ten.empty [8, 3])

/-- `Nodal::w()`, ElementHex8.h:182-198 -/
def Nodal.w : Res (Ten α) := do
  let t ← (Ten.empty [8] : Ten α).set [0] 1
  let t ← t.set [1] 1
  let t ← t.set [2] 1
  let t ← t.set [3] 1
  let t ← t.set [4] 1
  let t ← t.set [5] 1
  let t ← t.set [6] 1
  let t ← t.set [7] 1
  .ok t

/-- loop that fills the shape functions, ElementHex8.h:262-274 -/
def shapeNLoop (nip : Nat) (xi t : Ten α) : Res (Ten α) :=
  forEach (it1 nip) (fun t q => do
    let a ← xi.get [q, 0]
    let b ← xi.get [q, 1]
    let c ← xi.get [q, 2]
    let t ← t.set [q, 0] (1 / 8 * (1 - a) * (1 - b) * (1 - c))
    let t ← t.set [q, 1] (1 / 8 * (1 + a) * (1 - b) * (1 - c))
    let t ← t.set [q, 2] (1 / 8 * (1 + a) * (1 + b) * (1 - c))
    let t ← t.set [q, 3] (1 / 8 * (1 - a) * (1 + b) * (1 - c))
    let t ← t.set [q, 4] (1 / 8 * (1 - a) * (1 - b) * (1 + c))
    let t ← t.set [q, 5] (1 / 8 * (1 + a) * (1 - b) * (1 + c))
    let t ← t.set [q, 6] (1 / 8 * (1 + a) * (1 + b) * (1 + c))
    t.set [q, 7] (1 / 8 * (1 - a) * (1 + b) * (1 + c))) t

/-- the shape functions, ElementHex8.h:262-274 -/
def shapeN (nip : Nat) (xi : Ten α) : Res (Ten α) := shapeNLoop nip xi (Ten.empty [nip, 8])

/-- loop that fills the local gradient of the shape functions, ElementHex8.h:263-304 -/
def shapeDNLoop (nip : Nat) (xi t : Ten α) : Res (Ten α) :=
  forEach (it1 nip) (fun t q => do
    let a ← xi.get [q, 0]
    let b ← xi.get [q, 1]
    let c ← xi.get [q, 2]
    let t ← t.set [q, 0, 0] (-(1 / 8) * (1 - b) * (1 - c))
    let t ← t.set [q, 1, 0] ((1 / 8) * (1 - b) * (1 - c))
    let t ← t.set [q, 2, 0] ((1 / 8) * (1 + b) * (1 - c))
    let t ← t.set [q, 3, 0] (-(1 / 8) * (1 + b) * (1 - c))
    let t ← t.set [q, 4, 0] (-(1 / 8) * (1 - b) * (1 + c))
    let t ← t.set [q, 5, 0] ((1 / 8) * (1 - b) * (1 + c))
    let t ← t.set [q, 6, 0] ((1 / 8) * (1 + b) * (1 + c))
    let t ← t.set [q, 7, 0] (-(1 / 8) * (1 + b) * (1 + c))
    let t ← t.set [q, 0, 1] (-(1 / 8) * (1 - a) * (1 - c))
    let t ← t.set [q, 1, 1] (-(1 / 8) * (1 + a) * (1 - c))
    let t ← t.set [q, 2, 1] ((1 / 8) * (1 + a) * (1 - c))
    let t ← t.set [q, 3, 1] ((1 / 8) * (1 - a) * (1 - c))
    let t ← t.set [q, 4, 1] (-(1 / 8) * (1 - a) * (1 + c))
    let t ← t.set [q, 5, 1] (-(1 / 8) * (1 + a) * (1 + c))
    let t ← t.set [q, 6, 1] ((1 / 8) * (1 + a) * (1 + c))
    let t ← t.set [q, 7, 1] ((1 / 8) * (1 - a) * (1 + c))
    let t ← t.set [q, 0, 2] (-(1 / 8) * (1 - a) * (1 - b))
    let t ← t.set [q, 1, 2] (-(1 / 8) * (1 + a) * (1 - b))
    let t ← t.set [q, 2, 2] (-(1 / 8) * (1 + a) * (1 + b))
    let t ← t.set [q, 3, 2] (-(1 / 8) * (1 - a) * (1 + b))
    let t ← t.set [q, 4, 2] ((1 / 8) * (1 - a) * (1 - b))
    let t ← t.set [q, 5, 2] ((1 / 8) * (1 + a) * (1 - b))
    let t ← t.set [q, 6, 2] ((1 / 8) * (1 + a) * (1 + b))
    t.set [q, 7, 2] ((1 / 8) * (1 - a) * (1 + b))) t

/-- the local gradient of the shape functions, ElementHex8.h:263-304 -/
def shapeDN (nip : Nat) (xi : Ten α) : Res (Ten α) := shapeDNLoop nip xi (Ten.empty [nip, 8, 3])

/-- `Quadrature(x, xi, w)`, ElementHex8.h:255-317 (assertions off) -/
def new (σ : Sched) (x xi w : Ten α) : Res (Quadrature α) :=
  match w.shape, x.shape with
  | [nip], [nelem, _, _] => do
    let N ← shapeN nip xi
    let dNxi ← shapeDN nip xi
    Quadrature.compute_dN_impl ⟨8, 3, 3, nelem, nip, x, w, xi, N, dNxi, Ten.empty [nelem, nip, 8, 3],
      Ten.empty [nelem, nip]⟩ σ
  | _, _ => .ub

/-- `Quadrature(x)`: the Gauss rule, ElementHex8.h:234-236 -/
def newGauss (s : α) (σ : Sched) (x : Ten α) : Res (Quadrature α) := do
  let xi ← Gauss.xi s
  let w ← Gauss.w
  new σ x xi w

/-- `update_x`, Element.h:564-569 -/
def update_x (σ : Sched) (Q : Quadrature α) (x : Ten α) : Res (Quadrature α) :=
  Quadrature.compute_dN_impl { Q with x := x } σ

/-- `int_N_scalar_NT_dV_impl`, ElementHex8.h:324-352 -/
def int_N_scalar_NT_dV_impl (Q : Quadrature α) (σ : Sched) (qscalar elemmat : Ten α) :
    Res (Ten α) :=
  forEach (σ.run (it1 Q.nelem)) (fun t e =>
    forEach (it1 Q.nip) (fun t q =>
      forEach (it2 8 8) (fun t mn => do
        let v ← Q.vol.get [e, q]
        let r ← qscalar.get [e, q]
        let a ← Q.N.get [q, mn.1]
        let b ← Q.N.get [q, mn.2]
        let t ← t.addAt [e, mn.1 * 3 + 0, mn.2 * 3 + 0] (a * r * b * v)
        let t ← t.addAt [e, mn.1 * 3 + 1, mn.2 * 3 + 1] (a * r * b * v)
        t.addAt [e, mn.1 * 3 + 2, mn.2 * 3 + 2] (a * r * b * v)) t) t)
    (Ten.full elemmat.shape 0)

/-- `int_gradN_dot_tensor2_dV_impl`, ElementHex8.h:355-383 -/
def int_gradN_dot_tensor2_dV_impl (Q : Quadrature α) (σ : Sched) (qtensor elemvec : Ten α) :
    Res (Ten α) :=
  forEach (σ.run (it1 Q.nelem)) (fun t e =>
    forEach (it1 Q.nip) (fun t q =>
      forEach (it1 8) (fun t m => do
        let v ← Q.vol.get [e, q]
        let d0 ← Q.dNx.get [e, q, m, 0]
        let d1 ← Q.dNx.get [e, q, m, 1]
        let d2 ← Q.dNx.get [e, q, m, 2]
        let s0 ← qtensor.get [e, q, 0, 0]
        let s1 ← qtensor.get [e, q, 1, 0]
        let s2 ← qtensor.get [e, q, 2, 0]
        let t ← t.addAt [e, m, 0] ((d0 * s0 + d1 * s1 + d2 * s2) * v)
        let s0 ← qtensor.get [e, q, 0, 1]
        let s1 ← qtensor.get [e, q, 1, 1]
        let s2 ← qtensor.get [e, q, 2, 1]
        let t ← t.addAt [e, m, 1] ((d0 * s0 + d1 * s1 + d2 * s2) * v)
        let s0 ← qtensor.get [e, q, 0, 2]
        let s1 ← qtensor.get [e, q, 1, 2]
        let s2 ← qtensor.get [e, q, 2, 2]
        t.addAt [e, m, 2] ((d0 * s0 + d1 * s1 + d2 * s2) * v)) t) t)
    (Ten.full elemvec.shape 0)

/-- `GradN_vector`, Element.h:634-640 (generic implementation) -/
def GradN_vector (Q : Quadrature α) (σ : Sched) (elemvec : Ten α) : Res (Ten α) :=
  Q.gradN_vector_impl σ elemvec (Ten.empty (Q.shape_qtensor 2))
/-- `GradN_vector_T`, Element.h:666-672 -/
def GradN_vector_T (Q : Quadrature α) (σ : Sched) (elemvec : Ten α) : Res (Ten α) :=
  Q.gradN_vector_T_impl σ elemvec (Ten.empty (Q.shape_qtensor 2))
/-- `SymGradN_vector`, Element.h:699-705 -/
def SymGradN_vector (Q : Quadrature α) (σ : Sched) (elemvec : Ten α) : Res (Ten α) :=
  Q.symGradN_vector_impl σ elemvec (Ten.empty (Q.shape_qtensor 2))
/-- `Int_N_scalar_NT_dV`, Element.h:770-776 -/
def Int_N_scalar_NT_dV (Q : Quadrature α) (σ : Sched) (qscalar : Ten α) : Res (Ten α) :=
  int_N_scalar_NT_dV_impl Q σ qscalar (Ten.empty Q.shape_elemmat)
/-- `Int_gradN_dot_tensor2_dV`, Element.h:807-813 -/
def Int_gradN_dot_tensor2_dV (Q : Quadrature α) (σ : Sched) (qtensor : Ten α) : Res (Ten α) :=
  int_gradN_dot_tensor2_dV_impl Q σ qtensor (Ten.empty Q.shape_elemvec)

end GF.Element.Hex8
