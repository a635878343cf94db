import Verif.Model.Element

/-! Model of `include/GooseFEM/ElementQuad4.h` and `ElementQuad4Planar.h`. -/

namespace GF.Element.Quad4
variable {α : Type} [Zero α] [One α] [Add α] [Sub α] [Mul α] [Div α] [Neg α] [NatCast α]

/-- `Gauss::xi()`, ElementQuad4.h:55-72; `s` stands for `1.0 / std::sqrt(3.0)` -/
def Gauss.xi (s : α) : Res (Ten α) := do
  let t ← (Ten.empty [4, 2] : Ten α).set [0, 0] (-s)
  let t ← t.set [0, 1] (-s)
  let t ← t.set [1, 0] s
  let t ← t.set [1, 1] (-s)
  let t ← t.set [2, 0] s
  let t ← t.set [2, 1] s
  let t ← t.set [3, 0] (-s)
  let t ← t.set [3, 1] s
  .ok t

/-- `Gauss::w()`, ElementQuad4.h:79-91 -/
def Gauss.w : Res (Ten α) := do
  let t ← (Ten.empty [4] : Ten α).set [0] 1
  let t ← t.set [1] 1
  let t ← t.set [2] 1
  let t ← t.set [3] 1
  .ok t

/-- `Nodal::xi()`, ElementQuad4.h:122-142 -/
def Nodal.xi : Res (Ten α) := do
  let t ← (Ten.empty [4, 2] : Ten α).set [0, 0] (-1)
  let t ← t.set [0, 1] (-1)
  let t ← t.set [1, 0] 1
  let t ← t.set [1, 1] (-1)
  let t ← t.set [2, 0] 1
  let t ← t.set [2, 1] 1
  let t ← t.set [3, 0] (-1)
  let t ← t.set [3, 1] 1
  .ok t

/-- `Nodal::w()`, ElementQuad4.h:149-161 -/
def Nodal.w : Res (Ten α) := do
  let t ← (Ten.empty [4] : Ten α).set [0] 1
  let t ← t.set [1] 1
  let t ← t.set [2] 1
  let t ← t.set [3] 1
  .ok t

/-- `MidPoint::xi()`, ElementQuad4.h:193-204 -/
def MidPoint.xi : Res (Ten α) := do
  let t ← (Ten.empty [1, 2] : Ten α).set [0, 0] 0
  let t ← t.set [0, 1] 0
  .ok t

/-- `MidPoint::w()`, ElementQuad4.h:211-220 (weight 1) -/
def MidPoint.w : Res (Ten α) := do
  let t ← (Ten.empty [1] : Ten α).set [0] 1
  .ok t

/-- the shape functions, ElementQuad4.h:284-292; the same text in ElementQuad4Planar.h:88-97 and
ElementQuad4Axisymmetric.h:86-96 -/
def shapeN (nip : Nat) (xi : Ten α) : Res (Ten α) :=
  forEach (it1 nip) (fun t q => do
    let a ← xi.get [q, 0]
    let b ← xi.get [q, 1]
    let t ← t.set [q, 0] (1 / 4 * (1 - a) * (1 - b))
    let t ← t.set [q, 1] (1 / 4 * (1 + a) * (1 - b))
    let t ← t.set [q, 2] (1 / 4 * (1 + a) * (1 + b))
    t.set [q, 3] (1 / 4 * (1 - a) * (1 + b))) (Ten.empty [nip, 4])

/-- the local gradient of the shape functions, ElementQuad4.h:285-305; the same text in
ElementQuad4Planar.h:89-110 and ElementQuad4Axisymmetric.h:87-109 -/
def shapeDN (nip : Nat) (xi : Ten α) : Res (Ten α) :=
  forEach (it1 nip) (fun t q => do
    let a ← xi.get [q, 0]
    let b ← xi.get [q, 1]
    let t ← t.set [q, 0, 0] (-(1 / 4) * (1 - b))
    let t ← t.set [q, 1, 0] ((1 / 4) * (1 - b))
    let t ← t.set [q, 2, 0] ((1 / 4) * (1 + b))
    let t ← t.set [q, 3, 0] (-(1 / 4) * (1 + b))
    let t ← t.set [q, 0, 1] (-(1 / 4) * (1 - a))
    let t ← t.set [q, 1, 1] (-(1 / 4) * (1 + a))
    let t ← t.set [q, 2, 1] ((1 / 4) * (1 + a))
    t.set [q, 3, 1] ((1 / 4) * (1 - a))) (Ten.empty [nip, 4, 2])

/-- the four-term expressions `a(0) * b(0) + a(1) * b(1) + a(2) * b(2) + a(3) * b(3)` that are written
out throughout ElementQuad4*.h -/
def dot4 (a b : Nat → Res α) : Res α := do
  let a0 ← a 0
  let b0 ← b 0
  let a1 ← a 1
  let b1 ← b 1
  let a2 ← a 2
  let b2 ← b 2
  let a3 ← a 3
  let b3 ← b 3
  .ok (a0 * b0 + a1 * b1 + a2 * b2 + a3 * b3)

/-- the Jacobian, ElementQuad4.h:511-518; the same text in ElementQuad4Planar.h:298-305 and
ElementQuad4Axisymmetric.h:414-421 -/
def jacobian (dNxi x : Ten α) (e q : Nat) : Res (Ten α) := do
  let v ← dot4 (fun m => dNxi.get [q, m, 0]) (fun m => x.get [e, m, 0])
  let J ← (Ten.empty [2, 2] : Ten α).set [0, 0] v
  let v ← dot4 (fun m => dNxi.get [q, m, 0]) (fun m => x.get [e, m, 1])
  let J ← J.set [0, 1] v
  let v ← dot4 (fun m => dNxi.get [q, m, 1]) (fun m => x.get [e, m, 0])
  let J ← J.set [1, 0] v
  let v ← dot4 (fun m => dNxi.get [q, m, 1]) (fun m => x.get [e, m, 1])
  J.set [1, 1] v

/-- one integration point of `compute_dN_impl`, ElementQuad4.h:507-528; `thick` is the trailing factor of
ElementQuad4Planar.h:294-315 (`1` for the 2-d class, which has no such factor) -/
def compute_dN_point (Q : Quadrature α) (thick : α) (s : Ten α × Ten α) (e q : Nat) :
    Res (Ten α × Ten α) := do
  let J ← jacobian Q.dNxi Q.x e q
  let r ← inv2 J (Ten.empty [2, 2])
  let dNx ← forEach (it1 4) (fun t m => do
    let j00 ← r.2.get [0, 0]
    let j01 ← r.2.get [0, 1]
    let j10 ← r.2.get [1, 0]
    let j11 ← r.2.get [1, 1]
    let d0 ← Q.dNxi.get [q, m, 0]
    let d1 ← Q.dNxi.get [q, m, 1]
    let t ← t.set [e, q, m, 0] (j00 * d0 + j01 * d1)
    t.set [e, q, m, 1] (j10 * d0 + j11 * d1)) s.1
  let w ← Q.w.get [q]
  let vol ← s.2.set [e, q] (w * r.1 * thick)
  .ok (dNx, vol)

/-- `compute_dN_impl`, ElementQuad4.h:493-532 and ElementQuad4Planar.h:280-319 -/
def compute_dN_impl (Q : Quadrature α) (thick : α) (σ : Sched) : Res (Quadrature α) := do
  let s ← forEach (σ.run (it1 Q.nelem)) (fun s e =>
    forEach (it1 Q.nip) (fun s q => compute_dN_point Q thick s e q) s) (Q.dNx, Q.vol)
  .ok { Q with dNx := s.1, vol := s.2 }

/-- constructor, ElementQuad4.h:277-318 (`tdim = 2`, `thick = 1`) and ElementQuad4Planar.h:81-123
(`tdim = 3`); assertions off -/
def construct (tdim : Nat) (thick : α) (σ : Sched) (x xi w : Ten α) : Res (Quadrature α) :=
  match w.shape, x.shape with
  | [nip], [nelem, _, _] => do
    let N ← shapeN nip xi
    let dNxi ← shapeDN nip xi
    compute_dN_impl ⟨4, 2, tdim, nelem, nip, x, w, xi, N, dNxi, Ten.empty [nelem, nip, 4, 2],
      Ten.empty [nelem, nip]⟩ thick σ
  | _, _ => .ub

/-- `Quadrature(x, xi, w)`, ElementQuad4.h:277-318 -/
def new (σ : Sched) (x xi w : Ten α) : Res (Quadrature α) := construct 2 1 σ x xi w

/-- `QuadraturePlanar(x, xi, w, thick)`, ElementQuad4Planar.h:81-123 -/
def newPlanar (σ : Sched) (x xi w : Ten α) (thick : α) : Res (Quadrature α) := construct 3 thick σ x xi w

/-- `Quadrature(x)`: the Gauss rule, ElementQuad4.h:256-258 -/
def newGauss (s : α) (σ : Sched) (x : Ten α) : Res (Quadrature α) := do
  let xi ← Gauss.xi s
  let w ← Gauss.w
  new σ x xi w

/-- `QuadraturePlanar(x, thick)`: the Gauss rule, ElementQuad4Planar.h:58-61 -/
def newPlanarGauss (s : α) (σ : Sched) (x : Ten α) (thick : α) : Res (Quadrature α) := do
  let xi ← Gauss.xi s
  let w ← Gauss.w
  newPlanar σ x xi w thick

/-- `update_x`, Element.h:564-569: new coordinates, then `compute_dN_impl` of the class -/
def update_x (thick : α) (σ : Sched) (Q : Quadrature α) (x : Ten α) : Res (Quadrature α) :=
  compute_dN_impl { Q with x := x } thick σ

/-- `interpQuad_vector_impl`, ElementQuad4.h:325-346.  `u` is an `xt::adapt` of a raw pointer with the fixed shape
`4 x 2` and `ui` one of length 2, whatever the shape of the arguments; modelled with raw pointers.  (The planar class
uses the generic function.) -/
def interpQuad_vector_impl (Q : Quadrature α) (σ : Sched) (elemvec qvector : Ten α) : Res (Ten α) :=
  forEach (σ.run (it1 Q.nelem)) (fun t e =>
    forEach (it1 Q.nip) (fun t q => do
      let v ← dot4 (fun m => Q.N.get [q, m]) (fun m => elemvec.getP [e, 0, 0] (m * 2 + 0))
      let t ← t.setP [e, q, 0] 0 v
      let v ← dot4 (fun m => Q.N.get [q, m]) (fun m => elemvec.getP [e, 0, 0] (m * 2 + 1))
      t.setP [e, q, 0] 1 v) t) (Ten.full qvector.shape 0)

/-- body of `gradN_vector_impl`, ElementQuad4.h:361-372 = ElementQuad4Planar.h:144-155 -/
def gradN_point (Q : Quadrature α) (u : Ten α) (e q : Nat) (t : Ten α) : Res (Ten α) := do
  let v ← dot4 (fun m => Q.dNx.get [e, q, m, 0]) (fun m => u.get [e, m, 0])
  let t ← t.set [e, q, 0, 0] v
  let v ← dot4 (fun m => Q.dNx.get [e, q, m, 0]) (fun m => u.get [e, m, 1])
  let t ← t.set [e, q, 0, 1] v
  let v ← dot4 (fun m => Q.dNx.get [e, q, m, 1]) (fun m => u.get [e, m, 0])
  let t ← t.set [e, q, 1, 0] v
  let v ← dot4 (fun m => Q.dNx.get [e, q, m, 1]) (fun m => u.get [e, m, 1])
  t.set [e, q, 1, 1] v

/-- body of `gradN_vector_T_impl`, ElementQuad4.h:390-401 = ElementQuad4Planar.h:175-186 -/
def gradN_T_point (Q : Quadrature α) (u : Ten α) (e q : Nat) (t : Ten α) : Res (Ten α) := do
  let v ← dot4 (fun m => Q.dNx.get [e, q, m, 0]) (fun m => u.get [e, m, 0])
  let t ← t.set [e, q, 0, 0] v
  let v ← dot4 (fun m => Q.dNx.get [e, q, m, 0]) (fun m => u.get [e, m, 1])
  let t ← t.set [e, q, 1, 0] v
  let v ← dot4 (fun m => Q.dNx.get [e, q, m, 1]) (fun m => u.get [e, m, 0])
  let t ← t.set [e, q, 0, 1] v
  let v ← dot4 (fun m => Q.dNx.get [e, q, m, 1]) (fun m => u.get [e, m, 1])
  t.set [e, q, 1, 1] v

/-- body of `symGradN_vector_impl`, ElementQuad4.h:419-431 = ElementQuad4Planar.h:206-218 -/
def symGradN_point (Q : Quadrature α) (u : Ten α) (e q : Nat) (t : Ten α) : Res (Ten α) := do
  let v ← dot4 (fun m => Q.dNx.get [e, q, m, 0]) (fun m => u.get [e, m, 0])
  let t ← t.set [e, q, 0, 0] v
  let v ← dot4 (fun m => Q.dNx.get [e, q, m, 1]) (fun m => u.get [e, m, 1])
  let t ← t.set [e, q, 1, 1] v
  let v ← dot4 (fun m => Q.dNx.get [e, q, m, 0]) (fun m => u.get [e, m, 1])
  let w ← dot4 (fun m => Q.dNx.get [e, q, m, 1]) (fun m => u.get [e, m, 0])
  let t ← t.set [e, q, 0, 1] (1 / 2 * (v + w))
  let v ← t.get [e, q, 0, 1]
  t.set [e, q, 1, 0] v

/-- loop over elements and integration points around the bodies above -/
def pointLoop (Q : Quadrature α) (σ : Sched) (body : Nat → Nat → Ten α → Res (Ten α)) (t : Ten α) :
    Res (Ten α) :=
  forEach (σ.run (it1 Q.nelem)) (fun t e => forEach (it1 Q.nip) (fun t q => body e q t) t) t

/-- `gradN_vector_impl`, ElementQuad4.h:349-375 (no initialisation of the output) -/
def gradN_vector_impl (Q : Quadrature α) (σ : Sched) (elemvec qtensor : Ten α) : Res (Ten α) :=
  pointLoop Q σ (gradN_point Q elemvec) qtensor

/-- `gradN_vector_T_impl`, ElementQuad4.h:378-404 -/
def gradN_vector_T_impl (Q : Quadrature α) (σ : Sched) (elemvec qtensor : Ten α) : Res (Ten α) :=
  pointLoop Q σ (gradN_T_point Q elemvec) qtensor

/-- `symGradN_vector_impl`, ElementQuad4.h:407-434 -/
def symGradN_vector_impl (Q : Quadrature α) (σ : Sched) (elemvec qtensor : Ten α) : Res (Ten α) :=
  pointLoop Q σ (symGradN_point Q elemvec) qtensor

/-- planar `gradN_vector_impl`, ElementQuad4Planar.h:130-158 (output zeroed first) -/
def planar_gradN_vector_impl (Q : Quadrature α) (σ : Sched) (elemvec qtensor : Ten α) : Res (Ten α) :=
  pointLoop Q σ (gradN_point Q elemvec) (Ten.full qtensor.shape 0)

/-- planar `gradN_vector_T_impl`, ElementQuad4Planar.h:161-189 -/
def planar_gradN_vector_T_impl (Q : Quadrature α) (σ : Sched) (elemvec qtensor : Ten α) : Res (Ten α) :=
  pointLoop Q σ (gradN_T_point Q elemvec) (Ten.full qtensor.shape 0)

/-- planar `symGradN_vector_impl`, ElementQuad4Planar.h:192-221 -/
def planar_symGradN_vector_impl (Q : Quadrature α) (σ : Sched) (elemvec qtensor : Ten α) : Res (Ten α) :=
  pointLoop Q σ (symGradN_point Q elemvec) (Ten.full qtensor.shape 0)

/-- `int_N_scalar_NT_dV_impl`, ElementQuad4.h:437-464 = ElementQuad4Planar.h:224-251 =
ElementQuad4Axisymmetric.h:242-269 (only `nelem`, `nip`, `N`, `vol` are used) -/
def int_N_scalar_NT_dV_impl (nelem nip : Nat) (N vol : Ten α) (σ : Sched) (qscalar elemmat : Ten α) :
    Res (Ten α) :=
  forEach (σ.run (it1 nelem)) (fun t e =>
    forEach (it1 nip) (fun t q =>
      forEach (it2 4 4) (fun t mn => do
        let v ← vol.get [e, q]
        let r ← qscalar.get [e, q]
        let a ← N.get [q, mn.1]
        let b ← N.get [q, mn.2]
        let t ← t.addAt [e, mn.1 * 2 + 0, mn.2 * 2 + 0] (a * r * b * v)
        t.addAt [e, mn.1 * 2 + 1, mn.2 * 2 + 1] (a * r * b * v)) t) t)
    (Ten.full elemmat.shape 0)

/-- `int_gradN_dot_tensor2_dV_impl`, ElementQuad4.h:467-491 = ElementQuad4Planar.h:254-278 -/
def int_gradN_dot_tensor2_dV_impl (Q : Quadrature α) (σ : Sched) (qtensor elemvec : Ten α) :
    Res (Ten α) :=
  forEach (σ.run (it1 Q.nelem)) (fun t e =>
    forEach (it1 Q.nip) (fun t q =>
      forEach (it1 4) (fun t m => do
        let v ← Q.vol.get [e, q]
        let d0 ← Q.dNx.get [e, q, m, 0]
        let d1 ← Q.dNx.get [e, q, m, 1]
        let s00 ← qtensor.get [e, q, 0, 0]
        let s10 ← qtensor.get [e, q, 1, 0]
        let t ← t.addAt [e, m, 0] ((d0 * s00 + d1 * s10) * v)
        let s01 ← qtensor.get [e, q, 0, 1]
        let s11 ← qtensor.get [e, q, 1, 1]
        t.addAt [e, m, 1] ((d0 * s01 + d1 * s11) * v)) t) t)
    (Ten.full elemvec.shape 0)

/-! ### the allocating functions (`QuadratureBaseCartesian`) -/

/-- `InterpQuad_vector`, Element.h:597-604, with the implementation of the 2-d class -/
def InterpQuad_vector (Q : Quadrature α) (σ : Sched) (elemvec : Ten α) : Res (Ten α) :=
  match elemvec.shape with
  | [_, _, n] => interpQuad_vector_impl Q σ elemvec (Ten.empty (Q.shape_qvector_n n))
  | _ => .ub

/-- `GradN_vector`, Element.h:634-640 -/
def GradN_vector (Q : Quadrature α) (σ : Sched) (elemvec : Ten α) : Res (Ten α) :=
  gradN_vector_impl Q σ elemvec (Ten.empty (Q.shape_qtensor 2))
/-- `GradN_vector_T`, Element.h:666-672 -/
def GradN_vector_T (Q : Quadrature α) (σ : Sched) (elemvec : Ten α) : Res (Ten α) :=
  gradN_vector_T_impl Q σ elemvec (Ten.empty (Q.shape_qtensor 2))
/-- `SymGradN_vector`, Element.h:699-705 -/
def SymGradN_vector (Q : Quadrature α) (σ : Sched) (elemvec : Ten α) : Res (Ten α) :=
  symGradN_vector_impl Q σ elemvec (Ten.empty (Q.shape_qtensor 2))
/-- planar `GradN_vector`, Element.h:634-640 -/
def PlanarGradN_vector (Q : Quadrature α) (σ : Sched) (elemvec : Ten α) : Res (Ten α) :=
  planar_gradN_vector_impl Q σ elemvec (Ten.empty (Q.shape_qtensor 2))
/-- planar `GradN_vector_T`, Element.h:666-672 -/
def PlanarGradN_vector_T (Q : Quadrature α) (σ : Sched) (elemvec : Ten α) : Res (Ten α) :=
  planar_gradN_vector_T_impl Q σ elemvec (Ten.empty (Q.shape_qtensor 2))
/-- planar `SymGradN_vector`, Element.h:699-705 -/
def PlanarSymGradN_vector (Q : Quadrature α) (σ : Sched) (elemvec : Ten α) : Res (Ten α) :=
  planar_symGradN_vector_impl Q σ elemvec (Ten.empty (Q.shape_qtensor 2))
/-- `Int_N_scalar_NT_dV`, Element.h:770-776 -/
def Int_N_scalar_NT_dV (Q : Quadrature α) (σ : Sched) (qscalar : Ten α) : Res (Ten α) :=
  int_N_scalar_NT_dV_impl Q.nelem Q.nip Q.N Q.vol σ qscalar (Ten.empty Q.shape_elemmat)
/-- `Int_gradN_dot_tensor2_dV`, Element.h:807-813 -/
def Int_gradN_dot_tensor2_dV (Q : Quadrature α) (σ : Sched) (qtensor : Ten α) : Res (Ten α) :=
  int_gradN_dot_tensor2_dV_impl Q σ qtensor (Ten.empty Q.shape_elemvec)

end GF.Element.Quad4

namespace GF.Element.Quadrature
variable {α : Type} [Zero α] [One α] [Add α] [Sub α] [Mul α] [Div α] [Neg α] [NatCast α]

/-- `InterpQuad_vector`, Element.h:597-604, with the generic implementation (planar, axisymmetric, Hex8) -/
def InterpQuad_vector (Q : Quadrature α) (σ : Sched) (elemvec : Ten α) : Res (Ten α) :=
  match elemvec.shape with
  | [_, _, n] => Q.interpQuad_vector_impl σ elemvec (Ten.empty (Q.shape_qvector_n n))
  | _ => .ub

/-- `Int_N_vector_dV`, Element.h:731-738 -/
def Int_N_vector_dV (Q : Quadrature α) (σ : Sched) (qvector : Ten α) : Res (Ten α) :=
  match qvector.shape with
  | [_, _, n] => Q.int_N_vector_dV_impl σ qvector (Ten.empty (Q.shape_elemvec_n n))
  | _ => .ub

/-- `Int_gradN_dot_tensor4_dot_gradNT_dV`, Element.h:849-856 (generic implementation: 2-d, planar, Hex8) -/
def Int_gradN_dot_tensor4_dot_gradNT_dV (Q : Quadrature α) (σ : Sched) (qtensor : Ten α) :
    Res (Ten α) :=
  Q.int_gradN_dot_tensor4_dot_gradNT_dV_impl σ qtensor (Ten.empty Q.shape_elemmat)

end GF.Element.Quadrature
