import Verif.Model.ElementQuad4

/-! Model of `include/GooseFEM/ElementQuad4Axisymmetric.h`. -/

namespace GF.Element
variable {α : Type}

/-- Members of `QuadratureAxisymmetric`, ElementQuad4Axisymmetric.h:448-460.  The class has no member `m_dNx` (the
field `dNx` of the parent structure is unused), and a member `m_B`. -/
structure QuadratureAxi (α : Type) extends Quadrature α where
  B : Ten α

namespace Axi
open Quad4
variable [Zero α] [One α] [Add α] [Sub α] [Mul α] [Div α] [Neg α] [NatCast α]

/-- one integration point of `compute_dN_impl`, ElementQuad4Axisymmetric.h:407-442; `pi` stands for `M_PI` -/
def compute_dN_point (pi : α) (Q : Quadrature α) (s : Ten α × Ten α) (e q : Nat) :
    Res (Ten α × Ten α) := do
  let J ← jacobian Q.dNxi Q.x e q
  let r ← inv2 J (Ten.empty [2, 2])
  let rq ← dot4 (fun m => Q.N.get [q, m]) (fun m => Q.x.get [e, m, 1])
  let B ← forEach (it1 4) (fun t m => do
    let j00 ← r.2.get [0, 0]
    let j01 ← r.2.get [0, 1]
    let j10 ← r.2.get [1, 0]
    let j11 ← r.2.get [1, 1]
    let d0 ← Q.dNxi.get [q, m, 0]
    let d1 ← Q.dNxi.get [q, m, 1]
    let n ← Q.N.get [q, m]
    let t ← t.set [e, q, m, 0, 0, 0] (j10 * d0 + j11 * d1)
    let t ← t.set [e, q, m, 0, 2, 2] (j10 * d0 + j11 * d1)
    let t ← t.set [e, q, m, 1, 1, 0] (1 / rq * n)
    let t ← t.set [e, q, m, 2, 0, 0] (j00 * d0 + j01 * d1)
    t.set [e, q, m, 2, 2, 2] (j00 * d0 + j01 * d1)) s.1
  let w ← Q.w.get [q]
  let vol ← s.2.set [e, q] (w * r.1 * 2 * pi * rq)
  .ok (B, vol)

/-- `compute_dN_impl`, ElementQuad4Axisymmetric.h:390-446 (`B` is zeroed first) -/
def compute_dN_impl (pi : α) (A : QuadratureAxi α) (σ : Sched) : Res (QuadratureAxi α) := do
  let s ← forEach (σ.run (it1 A.nelem)) (fun s e =>
    forEach (it1 A.nip) (fun s q => compute_dN_point pi A.toQuadrature s e q) s)
    (Ten.full A.B.shape 0, A.vol)
  .ok { A with B := s.1, vol := s.2 }

/-- `QuadratureAxisymmetric(x, xi, w)`, ElementQuad4Axisymmetric.h:73-112 (assertions off) -/
def new (pi : α) (σ : Sched) (x xi w : Ten α) : Res (QuadratureAxi α) :=
  match w.shape, x.shape with
  | [nip], [nelem, _, _] => do
    let N ← shapeN nip xi
    let dNxi ← shapeDN nip xi
    compute_dN_impl pi ⟨⟨4, 2, 3, nelem, nip, x, w, xi, N, dNxi, Ten.empty [], Ten.empty [nelem, nip]⟩,
      Ten.empty [nelem, nip, 4, 3, 3, 3]⟩ σ
  | _, _ => .ub

/-- `QuadratureAxisymmetric(x)`, ElementQuad4Axisymmetric.h:52-54 -/
def newGauss (s pi : α) (σ : Sched) (x : Ten α) : Res (QuadratureAxi α) := do
  let xi ← Gauss.xi s
  let w ← Gauss.w
  new pi σ x xi w

/-- `update_x`, Element.h:564-569 -/
def update_x (pi : α) (σ : Sched) (A : QuadratureAxi α) (x : Ten α) : Res (QuadratureAxi α) :=
  compute_dN_impl pi { A with x := x } σ

/-- body of `gradN_vector_impl`, ElementQuad4Axisymmetric.h:147-162 -/
def gradN_point (A : QuadratureAxi α) (u : Ten α) (e q : Nat) (t : Ten α) : Res (Ten α) := do
  let v ← dot4 (fun m => A.B.get [e, q, m, 0, 0, 0]) (fun m => u.get [e, m, 1])
  let t ← t.set [e, q, 0, 0] v
  let v ← dot4 (fun m => A.B.get [e, q, m, 1, 1, 0]) (fun m => u.get [e, m, 1])
  let t ← t.set [e, q, 1, 1] v
  let v ← dot4 (fun m => A.B.get [e, q, m, 2, 2, 2]) (fun m => u.get [e, m, 0])
  let t ← t.set [e, q, 2, 2] v
  let v ← dot4 (fun m => A.B.get [e, q, m, 0, 2, 2]) (fun m => u.get [e, m, 0])
  let t ← t.set [e, q, 0, 2] v
  let v ← dot4 (fun m => A.B.get [e, q, m, 2, 0, 0]) (fun m => u.get [e, m, 1])
  t.set [e, q, 2, 0] v

/-- body of `gradN_vector_T_impl`, ElementQuad4Axisymmetric.h:182-197 -/
def gradN_T_point (A : QuadratureAxi α) (u : Ten α) (e q : Nat) (t : Ten α) : Res (Ten α) := do
  let v ← dot4 (fun m => A.B.get [e, q, m, 0, 0, 0]) (fun m => u.get [e, m, 1])
  let t ← t.set [e, q, 0, 0] v
  let v ← dot4 (fun m => A.B.get [e, q, m, 1, 1, 0]) (fun m => u.get [e, m, 1])
  let t ← t.set [e, q, 1, 1] v
  let v ← dot4 (fun m => A.B.get [e, q, m, 2, 2, 2]) (fun m => u.get [e, m, 0])
  let t ← t.set [e, q, 2, 2] v
  let v ← dot4 (fun m => A.B.get [e, q, m, 0, 2, 2]) (fun m => u.get [e, m, 0])
  let t ← t.set [e, q, 2, 0] v
  let v ← dot4 (fun m => A.B.get [e, q, m, 2, 0, 0]) (fun m => u.get [e, m, 1])
  t.set [e, q, 0, 2] v

/-- body of `symGradN_vector_impl`, ElementQuad4Axisymmetric.h:217-234 -/
def symGradN_point (A : QuadratureAxi α) (u : Ten α) (e q : Nat) (t : Ten α) : Res (Ten α) := do
  let v ← dot4 (fun m => A.B.get [e, q, m, 0, 0, 0]) (fun m => u.get [e, m, 1])
  let t ← t.set [e, q, 0, 0] v
  let v ← dot4 (fun m => A.B.get [e, q, m, 1, 1, 0]) (fun m => u.get [e, m, 1])
  let t ← t.set [e, q, 1, 1] v
  let v ← dot4 (fun m => A.B.get [e, q, m, 2, 2, 2]) (fun m => u.get [e, m, 0])
  let t ← t.set [e, q, 2, 2] v
  let v ← dot4 (fun m => A.B.get [e, q, m, 0, 2, 2]) (fun m => u.get [e, m, 0])
  let w ← dot4 (fun m => A.B.get [e, q, m, 2, 0, 0]) (fun m => u.get [e, m, 1])
  let t ← t.set [e, q, 2, 0] (1 / 2 * (v + w))
  let v ← t.get [e, q, 2, 0]
  t.set [e, q, 0, 2] v

/-- `GradN_vector`, Element.h:634-640 with ElementQuad4Axisymmetric.h:133-165 (output zeroed first) -/
def GradN_vector (A : QuadratureAxi α) (σ : Sched) (elemvec : Ten α) : Res (Ten α) :=
  pointLoop A.toQuadrature σ (gradN_point A elemvec) (Ten.full (A.shape_qtensor 2) 0)
/-- `GradN_vector_T`, Element.h:666-672 with ElementQuad4Axisymmetric.h:168-200 -/
def GradN_vector_T (A : QuadratureAxi α) (σ : Sched) (elemvec : Ten α) : Res (Ten α) :=
  pointLoop A.toQuadrature σ (gradN_T_point A elemvec) (Ten.full (A.shape_qtensor 2) 0)
/-- `SymGradN_vector`, Element.h:699-705 with ElementQuad4Axisymmetric.h:203-237 -/
def SymGradN_vector (A : QuadratureAxi α) (σ : Sched) (elemvec : Ten α) : Res (Ten α) :=
  pointLoop A.toQuadrature σ (symGradN_point A elemvec) (Ten.full (A.shape_qtensor 2) 0)

/-- `int_gradN_dot_tensor2_dV_impl`, ElementQuad4Axisymmetric.h:273-301 -/
def int_gradN_dot_tensor2_dV_impl (A : QuadratureAxi α) (σ : Sched) (sig elemvec : Ten α) :
    Res (Ten α) :=
  forEach (σ.run (it1 A.nelem)) (fun t e =>
    forEach (it1 A.nip) (fun t q =>
      forEach (it1 4) (fun t m => do
        let v ← A.vol.get [e, q]
        let b222 ← A.B.get [e, q, m, 2, 2, 2]
        let s22 ← sig.get [e, q, 2, 2]
        let b022 ← A.B.get [e, q, m, 0, 2, 2]
        let s02 ← sig.get [e, q, 0, 2]
        let t ← t.addAt [e, m, 0] (v * (b222 * s22 + b022 * s02))
        let b000 ← A.B.get [e, q, m, 0, 0, 0]
        let s00 ← sig.get [e, q, 0, 0]
        let b110 ← A.B.get [e, q, m, 1, 1, 0]
        let s11 ← sig.get [e, q, 1, 1]
        let b200 ← A.B.get [e, q, m, 2, 0, 0]
        let s20 ← sig.get [e, q, 2, 0]
        t.addAt [e, m, 1] (v * (b000 * s00 + b110 * s11 + b200 * s20))) t) t)
    (Ten.full elemvec.shape 0)

/-- `Int_gradN_dot_tensor2_dV`, Element.h:807-813 -/
def Int_gradN_dot_tensor2_dV (A : QuadratureAxi α) (σ : Sched) (qtensor : Ten α) : Res (Ten α) :=
  int_gradN_dot_tensor2_dV_impl A σ qtensor (Ten.empty A.shape_elemvec)

/-- one statement `K(m * 2 + r, n * 2 + c) += B(m, b..) * C(c..) * B(n, d..) * vol` of
ElementQuad4Axisymmetric.h:330-383 -/
def kTerm (B C : Ten α) (e q m n : Nat) (v : α) (t : Ten α) (r c : Nat) (b cc d : List Nat) :
    Res (Ten α) := do
  let x ← B.get ([e, q, m] ++ b)
  let y ← C.get ([e, q] ++ cc)
  let z ← B.get ([e, q, n] ++ d)
  t.addAt [e, m * 2 + r, n * 2 + c] (x * y * z * v)

/-- loop of `int_gradN_dot_tensor4_dot_gradNT_dV_impl`, ElementQuad4Axisymmetric.h:316-387: the 25 statements, in order -/
def int_gradN_dot_tensor4_dot_gradNT_dV_impl.loop (A : QuadratureAxi α) (σ : Sched) (C elemmat : Ten α) :
    Res (Ten α) :=
  forEach (σ.run (it1 A.nelem)) (fun t e =>
    forEach (it1 A.nip) (fun t q =>
      forEach (it2 4 4) (fun t mn => do
        let v ← A.vol.get [e, q]
        let t ← kTerm A.B C e q mn.1 mn.2 v t 1 1 [0, 0, 0] [0, 0, 0, 0] [0, 0, 0]
        let t ← kTerm A.B C e q mn.1 mn.2 v t 1 1 [0, 0, 0] [0, 0, 1, 1] [1, 1, 0]
        let t ← kTerm A.B C e q mn.1 mn.2 v t 1 0 [0, 0, 0] [0, 0, 2, 2] [2, 2, 2]
        let t ← kTerm A.B C e q mn.1 mn.2 v t 1 0 [0, 0, 0] [0, 0, 2, 0] [0, 2, 2]
        let t ← kTerm A.B C e q mn.1 mn.2 v t 1 1 [0, 0, 0] [0, 0, 0, 2] [2, 0, 0]
        let t ← kTerm A.B C e q mn.1 mn.2 v t 1 1 [1, 1, 0] [1, 1, 0, 0] [0, 0, 0]
        let t ← kTerm A.B C e q mn.1 mn.2 v t 1 1 [1, 1, 0] [1, 1, 1, 1] [1, 1, 0]
        let t ← kTerm A.B C e q mn.1 mn.2 v t 1 0 [1, 1, 0] [1, 1, 2, 2] [2, 2, 2]
        let t ← kTerm A.B C e q mn.1 mn.2 v t 1 0 [1, 1, 0] [1, 1, 2, 0] [0, 2, 2]
        let t ← kTerm A.B C e q mn.1 mn.2 v t 1 1 [1, 1, 0] [1, 1, 0, 2] [2, 0, 0]
        let t ← kTerm A.B C e q mn.1 mn.2 v t 0 1 [2, 2, 2] [2, 2, 0, 0] [0, 0, 0]
        let t ← kTerm A.B C e q mn.1 mn.2 v t 0 1 [2, 2, 2] [2, 2, 1, 1] [1, 1, 0]
        let t ← kTerm A.B C e q mn.1 mn.2 v t 0 0 [2, 2, 2] [2, 2, 2, 2] [2, 2, 2]
        let t ← kTerm A.B C e q mn.1 mn.2 v t 0 0 [2, 2, 2] [2, 2, 2, 0] [0, 2, 2]
        let t ← kTerm A.B C e q mn.1 mn.2 v t 0 1 [2, 2, 2] [2, 2, 0, 2] [2, 0, 0]
        let t ← kTerm A.B C e q mn.1 mn.2 v t 0 1 [0, 2, 2] [0, 2, 0, 0] [0, 0, 0]
        let t ← kTerm A.B C e q mn.1 mn.2 v t 0 1 [0, 2, 2] [0, 2, 1, 1] [1, 1, 0]
        let t ← kTerm A.B C e q mn.1 mn.2 v t 0 0 [0, 2, 2] [0, 2, 2, 2] [2, 2, 2]
        let t ← kTerm A.B C e q mn.1 mn.2 v t 0 0 [0, 2, 2] [0, 2, 2, 0] [0, 2, 2]
        let t ← kTerm A.B C e q mn.1 mn.2 v t 0 1 [0, 2, 2] [0, 2, 0, 2] [2, 0, 0]
        let t ← kTerm A.B C e q mn.1 mn.2 v t 1 1 [2, 0, 0] [2, 0, 0, 0] [0, 0, 0]
        let t ← kTerm A.B C e q mn.1 mn.2 v t 1 1 [2, 0, 0] [2, 0, 1, 1] [1, 1, 0]
        let t ← kTerm A.B C e q mn.1 mn.2 v t 1 0 [2, 0, 0] [2, 0, 2, 2] [2, 2, 2]
        let t ← kTerm A.B C e q mn.1 mn.2 v t 1 0 [2, 0, 0] [2, 0, 2, 0] [0, 2, 2]
        kTerm A.B C e q mn.1 mn.2 v t 1 1 [2, 0, 0] [2, 0, 0, 2] [2, 0, 0]) t) t)
    elemmat

/-- `int_gradN_dot_tensor4_dot_gradNT_dV_impl`, ElementQuad4Axisymmetric.h:305-388 (output zeroed first) -/
def int_gradN_dot_tensor4_dot_gradNT_dV_impl (A : QuadratureAxi α) (σ : Sched) (C elemmat : Ten α) :
    Res (Ten α) :=
  int_gradN_dot_tensor4_dot_gradNT_dV_impl.loop A σ C (Ten.full elemmat.shape 0)

/-- `Int_gradN_dot_tensor4_dot_gradNT_dV`, Element.h:849-856 -/
def Int_gradN_dot_tensor4_dot_gradNT_dV (A : QuadratureAxi α) (σ : Sched) (qtensor : Ten α) :
    Res (Ten α) :=
  int_gradN_dot_tensor4_dot_gradNT_dV_impl A σ qtensor (Ten.empty A.shape_elemmat)

/-- `Int_N_scalar_NT_dV`, Element.h:770-776 with ElementQuad4Axisymmetric.h:242-269 -/
def Int_N_scalar_NT_dV (A : QuadratureAxi α) (σ : Sched) (qscalar : Ten α) : Res (Ten α) :=
  Quad4.int_N_scalar_NT_dV_impl A.nelem A.nip A.N A.vol σ qscalar (Ten.empty A.shape_elemmat)

end Axi
end GF.Element
