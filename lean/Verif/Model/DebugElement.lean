import Verif.Model.Debug
import Verif.Model.ElementQuad4
import Verif.Model.ElementHex8
import Verif.Model.ElementAxi

/-! The element classes in the build with assertions, `GOOSEFEM_ENABLE_ASSERT`.  The assertions on the arrays that the allocating
functions make themselves (`GradN_vector` etc.) hold and are left out. -/

namespace GF.Element
variable {α : Type} [Zero α] [One α] [Add α] [Sub α] [Mul α] [Div α] [Neg α] [NatCast α]

namespace Quad4

/-- Constructor, ElementQuad4.h:277-318 and ElementQuad4Planar.h:81-123: the assertions are made after the loops that read `xi`
(those on `m_w`, `m_N`, `m_dNxi` compare with the shapes that were just allocated). -/
def construct_checked (tdim : Nat) (thick : α) (σ : Sched) (x xi w : Ten α) : Res (Quadrature α) :=
  match w.shape, x.shape with
  | [nip], [nelem, n1, n2] => do
    let N ← shapeN nip xi
    let dNxi ← shapeDN nip xi
    gassert (n1 = 4)
    gassert (n2 = 2)
    gassert (xi.shape = [nip, 2])
    compute_dN_impl ⟨4, 2, tdim, nelem, nip, x, w, xi, N, dNxi, Ten.empty [nelem, nip, 4, 2],
      Ten.empty [nelem, nip]⟩ thick σ
  | _, _ => .ub

/-- `update_x`, Element.h:564-569 -/
def update_x_checked (thick : α) (σ : Sched) (Q : Quadrature α) (x : Ten α) : Res (Quadrature α) := do
  gassert (x.shape = Q.x.shape)
  update_x thick σ Q x

/-- `InterpQuad_vector`, Element.h:597-604 and ElementQuad4.h:325-328 -/
def InterpQuad_vector_checked (Q : Quadrature α) (σ : Sched) (u : Ten α) : Res (Ten α) := do
  gassert (u.shape = Q.shape_elemvec)
  InterpQuad_vector Q σ u

/-- `GradN_vector`, ElementQuad4.h:349-352 -/
def GradN_vector_checked (Q : Quadrature α) (σ : Sched) (u : Ten α) : Res (Ten α) := do
  gassert (u.shape = Q.shape_elemvec)
  GradN_vector Q σ u

/-- `GradN_vector_T`, ElementQuad4.h:378-381 -/
def GradN_vector_T_checked (Q : Quadrature α) (σ : Sched) (u : Ten α) : Res (Ten α) := do
  gassert (u.shape = Q.shape_elemvec)
  GradN_vector_T Q σ u

/-- `SymGradN_vector`, ElementQuad4.h:407-410 -/
def SymGradN_vector_checked (Q : Quadrature α) (σ : Sched) (u : Ten α) : Res (Ten α) := do
  gassert (u.shape = Q.shape_elemvec)
  SymGradN_vector Q σ u

/-- planar `GradN_vector`, ElementQuad4Planar.h:130-133 -/
def PlanarGradN_vector_checked (Q : Quadrature α) (σ : Sched) (u : Ten α) : Res (Ten α) := do
  gassert (u.shape = Q.shape_elemvec)
  PlanarGradN_vector Q σ u

/-- planar `GradN_vector_T`, ElementQuad4Planar.h:161-164 -/
def PlanarGradN_vector_T_checked (Q : Quadrature α) (σ : Sched) (u : Ten α) : Res (Ten α) := do
  gassert (u.shape = Q.shape_elemvec)
  PlanarGradN_vector_T Q σ u

/-- planar `SymGradN_vector`, ElementQuad4Planar.h:192-195 -/
def PlanarSymGradN_vector_checked (Q : Quadrature α) (σ : Sched) (u : Ten α) : Res (Ten α) := do
  gassert (u.shape = Q.shape_elemvec)
  PlanarSymGradN_vector Q σ u

/-- `Int_N_scalar_NT_dV`, ElementQuad4.h:437-440 and ElementQuad4Planar.h:224-227 -/
def Int_N_scalar_NT_dV_checked (Q : Quadrature α) (σ : Sched) (r : Ten α) : Res (Ten α) := do
  gassert (r.shape = Q.shape_qscalar)
  Int_N_scalar_NT_dV Q σ r

/-- `Int_gradN_dot_tensor2_dV`, ElementQuad4.h:467-470 and ElementQuad4Planar.h:254-257 -/
def Int_gradN_dot_tensor2_dV_checked (Q : Quadrature α) (σ : Sched) (s : Ten α) : Res (Ten α) := do
  gassert (s.shape = Q.shape_qtensor 2)
  Int_gradN_dot_tensor2_dV Q σ s

end Quad4

namespace Quadrature

/-- generic `InterpQuad_vector`, Element.h:597-604 and 893-897: any number of components -/
def InterpQuad_vector_checked (Q : Quadrature α) (σ : Sched) (u : Ten α) : Res (Ten α) := do
  gassert (u.shape = Q.shape_elemvec_n (u.shape.getD 2 0))
  Q.InterpQuad_vector σ u

/-- `Int_N_vector_dV`, Element.h:731-738 and 1024-1029: any number of components -/
def Int_N_vector_dV_checked (Q : Quadrature α) (σ : Sched) (b : Ten α) : Res (Ten α) := do
  gassert (b.shape = Q.shape_qvector_n (b.shape.getD 2 0))
  Q.Int_N_vector_dV σ b

/-- `Int_gradN_dot_tensor4_dot_gradNT_dV`, Element.h:849-856 and 1132-1135 -/
def Int_gradN_dot_tensor4_dot_gradNT_dV_checked (Q : Quadrature α) (σ : Sched) (c : Ten α) : Res (Ten α) := do
  gassert (c.shape = Q.shape_qtensor 4)
  Q.Int_gradN_dot_tensor4_dot_gradNT_dV σ c

end Quadrature

namespace Hex8

/-- Constructor, ElementHex8.h:255-317: the assertions are made after the loops that read `xi` -/
def new_checked (σ : Sched) (x xi w : Ten α) : Res (Quadrature α) :=
  match w.shape, x.shape with
  | [nip], [nelem, n1, n2] => do
    let N ← shapeN nip xi
    let dNxi ← shapeDN nip xi
    gassert (n1 = 8)
    gassert (n2 = 3)
    gassert (xi.shape = [nip, 3])
    Quadrature.compute_dN_impl ⟨8, 3, 3, nelem, nip, x, w, xi, N, dNxi, Ten.empty [nelem, nip, 8, 3],
      Ten.empty [nelem, nip]⟩ σ
  | _, _ => .ub

/-- `update_x`, Element.h:564-569 -/
def update_x_checked (σ : Sched) (Q : Quadrature α) (x : Ten α) : Res (Quadrature α) := do
  gassert (x.shape = Q.x.shape)
  update_x σ Q x

/-- `GradN_vector`, Element.h:925-928 -/
def GradN_vector_checked (Q : Quadrature α) (σ : Sched) (u : Ten α) : Res (Ten α) := do
  gassert (u.shape = Q.shape_elemvec)
  GradN_vector Q σ u

/-- `GradN_vector_T`, Element.h:958-961 -/
def GradN_vector_T_checked (Q : Quadrature α) (σ : Sched) (u : Ten α) : Res (Ten α) := do
  gassert (u.shape = Q.shape_elemvec)
  GradN_vector_T Q σ u

/-- `SymGradN_vector`, Element.h:991-994 -/
def SymGradN_vector_checked (Q : Quadrature α) (σ : Sched) (u : Ten α) : Res (Ten α) := do
  gassert (u.shape = Q.shape_elemvec)
  SymGradN_vector Q σ u

/-- `Int_N_scalar_NT_dV`, ElementHex8.h:324-327 -/
def Int_N_scalar_NT_dV_checked (Q : Quadrature α) (σ : Sched) (r : Ten α) : Res (Ten α) := do
  gassert (r.shape = Q.shape_qscalar)
  Int_N_scalar_NT_dV Q σ r

/-- `Int_gradN_dot_tensor2_dV`, ElementHex8.h:355-358 -/
def Int_gradN_dot_tensor2_dV_checked (Q : Quadrature α) (σ : Sched) (s : Ten α) : Res (Ten α) := do
  gassert (s.shape = Q.shape_qtensor 2)
  Int_gradN_dot_tensor2_dV Q σ s

end Hex8

namespace Axi

/-- Constructor, ElementQuad4Axisymmetric.h:73-112: here the assertions are made before the loops -/
def new_checked (pi : α) (σ : Sched) (x xi w : Ten α) : Res (QuadratureAxi α) :=
  match w.shape, x.shape with
  | [nip], [_, n1, n2] => do
    gassert (n1 = 4)
    gassert (n2 = 2)
    gassert (xi.shape = [nip, 2])
    Axi.new pi σ x xi w
  | _, _ => .ub

/-- `update_x`, Element.h:564-569 -/
def update_x_checked (pi : α) (σ : Sched) (A : QuadratureAxi α) (x : Ten α) : Res (QuadratureAxi α) := do
  gassert (x.shape = A.x.shape)
  update_x pi σ A x

/-- `GradN_vector`, ElementQuad4Axisymmetric.h:133-136 -/
def GradN_vector_checked (A : QuadratureAxi α) (σ : Sched) (u : Ten α) : Res (Ten α) := do
  gassert (u.shape = A.shape_elemvec)
  GradN_vector A σ u

/-- `GradN_vector_T`, ElementQuad4Axisymmetric.h:168-171 -/
def GradN_vector_T_checked (A : QuadratureAxi α) (σ : Sched) (u : Ten α) : Res (Ten α) := do
  gassert (u.shape = A.shape_elemvec)
  GradN_vector_T A σ u

/-- `SymGradN_vector`, ElementQuad4Axisymmetric.h:203-206 -/
def SymGradN_vector_checked (A : QuadratureAxi α) (σ : Sched) (u : Ten α) : Res (Ten α) := do
  gassert (u.shape = A.shape_elemvec)
  SymGradN_vector A σ u

/-- `Int_N_scalar_NT_dV`, ElementQuad4Axisymmetric.h:242-245 -/
def Int_N_scalar_NT_dV_checked (A : QuadratureAxi α) (σ : Sched) (r : Ten α) : Res (Ten α) := do
  gassert (r.shape = A.shape_qscalar)
  Int_N_scalar_NT_dV A σ r

/-- `Int_gradN_dot_tensor2_dV`, ElementQuad4Axisymmetric.h:273-276 -/
def Int_gradN_dot_tensor2_dV_checked (A : QuadratureAxi α) (σ : Sched) (s : Ten α) : Res (Ten α) := do
  gassert (s.shape = A.shape_qtensor 2)
  Int_gradN_dot_tensor2_dV A σ s

/-- `Int_gradN_dot_tensor4_dot_gradNT_dV`, ElementQuad4Axisymmetric.h:305-308 -/
def Int_gradN_dot_tensor4_dot_gradNT_dV_checked (A : QuadratureAxi α) (σ : Sched) (c : Ten α) : Res (Ten α) := do
  gassert (c.shape = A.shape_qtensor 4)
  Int_gradN_dot_tensor4_dot_gradNT_dV A σ c

end Axi
end GF.Element
