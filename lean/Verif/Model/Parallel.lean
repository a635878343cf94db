import Verif.Spec.Parallel
import Verif.Model.ElementQuad4
import Verif.Model.ElementAxi
import Verif.Model.ElementHex8
import Verif.Model.MatrixDiagonal
import Verif.Model.MatrixPartitionedTyings

/-! The iterations of all loops with `#pragma omp parallel for` (or `omp for`), access by access to the arrays that are written in the
loop. An iteration is one pass through the body of the annotated (outermost) loop. Reads of arrays that no iteration writes are not accesses in
the sense of `Prog`. `x += y` on an array is a read and a write. The scratch matrices `J`, `Jinv`, `rq` of `compute_dN_impl` are declared inside the
parallel region or the iteration, thus private.

Not here: `isDiagonal` (Element.h:131, a `return` inside of the loop, rejected by compilers that honour the pragma) and the generic
`int_gradN_dot_tensor2_dV_impl` (Element.h:1109, never instantiated). -/

namespace GF
variable {α : Type}

namespace Prog

/-- `p[k] += a` with `p = &arr(ix)` for an array of shape `sh` -/
def addP [Add α] (sh ix : List Nat) (k : Nat) (a : α) : Prog (List Nat) α Unit := add (unravel sh (ravel sh ix + k)) a

/-- `p[k] = a` with `p = &arr(ix)` for an array of shape `sh` -/
def putP (sh ix : List Nat) (k : Nat) (a : α) : Prog (List Nat) α Unit := put (unravel sh (ravel sh ix + k)) a

end Prog

namespace Par
open Prog Element

/-! ### element kernels: iteration `e` -/

/-- `asElementVector`, Element.h:42-50 -/
def asElementVector (nne ndim : Nat) (conn : Ten Nat) (nodevec : Ten α) (e : Nat) : Prog (List Nat) α Unit :=
  loop (fun mi => do
    let n ← conn.get [e, mi.1]
    let a ← nodevec.get [n, mi.2]
    put [e, mi.1, mi.2] a) (it2 nne ndim)

section generic
variable [Zero α] [One α] [Add α] [Sub α] [Mul α] [Div α] [Neg α] [NatCast α] (Q : Quadrature α)

/-- generic `interpQuad_vector_impl`, Element.h:905-921; `sh` is the shape of the output -/
def interpQuad_vector (sh : List Nat) (n : Nat) (elemvec : Ten α) (e : Nat) : Prog (List Nat) α Unit :=
  loop (fun k => do
    let a ← Q.N.getP [k.1, 0] k.2.1
    let u ← elemvec.getP [e, 0, 0] (k.2.1 * n + k.2.2)
    addP sh [e, k.1, 0] k.2.2 (a * u)) (it3 Q.nip Q.nne n)

/-- generic `gradN_vector_impl`, Element.h:936-954 -/
def gradN_vector (elemvec : Ten α) (e : Nat) : Prog (List Nat) α Unit :=
  loop (fun q => loop (fun k => do
    let a ← Q.dNx.get [e, q, k.1, k.2.1]
    let u ← elemvec.get [e, k.1, k.2.2]
    add [e, q, k.2.1, k.2.2] (a * u)) (it3 Q.nne Q.ndim Q.ndim)) (it1 Q.nip)

/-- generic `gradN_vector_T_impl`, Element.h:969-987 -/
def gradN_vector_T (elemvec : Ten α) (e : Nat) : Prog (List Nat) α Unit :=
  loop (fun q => loop (fun k => do
    let a ← Q.dNx.get [e, q, k.1, k.2.1]
    let u ← elemvec.get [e, k.1, k.2.2]
    add [e, q, k.2.2, k.2.1] (a * u)) (it3 Q.nne Q.ndim Q.ndim)) (it1 Q.nip)

/-- generic `symGradN_vector_impl`, Element.h:1002-1021 -/
def symGradN_vector (elemvec : Ten α) (e : Nat) : Prog (List Nat) α Unit :=
  loop (fun q => loop (fun k => do
    let a ← Q.dNx.get [e, q, k.1, k.2.1]
    let u ← elemvec.get [e, k.1, k.2.2]
    add [e, q, k.2.1, k.2.2] (1 / 2 * a * u)
    add [e, q, k.2.2, k.2.1] (1 / 2 * a * u)) (it3 Q.nne Q.ndim Q.ndim)) (it1 Q.nip)

/-- generic `int_N_vector_dV_impl`, Element.h:1038-1055; `sh` is the shape of the output -/
def int_N_vector_dV (sh : List Nat) (n : Nat) (qvector : Ten α) (e : Nat) : Prog (List Nat) α Unit :=
  loop (fun k => do
    let a ← Q.N.getP [k.1, 0] k.2.1
    let b ← qvector.getP [e, k.1, 0] k.2.2
    let v ← Q.vol.get [e, k.1]
    addP sh [e, 0, 0] (k.2.1 * n + k.2.2) (a * b * v)) (it3 Q.nip Q.nne n)

/-- generic `int_N_scalar_NT_dV_impl`, Element.h:1071-1093 -/
def int_N_scalar_NT_dV (qscalar : Ten α) (e : Nat) : Prog (List Nat) α Unit :=
  loop (fun q => loop (fun k => do
    let a ← Q.N.get [q, k.1]
    let r ← qscalar.get [e, q]
    let b ← Q.N.get [q, k.2.1]
    let v ← Q.vol.get [e, q]
    add [e, k.1 * Q.ndim + k.2.2, k.2.1 * Q.ndim + k.2.2] (a * r * b * v)) (it3 Q.nne Q.nne Q.ndim)) (it1 Q.nip)

/-- generic `int_gradN_dot_tensor4_dot_gradNT_dV_impl`, Element.h:1144-1175 -/
def int_gradN_dot_tensor4_dot_gradNT_dV (qtensor : Ten α) (e : Nat) : Prog (List Nat) α Unit :=
  loop (fun q => loop (fun mn => loop (fun ij => loop (fun kl => do
    let a ← Q.dNx.get [e, q, mn.1, ij.1]
    let c ← qtensor.get [e, q, ij.1, ij.2, kl.1, kl.2]
    let b ← Q.dNx.get [e, q, mn.2, kl.2]
    let v ← Q.vol.get [e, q]
    add [e, mn.1 * Q.ndim + ij.2, mn.2 * Q.ndim + kl.1] (a * c * b * v)) (it2 Q.ndim Q.ndim)) (it2 Q.ndim Q.ndim)) (it2 Q.nne Q.nne)) (it1 Q.nip)

/-- generic `compute_dN_impl`, Element.h:1195-1228; the cells of `m_dNx` are `(false, _)`, those of `m_vol` are `(true, _)` -/
def compute_dN (e : Nat) : Prog (Bool × List Nat) α Unit :=
  loop (fun q => do
    let J ← forEach (it3 Q.nne Q.ndim Q.ndim) (fun J k => do
      let a ← Q.dNxi.get [q, k.1, k.2.1]
      let b ← Q.x.get [e, k.1, k.2.2]
      J.addAt [k.2.1, k.2.2] (a * b)) (Ten.full [Q.ndim, Q.ndim] 0)
    let r ← invNd Q.ndim J (Ten.empty [Q.ndim, Q.ndim])
    loop (fun k => do
      let a ← r.2.get [k.2.1, k.2.2]
      let b ← Q.dNxi.get [q, k.1, k.2.1]
      add (false, [e, q, k.1, k.2.1]) (a * b)) (it3 Q.nne Q.ndim Q.ndim)
    let w ← Q.w.get [q]
    put (true, [e, q]) (w * r.1)) (it1 Q.nip)

end generic

namespace Quad4
open Element.Quad4
variable [Zero α] [One α] [Add α] [Sub α] [Mul α] [Div α] [Neg α] [NatCast α] (Q : Quadrature α)

/-- `interpQuad_vector_impl`, ElementQuad4.h:332-345; `sh` is the shape of the output -/
def interpQuad_vector (sh : List Nat) (elemvec : Ten α) (e : Nat) : Prog (List Nat) α Unit :=
  loop (fun q => do
    let v ← dot4 (fun m => Q.N.get [q, m]) (fun m => elemvec.getP [e, 0, 0] (m * 2 + 0))
    putP sh [e, q, 0] 0 v
    let v ← dot4 (fun m => Q.N.get [q, m]) (fun m => elemvec.getP [e, 0, 0] (m * 2 + 1))
    putP sh [e, q, 0] 1 v) (it1 Q.nip)

/-- `gradN_vector_impl`, ElementQuad4.h:354-374 = ElementQuad4Planar.h:137-157 -/
def gradN_vector (u : Ten α) (e : Nat) : Prog (List Nat) α Unit :=
  loop (fun q => do
    let v ← dot4 (fun m => Q.dNx.get [e, q, m, 0]) (fun m => u.get [e, m, 0])
    put [e, q, 0, 0] v
    let v ← dot4 (fun m => Q.dNx.get [e, q, m, 0]) (fun m => u.get [e, m, 1])
    put [e, q, 0, 1] v
    let v ← dot4 (fun m => Q.dNx.get [e, q, m, 1]) (fun m => u.get [e, m, 0])
    put [e, q, 1, 0] v
    let v ← dot4 (fun m => Q.dNx.get [e, q, m, 1]) (fun m => u.get [e, m, 1])
    put [e, q, 1, 1] v) (it1 Q.nip)

/-- `gradN_vector_T_impl`, ElementQuad4.h:383-403 = ElementQuad4Planar.h:168-188 -/
def gradN_vector_T (u : Ten α) (e : Nat) : Prog (List Nat) α Unit :=
  loop (fun q => do
    let v ← dot4 (fun m => Q.dNx.get [e, q, m, 0]) (fun m => u.get [e, m, 0])
    put [e, q, 0, 0] v
    let v ← dot4 (fun m => Q.dNx.get [e, q, m, 0]) (fun m => u.get [e, m, 1])
    put [e, q, 1, 0] v
    let v ← dot4 (fun m => Q.dNx.get [e, q, m, 1]) (fun m => u.get [e, m, 0])
    put [e, q, 0, 1] v
    let v ← dot4 (fun m => Q.dNx.get [e, q, m, 1]) (fun m => u.get [e, m, 1])
    put [e, q, 1, 1] v) (it1 Q.nip)

/-- `symGradN_vector_impl`, ElementQuad4.h:412-433 = ElementQuad4Planar.h:199-220 -/
def symGradN_vector (u : Ten α) (e : Nat) : Prog (List Nat) α Unit :=
  loop (fun q => do
    let v ← dot4 (fun m => Q.dNx.get [e, q, m, 0]) (fun m => u.get [e, m, 0])
    put [e, q, 0, 0] v
    let v ← dot4 (fun m => Q.dNx.get [e, q, m, 1]) (fun m => u.get [e, m, 1])
    put [e, q, 1, 1] v
    let v ← dot4 (fun m => Q.dNx.get [e, q, m, 0]) (fun m => u.get [e, m, 1])
    let w ← dot4 (fun m => Q.dNx.get [e, q, m, 1]) (fun m => u.get [e, m, 0])
    put [e, q, 0, 1] (1 / 2 * (v + w))
    let v ← fetch [e, q, 0, 1]
    put [e, q, 1, 0] v) (it1 Q.nip)

/-- `int_N_scalar_NT_dV_impl`, ElementQuad4.h:444-463 = ElementQuad4Planar.h:231-250 = ElementQuad4Axisymmetric.h:249-268 -/
def int_N_scalar_NT_dV (nip : Nat) (N vol qscalar : Ten α) (e : Nat) : Prog (List Nat) α Unit :=
  loop (fun q => loop (fun mn => do
    let v ← vol.get [e, q]
    let r ← qscalar.get [e, q]
    let a ← N.get [q, mn.1]
    let b ← N.get [q, mn.2]
    add [e, mn.1 * 2 + 0, mn.2 * 2 + 0] (a * r * b * v)
    add [e, mn.1 * 2 + 1, mn.2 * 2 + 1] (a * r * b * v)) (it2 4 4)) (it1 nip)

/-- `int_gradN_dot_tensor2_dV_impl`, ElementQuad4.h:474-490 = ElementQuad4Planar.h:261-277 -/
def int_gradN_dot_tensor2_dV (qtensor : Ten α) (e : Nat) : Prog (List Nat) α Unit :=
  loop (fun q => loop (fun m => do
    let v ← Q.vol.get [e, q]
    let d0 ← Q.dNx.get [e, q, m, 0]
    let d1 ← Q.dNx.get [e, q, m, 1]
    let s00 ← qtensor.get [e, q, 0, 0]
    let s10 ← qtensor.get [e, q, 1, 0]
    add [e, m, 0] ((d0 * s00 + d1 * s10) * v)
    let s01 ← qtensor.get [e, q, 0, 1]
    let s11 ← qtensor.get [e, q, 1, 1]
    add [e, m, 1] ((d0 * s01 + d1 * s11) * v)) (it1 4)) (it1 Q.nip)

/-- `compute_dN_impl`, ElementQuad4.h:500-531 and ElementQuad4Planar.h:287-318; the cells of `m_dNx` are `(false, _)`, those of `m_vol` are `(true, _)` -/
def compute_dN (thick : α) (e : Nat) : Prog (Bool × List Nat) α Unit :=
  loop (fun q => do
    let J ← jacobian Q.dNxi Q.x e q
    let r ← inv2 J (Ten.empty [2, 2])
    loop (fun m => do
      let j00 ← r.2.get [0, 0]
      let j01 ← r.2.get [0, 1]
      let j10 ← r.2.get [1, 0]
      let j11 ← r.2.get [1, 1]
      let d0 ← Q.dNxi.get [q, m, 0]
      let d1 ← Q.dNxi.get [q, m, 1]
      put (false, [e, q, m, 0]) (j00 * d0 + j01 * d1)
      put (false, [e, q, m, 1]) (j10 * d0 + j11 * d1)) (it1 4)
    let w ← Q.w.get [q]
    put (true, [e, q]) (w * r.1 * thick)) (it1 Q.nip)

end Quad4

namespace Axi
open Element.Quad4
variable [Zero α] [One α] [Add α] [Sub α] [Mul α] [Div α] [Neg α] [NatCast α] (A : QuadratureAxi α)

/-- `gradN_vector_impl`, ElementQuad4Axisymmetric.h:140-164 -/
def gradN_vector (u : Ten α) (e : Nat) : Prog (List Nat) α Unit :=
  loop (fun q => do
    let v ← dot4 (fun m => A.B.get [e, q, m, 0, 0, 0]) (fun m => u.get [e, m, 1])
    put [e, q, 0, 0] v
    let v ← dot4 (fun m => A.B.get [e, q, m, 1, 1, 0]) (fun m => u.get [e, m, 1])
    put [e, q, 1, 1] v
    let v ← dot4 (fun m => A.B.get [e, q, m, 2, 2, 2]) (fun m => u.get [e, m, 0])
    put [e, q, 2, 2] v
    let v ← dot4 (fun m => A.B.get [e, q, m, 0, 2, 2]) (fun m => u.get [e, m, 0])
    put [e, q, 0, 2] v
    let v ← dot4 (fun m => A.B.get [e, q, m, 2, 0, 0]) (fun m => u.get [e, m, 1])
    put [e, q, 2, 0] v) (it1 A.nip)

/-- `gradN_vector_T_impl`, ElementQuad4Axisymmetric.h:175-199 -/
def gradN_vector_T (u : Ten α) (e : Nat) : Prog (List Nat) α Unit :=
  loop (fun q => do
    let v ← dot4 (fun m => A.B.get [e, q, m, 0, 0, 0]) (fun m => u.get [e, m, 1])
    put [e, q, 0, 0] v
    let v ← dot4 (fun m => A.B.get [e, q, m, 1, 1, 0]) (fun m => u.get [e, m, 1])
    put [e, q, 1, 1] v
    let v ← dot4 (fun m => A.B.get [e, q, m, 2, 2, 2]) (fun m => u.get [e, m, 0])
    put [e, q, 2, 2] v
    let v ← dot4 (fun m => A.B.get [e, q, m, 0, 2, 2]) (fun m => u.get [e, m, 0])
    put [e, q, 2, 0] v
    let v ← dot4 (fun m => A.B.get [e, q, m, 2, 0, 0]) (fun m => u.get [e, m, 1])
    put [e, q, 0, 2] v) (it1 A.nip)

/-- `symGradN_vector_impl`, ElementQuad4Axisymmetric.h:210-236 -/
def symGradN_vector (u : Ten α) (e : Nat) : Prog (List Nat) α Unit :=
  loop (fun q => do
    let v ← dot4 (fun m => A.B.get [e, q, m, 0, 0, 0]) (fun m => u.get [e, m, 1])
    put [e, q, 0, 0] v
    let v ← dot4 (fun m => A.B.get [e, q, m, 1, 1, 0]) (fun m => u.get [e, m, 1])
    put [e, q, 1, 1] v
    let v ← dot4 (fun m => A.B.get [e, q, m, 2, 2, 2]) (fun m => u.get [e, m, 0])
    put [e, q, 2, 2] v
    let v ← dot4 (fun m => A.B.get [e, q, m, 0, 2, 2]) (fun m => u.get [e, m, 0])
    let w ← dot4 (fun m => A.B.get [e, q, m, 2, 0, 0]) (fun m => u.get [e, m, 1])
    put [e, q, 2, 0] (1 / 2 * (v + w))
    let v ← fetch [e, q, 2, 0]
    put [e, q, 0, 2] v) (it1 A.nip)

/-- `int_gradN_dot_tensor2_dV_impl`, ElementQuad4Axisymmetric.h:280-300 -/
def int_gradN_dot_tensor2_dV (sig : Ten α) (e : Nat) : Prog (List Nat) α Unit :=
  loop (fun q => loop (fun m => do
    let v ← A.vol.get [e, q]
    let b222 ← A.B.get [e, q, m, 2, 2, 2]
    let s22 ← sig.get [e, q, 2, 2]
    let b022 ← A.B.get [e, q, m, 0, 2, 2]
    let s02 ← sig.get [e, q, 0, 2]
    add [e, m, 0] (v * (b222 * s22 + b022 * s02))
    let b000 ← A.B.get [e, q, m, 0, 0, 0]
    let s00 ← sig.get [e, q, 0, 0]
    let b110 ← A.B.get [e, q, m, 1, 1, 0]
    let s11 ← sig.get [e, q, 1, 1]
    let b200 ← A.B.get [e, q, m, 2, 0, 0]
    let s20 ← sig.get [e, q, 2, 0]
    add [e, m, 1] (v * (b000 * s00 + b110 * s11 + b200 * s20))) (it1 4)) (it1 A.nip)

/-- one statement `K(m * 2 + r, n * 2 + c) += B(m, b..) * C(c..) * B(n, d..) * vol` of ElementQuad4Axisymmetric.h:330-383 -/
def kTerm (B C : Ten α) (e q m n : Nat) (v : α) (r c : Nat) (b cc d : List Nat) : Prog (List Nat) α Unit := do
  let x ← B.get ([e, q, m] ++ b)
  let y ← C.get ([e, q] ++ cc)
  let z ← B.get ([e, q, n] ++ d)
  add [e, m * 2 + r, n * 2 + c] (x * y * z * v)

/-- `int_gradN_dot_tensor4_dot_gradNT_dV_impl`, ElementQuad4Axisymmetric.h:312-387 -/
def int_gradN_dot_tensor4_dot_gradNT_dV (C : Ten α) (e : Nat) : Prog (List Nat) α Unit :=
  loop (fun q => loop (fun mn => do
    let v ← A.vol.get [e, q]
    kTerm A.B C e q mn.1 mn.2 v 1 1 [0, 0, 0] [0, 0, 0, 0] [0, 0, 0]
    kTerm A.B C e q mn.1 mn.2 v 1 1 [0, 0, 0] [0, 0, 1, 1] [1, 1, 0]
    kTerm A.B C e q mn.1 mn.2 v 1 0 [0, 0, 0] [0, 0, 2, 2] [2, 2, 2]
    kTerm A.B C e q mn.1 mn.2 v 1 0 [0, 0, 0] [0, 0, 2, 0] [0, 2, 2]
    kTerm A.B C e q mn.1 mn.2 v 1 1 [0, 0, 0] [0, 0, 0, 2] [2, 0, 0]
    kTerm A.B C e q mn.1 mn.2 v 1 1 [1, 1, 0] [1, 1, 0, 0] [0, 0, 0]
    kTerm A.B C e q mn.1 mn.2 v 1 1 [1, 1, 0] [1, 1, 1, 1] [1, 1, 0]
    kTerm A.B C e q mn.1 mn.2 v 1 0 [1, 1, 0] [1, 1, 2, 2] [2, 2, 2]
    kTerm A.B C e q mn.1 mn.2 v 1 0 [1, 1, 0] [1, 1, 2, 0] [0, 2, 2]
    kTerm A.B C e q mn.1 mn.2 v 1 1 [1, 1, 0] [1, 1, 0, 2] [2, 0, 0]
    kTerm A.B C e q mn.1 mn.2 v 0 1 [2, 2, 2] [2, 2, 0, 0] [0, 0, 0]
    kTerm A.B C e q mn.1 mn.2 v 0 1 [2, 2, 2] [2, 2, 1, 1] [1, 1, 0]
    kTerm A.B C e q mn.1 mn.2 v 0 0 [2, 2, 2] [2, 2, 2, 2] [2, 2, 2]
    kTerm A.B C e q mn.1 mn.2 v 0 0 [2, 2, 2] [2, 2, 2, 0] [0, 2, 2]
    kTerm A.B C e q mn.1 mn.2 v 0 1 [2, 2, 2] [2, 2, 0, 2] [2, 0, 0]
    kTerm A.B C e q mn.1 mn.2 v 0 1 [0, 2, 2] [0, 2, 0, 0] [0, 0, 0]
    kTerm A.B C e q mn.1 mn.2 v 0 1 [0, 2, 2] [0, 2, 1, 1] [1, 1, 0]
    kTerm A.B C e q mn.1 mn.2 v 0 0 [0, 2, 2] [0, 2, 2, 2] [2, 2, 2]
    kTerm A.B C e q mn.1 mn.2 v 0 0 [0, 2, 2] [0, 2, 2, 0] [0, 2, 2]
    kTerm A.B C e q mn.1 mn.2 v 0 1 [0, 2, 2] [0, 2, 0, 2] [2, 0, 0]
    kTerm A.B C e q mn.1 mn.2 v 1 1 [2, 0, 0] [2, 0, 0, 0] [0, 0, 0]
    kTerm A.B C e q mn.1 mn.2 v 1 1 [2, 0, 0] [2, 0, 1, 1] [1, 1, 0]
    kTerm A.B C e q mn.1 mn.2 v 1 0 [2, 0, 0] [2, 0, 2, 2] [2, 2, 2]
    kTerm A.B C e q mn.1 mn.2 v 1 0 [2, 0, 0] [2, 0, 2, 0] [0, 2, 2]
    kTerm A.B C e q mn.1 mn.2 v 1 1 [2, 0, 0] [2, 0, 0, 2] [2, 0, 0]) (it2 4 4)) (it1 A.nip)

/-- `compute_dN_impl`, ElementQuad4Axisymmetric.h:400-445; the cells of `m_B` are `(false, _)`, those of `m_vol` are `(true, _)` -/
def compute_dN (pi : α) (Q : Quadrature α) (e : Nat) : Prog (Bool × List Nat) α Unit :=
  loop (fun q => do
    let J ← jacobian Q.dNxi Q.x e q
    let r ← inv2 J (Ten.empty [2, 2])
    let rq ← dot4 (fun m => Q.N.get [q, m]) (fun m => Q.x.get [e, m, 1])
    loop (fun m => do
      let j00 ← r.2.get [0, 0]
      let j01 ← r.2.get [0, 1]
      let j10 ← r.2.get [1, 0]
      let j11 ← r.2.get [1, 1]
      let d0 ← Q.dNxi.get [q, m, 0]
      let d1 ← Q.dNxi.get [q, m, 1]
      let n ← Q.N.get [q, m]
      put (false, [e, q, m, 0, 0, 0]) (j10 * d0 + j11 * d1)
      put (false, [e, q, m, 0, 2, 2]) (j10 * d0 + j11 * d1)
      put (false, [e, q, m, 1, 1, 0]) (1 / rq * n)
      put (false, [e, q, m, 2, 0, 0]) (j00 * d0 + j01 * d1)
      put (false, [e, q, m, 2, 2, 2]) (j00 * d0 + j01 * d1)) (it1 4)
    let w ← Q.w.get [q]
    put (true, [e, q]) (w * r.1 * 2 * pi * rq)) (it1 Q.nip)

end Axi

namespace Hex8
variable [Zero α] [One α] [Add α] [Sub α] [Mul α] [Div α] [Neg α] [NatCast α] (Q : Quadrature α)

/-- `int_N_scalar_NT_dV_impl`, ElementHex8.h:331-351 -/
def int_N_scalar_NT_dV (qscalar : Ten α) (e : Nat) : Prog (List Nat) α Unit :=
  loop (fun q => loop (fun mn => do
    let v ← Q.vol.get [e, q]
    let r ← qscalar.get [e, q]
    let a ← Q.N.get [q, mn.1]
    let b ← Q.N.get [q, mn.2]
    add [e, mn.1 * 3 + 0, mn.2 * 3 + 0] (a * r * b * v)
    add [e, mn.1 * 3 + 1, mn.2 * 3 + 1] (a * r * b * v)
    add [e, mn.1 * 3 + 2, mn.2 * 3 + 2] (a * r * b * v)) (it2 8 8)) (it1 Q.nip)

/-- `int_gradN_dot_tensor2_dV_impl`, ElementHex8.h:362-382 -/
def int_gradN_dot_tensor2_dV (qtensor : Ten α) (e : Nat) : Prog (List Nat) α Unit :=
  loop (fun q => loop (fun m => do
    let v ← Q.vol.get [e, q]
    let d0 ← Q.dNx.get [e, q, m, 0]
    let d1 ← Q.dNx.get [e, q, m, 1]
    let d2 ← Q.dNx.get [e, q, m, 2]
    let s0 ← qtensor.get [e, q, 0, 0]
    let s1 ← qtensor.get [e, q, 1, 0]
    let s2 ← qtensor.get [e, q, 2, 0]
    add [e, m, 0] ((d0 * s0 + d1 * s1 + d2 * s2) * v)
    let s0 ← qtensor.get [e, q, 0, 1]
    let s1 ← qtensor.get [e, q, 1, 1]
    let s2 ← qtensor.get [e, q, 2, 1]
    add [e, m, 1] ((d0 * s0 + d1 * s1 + d2 * s2) * v)
    let s0 ← qtensor.get [e, q, 0, 2]
    let s1 ← qtensor.get [e, q, 1, 2]
    let s2 ← qtensor.get [e, q, 2, 2]
    add [e, m, 2] ((d0 * s0 + d1 * s1 + d2 * s2) * v)) (it1 8)) (it1 Q.nip)

end Hex8

/-! ### `Vector`: iteration `m` (a node) or `e` (an element) -/

section vector
variable (V : Vector)

/-- `asDofs(nodevec)`, Vector.h:579-584; the same loop in Matrix.h:831-835 -/
def asDofs_nodevec (arg : Ten α) (m : Nat) : Prog (List Nat) α Unit :=
  loop (fun i => do
    let d ← V.dofs.get [m, i]
    let a ← arg.get [m, i]
    put [d] a) (it1 V.ndim)

/-- `asDofs(elemvec)`, Vector.h:601-608 -/
def asDofs_elemvec (arg : Ten α) (e : Nat) : Prog (List Nat) α Unit :=
  loop (fun mi => do
    let n ← V.conn.get [e, mi.1]
    let d ← V.dofs.get [n, mi.2]
    let a ← arg.get [e, mi.1, mi.2]
    put [d] a) (it2 V.nne V.ndim)

/-- `asNode(dofval)`, Vector.h:623-628; the same loop in Matrix.h:853-857 -/
def asNode_dofval (arg : Ten α) (m : Nat) : Prog (List Nat) α Unit :=
  loop (fun i => do
    let d ← V.dofs.get [m, i]
    let a ← arg.get [d]
    put [m, i] a) (it1 V.ndim)

/-- `asNode(elemvec)`, Vector.h:645-652 -/
def asNode_elemvec (arg : Ten α) (e : Nat) : Prog (List Nat) α Unit :=
  loop (fun mi => do
    let n ← V.conn.get [e, mi.1]
    let a ← arg.get [e, mi.1, mi.2]
    put [n, mi.2] a) (it2 V.nne V.ndim)

/-- `asElement(dofval)`, Vector.h:667-674 -/
def asElement_dofval (arg : Ten α) (e : Nat) : Prog (List Nat) α Unit :=
  loop (fun mi => do
    let n ← V.conn.get [e, mi.1]
    let d ← V.dofs.get [n, mi.2]
    let a ← arg.get [d]
    put [e, mi.1, mi.2] a) (it2 V.nne V.ndim)

/-- `asElement(nodevec)`, Vector.h:689-696 -/
def asElement_nodevec (arg : Ten α) (e : Nat) : Prog (List Nat) α Unit :=
  loop (fun mi => do
    let n ← V.conn.get [e, mi.1]
    let a ← arg.get [n, mi.2]
    put [e, mi.1, mi.2] a) (it2 V.nne V.ndim)

end vector

/-! ### `VectorPartitioned` -/

section partitioned
variable (P : VectorPartitioned)

/-- `dofs_is_u`, VectorPartitioned.h:130-137 -/
def dofs_is_u (m : Nat) : Prog (List Nat) Bool Unit :=
  loop (fun i => do
    let k ← P.part.get [m, i]
    if k < P.nnu then put [m, i] true else pure ()) (it1 P.V.ndim)

/-- `dofs_is_p`, VectorPartitioned.h:151-158 -/
def dofs_is_p (m : Nat) : Prog (List Nat) Bool Unit :=
  loop (fun i => do
    let k ← P.part.get [m, i]
    if P.nnu ≤ k then put [m, i] true else pure ()) (it1 P.V.ndim)

/-- `copy_u`, VectorPartitioned.h:206-213 -/
def copy_u (src : Ten α) (m : Nat) : Prog (List Nat) α Unit :=
  loop (fun i => do
    let k ← P.part.get [m, i]
    if k < P.nnu then
      let a ← src.get [m, i]
      put [m, i] a
    else pure ()) (it1 P.V.ndim)

/-- `copy_p`, VectorPartitioned.h:259-266 -/
def copy_p (src : Ten α) (m : Nat) : Prog (List Nat) α Unit :=
  loop (fun i => do
    let k ← P.part.get [m, i]
    if P.nnu ≤ k then
      let a ← src.get [m, i]
      put [m, i] a
    else pure ()) (it1 P.V.ndim)

/-- `ret(ii(d)) = val(d)`: both loops of `DofsFromParitioned`, VectorPartitioned.h:305-313; MatrixPartitioned.h:389-397, 430-433, 608-611;
MatrixDiagonalPartitioned.h:146-154; MatrixPartitionedTyings.h:578-586 -/
def putDofs (ii : List Nat) (val : Ten α) (d : Nat) : Prog (List Nat) α Unit := do
  let k ← lget ii d
  let a ← val.get [d]
  put [k] a

/-- `NodeFromPartitioned`, VectorPartitioned.h:354-363; the same loop in MatrixPartitioned.h:364-374 -/
def NodeFromPartitioned (u p : Ten α) (m : Nat) : Prog (List Nat) α Unit :=
  loop (fun i => do
    let k ← P.part.get [m, i]
    if k < P.nnu then
      let a ← u.get [k]
      put [m, i] a
    else
      let a ← p.get [k - P.nnu]
      put [m, i] a) (it1 P.V.ndim)

/-- `ElementFromPartitioned`, VectorPartitioned.h:405-416 -/
def ElementFromPartitioned (u p : Ten α) (e : Nat) : Prog (List Nat) α Unit :=
  loop (fun mi => do
    let n ← P.V.conn.get [e, mi.1]
    let k ← P.part.get [n, mi.2]
    if k < P.nnu then
      let a ← u.get [k]
      put [e, mi.1, mi.2] a
    else
      let a ← p.get [k - P.nnu]
      put [e, mi.1, mi.2] a) (it2 P.V.nne P.V.ndim)

/-- `ret(d) = x(ii(d))`: `AsDofs_u(dofval)`, `AsDofs_p(dofval)`, VectorPartitioned.h:451-454, 572-575; MatrixPartitioned.h:459-462, 491-494;
MatrixDiagonalPartitioned.h:125-133; MatrixPartitionedTyings.h:420-423, 452-455, 484-487 -/
def takeDofs (ii : List Nat) (x : Ten α) (d : Nat) : Prog (List Nat) α Unit := do
  let k ← lget ii d
  let a ← x.get [k]
  put [d] a

/-- `AsDofs_u(nodevec)`, VectorPartitioned.h:488-495; the same loop in MatrixPartitioned.h:473-480 -/
def AsDofs_u_nodevec (x : Ten α) (m : Nat) : Prog (List Nat) α Unit :=
  loop (fun i => do
    let k ← P.part.get [m, i]
    if k < P.nnu then
      let a ← x.get [m, i]
      put [k] a
    else pure ()) (it1 P.V.ndim)

/-- `AsDofs_p(nodevec)`, VectorPartitioned.h:609-616; the same loop in MatrixPartitioned.h:505-512 -/
def AsDofs_p_nodevec (x : Ten α) (m : Nat) : Prog (List Nat) α Unit :=
  loop (fun i => do
    let k ← P.part.get [m, i]
    if P.nnu ≤ k then
      let a ← x.get [m, i]
      put [k - P.nnu] a
    else pure ()) (it1 P.V.ndim)

/-- `AsDofs_u(elemvec)`, VectorPartitioned.h:529-538 -/
def AsDofs_u_elemvec (x : Ten α) (e : Nat) : Prog (List Nat) α Unit :=
  loop (fun mi => do
    let n ← P.V.conn.get [e, mi.1]
    let k ← P.part.get [n, mi.2]
    if k < P.nnu then
      let a ← x.get [e, mi.1, mi.2]
      put [k] a
    else pure ()) (it2 P.V.nne P.V.ndim)

/-- `AsDofs_p(elemvec)`, VectorPartitioned.h:650-659 -/
def AsDofs_p_elemvec (x : Ten α) (e : Nat) : Prog (List Nat) α Unit :=
  loop (fun mi => do
    let n ← P.V.conn.get [e, mi.1]
    let k ← P.part.get [n, mi.2]
    if P.nnu ≤ k then
      let a ← x.get [e, mi.1, mi.2]
      put [k - P.nnu] a
    else pure ()) (it2 P.V.nne P.V.ndim)

/-- the loop of `solve(b, x)` on node vectors, MatrixPartitioned.h:590-597 -/
def solve_nodevec (xu : Ten α) (m : Nat) : Prog (List Nat) α Unit :=
  loop (fun i => do
    let k ← P.part.get [m, i]
    if k < P.nnu then
      let a ← xu.get [k]
      put [m, i] a
    else pure ()) (it1 P.V.ndim)

/-- the loop of `reaction(x, b)` on node vectors, MatrixPartitioned.h:410-417 -/
def reaction_nodevec (bp : Ten α) (m : Nat) : Prog (List Nat) α Unit :=
  loop (fun i => do
    let k ← P.part.get [m, i]
    if P.nnu ≤ k then
      let a ← bp.get [k - P.nnu]
      put [m, i] a
    else pure ()) (it1 P.V.ndim)

end partitioned

/-! ### tyings -/

/-- the loop of VectorPartitionedTyings.h:64-71, 231-238 and MatrixPartitionedTyings.h:434-441, 466-473, 498-505; `keep` is its `if`-condition -/
def windowLoop (V : Vector) (keep : Nat → Bool) (lo : Nat) (x : Ten α) (m : Nat) : Prog (List Nat) α Unit :=
  loop (fun i => do
    let k ← V.dofs.get [m, i]
    if keep k then
      let a ← x.get [m, i]
      put [k - lo] a
    else pure ()) (it1 V.ndim)

/-- `copy_p`, VectorPartitionedTyings.h:195-198 -/
def copyDofs (src : Ten α) (i : Nat) : Prog (List Nat) α Unit := do
  let a ← src.get [i]
  put [i] a

/-- the last loop of `asDofs_i`, VectorPartitionedTyings.h:247-250 -/
def addDofs [Add α] (di : Ten α) (i : Nat) : Prog (List Nat) α Unit := do
  let a ← di.get [i]
  add [i] a

/-- the loop of `solve(b, x)` on node vectors, MatrixPartitionedTyings.h:553-563 -/
def tyings_solve_nodevec (M : MatrixPartitionedTyings α) (xu xd : Ten α) (m : Nat) : Prog (List Nat) α Unit :=
  loop (fun i => do
    let k ← M.V.dofs.get [m, i]
    if k < M.nnu then
      let a ← xu.get [k]
      put [m, i] a
    else if M.nni ≤ k then
      let a ← xd.get [k - M.nni]
      put [m, i] a
    else pure ()) (it1 M.V.ndim)

/-! ### diagonal matrices -/

/-- `inv(d) = 1 / A(d)`, MatrixDiagonal.h:274-277 and MatrixDiagonalPartitioned.h:445-448 -/
def invLoop [One α] [Div α] (A : Ten α) (d : Nat) : Prog (List Nat) α Unit := do
  let a ← A.get [d]
  put [d] (1 / a)

/-- `todense`, MatrixDiagonal.h:174-177 -/
def todense (A : Ten α) (d : Nat) : Prog (List Nat) α Unit := do
  let a ← A.get [d]
  put [d, d] a

/-- `ret(ii(d), ii(d)) = A(d)`, MatrixDiagonalPartitioned.h:105-113 -/
def putDiag (ii : List Nat) (val : Ten α) (d : Nat) : Prog (List Nat) α Unit := do
  let k ← lget ii d
  let a ← val.get [d]
  put [k, k] a

/-- `b(m, i) = A(dofs(m, i)) * x(m, i)`, MatrixDiagonal.h:218-223 (`dot`) and 244-249 (`solve`, with the inverse as `A`) -/
def mulNode [Mul α] (V : Vector) (A x : Ten α) (m : Nat) : Prog (List Nat) α Unit :=
  loop (fun i => do
    let d ← V.dofs.get [m, i]
    let a ← A.get [d]
    let v ← x.get [m, i]
    put [m, i] (a * v)) (it1 V.ndim)

/-- `b(d) = A(d) * x(d)`, MatrixDiagonalPartitioned.h:260-263, 298-301, 370-373, 417-420 -/
def mulLoop [Mul α] (A x : Ten α) (d : Nat) : Prog (List Nat) α Unit := do
  let a ← A.get [d]
  let v ← x.get [d]
  put [d] (a * v)

/-- `b(ii(d)) = A(d) * x(ii(d))`, MatrixDiagonalPartitioned.h:216-224, 331-334, 399-402 -/
def mulDofs [Mul α] (ii : List Nat) (A x : Ten α) (d : Nat) : Prog (List Nat) α Unit := do
  let k ← lget ii d
  let a ← A.get [d]
  let v ← x.get [k]
  put [k] (a * v)

/-- `dot(nodevec)`, MatrixDiagonalPartitioned.h:194-207 -/
def diag_dot_nodevec [Mul α] (M : MatrixDiagonalPartitioned α) (x : Ten α) (m : Nat) : Prog (List Nat) α Unit :=
  loop (fun i => do
    let d ← M.P.part.get [m, i]
    if d < M.P.nnu then
      let a ← M.Auu.get [d]
      let v ← x.get [m, i]
      put [m, i] (a * v)
    else
      let a ← M.App.get [d - M.P.nnu]
      let v ← x.get [m, i]
      put [m, i] (a * v)) (it1 M.P.V.ndim)

/-- `solve(b, x)` on node vectors, MatrixDiagonalPartitioned.h:313-320 -/
def diag_solve_nodevec [Mul α] (M : MatrixDiagonalPartitioned α) (b : Ten α) (m : Nat) : Prog (List Nat) α Unit :=
  loop (fun i => do
    let k ← M.P.part.get [m, i]
    if k < M.P.nnu then
      let a ← M.inv_uu.get [k]
      let v ← b.get [m, i]
      put [m, i] (a * v)
    else pure ()) (it1 M.P.V.ndim)

/-- `reaction(x, b)` on node vectors, MatrixDiagonalPartitioned.h:383-390 -/
def diag_reaction_nodevec [Mul α] (M : MatrixDiagonalPartitioned α) (x : Ten α) (m : Nat) : Prog (List Nat) α Unit :=
  loop (fun i => do
    let k ← M.P.part.get [m, i]
    if M.P.nnu ≤ k then
      let a ← M.App.get [k - M.P.nnu]
      let v ← x.get [m, i]
      put [m, i] (a * v)
    else pure ()) (it1 M.P.V.ndim)

end Par
end GF
