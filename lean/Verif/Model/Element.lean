import Verif.Base
import Mathlib.Algebra.Field.Basic

/-! Model of `include/GooseFEM/detail.h`, of the free functions of `Element.h` and of the generic
quadrature class `QuadratureBaseCartesian` (`Element.h`).

Simplifications (all definitions of this file and of the element files built on it):
* `xt::adapt(&arr(e, q, 0, ..), shape)(i, j)` is modelled by `arr(e, q, i, j)`; the two agree because the
  trailing dimensions of `arr` equal `shape` whenever the (asserted) input shapes are respected.  The
  functions that use raw pointers (`ptr[k]`) are modelled by `Ten.getP` / `Ten.addP`, which do follow the
  memory layout.
* `#pragma omp parallel for` over the elements is an arbitrary permutation of the elements; the
  loops inside one element are executed in program order.  The scratch matrices `J`, `Jinv`, private to a
  thread, are allocated anew in each iteration (they are overwritten completely before they are read).
* the generic `int_gradN_dot_tensor2_dV_impl` (Element.h:1097-1129) is not modelled: it names a member `m_m_dNx` that
  does not exist and is overridden by every class of the library, so it is never instantiated.
* `double` is an arbitrary field; division by zero gives `0` instead of inf/nan. -/

namespace GF

/-! ### raw pointers (row-major memory) -/

/-- number of cells of an array -/
def sizeOf' : List Nat → Nat
  | [] => 1
  | n :: sh => n * sizeOf' sh

/-- offset of a cell in row-major memory: `&arr(ix) - arr.data()` -/
def ravel : List Nat → List Nat → Nat
  | _ :: sh, i :: ix => i * sizeOf' sh + ravel sh ix
  | _, _ => 0

/-- the cell at a given offset in row-major memory -/
def unravel : List Nat → Nat → List Nat
  | [], _ => []
  | _ :: sh, k => (k / sizeOf' sh) :: unravel sh (k % sizeOf' sh)

variable {α : Type}

/-- `p[k]` with `p = &arr(ix)`, as r-value -/
def Ten.getP (t : Ten α) (ix : List Nat) (k : Nat) : Res α :=
  t.get (unravel t.shape (ravel t.shape ix + k))

/-- `p[k] += a` with `p = &arr(ix)` -/
def Ten.addP [Add α] (t : Ten α) (ix : List Nat) (k : Nat) (a : α) : Res (Ten α) :=
  t.addAt (unravel t.shape (ravel t.shape ix + k)) a

/-- `p[k] = a` with `p = &arr(ix)` -/
def Ten.setP (t : Ten α) (ix : List Nat) (k : Nat) (a : α) : Res (Ten α) :=
  t.set (unravel t.shape (ravel t.shape ix + k)) a

/-! ### detail.h -/

/-- `detail::tensor<2>::inv`, detail.h:26-36: writes `Ainv`, returns the determinant -/
def inv2 [Zero α] [One α] [Add α] [Sub α] [Mul α] [Div α] [Neg α] [NatCast α] (A Ainv : Ten α) : Res (α × Ten α) := do
  let a00 ← A.get [0, 0]
  let a01 ← A.get [0, 1]
  let a10 ← A.get [1, 0]
  let a11 ← A.get [1, 1]
  let t ← Ainv.set [0, 0] (a11 / (a00 * a11 - a01 * a10))
  let t ← t.set [0, 1] (-1 * a01 / (a00 * a11 - a01 * a10))
  let t ← t.set [1, 0] (-1 * a10 / (a00 * a11 - a01 * a10))
  let t ← t.set [1, 1] (a00 / (a00 * a11 - a01 * a10))
  .ok (a00 * a11 - a01 * a10, t)

/-- the determinant expression of detail.h:51-54 -/
def det3 [Zero α] [One α] [Add α] [Sub α] [Mul α] [Div α] [Neg α] [NatCast α] (a00 a01 a02 a10 a11 a12 a20 a21 a22 : α) : α :=
  (a00 * a11 * a22 + a01 * a12 * a20 + a02 * a10 * a21) -
    (a02 * a11 * a20 + a01 * a10 * a22 + a00 * a12 * a21)

/-- `detail::tensor<3>::inv`, detail.h:49-69: writes `Ainv`, returns the determinant -/
def inv3 [Zero α] [One α] [Add α] [Sub α] [Mul α] [Div α] [Neg α] [NatCast α] (A Ainv : Ten α) : Res (α × Ten α) := do
  let a00 ← A.get [0, 0]
  let a01 ← A.get [0, 1]
  let a02 ← A.get [0, 2]
  let a10 ← A.get [1, 0]
  let a11 ← A.get [1, 1]
  let a12 ← A.get [1, 2]
  let a20 ← A.get [2, 0]
  let a21 ← A.get [2, 1]
  let a22 ← A.get [2, 2]
  let t ← Ainv.set [0, 0] ((a11 * a22 - a12 * a21) / det3 a00 a01 a02 a10 a11 a12 a20 a21 a22)
  let t ← t.set [0, 1] ((a02 * a21 - a01 * a22) / det3 a00 a01 a02 a10 a11 a12 a20 a21 a22)
  let t ← t.set [0, 2] ((a01 * a12 - a02 * a11) / det3 a00 a01 a02 a10 a11 a12 a20 a21 a22)
  let t ← t.set [1, 0] ((a12 * a20 - a10 * a22) / det3 a00 a01 a02 a10 a11 a12 a20 a21 a22)
  let t ← t.set [1, 1] ((a00 * a22 - a02 * a20) / det3 a00 a01 a02 a10 a11 a12 a20 a21 a22)
  let t ← t.set [1, 2] ((a02 * a10 - a00 * a12) / det3 a00 a01 a02 a10 a11 a12 a20 a21 a22)
  let t ← t.set [2, 0] ((a10 * a21 - a11 * a20) / det3 a00 a01 a02 a10 a11 a12 a20 a21 a22)
  let t ← t.set [2, 1] ((a01 * a20 - a00 * a21) / det3 a00 a01 a02 a10 a11 a12 a20 a21 a22)
  let t ← t.set [2, 2] ((a00 * a11 - a01 * a10) / det3 a00 a01 a02 a10 a11 a12 a20 a21 a22)
  .ok (det3 a00 a01 a02 a10 a11 a12 a20 a21 a22, t)

/-- `detail::tensor<nd>::inv`: only `nd = 2, 3` exist, detail.h:13-70 -/
def invNd [Zero α] [One α] [Add α] [Sub α] [Mul α] [Div α] [Neg α] [NatCast α] (nd : Nat) (A Ainv : Ten α) : Res (α × Ten α) :=
  if nd = 2 then inv2 A Ainv else if nd = 3 then inv3 A Ainv else .throws

/-! ### free functions of Element.h -/

namespace Element

/-- `asElementVector`, Element.h:31-52 -/
def asElementVector (σ : Sched) (conn : Ten Nat) (nodevec : Ten α) : Res (Ten α) :=
  match conn.shape, nodevec.shape with
  | [nelem, nne], [_, ndim] =>
    forEach (σ.run (it1 nelem)) (fun ret e =>
      forEach (it2 nne ndim) (fun ret mi => do
        let n ← conn.get [e, mi.1]
        let a ← nodevec.get [n, mi.2]
        ret.set [e, mi.1, mi.2] a) ret) (Ten.empty [nelem, nne, ndim])
  | _, _ => .ub

/-- `assembleNodeVector`, Element.h:63-87 (sequential loop) -/
def assembleNodeVector [Zero α] [Add α] (conn : Ten Nat) (elemvec : Ten α) : Res (Ten α) :=
  match conn.shape, elemvec.shape with
  | [nelem, nne], [_, _, ndim] => do
    let nmax ← amax conn
    forEach (it3 nelem nne ndim) (fun ret emi => do
      let n ← conn.get [emi.1, emi.2.1]
      let a ← elemvec.get [emi.1, emi.2.1, emi.2.2]
      ret.addAt [n, emi.2.2] a) (Ten.full [nmax + 1, ndim] 0)
  | _, _ => .ub

/-- second loop of `isSequential`, Element.h:106-110: `return false` at the first zero count -/
def allSeen (ex : Ten Nat) : List Nat → Res Bool
  | [] => .ok true
  | i :: l => do
    let c ← ex.get [i]
    if c = 0 then .ok false else allSeen ex l

/-- `isSequential`, Element.h:96-113 -/
def isSequential (dofs : Ten Nat) : Res Bool := do
  let nmax ← amax dofs
  let l ← dofs.flat
  let ex ← forEach l (fun ex i => ex.addAt [i] 1) (Ten.full [nmax + 1] (0 : Nat))
  allSeen ex l

/-- the loops of `isDiagonal`, Element.h:131-142, as a search for an offending entry.  (The `return` inside
the parallel loop is rejected by compilers that honour the pragma; the loop is modelled
sequentially.) -/
def isDiagonalLoop [LinearOrder α] [Neg α] (eps : α) (m : Ten α) : List (Nat × Nat × Nat) → Res Bool
  | [] => .ok true
  | (e, i, j) :: l => do
    if i ≠ j then
      let a ← m.get [e, i, j]
      if max a (-a) > eps then .ok false else isDiagonalLoop eps m l
    else isDiagonalLoop eps m l

/-- `isDiagonal`, Element.h:122-145; `eps` is `std::numeric_limits<double>::epsilon()` -/
def isDiagonal [LinearOrder α] [Neg α] (eps : α) (elemmat : Ten α) : Res Bool :=
  match elemmat.shape with
  | [nelem, n, _] => isDiagonalLoop eps elemmat (it3 nelem n n)
  | _ => .ub

/-- Members of the Cartesian quadrature classes (ElementQuad4.h:534-547, ElementHex8.h:385-397,
ElementQuad4Planar.h:321-333).  `nne`, `ndim`, `tdim` are the compile-time constants `s_nne`, `s_ndim`,
`s_tdim` (and `m_tdim`, equal to `s_tdim`). -/
structure Quadrature (α : Type) where
  nne : Nat
  ndim : Nat
  tdim : Nat
  nelem : Nat
  nip : Nat
  x : Ten α
  w : Ten α
  xi : Ten α
  N : Ten α
  dNxi : Ten α
  dNx : Ten α
  vol : Ten α

namespace Quadrature

/-- `shape_elemvec()`, Element.h:252-255 -/
def shape_elemvec (Q : Quadrature α) : List Nat := [Q.nelem, Q.nne, Q.ndim]
/-- `shape_elemvec(n)`, Element.h:263-266 -/
def shape_elemvec_n (Q : Quadrature α) (n : Nat) : List Nat := [Q.nelem, Q.nne, n]
/-- `shape_elemmat()`, Element.h:273-278 -/
def shape_elemmat (Q : Quadrature α) : List Nat := [Q.nelem, Q.nne * Q.ndim, Q.nne * Q.ndim]
/-- `shape_qtensor<rank>()`, Element.h:287-295 -/
def shape_qtensor (Q : Quadrature α) (rank : Nat) : List Nat := Q.nelem :: Q.nip :: List.replicate rank Q.tdim
/-- `shape_qscalar()`, Element.h:354-357 -/
def shape_qscalar (Q : Quadrature α) : List Nat := [Q.nelem, Q.nip]
/-- `shape_qvector(n)`, Element.h:372-375 -/
def shape_qvector_n (Q : Quadrature α) (n : Nat) : List Nat := [Q.nelem, Q.nip, n]

variable [Zero α] [One α] [Add α] [Sub α] [Mul α] [Div α] [Neg α] [NatCast α]

/-- generic `interpQuad_vector_impl`, Element.h:893-922 (raw pointers) -/
def interpQuad_vector_impl (Q : Quadrature α) (σ : Sched) (elemvec qvector : Ten α) : Res (Ten α) :=
  match elemvec.shape with
  | [_, _, n] =>
    forEach (σ.run (it1 Q.nelem)) (fun t e =>
      forEach (it3 Q.nip Q.nne n) (fun t k => do
        let a ← Q.N.getP [k.1, 0] k.2.1
        let u ← elemvec.getP [e, 0, 0] (k.2.1 * n + k.2.2)
        t.addP [e, k.1, 0] k.2.2 (a * u)) t) (Ten.full qvector.shape 0)
  | _ => .ub

/-- generic `gradN_vector_impl`, Element.h:925-955 -/
def gradN_vector_impl (Q : Quadrature α) (σ : Sched) (elemvec qtensor : Ten α) : Res (Ten α) :=
  forEach (σ.run (it1 Q.nelem)) (fun t e =>
    forEach (it1 Q.nip) (fun t q =>
      forEach (it3 Q.nne Q.ndim Q.ndim) (fun t k => do
        let a ← Q.dNx.get [e, q, k.1, k.2.1]
        let u ← elemvec.get [e, k.1, k.2.2]
        t.addAt [e, q, k.2.1, k.2.2] (a * u)) t) t) (Ten.full qtensor.shape 0)

/-- generic `gradN_vector_T_impl`, Element.h:958-988 -/
def gradN_vector_T_impl (Q : Quadrature α) (σ : Sched) (elemvec qtensor : Ten α) : Res (Ten α) :=
  forEach (σ.run (it1 Q.nelem)) (fun t e =>
    forEach (it1 Q.nip) (fun t q =>
      forEach (it3 Q.nne Q.ndim Q.ndim) (fun t k => do
        let a ← Q.dNx.get [e, q, k.1, k.2.1]
        let u ← elemvec.get [e, k.1, k.2.2]
        t.addAt [e, q, k.2.2, k.2.1] (a * u)) t) t) (Ten.full qtensor.shape 0)

/-- generic `symGradN_vector_impl`, Element.h:991-1022 -/
def symGradN_vector_impl (Q : Quadrature α) (σ : Sched) (elemvec qtensor : Ten α) : Res (Ten α) :=
  forEach (σ.run (it1 Q.nelem)) (fun t e =>
    forEach (it1 Q.nip) (fun t q =>
      forEach (it3 Q.nne Q.ndim Q.ndim) (fun t k => do
        let a ← Q.dNx.get [e, q, k.1, k.2.1]
        let u ← elemvec.get [e, k.1, k.2.2]
        let t ← t.addAt [e, q, k.2.1, k.2.2] (1 / 2 * a * u)
        t.addAt [e, q, k.2.2, k.2.1] (1 / 2 * a * u)) t) t) (Ten.full qtensor.shape 0)

/-- generic `int_N_vector_dV_impl`, Element.h:1025-1056 (raw pointers) -/
def int_N_vector_dV_impl (Q : Quadrature α) (σ : Sched) (qvector elemvec : Ten α) : Res (Ten α) :=
  match qvector.shape with
  | [_, _, n] =>
    forEach (σ.run (it1 Q.nelem)) (fun t e =>
      forEach (it3 Q.nip Q.nne n) (fun t k => do
        let a ← Q.N.getP [k.1, 0] k.2.1
        let b ← qvector.getP [e, k.1, 0] k.2.2
        let v ← Q.vol.get [e, k.1]
        t.addP [e, 0, 0] (k.2.1 * n + k.2.2) (a * b * v)) t) (Ten.full elemvec.shape 0)
  | _ => .ub

/-- generic `int_N_scalar_NT_dV_impl`, Element.h:1059-1094 -/
def int_N_scalar_NT_dV_impl (Q : Quadrature α) (σ : Sched) (qscalar elemmat : Ten α) : Res (Ten α) :=
  forEach (σ.run (it1 Q.nelem)) (fun t e =>
    forEach (it1 Q.nip) (fun t q =>
      forEach (it3 Q.nne Q.nne Q.ndim) (fun t k => do
        let a ← Q.N.get [q, k.1]
        let r ← qscalar.get [e, q]
        let b ← Q.N.get [q, k.2.1]
        let v ← Q.vol.get [e, q]
        t.addAt [e, k.1 * Q.ndim + k.2.2, k.2.1 * Q.ndim + k.2.2] (a * r * b * v)) t) t)
    (Ten.full elemmat.shape 0)

/-- generic `int_gradN_dot_tensor4_dot_gradNT_dV_impl`, Element.h:1132-1176 -/
def int_gradN_dot_tensor4_dot_gradNT_dV_impl (Q : Quadrature α) (σ : Sched) (qtensor elemmat : Ten α) :
    Res (Ten α) :=
  forEach (σ.run (it1 Q.nelem)) (fun t e =>
    forEach (it1 Q.nip) (fun t q =>
      forEach (it2 Q.nne Q.nne) (fun t mn =>
        forEach (it2 Q.ndim Q.ndim) (fun t ij =>
          forEach (it2 Q.ndim Q.ndim) (fun t kl => do
            let a ← Q.dNx.get [e, q, mn.1, ij.1]
            let c ← qtensor.get [e, q, ij.1, ij.2, kl.1, kl.2]
            let b ← Q.dNx.get [e, q, mn.2, kl.2]
            let v ← Q.vol.get [e, q]
            t.addAt [e, mn.1 * Q.ndim + ij.2, mn.2 * Q.ndim + kl.1] (a * c * b * v)) t) t) t) t)
    (Ten.full elemmat.shape 0)

/-- one integration point of the generic `compute_dN_impl`, Element.h:1202-1225.  Line 1220 reads `dNxiq(m, i)`
(not `dNxiq(m, j)`); modelled as written. -/
def compute_dN_point (Q : Quadrature α) (s : Ten α × Ten α) (e q : Nat) : Res (Ten α × Ten α) := do
  let J ← forEach (it3 Q.nne Q.ndim Q.ndim) (fun J k => do
    let a ← Q.dNxi.get [q, k.1, k.2.1]
    let b ← Q.x.get [e, k.1, k.2.2]
    J.addAt [k.2.1, k.2.2] (a * b)) (Ten.full [Q.ndim, Q.ndim] 0)
  let r ← invNd Q.ndim J (Ten.empty [Q.ndim, Q.ndim])
  let dNx ← forEach (it3 Q.nne Q.ndim Q.ndim) (fun t k => do
    let a ← r.2.get [k.2.1, k.2.2]
    let b ← Q.dNxi.get [q, k.1, k.2.1]
    t.addAt [e, q, k.1, k.2.1] (a * b)) s.1
  let w ← Q.w.get [q]
  let vol ← s.2.set [e, q] (w * r.1)
  .ok (dNx, vol)

/-- generic `compute_dN_impl`, Element.h:1178-1229 -/
def compute_dN_impl (Q : Quadrature α) (σ : Sched) : Res (Quadrature α) := do
  let s ← forEach (σ.run (it1 Q.nelem)) (fun s e =>
    forEach (it1 Q.nip) (fun s q => Q.compute_dN_point s e q) s) (Ten.full Q.dNx.shape 0, Q.vol)
  .ok { Q with dNx := s.1, vol := s.2 }

end Quadrature
end Element
end GF
