import Verif.Model.FineLayer
import Mathlib.Order.Defs.LinearOrder

/-! Model of the constructor of `Mesh::Quad4::FineLayer` from coordinates and connectivity (MeshQuad4.h:228-232,
`init_by_mapping` 1076-1134).  `xt::allclose` (library function) is a parameter: `close a b` is the comparison of two
numbers; the conversion `static_cast<size_t>` of a floating-point number is a parameter `toSize`. -/

namespace GF
namespace FineLayer
variable {α : Type}

/-- `while (conn(eleft, 0) == conn(eleft - 1, 1) && eleft > 0) { eleft--; }`, MeshQuad4.h:1100-1102.  The comparison is
evaluated first: for `eleft = 0` the index `eleft - 1` wraps around and is out of bounds. -/
def leftEnd (conn : Ten Nat) : Nat → Res Nat
  | 0 => .ub
  | e + 1 => do
    let a ← conn.get [e + 1, 0]
    let b ← conn.get [e, 1]
    if a = b then leftEnd conn e else .ok (e + 1)

/-- `while (conn(eright, 1) == conn(eright + 1, 0) && eright < conn.shape(0) - 1) { eright++; }`, MeshQuad4.h:1104-1106; the
first argument bounds the number of iterations -/
def rightEnd (conn : Ten Nat) (N : Nat) : Nat → Nat → Res Nat
  | 0, _ => .ub
  | fuel + 1, e => do
    let a ← conn.get [e, 1]
    let b ← conn.get [e + 1, 0]
    if a = b ∧ e < N - 1 then rightEnd conn N fuel (e + 1) else .ok e

/-- `GOOSEFEM_CHECK(expr)`: throws an exception if the condition is false -/
def check (b : Bool) : Res Unit := if b then .ok () else .throws

/-- `xt::all(xt::equal(a, b))` of two arrays.  Simplification: arrays of different shapes are reported as different
(throwing), xtensor would broadcast extents of one. -/
def allEqual (a b : Ten Nat) : Res Bool :=
  if a.shape ≠ b.shape then .throws
  else do
    let l ← a.flat
    let m ← b.flat
    .ok (decide (l = m))

/-- `xt::allclose(a, b)` of two arrays, with the same simplification -/
def allClose (close : α → α → Bool) (a b : Ten α) : Res Bool :=
  if a.shape ≠ b.shape then .throws
  else do
    let l ← a.flat
    let m ← b.flat
    .ok ((l.zip m).all fun p => close p.1 p.2)

/-- `xt::amin(a)()` of a list (library function); the code never applies it to an empty array -/
def amin [LinearOrder α] : List α → Res α
  | [] => .ub
  | a :: l => .ok (l.foldl min a)

/-- difference of the positions of two corners, for each element of a list: MeshQuad4.h:1112-1116 -/
def sides [Sub α] (coor : Ten α) (conn : Ten Nat) (es : List Nat) (j i d : Nat) : Res (List α) :=
  mapRes (fun e => do
    let n1 ← conn.get [e, j]
    let n0 ← conn.get [e, i]
    let a ← coor.get [n1, d]
    let b ← coor.get [n0, d]
    .ok (a - b)) es

/-- the checks at the end, MeshQuad4.h:1091-1092 and 1130-1131 -/
def checkMesh [DivisionRing α] (close : α → α → Bool) (M : FineLayer α) (coor : Ten α) (conn : Ten Nat) : Res Unit := do
  let c ← M.conn
  let b ← allEqual c conn
  check b
  let x ← M.coor
  let b ← allClose close x coor
  check b

/-- `FineLayer(coor, conn)`, MeshQuad4.h:228-232 and 1076-1134; the `GOOSEFEM_ASSERT`s (off by default) are not
modelled.  Simplification: `nely` is computed (1126) after the checks 1119-1121, as in the code, by the parameter `toSize`. -/
def ofMesh [DivisionRing α] [LinearOrder α] (close : α → α → Bool) (toSize : α → Nat) (coor : Ten α) (conn : Ten Nat) : Res (FineLayer α) := do
  let N := conn.shape.getD 0 0
  if N = 1 then do
    let n1 ← conn.get [0, 1]
    let n0 ← conn.get [0, 0]
    let a ← coor.get [n1, 0]
    let b ← coor.get [n0, 0]
    let M ← FineLayer.new 1 1 (a - b) 1
    let _ ← checkMesh close M coor conn
    .ok M
  else do
    let emid := (N - N % 2) / 2
    let eleft ← leftEnd conn emid
    let eright ← rightEnd conn N N emid
    let n0 ← conn.get [eleft, 0]
    let x0 ← coor.get [n0, 0]
    let _ ← check (close x0 0)
    let es := itFrom eleft (eright + 1)
    let dx ← sides coor conn es 1 0 0
    let dy ← sides coor conn es 2 1 1
    let hx ← amin dx
    let hy ← amin dy
    let _ ← check (close hx hy)
    let _ ← check (dx.all fun a => close a hx)
    let _ ← check (dy.all fun a => close a hy)
    let nelx := eright - eleft + 1
    let yt ← coor.get [coor.shape.getD 0 0 - 1, 1]
    let yb ← coor.get [0, 1]
    let M ← FineLayer.new nelx (toSize ((yt - yb) / hx)) hx 1
    let _ ← checkMesh close M coor conn
    let m ← M.elementsMiddleLayer
    let b ← allEqual m (affine (arange 0 nelx) 1 eleft)
    let _ ← check b
    .ok M

end FineLayer
end GF
