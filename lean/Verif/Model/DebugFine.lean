import Verif.Model.Debug
import Verif.Model.FineLayer2Regular
import Verif.Model.FineLayer3
import Verif.Model.MeshTri3

/-! The build with assertions (`GOOSEFEM_ENABLE_ASSERT`), continued: `FineLayer`, its map to a regular mesh, and the orientation of
triangles.  See Model/Debug. -/

namespace GF
variable {α : Type}

/-- Constructor of `Mesh::Quad4::FineLayer`, `init`, MeshQuad4.h:900-903 -/
def FineLayer.new_checked [Mul α] [NatCast α] (nelx nely : Nat) (h : α) (nfine : Nat) : Res (FineLayer α) := do
  gassert (1 ≤ nelx)
  gassert (1 ≤ nely)
  FineLayer.new nelx nely h nfine

/-- Constructor of `Mesh::Hex8::FineLayer`, MeshHex8.h:632-636 -/
def FineLayer3.new_checked [Mul α] [NatCast α] (nelx nely nelz : Nat) (h : α) (nfine : Nat) : Res (FineLayer3 α) := do
  gassert (1 ≤ nelx)
  gassert (1 ≤ nely)
  gassert (1 ≤ nelz)
  FineLayer3.new nelx nely nelz h nfine

/-- `elementsLayer(layer)`, MeshQuad4.h:299-307 -/
def FineLayer.elementsLayer_checked (M : FineLayer α) (layer : Nat) : Res (Ten Nat) := do
  gassert (layer < M.layer_nelx.size)
  M.elementsLayer layer

/-- the assertions on one of the two ranges, MeshQuad4.h:324-342: only if two numbers are given -/
def FineLayer.assertRange (l : List Nat) (all : Nat) : Res Unit :=
  match l with
  | [a, b] => do
    gassert (a ≤ all)
    gassert (b ≤ all)
  | _ => .ok ()

/-- `elementgrid_ravel(start_stop_rows, start_stop_cols)`, MeshQuad4.h:314-398 -/
def FineLayer.elementgrid_ravel_checked (M : FineLayer α) (rows cols : List Nat) : Res (Ten Nat) := do
  gassert (rows.length = 0 ∨ rows.length = 2)
  gassert (cols.length = 0 ∨ cols.length = 2)
  let ny ← M.nely
  assertRange rows ny
  let nx ← M.nelx
  assertRange cols nx
  M.elementgrid_ravel rows cols

/-- `mapToRegular(data)`, MeshQuad4.h:1762-1779 -/
def FineLayer2Regular.mapToRegular_checked [Field α] (F : FineLayer2Regular α) (data : Ten α) : Res (Ten α) := do
  gassert (data.shape.headD 0 = F.finelayer.nelem)
  F.mapToRegular data

namespace Tri3

/-- `getOrientation(coor, conn)`, MeshTri3.h:239-267 -/
def getOrientation_checked [Ring α] [LinearOrder α] (coor : Ten α) (conn : Ten Nat) : Res (Ten ℤ) := do
  gassert (conn.shape.getD 1 0 = 3)
  gassert (coor.shape.getD 1 0 = 2)
  getOrientation coor conn

/-- `setOrientation(coor, conn, val, orientation)`, MeshTri3.h:279-303 -/
def setOrientationVal_checked (coor : Ten α) (conn : Ten Nat) (val : Ten ℤ) (orientation : ℤ) : Res (Ten Nat) := do
  gassert (conn.shape.getD 1 0 = 3)
  gassert (coor.shape.getD 1 0 = 2)
  gassert (conn.shape.headD 0 = val.size)
  gassert (orientation = -1 ∨ orientation = 1)
  setOrientationVal conn val orientation

/-- `setOrientation(coor, conn, orientation)`, MeshTri3.h:313-326 -/
def setOrientation_checked [Ring α] [LinearOrder α] (coor : Ten α) (conn : Ten Nat) (orientation : ℤ) : Res (Ten Nat) := do
  gassert (conn.shape.getD 1 0 = 3)
  gassert (coor.shape.getD 1 0 = 2)
  gassert (orientation = -1 ∨ orientation = 1)
  let val ← getOrientation_checked coor conn
  setOrientationVal_checked coor conn val orientation

end Tri3
end GF
