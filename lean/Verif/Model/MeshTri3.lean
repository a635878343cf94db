import Verif.Model.MeshRegular2d
import Mathlib.Order.Defs.LinearOrder
import Mathlib.Data.Int.Notation

/-! Model of the free functions of `MeshTri3.h`. -/

namespace GF.Tri3
variable {α : Type}

/-- `getOrientation(coor, conn)`, MeshTri3.h:239-267.  The views are lazy: only the two components that
are used are read. -/
def getOrientation [Ring α] [LinearOrder α] (coor : Ten α) (conn : Ten Nat) : Res (Ten ℤ) := do
  let nelem := conn.shape.headD 0
  forEach (it1 nelem) (fun ret e => do
    let n0 ← conn.get [e, 0]
    let n1 ← conn.get [e, 1]
    let n2 ← conn.get [e, 2]
    let x0 ← coor.get [n0, 0]
    let y0 ← coor.get [n0, 1]
    let x1 ← coor.get [n1, 0]
    let y1 ← coor.get [n1, 1]
    let x2 ← coor.get [n2, 0]
    let y2 ← coor.get [n2, 1]
    let k := (x0 - x1) * (y2 - y1) - (x2 - x1) * (y0 - y1)
    if k < 0 then ret.set [e] (-1) else ret.set [e] 1) (Ten.empty [nelem])

/-- `setOrientation(coor, conn, val, orientation)`, MeshTri3.h:279-303 (`coor` is unused) -/
def setOrientationVal (conn : Ten Nat) (val : Ten ℤ) (orientation : ℤ) : Res (Ten Nat) := do
  let nelem := conn.shape.headD 0
  forEach (it1 nelem) (fun ret e => do
    let v ← val.get [e]
    if (orientation = -1 ∧ v > 0) ∨ (orientation = 1 ∧ v < 0) then do
      let a ← ret.get [e, 2]
      let b ← ret.get [e, 1]
      let ret ← ret.set [e, 2] b
      ret.set [e, 1] a
    else .ok ret) conn

/-- `setOrientation(coor, conn, orientation)`, MeshTri3.h:313-326 -/
def setOrientation [Ring α] [LinearOrder α] (coor : Ten α) (conn : Ten Nat) (orientation : ℤ) :
    Res (Ten Nat) := do
  let val ← getOrientation coor conn
  setOrientationVal conn val orientation

end GF.Tri3
