import Verif.Model.MeshBase

/-! Model of `Mesh::Hex8::Regular` (MeshHex8.h:26-608) and of `RegularBase3d` (Mesh.h:551-1698). -/

namespace GF

/-- iterations of `for (i = 1; i < n; ++i) for (j = 1; j < m; ++j)` -/
def it2From1 (n m : Nat) : List (Nat × Nat) :=
  (List.range' 1 (n - 1)).flatMap fun i => (List.range' 1 (m - 1)).map fun j => (i, j)

/-- The part of the interface of a derived class that `RegularBase3d::nodesPeriodic_impl` uses. -/
structure Faces3d where
  frontFace : Res (Ten Nat)
  backFace : Res (Ten Nat)
  leftFace : Res (Ten Nat)
  rightFace : Res (Ten Nat)
  bottomFace : Res (Ten Nat)
  topFace : Res (Ten Nat)
  frontBottom : Res (Ten Nat)
  frontTop : Res (Ten Nat)
  frontLeft : Res (Ten Nat)
  frontRight : Res (Ten Nat)
  backBottom : Res (Ten Nat)
  backTop : Res (Ten Nat)
  backLeft : Res (Ten Nat)
  backRight : Res (Ten Nat)
  bottomLeft : Res (Ten Nat)
  bottomRight : Res (Ten Nat)
  topLeft : Res (Ten Nat)
  topRight : Res (Ten Nat)
  frontBottomLeft : Nat
  frontBottomRight : Nat
  frontTopLeft : Nat
  frontTopRight : Nat
  backBottomLeft : Nat
  backBottomRight : Nat
  backTopLeft : Nat
  backTopRight : Nat

/-- `for (j = 0; j < n; ++j) { ret(i, 0) = a(j); ret(i, 1) = b(j); ++i; }` with `n = a.size()`, e.g.
Mesh.h:1629-1633; the state is `(ret, i)` -/
def pairRows (a b : Ten Nat) (s : Ten Nat × Nat) : Res (Ten Nat × Nat) :=
  forEach (it1 a.size) (fun s j => do
    let x ← a.get [j]
    let ret ← s.1.set [s.2, 0] x
    let y ← b.get [j]
    let ret ← ret.set [s.2, 1] y
    .ok (ret, s.2 + 1)) s

/-- `ret(i, 0) = a; ret(i, 1) = b; ++i;`, e.g. Mesh.h:1607-1609 -/
def pairRow (a b : Nat) (s : Ten Nat × Nat) : Res (Ten Nat × Nat) := do
  let ret ← s.1.set [s.2, 0] a
  let ret ← ret.set [s.2, 1] b
  .ok (ret, s.2 + 1)

/-- `RegularBase3d::nodesPeriodic_impl()`, Mesh.h:1577-1692 -/
def nodesPeriodic3d (F : Faces3d) : Res (Ten Nat) := do
  let fro ← F.frontFace
  let bck ← F.backFace
  let lft ← F.leftFace
  let rgt ← F.rightFace
  let bot ← F.bottomFace
  let top ← F.topFace
  let froBot ← F.frontBottom
  let froTop ← F.frontTop
  let froLft ← F.frontLeft
  let froRgt ← F.frontRight
  let bckBot ← F.backBottom
  let bckTop ← F.backTop
  let bckLft ← F.backLeft
  let bckRgt ← F.backRight
  let botLft ← F.bottomLeft
  let botRgt ← F.bottomRight
  let topLft ← F.topLeft
  let topRgt ← F.topRight
  let s ← pairRow F.frontBottomLeft F.frontBottomRight
    (Ten.empty [fro.size + lft.size + bot.size +
      (3 * froBot.size + 3 * froLft.size + 3 * botLft.size) + 7, 2], 0)
  let s ← pairRow F.frontBottomLeft F.backBottomRight s
  let s ← pairRow F.frontBottomLeft F.backBottomLeft s
  let s ← pairRow F.frontBottomLeft F.frontTopLeft s
  let s ← pairRow F.frontBottomLeft F.frontTopRight s
  let s ← pairRow F.frontBottomLeft F.backTopRight s
  let s ← pairRow F.frontBottomLeft F.backTopLeft s
  let s ← pairRows froBot bckBot s
  let s ← pairRows froBot bckTop s
  let s ← pairRows froBot froTop s
  let s ← pairRows botLft botRgt s
  let s ← pairRows botLft topRgt s
  let s ← pairRows botLft topLft s
  let s ← pairRows froLft froRgt s
  let s ← pairRows froLft bckRgt s
  let s ← pairRows froLft bckLft s
  let s ← pairRows fro bck s
  let s ← pairRows lft rgt s
  let s ← pairRows bot top s
  .ok s.1

/-- members of `Hex8::Regular`, MeshHex8.h:600-607 -/
structure Regular3d (α : Type) where
  h : α
  nelx : Nat
  nely : Nat
  nelz : Nat
  nelem : Nat
  nnode : Nat
  nne : Nat
  ndim : Nat

namespace Hex8.Regular
variable {α : Type}

/-- constructor, MeshHex8.h:36-51 -/
def new (nelx nely nelz : Nat) (h : α) : Regular3d α :=
  { h := h, nelx := nelx, nely := nely, nelz := nelz, nne := 8, ndim := 3,
    nnode := (nelx + 1) * (nely + 1) * (nelz + 1), nelem := nelx * nely * nelz }

/-- `coor_impl`, MeshHex8.h:77-102 -/
def coor [DivisionRing α] (M : Regular3d α) : Res (Ten α) := do
  let x := linspace 0 (M.h * (M.nelx : α)) (M.nelx + 1)
  let y := linspace 0 (M.h * (M.nely : α)) (M.nely + 1)
  let z := linspace 0 (M.h * (M.nelz : α)) (M.nelz + 1)
  let s ← forEach (it3 (M.nelz + 1) (M.nely + 1) (M.nelx + 1)) (fun (s : Ten α × Nat) p => do
    let a ← x.get [p.2.2]
    let ret ← s.1.set [s.2, 0] a
    let b ← y.get [p.2.1]
    let ret ← ret.set [s.2, 1] b
    let c ← z.get [p.1]
    let ret ← ret.set [s.2, 2] c
    .ok (ret, s.2 + 1)) (Ten.empty [M.nnode, M.ndim], 0)
  .ok s.1

/-- `conn_impl`, MeshHex8.h:104-131 -/
def conn (M : Regular3d α) : Res (Ten Nat) := do
  let s ← forEach (it3 M.nelz M.nely M.nelx) (fun (s : Ten Nat × Nat) p => do
    let iz := p.1
    let iy := p.2.1
    let ix := p.2.2
    let ret ← s.1.set [s.2, 0] (iy * (M.nelx + 1) + ix + iz * (M.nely + 1) * (M.nelx + 1))
    let ret ← ret.set [s.2, 1] (iy * (M.nelx + 1) + (ix + 1) + iz * (M.nely + 1) * (M.nelx + 1))
    let ret ← ret.set [s.2, 3] ((iy + 1) * (M.nelx + 1) + ix + iz * (M.nely + 1) * (M.nelx + 1))
    let ret ← ret.set [s.2, 2] ((iy + 1) * (M.nelx + 1) + (ix + 1) + iz * (M.nely + 1) * (M.nelx + 1))
    let ret ← ret.set [s.2, 4] (iy * (M.nelx + 1) + ix + (iz + 1) * (M.nely + 1) * (M.nelx + 1))
    let ret ← ret.set [s.2, 5] (iy * (M.nelx + 1) + (ix + 1) + (iz + 1) * (M.nely + 1) * (M.nelx + 1))
    let ret ← ret.set [s.2, 7] ((iy + 1) * (M.nelx + 1) + ix + (iz + 1) * (M.nely + 1) * (M.nelx + 1))
    let ret ← ret.set [s.2, 6]
      ((iy + 1) * (M.nelx + 1) + (ix + 1) + (iz + 1) * (M.nely + 1) * (M.nelx + 1))
    .ok (ret, s.2 + 1)) (Ten.empty [M.nelem, M.nne], 0)
  .ok s.1

/-- MeshHex8.h:133-144 -/
def nodesFront (M : Regular3d α) : Res (Ten Nat) :=
  forEach (it2 (M.nely + 1) (M.nelx + 1)) (fun ret p =>
    let iy := p.1
    let ix := p.2
    ret.set [iy * (M.nelx + 1) + ix] (iy * (M.nelx + 1) + ix)) (Ten.empty [(M.nelx + 1) * (M.nely + 1)])
/-- MeshHex8.h:146-158 -/
def nodesBack (M : Regular3d α) : Res (Ten Nat) :=
  forEach (it2 (M.nely + 1) (M.nelx + 1)) (fun ret p =>
    let iy := p.1
    let ix := p.2
    ret.set [iy * (M.nelx + 1) + ix] (iy * (M.nelx + 1) + ix + M.nelz * (M.nely + 1) * (M.nelx + 1))) (Ten.empty [(M.nelx + 1) * (M.nely + 1)])
/-- MeshHex8.h:160-171 -/
def nodesLeft (M : Regular3d α) : Res (Ten Nat) :=
  forEach (it2 (M.nelz + 1) (M.nely + 1)) (fun ret p =>
    let iz := p.1
    let iy := p.2
    ret.set [iz * (M.nely + 1) + iy] (iy * (M.nelx + 1) + iz * (M.nelx + 1) * (M.nely + 1))) (Ten.empty [(M.nely + 1) * (M.nelz + 1)])
/-- MeshHex8.h:173-185 -/
def nodesRight (M : Regular3d α) : Res (Ten Nat) :=
  forEach (it2 (M.nelz + 1) (M.nely + 1)) (fun ret p =>
    let iz := p.1
    let iy := p.2
    ret.set [iz * (M.nely + 1) + iy] (iy * (M.nelx + 1) + iz * (M.nelx + 1) * (M.nely + 1) + M.nelx)) (Ten.empty [(M.nely + 1) * (M.nelz + 1)])
/-- MeshHex8.h:187-198 -/
def nodesBottom (M : Regular3d α) : Res (Ten Nat) :=
  forEach (it2 (M.nelz + 1) (M.nelx + 1)) (fun ret p =>
    let iz := p.1
    let ix := p.2
    ret.set [iz * (M.nelx + 1) + ix] (ix + iz * (M.nelx + 1) * (M.nely + 1))) (Ten.empty [(M.nelx + 1) * (M.nelz + 1)])
/-- MeshHex8.h:200-212 -/
def nodesTop (M : Regular3d α) : Res (Ten Nat) :=
  forEach (it2 (M.nelz + 1) (M.nelx + 1)) (fun ret p =>
    let iz := p.1
    let ix := p.2
    ret.set [iz * (M.nelx + 1) + ix] (ix + M.nely * (M.nelx + 1) + iz * (M.nelx + 1) * (M.nely + 1))) (Ten.empty [(M.nelx + 1) * (M.nelz + 1)])
/-- MeshHex8.h:214-225 -/
def nodesFrontFace (M : Regular3d α) : Res (Ten Nat) :=
  if M.nely = 0 ∨ M.nelx = 0 then .ub else
  forEach (it2From1 M.nely M.nelx) (fun ret p =>
    let iy := p.1
    let ix := p.2
    ret.set [(iy - 1) * (M.nelx - 1) + (ix - 1)] (iy * (M.nelx + 1) + ix)) (Ten.empty [(M.nelx - 1) * (M.nely - 1)])
/-- MeshHex8.h:227-239 -/
def nodesBackFace (M : Regular3d α) : Res (Ten Nat) :=
  if M.nely = 0 ∨ M.nelx = 0 then .ub else
  forEach (it2From1 M.nely M.nelx) (fun ret p =>
    let iy := p.1
    let ix := p.2
    ret.set [(iy - 1) * (M.nelx - 1) + (ix - 1)] (iy * (M.nelx + 1) + ix + M.nelz * (M.nely + 1) * (M.nelx + 1))) (Ten.empty [(M.nelx - 1) * (M.nely - 1)])
/-- MeshHex8.h:241-253 -/
def nodesLeftFace (M : Regular3d α) : Res (Ten Nat) :=
  if M.nelz = 0 ∨ M.nely = 0 then .ub else
  forEach (it2From1 M.nelz M.nely) (fun ret p =>
    let iz := p.1
    let iy := p.2
    ret.set [(iz - 1) * (M.nely - 1) + (iy - 1)] (iy * (M.nelx + 1) + iz * (M.nelx + 1) * (M.nely + 1))) (Ten.empty [(M.nely - 1) * (M.nelz - 1)])
/-- MeshHex8.h:255-267 -/
def nodesRightFace (M : Regular3d α) : Res (Ten Nat) :=
  if M.nelz = 0 ∨ M.nely = 0 then .ub else
  forEach (it2From1 M.nelz M.nely) (fun ret p =>
    let iz := p.1
    let iy := p.2
    ret.set [(iz - 1) * (M.nely - 1) + (iy - 1)] (iy * (M.nelx + 1) + iz * (M.nelx + 1) * (M.nely + 1) + M.nelx)) (Ten.empty [(M.nely - 1) * (M.nelz - 1)])
/-- MeshHex8.h:269-280 -/
def nodesBottomFace (M : Regular3d α) : Res (Ten Nat) :=
  if M.nelz = 0 ∨ M.nelx = 0 then .ub else
  forEach (it2From1 M.nelz M.nelx) (fun ret p =>
    let iz := p.1
    let ix := p.2
    ret.set [(iz - 1) * (M.nelx - 1) + (ix - 1)] (ix + iz * (M.nelx + 1) * (M.nely + 1))) (Ten.empty [(M.nelx - 1) * (M.nelz - 1)])
/-- MeshHex8.h:282-294 -/
def nodesTopFace (M : Regular3d α) : Res (Ten Nat) :=
  if M.nelz = 0 ∨ M.nelx = 0 then .ub else
  forEach (it2From1 M.nelz M.nelx) (fun ret p =>
    let iz := p.1
    let ix := p.2
    ret.set [(iz - 1) * (M.nelx - 1) + (ix - 1)] (ix + M.nely * (M.nelx + 1) + iz * (M.nelx + 1) * (M.nely + 1))) (Ten.empty [(M.nelx - 1) * (M.nelz - 1)])
/-- MeshHex8.h:296-305 -/
def nodesFrontBottomEdge (M : Regular3d α) : Res (Ten Nat) :=
  forEach (it1 (M.nelx + 1)) (fun ret ix => ret.set [ix] (ix)) (Ten.empty [M.nelx + 1])
/-- MeshHex8.h:307-316 -/
def nodesFrontTopEdge (M : Regular3d α) : Res (Ten Nat) :=
  forEach (it1 (M.nelx + 1)) (fun ret ix => ret.set [ix] (ix + M.nely * (M.nelx + 1))) (Ten.empty [M.nelx + 1])
/-- MeshHex8.h:318-327 -/
def nodesFrontLeftEdge (M : Regular3d α) : Res (Ten Nat) :=
  forEach (it1 (M.nely + 1)) (fun ret iy => ret.set [iy] (iy * (M.nelx + 1))) (Ten.empty [M.nely + 1])
/-- MeshHex8.h:329-338 -/
def nodesFrontRightEdge (M : Regular3d α) : Res (Ten Nat) :=
  forEach (it1 (M.nely + 1)) (fun ret iy => ret.set [iy] (iy * (M.nelx + 1) + M.nelx)) (Ten.empty [M.nely + 1])
/-- MeshHex8.h:340-349 -/
def nodesBackBottomEdge (M : Regular3d α) : Res (Ten Nat) :=
  forEach (it1 (M.nelx + 1)) (fun ret ix => ret.set [ix] (ix + M.nelz * (M.nely + 1) * (M.nelx + 1))) (Ten.empty [M.nelx + 1])
/-- MeshHex8.h:351-360 -/
def nodesBackTopEdge (M : Regular3d α) : Res (Ten Nat) :=
  forEach (it1 (M.nelx + 1)) (fun ret ix => ret.set [ix] (M.nely * (M.nelx + 1) + ix + M.nelz * (M.nely + 1) * (M.nelx + 1))) (Ten.empty [M.nelx + 1])
/-- MeshHex8.h:362-371 -/
def nodesBackLeftEdge (M : Regular3d α) : Res (Ten Nat) :=
  forEach (it1 (M.nely + 1)) (fun ret iy => ret.set [iy] (iy * (M.nelx + 1) + M.nelz * (M.nelx + 1) * (M.nely + 1))) (Ten.empty [M.nely + 1])
/-- MeshHex8.h:373-382 -/
def nodesBackRightEdge (M : Regular3d α) : Res (Ten Nat) :=
  forEach (it1 (M.nely + 1)) (fun ret iy => ret.set [iy] (iy * (M.nelx + 1) + M.nelz * (M.nelx + 1) * (M.nely + 1) + M.nelx)) (Ten.empty [M.nely + 1])
/-- MeshHex8.h:384-393 -/
def nodesBottomLeftEdge (M : Regular3d α) : Res (Ten Nat) :=
  forEach (it1 (M.nelz + 1)) (fun ret iz => ret.set [iz] (iz * (M.nelx + 1) * (M.nely + 1))) (Ten.empty [M.nelz + 1])
/-- MeshHex8.h:395-404 -/
def nodesBottomRightEdge (M : Regular3d α) : Res (Ten Nat) :=
  forEach (it1 (M.nelz + 1)) (fun ret iz => ret.set [iz] (iz * (M.nelx + 1) * (M.nely + 1) + M.nelx)) (Ten.empty [M.nelz + 1])
/-- MeshHex8.h:406-415 -/
def nodesTopLeftEdge (M : Regular3d α) : Res (Ten Nat) :=
  forEach (it1 (M.nelz + 1)) (fun ret iz => ret.set [iz] (M.nely * (M.nelx + 1) + iz * (M.nelx + 1) * (M.nely + 1))) (Ten.empty [M.nelz + 1])
/-- MeshHex8.h:417-426 -/
def nodesTopRightEdge (M : Regular3d α) : Res (Ten Nat) :=
  forEach (it1 (M.nelz + 1)) (fun ret iz => ret.set [iz] (M.nely * (M.nelx + 1) + iz * (M.nelx + 1) * (M.nely + 1) + M.nelx)) (Ten.empty [M.nelz + 1])
/-- MeshHex8.h:428-437 -/
def nodesFrontBottomOpenEdge (M : Regular3d α) : Res (Ten Nat) :=
  if M.nelx = 0 then .ub else
  forEach (List.range' 1 (M.nelx - 1)) (fun ret ix => ret.set [ix - 1] (ix)) (Ten.empty [M.nelx - 1])
/-- MeshHex8.h:439-448 -/
def nodesFrontTopOpenEdge (M : Regular3d α) : Res (Ten Nat) :=
  if M.nelx = 0 then .ub else
  forEach (List.range' 1 (M.nelx - 1)) (fun ret ix => ret.set [ix - 1] (ix + M.nely * (M.nelx + 1))) (Ten.empty [M.nelx - 1])
/-- MeshHex8.h:450-459 -/
def nodesFrontLeftOpenEdge (M : Regular3d α) : Res (Ten Nat) :=
  if M.nely = 0 then .ub else
  forEach (List.range' 1 (M.nely - 1)) (fun ret iy => ret.set [iy - 1] (iy * (M.nelx + 1))) (Ten.empty [M.nely - 1])
/-- MeshHex8.h:461-470 -/
def nodesFrontRightOpenEdge (M : Regular3d α) : Res (Ten Nat) :=
  if M.nely = 0 then .ub else
  forEach (List.range' 1 (M.nely - 1)) (fun ret iy => ret.set [iy - 1] (iy * (M.nelx + 1) + M.nelx)) (Ten.empty [M.nely - 1])
/-- MeshHex8.h:472-481 -/
def nodesBackBottomOpenEdge (M : Regular3d α) : Res (Ten Nat) :=
  if M.nelx = 0 then .ub else
  forEach (List.range' 1 (M.nelx - 1)) (fun ret ix => ret.set [ix - 1] (ix + M.nelz * (M.nely + 1) * (M.nelx + 1))) (Ten.empty [M.nelx - 1])
/-- MeshHex8.h:483-492 -/
def nodesBackTopOpenEdge (M : Regular3d α) : Res (Ten Nat) :=
  if M.nelx = 0 then .ub else
  forEach (List.range' 1 (M.nelx - 1)) (fun ret ix => ret.set [ix - 1] (M.nely * (M.nelx + 1) + ix + M.nelz * (M.nely + 1) * (M.nelx + 1))) (Ten.empty [M.nelx - 1])
/-- MeshHex8.h:494-503 -/
def nodesBackLeftOpenEdge (M : Regular3d α) : Res (Ten Nat) :=
  if M.nely = 0 then .ub else
  forEach (List.range' 1 (M.nely - 1)) (fun ret iy => ret.set [iy - 1] (iy * (M.nelx + 1) + M.nelz * (M.nelx + 1) * (M.nely + 1))) (Ten.empty [M.nely - 1])
/-- MeshHex8.h:505-514 -/
def nodesBackRightOpenEdge (M : Regular3d α) : Res (Ten Nat) :=
  if M.nely = 0 then .ub else
  forEach (List.range' 1 (M.nely - 1)) (fun ret iy => ret.set [iy - 1] (iy * (M.nelx + 1) + M.nelz * (M.nelx + 1) * (M.nely + 1) + M.nelx)) (Ten.empty [M.nely - 1])
/-- MeshHex8.h:516-525 -/
def nodesBottomLeftOpenEdge (M : Regular3d α) : Res (Ten Nat) :=
  if M.nelz = 0 then .ub else
  forEach (List.range' 1 (M.nelz - 1)) (fun ret iz => ret.set [iz - 1] (iz * (M.nelx + 1) * (M.nely + 1))) (Ten.empty [M.nelz - 1])
/-- MeshHex8.h:527-536 -/
def nodesBottomRightOpenEdge (M : Regular3d α) : Res (Ten Nat) :=
  if M.nelz = 0 then .ub else
  forEach (List.range' 1 (M.nelz - 1)) (fun ret iz => ret.set [iz - 1] (iz * (M.nelx + 1) * (M.nely + 1) + M.nelx)) (Ten.empty [M.nelz - 1])
/-- MeshHex8.h:538-547 -/
def nodesTopLeftOpenEdge (M : Regular3d α) : Res (Ten Nat) :=
  if M.nelz = 0 then .ub else
  forEach (List.range' 1 (M.nelz - 1)) (fun ret iz => ret.set [iz - 1] (M.nely * (M.nelx + 1) + iz * (M.nelx + 1) * (M.nely + 1))) (Ten.empty [M.nelz - 1])
/-- MeshHex8.h:549-558 -/
def nodesTopRightOpenEdge (M : Regular3d α) : Res (Ten Nat) :=
  if M.nelz = 0 then .ub else
  forEach (List.range' 1 (M.nelz - 1)) (fun ret iz => ret.set [iz - 1] (M.nely * (M.nelx + 1) + iz * (M.nelx + 1) * (M.nely + 1) + M.nelx)) (Ten.empty [M.nelz - 1])
/-- MeshHex8.h:560-563 -/
def nodesFrontBottomLeftCorner (_ : Regular3d α) : Nat := 0
/-- MeshHex8.h:565-568 -/
def nodesFrontBottomRightCorner (M : Regular3d α) : Nat := M.nelx
/-- MeshHex8.h:570-573 -/
def nodesFrontTopLeftCorner (M : Regular3d α) : Nat := M.nely * (M.nelx + 1)
/-- MeshHex8.h:575-578 -/
def nodesFrontTopRightCorner (M : Regular3d α) : Nat := M.nely * (M.nelx + 1) + M.nelx
/-- MeshHex8.h:580-583 -/
def nodesBackBottomLeftCorner (M : Regular3d α) : Nat := M.nelz * (M.nely + 1) * (M.nelx + 1)
/-- MeshHex8.h:585-588 -/
def nodesBackBottomRightCorner (M : Regular3d α) : Nat := M.nelx + M.nelz * (M.nely + 1) * (M.nelx + 1)
/-- MeshHex8.h:590-593 -/
def nodesBackTopLeftCorner (M : Regular3d α) : Nat := M.nely * (M.nelx + 1) + M.nelz * (M.nely + 1) * (M.nelx + 1)
/-- MeshHex8.h:595-598 -/
def nodesBackTopRightCorner (M : Regular3d α) : Nat := M.nely * (M.nelx + 1) + M.nelx + M.nelz * (M.nely + 1) * (M.nelx + 1)

/-- `derived_cast()` as seen by `RegularBase3d`, Mesh.h:1565-1573 -/
def faces (M : Regular3d α) : Faces3d where
  frontFace := nodesFrontFace M
  backFace := nodesBackFace M
  leftFace := nodesLeftFace M
  rightFace := nodesRightFace M
  bottomFace := nodesBottomFace M
  topFace := nodesTopFace M
  frontBottom := nodesFrontBottomOpenEdge M
  frontTop := nodesFrontTopOpenEdge M
  frontLeft := nodesFrontLeftOpenEdge M
  frontRight := nodesFrontRightOpenEdge M
  backBottom := nodesBackBottomOpenEdge M
  backTop := nodesBackTopOpenEdge M
  backLeft := nodesBackLeftOpenEdge M
  backRight := nodesBackRightOpenEdge M
  bottomLeft := nodesBottomLeftOpenEdge M
  bottomRight := nodesBottomRightOpenEdge M
  topLeft := nodesTopLeftOpenEdge M
  topRight := nodesTopRightOpenEdge M
  frontBottomLeft := nodesFrontBottomLeftCorner M
  frontBottomRight := nodesFrontBottomRightCorner M
  frontTopLeft := nodesFrontTopLeftCorner M
  frontTopRight := nodesFrontTopRightCorner M
  backBottomLeft := nodesBackBottomLeftCorner M
  backBottomRight := nodesBackBottomRightCorner M
  backTopLeft := nodesBackTopLeftCorner M
  backTopRight := nodesBackTopRightCorner M

/-- `nodesPeriodic`, Mesh.h:309-312 -/
def nodesPeriodic (M : Regular3d α) : Res (Ten Nat) := nodesPeriodic3d (faces M)

/-- `dofsPeriodic`, Mesh.h:291-303 -/
def dofsPeriodic (M : Regular3d α) : Res (Ten Nat) := do
  let p ← nodesPeriodic M
  GF.dofsPeriodic M.nnode M.ndim p

/-- `nodesOrigin`, Mesh.h:1694-1697 -/
def nodesOrigin (M : Regular3d α) : Nat := nodesFrontBottomLeftCorner M

/-! Public names of `RegularBase3d` that forward to an implementation under another name. -/

/-- Mesh.h:746-749 -/
def nodesBottomFrontEdge (M : Regular3d α) : Res (Ten Nat) := nodesFrontBottomEdge M
/-- Mesh.h:755-758 -/
def nodesBottomBackEdge (M : Regular3d α) : Res (Ten Nat) := nodesBackBottomEdge M
/-- Mesh.h:764-767 -/
def nodesTopFrontEdge (M : Regular3d α) : Res (Ten Nat) := nodesFrontTopEdge M
/-- Mesh.h:773-776 -/
def nodesTopBackEdge (M : Regular3d α) : Res (Ten Nat) := nodesBackTopEdge M
/-- Mesh.h:782-785 -/
def nodesLeftBottomEdge (M : Regular3d α) : Res (Ten Nat) := nodesBottomLeftEdge M
/-- Mesh.h:791-794 -/
def nodesLeftFrontEdge (M : Regular3d α) : Res (Ten Nat) := nodesFrontLeftEdge M
/-- Mesh.h:800-803 -/
def nodesLeftBackEdge (M : Regular3d α) : Res (Ten Nat) := nodesBackLeftEdge M
/-- Mesh.h:809-812 -/
def nodesLeftTopEdge (M : Regular3d α) : Res (Ten Nat) := nodesTopLeftEdge M
/-- Mesh.h:818-821 -/
def nodesRightBottomEdge (M : Regular3d α) : Res (Ten Nat) := nodesBottomRightEdge M
/-- Mesh.h:827-830 -/
def nodesRightTopEdge (M : Regular3d α) : Res (Ten Nat) := nodesTopRightEdge M
/-- Mesh.h:836-839 -/
def nodesRightFrontEdge (M : Regular3d α) : Res (Ten Nat) := nodesFrontRightEdge M
/-- Mesh.h:845-848 -/
def nodesRightBackEdge (M : Regular3d α) : Res (Ten Nat) := nodesBackRightEdge M
/-- Mesh.h:1028-1031 -/
def nodesBottomFrontOpenEdge (M : Regular3d α) : Res (Ten Nat) := nodesFrontBottomOpenEdge M
/-- Mesh.h:1037-1040 -/
def nodesBottomBackOpenEdge (M : Regular3d α) : Res (Ten Nat) := nodesBackBottomOpenEdge M
/-- Mesh.h:1046-1049 -/
def nodesTopFrontOpenEdge (M : Regular3d α) : Res (Ten Nat) := nodesFrontTopOpenEdge M
/-- Mesh.h:1055-1058 -/
def nodesTopBackOpenEdge (M : Regular3d α) : Res (Ten Nat) := nodesBackTopOpenEdge M
/-- Mesh.h:1064-1067 -/
def nodesLeftBottomOpenEdge (M : Regular3d α) : Res (Ten Nat) := nodesBottomLeftOpenEdge M
/-- Mesh.h:1073-1076 -/
def nodesLeftFrontOpenEdge (M : Regular3d α) : Res (Ten Nat) := nodesFrontLeftOpenEdge M
/-- Mesh.h:1082-1085 -/
def nodesLeftBackOpenEdge (M : Regular3d α) : Res (Ten Nat) := nodesBackLeftOpenEdge M
/-- Mesh.h:1091-1094 -/
def nodesLeftTopOpenEdge (M : Regular3d α) : Res (Ten Nat) := nodesTopLeftOpenEdge M
/-- Mesh.h:1100-1103 -/
def nodesRightBottomOpenEdge (M : Regular3d α) : Res (Ten Nat) := nodesBottomRightOpenEdge M
/-- Mesh.h:1109-1112 -/
def nodesRightTopOpenEdge (M : Regular3d α) : Res (Ten Nat) := nodesTopRightOpenEdge M
/-- Mesh.h:1118-1121 -/
def nodesRightFrontOpenEdge (M : Regular3d α) : Res (Ten Nat) := nodesFrontRightOpenEdge M
/-- Mesh.h:1127-1130 -/
def nodesRightBackOpenEdge (M : Regular3d α) : Res (Ten Nat) := nodesBackRightOpenEdge M
/-- Mesh.h:1208-1211 -/
def nodesFrontLeftBottomCorner (M : Regular3d α) : Nat := nodesFrontBottomLeftCorner M
/-- Mesh.h:1217-1220 -/
def nodesBottomFrontLeftCorner (M : Regular3d α) : Nat := nodesFrontBottomLeftCorner M
/-- Mesh.h:1226-1229 -/
def nodesBottomLeftFrontCorner (M : Regular3d α) : Nat := nodesFrontBottomLeftCorner M
/-- Mesh.h:1235-1238 -/
def nodesLeftFrontBottomCorner (M : Regular3d α) : Nat := nodesFrontBottomLeftCorner M
/-- Mesh.h:1244-1247 -/
def nodesLeftBottomFrontCorner (M : Regular3d α) : Nat := nodesFrontBottomLeftCorner M
/-- Mesh.h:1253-1256 -/
def nodesFrontRightBottomCorner (M : Regular3d α) : Nat := nodesFrontBottomRightCorner M
/-- Mesh.h:1262-1265 -/
def nodesBottomFrontRightCorner (M : Regular3d α) : Nat := nodesFrontBottomRightCorner M
/-- Mesh.h:1271-1274 -/
def nodesBottomRightFrontCorner (M : Regular3d α) : Nat := nodesFrontBottomRightCorner M
/-- Mesh.h:1280-1283 -/
def nodesRightFrontBottomCorner (M : Regular3d α) : Nat := nodesFrontBottomRightCorner M
/-- Mesh.h:1289-1292 -/
def nodesRightBottomFrontCorner (M : Regular3d α) : Nat := nodesFrontBottomRightCorner M
/-- Mesh.h:1298-1301 -/
def nodesFrontLeftTopCorner (M : Regular3d α) : Nat := nodesFrontTopLeftCorner M
/-- Mesh.h:1307-1310 -/
def nodesTopFrontLeftCorner (M : Regular3d α) : Nat := nodesFrontTopLeftCorner M
/-- Mesh.h:1316-1319 -/
def nodesTopLeftFrontCorner (M : Regular3d α) : Nat := nodesFrontTopLeftCorner M
/-- Mesh.h:1325-1328 -/
def nodesLeftFrontTopCorner (M : Regular3d α) : Nat := nodesFrontTopLeftCorner M
/-- Mesh.h:1334-1337 -/
def nodesLeftTopFrontCorner (M : Regular3d α) : Nat := nodesFrontTopLeftCorner M
/-- Mesh.h:1343-1346 -/
def nodesFrontRightTopCorner (M : Regular3d α) : Nat := nodesFrontTopRightCorner M
/-- Mesh.h:1352-1355 -/
def nodesTopFrontRightCorner (M : Regular3d α) : Nat := nodesFrontTopRightCorner M
/-- Mesh.h:1361-1364 -/
def nodesTopRightFrontCorner (M : Regular3d α) : Nat := nodesFrontTopRightCorner M
/-- Mesh.h:1370-1373 -/
def nodesRightFrontTopCorner (M : Regular3d α) : Nat := nodesFrontTopRightCorner M
/-- Mesh.h:1379-1382 -/
def nodesRightTopFrontCorner (M : Regular3d α) : Nat := nodesFrontTopRightCorner M
/-- Mesh.h:1388-1391 -/
def nodesBackLeftBottomCorner (M : Regular3d α) : Nat := nodesBackBottomLeftCorner M
/-- Mesh.h:1397-1400 -/
def nodesBottomBackLeftCorner (M : Regular3d α) : Nat := nodesBackBottomLeftCorner M
/-- Mesh.h:1406-1409 -/
def nodesBottomLeftBackCorner (M : Regular3d α) : Nat := nodesBackBottomLeftCorner M
/-- Mesh.h:1415-1418 -/
def nodesLeftBackBottomCorner (M : Regular3d α) : Nat := nodesBackBottomLeftCorner M
/-- Mesh.h:1424-1427 -/
def nodesLeftBottomBackCorner (M : Regular3d α) : Nat := nodesBackBottomLeftCorner M
/-- Mesh.h:1433-1436 -/
def nodesBackRightBottomCorner (M : Regular3d α) : Nat := nodesBackBottomRightCorner M
/-- Mesh.h:1442-1445 -/
def nodesBottomBackRightCorner (M : Regular3d α) : Nat := nodesBackBottomRightCorner M
/-- Mesh.h:1451-1454 -/
def nodesBottomRightBackCorner (M : Regular3d α) : Nat := nodesBackBottomRightCorner M
/-- Mesh.h:1460-1463 -/
def nodesRightBackBottomCorner (M : Regular3d α) : Nat := nodesBackBottomRightCorner M
/-- Mesh.h:1469-1472 -/
def nodesRightBottomBackCorner (M : Regular3d α) : Nat := nodesBackBottomRightCorner M
/-- Mesh.h:1478-1481 -/
def nodesBackLeftTopCorner (M : Regular3d α) : Nat := nodesBackTopLeftCorner M
/-- Mesh.h:1487-1490 -/
def nodesTopBackLeftCorner (M : Regular3d α) : Nat := nodesBackTopLeftCorner M
/-- Mesh.h:1496-1499 -/
def nodesTopLeftBackCorner (M : Regular3d α) : Nat := nodesBackTopLeftCorner M
/-- Mesh.h:1505-1508 -/
def nodesLeftBackTopCorner (M : Regular3d α) : Nat := nodesBackTopLeftCorner M
/-- Mesh.h:1514-1517 -/
def nodesLeftTopBackCorner (M : Regular3d α) : Nat := nodesBackTopLeftCorner M
/-- Mesh.h:1523-1526 -/
def nodesBackRightTopCorner (M : Regular3d α) : Nat := nodesBackTopRightCorner M
/-- Mesh.h:1532-1535 -/
def nodesTopBackRightCorner (M : Regular3d α) : Nat := nodesBackTopRightCorner M
/-- Mesh.h:1541-1544 -/
def nodesTopRightBackCorner (M : Regular3d α) : Nat := nodesBackTopRightCorner M
/-- Mesh.h:1550-1553 -/
def nodesRightBackTopCorner (M : Regular3d α) : Nat := nodesBackTopRightCorner M
/-- Mesh.h:1559-1562 -/
def nodesRightTopBackCorner (M : Regular3d α) : Nat := nodesBackTopRightCorner M

end Hex8.Regular
end GF
