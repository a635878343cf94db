import Verif.Model.FineLayer3
import Verif.Model.MeshHex8

/-! Model of the node sets of `Mesh::Hex8::FineLayer` (MeshHex8.h:1259-2273). -/

namespace GF.FineLayer3
variable {α : Type}
open FineLayer (itFrom)

/-- `ret(j) = v; ++j;`, the state is `(ret, j)` -/
def putOne (s : Ten Nat × Nat) (v : Nat) : Res (Ten Nat × Nat) := do
  let ret ← s.1.set [s.2] v
  .ok (ret, s.2 + 1)

/-- The pieces in which the twelve functions for the sides of the mesh differ: the direction `dir` of the refinement
(`m_refine(iy) == dir`) that adds nodes to the side; the number of elements along the side for given
`m_layer_nelx(iy)`, `m_layer_nelz(iy)`; the node of a plane, and of the nodes inside a layer (relative to the first
such node) that is added for iteration `k`. -/
structure Side where
  dir : Int
  len : Nat → Nat → Nat
  main : Nat → Nat → Nat → Nat
  mid : Nat → Nat → Nat → Nat

/-- the nodes of one plane: e.g. MeshHex8.h:1295-1298, 1318-1321 (`lo = 0`, `hi = 1`), 1611-1614, 1634-1637
(`lo = 1`, `hi = 0`), with `b = m_startNode(iy)` resp. `m_startNode(iy + 1)`.  (The members that do not change during the
loop are read once.) -/
def sideMain (S : Side) (lo hi nx nz b : Nat) (s : Ten Nat × Nat) : Res (Ten Nat × Nat) :=
  forEach (itFrom lo (S.len nx nz + hi)) (fun s k => putOne s (b + S.main nx nz k)) s

/-- the nodes inside layer `iy`: e.g. MeshHex8.h:1300-1305, 1311-1316, 1616-1621, 1627-1632 -/
def sideMid (M : FineLayer3 α) (S : Side) (iy nx nz : Nat) (s : Ten Nat × Nat) : Res (Ten Nat × Nat) := do
  let r ← M.refine.get [iy]
  if r = S.dir then do
    let b ← M.startNode.get [iy]
    let c ← M.nnd.get [iy]
    forEach (it1 (2 * S.len nx nz)) (fun s k => putOne s (b + c + S.mid nx nz k)) s
  else .ok s

/-- body of the loop over the layers below the middle: e.g. MeshHex8.h:1293-1306, 1609-1622 -/
def sideBelow (M : FineLayer3 α) (S : Side) (lo hi : Nat) (s : Ten Nat × Nat) (iy : Nat) : Res (Ten Nat × Nat) := do
  let nx ← M.layer_nelx.get [iy]
  let nz ← M.layer_nelz.get [iy]
  let b ← M.startNode.get [iy]
  let s ← sideMain S lo hi nx nz b s
  sideMid M S iy nx nz s

/-- body of the loop over the layers above the middle: e.g. MeshHex8.h:1309-1322, 1625-1638 -/
def sideAbove (M : FineLayer3 α) (S : Side) (lo hi : Nat) (s : Ten Nat × Nat) (iy : Nat) : Res (Ten Nat × Nat) := do
  let nx ← M.layer_nelx.get [iy]
  let nz ← M.layer_nelz.get [iy]
  let s ← sideMid M S iy nx nz s
  let b ← M.startNode.get [iy + 1]
  sideMain S lo hi nx nz b s

/-- body of the loops that count the nodes of a closed side: e.g. MeshHex8.h:1268-1284 -/
def countClosed (M : FineLayer3 α) (S : Side) (n iy : Nat) : Res Nat := do
  let nx ← M.layer_nelx.get [iy]
  let nz ← M.layer_nelz.get [iy]
  let r ← M.refine.get [iy]
  .ok (if r = S.dir then n + (S.len nx nz * 3 + 1) else n + (S.len nx nz + 1))

/-- body of the loops that count the nodes of an open side: e.g. MeshHex8.h:1584-1600 (the subtraction of unsigned
numbers must not wrap around) -/
def countOpen (M : FineLayer3 α) (S : Side) (n iy : Nat) : Res Nat := do
  let nx ← M.layer_nelx.get [iy]
  let nz ← M.layer_nelz.get [iy]
  let r ← M.refine.get [iy]
  if S.len nx nz = 0 then .ub
  else .ok (if r = S.dir then n + (S.len nx nz * 3 - 1) else n + (S.len nx nz - 1))

/-- the common form of the functions for a closed side: e.g. MeshHex8.h:1259-1325 -/
def closedSide (M : FineLayer3 α) (S : Side) : Res (Ten Nat) := do
  let N := M.nhy.size
  let n ← forEach (it1 ((N + 1) / 2)) (countClosed M S) 0
  let n ← forEach (itFrom ((N - 1) / 2) N) (countClosed M S) n
  let s ← forEach (it1 ((N + 1) / 2)) (sideBelow M S 0 1) (Ten.empty [n], 0)
  let s ← forEach (itFrom ((N - 1) / 2) N) (sideAbove M S 0 1) s
  .ok s.1

/-- the common form of the functions for an open side: e.g. MeshHex8.h:1575-1641 -/
def openSide (M : FineLayer3 α) (S : Side) : Res (Ten Nat) := do
  let N := M.nhy.size
  let n ← forEach (itFrom 1 ((N + 1) / 2)) (countOpen M S) 0
  let n ← forEach (itFrom ((N - 1) / 2) (N - 1)) (countOpen M S) n
  let s ← forEach (itFrom 1 ((N + 1) / 2)) (sideBelow M S 1 0) (Ten.empty [n], 0)
  let s ← forEach (itFrom ((N - 1) / 2) (N - 1)) (sideAbove M S 1 0) s
  .ok s.1

/-- MeshHex8.h:1269, 1295-1302, 1318-1319 and 1585, 1611-1618, 1634-1635 -/
def sideFront : Side where
  dir := 0
  len := fun nx _ => nx
  main := fun _ _ k => k
  mid := fun _ _ k => k

/-- MeshHex8.h:1337, 1363-1371, 1388-1389 and 1653, 1679-1687, 1704-1705 -/
def sideBack : Side where
  dir := 0
  len := fun nx _ => nx
  main := fun nx nz k => k + (nx + 1) * nz
  mid := fun nx nz k => k + 2 * nx * nz

/-- MeshHex8.h:1407, 1433-1440, 1456-1457 and 1723, 1749-1756, 1772-1773 -/
def sideLeft : Side where
  dir := 2
  len := fun _ nz => nz
  main := fun nx _ k => k * (nx + 1)
  mid := fun nx _ k => k * (nx + 1)

/-- MeshHex8.h:1475, 1497-1505, 1522-1523 and 1791, 1817-1825, 1842-1843 -/
def sideRight : Side where
  dir := 2
  len := fun _ nz => nz
  main := fun nx _ k => k * (nx + 1) + nx
  mid := fun nx _ k => k * (nx + 1) + nx

/-- MeshHex8.h:1259-1325 -/
def nodesFront (M : FineLayer3 α) : Res (Ten Nat) := closedSide M sideFront

/-- MeshHex8.h:1575-1641 -/
def nodesFrontFace (M : FineLayer3 α) : Res (Ten Nat) := openSide M sideFront

/-- MeshHex8.h:1327-1395 -/
def nodesBack (M : FineLayer3 α) : Res (Ten Nat) := closedSide M sideBack

/-- MeshHex8.h:1643-1711 -/
def nodesBackFace (M : FineLayer3 α) : Res (Ten Nat) := openSide M sideBack

/-- MeshHex8.h:1397-1463 -/
def nodesLeft (M : FineLayer3 α) : Res (Ten Nat) := closedSide M sideLeft

/-- MeshHex8.h:1713-1779 -/
def nodesLeftFace (M : FineLayer3 α) : Res (Ten Nat) := openSide M sideLeft

/-- MeshHex8.h:1465-1529 -/
def nodesRight (M : FineLayer3 α) : Res (Ten Nat) := closedSide M sideRight

/-- MeshHex8.h:1781-1849 -/
def nodesRightFace (M : FineLayer3 α) : Res (Ten Nat) := openSide M sideRight

/-- the loops of `nodesBottom`, `nodesTop`: MeshHex8.h:1543-1548, 1565-1570 (`lo = 0`, `hi = 1`); and of
`nodesBottomFace`, `nodesTopFace`: MeshHex8.h:1861-1866, 1884-1889 (`lo = 1`, `hi = 0`) -/
def planeLoop (lo hi nx nz b n : Nat) : Res (Ten Nat) := do
  let s ← forEach (itFrom lo (nx + hi)) (fun s ix =>
    forEach (itFrom lo (nz + hi)) (fun s iz => putOne s (b + ix + iz * (nx + 1))) s) (Ten.empty [n], 0)
  .ok s.1

/-- MeshHex8.h:1531-1551 -/
def nodesBottom (M : FineLayer3 α) : Res (Ten Nat) := do
  let N := M.nhy.size
  let n ← M.nnd.get [N]
  let nx ← M.layer_nelx.get [0]
  let nz ← M.layer_nelz.get [0]
  let b ← M.startNode.get [0]
  planeLoop 0 1 nx nz b n

/-- MeshHex8.h:1553-1573 -/
def nodesTop (M : FineLayer3 α) : Res (Ten Nat) := do
  let N := M.nhy.size
  let n ← M.nnd.get [N]
  let nx ← M.layer_nelx.get [N - 1]
  let nz ← M.layer_nelz.get [N - 1]
  let b ← M.startNode.get [N]
  planeLoop 0 1 nx nz b n

/-- MeshHex8.h:1851-1869 -/
def nodesBottomFace (M : FineLayer3 α) : Res (Ten Nat) := do
  let nx ← M.layer_nelx.get [0]
  let nz ← M.layer_nelz.get [0]
  let b ← M.startNode.get [0]
  if nx = 0 ∨ nz = 0 then .ub else planeLoop 1 0 nx nz b ((nx - 1) * (nz - 1))

/-- MeshHex8.h:1871-1892 -/
def nodesTopFace (M : FineLayer3 α) : Res (Ten Nat) := do
  let N := M.nhy.size
  let nx ← M.layer_nelx.get [N - 1]
  let nz ← M.layer_nelz.get [N - 1]
  let b ← M.startNode.get [N]
  if nx = 0 ∨ nz = 0 then .ub else planeLoop 1 0 nx nz b ((nx - 1) * (nz - 1))

/-- `for (k = 0; k < l + 1; ++k) { ret(k) = v(k); }`, with `ret` of `l + 1` entries: e.g. MeshHex8.h:1896-1900 -/
def fillEdge (l : Nat) (v : Nat → Nat) : Res (Ten Nat) :=
  forEach (it1 (l + 1)) (fun ret k => ret.set [k] (v k)) (Ten.empty [l + 1])

/-- `for (k = 1; k < l; ++k) { ret(k - 1) = v(k); }`, with `ret` of `l - 1` entries: e.g. MeshHex8.h:2064-2068 -/
def fillOpenEdge (l : Nat) (v : Nat → Nat) : Res (Ten Nat) :=
  if l = 0 then .ub
  else forEach (itFrom 1 l) (fun ret k => ret.set [k - 1] (v k)) (Ten.empty [l - 1])

/-- the common form of the functions for a vertical edge, where `off` gives the position in the plane for given
`m_layer_nelx(iy)`, `m_layer_nelz(iy)`: e.g. MeshHex8.h:1918-1933 -/
def vertEdge (M : FineLayer3 α) (off : Nat → Nat → Nat) : Res (Ten Nat) := do
  let N := M.nhy.size
  let ret ← forEach (it1 ((N + 1) / 2)) (fun ret iy => do
    let nx ← M.layer_nelx.get [iy]
    let nz ← M.layer_nelz.get [iy]
    let b ← M.startNode.get [iy]
    ret.set [iy] (b + off nx nz)) (Ten.empty [N + 1])
  forEach (itFrom ((N - 1) / 2) N) (fun ret iy => do
    let nx ← M.layer_nelx.get [iy]
    let nz ← M.layer_nelz.get [iy]
    let b ← M.startNode.get [iy + 1]
    ret.set [iy + 1] (b + off nx nz)) ret

/-- the common form of the functions for a vertical edge without its end-points: e.g. MeshHex8.h:2086-2101 -/
def vertOpenEdge (M : FineLayer3 α) (off : Nat → Nat → Nat) : Res (Ten Nat) := do
  let N := M.nhy.size
  let ret ← forEach (itFrom 1 ((N + 1) / 2)) (fun ret iy => do
    let nx ← M.layer_nelx.get [iy]
    let nz ← M.layer_nelz.get [iy]
    let b ← M.startNode.get [iy]
    ret.set [iy - 1] (b + off nx nz)) (Ten.empty [N - 1])
  forEach (itFrom ((N - 1) / 2) (N - 1)) (fun ret iy => do
    let nx ← M.layer_nelx.get [iy]
    let nz ← M.layer_nelz.get [iy]
    let b ← M.startNode.get [iy + 1]
    ret.set [iy] (b + off nx nz)) ret

/-- MeshHex8.h:1894-1903 -/
def nodesFrontBottomEdge (M : FineLayer3 α) : Res (Ten Nat) := do
  let nx ← M.layer_nelx.get [0]
  let b ← M.startNode.get [0]
  fillEdge nx (fun ix => b + ix)

/-- MeshHex8.h:1905-1916 -/
def nodesFrontTopEdge (M : FineLayer3 α) : Res (Ten Nat) := do
  let nx ← M.layer_nelx.get [M.nhy.size - 1]
  let b ← M.startNode.get [M.nhy.size]
  fillEdge nx (fun ix => b + ix)

/-- MeshHex8.h:1918-1933 -/
def nodesFrontLeftEdge (M : FineLayer3 α) : Res (Ten Nat) := vertEdge M (fun _ _ => 0)

/-- MeshHex8.h:1935-1950 -/
def nodesFrontRightEdge (M : FineLayer3 α) : Res (Ten Nat) := vertEdge M (fun nx _ => nx)

/-- MeshHex8.h:1952-1961 -/
def nodesBackBottomEdge (M : FineLayer3 α) : Res (Ten Nat) := do
  let nx ← M.layer_nelx.get [0]
  let nz ← M.layer_nelz.get [0]
  let b ← M.startNode.get [0]
  fillEdge nx (fun ix => b + ix + (nx + 1) * nz)

/-- MeshHex8.h:1963-1975 -/
def nodesBackTopEdge (M : FineLayer3 α) : Res (Ten Nat) := do
  let nx ← M.layer_nelx.get [M.nhy.size - 1]
  let nz ← M.layer_nelz.get [M.nhy.size - 1]
  let b ← M.startNode.get [M.nhy.size]
  fillEdge nx (fun ix => b + ix + (nx + 1) * nz)

/-- MeshHex8.h:1977-1992 -/
def nodesBackLeftEdge (M : FineLayer3 α) : Res (Ten Nat) := vertEdge M (fun nx nz => (nx + 1) * nz)

/-- MeshHex8.h:1994-2011 -/
def nodesBackRightEdge (M : FineLayer3 α) : Res (Ten Nat) := vertEdge M (fun nx nz => nx + (nx + 1) * nz)

/-- MeshHex8.h:2013-2022 -/
def nodesBottomLeftEdge (M : FineLayer3 α) : Res (Ten Nat) := do
  let nx ← M.layer_nelx.get [0]
  let nz ← M.layer_nelz.get [0]
  let b ← M.startNode.get [0]
  fillEdge nz (fun iz => b + iz * (nx + 1))

/-- MeshHex8.h:2024-2033 -/
def nodesBottomRightEdge (M : FineLayer3 α) : Res (Ten Nat) := do
  let nx ← M.layer_nelx.get [0]
  let nz ← M.layer_nelz.get [0]
  let b ← M.startNode.get [0]
  fillEdge nz (fun iz => b + nx + iz * (nx + 1))

/-- MeshHex8.h:2035-2046 -/
def nodesTopLeftEdge (M : FineLayer3 α) : Res (Ten Nat) := do
  let nx ← M.layer_nelx.get [M.nhy.size - 1]
  let nz ← M.layer_nelz.get [M.nhy.size - 1]
  let b ← M.startNode.get [M.nhy.size]
  fillEdge nz (fun iz => b + iz * (nx + 1))

/-- MeshHex8.h:2048-2060 -/
def nodesTopRightEdge (M : FineLayer3 α) : Res (Ten Nat) := do
  let nx ← M.layer_nelx.get [M.nhy.size - 1]
  let nz ← M.layer_nelz.get [M.nhy.size - 1]
  let b ← M.startNode.get [M.nhy.size]
  fillEdge nz (fun iz => b + nx + iz * (nx + 1))

/-- MeshHex8.h:2062-2071 -/
def nodesFrontBottomOpenEdge (M : FineLayer3 α) : Res (Ten Nat) := do
  let nx ← M.layer_nelx.get [0]
  let b ← M.startNode.get [0]
  fillOpenEdge nx (fun ix => b + ix)

/-- MeshHex8.h:2073-2084 -/
def nodesFrontTopOpenEdge (M : FineLayer3 α) : Res (Ten Nat) := do
  let nx ← M.layer_nelx.get [M.nhy.size - 1]
  let b ← M.startNode.get [M.nhy.size]
  fillOpenEdge nx (fun ix => b + ix)

/-- MeshHex8.h:2086-2101 -/
def nodesFrontLeftOpenEdge (M : FineLayer3 α) : Res (Ten Nat) := vertOpenEdge M (fun _ _ => 0)

/-- MeshHex8.h:2103-2118 -/
def nodesFrontRightOpenEdge (M : FineLayer3 α) : Res (Ten Nat) := vertOpenEdge M (fun nx _ => nx)

/-- MeshHex8.h:2120-2129 -/
def nodesBackBottomOpenEdge (M : FineLayer3 α) : Res (Ten Nat) := do
  let nx ← M.layer_nelx.get [0]
  let nz ← M.layer_nelz.get [0]
  let b ← M.startNode.get [0]
  fillOpenEdge nx (fun ix => b + ix + (nx + 1) * nz)

/-- MeshHex8.h:2131-2143 -/
def nodesBackTopOpenEdge (M : FineLayer3 α) : Res (Ten Nat) := do
  let nx ← M.layer_nelx.get [M.nhy.size - 1]
  let nz ← M.layer_nelz.get [M.nhy.size - 1]
  let b ← M.startNode.get [M.nhy.size]
  fillOpenEdge nx (fun ix => b + ix + (nx + 1) * nz)

/-- MeshHex8.h:2145-2160 -/
def nodesBackLeftOpenEdge (M : FineLayer3 α) : Res (Ten Nat) := vertOpenEdge M (fun nx nz => (nx + 1) * nz)

/-- MeshHex8.h:2162-2179 -/
def nodesBackRightOpenEdge (M : FineLayer3 α) : Res (Ten Nat) := vertOpenEdge M (fun nx nz => nx + (nx + 1) * nz)

/-- MeshHex8.h:2181-2190 -/
def nodesBottomLeftOpenEdge (M : FineLayer3 α) : Res (Ten Nat) := do
  let nx ← M.layer_nelx.get [0]
  let nz ← M.layer_nelz.get [0]
  let b ← M.startNode.get [0]
  fillOpenEdge nz (fun iz => b + iz * (nx + 1))

/-- MeshHex8.h:2192-2201 -/
def nodesBottomRightOpenEdge (M : FineLayer3 α) : Res (Ten Nat) := do
  let nx ← M.layer_nelx.get [0]
  let nz ← M.layer_nelz.get [0]
  let b ← M.startNode.get [0]
  fillOpenEdge nz (fun iz => b + nx + iz * (nx + 1))

/-- MeshHex8.h:2203-2214 -/
def nodesTopLeftOpenEdge (M : FineLayer3 α) : Res (Ten Nat) := do
  let nx ← M.layer_nelx.get [M.nhy.size - 1]
  let nz ← M.layer_nelz.get [M.nhy.size - 1]
  let b ← M.startNode.get [M.nhy.size]
  fillOpenEdge nz (fun iz => b + iz * (nx + 1))

/-- MeshHex8.h:2216-2228 -/
def nodesTopRightOpenEdge (M : FineLayer3 α) : Res (Ten Nat) := do
  let nx ← M.layer_nelx.get [M.nhy.size - 1]
  let nz ← M.layer_nelz.get [M.nhy.size - 1]
  let b ← M.startNode.get [M.nhy.size]
  fillOpenEdge nz (fun iz => b + nx + iz * (nx + 1))

/-- MeshHex8.h:2230-2233 -/
def nodesFrontBottomLeftCorner (M : FineLayer3 α) : Res Nat := M.startNode.get [0]

/-- MeshHex8.h:2235-2238 -/
def nodesFrontBottomRightCorner (M : FineLayer3 α) : Res Nat := do
  let b ← M.startNode.get [0]
  let nx ← M.layer_nelx.get [0]
  .ok (b + nx)

/-- MeshHex8.h:2240-2244 -/
def nodesFrontTopLeftCorner (M : FineLayer3 α) : Res Nat := M.startNode.get [M.nhy.size]

/-- MeshHex8.h:2246-2250 -/
def nodesFrontTopRightCorner (M : FineLayer3 α) : Res Nat := do
  let b ← M.startNode.get [M.nhy.size]
  let nx ← M.layer_nelx.get [M.nhy.size - 1]
  .ok (b + nx)

/-- MeshHex8.h:2252-2255 -/
def nodesBackBottomLeftCorner (M : FineLayer3 α) : Res Nat := do
  let b ← M.startNode.get [0]
  let nx ← M.layer_nelx.get [0]
  let nz ← M.layer_nelz.get [0]
  .ok (b + (nx + 1) * nz)

/-- MeshHex8.h:2257-2260 -/
def nodesBackBottomRightCorner (M : FineLayer3 α) : Res Nat := do
  let b ← M.startNode.get [0]
  let nx ← M.layer_nelx.get [0]
  let nz ← M.layer_nelz.get [0]
  .ok (b + nx + (nx + 1) * nz)

/-- MeshHex8.h:2262-2266 -/
def nodesBackTopLeftCorner (M : FineLayer3 α) : Res Nat := do
  let b ← M.startNode.get [M.nhy.size]
  let nx ← M.layer_nelx.get [M.nhy.size - 1]
  let nz ← M.layer_nelz.get [M.nhy.size - 1]
  .ok (b + (nx + 1) * nz)

/-- MeshHex8.h:2268-2273 -/
def nodesBackTopRightCorner (M : FineLayer3 α) : Res Nat := do
  let b ← M.startNode.get [M.nhy.size]
  let nx ← M.layer_nelx.get [M.nhy.size - 1]
  let nz ← M.layer_nelz.get [M.nhy.size - 1]
  .ok (b + nx + (nx + 1) * nz)

/-- `nodesPeriodic()`, Mesh.h:309-312 and 1577-1692 on this class -/
def nodesPeriodic (M : FineLayer3 α) : Res (Ten Nat) := do
  let fbl ← M.nodesFrontBottomLeftCorner
  let fbr ← M.nodesFrontBottomRightCorner
  let ftl ← M.nodesFrontTopLeftCorner
  let ftr ← M.nodesFrontTopRightCorner
  let bbl ← M.nodesBackBottomLeftCorner
  let bbr ← M.nodesBackBottomRightCorner
  let btl ← M.nodesBackTopLeftCorner
  let btr ← M.nodesBackTopRightCorner
  nodesPeriodic3d {
    frontFace := M.nodesFrontFace, backFace := M.nodesBackFace, leftFace := M.nodesLeftFace
    rightFace := M.nodesRightFace, bottomFace := M.nodesBottomFace, topFace := M.nodesTopFace
    frontBottom := M.nodesFrontBottomOpenEdge, frontTop := M.nodesFrontTopOpenEdge
    frontLeft := M.nodesFrontLeftOpenEdge, frontRight := M.nodesFrontRightOpenEdge
    backBottom := M.nodesBackBottomOpenEdge, backTop := M.nodesBackTopOpenEdge
    backLeft := M.nodesBackLeftOpenEdge, backRight := M.nodesBackRightOpenEdge
    bottomLeft := M.nodesBottomLeftOpenEdge, bottomRight := M.nodesBottomRightOpenEdge
    topLeft := M.nodesTopLeftOpenEdge, topRight := M.nodesTopRightOpenEdge
    frontBottomLeft := fbl, frontBottomRight := fbr, frontTopLeft := ftl, frontTopRight := ftr
    backBottomLeft := bbl, backBottomRight := bbr, backTopLeft := btl, backTopRight := btr }

/-- `dofsPeriodic()`, Mesh.h:291-303 on this class -/
def dofsPeriodic (M : FineLayer3 α) : Res (Ten Nat) := do
  let p ← M.nodesPeriodic
  GF.dofsPeriodic M.nnode M.ndim p

end GF.FineLayer3
