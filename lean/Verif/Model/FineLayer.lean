import Verif.Model.MeshBase
import Mathlib.Data.Int.Cast.Defs

/-! Model of `Mesh::Quad4::FineLayer` (MeshQuad4.h:200-1135). -/

namespace GF

/-- members, MeshQuad4.h:883-895 -/
structure FineLayer (α : Type) where
  h : α
  nelem : Nat
  nnode : Nat
  nne : Nat
  ndim : Nat
  Lx : α
  layer_nelx : Ten Nat
  nhx : Ten Nat
  nhy : Ten Nat
  nnd : Ten Nat
  refine : Ten Int
  startElem : Ten Nat
  startNode : Ten Nat

namespace FineLayer
variable {α : Type}

/-- iterations of `for (size_t i = a; i < b; ++i)` -/
def itFrom (a b : Nat) : List Nat := List.range' a (b - a)

/-- the temporaries of the constructor for one half of the mesh, MeshQuad4.h:914-916 -/
structure Half where
  nhx : Ten Nat
  nhy : Ten Nat
  refine : Ten Int

/-- `auto v = xt::view(arr, xt::range(a, _)); v *= s;`, MeshQuad4.h:961-964 -/
def scaleFrom (t : Ten Nat) (a s : Nat) : Ten Nat :=
  ⟨t.shape, fun ix => (t.v ix).map fun b => if a ≤ ix.getD 0 0 then b * s else b⟩

/-- the body of the coarsening branch, MeshQuad4.h:959-964 -/
def coarsen (H : Half) (iy : Nat) : Res Half := do
  let r ← H.refine.set [iy] 0
  let b ← H.nhy.get [iy]
  let y ← H.nhy.set [iy] (b * 2)
  .ok { nhx := scaleFrom H.nhx iy 3, nhy := scaleFrom y (iy + 1) 3, refine := r }

/-- coarsen if the rules of MeshQuad4.h:958 are satisfied -/
def tryCoarsen (nelx nmin ntot : Nat) (H : Half) (iy : Nat) : Res Half := do
  let y ← H.nhy.get [iy]
  let x ← H.nhx.get [iy]
  if 3 * y ≤ ntot ∧ nelx % (3 * x) = 0 ∧ ntot + y < nmin then coarsen H iy else .ok H

/-- `for (size_t iy = nfine;;) {...}`, MeshQuad4.h:946-976, from the state (`iy`, `ntot`, arrays).  Returns the
new value of `nely` and the arrays.  The first argument bounds the number of iterations (`ub` if it is
exceeded).  Simplification: the test at the end of an iteration (972-975) and the test at the start of the
next one (952-955) are the same and are modelled once; `ntot = nfine` (948-950) is only executed in the
first iteration. -/
def grow (nelx nmin nely : Nat) : Nat → Nat → Nat → Half → Res (Nat × Half)
  | 0, _, _, _ => .ub
  | fuel + 1, iy, ntot, H =>
    if nely ≤ iy ∨ nmin ≤ ntot then .ok (iy, H)
    else do
      let H ← tryCoarsen nelx nmin ntot H iy
      let y ← H.nhy.get [iy]
      grow nelx nmin nely fuel (iy + 1) (ntot + y) H

/-- `nmin`, MeshQuad4.h:919-924 -/
def minHeight (nely : Nat) : Nat := if nely % 2 = 0 then nely / 2 else (nely + 1) / 2

/-- `nfine` after MeshQuad4.h:927-940 -/
def fineHeight (nfine nmin : Nat) : Nat :=
  let nfine := if nfine % 2 = 0 then nfine / 2 + 1 else (nfine + 1) / 2
  let nfine := if nfine < 1 then 1 else nfine
  if nfine > nmin then nmin else nfine

/-- MeshQuad4.h:913-976 -/
def half (nelx nely nfine : Nat) : Res (Nat × Half) :=
  let nmin := minHeight nely
  let nfine := fineHeight nfine nmin
  grow nelx nmin nely (nely + 1) nfine nfine
    { nhx := Ten.full [nely] 1, nhy := Ten.full [nely] 1, refine := Ten.full [nely] (-1) }

/-- symmetrise one array, MeshQuad4.h:981-1001: the three arrays are filled in the same loops -/
def mirror {β : Type} (n : Nat) (src : Ten β) : Res (Ten β) := do
  let ret ← forEach (it1 n) (fun (ret : Ten β) iy => do
    let a ← src.get [n - iy - 1]
    ret.set [iy] a) (Ten.empty [n * 2 - 1])
  forEach (it1 (n - 1)) (fun (ret : Ten β) iy => do
    let a ← src.get [iy + 1]
    ret.set [iy + n] a) ret

/-- MeshQuad4.h:1007-1009 -/
def layerNelx (nelx N : Nat) (nhx : Ten Nat) : Res (Ten Nat) :=
  forEach (it1 N) (fun (ret : Ten Nat) iy => do
    let a ← nhx.get [iy]
    if a = 0 then .ub else ret.set [iy] (nelx / a)) (Ten.empty [N])

/-- MeshQuad4.h:1012-1017 -/
def rowNodes (N : Nat) (layer_nelx : Ten Nat) : Res (Ten Nat) := do
  let ret ← forEach (it1 ((N + 1) / 2)) (fun (ret : Ten Nat) iy => do
    let a ← layer_nelx.get [iy]
    ret.set [iy] (a + 1)) (Ten.empty [N + 1])
  forEach (itFrom ((N - 1) / 2) N) (fun (ret : Ten Nat) iy => do
    let a ← layer_nelx.get [iy]
    ret.set [iy + 1] (a + 1)) ret

/-- state of the loops MeshQuad4.h:1022-1068 -/
structure Count where
  startElem : Ten Nat
  startNode : Ten Nat
  nnode : Nat
  nelem : Nat

/-- body of the loop MeshQuad4.h:1027-1046 -/
def countBelow (refine : Ten Int) (layer_nelx : Ten Nat) (s : Count) (i : Nat) : Res Count := do
  let se ← s.startElem.set [i] s.nelem
  let r ← refine.get [i]
  let n ← layer_nelx.get [i]
  let nnode := s.nnode + (if r = 0 then 3 * n + 1 else n + 1)
  let nelem := s.nelem + (if r = 0 then 4 * n else n)
  let sn ← s.startNode.set [i + 1] nnode
  .ok { startElem := se, startNode := sn, nnode := nnode, nelem := nelem }

/-- body of the loop MeshQuad4.h:1049-1068 -/
def countAbove (refine : Ten Int) (layer_nelx : Ten Nat) (s : Count) (i : Nat) : Res Count := do
  let se ← s.startElem.set [i] s.nelem
  let r ← refine.get [i]
  let n ← layer_nelx.get [i]
  let nnode := s.nnode + (if r = 0 then 5 * n + 1 else n + 1)
  let nelem := s.nelem + (if r = 0 then 4 * n else n)
  let sn ← s.startNode.set [i + 1] nnode
  .ok { startElem := se, startNode := sn, nnode := nnode, nelem := nelem }

/-- MeshQuad4.h:1022-1068 -/
def count (N : Nat) (refine : Ten Int) (layer_nelx : Ten Nat) : Res Count := do
  let sn ← (Ten.empty [N + 1]).set [0] 0
  let s ← forEach (it1 ((N - 1) / 2)) (countBelow refine layer_nelx)
    { startElem := Ten.empty [N], startNode := sn, nnode := 0, nelem := 0 }
  forEach (itFrom ((N - 1) / 2) N) (countAbove refine layer_nelx) s

/-- the constructor, `init`, MeshQuad4.h:900-1071 (assertions 902-903 are disabled by default).  The size
`nely * 2 - 1` (981) wraps around if the half has no layers. -/
def new [Mul α] [NatCast α] (nelx nely : Nat) (h : α) (nfine : Nat) : Res (FineLayer α) := do
  let s ← half nelx nely nfine
  let n := s.1
  if n = 0 then .ub
  else do
    let N := n * 2 - 1
    let nhx ← mirror n s.2.nhx
    let nhy ← mirror n s.2.nhy
    let refine ← mirror n s.2.refine
    let layer_nelx ← layerNelx nelx N nhx
    let nnd ← rowNodes N layer_nelx
    let c ← count N refine layer_nelx
    let a ← layer_nelx.get [N - 1]
    .ok { h := h, ndim := 2, nne := 4, Lx := h * (nelx : α), nhx := nhx, nhy := nhy, refine := refine,
          layer_nelx := layer_nelx, nnd := nnd, startElem := c.startElem, startNode := c.startNode,
          nelem := c.nelem, nnode := c.nnode + (a + 1) }

/-- `elementsMiddleLayer`, MeshQuad4.h:287-292 -/
def elementsMiddleLayer (M : FineLayer α) : Res (Ten Nat) := do
  let nely := M.nhy.size
  let iy := (nely - 1) / 2
  let s ← M.startElem.get [iy]
  let n ← M.layer_nelx.get [iy]
  .ok (affine (arange 0 n) 1 s)

/-- `elementsLayer`, MeshQuad4.h:299-307 -/
def elementsLayer (M : FineLayer α) (layer : Nat) : Res (Ten Nat) := do
  let n ← M.layer_nelx.get [layer]
  let r ← M.refine.get [layer]
  let n := if r ≠ -1 then n * 4 else n
  let s ← M.startElem.get [layer]
  .ok (affine (arange 0 n) 1 s)

/-- `nelx_impl`, MeshQuad4.h:571-574 -/
def nelx (M : FineLayer α) : Res Nat := amax M.layer_nelx

/-- `nely_impl`, MeshQuad4.h:576-579 -/
def nely (M : FineLayer α) : Res Nat := do
  let l ← M.nhy.flat
  .ok (l.foldl (· + ·) 0)

section coor
variable [DivisionRing α]

/-- MeshQuad4.h:597-603 -/
def rowHeights (M : FineLayer α) (N : Nat) : Res (Ten α) := do
  let y ← (Ten.empty [N + 1]).set [0] (0 : α)
  forEach (itFrom 1 (N + 1)) (fun (y : Ten α) iy => do
    let a ← y.get [iy - 1]
    let b ← M.nhy.get [iy - 1]
    y.set [iy] (a + (b : α) * M.h)) y

/-- one row of nodes: MeshQuad4.h:613-617 (with `y(iy)`) and 662-666 (with `y(iy + 1)`) -/
def mainRow (n : Nat) (x : Ten α) (y : α) (s : Ten α × Nat) : Res (Ten α × Nat) :=
  forEach (it1 (n + 1)) (fun (s : Ten α × Nat) ix => do
    let a ← x.get [ix]
    let ret ← s.1.set [s.2, 0] a
    let ret ← ret.set [s.2, 1] y
    .ok (ret, s.2 + 1)) s

/-- the nodes inside a refinement layer: MeshQuad4.h:625-637, 647-659 -/
def midRow (M : FineLayer α) (iy n : Nat) (x : Ten α) (y : α) (s : Ten α × Nat) : Res (Ten α × Nat) := do
  let r ← M.refine.get [iy]
  if r = 0 then do
    let nhx ← M.nhx.get [iy]
    let nhy ← M.nhy.get [iy]
    let dx := M.h * ((nhx / 3 : Nat) : α)
    let dy := M.h * ((nhy / 2 : Nat) : α)
    forEach (it2 n 2) (fun (s : Ten α × Nat) p => do
      let a ← x.get [p.1]
      let ret ← s.1.set [s.2, 0] (a + dx * ((p.2 + 1 : Nat) : α))
      let ret ← ret.set [s.2, 1] (y + dy)
      .ok (ret, s.2 + 1)) s
  else .ok s

/-- body of the loop MeshQuad4.h:608-638; the loop ends (620-622) after the row of the middle layer -/
def coorBelow (M : FineLayer α) (N : Nat) (y : Ten α) (s : Ten α × Nat) (iy : Nat) : Res (Ten α × Nat) := do
  let n ← M.layer_nelx.get [iy]
  let x := linspace 0 M.Lx (n + 1)
  let yi ← y.get [iy]
  let s ← mainRow n x yi s
  if iy = (N - 1) / 2 then .ok s else midRow M iy n x yi s

/-- body of the loop MeshQuad4.h:642-667 -/
def coorAbove (M : FineLayer α) (y : Ten α) (s : Ten α × Nat) (iy : Nat) : Res (Ten α × Nat) := do
  let n ← M.layer_nelx.get [iy]
  let x := linspace 0 M.Lx (n + 1)
  let yi ← y.get [iy]
  let s ← midRow M iy n x yi s
  let yu ← y.get [iy + 1]
  mainRow n x yu s

/-- `coor_impl`, MeshQuad4.h:586-670 -/
def coor (M : FineLayer α) : Res (Ten α) := do
  let N := M.nhy.size
  let y ← rowHeights M N
  let s ← forEach (it1 ((N - 1) / 2 + 1)) (coorBelow M N y) (Ten.empty [M.nnode, M.ndim], 0)
  let s ← forEach (itFrom ((N - 1) / 2) N) (coorAbove M y) s
  .ok s.1

end coor

/-- `ret(ielem, 0) = a; ...; ret(ielem, 3) = d; ielem++;` -/
def putElem (s : Ten Nat × Nat) (a b c d : Nat) : Res (Ten Nat × Nat) := do
  let ret ← s.1.set [s.2, 0] a
  let ret ← ret.set [s.2, 1] b
  let ret ← ret.set [s.2, 2] c
  let ret ← ret.set [s.2, 3] d
  .ok (ret, s.2 + 1)

/-- one block of a normal layer, MeshQuad4.h:691-697 -/
def connNormal (bot top : Nat) (s : Ten Nat × Nat) (ix : Nat) : Res (Ten Nat × Nat) :=
  putElem s (bot + ix) (bot + (ix + 1)) (top + (ix + 1)) (top + ix)

/-- one block of a refinement layer below the middle, MeshQuad4.h:702-727 -/
def connBelow (bot mid top : Nat) (s : Ten Nat × Nat) (ix : Nat) : Res (Ten Nat × Nat) := do
  let s ← putElem s (bot + ix) (bot + (ix + 1)) (mid + (2 * ix + 1)) (mid + 2 * ix)
  let s ← putElem s (bot + (ix + 1)) (top + (3 * ix + 3)) (top + (3 * ix + 2)) (mid + (2 * ix + 1))
  let s ← putElem s (mid + 2 * ix) (mid + (2 * ix + 1)) (top + (3 * ix + 2)) (top + (3 * ix + 1))
  putElem s (bot + ix) (mid + 2 * ix) (top + (3 * ix + 1)) (top + 3 * ix)

/-- one block of a refinement layer above the middle, MeshQuad4.h:732-757 -/
def connAbove (bot mid top : Nat) (s : Ten Nat × Nat) (ix : Nat) : Res (Ten Nat × Nat) := do
  let s ← putElem s (bot + 3 * ix) (bot + (3 * ix + 1)) (mid + 2 * ix) (top + ix)
  let s ← putElem s (bot + (3 * ix + 1)) (bot + (3 * ix + 2)) (mid + (2 * ix + 1)) (mid + 2 * ix)
  let s ← putElem s (bot + (3 * ix + 2)) (bot + (3 * ix + 3)) (top + (ix + 1)) (mid + (2 * ix + 1))
  putElem s (mid + 2 * ix) (mid + (2 * ix + 1)) (top + (ix + 1)) (top + ix)

/-- body of the loop over the layers, MeshQuad4.h:683-759 -/
def connLayer (M : FineLayer α) (N : Nat) (s : Ten Nat × Nat) (iy : Nat) : Res (Ten Nat × Nat) := do
  let bot ← M.startNode.get [iy]
  let m ← M.nnd.get [iy]
  let mid := bot + m
  let top ← M.startNode.get [iy + 1]
  let r ← M.refine.get [iy]
  let n ← M.layer_nelx.get [iy]
  if r = -1 then forEach (it1 n) (connNormal bot top) s
  else if r = 0 ∧ iy ≤ (N - 1) / 2 then forEach (it1 n) (connBelow bot mid top) s
  else if r = 0 ∧ (N - 1) / 2 < iy then forEach (it1 n) (connAbove bot mid top) s
  else .ok s

/-- `conn_impl`, MeshQuad4.h:672-762 -/
def conn (M : FineLayer α) : Res (Ten Nat) := do
  let N := M.nhy.size
  let s ← forEach (it1 N) (connLayer M N) (Ten.empty [M.nelem, M.nne], 0)
  .ok s.1

/-- MeshQuad4.h:764-767 -/
def nodesBottomEdge (M : FineLayer α) : Res (Ten Nat) := do
  let s ← M.startNode.get [0]
  let n ← M.layer_nelx.get [0]
  .ok (affine (arange 0 (n + 1)) 1 s)

/-- MeshQuad4.h:769-773 -/
def nodesTopEdge (M : FineLayer α) : Res (Ten Nat) := do
  let N := M.nhy.size
  let s ← M.startNode.get [N]
  let n ← M.layer_nelx.get [N - 1]
  .ok (affine (arange 0 (n + 1)) 1 s)

/-- `xt::view(ret, xt::range(a, b)) = expr` where `f k` evaluates entry `k` of the right-hand side -/
def assignRange (ret : Ten Nat) (a b : Nat) (f : Nat → Res Nat) : Res (Ten Nat) :=
  forEach (it1 (b - a)) (fun (ret : Ten Nat) k => do
    let v ← f k
    ret.set [a + k] v) ret

/-- sum of two entries -/
def getSum (a b : Ten Nat) (i j : Nat) : Res Nat := do
  let x ← a.get [i]
  let y ← b.get [j]
  .ok (x + y)

/-- MeshQuad4.h:775-790 -/
def nodesLeftEdge (M : FineLayer α) : Res (Ten Nat) := do
  let N := M.nhy.size
  let j := (N + 1) / 2
  let k := (N - 1) / 2
  let ret ← assignRange (Ten.empty [N + 1]) 0 j (fun p => M.startNode.get [p])
  assignRange ret (k + 1) (N + 1) (fun p => M.startNode.get [k + 1 + p])

/-- MeshQuad4.h:792-810 -/
def nodesRightEdge (M : FineLayer α) : Res (Ten Nat) := do
  let N := M.nhy.size
  let j := (N + 1) / 2
  let k := (N - 1) / 2
  let ret ← assignRange (Ten.empty [N + 1]) 0 j (fun p => getSum M.startNode M.layer_nelx p p)
  assignRange ret (k + 1) (N + 1) (fun p => getSum M.startNode M.layer_nelx (k + 1 + p) (k + p))

/-- MeshQuad4.h:812-815 -/
def nodesBottomOpenEdge (M : FineLayer α) : Res (Ten Nat) := do
  let s ← M.startNode.get [0]
  let n ← M.layer_nelx.get [0]
  .ok (affine (arange 1 n) 1 s)

/-- MeshQuad4.h:817-822 -/
def nodesTopOpenEdge (M : FineLayer α) : Res (Ten Nat) := do
  let N := M.nhy.size
  let s ← M.startNode.get [N]
  let n ← M.layer_nelx.get [N - 1]
  .ok (affine (arange 1 n) 1 s)

/-- MeshQuad4.h:824-839 -/
def nodesLeftOpenEdge (M : FineLayer α) : Res (Ten Nat) := do
  let N := M.nhy.size
  let j := (N + 1) / 2
  let k := (N - 1) / 2
  let ret ← assignRange (Ten.empty [N - 1]) 0 (j - 1) (fun p => M.startNode.get [1 + p])
  assignRange ret k (N - 1) (fun p => M.startNode.get [k + 1 + p])

/-- MeshQuad4.h:841-859 -/
def nodesRightOpenEdge (M : FineLayer α) : Res (Ten Nat) := do
  let N := M.nhy.size
  let j := (N + 1) / 2
  let k := (N - 1) / 2
  let ret ← assignRange (Ten.empty [N - 1]) 0 (j - 1)
    (fun p => getSum M.startNode M.layer_nelx (1 + p) (1 + p))
  assignRange ret k (N - 1) (fun p => getSum M.startNode M.layer_nelx (k + 1 + p) (k + p))

/-- MeshQuad4.h:861-864 -/
def nodesBottomLeftCorner (M : FineLayer α) : Res Nat := M.startNode.get [0]
/-- `nodesOrigin`, Mesh.h:542-545 -/
def nodesOrigin (M : FineLayer α) : Res Nat := M.nodesBottomLeftCorner
/-- MeshQuad4.h:866-869 -/
def nodesBottomRightCorner (M : FineLayer α) : Res Nat := getSum M.startNode M.layer_nelx 0 0
/-- MeshQuad4.h:871-875 -/
def nodesTopLeftCorner (M : FineLayer α) : Res Nat := M.startNode.get [M.nhy.size]
/-- MeshQuad4.h:877-881 -/
def nodesTopRightCorner (M : FineLayer α) : Res Nat :=
  getSum M.startNode M.layer_nelx M.nhy.size (M.nhy.size - 1)

/-- `nodesPeriodic()`, Mesh.h:511-540 on this class -/
def nodesPeriodic (M : FineLayer α) : Res (Ten Nat) := do
  let bl ← M.nodesBottomLeftCorner
  let br ← M.nodesBottomRightCorner
  let tl ← M.nodesTopLeftCorner
  let tr ← M.nodesTopRightCorner
  nodesPeriodic2d
    { bottomOpen := M.nodesBottomOpenEdge, topOpen := M.nodesTopOpenEdge,
      leftOpen := M.nodesLeftOpenEdge, rightOpen := M.nodesRightOpenEdge,
      bottomLeft := bl, bottomRight := br, topLeft := tl, topRight := tr }

/-- `dofsPeriodic()`, Mesh.h:291-303 on this class -/
def dofsPeriodic (M : FineLayer α) : Res (Ten Nat) := do
  let p ← M.nodesPeriodic
  GF.dofsPeriodic M.nnode M.ndim p

/-- body of the loop of `roll`, MeshQuad4.h:546-561.  `xt::roll(e, shift)` (library function) of an array of
`n` entries: entry `k` moves to position `(k + shift) % n`, i.e. entry `k` of the result is entry
`(k + n - shift % n) % n` of the argument. -/
def rollLayer (M : FineLayer α) (n : Nat) (ret : Ten Nat) (iy : Nat) : Res (Ten Nat) := do
  let a ← M.layer_nelx.get [iy]
  let b ← M.layer_nelx.get [0]
  if b = 0 then .ub
  else do
    let r ← M.refine.get [iy]
    let shift := if r ≠ -1 then n * (a / b) * 4 else n * (a / b)
    let nel := if r ≠ -1 then a * 4 else a
    let s ← M.startElem.get [iy]
    assignRange ret s (s + nel) (fun k => .ok (s + (k + nel - shift % nel) % nel))

/-- `roll(n)`, MeshQuad4.h:539-564 (the local `conn` is not used) -/
def roll (M : FineLayer α) (n : Nat) : Res (Ten Nat) :=
  forEach (it1 M.nhy.size) (rollLayer M n) (Ten.empty [M.nelem])

end FineLayer
end GF
