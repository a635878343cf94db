import Verif.Model.FineLayer

/-! Model of `Mesh::Hex8::FineLayer` (MeshHex8.h:613-2295): constructor, sizes, coordinates and connectivity. -/

namespace GF

/-- members, MeshHex8.h:2275-2294 -/
structure FineLayer3 (α : Type) where
  h : α
  nelem : Nat
  nnode : Nat
  nne : Nat
  ndim : Nat
  Lx : α
  Lz : α
  layer_nelx : Ten Nat
  layer_nelz : Ten Nat
  nnd : Ten Nat
  nhx : Ten Nat
  nhy : Ten Nat
  nhz : Ten Nat
  refine : Ten Int
  startElem : Ten Nat
  startNode : Ten Nat

namespace FineLayer3
variable {α : Type}
open FineLayer (itFrom scaleFrom minHeight fineHeight mirror layerNelx)

/-- the temporaries of the constructor for one half of the mesh, MeshHex8.h:646-649 -/
structure Half where
  nhx : Ten Nat
  nhy : Ten Nat
  nhz : Ten Nat
  refine : Ten Int

/-- coarsen in x-direction, MeshHex8.h:693-698 -/
def coarsenX (H : Half) (iy : Nat) : Res Half := do
  let r ← H.refine.set [iy] 0
  let b ← H.nhy.get [iy]
  let y ← H.nhy.set [iy] (b * 2)
  .ok { H with nhx := scaleFrom H.nhx iy 3, nhy := scaleFrom y (iy + 1) 3, refine := r }

/-- coarsen the next layer in z-direction, MeshHex8.h:704-711 (`iy` is the index after the increment) -/
def pairZ (H : Half) (iy : Nat) : Res Half := do
  let r ← H.refine.set [iy] 2
  let b ← H.nhy.get [iy - 1]
  let y ← H.nhy.set [iy] b
  .ok { H with nhy := y, nhz := scaleFrom H.nhz iy 3, refine := r }

/-- coarsen in z-direction, MeshHex8.h:719-724 -/
def coarsenZ (H : Half) (iy : Nat) : Res Half := do
  let r ← H.refine.set [iy] 2
  let b ← H.nhy.get [iy]
  let y ← H.nhy.set [iy] (b * 2)
  .ok { H with nhz := scaleFrom H.nhz iy 3, nhy := scaleFrom y (iy + 1) 3, refine := r }

/-- after coarsening layer `iy` in x-direction, try to coarsen the next layer in z-direction,
MeshHex8.h:701-713.  Returns the (possibly incremented) `iy` and `ntot`. -/
def tryPair (nelz nmin nely iy ntot : Nat) (H : Half) : Res (Nat × Nat × Half) := do
  let y ← H.nhy.get [iy]
  if iy + 1 < nely ∧ ntot + 2 * y < nmin then do
    let z ← H.nhz.get [iy + 1]
    if nelz % (3 * z) = 0 then do
      let H ← pairZ H (iy + 1)
      .ok (iy + 1, ntot + y, H)
    else .ok (iy, ntot, H)
  else .ok (iy, ntot, H)

/-- the two branches of MeshHex8.h:691-725 -/
def tryCoarsen (nelx nelz nmin nely iy ntot : Nat) (H : Half) : Res (Nat × Nat × Half) := do
  let y ← H.nhy.get [iy]
  let x ← H.nhx.get [iy]
  let z ← H.nhz.get [iy]
  if 3 * y ≤ ntot ∧ nelx % (3 * x) = 0 ∧ ntot + y < nmin then do
    let H ← coarsenX H iy
    tryPair nelz nmin nely iy ntot H
  else if 3 * y ≤ ntot ∧ nelz % (3 * z) = 0 ∧ ntot + y < nmin then do
    let H ← coarsenZ H iy
    .ok (iy, ntot, H)
  else .ok (iy, ntot, H)

/-- `for (size_t iy = nfine;;) {...}`, MeshHex8.h:679-736, from the state (`iy`, `ntot`, arrays).  Returns the
new value of `nely` and the arrays.  The first argument bounds the number of iterations (`ub` if it is
exceeded).  Simplification: the test at the end of an iteration (732-735) and the test at the start of the
next one (685-688) are the same and are modelled once; `ntot = nfine` (681-683) is only executed in the
first iteration. -/
def grow (nelx nelz nmin nely : Nat) : Nat → Nat → Nat → Half → Res (Nat × Half)
  | 0, _, _, _ => .ub
  | fuel + 1, iy, ntot, H =>
    if nely ≤ iy ∨ nmin ≤ ntot then .ok (iy, H)
    else do
      let s ← tryCoarsen nelx nelz nmin nely iy ntot H
      let y ← s.2.2.nhy.get [s.1]
      grow nelx nelz nmin nely fuel (s.1 + 1) (s.2.1 + y) s.2.2

/-- MeshHex8.h:645-736; `nmin` and `nfine` (652-673) are computed by the same code as for `Quad4` -/
def half (nelx nely nelz nfine : Nat) : Res (Nat × Half) :=
  let nmin := minHeight nely
  let nfine := fineHeight nfine nmin
  grow nelx nelz nmin nely (nely + 1) nfine nfine
    { nhx := Ten.full [nely] 1, nhy := Ten.full [nely] 1, nhz := Ten.full [nely] 1,
      refine := Ten.full [nely] (-1) }

/-- MeshHex8.h:778-782 -/
def rowNodes (N : Nat) (layer_nelx layer_nelz : Ten Nat) : Res (Ten Nat) := do
  let ret ← forEach (it1 ((N + 1) / 2)) (fun (ret : Ten Nat) iy => do
    let a ← layer_nelx.get [iy]
    let b ← layer_nelz.get [iy]
    ret.set [iy] ((a + 1) * (b + 1))) (Ten.empty [N + 1])
  forEach (itFrom ((N - 1) / 2) N) (fun (ret : Ten Nat) iy => do
    let a ← layer_nelx.get [iy]
    let b ← layer_nelz.get [iy]
    ret.set [iy + 1] ((a + 1) * (b + 1))) ret

/-- body of the loop MeshHex8.h:794-816 -/
def countBelow (refine : Ten Int) (layer_nelx layer_nelz : Ten Nat) (s : FineLayer.Count) (i : Nat) :
    Res FineLayer.Count := do
  let se ← s.startElem.set [i] s.nelem
  let r ← refine.get [i]
  let n ← layer_nelx.get [i]
  let m ← layer_nelz.get [i]
  let nnode := s.nnode + (if r = 0 then (3 * n + 1) * (m + 1)
    else if r = 2 then (n + 1) * (3 * m + 1) else (n + 1) * (m + 1))
  let nelem := s.nelem + (if r = 0 then 4 * n * m else if r = 2 then n * (4 * m) else n * m)
  let sn ← s.startNode.set [i + 1] nnode
  .ok { startElem := se, startNode := sn, nnode := nnode, nelem := nelem }

/-- body of the loop MeshHex8.h:822-844 -/
def countAbove (refine : Ten Int) (layer_nelx layer_nelz : Ten Nat) (s : FineLayer.Count) (i : Nat) :
    Res FineLayer.Count := do
  let se ← s.startElem.set [i] s.nelem
  let r ← refine.get [i]
  let n ← layer_nelx.get [i]
  let m ← layer_nelz.get [i]
  let nnode := s.nnode + (if r = 0 then (5 * n + 1) * (m + 1)
    else if r = 2 then (n + 1) * (5 * m + 1) else (n + 1) * (m + 1))
  let nelem := s.nelem + (if r = 0 then 4 * n * m else if r = 2 then n * (4 * m) else n * m)
  let sn ← s.startNode.set [i + 1] nnode
  .ok { startElem := se, startNode := sn, nnode := nnode, nelem := nelem }

/-- MeshHex8.h:787-845 -/
def count (N : Nat) (refine : Ten Int) (layer_nelx layer_nelz : Ten Nat) : Res FineLayer.Count := do
  let sn ← (Ten.empty [N + 1]).set [0] 0
  let s ← forEach (it1 ((N - 1) / 2)) (countBelow refine layer_nelx layer_nelz)
    { startElem := Ten.empty [N], startNode := sn, nnode := 0, nelem := 0 }
  forEach (itFrom ((N - 1) / 2) N) (countAbove refine layer_nelx layer_nelz) s

/-- the constructor, MeshHex8.h:627-848 (assertions 634-636 are disabled by default).  The size `nely * 2 - 1`
(741) wraps around if the half has no layers.  The loops that symmetrise (753-765) and that divide (771-774)
are those of `Quad4`, with one more array. -/
def new [Mul α] [NatCast α] (nelx nely nelz : Nat) (h : α) (nfine : Nat) : Res (FineLayer3 α) := do
  let s ← half nelx nely nelz nfine
  let n := s.1
  if n = 0 then .ub
  else do
    let N := n * 2 - 1
    let nhx ← mirror n s.2.nhx
    let nhy ← mirror n s.2.nhy
    let nhz ← mirror n s.2.nhz
    let refine ← mirror n s.2.refine
    let layer_nelx ← layerNelx nelx N nhx
    let layer_nelz ← layerNelx nelz N nhz
    let nnd ← rowNodes N layer_nelx layer_nelz
    let c ← count N refine layer_nelx layer_nelz
    let a ← layer_nelx.get [N - 1]
    let b ← layer_nelz.get [N - 1]
    .ok { h := h, ndim := 3, nne := 8, Lx := h * (nelx : α), Lz := h * (nelz : α),
          nhx := nhx, nhy := nhy, nhz := nhz, refine := refine,
          layer_nelx := layer_nelx, layer_nelz := layer_nelz, nnd := nnd,
          startElem := c.startElem, startNode := c.startNode,
          nelem := c.nelem, nnode := c.nnode + (a + 1) * (b + 1) }

/-- `elementsMiddleLayer`, MeshHex8.h:854-868 -/
def elementsMiddleLayer (M : FineLayer3 α) : Res (Ten Nat) := do
  let N := M.nhy.size
  let y := (N - 1) / 2
  let n ← M.layer_nelx.get [y]
  let m ← M.layer_nelz.get [y]
  let s ← M.startElem.get [y]
  forEach (it1 n) (fun (ret : Ten Nat) x =>
    forEach (it1 m) (fun (ret : Ten Nat) z => ret.set [x + z * n] (s + x + z * n)) ret) (Ten.empty [n * m])

/-- `nelx_impl`, MeshHex8.h:874-877 -/
def nelx (M : FineLayer3 α) : Res Nat := amax M.layer_nelx

/-- `nely_impl`, MeshHex8.h:879-882 -/
def nely (M : FineLayer3 α) : Res Nat := do
  let l ← M.nhy.flat
  .ok (l.foldl (· + ·) 0)

/-- `nelz_impl`, MeshHex8.h:884-887 -/
def nelz (M : FineLayer3 α) : Res Nat := amax M.layer_nelz

section coor
variable [DivisionRing α]

/-- MeshHex8.h:904-910 -/
def rowHeights (M : FineLayer3 α) (N : Nat) : Res (Ten α) := do
  let y ← (Ten.empty [N + 1]).set [0] (0 : α)
  forEach (itFrom 1 (N + 1)) (fun (y : Ten α) iy => do
    let a ← y.get [iy - 1]
    let b ← M.nhy.get [iy - 1]
    y.set [iy] (a + (b : α) * M.h)) y

/-- `ret(inode, 0) = x; ret(inode, 1) = y; ret(inode, 2) = z; ++inode;` -/
def putNode (s : Ten α × Nat) (x y z : α) : Res (Ten α × Nat) := do
  let ret ← s.1.set [s.2, 0] x
  let ret ← ret.set [s.2, 1] y
  let ret ← ret.set [s.2, 2] z
  .ok (ret, s.2 + 1)

/-- one plane of nodes: MeshHex8.h:921-928 (with `y(iy)`) and 1016-1023 (with `y(iy + 1)`) -/
def mainRow (n m : Nat) (x z : Ten α) (y : α) (s : Ten α × Nat) : Res (Ten α × Nat) :=
  forEach (it1 (m + 1)) (fun (s : Ten α × Nat) iz =>
    forEach (it1 (n + 1)) (fun (s : Ten α × Nat) ix => do
      let a ← x.get [ix]
      let b ← z.get [iz]
      putNode s a y b) s) s

/-- the nodes inside a layer that refines in x-direction: MeshHex8.h:938-950, 982-994 -/
def midRowX (M : FineLayer3 α) (iy n m : Nat) (x z : Ten α) (y : α) (s : Ten α × Nat) : Res (Ten α × Nat) := do
  let nhx ← M.nhx.get [iy]
  let nhy ← M.nhy.get [iy]
  let dx := M.h * ((nhx / 3 : Nat) : α)
  let dy := M.h * ((nhy / 2 : Nat) : α)
  forEach (it1 (m + 1)) (fun (s : Ten α × Nat) iz =>
    forEach (it1 n) (fun (s : Ten α × Nat) ix =>
      forEach (it1 2) (fun (s : Ten α × Nat) j => do
        let a ← x.get [ix]
        let b ← z.get [iz]
        putNode s (a + dx * ((j + 1 : Nat) : α)) (y + dy) b) s) s) s

/-- the nodes inside a layer that refines in z-direction: MeshHex8.h:956-968, 1000-1012 -/
def midRowZ (M : FineLayer3 α) (iy n m : Nat) (x z : Ten α) (y : α) (s : Ten α × Nat) : Res (Ten α × Nat) := do
  let nhz ← M.nhz.get [iy]
  let nhy ← M.nhy.get [iy]
  let dz := M.h * ((nhz / 3 : Nat) : α)
  let dy := M.h * ((nhy / 2 : Nat) : α)
  forEach (it1 m) (fun (s : Ten α × Nat) iz =>
    forEach (it1 2) (fun (s : Ten α × Nat) j =>
      forEach (it1 (n + 1)) (fun (s : Ten α × Nat) ix => do
        let a ← x.get [ix]
        let b ← z.get [iz]
        putNode s a (y + dy) (b + dz * ((j + 1 : Nat) : α))) s) s) s

/-- the nodes inside a refinement layer: MeshHex8.h:935-969, 979-1013 -/
def midRow (M : FineLayer3 α) (iy n m : Nat) (x z : Ten α) (y : α) (s : Ten α × Nat) : Res (Ten α × Nat) := do
  let r ← M.refine.get [iy]
  if r = 0 then midRowX M iy n m x z y s
  else if r = 2 then midRowZ M iy n m x z y s
  else .ok s

/-- body of the loop MeshHex8.h:915-970; the loop ends (931-933) after the plane of the middle layer -/
def coorBelow (M : FineLayer3 α) (N : Nat) (y : Ten α) (s : Ten α × Nat) (iy : Nat) : Res (Ten α × Nat) := do
  let n ← M.layer_nelx.get [iy]
  let m ← M.layer_nelz.get [iy]
  let x := linspace 0 M.Lx (n + 1)
  let z := linspace 0 M.Lz (m + 1)
  let yi ← y.get [iy]
  let s ← mainRow n m x z yi s
  if iy = (N - 1) / 2 then .ok s else midRow M iy n m x z yi s

/-- body of the loop MeshHex8.h:974-1024 -/
def coorAbove (M : FineLayer3 α) (y : Ten α) (s : Ten α × Nat) (iy : Nat) : Res (Ten α × Nat) := do
  let n ← M.layer_nelx.get [iy]
  let m ← M.layer_nelz.get [iy]
  let x := linspace 0 M.Lx (n + 1)
  let z := linspace 0 M.Lz (m + 1)
  let yi ← y.get [iy]
  let s ← midRow M iy n m x z yi s
  let yu ← y.get [iy + 1]
  mainRow n m x z yu s

/-- `coor_impl`, MeshHex8.h:893-1027 -/
def coor (M : FineLayer3 α) : Res (Ten α) := do
  let N := M.nhy.size
  let y ← rowHeights M N
  let s ← forEach (it1 ((N - 1) / 2 + 1)) (coorBelow M N y) (Ten.empty [M.nnode, M.ndim], 0)
  let s ← forEach (itFrom ((N - 1) / 2) N) (coorAbove M y) s
  .ok s.1

end coor

/-- `ret(ielem, 0) = a0; ...; ret(ielem, 7) = a7; ielem++;` -/
def putHex (s : Ten Nat × Nat) (a0 a1 a2 a3 a4 a5 a6 a7 : Nat) : Res (Ten Nat × Nat) := do
  let ret ← s.1.set [s.2, 0] a0
  let ret ← ret.set [s.2, 1] a1
  let ret ← ret.set [s.2, 2] a2
  let ret ← ret.set [s.2, 3] a3
  let ret ← ret.set [s.2, 4] a4
  let ret ← ret.set [s.2, 5] a5
  let ret ← ret.set [s.2, 6] a6
  let ret ← ret.set [s.2, 7] a7
  .ok (ret, s.2 + 1)

/-- one block of a normal layer, MeshHex8.h:1050-1058 -/
def connNormal (bot top n : Nat) (s : Ten Nat × Nat) (iz ix : Nat) : Res (Ten Nat × Nat) :=
  putHex s (bot + ix + iz * (n + 1)) (bot + (ix + 1) + iz * (n + 1))
      (top + (ix + 1) + iz * (n + 1)) (top + ix + iz * (n + 1))
      (bot + ix + (iz + 1) * (n + 1)) (bot + (ix + 1) + (iz + 1) * (n + 1))
      (top + (ix + 1) + (iz + 1) * (n + 1)) (top + ix + (iz + 1) * (n + 1))

/-- one block of a layer that refines in x-direction (below the middle), MeshHex8.h:1067-1106 -/
def connXBelow (bot mid top n : Nat) (s : Ten Nat × Nat) (iz ix : Nat) : Res (Ten Nat × Nat) := do
  let s ← putHex s (bot + ix + iz * (n + 1)) (bot + (ix + 1) + iz * (n + 1))
      (mid + (2 * ix + 1) + iz * (2 * n)) (mid + (2 * ix) + iz * (2 * n))
      (bot + ix + (iz + 1) * (n + 1)) (bot + (ix + 1) + (iz + 1) * (n + 1))
      (mid + (2 * ix + 1) + (iz + 1) * (2 * n)) (mid + (2 * ix) + (iz + 1) * (2 * n))
  let s ← putHex s (bot + (ix + 1) + iz * (n + 1)) (top + (3 * ix + 3) + iz * (3 * n + 1))
      (top + (3 * ix + 2) + iz * (3 * n + 1)) (mid + (2 * ix + 1) + iz * (2 * n))
      (bot + (ix + 1) + (iz + 1) * (n + 1)) (top + (3 * ix + 3) + (iz + 1) * (3 * n + 1))
      (top + (3 * ix + 2) + (iz + 1) * (3 * n + 1)) (mid + (2 * ix + 1) + (iz + 1) * (2 * n))
  let s ← putHex s (mid + (2 * ix) + iz * (2 * n)) (mid + (2 * ix + 1) + iz * (2 * n))
      (top + (3 * ix + 2) + iz * (3 * n + 1)) (top + (3 * ix + 1) + iz * (3 * n + 1))
      (mid + (2 * ix) + (iz + 1) * (2 * n)) (mid + (2 * ix + 1) + (iz + 1) * (2 * n))
      (top + (3 * ix + 2) + (iz + 1) * (3 * n + 1)) (top + (3 * ix + 1) + (iz + 1) * (3 * n + 1))
  putHex s (bot + ix + iz * (n + 1)) (mid + (2 * ix) + iz * (2 * n))
      (top + (3 * ix + 1) + iz * (3 * n + 1)) (top + (3 * ix) + iz * (3 * n + 1))
      (bot + ix + (iz + 1) * (n + 1)) (mid + (2 * ix) + (iz + 1) * (2 * n))
      (top + (3 * ix + 1) + (iz + 1) * (3 * n + 1)) (top + (3 * ix) + (iz + 1) * (3 * n + 1))

/-- one block of a layer that coarsens in x-direction (above the middle), MeshHex8.h:1115-1154 -/
def connXAbove (bot mid top n : Nat) (s : Ten Nat × Nat) (iz ix : Nat) : Res (Ten Nat × Nat) := do
  let s ← putHex s (bot + (3 * ix) + iz * (3 * n + 1)) (bot + (3 * ix + 1) + iz * (3 * n + 1))
      (mid + (2 * ix) + iz * (2 * n)) (top + ix + iz * (n + 1))
      (bot + (3 * ix) + (iz + 1) * (3 * n + 1)) (bot + (3 * ix + 1) + (iz + 1) * (3 * n + 1))
      (mid + (2 * ix) + (iz + 1) * (2 * n)) (top + ix + (iz + 1) * (n + 1))
  let s ← putHex s (bot + (3 * ix + 1) + iz * (3 * n + 1)) (bot + (3 * ix + 2) + iz * (3 * n + 1))
      (mid + (2 * ix + 1) + iz * (2 * n)) (mid + (2 * ix) + iz * (2 * n))
      (bot + (3 * ix + 1) + (iz + 1) * (3 * n + 1)) (bot + (3 * ix + 2) + (iz + 1) * (3 * n + 1))
      (mid + (2 * ix + 1) + (iz + 1) * (2 * n)) (mid + (2 * ix) + (iz + 1) * (2 * n))
  let s ← putHex s (bot + (3 * ix + 2) + iz * (3 * n + 1)) (bot + (3 * ix + 3) + iz * (3 * n + 1))
      (top + (ix + 1) + iz * (n + 1)) (mid + (2 * ix + 1) + iz * (2 * n))
      (bot + (3 * ix + 2) + (iz + 1) * (3 * n + 1)) (bot + (3 * ix + 3) + (iz + 1) * (3 * n + 1))
      (top + (ix + 1) + (iz + 1) * (n + 1)) (mid + (2 * ix + 1) + (iz + 1) * (2 * n))
  putHex s (mid + (2 * ix) + iz * (2 * n)) (mid + (2 * ix + 1) + iz * (2 * n))
      (top + (ix + 1) + iz * (n + 1)) (top + ix + iz * (n + 1))
      (mid + (2 * ix) + (iz + 1) * (2 * n)) (mid + (2 * ix + 1) + (iz + 1) * (2 * n))
      (top + (ix + 1) + (iz + 1) * (n + 1)) (top + ix + (iz + 1) * (n + 1))

/-- one block of a layer that refines in z-direction (below the middle), MeshHex8.h:1163-1202 -/
def connZBelow (bot mid top n : Nat) (s : Ten Nat × Nat) (iz ix : Nat) : Res (Ten Nat × Nat) := do
  let s ← putHex s (bot + ix + iz * (n + 1)) (bot + ix + (iz + 1) * (n + 1))
      (bot + (ix + 1) + (iz + 1) * (n + 1)) (bot + (ix + 1) + iz * (n + 1))
      (mid + ix + 2 * iz * (n + 1)) (mid + ix + (2 * iz + 1) * (n + 1))
      (mid + (ix + 1) + (2 * iz + 1) * (n + 1)) (mid + (ix + 1) + 2 * iz * (n + 1))
  let s ← putHex s (mid + ix + (2 * iz + 1) * (n + 1)) (mid + (ix + 1) + (2 * iz + 1) * (n + 1))
      (top + (ix + 1) + (3 * iz + 2) * (n + 1)) (top + ix + (3 * iz + 2) * (n + 1))
      (bot + ix + (iz + 1) * (n + 1)) (bot + (ix + 1) + (iz + 1) * (n + 1))
      (top + (ix + 1) + (3 * iz + 3) * (n + 1)) (top + ix + (3 * iz + 3) * (n + 1))
  let s ← putHex s (mid + ix + (2 * iz) * (n + 1)) (mid + (ix + 1) + (2 * iz) * (n + 1))
      (top + (ix + 1) + (3 * iz + 1) * (n + 1)) (top + ix + (3 * iz + 1) * (n + 1))
      (mid + ix + (2 * iz + 1) * (n + 1)) (mid + (ix + 1) + (2 * iz + 1) * (n + 1))
      (top + (ix + 1) + (3 * iz + 2) * (n + 1)) (top + ix + (3 * iz + 2) * (n + 1))
  putHex s (bot + ix + iz * (n + 1)) (bot + (ix + 1) + iz * (n + 1))
      (top + (ix + 1) + (3 * iz) * (n + 1)) (top + ix + (3 * iz) * (n + 1))
      (mid + ix + (2 * iz) * (n + 1)) (mid + (ix + 1) + (2 * iz) * (n + 1))
      (top + (ix + 1) + (3 * iz + 1) * (n + 1)) (top + ix + (3 * iz + 1) * (n + 1))

/-- one block of a layer that coarsens in z-direction (above the middle), MeshHex8.h:1211-1250 -/
def connZAbove (bot mid top n : Nat) (s : Ten Nat × Nat) (iz ix : Nat) : Res (Ten Nat × Nat) := do
  let s ← putHex s (bot + ix + (3 * iz) * (n + 1)) (bot + (ix + 1) + (3 * iz) * (n + 1))
      (top + (ix + 1) + iz * (n + 1)) (top + ix + iz * (n + 1))
      (bot + ix + (3 * iz + 1) * (n + 1)) (bot + (ix + 1) + (3 * iz + 1) * (n + 1))
      (mid + (ix + 1) + (2 * iz) * (n + 1)) (mid + ix + (2 * iz) * (n + 1))
  let s ← putHex s (bot + ix + (3 * iz + 1) * (n + 1)) (bot + (ix + 1) + (3 * iz + 1) * (n + 1))
      (mid + (ix + 1) + (2 * iz) * (n + 1)) (mid + ix + (2 * iz) * (n + 1))
      (bot + ix + (3 * iz + 2) * (n + 1)) (bot + (ix + 1) + (3 * iz + 2) * (n + 1))
      (mid + (ix + 1) + (2 * iz + 1) * (n + 1)) (mid + ix + (2 * iz + 1) * (n + 1))
  let s ← putHex s (bot + ix + (3 * iz + 2) * (n + 1)) (bot + (ix + 1) + (3 * iz + 2) * (n + 1))
      (mid + (ix + 1) + (2 * iz + 1) * (n + 1)) (mid + ix + (2 * iz + 1) * (n + 1))
      (bot + ix + (3 * iz + 3) * (n + 1)) (bot + (ix + 1) + (3 * iz + 3) * (n + 1))
      (top + (ix + 1) + (iz + 1) * (n + 1)) (top + ix + (iz + 1) * (n + 1))
  putHex s (mid + ix + (2 * iz) * (n + 1)) (mid + (ix + 1) + (2 * iz) * (n + 1))
      (top + (ix + 1) + iz * (n + 1)) (top + ix + iz * (n + 1))
      (mid + ix + (2 * iz + 1) * (n + 1)) (mid + (ix + 1) + (2 * iz + 1) * (n + 1))
      (top + (ix + 1) + (iz + 1) * (n + 1)) (top + ix + (iz + 1) * (n + 1))

/-- `for (size_t iz = 0; iz < m; ++iz) for (size_t ix = 0; ix < n; ++ix)`, e.g. MeshHex8.h:1048-1049 -/
def blocks (n m : Nat) (f : Ten Nat × Nat → Nat → Nat → Res (Ten Nat × Nat)) (s : Ten Nat × Nat) :
    Res (Ten Nat × Nat) :=
  forEach (it1 m) (fun s iz => forEach (it1 n) (fun s ix => f s iz ix) s) s

/-- body of the loop over the layers, MeshHex8.h:1042-1253 -/
def connLayer (M : FineLayer3 α) (N : Nat) (s : Ten Nat × Nat) (iy : Nat) : Res (Ten Nat × Nat) := do
  let bot ← M.startNode.get [iy]
  let d ← M.nnd.get [iy]
  let mid := bot + d
  let top ← M.startNode.get [iy + 1]
  let r ← M.refine.get [iy]
  let n ← M.layer_nelx.get [iy]
  let m ← M.layer_nelz.get [iy]
  if r = -1 then blocks n m (connNormal bot top n) s
  else if r = 0 ∧ iy ≤ (N - 1) / 2 then blocks n m (connXBelow bot mid top n) s
  else if r = 0 ∧ (N - 1) / 2 < iy then blocks n m (connXAbove bot mid top n) s
  else if r = 2 ∧ iy ≤ (N - 1) / 2 then blocks n m (connZBelow bot mid top n) s
  else if r = 2 ∧ (N - 1) / 2 < iy then blocks n m (connZAbove bot mid top n) s
  else .ok s

/-- `conn_impl`, MeshHex8.h:1029-1257 -/
def conn (M : FineLayer3 α) : Res (Ten Nat) := do
  let N := M.nhy.size
  let s ← forEach (it1 N) (connLayer M N) (Ten.empty [M.nelem, M.nne], 0)
  .ok s.1

end FineLayer3
end GF
