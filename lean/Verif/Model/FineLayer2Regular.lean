import Verif.Model.FineLayerGrid
import Verif.Model.MeshRegular2d
import Verif.Model.Incidence
import Mathlib.Algebra.Field.Basic

/-! Model of `GooseFEM::Mesh::Quad4::Map::FineLayer2Regular`, `include/GooseFEM/MeshQuad4.h`:1359-1786.

Simplifications: a view with a range outside of its array is reported as `ub` (also if it is not read); the temporary
`el_old` is replaced by its entries, `el_old(ix) = start(iy) + ix` (line 1412) and
`el_old(ix, q) = start(iy) + ix * 4 + q` (lines 1435-1436, 1543-1544).  The subtractions of the
columns, e.g. `nhx - j - 1`, never go below zero (`j < nhy / 2` and `nhy / 2 = nhx / 3`). -/

namespace GF
variable {α : Type}

/-- the maps under construction: `m_elem_regular` and `m_frac_regular`, MeshQuad4.h:1784-1785 -/
structure FLMap (α : Type) where
  elem : List (List Nat)
  frac : List (List α)

/-- members of `FineLayer2Regular`, MeshQuad4.h:1782-1785 -/
structure FineLayer2Regular (α : Type) where
  finelayer : FineLayer α
  regular : Regular2d α
  map : FLMap α

namespace FineLayer2Regular
open FineLayer (itFrom cumsum)

/-- `m_elem_regular[e].push_back(i); m_frac_regular[e].push_back(f);`, e.g. MeshQuad4.h:1423-1424 -/
def push (S : FLMap α) (e i : Nat) (f : α) : Res (FLMap α) := do
  let le ← lget S.elem e
  let el ← lset S.elem e (le ++ [i])
  let lf ← lget S.frac e
  let fr ← lset S.frac e (lf ++ [f])
  .ok ⟨el, fr⟩

/-- `xt::view(grid, xt::range(r0, r0 + nr), xt::range(c0, c0 + nc))` -/
structure View where
  r0 : Nat
  nr : Nat
  c0 : Nat
  nc : Nat

/-- `xt::view(v, xt::range(a, b), xt::range(c, d))` of a view -/
def View.sub (v : View) (a b c d : Nat) : Res View :=
  if a ≤ b ∧ b ≤ v.nr ∧ c ≤ d ∧ d ≤ v.nc then .ok ⟨v.r0 + a, b - a, v.c0 + c, d - c⟩ else .ub

/-- read an entry of a view -/
def View.get (grid : Ten Nat) (v : View) (i j : Nat) : Res Nat :=
  if i < v.nr ∧ j < v.nc then grid.get [v.r0 + i, v.c0 + j] else .ub

section
variable [Field α]

/-- all entries of a view with fraction one: `for (auto& i : e) { ... }`, MeshQuad4.h:1422-1425, 1471-1474, 1500-1503,
1530-1533, 1583-1586, 1599-1602, 1630-1633 -/
def full (grid : Ten Nat) (v : View) (e : Nat) (S : FLMap α) : Res (FLMap α) :=
  forEach (it2 v.nr v.nc) (fun S ij => do
    let i ← v.get grid ij.1 ij.2
    push S e i 1) S

/-- entries `[a, b)` of a row with fraction one -/
def part (grid : Ten Nat) (v : View) (e a b : Nat) (S : FLMap α) : Res (FLMap α) :=
  forEach (itFrom a b) (fun S k => do
    let i ← v.get grid 0 k
    push S e i 1) S

/-- one entry of a row with fraction a half -/
def half (grid : Ten Nat) (v : View) (e k : Nat) (S : FLMap α) : Res (FLMap α) := do
  let i ← v.get grid 0 k
  push S e i (1 / 2)

/-- a row of which the first and the last entry are cut, MeshQuad4.h:1450-1459, 1562-1571 -/
def cutBoth (grid : Ten Nat) (v : View) (e : Nat) (S : FLMap α) : Res (FLMap α) := do
  let S ← half grid v e 0 S
  let S ← part grid v e 1 (v.nc - 1) S
  half grid v e (v.nc - 1) S

/-- a row of which the last entry is cut, MeshQuad4.h:1483-1489, 1610-1616 -/
def cutLast (grid : Ten Nat) (v : View) (e : Nat) (S : FLMap α) : Res (FLMap α) := do
  let S ← part grid v e 0 (v.nc - 1) S
  half grid v e (v.nc - 1) S

/-- a row of which the first entry is cut, MeshQuad4.h:1513-1519, 1642-1648 -/
def cutFirst (grid : Ten Nat) (v : View) (e : Nat) (S : FLMap α) : Res (FLMap α) := do
  let S ← half grid v e 0 S
  part grid v e 1 v.nc S

/-- one block of a normal layer, MeshQuad4.h:1418-1425 -/
def normalBlock (grid : Ten Nat) (v : View) (e : Nat) (S : FLMap α) : Res (FLMap α) := full grid v e S

/-- one block of a transition layer below the middle, MeshQuad4.h:1442-1535: `nhx`, `nhy` the size of the block, `e` its
first element -/
def belowBlock (grid : Ten Nat) (v : View) (nhx nhy e : Nat) (S : FLMap α) : Res (FLMap α) := do
  -- bottom: trapezoid, 1446-1461
  let S ← forEach (it1 (nhy / 2)) (fun S j => do
    let r ← v.sub j (j + 1) j (nhx - j)
    cutBoth grid r (e + 0) S) S
  -- top, middle: square, 1464-1475
  let r ← v.sub (nhy / 2) nhy (1 * nhx / 3) (2 * nhx / 3)
  let S ← full grid r (e + 2) S
  -- left, 1478-1505
  let S ← forEach (it1 (nhy / 2)) (fun S j => do
    let r ← v.sub j (j + 1) 0 (j + 1)
    cutLast grid r (e + 3) S) S
  let r ← v.sub (nhy / 2) nhy (0 * nhx / 3) (1 * nhx / 3)
  let S ← full grid r (e + 3) S
  -- right, 1508-1535
  let S ← forEach (it1 (nhy / 2)) (fun S j => do
    let r ← v.sub j (j + 1) (nhx - j - 1) nhx
    cutFirst grid r (e + 1) S) S
  let r ← v.sub (nhy / 2) nhy (2 * nhx / 3) (3 * nhx / 3)
  full grid r (e + 1) S

/-- one block of a transition layer above the middle, MeshQuad4.h:1550-1650 -/
def aboveBlock (grid : Ten Nat) (v : View) (nhx nhy e : Nat) (S : FLMap α) : Res (FLMap α) := do
  -- top: trapezoid, 1554-1573
  let S ← forEach (it1 (nhy / 2)) (fun S j => do
    let r ← v.sub (nhy / 2 + j) (nhy / 2 + j + 1) (1 * nhx / 3 - j - 1) (2 * nhx / 3 + j + 1)
    cutBoth grid r (e + 3) S) S
  -- bottom, middle: square, 1576-1587
  let r ← v.sub 0 (nhy / 2) (1 * nhx / 3) (2 * nhx / 3)
  let S ← full grid r (e + 1) S
  -- left, 1590-1618
  let r ← v.sub 0 (nhy / 2) (0 * nhx / 3) (1 * nhx / 3)
  let S ← full grid r (e + 0) S
  let S ← forEach (it1 (nhy / 2)) (fun S j => do
    let r ← v.sub (nhy / 2 + j) (nhy / 2 + j + 1) 0 (1 * nhx / 3 - j)
    cutLast grid r (e + 0) S) S
  -- right, 1621-1650
  let r ← v.sub 0 (nhy / 2) (2 * nhx / 3) (3 * nhx / 3)
  let S ← full grid r (e + 2) S
  forEach (it1 (nhy / 2)) (fun S j => do
    let r ← v.sub (nhy / 2 + j) (nhy / 2 + j + 1) (2 * nhx / 3 + j) nhx
    cutFirst grid r (e + 2) S) S

/-- the blocks of layer `iy`, MeshQuad4.h:1405-1652: `y0`, `y1` the first row and the end of the layer -/
def layer (M : FineLayer α) (grid : Ten Nat) (nely iy y0 y1 : Nat) (S : FLMap α) : Res (FLMap α) := do
  let nhx ← M.nhx.get [iy]
  let nhy ← M.nhy.get [iy]
  let nelx ← M.layer_nelx.get [iy]
  let start ← M.startElem.get [iy]
  let refine ← M.refine.get [iy]
  let v : View := ⟨0, grid.shape.getD 0 0, 0, grid.shape.getD 1 0⟩
  let elnew ← v.sub y0 y1 0 v.nc
  if refine = -1 then
    forEach (it1 nelx) (fun S ix => do
      let b ← elnew.sub 0 elnew.nr (ix * nhx) ((ix + 1) * nhx)
      normalBlock grid b (start + ix) S) S
  else if refine = 0 ∧ iy ≤ (nely - 1) / 2 then
    forEach (it1 nelx) (fun S ix => do
      let b ← elnew.sub 0 elnew.nr (ix * nhx) ((ix + 1) * nhx)
      belowBlock grid b nhx nhy (start + ix * 4) S) S
  else if refine = 0 ∧ (nely - 1) / 2 < iy then
    forEach (it1 nelx) (fun S ix => do
      let b ← elnew.sub 0 elnew.nr (ix * nhx) ((ix + 1) * nhx)
      aboveBlock grid b nhx nhy (start + ix * 4) S) S
  else .ok S

/-- constructor, MeshQuad4.h:1368-1654 -/
def new (M : FineLayer α) : Res (FineLayer2Regular α) := do
  let nx ← amax M.layer_nelx
  let l ← M.nhy.flat
  let R := Quad4.Regular.new nx (l.foldl (· + ·) 0) M.h
  let grid ← Quad4.Regular.elementgrid R
  let cs ← cumsum M.nhy
  let cum := 0 :: cs
  let nely := M.nhy.size
  let S ← forEach (it1 nely) (fun S iy => do
    let y0 ← lget cum iy
    let y1 ← lget cum (iy + 1)
    layer M grid nely iy y0 y1 S) ⟨List.replicate M.nelem [], List.replicate M.nelem []⟩
  .ok ⟨M, R, S⟩

/-- `mapToRegular(data)`, MeshQuad4.h:1762-1779, with any number of trailing dimensions.  Simplification: `T` is the type of the
fractions (no conversion). -/
def mapToRegular (F : FineLayer2Regular α) (data : Ten α) : Res (Ten α) :=
  match data.shape with
  | _ :: rest =>
    forEach (it1 F.finelayer.nelem) (fun ret e => do
      let le ← lget F.map.elem e
      forEach (it1 le.length) (fun ret i => do
        let k ← lget le i
        let lf ← lget F.map.frac e
        let f ← lget lf i
        forEach (indices rest) (fun ret ix => do
          let d ← data.get (e :: ix)
          ret.addAt (k :: ix) (f * d)) ret) ret) (Ten.full (F.regular.nelem :: rest) 0)
  | [] => .ub

end

end FineLayer2Regular
end GF
