import Verif.Model.FineLayer

/-! Model of the element selections of `Mesh::Quad4::FineLayer` (MeshQuad4.h:309-535). -/

namespace GF
namespace FineLayer
variable {α : Type}

/-- `xt::cumsum(t)` (library function) of a 1-d array, as a list -/
def cumsum (t : Ten Nat) : Res (List Nat) := do
  let l ← t.flat
  .ok ((List.range l.length).map fun i => (l.take (i + 1)).foldl (· + ·) 0)

/-- `xt::argmax(b)()` (library function) of an array of booleans: the first position of the largest value, i.e.
the first `true`, or `0` if there is none -/
def argmaxB (l : List Nat) (p : Nat → Bool) : Nat :=
  if l.findIdx p < l.length then l.findIdx p else 0

/-- number of elements of layer `i` in the selected columns, MeshQuad4.h:364-369 and 380-387.  `size_t`
underflow of `xu - xl` is modelled as undefined (the array would have about `2^64` elements). -/
def gridCount (M : FineLayer α) (xl xu hx i : Nat) : Res Nat :=
  if xu < xl then .ub
  else do
    let w ← M.nhx.get [i]
    let r ← M.refine.get [i]
    if w = 0 then .ub else .ok (if r ≠ -1 then (xu - xl) * hx / w * 4 else (xu - xl) * hx / w)

/-- one iteration of the loop that writes the output, MeshQuad4.h:379-393 -/
def gridLayer (M : FineLayer α) (xl xu hx : Nat) (st : Ten Nat × Nat) (i : Nat) : Res (Ten Nat × Nat) := do
  let n ← gridCount M xl xu hx i
  let w ← M.nhx.get [i]
  let r ← M.refine.get [i]
  let s ← M.startElem.get [i]
  let h := if r ≠ -1 then hx * 4 else hx
  let ret ← assignRange st.1 st.2 (st.2 + n) (fun k => .ok (s + xl * h / w + k))
  .ok (ret, st.2 + n)

/-- the given start and stop if there are two numbers, `[0, all)` otherwise, MeshQuad4.h:322-342 -/
def pickRange (l : List Nat) (all : Nat) : Nat × Nat :=
  match l with
  | [a, b] => (a, b)
  | _ => (0, all)

/-- `elementgrid_ravel(start_stop_rows, start_stop_cols)`, MeshQuad4.h:314-398.  The `GOOSEFEM_ASSERT`s (off by
default) are not modelled; `std::max` is the maximum of two numbers. -/
def elementgrid_ravel (M : FineLayer α) (rows cols : List Nat) : Res (Ten Nat) := do
  let ny ← M.nely
  let nx ← M.nelx
  let r := pickRange rows ny
  let c := pickRange cols nx
  if r.1 = r.2 ∨ c.1 = c.2 then .ok (Ten.empty [0])
  else do
    let H ← cumsum M.nhy
    let yl := if 0 < r.1 then argmaxB H (fun y => decide (r.1 < y)) else 0
    let yu := argmaxB H (fun y => decide (r.2 ≤ y))
    let a ← M.nhx.get [yl]
    let b ← M.nhx.get [yu]
    let hx := max a b
    if hx = 0 then .ub
    else do
      let xl := (c.1 - c.1 % hx) / hx
      let xu := (c.2 - c.2 % hx) / hx
      let N ← forEach (itFrom yl (yu + 1)) (fun (N : Nat) i => do
        let n ← gridCount M xl xu hx i
        .ok (N + n)) 0
      let st ← forEach (itFrom yl (yu + 1)) (gridLayer M xl xu hx) (Ten.empty [N], 0)
      .ok st.1

/-- the layer of element `e`: `xt::argmin(m_startElem <= e)() - 1`, MeshQuad4.h:414 and 487: the position of the
first layer that starts after `e` (`0` if there is none), minus one in `size_t`.  An underflow is modelled as
undefined: the result is used as an index. -/
def layerOf (M : FineLayer α) (e : Nat) : Res Nat := do
  let l ← M.startElem.flat
  let p := argmaxB l (fun s => decide (e < s))
  if p = 0 then .ub else .ok (p - 1)

/-- `xt::view(map, xt::keep(ret))` -/
def keep (map ret : Ten Nat) : Res (Ten Nat) := do
  let l ← ret.flat
  let m ← mapRes (fun i => map.get [i]) l
  .ok (Ten.of [m.length] fun ix => m.getD (ix.getD 0 0) 0)

/-- widening of the selected columns `[xl, xu)` to whole coarse elements of width `dx`, MeshQuad4.h:436-461 (with
`left = right = size`) and 495-521: columns around `mid`, `left` to the left, `right` to the right, of `nel`
columns.  The subtractions `mid - xl` and `xu - mid` are in `size_t`: `xu < mid` would wrap to a large number, so
that the test `xu - mid < right` fails. -/
def window (nel dx mid left right : Nat) : Nat × Nat :=
  let xl := if left ≤ mid then mid - left else 0
  let xu := if mid + right < nel then mid + right + 1 else nel
  let xl := xl - xl % dx
  let xu := xu - xu % dx
  let xl := if mid - xl < left then (if xl < dx then 0 else xl - dx) else xl
  let xu := if mid ≤ xu ∧ xu - mid < right then (if nel - dx < xu then nel else xu + dx) else xu
  (xl, xu)

/-- column to which the element is moved, and the number of coarse elements by which the mesh has to be rolled,
MeshQuad4.h:432-435 and 491-494; `ex` is the column of the element in its layer of `nel` elements -/
def recentre (nel step ex : Nat) : Nat × Nat :=
  let mid := (nel / step - nel / step % 2) / 2 * step + ex % step
  (mid, (nel - (nel - mid + ex) % nel) / step)

/-- height below layer `l`, MeshQuad4.h:424-427 and 523-526 -/
def below (H : List Nat) (l : Nat) : Res Nat := if 0 < l then lget H (l - 1) else .ok 0

/-- `elementgrid_around_ravel(e, size, periodic)`, MeshQuad4.h:409-469.  `GOOSEFEM_WIP_ASSERT` throws.  The
subtractions `hy - size - 1` (in `size_t`) can underflow: then `H > ...` is nowhere true and `xt::argmax`
returns `0`. -/
def elementgrid_around_ravel (M : FineLayer α) (e size : Nat) (periodic : Bool) : Res (Ten Nat) :=
  if periodic = false then .throws
  else do
    let iy ← M.layerOf e
    let nel ← M.layer_nelx.get [iy]
    if iy ≠ (M.nhy.size - 1) / 2 then .throws
    else do
      let H ← cumsum M.nhy
      let top ← lget H (H.length - 1)
      if top ≤ 2 * size then .ok (arange 0 M.nelem)
      else do
        let hy ← lget H iy
        let l := if size + 1 ≤ hy then argmaxB H (fun y => decide (hy - size - 1 < y)) else 0
        let u := argmaxB H (fun y => decide (hy + size ≤ y))
        let lh ← below H l
        let uh ← lget H u
        let step ← amax M.nhx
        let s ← M.startElem.get [iy]
        if step = 0 ∨ nel = 0 then .ub
        else do
          let mr := recentre nel step (e - s)
          let dx ← M.nhx.get [u]
          if dx = 0 then .ub
          else do
            let x := window nel dx mr.1 size size
            let ret ← M.elementgrid_ravel [lh, uh] [x.1, x.2]
            let map ← M.roll mr.2
            keep map ret

/-- `elementgrid_leftright(e, left, right, periodic)`, MeshQuad4.h:482-532 -/
def elementgrid_leftright (M : FineLayer α) (e left right : Nat) (periodic : Bool) : Res (Ten Nat) :=
  if periodic = false then .throws
  else do
    let iy ← M.layerOf e
    let nel ← M.layer_nelx.get [iy]
    if iy ≠ (M.nhy.size - 1) / 2 then .throws
    else do
      let step ← amax M.nhx
      let s ← M.startElem.get [iy]
      if step = 0 ∨ nel = 0 then .ub
      else do
        let mr := recentre nel step (e - s)
        let dx ← M.nhx.get [iy]
        if dx = 0 then .ub
        else do
          let x := window nel dx mr.1 left right
          let H ← cumsum M.nhy
          let yl ← below H iy
          let yu ← lget H iy
          let ret ← M.elementgrid_ravel [yl, yu] [x.1, x.2]
          let map ← M.roll mr.2
          keep map ret

end FineLayer
end GF
