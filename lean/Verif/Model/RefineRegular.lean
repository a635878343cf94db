import Verif.Model.MeshRegular2d

/-! Model of `GooseFEM::Mesh::Quad4::Map::RefineRegular`, `include/GooseFEM/MeshQuad4.h`:1145-1352.  Element data have
any number of trailing dimensions. -/

namespace GF
variable {α : Type}

/-- members of `RefineRegular`, MeshQuad4.h:1347-1351 -/
structure RefineRegular (α : Type) where
  coarse : Regular2d α
  fine : Regular2d α
  nx : Nat
  ny : Nat
  c2f : Ten Nat

namespace RefineRegular

/-- the assignment of one row of the map, MeshQuad4.h:1168-1170:
`xt::flatten` of the block `[i * ny, (i + 1) * ny) x [j * nx, (j + 1) * nx)` of the fine grid (row-major) -/
def block (gc gf : Ten Nat) (nx ny i j : Nat) (c2f : Ten Nat) : Res (Ten Nat) :=
  forEach (it2 ny nx) (fun c2f ab => do
    let e ← gc.get [i, j]
    let f ← gf.get [i * ny + ab.1, j * nx + ab.2]
    c2f.set [e, ab.1 * nx + ab.2] f) c2f

/-- constructor, MeshQuad4.h:1156-1173 -/
def new (mesh : Regular2d α) (nx ny : Nat) : Res (RefineRegular α) := do
  let fine := Quad4.Regular.new (nx * mesh.nelx) (ny * mesh.nely) mesh.h
  let gc ← Quad4.Regular.elementgrid mesh
  let gf ← Quad4.Regular.elementgrid fine
  let c2f ← forEach (it2 (gc.shape.getD 0 0) (gc.shape.getD 1 0)) (fun c2f ij => block gc gf nx ny ij.1 ij.2 c2f)
    (Ten.empty [mesh.nelem, nx * ny])
  .ok ⟨mesh, fine, nx, ny, c2f⟩

/-- the reduction of `xt::mean(d, 0)` and `xt::average(d, w, {0})` for one trailing index `ix`: the sum of `g` over
the entries `data(e, ix)` with `e` in row `i` of the map -/
def rowSum [Zero α] [Add α] (c2f : Ten Nat) (n i : Nat) (g : Nat → Res α) : Res α :=
  forEach (it1 n) (fun s k => do
    let e ← c2f.get [i, k]
    let d ← g e
    .ok (s + d)) 0

/-- `meanToCoarse(data)`, MeshQuad4.h:1261-1278 -/
def meanToCoarse [Field α] (R : RefineRegular α) (data : Ten α) : Res (Ten α) :=
  match data.shape, R.c2f.shape with
  | _ :: rest, [nc, n] =>
    forEach (it1 nc) (fun ret i =>
      forEach (indices rest) (fun ret ix => do
        let s ← rowSum R.c2f n i fun e => data.get (e :: ix)
        ret.set (i :: ix) (s / (n : α))) ret) (Ten.empty (nc :: rest))
  | _, _ => .ub

/-- `averageToCoarse(data, weights)`, MeshQuad4.h:1291-1312 -/
def averageToCoarse [Field α] (R : RefineRegular α) (data weights : Ten α) : Res (Ten α) :=
  match data.shape, R.c2f.shape with
  | _ :: rest, [nc, n] =>
    forEach (it1 nc) (fun ret i =>
      forEach (indices rest) (fun ret ix => do
        let s ← rowSum R.c2f n i fun e => do
          let d ← data.get (e :: ix)
          let w ← weights.get (e :: ix)
          .ok (d * w)
        let w ← rowSum R.c2f n i fun e => weights.get (e :: ix)
        ret.set (i :: ix) (s / w)) ret) (Ten.empty (nc :: rest))
  | _, _ => .ub

/-- `mapToFine(data)`, MeshQuad4.h:1327-1344 -/
def mapToFine (R : RefineRegular α) (data : Ten α) : Res (Ten α) :=
  match data.shape, R.c2f.shape with
  | _ :: rest, [nc, n] =>
    forEach (it2 nc n) (fun ret ei =>
      forEach (indices rest) (fun ret ix => do
        let f ← R.c2f.get [ei.1, ei.2]
        let d ← data.get (ei.1 :: ix)
        ret.set (f :: ix) d) ret) (Ten.empty (nc * n :: rest))
  | _, _ => .ub

end RefineRegular
end GF
