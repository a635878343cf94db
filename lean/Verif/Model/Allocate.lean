import Verif.Model.Element

/-! Model of `include/GooseFEM/Allocate.h`. -/

namespace GF.Allocate
variable {α : Type}

/-- `arr.strides()` of a row-major xtensor container: the number of cells of the trailing dimensions, and zero for a
dimension of extent one (library function `xt::compute_strides`). -/
def strides : List Nat → List Nat
  | [] => []
  | n :: sh => (if n = 1 then 0 else sizeOf' sh) :: strides sh

/-- offset of a multi-index for given strides: `Σ_k ix[k] * strides[k]` -/
def offset : List Nat → List Nat → Nat
  | i :: ix, s :: st => i * s + offset ix st
  | _, _ => 0

/-- cell `ix` of `xt::strided_view(arg, shape, strides, 0)`: the entry of the storage of `arg` at that offset (library
function) -/
def stridedGet (arg : Ten α) (st ix : List Nat) : Res α :=
  arg.get (unravel arg.shape (offset ix st))

/-- `detail::asTensor_write::impl`, Allocate.h:68-81 and 87-103 (both versions do the same; assertions off): the strides
are padded with zeros, then `ret = strided_view` assigns cell by cell. -/
def asTensor_write (arg ret : Ten α) : Res (Ten α) :=
  let st := strides arg.shape ++ List.replicate (ret.shape.length - arg.shape.length) 0
  forEach (indices ret.shape) (fun t ix => do
    let a ← stridedGet arg st ix
    t.set ix a) ret

/-- `asTensor(arg, ret)`, Allocate.h:152-156 -/
def asTensor (arg ret : Ten α) : Res (Ten α) := asTensor_write arg ret

/-- `AsTensor(arg, shape)`, Allocate.h:166-180 with `asTensor_allocate` 108-141 -/
def AsTensor (arg : Ten α) (shape : List Nat) : Res (Ten α) :=
  asTensor_write arg (Ten.empty (arg.shape ++ shape))

/-- `AsTensor<rank>(arg, n)` and `AsTensor(rank, arg, n)`, Allocate.h:191-214 -/
def AsTensorRank (rank : Nat) (arg : Ten α) (n : Nat) : Res (Ten α) :=
  AsTensor arg (List.replicate rank n)

/-- `as3d`, Allocate.h:222-243 (assertions on: two dimensions, between 1 and 3 columns; the assignment to the view is
done cell by cell) -/
def as3d [Zero α] (arg : Ten α) : Res (Ten α) :=
  match arg.shape with
  | [n, k] =>
    if k = 0 ∨ 4 ≤ k then .throws
    else if k = 3 then .ok arg
    else if k = 2 then
      forEach (it2 n 2) (fun t ij => do
        let a ← arg.get [ij.1, ij.2]
        t.set [ij.1, ij.2] a) (Ten.full [n, 3] 0)
    else
      forEach (it1 n) (fun t i => do
        let a ← arg.get [i, 0]
        t.set [i, 0] a) (Ten.full [n, 3] 0)
  | _ => .throws

end GF.Allocate
