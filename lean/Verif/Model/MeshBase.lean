import Verif.Model.Renumber
import Mathlib.Algebra.Field.Defs
import Mathlib.Data.Nat.Cast.Defs

/-! Model of `RegularBase`, `RegularBase2d` (Mesh.h:180-546) and of the array generators the mesh
classes use. -/

namespace GF

variable {α : Type}

/-- `xt::arange<size_t>(a, b)` (library function).  Simplification: for `b < a` the C++ expression wraps
around; every caller is only specified for `a <= b`. -/
def arange (a b : Nat) : Ten Nat := Ten.of [b - a] fun ix => a + ix.getD 0 0

/-- entry-wise affine expression `arr * s + o` on an index array, e.g. MeshQuad4.h:145 -/
def affine (t : Ten Nat) (s o : Nat) : Ten Nat := ⟨t.shape, fun ix => (t.v ix).map fun a => a * s + o⟩

/-- `xt::linspace<double>(a, b, n)` (library function): `a + i * (b - a) / max(1, n - 1)` -/
def linspace [DivisionRing α] (a b : α) (n : Nat) : Ten α :=
  Ten.of [n] fun ix => a + (b - a) / ((max 1 (n - 1) : Nat) : α) * ((ix.getD 0 0 : Nat) : α)

/-- `arr.size()` -/
def Ten.size (t : Ten α) : Nat := t.shape.foldl (· * ·) 1

/-- `xt::view(ret, xt::range(i, i + n), col) = src`, where `src` has `n` entries.  Simplification:
the broadcasting of a one-entry `src` is not modelled (an exception is reported instead). -/
def assignCol (ret : Ten α) (i n col : Nat) (src : Ten α) : Res (Ten α) :=
  if src.shape = [n] then
    forEach (it1 n) (fun ret k => do
      let a ← src.get [k]
      ret.set [i + k, col] a) ret
  else .throws

/-- `GooseFEM::Mesh::dofs(nnode, ndim)`, Mesh.h:93-96 -/
def meshDofs (nnode ndim : Nat) : Ten Nat :=
  Ten.of [nnode, ndim] fun ix => ix.getD 0 0 * ndim + ix.getD 1 0

/-- `RegularBase::dofsPeriodic()`, Mesh.h:291-303, for given `nnode()`, `ndim()`, `nodesPeriodic()`.  The
view on the left is assigned from a temporary copy of the view on the right (xtensor semantics). -/
def dofsPeriodic (nnode ndim : Nat) (nodePer : Ten Nat) : Res (Ten Nat) := do
  let n := nodePer.shape.headD 0
  let ret ← forEach (it1 ndim) (fun ret j => do
    let tmp ← mapRes (fun k => do
      let i ← nodePer.get [k, 0]
      ret.get [i, j]) (it1 n)
    forEach (it1 n) (fun ret k => do
      let d ← nodePer.get [k, 1]
      let a ← lget tmp k
      ret.set [d, j] a) ret) (meshDofs nnode ndim)
  renumber ret

/-- The part of the interface of a derived class that `RegularBase2d::nodesPeriodic_impl` uses. -/
structure Edges2d where
  bottomOpen : Res (Ten Nat)
  topOpen : Res (Ten Nat)
  leftOpen : Res (Ten Nat)
  rightOpen : Res (Ten Nat)
  bottomLeft : Nat
  bottomRight : Nat
  topLeft : Nat
  topRight : Nat

/-- `RegularBase2d::nodesPeriodic_impl()`, Mesh.h:511-540 -/
def nodesPeriodic2d (E : Edges2d) : Res (Ten Nat) := do
  let bot ← E.bottomOpen
  let top ← E.topOpen
  let lft ← E.leftOpen
  let rgt ← E.rightOpen
  let ret := Ten.empty [bot.size + lft.size + 3, 2]
  let ret ← ret.set [0, 0] E.bottomLeft
  let ret ← ret.set [0, 1] E.bottomRight
  let ret ← ret.set [1, 0] E.bottomLeft
  let ret ← ret.set [1, 1] E.topRight
  let ret ← ret.set [2, 0] E.bottomLeft
  let ret ← ret.set [2, 1] E.topLeft
  let i := 3
  let ret ← assignCol ret i bot.size 0 bot
  let ret ← assignCol ret i bot.size 1 top
  let i := i + bot.size
  let ret ← assignCol ret i lft.size 0 lft
  assignCol ret i lft.size 1 rgt

end GF
