import Verif.Model.MeshBase

/-! Model of `Mesh::Quad4::Regular` (MeshQuad4.h:32-195) and `Mesh::Tri3::Regular` (MeshTri3.h:26-228). -/

namespace GF

/-- members common to the two classes, MeshQuad4.h:188-194, MeshTri3.h:221-227 -/
structure Regular2d (α : Type) where
  h : α
  nelx : Nat
  nely : Nat
  nelem : Nat
  nnode : Nat
  nne : Nat
  ndim : Nat

namespace Regular2d
variable {α : Type} [DivisionRing α]

/-- `coor_impl`, MeshQuad4.h:87-107 and (identical) MeshTri3.h:69-89 -/
def coor (M : Regular2d α) : Res (Ten α) := do
  let x := linspace 0 (M.h * (M.nelx : α)) (M.nelx + 1)
  let y := linspace 0 (M.h * (M.nely : α)) (M.nely + 1)
  let s ← forEach (it2 (M.nely + 1) (M.nelx + 1)) (fun (s : Ten α × Nat) p => do
    let a ← x.get [p.2]
    let ret ← s.1.set [s.2, 0] a
    let b ← y.get [p.1]
    let ret ← ret.set [s.2, 1] b
    .ok (ret, s.2 + 1)) (Ten.empty [M.nnode, M.ndim], 0)
  .ok s.1

end Regular2d

namespace Quad4.Regular
variable {α : Type}

/-- constructor, MeshQuad4.h:43-56 -/
def new (nelx nely : Nat) (h : α) : Regular2d α :=
  { h := h, nelx := nelx, nely := nely, ndim := 2, nne := 4,
    nnode := (nelx + 1) * (nely + 1), nelem := nelx * nely }

/-- `elementgrid`, MeshQuad4.h:63-66: `arange(nelem).reshape({nely, nelx})` -/
def elementgrid (M : Regular2d α) : Res (Ten Nat) :=
  if M.nely * M.nelx = M.nelem then
    .ok (Ten.of [M.nely, M.nelx] fun ix => ix.getD 0 0 * M.nelx + ix.getD 1 0)
  else .throws

/-- `conn_impl`, MeshQuad4.h:109-126 -/
def conn (M : Regular2d α) : Res (Ten Nat) := do
  let s ← forEach (it2 M.nely M.nelx) (fun (s : Ten Nat × Nat) p => do
    let iy := p.1
    let ix := p.2
    let ret ← s.1.set [s.2, 0] (iy * (M.nelx + 1) + ix)
    let ret ← ret.set [s.2, 1] (iy * (M.nelx + 1) + (ix + 1))
    let ret ← ret.set [s.2, 3] ((iy + 1) * (M.nelx + 1) + ix)
    let ret ← ret.set [s.2, 2] ((iy + 1) * (M.nelx + 1) + (ix + 1))
    .ok (ret, s.2 + 1)) (Ten.empty [M.nelem, M.nne], 0)
  .ok s.1

/-- MeshQuad4.h:128-131 -/
def nodesBottomEdge (M : Regular2d α) : Res (Ten Nat) := .ok (arange 0 (M.nelx + 1))
/-- MeshQuad4.h:133-136 -/
def nodesTopEdge (M : Regular2d α) : Res (Ten Nat) :=
  .ok (affine (arange 0 (M.nelx + 1)) 1 (M.nely * (M.nelx + 1)))
/-- MeshQuad4.h:138-141 -/
def nodesLeftEdge (M : Regular2d α) : Res (Ten Nat) :=
  .ok (affine (arange 0 (M.nely + 1)) (M.nelx + 1) 0)
/-- MeshQuad4.h:143-146 -/
def nodesRightEdge (M : Regular2d α) : Res (Ten Nat) :=
  .ok (affine (arange 0 (M.nely + 1)) (M.nelx + 1) M.nelx)
/-- MeshQuad4.h:148-151 -/
def nodesBottomOpenEdge (M : Regular2d α) : Res (Ten Nat) := .ok (arange 1 M.nelx)
/-- MeshQuad4.h:153-156 -/
def nodesTopOpenEdge (M : Regular2d α) : Res (Ten Nat) :=
  .ok (affine (arange 1 M.nelx) 1 (M.nely * (M.nelx + 1)))
/-- MeshQuad4.h:158-161 -/
def nodesLeftOpenEdge (M : Regular2d α) : Res (Ten Nat) :=
  .ok (affine (arange 1 M.nely) (M.nelx + 1) 0)
/-- MeshQuad4.h:163-166 -/
def nodesRightOpenEdge (M : Regular2d α) : Res (Ten Nat) :=
  .ok (affine (arange 1 M.nely) (M.nelx + 1) M.nelx)
/-- MeshQuad4.h:168-171 -/
def nodesBottomLeftCorner (_ : Regular2d α) : Nat := 0
/-- MeshQuad4.h:173-176 -/
def nodesBottomRightCorner (M : Regular2d α) : Nat := M.nelx
/-- MeshQuad4.h:178-181 -/
def nodesTopLeftCorner (M : Regular2d α) : Nat := M.nely * (M.nelx + 1)
/-- MeshQuad4.h:183-186 -/
def nodesTopRightCorner (M : Regular2d α) : Nat := M.nely * (M.nelx + 1) + M.nelx

/-- `derived_cast()` as seen by `RegularBase2d`, Mesh.h:499-507 -/
def edges (M : Regular2d α) : Edges2d :=
  ⟨nodesBottomOpenEdge M, nodesTopOpenEdge M, nodesLeftOpenEdge M, nodesRightOpenEdge M,
    nodesBottomLeftCorner M, nodesBottomRightCorner M, nodesTopLeftCorner M, nodesTopRightCorner M⟩

/-- `nodesPeriodic`, Mesh.h:309-312 -/
def nodesPeriodic (M : Regular2d α) : Res (Ten Nat) := nodesPeriodic2d (edges M)

/-- `dofsPeriodic`, Mesh.h:291-303 -/
def dofsPeriodic (M : Regular2d α) : Res (Ten Nat) := do
  let p ← nodesPeriodic M
  GF.dofsPeriodic M.nnode M.ndim p

/-- `nodesOrigin`, Mesh.h:542-545 -/
def nodesOrigin (M : Regular2d α) : Nat := nodesBottomLeftCorner M

end Quad4.Regular

namespace Tri3.Regular
variable {α : Type}

/-- constructor, MeshTri3.h:35-48 -/
def new (nelx nely : Nat) (h : α) : Regular2d α :=
  { h := h, nelx := nelx, nely := nely, ndim := 2, nne := 3,
    nnode := (nelx + 1) * (nely + 1), nelem := nelx * nely * 2 }

/-- `conn_impl`, MeshTri3.h:91-111 -/
def conn (M : Regular2d α) : Res (Ten Nat) := do
  let s ← forEach (it2 M.nely M.nelx) (fun (s : Ten Nat × Nat) p => do
    let iy := p.1
    let ix := p.2
    let ret ← s.1.set [s.2, 0] (iy * (M.nelx + 1) + ix)
    let ret ← ret.set [s.2, 1] (iy * (M.nelx + 1) + (ix + 1))
    let ret ← ret.set [s.2, 2] ((iy + 1) * (M.nelx + 1) + ix)
    let ielem := s.2 + 1
    let ret ← ret.set [ielem, 0] (iy * (M.nelx + 1) + (ix + 1))
    let ret ← ret.set [ielem, 1] ((iy + 1) * (M.nelx + 1) + (ix + 1))
    let ret ← ret.set [ielem, 2] ((iy + 1) * (M.nelx + 1) + ix)
    .ok (ret, ielem + 1)) (Ten.empty [M.nelem, M.nne], 0)
  .ok s.1

/-- `for (i = 0; i < n; ++i) ret(i) = f(i)` on an array of length `n`, MeshTri3.h:113-155 -/
def fillEdge (n : Nat) (f : Nat → Nat) : Res (Ten Nat) :=
  forEach (it1 n) (fun ret i => ret.set [i] (f i)) (Ten.empty [n])

/-- `for (i = 1; i < n; ++i) ret(i - 1) = f(i)` on an array of length `n - 1`, MeshTri3.h:157-199.  The
size `n - 1` wraps around for `n = 0`, which is reported as undefined. -/
def fillOpenEdge (n : Nat) (f : Nat → Nat) : Res (Ten Nat) :=
  if n = 0 then .ub else
  forEach (List.range' 1 (n - 1)) (fun ret i => ret.set [i - 1] (f i)) (Ten.empty [n - 1])

/-- MeshTri3.h:113-122 -/
def nodesBottomEdge (M : Regular2d α) : Res (Ten Nat) := fillEdge (M.nelx + 1) fun ix => ix
/-- MeshTri3.h:124-133 -/
def nodesTopEdge (M : Regular2d α) : Res (Ten Nat) :=
  fillEdge (M.nelx + 1) fun ix => ix + M.nely * (M.nelx + 1)
/-- MeshTri3.h:135-144 -/
def nodesLeftEdge (M : Regular2d α) : Res (Ten Nat) := fillEdge (M.nely + 1) fun iy => iy * (M.nelx + 1)
/-- MeshTri3.h:146-155 -/
def nodesRightEdge (M : Regular2d α) : Res (Ten Nat) :=
  fillEdge (M.nely + 1) fun iy => iy * (M.nelx + 1) + M.nelx
/-- MeshTri3.h:157-166 -/
def nodesBottomOpenEdge (M : Regular2d α) : Res (Ten Nat) := fillOpenEdge M.nelx fun ix => ix
/-- MeshTri3.h:168-177 -/
def nodesTopOpenEdge (M : Regular2d α) : Res (Ten Nat) :=
  fillOpenEdge M.nelx fun ix => ix + M.nely * (M.nelx + 1)
/-- MeshTri3.h:179-188 -/
def nodesLeftOpenEdge (M : Regular2d α) : Res (Ten Nat) :=
  fillOpenEdge M.nely fun iy => iy * (M.nelx + 1)
/-- MeshTri3.h:190-199 -/
def nodesRightOpenEdge (M : Regular2d α) : Res (Ten Nat) :=
  fillOpenEdge M.nely fun iy => iy * (M.nelx + 1) + M.nelx
/-- MeshTri3.h:201-204 -/
def nodesBottomLeftCorner (_ : Regular2d α) : Nat := 0
/-- MeshTri3.h:206-209 -/
def nodesBottomRightCorner (M : Regular2d α) : Nat := M.nelx
/-- MeshTri3.h:211-214 -/
def nodesTopLeftCorner (M : Regular2d α) : Nat := M.nely * (M.nelx + 1)
/-- MeshTri3.h:216-219 -/
def nodesTopRightCorner (M : Regular2d α) : Nat := M.nely * (M.nelx + 1) + M.nelx

/-- `derived_cast()` as seen by `RegularBase2d`, Mesh.h:499-507 -/
def edges (M : Regular2d α) : Edges2d :=
  ⟨nodesBottomOpenEdge M, nodesTopOpenEdge M, nodesLeftOpenEdge M, nodesRightOpenEdge M,
    nodesBottomLeftCorner M, nodesBottomRightCorner M, nodesTopLeftCorner M, nodesTopRightCorner M⟩

/-- `nodesPeriodic`, Mesh.h:309-312 -/
def nodesPeriodic (M : Regular2d α) : Res (Ten Nat) := nodesPeriodic2d (edges M)

/-- `dofsPeriodic`, Mesh.h:291-303 -/
def dofsPeriodic (M : Regular2d α) : Res (Ten Nat) := do
  let p ← nodesPeriodic M
  GF.dofsPeriodic M.nnode M.ndim p

end Tri3.Regular
end GF
