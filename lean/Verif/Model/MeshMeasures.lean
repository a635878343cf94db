import Verif.Model.MeshBase
import Verif.Model.MatrixDiagonal
import Verif.Model.ElementQuad4

/-! Model of the measures of a mesh in `include/GooseFEM/Mesh.h`: `edgesize`, `centers`, `elemmap2nodemap`,
`nodal_mass`, `center_of_gravity`.  Assertions are off.  Floating-point numbers are elements of a field; the
square root is a parameter. -/

namespace GF
variable {α : Type}

/-- `enum class ElementType`, Mesh.h:30-36 -/
inductive ElementType where
  | Unknown | Quad4 | Hex8 | Tri3
deriving DecidableEq, Repr

/-- `defaultElementType(coor, conn)`, Mesh.h:46-62 -/
def defaultElementType (coor : Ten α) (conn : Ten Nat) : Res ElementType :=
  match coor.shape, conn.shape with
  | [_, nd], [_, nne] =>
    if nd = 2 ∧ nne = 3 then .ok .Tri3
    else if nd = 2 ∧ nne = 4 then .ok .Quad4
    else if nd = 3 ∧ nne = 8 then .ok .Hex8
    else .throws
  | _, _ => .ub

/-- one of the four assignments of `edgesize`, Mesh.h:2593-2596:
`xt::view(ret, xt::all(), col) = xt::sqrt(xt::pow(xb - xa, 2.0) + xt::pow(yb - ya, 2.0))`, where `xa`, `ya` are
the coordinates of the nodes in column `a` of `conn`, Mesh.h:2580-2591.  The entries of the lazily combined
1-d arrays are evaluated one by one. -/
def edgeCol [Field α] (sqrt : α → α) (coor : Ten α) (conn : Ten Nat) (ne col a b : Nat) (ret : Ten α) :
    Res (Ten α) :=
  forEach (it1 ne) (fun ret e => do
    let na ← conn.get [e, a]
    let nb ← conn.get [e, b]
    let xa ← coor.get [na, 0]
    let xb ← coor.get [nb, 0]
    let ya ← coor.get [na, 1]
    let yb ← coor.get [nb, 1]
    ret.set [e, col] (sqrt ((xb - xa) ^ 2 + (yb - ya) ^ 2))) ret

/-- `edgesize(coor, conn, type)`, Mesh.h:2571-2601 -/
def edgesize [Field α] (sqrt : α → α) (coor : Ten α) (conn : Ten Nat) (type : ElementType) : Res (Ten α) :=
  if type = .Quad4 then
    match conn.shape with
    | [ne, nne] => do
      let ret ← edgeCol sqrt coor conn ne 0 0 1 (Ten.empty [ne, nne])
      let ret ← edgeCol sqrt coor conn ne 1 1 2 ret
      let ret ← edgeCol sqrt coor conn ne 2 2 3 ret
      edgeCol sqrt coor conn ne 3 3 0 ret
    | _ => .ub
  else .throws

/-- `edgesize(coor, conn)`, Mesh.h:2612-2615 -/
def edgesizeDefault [Field α] (sqrt : α → α) (coor : Ten α) (conn : Ten Nat) : Res (Ten α) := do
  let type ← defaultElementType coor conn
  edgesize sqrt coor conn type

/-- `centers(coor, conn, type)`, Mesh.h:2626-2645 -/
def centers [Field α] (coor : Ten α) (conn : Ten Nat) (type : ElementType) : Res (Ten α) :=
  match conn.shape, coor.shape with
  | [ne, _], [_, nd] =>
    if type = .Quad4 then do
      let ret ← forEach (it1 4) (fun ret i =>
        forEach (it2 ne nd) (fun ret ej => do
          let n ← conn.get [ej.1, i]
          let x ← coor.get [n, ej.2]
          ret.addAt [ej.1, ej.2] x) ret) (Ten.full [ne, nd] 0)
      forEach (it2 ne nd) (fun ret ej => do
        let s ← ret.get [ej.1, ej.2]
        ret.set [ej.1, ej.2] (s / 4)) ret
    else .throws
  | _, _ => .ub

/-- `centers(coor, conn)`, Mesh.h:2656-2659 -/
def centersDefault [Field α] (coor : Ten α) (conn : Ten Nat) : Res (Ten α) := do
  let type ← defaultElementType coor conn
  centers coor conn type

/-- the body of the loop of `elemmap2nodemap`, Mesh.h:2688-2692: `t` is filled through the node numbers in column `i`,
then entries of `ret` that are still `N` are overwritten by those of `t` -/
def nodemapCol (elem_map conn : Ten Nat) (N ne i : Nat) (ret : Ten Nat) : Res (Ten Nat) := do
  let t ← forEach (it1 ne) (fun t e => do
    let n ← conn.get [e, i]
    let e' ← elem_map.get [e]
    let n' ← conn.get [e', i]
    t.set [n] n') (Ten.full [N] N)
  forEach (it1 N) (fun ret n => do
    let r ← ret.get [n]
    let a ← t.get [n]
    ret.set [n] (if r = N then a else r)) ret

/-- `elemmap2nodemap(elem_map, coor, conn, type)`, Mesh.h:2672-2699 -/
def elemmap2nodemap (elem_map : Ten Nat) (coor : Ten α) (conn : Ten Nat) (type : ElementType) : Res (Ten Nat) :=
  match coor.shape, conn.shape with
  | [N, _], [ne, _] =>
    if type = .Quad4 then
      forEach (it1 4) (fun ret i => nodemapCol elem_map conn N ne i ret) (Ten.full [N] N)
    else .throws
  | _, _ => .ub

/-- `elemmap2nodemap(elem_map, coor, conn)`, Mesh.h:2712-2715 -/
def elemmap2nodemapDefault (elem_map : Ten Nat) (coor : Ten α) (conn : Ten Nat) : Res (Ten Nat) := do
  let type ← defaultElementType coor conn
  elemmap2nodemap elem_map coor conn type

/-- `nodal_mass(coor, conn, type)`, Mesh.h:2732-2752; `σ` are the OpenMP schedules of the calls made -/
def nodal_mass [Zero α] [One α] [Add α] [Sub α] [Mul α] [Div α] [Neg α] [NatCast α] (σ : Nat → Sched) (coor : Ten α) (conn : Ten Nat) (type : ElementType) :
    Res (Ten α) :=
  match coor.shape with
  | [nnode, ndim] => do
    let dof := meshDofs nnode ndim
    let M : MatrixDiagonal α ← MatrixDiagonal.new conn dof
    let V ← Vector.new conn dof
    let rho : Ten α := Ten.full conn.shape 1
    if type = .Quad4 then do
      let x ← V.AsElement (σ 0) coor
      let xi ← Element.Quad4.Nodal.xi
      let w ← Element.Quad4.Nodal.w
      let quad ← Element.Quad4.new (σ 1) x xi w
      let K ← Element.Quad4.Int_N_scalar_NT_dV quad (σ 2) rho
      let M ← M.assemble K
      V.AsNode (σ 3) M.A
    else .throws
  | _ => .ub

/-- `nodal_mass(coor, conn)`, Mesh.h:2768-2771 -/
def nodal_massDefault [Zero α] [One α] [Add α] [Sub α] [Mul α] [Div α] [Neg α] [NatCast α] (σ : Nat → Sched) (coor : Ten α) (conn : Ten Nat) : Res (Ten α) := do
  let type ← defaultElementType coor conn
  nodal_mass σ coor conn type

/-- the loop over `i` of `detail::average_axis_0`, Mesh.h:2785-2790 -/
def averageCol [Zero α] [One α] [Add α] [Sub α] [Mul α] [Div α] [Neg α] [NatCast α] (data weights : Ten α) (n j : Nat) (ret : Ten α) : Res (Ten α) := do
  let s ← forEach (it1 n) (fun (s : Ten α × α) i => do
    let d ← data.get [i, j]
    let w ← weights.get [i, j]
    let r ← s.1.addAt [j] (d * w)
    .ok (r, s.2 + w)) (ret, 0)
  let a ← s.1.get [j]
  s.1.set [j] (a / s.2)

/-- `detail::average_axis_0(data, weights)`, Mesh.h:2777-2793 -/
def average_axis_0 [Zero α] [One α] [Add α] [Sub α] [Mul α] [Div α] [Neg α] [NatCast α] (data weights : Ten α) : Res (Ten α) :=
  match weights.shape with
  | [n, m] => forEach (it1 m) (fun ret j => averageCol data weights n j ret) (Ten.full [m] 0)
  | _ => .ub

/-- `center_of_gravity(coor, conn, type)`, Mesh.h:2809-2814 -/
def center_of_gravity [Zero α] [One α] [Add α] [Sub α] [Mul α] [Div α] [Neg α] [NatCast α] (σ : Nat → Sched) (coor : Ten α) (conn : Ten Nat) (type : ElementType) :
    Res (Ten α) := do
  let m ← nodal_mass σ coor conn type
  average_axis_0 coor m

/-- `center_of_gravity(coor, conn)`, Mesh.h:2826-2831 -/
def center_of_gravityDefault [Zero α] [One α] [Add α] [Sub α] [Mul α] [Div α] [Neg α] [NatCast α] (σ : Nat → Sched) (coor : Ten α) (conn : Ten Nat) : Res (Ten α) := do
  let type ← defaultElementType coor conn
  let m ← nodal_mass σ coor conn type
  average_axis_0 coor m

end GF
