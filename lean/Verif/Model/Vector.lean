import Verif.Base

/-! Model of `include/GooseFEM/Vector.h` (class `GooseFEM::Vector`). -/

namespace GF

/-- `class Vector`, members: Vector.h:759-766. -/
structure Vector where
  conn : Ten Nat
  dofs : Ten Nat
  nelem : Nat
  nne : Nat
  nnode : Nat
  ndim : Nat
  ndof : Nat

namespace Vector

/-- Constructor, Vector.h:33-47 (assertions off).  The static rank of `conn` and `dofs` is two. -/
def new (conn dofs : Ten Nat) : Res Vector :=
  match conn.shape, dofs.shape with
  | [nelem, nne], [nnode, ndim] => do
    let a ← amax dofs
    .ok ⟨conn, dofs, nelem, nne, nnode, ndim, a + 1⟩
  | _, _ => .ub

/-- `shape_dofval`, Vector.h:270-273 -/
def shape_dofval (V : Vector) : List Nat := [V.ndof]
/-- `shape_nodevec`, Vector.h:280-283 -/
def shape_nodevec (V : Vector) : List Nat := [V.nnode, V.ndim]
/-- `shape_elemvec`, Vector.h:290-293 -/
def shape_elemvec (V : Vector) : List Nat := [V.nelem, V.nne, V.ndim]

variable {α : Type}

/-- Vector.h:569-585.  `ret` is filled with zero, then assigned in a parallel loop. -/
def asDofs_nodevec [Zero α] (V : Vector) (σ : Sched) (arg ret : Ten α) : Res (Ten α) :=
  forEach (σ.run (it2 V.nnode V.ndim)) (fun ret mi => do
    let d ← V.dofs.get [mi.1, mi.2]
    let a ← arg.get [mi.1, mi.2]
    ret.set [d] a) (Ten.full ret.shape 0)

/-- Vector.h:591-609 -/
def asDofs_elemvec [Zero α] (V : Vector) (σ : Sched) (arg ret : Ten α) : Res (Ten α) :=
  forEach (σ.run (it3 V.nelem V.nne V.ndim)) (fun ret emi => do
    let n ← V.conn.get [emi.1, emi.2.1]
    let d ← V.dofs.get [n, emi.2.2]
    let a ← arg.get [emi.1, emi.2.1, emi.2.2]
    ret.set [d] a) (Ten.full ret.shape 0)

/-- Vector.h:615-629 -/
def asNode_dofval (V : Vector) (σ : Sched) (arg ret : Ten α) : Res (Ten α) :=
  forEach (σ.run (it2 V.nnode V.ndim)) (fun ret mi => do
    let d ← V.dofs.get [mi.1, mi.2]
    let a ← arg.get [d]
    ret.set [mi.1, mi.2] a) ret

/-- Vector.h:635-653 -/
def asNode_elemvec [Zero α] (V : Vector) (σ : Sched) (arg ret : Ten α) : Res (Ten α) :=
  forEach (σ.run (it3 V.nelem V.nne V.ndim)) (fun ret emi => do
    let n ← V.conn.get [emi.1, emi.2.1]
    let a ← arg.get [emi.1, emi.2.1, emi.2.2]
    ret.set [n, emi.2.2] a) (Ten.full ret.shape 0)

/-- Vector.h:659-675 -/
def asElement_dofval (V : Vector) (σ : Sched) (arg ret : Ten α) : Res (Ten α) :=
  forEach (σ.run (it3 V.nelem V.nne V.ndim)) (fun ret emi => do
    let n ← V.conn.get [emi.1, emi.2.1]
    let d ← V.dofs.get [n, emi.2.2]
    let a ← arg.get [d]
    ret.set [emi.1, emi.2.1, emi.2.2] a) ret

/-- Vector.h:681-697 -/
def asElement_nodevec (V : Vector) (σ : Sched) (arg ret : Ten α) : Res (Ten α) :=
  forEach (σ.run (it3 V.nelem V.nne V.ndim)) (fun ret emi => do
    let n ← V.conn.get [emi.1, emi.2.1]
    let a ← arg.get [n, emi.2.2]
    ret.set [emi.1, emi.2.1, emi.2.2] a) ret

/-- Vector.h:703-718 (sequential loop) -/
def assembleDofs_nodevec [Zero α] [Add α] (V : Vector) (arg ret : Ten α) : Res (Ten α) :=
  forEach (it2 V.nnode V.ndim) (fun ret mi => do
    let d ← V.dofs.get [mi.1, mi.2]
    let a ← arg.get [mi.1, mi.2]
    ret.addAt [d] a) (Ten.full ret.shape 0)

/-- Vector.h:724-741 (sequential loop) -/
def assembleDofs_elemvec [Zero α] [Add α] (V : Vector) (arg ret : Ten α) : Res (Ten α) :=
  forEach (it3 V.nelem V.nne V.ndim) (fun ret emi => do
    let n ← V.conn.get [emi.1, emi.2.1]
    let d ← V.dofs.get [n, emi.2.2]
    let a ← arg.get [emi.1, emi.2.1, emi.2.2]
    ret.addAt [d] a) (Ten.full ret.shape 0)

/-- `asDofs`: rank dispatch, Vector.h:405-435. -/
def asDofs [Zero α] (V : Vector) (σ : Sched) (arg ret : Ten α) : Res (Ten α) :=
  if arg.rank = 2 then V.asDofs_nodevec σ arg ret
  else if arg.rank = 3 then V.asDofs_elemvec σ arg ret
  else .throws

/-- `asNode`: rank dispatch, Vector.h:440-470. -/
def asNode [Zero α] (V : Vector) (σ : Sched) (arg ret : Ten α) : Res (Ten α) :=
  if arg.rank = 1 then V.asNode_dofval σ arg ret
  else if arg.rank = 3 then V.asNode_elemvec σ arg ret
  else .throws

/-- `asElement`: rank dispatch, Vector.h:475-505. -/
def asElement (V : Vector) (σ : Sched) (arg ret : Ten α) : Res (Ten α) :=
  if arg.rank = 1 then V.asElement_dofval σ arg ret
  else if arg.rank = 2 then V.asElement_nodevec σ arg ret
  else .throws

/-- `assembleDofs`: rank dispatch, Vector.h:510-540. -/
def assembleDofs [Zero α] [Add α] (V : Vector) (arg ret : Ten α) : Res (Ten α) :=
  if arg.rank = 2 then V.assembleDofs_nodevec arg ret
  else if arg.rank = 3 then V.assembleDofs_elemvec arg ret
  else .throws

/-- `AsDofs`: allocates `xt::empty` of the DOF shape, Vector.h:142-159. -/
def AsDofs [Zero α] (V : Vector) (σ : Sched) (arg : Ten α) : Res (Ten α) :=
  V.asDofs σ arg (Ten.empty V.shape_dofval)

/-- `AsNode`, Vector.h:168-185. -/
def AsNode [Zero α] (V : Vector) (σ : Sched) (arg : Ten α) : Res (Ten α) :=
  V.asNode σ arg (Ten.empty V.shape_nodevec)

/-- `AsElement`, Vector.h:194-211. -/
def AsElement (V : Vector) (σ : Sched) (arg : Ten α) : Res (Ten α) :=
  V.asElement σ arg (Ten.empty V.shape_elemvec)

/-- `AssembleDofs`, Vector.h:220-237. -/
def AssembleDofs [Zero α] [Add α] (V : Vector) (arg : Ten α) : Res (Ten α) :=
  V.assembleDofs arg (Ten.empty V.shape_dofval)

/-- `assembleNode_impl_elemvec`, Vector.h:747-757: assemble the DOFs, then distribute. -/
def assembleNode_elemvec [Zero α] [Add α] (V : Vector) (σ : Sched) (arg ret : Ten α) :
    Res (Ten α) := do
  let dofval ← V.AssembleDofs arg
  V.asNode σ dofval ret

/-- `assembleNode`: rank dispatch, Vector.h:545-563. -/
def assembleNode [Zero α] [Add α] (V : Vector) (σ : Sched) (arg ret : Ten α) : Res (Ten α) :=
  if arg.rank = 3 then V.assembleNode_elemvec σ arg ret else .throws

/-- `AssembleNode`, Vector.h:246-263. -/
def AssembleNode [Zero α] [Add α] (V : Vector) (σ : Sched) (arg : Ten α) : Res (Ten α) :=
  V.assembleNode σ arg (Ten.empty V.shape_nodevec)

/-- `copy`, Vector.h:127-133: `xt::noalias(dest) = src` assigns shape and entries. -/
def copy (_V : Vector) (src _dest : Ten α) : Res (Ten α) := .ok src

end Vector
end GF
