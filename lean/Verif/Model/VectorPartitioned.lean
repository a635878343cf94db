import Verif.Model.Vector
import Verif.Model.Renumber

/-! Model of `include/GooseFEM/VectorPartitioned.h` (class `GooseFEM::VectorPartitioned`).
The 1-d index arrays `iiu`, `iip` are lists. -/

namespace GF

/-- members: VectorPartitioned.h:41-60 -/
structure VectorPartitioned where
  V : Vector
  iiu : List Nat
  iip : List Nat
  nnu : Nat
  nnp : Nat
  part : Ten Nat

namespace VectorPartitioned
variable {α : Type}

/-- Constructor, VectorPartitioned.h:72-87 (assertions off). -/
def new (conn dofs : Ten Nat) (iip : List Nat) : Res VectorPartitioned := do
  let V ← Vector.new conn dofs
  let l ← dofs.flat
  let iiu := setdiff1d l iip
  let part ← Reorder.apply [iiu, iip] dofs
  .ok ⟨V, iiu, iip, iiu.length, iip.length, part⟩

/-- VectorPartitioned.h:126-140 -/
def dofs_is_u (P : VectorPartitioned) (σ : Sched) : Res (Ten Bool) :=
  forEach (σ.run (it2 P.V.nnode P.V.ndim)) (fun ret mi => do
    let k ← P.part.get [mi.1, mi.2]
    if k < P.nnu then ret.set [mi.1, mi.2] true else .ok ret) (Ten.full P.V.shape_nodevec false)

/-- VectorPartitioned.h:147-161 -/
def dofs_is_p (P : VectorPartitioned) (σ : Sched) : Res (Ten Bool) :=
  forEach (σ.run (it2 P.V.nnode P.V.ndim)) (fun ret mi => do
    let k ← P.part.get [mi.1, mi.2]
    if P.nnu ≤ k then ret.set [mi.1, mi.2] true else .ok ret) (Ten.full P.V.shape_nodevec false)

/-- `copy_u`/`Copy_u`, VectorPartitioned.h:176-214 (`Copy_u` copies `dest` first) -/
def copy_u (P : VectorPartitioned) (σ : Sched) (src dest : Ten α) : Res (Ten α) :=
  forEach (σ.run (it2 P.V.nnode P.V.ndim)) (fun ret mi => do
    let k ← P.part.get [mi.1, mi.2]
    if k < P.nnu then
      let a ← src.get [mi.1, mi.2]
      ret.set [mi.1, mi.2] a
    else .ok ret) dest

/-- `copy_p`/`Copy_p`, VectorPartitioned.h:229-267 -/
def copy_p (P : VectorPartitioned) (σ : Sched) (src dest : Ten α) : Res (Ten α) :=
  forEach (σ.run (it2 P.V.nnode P.V.ndim)) (fun ret mi => do
    let k ← P.part.get [mi.1, mi.2]
    if P.nnu ≤ k then
      let a ← src.get [mi.1, mi.2]
      ret.set [mi.1, mi.2] a
    else .ok ret) dest

/-- `DofsFromParitioned`, VectorPartitioned.h:276-314 (two parallel loops) -/
def DofsFromParitioned [Zero α] (P : VectorPartitioned) (σ : Sched) (u p : Ten α) :
    Res (Ten α) := do
  let r ← forEach (σ.run (it1 P.nnu)) (fun ret d => do
    let k ← lget P.iiu d
    let a ← u.get [d]
    ret.set [k] a) (Ten.full [P.V.ndof] 0)
  forEach (σ.run (it1 P.nnp)) (fun ret d => do
    let k ← lget P.iip d
    let a ← p.get [d]
    ret.set [k] a) r

/-- `NodeFromPartitioned`, VectorPartitioned.h:325-365 -/
def NodeFromPartitioned (P : VectorPartitioned) (σ : Sched) (u p : Ten α) : Res (Ten α) :=
  forEach (σ.run (it2 P.V.nnode P.V.ndim)) (fun ret mi => do
    let k ← P.part.get [mi.1, mi.2]
    if k < P.nnu then
      let a ← u.get [k]
      ret.set [mi.1, mi.2] a
    else
      let a ← p.get [k - P.nnu]
      ret.set [mi.1, mi.2] a) (Ten.empty P.V.shape_nodevec)

/-- `ElementFromPartitioned`, VectorPartitioned.h:376-418 -/
def ElementFromPartitioned (P : VectorPartitioned) (σ : Sched) (u p : Ten α) : Res (Ten α) :=
  forEach (σ.run (it3 P.V.nelem P.V.nne P.V.ndim)) (fun ret emi => do
    let n ← P.V.conn.get [emi.1, emi.2.1]
    let k ← P.part.get [n, emi.2.2]
    if k < P.nnu then
      let a ← u.get [k]
      ret.set [emi.1, emi.2.1, emi.2.2] a
    else
      let a ← p.get [k - P.nnu]
      ret.set [emi.1, emi.2.1, emi.2.2] a) (Ten.empty P.V.shape_elemvec)

/-- `AsDofs_u(dofval)`, VectorPartitioned.h:428-455 -/
def AsDofs_u_dofval (P : VectorPartitioned) (σ : Sched) (x : Ten α) : Res (Ten α) :=
  forEach (σ.run (it1 P.nnu)) (fun ret d => do
    let k ← lget P.iiu d
    let a ← x.get [k]
    ret.set [d] a) (Ten.empty [P.nnu])

/-- `AsDofs_p(dofval)`, VectorPartitioned.h:549-576 -/
def AsDofs_p_dofval (P : VectorPartitioned) (σ : Sched) (x : Ten α) : Res (Ten α) :=
  forEach (σ.run (it1 P.nnp)) (fun ret d => do
    let k ← lget P.iip d
    let a ← x.get [k]
    ret.set [d] a) (Ten.empty [P.nnp])

/-- `AsDofs_u(nodevec)`, VectorPartitioned.h:464-496 -/
def AsDofs_u_nodevec [Zero α] (P : VectorPartitioned) (σ : Sched) (x : Ten α) : Res (Ten α) :=
  forEach (σ.run (it2 P.V.nnode P.V.ndim)) (fun ret mi => do
    let k ← P.part.get [mi.1, mi.2]
    if k < P.nnu then
      let a ← x.get [mi.1, mi.2]
      ret.set [k] a
    else .ok ret) (Ten.full [P.nnu] 0)

/-- `AsDofs_p(nodevec)`, VectorPartitioned.h:585-617 -/
def AsDofs_p_nodevec [Zero α] (P : VectorPartitioned) (σ : Sched) (x : Ten α) : Res (Ten α) :=
  forEach (σ.run (it2 P.V.nnode P.V.ndim)) (fun ret mi => do
    let k ← P.part.get [mi.1, mi.2]
    if P.nnu ≤ k then
      let a ← x.get [mi.1, mi.2]
      ret.set [k - P.nnu] a
    else .ok ret) (Ten.full [P.nnp] 0)

/-- `AsDofs_u(elemvec)`, VectorPartitioned.h:505-539 -/
def AsDofs_u_elemvec [Zero α] (P : VectorPartitioned) (σ : Sched) (x : Ten α) : Res (Ten α) :=
  forEach (σ.run (it3 P.V.nelem P.V.nne P.V.ndim)) (fun ret emi => do
    let n ← P.V.conn.get [emi.1, emi.2.1]
    let k ← P.part.get [n, emi.2.2]
    if k < P.nnu then
      let a ← x.get [emi.1, emi.2.1, emi.2.2]
      ret.set [k] a
    else .ok ret) (Ten.full [P.nnu] 0)

/-- `AsDofs_p(elemvec)`, VectorPartitioned.h:626-660 -/
def AsDofs_p_elemvec [Zero α] (P : VectorPartitioned) (σ : Sched) (x : Ten α) : Res (Ten α) :=
  forEach (σ.run (it3 P.V.nelem P.V.nne P.V.ndim)) (fun ret emi => do
    let n ← P.V.conn.get [emi.1, emi.2.1]
    let k ← P.part.get [n, emi.2.2]
    if P.nnu ≤ k then
      let a ← x.get [emi.1, emi.2.1, emi.2.2]
      ret.set [k - P.nnu] a
    else .ok ret) (Ten.full [P.nnp] 0)

end VectorPartitioned
end GF
