import Verif.Model.Vector
import Verif.Model.Matrix

/-! Model of `include/GooseFEM/VectorPartitionedTyings.h`. -/

namespace GF

/-- `C.transpose()` (Eigen) -/
def Mat.transpose {α : Type} (A : Mat α) : Mat α := ⟨A.nc, A.nr, fun r c => A.e c r⟩

/-- The loop "write the values of the DOFs in a window to the cells that start at `lo`" that occurs in
VectorPartitionedTyings.h:64-71, 231-238 and MatrixPartitionedTyings.h:434-441, 466-473, 498-505;
`keep` is its `if`-condition. -/
def windowLoop {α : Type} (V : Vector) (σ : Sched) (keep : Nat → Bool) (lo : Nat) (x ret : Ten α) :
    Res (Ten α) :=
  forEach (σ.run (it2 V.nnode V.ndim)) (fun ret mi => do
    let k ← V.dofs.get [mi.1, mi.2]
    if keep k then
      let a ← x.get [mi.1, mi.2]
      ret.set [k - lo] a
    else .ok ret) ret

/-- members: VectorPartitionedTyings.h:34-47 (the transposes are stored there) -/
structure VectorPartitionedTyings (α : Type) where
  V : Vector
  iiu : List Nat
  iip : List Nat
  iii : List Nat
  iid : List Nat
  nnu : Nat
  nnp : Nat
  nni : Nat
  nnd : Nat
  Cid : Mat α

namespace VectorPartitionedTyings
variable {α : Type}

/-- Constructor, VectorPartitionedTyings.h:90-111 (assertions off).  Simplification: of the stored
tying matrices only `m_Cid`, the one that is read, is kept. -/
def new (conn dofs : Ten Nat) (Cdu Cdp Cdi : Mat α) : Res (VectorPartitionedTyings α) := do
  let V ← Vector.new conn dofs
  let nnu := Cdu.nc
  let nnp := Cdp.nc
  let nnd := Cdp.nr
  let nni := nnu + nnp
  .ok ⟨V, List.range nnu, (List.range nnp).map (nnu + ·), List.range nni,
    (List.range nnd).map (nni + ·), nnu, nnp, nni, nnd, Cdi.transpose⟩

/-- `Eigen_asDofs_d`, VectorPartitionedTyings.h:57-74 (the vector is not initialised) -/
def asDofs_d (P : VectorPartitionedTyings α) (σ : Sched) (x : Ten α) : Res (Ten α) :=
  windowLoop P.V σ (fun k => decide (P.nni ≤ k)) P.nni x (Ten.empty [P.nnd])

/-- `copy_p`, VectorPartitionedTyings.h:187-199 -/
def copy_p (P : VectorPartitionedTyings α) (σ : Sched) (src dest : Ten α) : Res (Ten α) :=
  forEach (σ.run ((List.range (P.nni - P.nnu)).map (P.nnu + ·))) (fun ret i => do
    let a ← src.get [i]
    ret.set [i] a) dest

/-- `asDofs_i`, VectorPartitionedTyings.h:223-251 -/
def asDofs_i [NonUnitalNonAssocSemiring α] (P : VectorPartitionedTyings α) (σ : Nat → Sched)
    (x dofval_i : Ten α) (apply_tyings : Bool) : Res (Ten α) := do
  let r ← windowLoop P.V (σ 0) (fun k => decide (k < P.nni)) 0 x (Ten.full dofval_i.shape 0)
  if apply_tyings then
    let dd ← P.asDofs_d (σ 1) x
    let di ← P.Cid.mulVec dd
    forEach ((σ 2).run (it1 P.nni)) (fun ret i => do
      let a ← di.get [i]
      ret.addAt [i] a) r
  else .ok r

/-- `AsDofs_i`, VectorPartitionedTyings.h:208-214 -/
def AsDofs_i [NonUnitalNonAssocSemiring α] (P : VectorPartitionedTyings α) (σ : Nat → Sched)
    (x : Ten α) : Res (Ten α) := P.asDofs_i σ x (Ten.empty [P.nni]) true

end VectorPartitionedTyings
end GF
