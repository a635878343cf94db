import Verif.Model.Matrix
import Verif.Spec.Vector

/-! Dense-matrix specification of the operations on `GooseFEM::Matrix`. -/

namespace GF
namespace SMatrix
open Finset
variable {α : Type}

/-- the dense entries of the assembled matrix -/
def assembled [AddCommMonoid α] (V : Vector) (c d : Nat → Nat → Nat) (k : Nat → Nat → Nat → α)
    (r s : Nat) : α :=
  ∑ e ∈ range V.nelem, ∑ m ∈ range V.nne, ∑ i ∈ range V.ndim, ∑ n ∈ range V.nne,
    ∑ j ∈ range V.ndim, if d (c e m) i = r ∧ d (c e n) j = s then
      k e (m * V.ndim + i) (n * V.ndim + j) else 0

/-- the dense matrix described by the index lists and block of `set`/`add` -/
def blockEntries [AddCommMonoid α] (rows cols : List Nat) (b : Nat → Nat → α) (r s : Nat) : α :=
  ∑ i ∈ range rows.length, ∑ j ∈ range cols.length,
    if rows.getD i 0 = r ∧ cols.getD j 0 = s then b i j else 0

/-- The operations that change a matrix. -/
inductive Op (α : Type) where
  | assemble (K : Ten α)
  | set (rows cols : List Nat) (B : Ten α)
  | add (rows cols : List Nat) (B : Ten α)

/-- run one operation on the model -/
def step [Zero α] [Add α] (M : SMatrix α) : Op α → Res (SMatrix α)
  | .assemble K => M.assemble K
  | .set rows cols B => M.set rows cols B
  | .add rows cols B => M.add rows cols B

/-- run a history of operations -/
def run [Zero α] [Add α] (M : SMatrix α) (ops : List (Op α)) : Res (SMatrix α) :=
  forEach ops step M

/-- `OpSpec V c d op D D'`: the arguments of `op` have the documented shape and the dense matrix `D`
becomes `D'`. -/
inductive OpSpec [AddCommMonoid α] (V : Vector) (c d : Nat → Nat → Nat) :
    Op α → (Nat → Nat → α) → (Nat → Nat → α) → Prop where
  | assemble {K k D} (hK : Is3 K V.nelem (V.nne * V.ndim) (V.nne * V.ndim) k) :
      OpSpec V c d (.assemble K) D (assembled V c d k)
  | set {rows cols B b D} (hB : Is2 B rows.length cols.length b) (hr : ∀ r ∈ rows, r < V.ndof)
      (hc : ∀ s ∈ cols, s < V.ndof) :
      OpSpec V c d (.set rows cols B) D (blockEntries rows cols b)
  | add {rows cols B b D} (hB : Is2 B rows.length cols.length b) (hr : ∀ r ∈ rows, r < V.ndof)
      (hc : ∀ s ∈ cols, s < V.ndof) :
      OpSpec V c d (.add rows cols B) D (fun r s => D r s + blockEntries rows cols b r s)

/-- dense semantics of a history -/
inductive RunSpec [AddCommMonoid α] (V : Vector) (c d : Nat → Nat → Nat) :
    List (Op α) → (Nat → Nat → α) → (Nat → Nat → α) → Prop where
  | nil {D} : RunSpec V c d [] D D
  | cons {op ops D D' D''} (h : OpSpec V c d op D D') (hs : RunSpec V c d ops D' D'') :
      RunSpec V c d (op :: ops) D D''

end SMatrix
end GF
